import Verif.Document.OutlineErase
/-
Outlines: what the calls do, what `InsertChild` checks, and what loading does.
-/
set_option autoImplicit false
namespace Pdfmm

/-! ### Specification -/

namespace Spec

/-- The item is there. -/
def LiveItem (h : OHeap) (x : Nat) : Prop := ∃ it, h.get x = some it

/-- The calls a user may make: children of any item, next items and erasing of any item but the root. -/
def OutlineCall (h : OHeap) (root : Nat) : OOp → Prop
  | .child p => LiveItem h p
  | .next s => LiveItem h s ∧ s ≠ root
  | .erase s => LiveItem h s ∧ s ≠ root

/-- The states of an outline created in memory, by calls on items that are there. -/
inductive OutlineState (root : Nat) : OHeap → Prop
  | new : OutlineState root (newOutlines root)
  | call {h h' : OHeap} {o : OOp} : OutlineState root h → OutlineCall h root o → o.run h = .ok h' → OutlineState root h'

/-- What a call should do to the children of the items: a new last child, a new item after another, an item and everything under it gone. -/
def OutlineEffect (h : OHeap) (ch : Nat → List Nat) (h' : OHeap) (ch' : Nat → List Nat) : OOp → Prop
  | .child p => (∀ x, ch' x = if x = p then ch p ++ [h.next] else ch x) ∧ ∀ x, LiveItem h' x ↔ LiveItem h x ∨ x = h.next
  | .next s => (∃ p A B, ch p = A ++ s :: B ∧ ∀ x, ch' x = if x = p then A ++ s :: h.next :: B else ch x) ∧
      ∀ x, LiveItem h' x ↔ LiveItem h x ∨ x = h.next
  | .erase s => (∀ x, ¬ Under ch s x → ch' x = (ch x).erase s) ∧ ∀ x, LiveItem h' x ↔ LiveItem h x ∧ ¬ Under ch s x

/-- Following pointers from an item to the end gives the list. -/
inductive Walk (step : Nat → Option Nat) : Option Nat → List Nat → Prop
  | done : Walk step none []
  | go {a : Nat} {l : List Nat} : Walk step (step a) l → Walk step (some a) (a :: l)

/-- `t` is what is loaded for a list of neighbours, the children of every item included; the constructor is nested `d` deep for it. -/
inductive LoadsAs (ch : Nat → List Nat) : List Nat → Option LItem → Nat → Prop
  | nil : LoadsAs ch [] none 0
  | cons {c : Nat} {R : List Nat} {a b : Option LItem} {d e : Nat} : LoadsAs ch (ch c) a d → LoadsAs ch R b e →
      LoadsAs ch (c :: R) (some (.mk c a b)) (max d e + 1)

end Spec
open Spec

/-! ### C51: the links -/

theorem Spec.IsOutline.new (n : Nat) : IsOutline (newOutlines n) n (fun _ => []) := by
  have hg : ∀ p it, (newOutlines n).get p = some it → p = n ∧ it = {} := by
    intro p it h
    simp only [newOutlines] at h
    by_cases e : p = n
    · rw [if_pos e] at h; cases h; exact ⟨e, rfl⟩
    · rw [if_neg e] at h; cases h
  refine ⟨⟨{}, by simp [newOutlines], rfl, rfl, rfl⟩, ?_, ?_, ?_, ?_, ?_, ?_, ?_⟩
  · intro p it h; obtain ⟨_, e⟩ := hg p it h; subst e; exact ⟨rfl, rfl⟩
  · intro p A c B h; cases A <;> cases h
  · intro p; exact List.nodup_nil
  · intro c it h hc; exact absurd (hg c it h).1 hc
  · intro p _; rfl
  · intro p it h; obtain ⟨_, e⟩ := hg p it h; subst e; exact ⟨rfl, rfl, rfl, rfl, rfl⟩
  · intro p it h; obtain ⟨e, _⟩ := hg p it h; subst e; exact Nat.lt_succ_self _

theorem live_of_new {h h' : OHeap} {root p : Nat} {ch ch' : Nat → List Nat} (o : IsOutline h root ch) (o' : IsOutline h' root ch') {A B : List Nat}
    (hp : ch p = A ++ B) (hch : ∀ x, ch' x = if x = p then A ++ h.next :: B else ch x) (x : Nat) : LiveItem h' x ↔ LiveItem h x ∨ x = h.next := by
  constructor
  · intro ⟨it, hx⟩
    by_cases e : x = root
    · obtain ⟨i, hi, _⟩ := o.top
      exact Or.inl ⟨i, e ▸ hi⟩
    · obtain ⟨q, hq⟩ := o'.up x it hx e
      rw [hch q] at hq
      by_cases e2 : q = p
      · rw [if_pos e2] at hq
        rcases List.mem_append.1 hq with hq | hq
        · obtain ⟨_, ⟨i, hi, _⟩, _⟩ := o.alive (p := p) (by rw [hp]; exact List.mem_append_left _ hq)
          exact Or.inl ⟨i, hi⟩
        · rcases List.mem_cons.1 hq with hq | hq
          · exact Or.inr hq
          · obtain ⟨_, ⟨i, hi, _⟩, _⟩ := o.alive (p := p) (by rw [hp]; exact List.mem_append_right _ hq)
            exact Or.inl ⟨i, hi⟩
      · rw [if_neg e2] at hq
        obtain ⟨_, ⟨i, hi, _⟩, _⟩ := o.alive hq
        exact Or.inl ⟨i, hi⟩
  · intro hx
    rcases hx with ⟨it, hx⟩ | hx
    · by_cases e : x = root
      · obtain ⟨i, hi, _⟩ := o'.top
        exact ⟨i, e ▸ hi⟩
      · obtain ⟨q, hq⟩ := o.up x it hx e
        have : x ∈ ch' q := by
          rw [hch q]
          by_cases e2 : q = p
          · rw [if_pos e2]
            rw [e2, hp] at hq
            rcases List.mem_append.1 hq with hq | hq
            · exact List.mem_append_left _ hq
            · exact List.mem_append_right _ (List.mem_cons_of_mem _ hq)
          · rw [if_neg e2]; exact hq
        obtain ⟨_, ⟨i, hi, _⟩, _⟩ := o'.alive this
        exact ⟨i, hi⟩
    · have : x ∈ ch' p := by rw [hch p, if_pos rfl, hx]; exact List.mem_append_right _ List.mem_cons_self
      obtain ⟨_, ⟨i, hi, _⟩, _⟩ := o'.alive this
      exact ⟨i, hi⟩

/-- Every call of `CreateChild`, `CreateNext` and `Erase` on an item that is there succeeds, does what it should and keeps all links and
dictionary keys of the outline right. -/
theorem C51_calls_partial {h : OHeap} {root : Nat} {ch : Nat → List Nat} (o : IsOutline h root ch) {c : OOp} (hc : OutlineCall h root c) :
    ∃ h' ch', c.run h = .ok h' ∧ IsOutline h' root ch' ∧ OutlineEffect h ch h' ch' c := by
  cases c with
  | child p =>
    obtain ⟨pt, hp⟩ := hc
    obtain ⟨h', e1, e2, e3⟩ := createChild_run o hp
    exact ⟨h', _, e1, e3, fun _ => rfl, live_of_new o e3 (A := ch p) (B := []) (by simp) (fun _ => rfl)⟩
  | next s =>
    obtain ⟨⟨st, hs⟩, hr⟩ := hc
    obtain ⟨p, hp⟩ := o.up s st hs hr
    obtain ⟨A, B, hp⟩ := List.append_of_mem hp
    obtain ⟨h', e1, e2, e3⟩ := createNext_run o hp
    exact ⟨h', _, e1, e3, ⟨p, A, B, hp, fun _ => rfl⟩,
      live_of_new o e3 (p := p) (A := A ++ [s]) (B := B) (by rw [hp]; simp) (fun x => by split <;> simp)⟩
  | erase s =>
    obtain ⟨⟨st, hs⟩, hr⟩ := hc
    obtain ⟨h', ch', e1, e2, e3, e4, e5⟩ := erase_run (N := h.next) h.next h.next h root s ch o rfl st hs hr (Nat.le_add_right _ _) (o.width s)
      ((h.next + 1) * (h.next + 1)) (by rw [Nat.succ_mul]; omega)
    exact ⟨h', ch', e1, e3, e4, e5⟩

/-- However an outline is changed by these calls, `First`, `Last`, `Next`, `Prev` and the parents of its items fit together, in memory and
in the dictionaries, and the next call succeeds.
Missing: outlines that were loaded, `InsertChild` and erasing of the root, for which this is false
(`C51_loaded_false`, `C51_insert_false`, `C51_insert_parent_false`, `C51_erase_root_false`). -/
theorem C51_links_partial {root : Nat} {h : OHeap} (s : OutlineState root h) :
    (∃ ch, IsOutline h root ch) ∧ ∀ c, OutlineCall h root c → ∃ h', c.run h = .ok h' := by
  have : ∃ ch, IsOutline h root ch := by
    induction s with
    | new => exact ⟨_, Spec.IsOutline.new root⟩
    | call _ hc hr ih =>
      obtain ⟨ch, o⟩ := ih
      obtain ⟨h', ch', e1, e2, _⟩ := C51_calls_partial o hc
      rw [hr] at e1; cases e1
      exact ⟨ch', e2⟩
  refine ⟨this, fun c hc => ?_⟩
  obtain ⟨ch, o⟩ := this
  obtain ⟨h', _, e1, _⟩ := C51_calls_partial o hc
  exact ⟨h', e1⟩

/-- Following `Next` from the first child of an item gives all its children in order, and following `Prev` from the last one gives them in
the other order; the same with the keys of the dictionaries. -/
theorem C51_walk_partial {h : OHeap} {root p : Nat} {ch : Nat → List Nat} (o : IsOutline h root ch) {it : OItem} (hp : h.get p = some it) :
    Walk (fun x => (h.get x).bind OItem.next) it.first (ch p) ∧ Walk (fun x => (h.get x).bind OItem.prev) it.last (ch p).reverse ∧
    Walk (fun x => (h.get x).bind OItem.kNext) it.kFirst (ch p) ∧ Walk (fun x => (h.get x).bind OItem.kPrev) it.kLast (ch p).reverse := by
  obtain ⟨e1, e2⟩ := o.ends p it hp
  obtain ⟨_, _, _, q4, q5⟩ := o.keys p it hp
  have fwd : ∀ B A, ch p = A ++ B → Walk (fun x => (h.get x).bind OItem.next) B.head? B ∧ Walk (fun x => (h.get x).bind OItem.kNext) B.head? B := by
    intro B
    induction B with
    | nil => intro _ _; exact ⟨Walk.done, Walk.done⟩
    | cons c B ih =>
      intro A hA
      obtain ⟨_, i, k2, _, _, k5⟩ := o.kid p A c B hA
      obtain ⟨i1, i2⟩ := ih (A ++ [c]) (by rw [hA]; simp)
      obtain ⟨_, _, q3, _, _⟩ := o.keys c i k2
      refine ⟨Walk.go ?_, Walk.go ?_⟩
      · show Walk _ ((h.get c).bind OItem.next) B
        rw [k2]; show Walk _ i.next B; rw [k5]; exact i1
      · show Walk _ ((h.get c).bind OItem.kNext) B
        rw [k2]; show Walk _ i.kNext B; rw [q3, k5]; exact i2
  have bwd : ∀ (A : List Nat) B, ch p = A.reverse ++ B →
      Walk (fun x => (h.get x).bind OItem.prev) A.head? A ∧ Walk (fun x => (h.get x).bind OItem.kPrev) A.head? A := by
    intro A
    induction A with
    | nil => intro _ _; exact ⟨Walk.done, Walk.done⟩
    | cons c A ih =>
      intro B hB
      obtain ⟨_, i, k2, _, k4, _⟩ := o.kid p A.reverse c B (by rw [hB]; simp)
      obtain ⟨i1, i2⟩ := ih (c :: B) (by rw [hB]; simp)
      obtain ⟨_, q2, _, _, _⟩ := o.keys c i k2
      rw [List.getLast?_reverse] at k4
      refine ⟨Walk.go ?_, Walk.go ?_⟩
      · show Walk _ ((h.get c).bind OItem.prev) A
        rw [k2]; show Walk _ i.prev A; rw [k4]; exact i1
      · show Walk _ ((h.get c).bind OItem.kPrev) A
        rw [k2]; show Walk _ i.kPrev A; rw [q2, k4]; exact i2
  obtain ⟨f1, f2⟩ := fwd (ch p) [] rfl
  obtain ⟨b1, b2⟩ := bwd (ch p).reverse [] (by simp)
  rw [List.head?_reverse] at b1 b2
  rw [q4, q5, e1, e2]
  exact ⟨f1, b1, f2, b2⟩

/-- Two chapters, a section in the first, then the first chapter is erased: a state to which the theorems apply. -/
def sampleOutline : Res OHeap := OOp.runAll (newOutlines 5) [.child 5, .next 6, .child 6, .child 6, .erase 6, .next 7]

example : ∃ h ch, OutlineState 5 h ∧ IsOutline h 5 ch ∧ ch 5 ≠ [] := by
  have s0 : OutlineState 5 (newOutlines 5) := OutlineState.new
  have o0 := Spec.IsOutline.new 5
  obtain ⟨h1, ch1, r1, o1, f1⟩ := C51_calls_partial o0 (c := .child 5) ⟨{}, by simp [newOutlines]⟩
  refine ⟨h1, ch1, OutlineState.call s0 (o := .child 5) ⟨{}, by simp [newOutlines]⟩ r1, o1, ?_⟩
  rw [f1.1 5]; simp

example : (sampleOutline.map fun h => (h.get 5).map fun i => (i.first, i.last)) = .ok (some (some 7, some 10)) := by rfl
example : (sampleOutline.map fun h => ((h.get 6), (h.get 8), (h.get 9))) = .ok (none, none, none) := by rfl

/-! ### Where the links do not fit together -/

/-- After loading, the item does not know its last child.  A child created then is not among those reached from the first child, for any
outline and any item that has children, while the key `Last` of the item names it. -/
theorem C51_loaded_false {h : OHeap} {root p : Nat} {ch : Nat → List Nat} (o : IsOutline h root ch) {it : OItem} (hp : h.get p = some it) (hk : ch p ≠ [])
    (hl : OHeap) (hload : ∀ x, hl.get x = (h.get x).map loadedOItem) (hn : hl.next = h.next) :
    ∃ h', createChild hl p = .ok h' ∧ ∃ it', h'.get p = some it' ∧ it'.kLast = some h.next ∧ it'.last = some h.next ∧ h.next ∉ ch p ∧
      Walk (fun x => (h'.get x).bind OItem.next) it'.first (ch p) ∧ Walk (fun x => (h'.get x).bind OItem.kNext) it'.kFirst (ch p) := by
  have hpn := o.lt _ _ hp
  obtain ⟨c, R, hc⟩ : ∃ c R, ch p = c :: R := by
    cases e : ch p with
    | nil => exact absurd e hk
    | cons c R => exact ⟨c, R, rfl⟩
  have hf : it.first = some c := by rw [(o.ends _ _ hp).1, hc]; rfl
  have hlp : hl.get p = some (loadedOItem it) := by rw [hload p, hp]; rfl
  have hcp : (hl.create (some p)).get p = some (loadedOItem it) := by rw [get_ocreate, if_neg (by omega), hlp]
  have hmem : ∀ x ∈ ch p, x < h.next ∧ p < x := by
    intro x hx
    obtain ⟨_, ⟨i, hi, _⟩, hlt⟩ := o.alive hx
    exact ⟨o.lt _ _ hi, hlt⟩
  refine ⟨(hl.create (some p)).set p { loadedOItem it with last := some hl.next, first := some c, kFirst := some c, kLast := some hl.next }, ?_,
    { loadedOItem it with last := some hl.next, first := some c, kFirst := some c, kLast := some hl.next }, ?_, ?_, ?_, ?_, ?_, ?_⟩
  · simp only [createChild, appendItem]
    rw [hcp]
    dsimp only [loadedOItem]
    rw [setEnds, upd_eq hcp]
    dsimp only [loadedOItem]
    rw [hf]
    rfl
  · rw [get_oset, if_pos rfl]
  · rw [hn]
  · rw [hn]
  · intro hm; have := (hmem _ hm).1; omega
  · obtain ⟨w, _⟩ := C51_walk_partial o hp
    rw [hf] at w
    have key : ∀ s l, Walk (fun x => (h.get x).bind OItem.next) s l → (∀ x ∈ l, x ∈ ch p) →
        Walk (fun x => (((hl.create (some p)).set p { loadedOItem it with last := some hl.next, first := some c, kFirst := some c, kLast := some hl.next }).get x).bind
          OItem.next) s l := by
      intro s l w
      induction w with
      | done => intro _; exact Walk.done
      | @go a l w ih =>
        intro hm
        have ha := hmem a (hm a List.mem_cons_self)
        refine Walk.go ?_
        have : (((hl.create (some p)).set p { loadedOItem it with last := some hl.next, first := some c, kFirst := some c, kLast := some hl.next }).get a).bind
            OItem.next = (h.get a).bind OItem.next := by
          rw [get_oset, if_neg (by omega), get_ocreate, if_neg (by omega), hload]
          cases h.get a <;> rfl
        show Walk _ _ l
        rw [this]
        exact ih (fun x hx => hm x (List.mem_cons_of_mem _ hx))
    exact key _ _ w (fun x hx => hx)
  · obtain ⟨_, _, w, _⟩ := C51_walk_partial o hp
    rw [(o.keys _ _ hp).2.2.2.1, hf] at w
    have key : ∀ s l, Walk (fun x => (h.get x).bind OItem.kNext) s l → (∀ x ∈ l, x ∈ ch p) →
        Walk (fun x => (((hl.create (some p)).set p { loadedOItem it with last := some hl.next, first := some c, kFirst := some c, kLast := some hl.next }).get x).bind
          OItem.kNext) s l := by
      intro s l w
      induction w with
      | done => intro _; exact Walk.done
      | @go a l w ih =>
        intro hm
        have ha := hmem a (hm a List.mem_cons_self)
        refine Walk.go ?_
        have : (((hl.create (some p)).set p { loadedOItem it with last := some hl.next, first := some c, kFirst := some c, kLast := some hl.next }).get a).bind
            OItem.kNext = (h.get a).bind OItem.kNext := by
          rw [get_oset, if_neg (by omega), get_ocreate, if_neg (by omega), hload]
          cases h.get a <;> rfl
        show Walk _ _ l
        rw [this]
        exact ih (fun x hx => hm x (List.mem_cons_of_mem _ hx))
    exact key _ _ w (fun x hx => hx)

/-- An outline with a child, as `C51_loaded_false` asks for. -/
example : ∃ h ch it, IsOutline h 5 ch ∧ h.get 5 = some it ∧ ch 5 ≠ [] := by
  obtain ⟨h1, ch1, r1, o1, f1⟩ := C51_calls_partial (Spec.IsOutline.new 5) (c := .child 5) ⟨{}, by simp [newOutlines]⟩
  obtain ⟨it, hi, _⟩ := o1.top
  exact ⟨h1, ch1, it, o1, hi, by rw [f1.1 5]; simp⟩

/-- Erasing the root leaves the document with a pointer to an item that is gone, for an outline without items. -/
theorem C51_erase_root_false (n : Nat) :
    ∃ h', (OOp.erase n).run (newOutlines n) = .ok h' ∧ h'.get n = none ∧ (OOp.child n).run h' = .error .ub := by
  refine ⟨(newOutlines n).free n, ?_, by simp [OHeap.free], ?_⟩
  · have hg : (newOutlines n).get n = some {} := by simp [newOutlines]
    obtain ⟨f, hf⟩ : ∃ f, ((newOutlines n).next + 1) * ((newOutlines n).next + 1) = f + 1 := ⟨_, by
      show (n + 1 + 1) * (n + 1 + 1) = ((n + 1 + 1) * (n + 1) + (n + 1)) + 1
      rw [Nat.mul_succ]; omega⟩
    show eraseItem _ _ _ = _
    rw [hf, eraseItem, hg]
    rfl
  · have hg : (((newOutlines n).free n).create (some n)).get n = none := by
      rw [get_ocreate, if_neg (by show n ≠ n + 1; omega)]
      simp [OHeap.free]
    show createChild _ _ = _
    rw [createChild, appendItem, hg]

/-! ### C52: `InsertChild` -/

/-- `InsertChild` never says that the item is already present, whatever the items are. -/
theorem C52_never_raised_false (h : OHeap) (this item : Nat) : insertChild h this item ≠ raise .OutlineItemAlreadyPresent := by
  have hcheck : ∀ e, checkLoop h this item 3 none none (some item) = .error e → ∃ e', topOf h (h.next + 1) item = .error e' ∧ e = e' := by
    intro e he
    simp only [checkLoop] at he
    cases ht : topOf h (h.next + 1) item with
    | error e' => rw [ht] at he; cases he; exact ⟨_, rfl, rfl⟩
    | ok t =>
      rw [ht] at he
      dsimp only at he
      split at he <;> cases he
  have htop : ∀ f r, topOf h f r ≠ raise .OutlineItemAlreadyPresent := by
    intro f
    induction f with
    | zero => intro r e; cases e
    | succ f ih =>
      intro r e
      rw [topOf] at e
      cases hg : h.get r with
      | none => rw [hg] at e; cases e
      | some it =>
        rw [hg] at e
        dsimp only at e
        cases hp : it.parent with
        | none => rw [hp] at e; cases e
        | some p => rw [hp] at e; exact ih p e
  have hlink : ∀ (h : OHeap) r x f, h.link r x f ≠ raise .OutlineItemAlreadyPresent := by
    intro h r x f e
    rw [OHeap.link] at e
    split at e
    · rw [OHeap.upd] at e
      split at e <;> cases e
    · cases e
  have hends : ∀ (h : OHeap) p i, setEnds h p i ≠ raise .OutlineItemAlreadyPresent := by
    intro h p i e
    rw [setEnds, OHeap.upd] at e
    split at e <;> cases e
  intro e
  rw [insertChild] at e
  cases hc : checkLoop h this item 3 none none (some item) with
  | error x =>
    obtain ⟨e', h1, h2⟩ := hcheck x hc
    rw [hc] at e
    have : x = .error .OutlineItemAlreadyPresent := by cases e; rfl
    exact htop _ _ (by rw [h1, ← h2, this])
  | ok rr =>
    obtain ⟨root, rootOfThis⟩ := rr
    rw [hc] at e
    dsimp only at e
    have hne : root ≠ rootOfThis := by
      simp only [checkLoop] at hc
      cases ht : topOf h (h.next + 1) item with
      | error e' => rw [ht] at hc; cases hc
      | ok t =>
        rw [ht] at hc
        dsimp only at hc
        split at hc <;> cases hc <;> (intro x; cases x)
    rw [if_neg hne, appendItem] at e
    split at e
    · cases e
    · split at e
      · exact hends _ _ _ e
      · split at e
        · next he => cases e; exact hlink _ _ _ _ he
        · split at e
          · next he => cases e; exact hlink _ _ _ _ he
          · exact hends _ _ _ e

/-- In every outline created in memory: inserting a second time the first child of an item that has others as well is accepted, and the
children can no longer be walked: the item after the last one is the first one. -/
theorem C51_insert_false {h : OHeap} {root p a l : Nat} {ch : Nat → List Nat} {M : List Nat} (o : IsOutline h root ch) (hp : ch p = a :: (M ++ [l])) :
    ∃ h', insertChild h p a = .ok h' ∧ ∃ it lt, h'.get p = some it ∧ it.first = some a ∧ it.last = some a ∧ h'.get l = some lt ∧ lt.next = some a := by
  have ham : a ∈ ch p := by rw [hp]; simp
  have hlm : l ∈ ch p := by rw [hp]; simp
  obtain ⟨⟨pt, hpt⟩, ⟨at', hat, hapar⟩, hpa⟩ := o.alive ham
  obtain ⟨_, ⟨lt, hlt, hlpar⟩, hpl⟩ := o.alive hlm
  have hal : a ≠ l := by
    intro e
    have := o.nodup p
    rw [hp, e] at this
    exact (List.nodup_cons.1 this).1 (by simp)
  -- the climb ends
  have htop : ∀ f x, x < f → ∀ it, h.get x = some it → ∃ t, topOf h f x = .ok t ∧ (it.parent ≠ none → t ≠ x ∧ t < x) ∧ t ≤ x := by
    intro f
    induction f with
    | zero => intro x hx; omega
    | succ f ih =>
      intro x hx it hi
      rw [topOf, hi]
      dsimp only
      cases hpar : it.parent with
      | none => exact ⟨x, rfl, fun h => absurd rfl h, Nat.le_refl _⟩
      | some q =>
        have hxr : x ≠ root := by
          intro e
          obtain ⟨i, t1, t2, _⟩ := o.top
          rw [e, t1] at hi; cases hi; rw [t2] at hpar; cases hpar
        obtain ⟨q', hq'⟩ := o.up x it hi hxr
        obtain ⟨⟨qt, hqt⟩, ⟨i, hi', hi2⟩, hlt⟩ := o.alive hq'
        rw [hi] at hi'; cases hi'
        rw [hpar] at hi2; cases hi2
        obtain ⟨t, ht, _, htle⟩ := ih q (by omega) qt hqt
        exact ⟨t, ht, fun _ => ⟨by omega, by omega⟩, by omega⟩
  obtain ⟨t, ht, htne, _⟩ := htop (h.next + 1) a (by have := o.lt _ _ hat; omega) at' hat
  have hta : t ≠ a := (htne (by rw [hapar]; exact fun h => by cases h)).1
  have hcheck : checkLoop h p a 3 none none (some a) = .ok (none, some t) := by
    simp only [checkLoop]
    rw [ht]
    dsimp only
    rw [if_neg hta]
  obtain ⟨en1, en2⟩ := o.ends p pt hpt
  have en2 : pt.last = some l := by rw [en2, hp]; rw [← List.cons_append, List.getLast?_append]; rfl
  have en1 : pt.first = some a := by rw [en1, hp]; rfl
  obtain ⟨h1, eh1⟩ : ∃ x, x = h.set l { lt with next := some a, kNext := some a } := ⟨_, rfl⟩
  have s1 : h.setNext l (some a) = .ok h1 := by rw [eh1]; exact link_eq hlt (fun y hy => by cases hy; exact ⟨_, hat⟩) _
  have g1a : h1.get a = some at' := by rw [eh1, get_oset, if_neg hal, hat]
  have g1l : h1.get l = some { lt with next := some a, kNext := some a } := by rw [eh1, get_oset, if_pos rfl]
  obtain ⟨h2, eh2⟩ : ∃ x, x = h1.set a { at' with prev := some l, kPrev := some l } := ⟨_, rfl⟩
  have s2 : h1.setPrev a (some l) = .ok h2 := by rw [eh2]; exact link_eq g1a (fun y hy => by cases hy; exact ⟨_, g1l⟩) _
  have g2p : h2.get p = some pt := by rw [eh2, get_oset, if_neg (by omega), eh1, get_oset, if_neg (by omega), hpt]
  refine ⟨h2.set p { pt with last := some a, first := some a, kFirst := some a, kLast := some a }, ?_,
    { pt with last := some a, first := some a, kFirst := some a, kLast := some a }, { lt with next := some a, kNext := some a }, ?_, rfl, rfl, ?_, rfl⟩
  · rw [insertChild, hcheck]
    dsimp only
    rw [if_neg (fun h => by cases h), appendItem, hpt]
    dsimp only
    rw [en2]
    dsimp only
    rw [s1]
    dsimp only
    rw [s2]
    dsimp only
    rw [setEnds, upd_eq g2p, en1]
    rfl
  · rw [get_oset, if_pos rfl]
  · rw [get_oset, if_neg (by omega), eh2, get_oset, if_neg (fun h => hal h.symm), g1l]

/-- Two chapters. -/
example : ∃ h ch, IsOutline h 5 ch ∧ ch 5 = 6 :: ([] ++ [7]) := by
  obtain ⟨h1, ch1, r1, o1, f1⟩ := C51_calls_partial (Spec.IsOutline.new 5) (c := .child 5) ⟨{}, by simp [newOutlines]⟩
  obtain ⟨h2, ch2, r2, o2, f2⟩ := C51_calls_partial o1 (c := .child 5) (by obtain ⟨i, hi, _⟩ := o1.top; exact ⟨i, hi⟩)
  refine ⟨h2, ch2, o2, ?_⟩
  rw [f2.1 5, f1.1 5]
  have : h1.next = 7 := by
    have : createChild (newOutlines 5) 5 = .ok h1 := r1
    obtain ⟨h', e1, e2, _⟩ := createChild_run (Spec.IsOutline.new 5) (p := 5) (pt := {}) (by simp [newOutlines])
    rw [this] at e1; cases e1
    rw [e2]; rfl
  rw [this]
  rfl

theorem upd_parent {h h' : OHeap} {r : Nat} {f : OItem → OItem} (hf : ∀ i, (f i).parent = i.parent ∧ (f i).kParent = i.kParent) (e : h.upd r f = .ok h')
    (x : Nat) : (h'.get x).map (fun i => (i.parent, i.kParent)) = (h.get x).map (fun i => (i.parent, i.kParent)) := by
  rw [OHeap.upd] at e
  cases hr : h.get r with
  | none => rw [hr] at e; cases e
  | some it =>
    rw [hr] at e
    cases e
    rw [get_oset]
    by_cases hx : x = r
    · rw [if_pos hx, hx, hr]
      simp only [Option.map_some]
      rw [(hf it).1, (hf it).2]
    · rw [if_neg hx]

theorem link_parent {h h' : OHeap} {r : Nat} {y : Option Nat} {f : OItem → OItem} (hf : ∀ i, (f i).parent = i.parent ∧ (f i).kParent = i.kParent)
    (e : h.link r y f = .ok h') (x : Nat) :
    (h'.get x).map (fun i => (i.parent, i.kParent)) = (h.get x).map (fun i => (i.parent, i.kParent)) := by
  rw [OHeap.link] at e
  split at e
  · exact upd_parent hf e x
  · cases e

theorem ends_parent {h h' : OHeap} {p item : Nat} (e : setEnds h p item = .ok h') (x : Nat) :
    (h'.get x).map (fun i => (i.parent, i.kParent)) = (h.get x).map (fun i => (i.parent, i.kParent)) := by
  rw [setEnds] at e
  refine upd_parent ?_ e x
  intro i
  exact ⟨rfl, rfl⟩

theorem next_parent {h h' : OHeap} {p : Nat} {item : Option Nat} (e : h.setNext p item = .ok h') (x : Nat) :
    (h'.get x).map (fun i => (i.parent, i.kParent)) = (h.get x).map (fun i => (i.parent, i.kParent)) := by
  rw [OHeap.setNext] at e
  refine link_parent ?_ e x
  intro i
  exact ⟨rfl, rfl⟩

theorem prev_parent {h h' : OHeap} {p : Nat} {item : Option Nat} (e : h.setPrev p item = .ok h') (x : Nat) :
    (h'.get x).map (fun i => (i.parent, i.kParent)) = (h.get x).map (fun i => (i.parent, i.kParent)) := by
  rw [OHeap.setPrev] at e
  refine link_parent ?_ e x
  intro i
  exact ⟨rfl, rfl⟩

/-- `InsertChild` gives no item a parent, also when it is used as it should be, with an item of another tree: an item without one stays
without one, in memory and in its dictionary, and the item inserted is therefore not linked to the one it was inserted into. -/
theorem C51_insert_parent_false {h h' : OHeap} {this item : Nat} (e : insertChild h this item = .ok h') (x : Nat) :
    (h'.get x).map (fun i => (i.parent, i.kParent)) = (h.get x).map (fun i => (i.parent, i.kParent)) := by
  rw [insertChild] at e
  split at e
  · cases e
  · split at e
    · cases e
    · rw [appendItem] at e
      split at e
      · cases e
      · split at e
        · exact ends_parent e x
        · split at e
          · cases e
          · next h1 he1 =>
            split at e
            · cases e
            · next h2 he2 =>
              rw [ends_parent e x, prev_parent he2 x, next_parent he1 x]

/-- Two outlines, of which the second is put into the first. -/
example : ∃ h', insertChild ⟨fun x => if x = 5 ∨ x = 6 then some {} else none, 7⟩ 5 6 = .ok h' ∧ (h'.get 6).map OItem.parent = some none ∧
    (h'.get 5).map OItem.first = some (some 6) := ⟨_, rfl, rfl, rfl⟩

/-! ### C106: loading what was saved -/

theorem loads_exist {h : OHeap} {root : Nat} {ch : Nat → List Nat} (o : IsOutline h root ch) (m : Nat) :
    ∀ L : List Nat, (∀ x ∈ L, h.next ≤ m + x) → ∃ t d, LoadsAs ch L t d := by
  induction m with
  | zero =>
    intro L
    induction L with
    | nil => intro _; exact ⟨_, _, LoadsAs.nil⟩
    | cons c R ih =>
      intro hm
      obtain ⟨t, d, w⟩ := ih (fun x hx => hm x (List.mem_cons_of_mem _ hx))
      have : ch c = [] := by
        have hc := hm c List.mem_cons_self
        apply o.dead
        cases hg : h.get c with
        | none => rfl
        | some i => have := o.lt _ _ hg; omega
      exact ⟨_, _, LoadsAs.cons (by rw [this]; exact LoadsAs.nil) w⟩
  | succ m ihm =>
    intro L
    induction L with
    | nil => intro _; exact ⟨_, _, LoadsAs.nil⟩
    | cons c R ih =>
      intro hm
      obtain ⟨t, d, w⟩ := ih (fun x hx => hm x (List.mem_cons_of_mem _ hx))
      have hc := hm c List.mem_cons_self
      obtain ⟨t', d', w'⟩ := ihm (ch c) (fun x hx => by have := (o.alive hx).2.2; omega)
      exact ⟨_, _, LoadsAs.cons w' w⟩

theorem load_list {h : OHeap} {root : Nat} {ch : Nat → List Nat} (o : IsOutline h root ch) {L : List Nat} {t : Option LItem} {d : Nat} (w : LoadsAs ch L t d) :
    ∀ c R, L = c :: R → ∀ it, h.get c = some it → it.next = R.head? → (∀ A x B, R = A ++ x :: B → ∃ i, h.get x = some i ∧ i.next = B.head?) →
    ∀ g, (d ≤ g → ∃ t', t = some t' ∧ loadItem (savedKeys h) g c = .ok t') ∧ (g < d → loadItem (savedKeys h) g c = raise .InvalidXRef) := by
  induction w with
  | nil => intro c R e; cases e
  | @cons c R a b d e wa wb iha ihb =>
    intro c' R' he it hit hnext hsib g
    cases he
    obtain ⟨_, _, q3, q4, _⟩ := o.keys _ _ hit
    have hk : savedKeys h c = some ((ch c).head?, R.head?) := by
      rw [savedKeys, hit]
      show some (it.kFirst, it.kNext) = _
      rw [q3, q4, (o.ends _ _ hit).1, hnext]
    cases g with
    | zero => exact ⟨fun h => absurd h (by omega), fun _ => rfl⟩
    | succ g =>
      -- the children
      have kids : ∀ f F, ch c = f :: F → (d ≤ g → ∃ t', a = some t' ∧ loadItem (savedKeys h) g f = .ok t') ∧
          (g < d → loadItem (savedKeys h) g f = raise .InvalidXRef) := by
        intro f F hf
        obtain ⟨_, ft, hft, _, _, hfn⟩ := o.kid c [] f F hf
        refine iha f F hf ft hft hfn (fun A x B hx => ?_) g
        obtain ⟨_, xt, hxt, _, _, hxn⟩ := o.kid c (f :: A) x B (by rw [hf, hx]; rfl)
        exact ⟨xt, hxt, hxn⟩
      have sibs : ∀ n N, R = n :: N → (e ≤ g → ∃ t', b = some t' ∧ loadItem (savedKeys h) g n = .ok t') ∧
          (g < e → loadItem (savedKeys h) g n = raise .InvalidXRef) := by
        intro n N hn
        obtain ⟨nt, hnt, hnn⟩ := hsib [] n N hn
        refine ihb n N hn nt hnt hnn (fun A x B hx => ?_) g
        exact hsib (n :: A) x B (by rw [hn, hx]; rfl)
      rw [loadItem, hk]
      cases hc : ch c with
      | nil =>
        rw [hc] at wa
        cases wa
        cases hR : R with
        | nil =>
          rw [hR] at wb
          cases wb
          exact ⟨fun _ => ⟨_, rfl, rfl⟩, fun h => absurd h (by simp)⟩
        | cons n N =>
          obtain ⟨s1, s2⟩ := sibs n N hR
          refine ⟨fun hd => ?_, fun hd => ?_⟩
          · obtain ⟨t', e1, e2⟩ := s1 (by omega)
            refine ⟨_, rfl, ?_⟩
            show (match loadItem (savedKeys h) g n with
              | .error e => .error e
              | .ok b => .ok (.mk c none (some b)) : Res LItem) = _
            rw [e2, e1]
          · show (match loadItem (savedKeys h) g n with
              | .error e => .error e
              | .ok b => .ok (.mk c none (some b)) : Res LItem) = _
            rw [s2 (by omega)]
      | cons f F =>
        obtain ⟨k1, k2⟩ := kids f F hc
        cases hR : R with
        | nil =>
          rw [hR] at wb
          cases wb
          refine ⟨fun hd => ?_, fun hd => ?_⟩
          · obtain ⟨t', e1, e2⟩ := k1 (by omega)
            refine ⟨_, rfl, ?_⟩
            show (match loadItem (savedKeys h) g f with
              | .error e => .error e
              | .ok a => .ok (.mk c (some a) none) : Res LItem) = _
            rw [e2, e1]
          · show (match loadItem (savedKeys h) g f with
              | .error e => .error e
              | .ok a => .ok (.mk c (some a) none) : Res LItem) = _
            rw [k2 (by omega)]
        | cons n N =>
          obtain ⟨s1, s2⟩ := sibs n N hR
          refine ⟨fun hd => ?_, fun hd => ?_⟩
          · obtain ⟨t1, e1, e2⟩ := k1 (by omega)
            obtain ⟨t2, e3, e4⟩ := s1 (by omega)
            refine ⟨_, rfl, ?_⟩
            show (match loadItem (savedKeys h) g f with
              | .error e => .error e
              | .ok a =>
                match loadItem (savedKeys h) g n with
                | .error e => .error e
                | .ok b => .ok (.mk c (some a) (some b)) : Res LItem) = _
            rw [e2]
            dsimp only
            rw [e4, e1, e3]
          · show (match loadItem (savedKeys h) g f with
              | .error e => .error e
              | .ok a =>
                match loadItem (savedKeys h) g n with
                | .error e => .error e
                | .ok b => .ok (.mk c (some a) (some b)) : Res LItem) = _
            by_cases hdg : g < d
            · rw [k2 hdg]
            · obtain ⟨t1, e1, e2⟩ := k1 (by omega)
              rw [e2]
              dsimp only
              rw [s2 (by omega)]

/-- An outline that was saved is loaded again with all its items in place if no item is further than the limit of the recursion guard from
the root, counting the steps to a first child and to a next item.  Otherwise loading fails.
Missing: outlines beyond that, see `C106_many_chapters_false`. -/
theorem C106_reload_partial {h : OHeap} {root : Nat} {ch : Nat → List Nat} (o : IsOutline h root ch) :
    ∃ t d, LoadsAs ch [root] (some t) d ∧ ∀ limit, loadItem (savedKeys h) limit root = if d ≤ limit then .ok t else raise .InvalidXRef := by
  obtain ⟨t, d, w⟩ := loads_exist o h.next [root] (fun x _ => Nat.le_add_right _ _)
  obtain ⟨it, t1, _, _, t4⟩ := o.top
  have key := load_list o w root [] rfl it t1 t4 (fun A x B e => by cases A <;> cases e)
  have ht : ∃ t', t = some t' := by
    obtain ⟨t', e, _⟩ := (key d).1 (Nat.le_refl _)
    exact ⟨t', e⟩
  obtain ⟨t', ht⟩ := ht
  subst ht
  refine ⟨t', d, w, fun limit => ?_⟩
  obtain ⟨k1, k2⟩ := key limit
  by_cases hd : d ≤ limit
  · rw [if_pos hd]
    obtain ⟨x, e1, e2⟩ := k1 hd
    cases e1
    exact e2
  · rw [if_neg hd]
    exact k2 (by omega)

theorem loads_depth {ch : Nat → List Nat} {L : List Nat} {t : Option LItem} {d : Nat} (w : LoadsAs ch L t d) : L.length ≤ d := by
  induction w with
  | nil => exact Nat.le_refl _
  | cons _ _ _ ihb => rw [List.length_cons]; omega

/-- An outline with 256 or more items at the top level cannot be loaded again, and with it the document, because the constructor calls itself for
the next item. -/
theorem C106_many_chapters_false {h : OHeap} {root : Nat} {ch : Nat → List Nat} (o : IsOutline h root ch) (hmany : 256 ≤ (ch root).length) :
    loadItem (savedKeys h) 256 root = raise .InvalidXRef := by
  obtain ⟨t, d, w, e⟩ := C106_reload_partial o
  rw [e 256, if_neg]
  cases w with
  | cons wa wb =>
    have := loads_depth wa
    omega

/-- Such outlines there are. -/
theorem outline_of_length (n k : Nat) : ∃ h ch, OutlineState n h ∧ IsOutline h n ch ∧ (ch n).length = k := by
  induction k with
  | zero => exact ⟨_, _, OutlineState.new, Spec.IsOutline.new n, rfl⟩
  | succ k ih =>
    obtain ⟨h, ch, s, o, e⟩ := ih
    have hc : OutlineCall h n (.child n) := by obtain ⟨i, hi, _⟩ := o.top; exact ⟨i, hi⟩
    obtain ⟨h', ch', r, o', f⟩ := C51_calls_partial o hc
    refine ⟨h', ch', OutlineState.call s hc r, o', ?_⟩
    rw [f.1 n, if_pos rfl, List.length_append, e]; rfl

example : ∃ h ch, IsOutline h 5 ch ∧ 256 ≤ (ch 5).length := by
  obtain ⟨h, ch, _, o, e⟩ := outline_of_length 5 300
  exact ⟨h, ch, o, by omega⟩

/-- Two chapters and a section in the first are loaded. -/
example : ((OOp.runAll (newOutlines 5) [.child 5, .child 5, .child 6]).map fun h => loadItem (savedKeys h) 256 5) =
    .ok (.ok (.mk 5 (some (.mk 6 (some (.mk 8 none none)) (some (.mk 7 none none)))) none)) := by rfl

end Pdfmm
