import Verif.Document.OutlineModel
/-
Outlines stay consistent.
-/
set_option autoImplicit false
namespace Pdfmm

/-! ### Specification -/

namespace Spec

/-- The items are those of an outline with the given root in which `ch` gives the children of every item, in order: the pointers of every item
say the same as `ch`, and so do the keys of its dictionary. -/
structure IsOutline (h : OHeap) (root : Nat) (ch : Nat → List Nat) : Prop where
  /-- The root has no parent and no neighbours. -/
  top : ∃ it, h.get root = some it ∧ it.parent = none ∧ it.prev = none ∧ it.next = none
  /-- `First` and `Last` are the first and the last child. -/
  ends : ∀ p it, h.get p = some it → it.first = (ch p).head? ∧ it.last = (ch p).getLast?
  /-- A child between the children `A` and `B` has the last of `A` before it and the first of `B` after it.  It was created after its
  parent. -/
  kid : ∀ p A c B, ch p = A ++ c :: B → p < c ∧ ∃ it, h.get c = some it ∧ it.parent = some p ∧ it.prev = A.getLast? ∧ it.next = B.head?
  /-- No child is there twice. -/
  nodup : ∀ p, (ch p).Nodup
  /-- Every other item is the child of some item. -/
  up : ∀ c it, h.get c = some it → c ≠ root → ∃ p, c ∈ ch p
  /-- What is no item has no children. -/
  dead : ∀ p, h.get p = none → ch p = []
  /-- The keys of the dictionary name the same items as the pointers. -/
  keys : ∀ p it, h.get p = some it → it.kParent = it.parent ∧ it.kPrev = it.prev ∧ it.kNext = it.next ∧ it.kFirst = it.first ∧ it.kLast = it.last
  /-- Numbers not given out are no items. -/
  lt : ∀ p it, h.get p = some it → p < h.next

/-- The item `x` is `r` or below it. -/
inductive Under (ch : Nat → List Nat) (r : Nat) : Nat → Prop
  | refl : Under ch r r
  | step {y x : Nat} : Under ch r y → x ∈ ch y → Under ch r x

end Spec
open Spec

/-! ### Lists -/

theorem split_mid {α : Type} {A M B A' B' : List α} {c : α} (h : A ++ (M ++ B) = A' ++ c :: B') :
    (∃ A2, A = A' ++ c :: A2 ∧ B' = A2 ++ (M ++ B)) ∨ (∃ M1 M2, M = M1 ++ c :: M2 ∧ A' = A ++ M1 ∧ B' = M2 ++ B) ∨
    (∃ B1, B = B1 ++ c :: B' ∧ A' = A ++ (M ++ B1)) := by
  rcases List.append_eq_append_iff.1 h with ⟨X, h1, h2⟩ | ⟨X, h1, h2⟩
  · rcases List.append_eq_append_iff.1 h2 with ⟨Y, h3, h4⟩ | ⟨Y, h3, h4⟩
    · exact Or.inr (Or.inr ⟨Y, h4, by rw [h1, h3]⟩)
    · cases Y with
      | nil => exact Or.inr (Or.inr ⟨[], h4.symm, by rw [h1, h3]; simp⟩)
      | cons y Y =>
        obtain ⟨e1, e2⟩ := List.cons.inj h4
        subst e1
        exact Or.inr (Or.inl ⟨X, Y, h3, h1, e2⟩)
  · cases X with
    | nil =>
      rw [List.append_nil] at h1
      have h2 : c :: B' = M ++ B := h2
      cases M with
      | nil => exact Or.inr (Or.inr ⟨[], h2.symm, by rw [h1]; simp⟩)
      | cons m M =>
        obtain ⟨e1, e2⟩ := List.cons.inj h2
        subst e1
        exact Or.inr (Or.inl ⟨[], M, rfl, by rw [h1]; simp, e2⟩)
    | cons x X =>
      obtain ⟨e1, e2⟩ := List.cons.inj h2
      subst e1
      exact Or.inl ⟨X, h1, e2⟩

theorem get_oset (h : OHeap) (r : Nat) (it : OItem) (x : Nat) : (h.set r it).get x = if x = r then some it else h.get x := rfl
theorem next_oset (h : OHeap) (r : Nat) (it : OItem) : (h.set r it).next = h.next := rfl
theorem get_ocreate (h : OHeap) (p : Option Nat) (x : Nat) :
    (h.create p).get x = if x = h.next then some { parent := p, kParent := p } else h.get x := rfl
theorem next_ocreate (h : OHeap) (p : Option Nat) : (h.create p).next = h.next + 1 := rfl

theorem upd_eq {h : OHeap} {r : Nat} {it : OItem} (hr : h.get r = some it) (f : OItem → OItem) : h.upd r f = .ok (h.set r (f it)) := by
  rw [OHeap.upd, hr]

theorem link_eq {h : OHeap} {r : Nat} {it : OItem} (hr : h.get r = some it) {x : Option Nat} (hx : ∀ y, x = some y → ∃ i, h.get y = some i)
    (f : OItem → OItem) : h.link r x f = .ok (h.set r (f it)) := by
  rw [OHeap.link, if_pos, upd_eq hr]
  cases x with
  | none => rfl
  | some y => obtain ⟨i, hi⟩ := hx y rfl; simp [hi]

/-! ### A new item between two others -/

theorem Spec.IsOutline.alive {h : OHeap} {root : Nat} {ch : Nat → List Nat} (o : IsOutline h root ch) {p c : Nat} (hc : c ∈ ch p) :
    (∃ it, h.get p = some it) ∧ (∃ it, h.get c = some it ∧ it.parent = some p) ∧ p < c := by
  refine ⟨?_, ?_⟩
  · cases hp : h.get p with
    | none => rw [o.dead p hp] at hc; cases hc
    | some it => exact ⟨it, rfl⟩
  · obtain ⟨A, B, e⟩ := List.append_of_mem hc
    obtain ⟨h1, it, h2, h3, _⟩ := o.kid p A c B e
    exact ⟨⟨it, h2, h3⟩, h1⟩

theorem Spec.IsOutline.parent_eq {h : OHeap} {root : Nat} {ch : Nat → List Nat} (o : IsOutline h root ch) {p q c : Nat} (hp : c ∈ ch p) (hq : c ∈ ch q) :
    p = q := by
  obtain ⟨_, ⟨i, hi, hi2⟩, _⟩ := o.alive hp
  obtain ⟨_, ⟨j, hj, hj2⟩, _⟩ := o.alive hq
  rw [hi] at hj; cases hj
  rw [hi2] at hj2; cases hj2; rfl

/-- What a new item `n` between the children `A` and `B` of `p` changes in another item `x`. -/
def insChange (p n : Nat) (A B : List Nat) (x : Nat) (it : OItem) : OItem :=
  { parent := it.parent
    kParent := it.kParent
    next := if A.getLast? = some x then some n else it.next
    kNext := if A.getLast? = some x then some n else it.kNext
    prev := if B.head? = some x then some n else it.prev
    kPrev := if B.head? = some x then some n else it.kPrev
    first := if x = p then (A ++ n :: B).head? else it.first
    kFirst := if x = p then (A ++ n :: B).head? else it.kFirst
    last := if x = p then (A ++ n :: B).getLast? else it.last
    kLast := if x = p then (A ++ n :: B).getLast? else it.kLast }

theorem insert_outline {h h' : OHeap} {root p : Nat} {ch : Nat → List Nat} (o : IsOutline h root ch) {A B : List Nat} (hp : ch p = A ++ B)
    {pt : OItem} (hlive : h.get p = some pt) (hn : h'.next = h.next + 1)
    (hnew : h'.get h.next = some ⟨some p, A.getLast?, B.head?, none, none, some p, A.getLast?, B.head?, none, none⟩)
    (hold : ∀ x, x ≠ h.next → h'.get x = (h.get x).map (insChange p h.next A B x)) :
    IsOutline h' root (fun x => if x = p then A ++ h.next :: B else ch x) := by
  have hpn : p < h.next := o.lt _ _ hlive
  have hfresh : h.get h.next = none := by
    cases e : h.get h.next with
    | none => rfl
    | some it => have := o.lt _ _ e; omega
  have hmem : ∀ q c, c ∈ ch q → c < h.next := by
    intro q c hc
    obtain ⟨_, ⟨it, hi, _⟩, _⟩ := o.alive hc
    exact o.lt _ _ hi
  have hA : ∀ a ∈ A, a ∈ ch p := fun a ha => by rw [hp]; exact List.mem_append_left _ ha
  have hB : ∀ b ∈ B, b ∈ ch p := fun b hb => by rw [hp]; exact List.mem_append_right _ hb
  have hnd : (A ++ B).Nodup := by rw [← hp]; exact o.nodup p
  have hdis : ∀ a ∈ A, ∀ b ∈ B, a ≠ b := (List.nodup_append.1 hnd).2.2
  have hAp : A.getLast? ≠ some p := fun e => by have := (o.alive (hA p (List.mem_of_getLast? e))).2.2; omega
  have hBp : B.head? ≠ some p := fun e => by have := (o.alive (hB p (List.mem_of_mem_head? e))).2.2; omega
  -- a child of another item keeps its place
  have hother : ∀ x, x ≠ p → ∀ c, c ∈ ch x → A.getLast? ≠ some c ∧ B.head? ≠ some c := by
    intro x hx c hc
    refine ⟨fun e => ?_, fun e => ?_⟩
    · exact hx (o.parent_eq hc (hA c (List.mem_of_getLast? e)))
    · exact hx (o.parent_eq hc (hB c (List.mem_of_mem_head? e)))
  refine ⟨?_, ?_, ?_, ?_, ?_, ?_, ?_, ?_⟩
  · obtain ⟨it, t1, t2, t3, t4⟩ := o.top
    have hr : root ≠ h.next := by have := o.lt _ _ t1; omega
    have hrA : A.getLast? ≠ some root := fun e => by
      obtain ⟨_, ⟨i, hi, hi2⟩, _⟩ := o.alive (hA root (List.mem_of_getLast? e))
      rw [t1] at hi; cases hi; rw [t2] at hi2; cases hi2
    have hrB : B.head? ≠ some root := fun e => by
      obtain ⟨_, ⟨i, hi, hi2⟩, _⟩ := o.alive (hB root (List.mem_of_mem_head? e))
      rw [t1] at hi; cases hi; rw [t2] at hi2; cases hi2
    refine ⟨insChange p h.next A B root it, by rw [hold root hr, t1]; rfl, t2, ?_, ?_⟩
    · simp only [insChange]; rw [if_neg hrB]; exact t3
    · simp only [insChange]; rw [if_neg hrA]; exact t4
  · intro x it hx
    by_cases e : x = h.next
    · subst e
      rw [hnew] at hx; cases hx
      rw [if_neg (by omega), o.dead _ hfresh]
      exact ⟨rfl, rfl⟩
    · rw [hold x e] at hx
      cases hg : h.get x with
      | none => rw [hg] at hx; cases hx
      | some i =>
        rw [hg] at hx; cases hx
        simp only [insChange]
        by_cases e2 : x = p
        · rw [if_pos e2, if_pos e2, if_pos e2]; exact ⟨rfl, rfl⟩
        · rw [if_neg e2, if_neg e2, if_neg e2]; exact o.ends x i hg
  · intro x A' c B' hx
    by_cases e : x = p
    · rw [if_pos e] at hx
      subst e
      rcases split_mid (M := [h.next]) hx with ⟨A2, a1, a2⟩ | ⟨M1, M2, a1, a2, a3⟩ | ⟨B1, a1, a2⟩
      · -- before
        obtain ⟨k1, it, k2, k3, k4, k5⟩ := o.kid x A' c (A2 ++ B) (by rw [hp, a1]; simp)
        have hc : c ≠ h.next := by have := o.lt _ _ k2; omega
        have hcA : c ∈ A := by rw [a1]; exact List.mem_append_right _ List.mem_cons_self
        have hcB : B.head? ≠ some c := fun e => hdis c hcA c (List.mem_of_mem_head? e) rfl
        refine ⟨k1, insChange x h.next A B c it, by rw [hold c hc, k2]; rfl, k3, ?_, ?_⟩
        · simp only [insChange]; rw [if_neg hcB]; exact k4
        · simp only [insChange]
          rw [a2]
          cases A2 with
          | nil => rw [a1]; simp
          | cons y A2 =>
            have : A.getLast? ≠ some c := by
              rw [a1]
              intro e
              have hnA := (List.nodup_append.1 hnd).1
              rw [a1] at hnA
              have hm : c ∈ y :: A2 := by
                have e2 : (A' ++ c :: y :: A2).getLast? = (y :: A2).getLast? := by
                  rw [List.getLast?_append, List.getLast?_cons_cons, List.getLast?_cons]; rfl
                rw [e2] at e
                exact List.mem_of_getLast? e
              exact (List.nodup_cons.1 (List.nodup_append.1 hnA).2.1).1 hm
            rw [if_neg this, k5]; rfl
      · -- the new one
        cases M1 with
        | cons m M1 => have := congrArg List.length a1; simp at this
        | nil =>
          have a1 : [h.next] = c :: M2 := a1
          cases a1
          rw [List.append_nil] at a2
          subst a2
          have a3 : B' = B := a3
          subst a3
          exact ⟨hpn, _, hnew, rfl, rfl, rfl⟩
      · -- after
        obtain ⟨k1, it, k2, k3, k4, k5⟩ := o.kid x (A ++ B1) c B' (by rw [hp, a1]; simp)
        have hc : c ≠ h.next := by have := o.lt _ _ k2; omega
        have hcB : c ∈ B := by rw [a1]; exact List.mem_append_right _ List.mem_cons_self
        have hcA : A.getLast? ≠ some c := fun e => hdis c (List.mem_of_getLast? e) c hcB rfl
        refine ⟨k1, insChange x h.next A B c it, by rw [hold c hc, k2]; rfl, k3, ?_, ?_⟩
        · simp only [insChange]
          rw [a2]
          cases B1 with
          | nil => rw [a1]; simp
          | cons y B1 =>
            have : B.head? ≠ some c := by
              rw [a1]
              intro e
              have hnB := (List.nodup_append.1 hnd).2.1
              rw [a1] at hnB
              have e : y = c := by simpa using e
              subst e
              exact (List.nodup_cons.1 hnB).1 (List.mem_append_right _ List.mem_cons_self)
            rw [if_neg this, k4]
            simp [List.getLast?_append]
        · simp only [insChange]; rw [if_neg hcA]; exact k5
    · rw [if_neg e] at hx
      obtain ⟨k1, it, k2, k3, k4, k5⟩ := o.kid x A' c B' hx
      have hc : c ≠ h.next := by have := o.lt _ _ k2; omega
      obtain ⟨n1, n2⟩ := hother x e c (by rw [hx]; exact List.mem_append_right _ List.mem_cons_self)
      refine ⟨k1, insChange p h.next A B c it, by rw [hold c hc, k2]; rfl, k3, ?_, ?_⟩
      · simp only [insChange]; rw [if_neg n2]; exact k4
      · simp only [insChange]; rw [if_neg n1]; exact k5
  · intro x
    by_cases e : x = p
    · rw [if_pos e]
      rw [List.nodup_append] at hnd ⊢
      obtain ⟨n1, n2, n3⟩ := hnd
      refine ⟨n1, List.nodup_cons.2 ⟨fun hm => ?_, n2⟩, ?_⟩
      · have := hmem p _ (hB _ hm); omega
      · intro a ha b hb
        rcases List.mem_cons.1 hb with e | hb
        · have := hmem p _ (hA _ ha); omega
        · exact n3 a ha b hb
    · rw [if_neg e]; exact o.nodup x
  · intro c it hc hr
    by_cases e : c = h.next
    · exact ⟨p, by rw [if_pos rfl, e]; exact List.mem_append_right _ List.mem_cons_self⟩
    · rw [hold c e] at hc
      cases hg : h.get c with
      | none => rw [hg] at hc; cases hc
      | some i =>
        obtain ⟨q, hq⟩ := o.up c i hg hr
        refine ⟨q, ?_⟩
        by_cases e2 : q = p
        · rw [if_pos e2]
          rw [e2, hp] at hq
          rcases List.mem_append.1 hq with h | h
          · exact List.mem_append_left _ h
          · exact List.mem_append_right _ (List.mem_cons_of_mem _ h)
        · rw [if_neg e2]; exact hq
  · intro x hx
    by_cases e : x = h.next
    · rw [e, hnew] at hx; cases hx
    · rw [hold x e] at hx
      cases hg : h.get x with
      | none =>
        have : x ≠ p := fun e2 => by rw [e2, hlive] at hg; cases hg
        rw [if_neg this]; exact o.dead x hg
      | some i => rw [hg] at hx; cases hx
  · intro x it hx
    by_cases e : x = h.next
    · rw [e, hnew] at hx; cases hx
      exact ⟨rfl, rfl, rfl, rfl, rfl⟩
    · rw [hold x e] at hx
      cases hg : h.get x with
      | none => rw [hg] at hx; cases hx
      | some i =>
        rw [hg] at hx; cases hx
        obtain ⟨q1, q2, q3, q4, q5⟩ := o.keys x i hg
        simp only [insChange]
        rw [q1, q2, q3, q4, q5]
        exact ⟨rfl, rfl, rfl, rfl, rfl⟩
  · intro x it hx
    by_cases e : x = h.next
    · omega
    · rw [hold x e] at hx
      cases hg : h.get x with
      | none => rw [hg] at hx; cases hx
      | some i => have := o.lt x i hg; omega

/-! ### The calls that make items -/

theorem option_ite_some {α : Type} {P : Prop} [Decidable P] {a b : α} : (if P then some a else some b) = some (if P then a else b) := by
  split <;> rfl

theorem Spec.IsOutline.fresh {h : OHeap} {root : Nat} {ch : Nat → List Nat} (o : IsOutline h root ch) : h.get h.next = none := by
  cases e : h.get h.next with
  | none => rfl
  | some it => have := o.lt _ _ e; omega

theorem createChild_run {h : OHeap} {root p : Nat} {ch : Nat → List Nat} (o : IsOutline h root ch) {pt : OItem} (hlive : h.get p = some pt) :
    ∃ h', createChild h p = .ok h' ∧ h'.next = h.next + 1 ∧
      IsOutline h' root (fun x => if x = p then ch p ++ [h.next] else ch x) := by
  have hpn : p < h.next := o.lt _ _ hlive
  have hfr := o.fresh
  obtain ⟨en1, en2⟩ := o.ends _ _ hlive
  have hcp : (h.create (some p)).get p = some pt := by rw [get_ocreate, if_neg (by omega), hlive]
  cases hl : (ch p).getLast? with
  | none =>
    have hnil : ch p = [] := List.getLast?_eq_none_iff.1 hl
    rw [hnil] at en1 en2
    have en1 : pt.first = none := en1
    have en2 : pt.last = none := en2
    refine ⟨(h.create (some p)).set p { pt with last := some h.next, first := some h.next, kFirst := some h.next, kLast := some h.next }, ?_, rfl, ?_⟩
    · simp only [createChild, appendItem]
      rw [hcp]
      dsimp only
      rw [en2]
      dsimp only
      rw [setEnds, upd_eq hcp, en1]
      rfl
    · rw [hnil]
      refine insert_outline o (A := []) (B := []) hnil hlive rfl ?_ ?_
      · rw [get_oset, if_neg (by omega), get_ocreate, if_pos rfl]; rfl
      · intro x hx
        rw [get_oset, get_ocreate, if_neg hx]
        by_cases e : x = p
        · rw [if_pos e, e, hlive]; simp [insChange]
        · rw [if_neg e]
          cases h.get x with
          | none => rfl
          | some i => simp [insChange, e]
  | some l =>
    have hlm : l ∈ ch p := List.mem_of_getLast? hl
    obtain ⟨_, ⟨lt, hlt, _⟩, hpl⟩ := o.alive hlm
    have hln := o.lt _ _ hlt
    rw [hl] at en2
    have hf : ∃ f, pt.first = some f ∧ (ch p).head? = some f := by
      cases e : ch p with
      | nil => rw [e] at hlm; cases hlm
      | cons a r => rw [e] at en1; exact ⟨a, en1, rfl⟩
    obtain ⟨f, hf, hf2⟩ := hf
    obtain ⟨h0, eh0⟩ : ∃ x, x = h.create (some p) := ⟨_, rfl⟩
    have g0l : h0.get l = some lt := by rw [eh0, get_ocreate, if_neg (by omega), hlt]
    have g0n : h0.get h.next = some { parent := some p, kParent := some p } := by rw [eh0, get_ocreate, if_pos rfl]
    obtain ⟨h1, eh1⟩ : ∃ x, x = h0.set l { lt with next := some h.next, kNext := some h.next } := ⟨_, rfl⟩
    have s1 : h0.setNext l (some h.next) = .ok h1 := by
      rw [eh1]; exact link_eq g0l (fun y hy => by cases hy; exact ⟨_, g0n⟩) _
    have g1n : h1.get h.next = some { parent := some p, kParent := some p } := by rw [eh1, get_oset, if_neg (by omega), g0n]
    have g1l : ∃ i, h1.get l = some i := ⟨_, by rw [eh1, get_oset, if_pos rfl]⟩
    obtain ⟨h2, eh2⟩ : ∃ x, x = h1.set h.next ⟨some p, some l, none, none, none, some p, some l, none, none, none⟩ := ⟨_, rfl⟩
    have s2 : h1.setPrev h.next (some l) = .ok h2 := by
      rw [eh2]; exact link_eq g1n (fun y hy => by cases hy; exact g1l) _
    have g2p : h2.get p = some pt := by
      rw [eh2, get_oset, if_neg (by omega), eh1, get_oset, if_neg (by omega), eh0]; exact hcp
    refine ⟨h2.set p { pt with last := some h.next, first := some f, kFirst := some f, kLast := some h.next }, ?_, ?_, ?_⟩
    · simp only [createChild, appendItem]
      rw [hcp]
      dsimp only
      rw [en2]
      dsimp only
      rw [← eh0, s1]
      dsimp only
      rw [s2]
      dsimp only
      rw [setEnds, upd_eq g2p, hf]
      rfl
    · rw [next_oset, eh2, next_oset, eh1, next_oset, eh0, next_ocreate]
    · refine insert_outline o (A := ch p) (B := []) (by simp) hlive (by rw [next_oset, eh2, next_oset, eh1, next_oset, eh0, next_ocreate]) ?_ ?_
      · rw [get_oset, if_neg (by omega), eh2, get_oset, if_pos rfl, hl]; rfl
      · intro x hx
        rw [get_oset, eh2, get_oset, if_neg hx, eh1, get_oset, eh0, get_ocreate, if_neg hx]
        by_cases e : x = p
        · have hne : ¬ l = p := by omega
          rw [if_pos e, e, hlive]
          simp [insChange, hl, hne, hf2]
        · rw [if_neg e]
          by_cases e2 : x = l
          · rw [if_pos e2, e2, hlt]
            have e3 : ¬ l = p := by omega
            simp [insChange, hl, e3]
          · rw [if_neg e2]
            cases h.get x with
            | none => rfl
            | some i =>
              have e3 : ¬ l = x := fun h => e2 h.symm
              simp [insChange, e, e3, hl]

theorem createNext_run {h : OHeap} {root s p : Nat} {ch : Nat → List Nat} (o : IsOutline h root ch) {A B : List Nat} (hs : ch p = A ++ s :: B) :
    ∃ h', createNext h s = .ok h' ∧ h'.next = h.next + 1 ∧
      IsOutline h' root (fun x => if x = p then A ++ s :: h.next :: B else ch x) := by
  have hsm : s ∈ ch p := by rw [hs]; exact List.mem_append_right _ List.mem_cons_self
  obtain ⟨⟨pt, hp⟩, _, hps⟩ := o.alive hsm
  obtain ⟨_, st, hst, k1, k2, k3⟩ := o.kid p A s B hs
  have hsn := o.lt _ _ hst
  have hpn := o.lt _ _ hp
  have hfr := o.fresh
  have hnd := o.nodup p
  rw [hs] at hnd
  have hAs : (A ++ [s]).getLast? = some s := by simp
  have hpre : ch p = (A ++ [s]) ++ B := by rw [hs]; simp
  have hch : (fun x => if x = p then A ++ s :: h.next :: B else ch x) = (fun x => if x = p then (A ++ [s]) ++ h.next :: B else ch x) := by
    funext x; split <;> simp
  rw [hch]
  obtain ⟨en1, en2⟩ := o.ends _ _ hp
  obtain ⟨q1, q2, q3, q4, q5⟩ := o.keys _ _ hp
  have hhd : ∀ X : List Nat, (A ++ s :: X).head? = pt.first := by
    intro X
    rw [en1, hs]
    cases A <;> rfl
  obtain ⟨h0, eh0⟩ : ∃ x, x = h.create st.parent := ⟨_, rfl⟩
  have g0n : h0.get h.next = some { parent := st.parent, kParent := st.parent } := by rw [eh0, get_ocreate, if_pos rfl]
  have g0s : h0.get s = some st := by rw [eh0, get_ocreate, if_neg (by omega), hst]
  cases B with
  | nil =>
    have k3 : st.next = none := k3
    obtain ⟨h1, eh1⟩ : ∃ x, x = h0.set s { st with next := some h.next } := ⟨_, rfl⟩
    have g1n : h1.get h.next = some { parent := st.parent, kParent := st.parent } := by rw [eh1, get_oset, if_neg (by omega), g0n]
    have g1s : h1.get s = some { st with next := some h.next } := by rw [eh1, get_oset, if_pos rfl]
    obtain ⟨h2, eh2⟩ : ∃ x, x = h1.set h.next ⟨st.parent, some s, none, none, none, st.parent, some s, none, none, none⟩ := ⟨_, rfl⟩
    have s2 : h1.setPrev h.next (some s) = .ok h2 := by
      rw [eh2]; exact link_eq g1n (fun y hy => by cases hy; exact ⟨_, g1s⟩) _
    have g2s : h2.get s = some { st with next := some h.next } := by rw [eh2, get_oset, if_neg (by omega), g1s]
    obtain ⟨h3, eh3⟩ : ∃ x, x = h2.set s { st with next := some h.next, kNext := some h.next } := ⟨_, rfl⟩
    have g3p : h3.get p = some pt := by
      rw [eh3, get_oset, if_neg (by omega), eh2, get_oset, if_neg (by omega), eh1, get_oset, if_neg (by omega), eh0, get_ocreate, if_neg (by omega), hp]
    have g3n : ∃ i, h3.get h.next = some i := ⟨_, by rw [eh3, get_oset, if_neg (by omega), eh2, get_oset, if_pos rfl]⟩
    have hnx : (h3.set p { pt with last := some h.next, kLast := some h.next }).next = h.next + 1 := by
      rw [next_oset, eh3, next_oset, eh2, next_oset, eh1, next_oset, eh0, next_ocreate]
    refine ⟨h3.set p { pt with last := some h.next, kLast := some h.next }, ?_, hnx, ?_⟩
    · simp only [createNext]
      rw [hst]
      dsimp only
      rw [k3]
      dsimp only
      rw [← eh0, linkNext, upd_eq g0s]
      dsimp only
      rw [← eh1, s2]
      dsimp only
      rw [upd_eq g2s]
      dsimp only
      rw [k1, k3]
      dsimp only
      rw [← k1, ← eh3]
      exact link_eq g3p (fun y hy => by cases hy; exact g3n) _
    · refine insert_outline o (A := A ++ [s]) (B := []) hpre hp hnx ?_ ?_
      · rw [get_oset, if_neg (by omega), eh3, get_oset, if_neg (by omega), eh2, get_oset, if_pos rfl, hAs, k1]; rfl
      · intro x hx
        rw [get_oset, eh3, get_oset, eh2, get_oset, if_neg hx, eh1, get_oset, eh0, get_ocreate, if_neg hx]
        by_cases e : x = p
        · have hne : ¬ s = p := by omega
          rw [if_pos e, e, hp]
          have := hhd [h.next]
          simp [insChange, hne, this, q4]
        · rw [if_neg e]
          by_cases e2 : x = s
          · rw [if_pos e2, e2, hst]
            have e3 : ¬ s = p := by omega
            simp [insChange, e3]
          · rw [if_neg e2, if_neg e2]
            cases h.get x with
            | none => rfl
            | some i =>
              have e3 : ¬ s = x := fun h => e2 h.symm
              simp [insChange, e, e3]
  | cons b B =>
    have k3 : st.next = some b := k3
    have hbm : b ∈ ch p := by rw [hs]; simp
    obtain ⟨_, ⟨bt, hbt, _⟩, hpb⟩ := o.alive hbm
    have hbn := o.lt _ _ hbt
    have hsb : b ≠ s := by
      intro e
      have := (List.nodup_append.1 hnd).2.1
      rw [e] at this
      exact (List.nodup_cons.1 this).1 List.mem_cons_self
    have g0b : h0.get b = some bt := by rw [eh0, get_ocreate, if_neg (by omega), hbt]
    obtain ⟨ha, eha⟩ : ∃ x, x = h0.set b { bt with prev := some h.next, kPrev := some h.next } := ⟨_, rfl⟩
    have sa : h0.setPrev b (some h.next) = .ok ha := by rw [eha]; exact link_eq g0b (fun y hy => by cases hy; exact ⟨_, g0n⟩) _
    have gan : ha.get h.next = some { parent := st.parent, kParent := st.parent } := by rw [eha, get_oset, if_neg (by omega), g0n]
    have gab : ∃ i, ha.get b = some i := ⟨_, by rw [eha, get_oset, if_pos rfl]⟩
    obtain ⟨hb, ehb⟩ : ∃ x, x = ha.set h.next ⟨st.parent, none, some b, none, none, st.parent, none, some b, none, none⟩ := ⟨_, rfl⟩
    have sb : ha.setNext h.next (some b) = .ok hb := by rw [ehb]; exact link_eq gan (fun y hy => by cases hy; exact gab) _
    have gbs : hb.get s = some st := by rw [ehb, get_oset, if_neg (by omega), eha, get_oset, if_neg (by omega), g0s]
    obtain ⟨h1, eh1⟩ : ∃ x, x = hb.set s { st with next := some h.next } := ⟨_, rfl⟩
    have g1n : h1.get h.next = some ⟨st.parent, none, some b, none, none, st.parent, none, some b, none, none⟩ := by
      rw [eh1, get_oset, if_neg (by omega), ehb, get_oset, if_pos rfl]
    have g1s : h1.get s = some { st with next := some h.next } := by rw [eh1, get_oset, if_pos rfl]
    obtain ⟨h2, eh2⟩ : ∃ x, x = h1.set h.next ⟨st.parent, some s, some b, none, none, st.parent, some s, some b, none, none⟩ := ⟨_, rfl⟩
    have s2 : h1.setPrev h.next (some s) = .ok h2 := by
      rw [eh2]; exact link_eq g1n (fun y hy => by cases hy; exact ⟨_, g1s⟩) _
    have g2s : h2.get s = some { st with next := some h.next } := by rw [eh2, get_oset, if_neg (by omega), g1s]
    obtain ⟨h3, eh3⟩ : ∃ x, x = h2.set s { st with next := some h.next, kNext := some h.next } := ⟨_, rfl⟩
    have hnx : h3.next = h.next + 1 := by
      rw [eh3, next_oset, eh2, next_oset, eh1, next_oset, ehb, next_oset, eha, next_oset, eh0, next_ocreate]
    refine ⟨h3, ?_, hnx, ?_⟩
    · simp only [createNext]
      rw [hst]
      dsimp only
      rw [k3]
      dsimp only
      rw [← eh0, sa]
      dsimp only
      rw [sb]
      dsimp only
      rw [linkNext, upd_eq gbs]
      dsimp only
      rw [← eh1, s2]
      dsimp only
      rw [upd_eq g2s]
      dsimp only
      rw [k1, k3]
      dsimp only
      rw [eh3, k1]
    · refine insert_outline o (A := A ++ [s]) (B := b :: B) hpre hp hnx ?_ ?_
      · rw [eh3, get_oset, if_neg (by omega), eh2, get_oset, if_pos rfl, hAs, k1]; rfl
      · intro x hx
        rw [eh3, get_oset, eh2, get_oset, if_neg hx, eh1, get_oset, ehb, get_oset, if_neg hx, eha, get_oset, eh0, get_ocreate, if_neg hx]
        by_cases e2 : x = s
        · rw [if_pos e2, e2, hst]
          have e3 : ¬ s = p := by omega
          simp [insChange, e3, hsb]
        · rw [if_neg e2, if_neg e2]
          have e3 : ¬ s = x := fun h => e2 h.symm
          by_cases e4 : x = b
          · have e5 : ¬ b = p := by omega
            rw [if_pos e4, e4, hbt]
            have e6 : ¬ s = b := fun h => hsb h.symm
            simp [insChange, e5, e6]
          · rw [if_neg e4]
            have e7 : ¬ b = x := fun h => e4 h.symm
            by_cases e : x = p
            · have := hhd (h.next :: b :: B)
              have hla : (A ++ s :: h.next :: b :: B).getLast? = pt.last := by
                rw [en2, hs, List.getLast?_append, List.getLast?_append, List.getLast?_cons_cons, List.getLast?_cons_cons, List.getLast?_cons_cons]
              rw [e, hp]
              rw [e] at e3 e7
              have n1 : ¬ (A ++ [s]).getLast? = some p := by simpa using e3
              have n2 : ¬ (b :: B).head? = some p := by simpa using e7
              have w1 : (A ++ [s] ++ h.next :: b :: B) = A ++ s :: h.next :: b :: B := by simp
              simp only [insChange, Option.map_some, if_neg n1, if_neg n2, if_true, w1, this, hla]
              cases pt
              simp at q4 q5 ⊢
              exact ⟨q4, q5⟩
            · cases h.get x with
              | none => rfl
              | some i => simp [insChange, e, e3, e7]

end Pdfmm
