import Verif.Objects.ObjListProps
/-
C33: `PdfIndirectObjectList::CollectGarbage`.
-/
set_option autoImplicit false
set_option linter.unusedVariables false
namespace Pdfmm
open OL

/-- The values objects have, as far as garbage collection looks at them. -/
inductive OVal
  | leaf
  | ref (r : Ref)
  | arr (l : List OVal)
  | dict (l : List (Bytes × OVal))

mutual
/-- `visitObject`, `src/pdfmm/base/PdfIndirectObjectList.cpp:370-416`, for a direct object; the visit of the
object a reference leads to starts with the check whether it was visited (the objects in the list have the
reference they are stored under).  `fuel` bounds how many references are followed at a time; the code has
no bound but the stack. -/
def visit (o : OL OVal) (fuel : Nat) (v : OVal) (seen : List Ref) : Res (List Ref) :=
  match v with
  | .leaf => .ok seen
  | .ref r =>
    match o.getObject r with
    | none => .ok seen
    | some child =>
      if r.isIndirect && decide (r ∈ seen) then .ok seen
      else
        match fuel with
        | 0 => .error .diverge
        | f + 1 => visit o f child (if r.isIndirect then r :: seen else seen)
  | .arr l => visitList o fuel l seen
  | .dict l => visitEntries o fuel l seen
termination_by (fuel, sizeOf v)
def visitList (o : OL OVal) (fuel : Nat) (l : List OVal) (seen : List Ref) : Res (List Ref) :=
  match l with
  | [] => .ok seen
  | v :: r =>
    match visit o fuel v seen with
    | .error e => .error e
    | .ok seen' => visitList o fuel r seen'
termination_by (fuel, sizeOf l)
def visitEntries (o : OL OVal) (fuel : Nat) (l : List (Bytes × OVal)) (seen : List Ref) : Res (List Ref) :=
  match l with
  | [] => .ok seen
  | (k, v) :: r =>
    match visit o fuel v seen with
    | .error e => .error e
    | .ok seen' => visitEntries o fuel r seen'
termination_by (fuel, sizeOf l)
end

/-- Which objects stay. -/
def keeps (o : OL OVal) (seen : List Ref) (r : Ref) : Bool := decide (r ∈ seen) || decide (r.num ∈ o.streams)

/-- `CollectGarbage`, `src/pdfmm/base/PdfIndirectObjectList.cpp:343-368`.  `self` is the reference of the
trailer object, if it has one (a cross-reference stream). -/
def collectGarbage (o : OL OVal) (trailer : OVal) (self : Option Ref) : Res (OL OVal) :=
  match visit o o.objs.length trailer self.toList with
  | .error e => .error e
  | .ok seen =>
    let gone := o.objs.filter (fun p => !keeps o seen p.1)
    let o' := gone.foldl (fun o p => o.safeAddFree p.1) o
    .ok { o' with objs := o.objs.filter (fun p => keeps o seen p.1) }

/-! ### Specification: reachability -/
namespace Spec

mutual
/-- The reference occurs in the value, at any depth. -/
def Mentions (r : Ref) : OVal → Prop
  | .leaf => False
  | .ref s => s = r
  | .arr l => MentionsIn r l
  | .dict l => MentionsEntry r l
def MentionsIn (r : Ref) : List OVal → Prop
  | [] => False
  | v :: l => Mentions r v ∨ MentionsIn r l
def MentionsEntry (r : Ref) : List (Bytes × OVal) → Prop
  | [] => False
  | p :: l => Mentions r p.2 ∨ MentionsEntry r l
end

/-- `r` is the reference of an object that can be reached from `v` by following references. -/
inductive Reach (objs : Ref → Option OVal) (v : OVal) : Ref → Prop
  | here {r} : Mentions r v → (objs r).isSome → Reach objs v r
  | step {s w r} : Reach objs v s → objs s = some w → Mentions r w → (objs r).isSome → Reach objs v r

end Spec
open Spec

/-- What one visit guarantees. -/
structure VisitOk (o : OL OVal) (ment : Ref → Prop) (seen seen' : List Ref) : Prop where
  mono : ∀ r ∈ seen, r ∈ seen'
  here : ∀ r, ment r → (o.getObject r).isSome → r ∈ seen'
  closed : ∀ r ∈ seen', r ∉ seen → ∀ w, o.getObject r = some w → ∀ s, Mentions s w →
    (o.getObject s).isSome → s ∈ seen'
  sound : ∀ r ∈ seen', r ∉ seen → (o.getObject r).isSome ∧
    (ment r ∨ ∃ t v', ment t ∧ o.getObject t = some v' ∧ Reach (fun r => o.getObject r) v' r)

theorem visitOk_seq {o : OL OVal} {m₁ m₂ : Ref → Prop} {a b c : List Ref} (h₁ : VisitOk o m₁ a b)
    (h₂ : VisitOk o m₂ b c) : VisitOk o (fun r => m₁ r ∨ m₂ r) a c where
  mono := fun r hr => h₂.mono r (h₁.mono r hr)
  here := by
    rintro r (hm | hm) hl
    · exact h₂.mono r (h₁.here r hm hl)
    · exact h₂.here r hm hl
  closed := by
    intro r hr hn w hw s hs hl
    by_cases hb : r ∈ b
    · exact h₂.mono s (h₁.closed r hb hn w hw s hs hl)
    · exact h₂.closed r hr hb w hw s hs hl
  sound := by
    intro r hr hn
    by_cases hb : r ∈ b
    · obtain ⟨x, y⟩ := h₁.sound r hb hn
      refine ⟨x, ?_⟩
      rcases y with y | ⟨t, v', y, z⟩
      · exact .inl (.inl y)
      · exact .inr ⟨t, v', .inl y, z⟩
    · obtain ⟨x, y⟩ := h₂.sound r hr hb
      refine ⟨x, ?_⟩
      rcases y with y | ⟨t, v', y, z⟩
      · exact .inl (.inr y)
      · exact .inr ⟨t, v', .inr y, z⟩

theorem visitOk_refl (o : OL OVal) (seen : List Ref) : VisitOk o (fun _ => False) seen seen where
  mono := fun _ h => h
  here := fun _ h => h.elim
  closed := fun r hr hn => absurd hr hn
  sound := fun r hr hn => absurd hr hn

theorem visitOk_congr {o : OL OVal} {m₁ m₂ : Ref → Prop} {a b : List Ref} (h : VisitOk o m₁ a b)
    (e : ∀ r, m₁ r ↔ m₂ r) : VisitOk o m₂ a b := by
  have : m₁ = m₂ := funext fun r => propext (e r)
  rw [← this]; exact h

theorem reach_prepend {objs : Ref → Option OVal} {v w : OVal} {t r : Ref} (ht : objs t = some w)
    (hm : Mentions t v) (h : Reach objs w r) : Reach objs v r := by
  induction h with
  | here hr hl => exact .step (.here hm (by rw [ht]; rfl)) ht hr hl
  | step _ hw hr hl ih => exact .step ih hw hr hl

/-- How many live references are not in the set. -/
def unseen (o : OL OVal) (seen : List Ref) : Nat := (o.objs.filter (fun p => decide (p.1 ∉ seen))).length

theorem unseen_mono (o : OL OVal) (a b : List Ref) (h : ∀ r ∈ a, r ∈ b) : unseen o b ≤ unseen o a := by
  unfold unseen
  induction o.objs with
  | nil => simp
  | cons p l ih =>
    simp only [List.filter_cons]
    by_cases hb : p.1 ∈ b
    · simp only [hb, not_true_eq_false, decide_false, Bool.false_eq_true, if_false]
      split
      · simp only [List.length_cons]; omega
      · exact ih
    · have ha : p.1 ∉ a := fun x => hb (h _ x)
      simp only [hb, ha, not_false_eq_true, decide_true, if_true, List.length_cons]
      omega

theorem unseen_cons (o : OL OVal) (seen : List Ref) (r : Ref) (w : OVal) (h : (r, w) ∈ o.objs)
    (hn : r ∉ seen) : unseen o (r :: seen) + 1 ≤ unseen o seen := by
  unfold unseen
  revert h
  generalize o.objs = objs
  intro h
  induction objs with
  | nil => cases h
  | cons p l ih =>
    simp only [List.filter_cons]
    have hmono : (l.filter (fun p => decide (p.1 ∉ r :: seen))).length ≤
        (l.filter (fun p => decide (p.1 ∉ seen))).length := by
      have := unseen_mono ⟨l, 0, [], [], [], true⟩ seen (r :: seen) (fun x hx => List.mem_cons_of_mem _ hx)
      exact this
    rcases List.mem_cons.1 h with h | h
    · subst h
      simp only [List.mem_cons, true_or, not_true_eq_false, decide_false, Bool.false_eq_true, if_false, hn,
        not_false_eq_true, decide_true, if_true, List.length_cons]
      simp only [List.mem_cons] at hmono
      omega
    · have := ih h
      by_cases hp : p.1 = r
      · simp only [hp, List.mem_cons, true_or, not_true_eq_false, decide_false, Bool.false_eq_true, if_false, hn,
          not_false_eq_true, decide_true, if_true, List.length_cons]
        simp only [List.mem_cons] at hmono
        omega
      · by_cases hs : p.1 ∈ seen
        · simp only [List.mem_cons, hs, or_true, not_true_eq_false, decide_false, Bool.false_eq_true, if_false]
          simp only [List.mem_cons] at this
          omega
        · simp only [List.mem_cons, hp, hs, or_self, not_false_eq_true, decide_true, if_true, List.length_cons]
          simp only [List.mem_cons] at this
          omega

mutual
theorem visit_ok (o : OL OVal) (hs : SMap.Sorted o.objs) (h0 : o.getObject ⟨0, 0⟩ = none) (fuel : Nat) (v : OVal)
    (seen : List Ref) (hf : unseen o seen ≤ fuel) :
    ∃ seen', visit o fuel v seen = .ok seen' ∧ VisitOk o (fun r => Mentions r v) seen seen' := by
  cases hv : v with
  | leaf => rw [visit]; exact ⟨seen, rfl, visitOk_congr (visitOk_refl o seen) (by simp [Mentions])⟩
  | ref r =>
    rw [visit]
    cases hg : o.getObject r with
    | none =>
      refine ⟨seen, rfl, fun _ h => h, ?_, fun r hr hn => absurd hr hn, fun r hr hn => absurd hr hn⟩
      intro x hx hl
      simp only [Mentions] at hx
      subst hx
      rw [hg] at hl
      cases hl
    | some child =>
      dsimp only
      have hind : r.isIndirect = true := by
        rcases r with ⟨n, g⟩
        by_cases h : n = 0
        · by_cases h' : g = 0
          · subst h; subst h'; rw [h0] at hg; cases hg
          · simp [Ref.isIndirect, h']
        · simp [Ref.isIndirect, h]
      by_cases hseen : r ∈ seen
      · simp only [hind, hseen, decide_true, Bool.and_self, if_true]
        refine ⟨seen, rfl, fun _ h => h, ?_, fun r hr hn => absurd hr hn, fun r hr hn => absurd hr hn⟩
        intro x hx hl
        simp only [Mentions] at hx
        subst hx
        exact hseen
      · simp only [hind, hseen, decide_false, Bool.and_false, Bool.false_eq_true, if_false, if_true]
        have hmem : (r, child) ∈ o.objs := by
          rw [getObject_eq _ _ hs] at hg; exact SMap.find_mem hg
        have hdec := unseen_cons o seen r child hmem hseen
        match fuel, hf with
        | 0, hf => omega
        | f + 1, hf =>
          obtain ⟨seen', h1, h2⟩ := visit_ok o hs h0 f child (r :: seen) (by omega)
          refine ⟨seen', h1, ?_, ?_, ?_, ?_⟩
          · exact fun x hx => h2.mono x (by simp [hx])
          · intro x hx hl
            simp only [Mentions] at hx
            subst hx
            exact h2.mono r (by simp)
          · intro x hx hn w hw s hm hl
            by_cases e : x = r
            · subst e
              rw [hg] at hw
              cases hw
              exact h2.here s hm hl
            · exact h2.closed x hx (by simp [e, hn]) w hw s hm hl
          · intro x hx hn
            by_cases e : x = r
            · subst e
              exact ⟨by rw [hg]; rfl, .inl rfl⟩
            · obtain ⟨y1, y2⟩ := h2.sound x hx (by simp [e, hn])
              refine ⟨y1, .inr ⟨r, child, rfl, hg, ?_⟩⟩
              rcases y2 with y2 | ⟨t, v', y2, y3, y4⟩
              · exact .here y2 y1
              · exact reach_prepend y3 y2 y4
  | arr l =>
    rw [visit]
    obtain ⟨s, h1, h2⟩ := visitList_ok o hs h0 fuel l seen hf
    exact ⟨s, h1, visitOk_congr h2 (by simp [Mentions])⟩
  | dict l =>
    rw [visit]
    obtain ⟨s, h1, h2⟩ := visitEntries_ok o hs h0 fuel l seen hf
    exact ⟨s, h1, visitOk_congr h2 (by simp [Mentions])⟩
termination_by (fuel, sizeOf v)
theorem visitList_ok (o : OL OVal) (hs : SMap.Sorted o.objs) (h0 : o.getObject ⟨0, 0⟩ = none) (fuel : Nat)
    (l : List OVal) (seen : List Ref) (hf : unseen o seen ≤ fuel) :
    ∃ seen', visitList o fuel l seen = .ok seen' ∧ VisitOk o (fun r => MentionsIn r l) seen seen' := by
  match hl : l with
  | [] => rw [visitList]; exact ⟨seen, rfl, visitOk_congr (visitOk_refl o seen) (by simp [MentionsIn])⟩
  | v :: r =>
    rw [visitList]
    obtain ⟨s, h1, h2⟩ := visit_ok o hs h0 fuel v seen hf
    rw [h1]
    obtain ⟨s', h3, h4⟩ := visitList_ok o hs h0 fuel r s (Nat.le_trans (unseen_mono o seen s h2.mono) hf)
    exact ⟨s', h3, visitOk_congr (visitOk_seq h2 h4) (by simp [MentionsIn])⟩
termination_by (fuel, sizeOf l)
theorem visitEntries_ok (o : OL OVal) (hs : SMap.Sorted o.objs) (h0 : o.getObject ⟨0, 0⟩ = none) (fuel : Nat)
    (l : List (Bytes × OVal)) (seen : List Ref) (hf : unseen o seen ≤ fuel) :
    ∃ seen', visitEntries o fuel l seen = .ok seen' ∧ VisitOk o (fun r => MentionsEntry r l) seen seen' := by
  match hl : l with
  | [] => rw [visitEntries]; exact ⟨seen, rfl, visitOk_congr (visitOk_refl o seen) (by simp [MentionsEntry])⟩
  | (k, v) :: r =>
    rw [visitEntries]
    obtain ⟨s, h1, h2⟩ := visit_ok o hs h0 fuel v seen hf
    rw [h1]
    obtain ⟨s', h3, h4⟩ := visitEntries_ok o hs h0 fuel r s (Nat.le_trans (unseen_mono o seen s h2.mono) hf)
    exact ⟨s', h3, visitOk_congr (visitOk_seq h2 h4) (by simp [MentionsEntry])⟩
termination_by (fuel, sizeOf l)
end

/-- **C33.** Garbage collection ends on every graph of references, cyclic or not.  An object is in the list
afterwards if and only if it was there and can be reached from the trailer, is an object stream, or is the
trailer itself; its value is unchanged.  (`hself`: when the trailer has a reference, the object stored
there is the trailer.) -/
theorem C33_garbage (o : OL OVal) (trailer : OVal) (self : Option Ref) (hs : SMap.Sorted o.objs)
    (h0 : o.getObject ⟨0, 0⟩ = none)
    (hself : ∀ r w, self = some r → o.getObject r = some w → w = trailer) :
    ∃ o', collectGarbage o trailer self = .ok o' ∧
      ∀ r w, o'.getObject r = some w ↔ o.getObject r = some w ∧
        (Reach (fun r => o.getObject r) trailer r ∨ r.num ∈ o.streams ∨ self = some r) := by
  have hlen : unseen o self.toList ≤ o.objs.length := List.length_filter_le _ _
  obtain ⟨seen, h1, h2⟩ := visit_ok o hs h0 o.objs.length trailer self.toList hlen
  unfold collectGarbage
  rw [h1]
  refine ⟨_, rfl, ?_⟩
  intro r w
  have hsort : ∀ l : List (Ref × OVal), SMap.Sorted l → SMap.Sorted (l.filter (fun p => keeps o seen p.1)) := by
    intro l
    induction l with
    | nil => intro _; trivial
    | cons p t ih =>
      intro h
      simp only [List.filter_cons]
      split
      · exact ⟨fun q hq => h.1 q ((List.mem_filter.1 hq).1), ih h.2⟩
      · exact ih h.2
  rw [getObject_eq _ _ (hsort _ hs), getObject_eq _ _ hs]
  have hiff : (SMap.find? r (o.objs.filter (fun p => keeps o seen p.1)) = some w) ↔
      SMap.find? r o.objs = some w ∧ keeps o seen r = true := by
    constructor
    · intro h
      have := SMap.find_mem h
      rw [List.mem_filter] at this
      exact ⟨SMap.mem_find hs this.1, this.2⟩
    · rintro ⟨h, hk⟩
      exact SMap.mem_find (hsort _ hs) (List.mem_filter.2 ⟨SMap.find_mem h, hk⟩)
  rw [hiff]
  constructor
  · rintro ⟨hf, hk⟩
    refine ⟨hf, ?_⟩
    simp only [keeps, Bool.or_eq_true, decide_eq_true_eq] at hk
    rcases hk with hk | hk
    · by_cases hx : r ∈ self.toList
      · right; right
        cases self with
        | none => simp at hx
        | some x => simp at hx; rw [hx]
      · left
        obtain ⟨y1, y2⟩ := h2.sound r hk hx
        rcases y2 with y2 | ⟨t, v', y2, y3, y4⟩
        · exact .here y2 y1
        · exact reach_prepend y3 y2 y4
    · exact .inr (.inl hk)
  · rintro ⟨hf, hr⟩
    refine ⟨hf, ?_⟩
    simp only [keeps, Bool.or_eq_true, decide_eq_true_eq]
    rcases hr with hr | hr | hr
    · left
      clear hf hiff
      induction hr with
      | here hm hl => exact h2.here _ hm hl
      | step _ hw hm hl ih =>
        rename_i s w' r' _
        by_cases hx : s ∈ self.toList
        · have : self = some s := by
            cases self with
            | none => simp at hx
            | some x => simp at hx; rw [hx]
          have := hself s w' this hw
          subst this
          exact h2.here _ hm hl
        · exact h2.closed _ ih hx _ hw _ hm hl
    · exact .inr hr
    · left
      exact h2.mono r (by rw [hr]; simp)

/-- The numbers of collected objects become free. -/
theorem C33_collected_are_free (o : OL OVal) (trailer : OVal) (self : Option Ref) (o' : OL OVal)
    (h : collectGarbage o trailer self = .ok o') (r : Ref) (w : OVal) (hs : SMap.Sorted o.objs)
    (hin : o.getObject r = some w) (hout : o'.getObject r = none) (hg : r.gen + 1 < 65535) :
    (⟨r.num, r.gen + 1⟩ : Ref) ∈ o'.free := by
  unfold collectGarbage at h
  split at h
  · cases h
  · rename_i seen hv
    cases h
    have hsort : ∀ l : List (Ref × OVal), SMap.Sorted l → SMap.Sorted (l.filter (fun p => keeps o seen p.1)) := by
      intro l
      induction l with
      | nil => intro _; trivial
      | cons p t ih =>
        intro h
        simp only [List.filter_cons]
        split
        · exact ⟨fun q hq => h.1 q ((List.mem_filter.1 hq).1), ih h.2⟩
        · exact ih h.2
    rw [getObject_eq _ _ hs] at hin
    rw [getObject_eq _ _ (hsort _ hs)] at hout
    have hmem : (r, w) ∈ o.objs.filter (fun p => !keeps o seen p.1) := by
      rw [List.mem_filter]
      refine ⟨SMap.find_mem hin, ?_⟩
      cases hk : keeps o seen r with
      | false => simp [hk]
      | true =>
        rw [SMap.mem_find (hsort _ hs) (List.mem_filter.2 ⟨SMap.find_mem hin, hk⟩)] at hout
        cases hout
    have hkeep : ∀ (l : List (Ref × OVal)) (q : OL OVal) (x : Ref), x ∈ q.free →
        x ∈ (l.foldl (fun o p => o.safeAddFree p.1) q).free := by
      intro l
      induction l with
      | nil => intro q x hx; exact hx
      | cons p t ih =>
        intro q x hx
        refine ih _ x ?_
        dsimp only
        unfold safeAddFree tryAddFree
        split
        · exact hx
        · exact (addFree_mem q _ x).2 (.inr hx)
    have hadd : ∀ (l : List (Ref × OVal)) (q : OL OVal), (r, w) ∈ l →
        (⟨r.num, r.gen + 1⟩ : Ref) ∈ (l.foldl (fun o p => o.safeAddFree p.1) q).free := by
      intro l
      induction l with
      | nil => intro q hx; cases hx
      | cons p t ih =>
        intro q hx
        rcases List.mem_cons.1 hx with e | e
        · subst e
          refine hkeep t _ _ ?_
          dsimp only
          unfold safeAddFree tryAddFree
          rw [if_neg (by simp only [maxXRefGen]; omega)]
          exact (addFree_mem q _ _).2 (.inl rfl)
        · exact ih _ e
    exact hadd _ _ hmem

/-- A cycle of two objects that nothing refers to is collected, a self-referring one in use is kept. -/
example : let o : OL OVal := ⟨[(⟨1, 0⟩, .dict [([80], .ref ⟨1, 0⟩)]), (⟨2, 0⟩, .arr [.ref ⟨3, 0⟩]),
      (⟨3, 0⟩, .ref ⟨2, 0⟩)], 4, [], [], [], true⟩
    let t : OVal := .dict [([82], .ref ⟨1, 0⟩)]
    SMap.Sorted o.objs ∧ o.getObject ⟨0, 0⟩ = none ∧ Reach (fun r => o.getObject r) t ⟨1, 0⟩ ∧
      o.getObject ⟨2, 0⟩ = some (.arr [.ref ⟨3, 0⟩]) := by
  refine ⟨by decide, by rfl, .here ?_ rfl, by rfl⟩
  simp [Mentions, MentionsEntry]

/-- With an object stored under 0 0 (which C30 shows can happen) a self-reference is followed for ever:
whatever the fuel, the visit does not end. -/
theorem C33_null_reference_false (fuel : Nat) :
    visit ⟨[(⟨0, 0⟩, .ref ⟨0, 0⟩)], 1, [], [], [], true⟩ fuel (.ref ⟨0, 0⟩) [] = .error .diverge := by
  induction fuel with
  | zero => rw [visit]; rfl
  | succ f ih => rw [visit]; exact ih

end Pdfmm
