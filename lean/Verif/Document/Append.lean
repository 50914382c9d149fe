import Verif.Document.AppendModel
/-
Appending a document, inserting a page of another document, appending a range of pages.
-/
set_option autoImplicit false
namespace Pdfmm
open OL

/-! ### Specification -/

namespace Spec

mutual
/-- The second value is the first one with `d` added to the object number of every reference in it, at any depth. -/
def ShiftOf (d : Nat) : OVal → OVal → Prop
  | .leaf, w => w = .leaf
  | .ref r, w => w = .ref ⟨r.num + d, r.gen⟩
  | .arr l, w => ∃ l', w = .arr l' ∧ ShiftOfList d l l'
  | .dict l, w => ∃ l', w = .dict l' ∧ ShiftOfEntries d l l'
def ShiftOfList (d : Nat) : List OVal → List OVal → Prop
  | [], l => l = []
  | v :: r, l => ∃ w r', l = w :: r' ∧ ShiftOf d v w ∧ ShiftOfList d r r'
def ShiftOfEntries (d : Nat) : List (Bytes × OVal) → List (Bytes × OVal) → Prop
  | [], l => l = []
  | (k, v) :: r, l => ∃ w r', l = (k, w) :: r' ∧ ShiftOf d v w ∧ ShiftOfEntries d r r'
end

/-- Every number below the counter is in use or free: there are as many as the counter says. -/
def NoGaps {V : Type} (o : OL V) : Prop := o.count = o.objs.length + o.free.length + 1

/-- Numbers stay below 2^32 when `d` is added. -/
def SmallFor {σ : Type} (d : Nat) (s : OL (SObj σ)) : Prop :=
  (∀ p ∈ s.objs, p.1.num + d < 4294967296 ∧ ∀ r, Mentions r p.2.1 → r.num + d < 4294967296) ∧ ∀ r ∈ s.free, r.num + d < 4294967296

/-- Creations and removals. -/
def OnlyCreateRemove {V : Type} : OLOp V → Bool
  | .create _ => true
  | .remove _ => true
  | _ => false

end Spec
open Spec

/-! ### References -/

theorem shiftRef_small {d : Nat} {r : Ref} (h : r.num + d < 4294967296) : shiftRef d r = ⟨r.num + d, r.gen⟩ := by
  rw [shiftRef, Nat.mod_eq_of_lt h]

mutual
theorem fixRefs_shift (d : Nat) : ∀ v, (∀ r, Mentions r v → r.num + d < 4294967296) → ShiftOf d v (fixRefs d v)
  | .leaf, _ => by rw [fixRefs, ShiftOf]
  | .ref r, h => by rw [fixRefs, ShiftOf, shiftRef_small (h r (by rw [Mentions]))]
  | .arr l, h => by
    rw [fixRefs, ShiftOf]
    exact ⟨_, rfl, fixList_shift d l (fun r hr => h r (by rw [Mentions]; exact hr))⟩
  | .dict l, h => by
    rw [fixRefs, ShiftOf]
    exact ⟨_, rfl, fixEntries_shift d l (fun r hr => h r (by rw [Mentions]; exact hr))⟩
theorem fixList_shift (d : Nat) : ∀ l, (∀ r, MentionsIn r l → r.num + d < 4294967296) → ShiftOfList d l (fixList d l)
  | [], _ => by rw [fixList, ShiftOfList]
  | v :: l, h => by
    rw [fixList, ShiftOfList]
    exact ⟨_, _, rfl, fixRefs_shift d v (fun r hr => h r (by rw [MentionsIn]; exact Or.inl hr)),
      fixList_shift d l (fun r hr => h r (by rw [MentionsIn]; exact Or.inr hr))⟩
theorem fixEntries_shift (d : Nat) : ∀ l, (∀ r, MentionsEntry r l → r.num + d < 4294967296) → ShiftOfEntries d l (fixEntries d l)
  | [], _ => by rw [fixEntries, ShiftOfEntries]
  | (k, v) :: l, h => by
    rw [fixEntries, ShiftOfEntries]
    exact ⟨_, _, rfl, fixRefs_shift d v (fun r hr => h r (by rw [MentionsEntry]; exact Or.inl hr)),
      fixEntries_shift d l (fun r hr => h r (by rw [MentionsEntry]; exact Or.inr hr))⟩
end

/-! ### What the loops do -/

section
variable {V W : Type}

theorem addFree_objs (o : OL V) (r : Ref) : (o.addFree r).objs = o.objs := by
  rw [addFree]
  split
  · rfl
  · rw [tryIncrement]; split <;> rfl

theorem addAll_objs (f : Ref → Ref) : ∀ (l : List Ref) (o : OL V), (l.foldl (fun o r => o.addFree (f r)) o).objs = o.objs
  | [], _ => rfl
  | r :: l, o => by rw [List.foldl_cons, addAll_objs f l, addFree_objs]

theorem pushAll_sorted (f : Ref → Ref) (g : V → W) : ∀ (l : List (Ref × V)) (o : OL W), SMap.Sorted o.objs →
    SMap.Sorted (l.foldl (fun o p => o.push (f p.1) (g p.2)) o).objs
  | [], _, h => h
  | p :: l, o, h => by
    rw [List.foldl_cons]
    exact pushAll_sorted f g l _ (by rw [objs_push]; exact SMap.sorted_insert _ _ _ h)

theorem pushAll_other (f : Ref → Ref) (g : V → W) (r : Ref) : ∀ (l : List (Ref × V)) (o : OL W), (∀ p ∈ l, f p.1 ≠ r) →
    SMap.find? r (l.foldl (fun o p => o.push (f p.1) (g p.2)) o).objs = SMap.find? r o.objs
  | [], _, _ => rfl
  | p :: l, o, h => by
    rw [List.foldl_cons, pushAll_other f g r l _ (fun q hq => h q (List.mem_cons_of_mem _ hq)), objs_push,
      SMap.find_insert_ne _ _ (fun e => h p List.mem_cons_self e.symm)]

theorem pushAll_found (f : Ref → Ref) (g : V → W) : ∀ (l : List (Ref × V)) (o : OL W), SMap.Sorted l →
    (∀ p ∈ l, ∀ q ∈ l, f p.1 = f q.1 → p.1 = q.1) → ∀ p ∈ l,
    SMap.find? (f p.1) (l.foldl (fun o p => o.push (f p.1) (g p.2)) o).objs = some (g p.2)
  | [], _, _, _, p, hp => by cases hp
  | q :: l, o, hs, hinj, p, hp => by
    rw [List.foldl_cons]
    rcases List.mem_cons.1 hp with e | hp
    · subst e
      rw [pushAll_other f g _ l _ (fun q hq e => ?_), objs_push, SMap.find_insert_self]
      have := hinj q (List.mem_cons_of_mem _ hq) p List.mem_cons_self e
      exact SMap.lt_ne (hs.1 q hq) this.symm
    · exact pushAll_found f g l _ hs.2 (fun a ha b hb => hinj a (List.mem_cons_of_mem _ ha) b (List.mem_cons_of_mem _ hb)) p hp

end

section
variable {σ : Type}

theorem append_objs_sorted (t s : OL (SObj σ)) (ht : SMap.Sorted t.objs) : SMap.Sorted (appendObjects t s).objs := by
  rw [appendObjects]
  refine pushAll_sorted (shiftRef (difference t)) (fun v : SObj σ => (fixRefs (difference t) v.1, v.2)) _ _ ?_
  rw [addAll_objs]; exact ht

theorem append_other (t s : OL (SObj σ)) (r : Ref) (h : ∀ p ∈ s.objs, shiftRef (difference t) p.1 ≠ r) :
    SMap.find? r (appendObjects t s).objs = SMap.find? r t.objs := by
  rw [appendObjects, pushAll_other (shiftRef (difference t)) (fun v : SObj σ => (fixRefs (difference t) v.1, v.2)) r _ _ h, addAll_objs]

theorem append_found (t s : OL (SObj σ)) (hs : SMap.Sorted s.objs) (hsm : ∀ p ∈ s.objs, p.1.num + difference t < 4294967296) {r : Ref} {v : SObj σ}
    (h : (r, v) ∈ s.objs) :
    SMap.find? ⟨r.num + difference t, r.gen⟩ (appendObjects t s).objs = some (fixRefs (difference t) v.1, v.2) := by
  have := pushAll_found (shiftRef (difference t)) (fun v : SObj σ => (fixRefs (difference t) v.1, v.2)) s.objs
    (s.free.foldl (fun o r => o.addFree (shiftRef (difference t) r)) t) hs (fun p hp q hq e => ?_) (r, v) h
  · rw [shiftRef_small (hsm _ h)] at this
    exact this
  · rw [shiftRef_small (hsm p hp), shiftRef_small (hsm q hq)] at e
    obtain ⟨⟨a, b⟩, _⟩ := p
    obtain ⟨⟨c, d⟩, _⟩ := q
    simp only [Ref.mk.injEq] at e ⊢
    omega

/-! ### C53: appending -/

/-- When the counter of the target is not beyond the number of its objects and free numbers, appending leaves every object of the target as it
is, and adds every object of the source under its number plus the difference, with its stream, and with the difference added to the number of
every reference in it.  A reference of the source that leads nowhere leads nowhere afterwards.
Missing: targets with gaps (`C53_gap_false`), references with object number 0 (`C53_zero_reference_false`), a document appended to itself
(`C54_endless_false`). -/
theorem C53_append_partial (t s : OL (SObj σ)) (ht : Consistent t) (hgap : NoGaps t) (hs : SMap.Sorted s.objs) (hpos : ∀ p ∈ s.objs, 1 ≤ p.1.num)
    (hsm : SmallFor (difference t) s) :
    (∀ r v, t.getObject r = some v → (appendObjects t s).getObject r = some v) ∧
    (∀ r v, s.getObject r = some v → ∃ w, (appendObjects t s).getObject ⟨r.num + difference t, r.gen⟩ = some (w, v.2) ∧ ShiftOf (difference t) v.1 w) ∧
    (∀ r, 1 ≤ r.num → s.getObject r = none → (appendObjects t s).getObject ⟨r.num + difference t, r.gen⟩ = none) ∧
    (∀ r v, (appendObjects t s).getObject r = some v → t.getObject r = some v ∨ ∃ q v', s.getObject q = some v' ∧ r = ⟨q.num + difference t, q.gen⟩) := by
  have hcount : t.count = difference t + 1 := hgap
  have hle : ∀ p ∈ t.objs, p.1.num ≤ difference t := fun p hp => by have := ht.live_lt p hp; omega
  have hso := append_objs_sorted t s ht.sorted
  have hsmall : ∀ p ∈ s.objs, p.1.num + difference t < 4294967296 := fun p hp => (hsm.1 p hp).1
  refine ⟨?_, ?_, ?_, ?_⟩
  · intro r v h
    rw [getObject_eq _ _ ht.sorted] at h
    rw [getObject_eq _ _ hso, append_other t s r, h]
    intro p hp e
    have := hle _ (SMap.find_mem h)
    rw [shiftRef_small (hsmall p hp)] at e
    have := hpos p hp
    subst e
    simp only at *
    omega
  · intro r v h
    rw [getObject_eq _ _ hs] at h
    have hm := SMap.find_mem h
    refine ⟨_, ?_, fixRefs_shift _ v.1 (hsm.1 _ hm).2⟩
    rw [getObject_eq _ _ hso]
    exact append_found t s hs hsmall hm
  · intro r hr h
    rw [getObject_eq _ _ hs] at h
    rw [getObject_eq _ _ hso, append_other t s]
    · cases hf : SMap.find? (⟨r.num + difference t, r.gen⟩ : Ref) t.objs with
      | none => rfl
      | some w =>
        have := hle _ (SMap.find_mem hf)
        simp only at this
        omega
    · intro p hp e
      rw [shiftRef_small (hsmall p hp)] at e
      have e2 : p.1 = r := by
        obtain ⟨⟨a, b⟩, _⟩ := p
        obtain ⟨c, d⟩ := r
        simp only [Ref.mk.injEq] at e ⊢
        omega
      have := SMap.mem_find hs (k := p.1) (v := p.2) hp
      rw [e2, h] at this
      cases this
  · intro r v h
    rw [getObject_eq _ _ hso] at h
    by_cases he : ∃ p ∈ s.objs, shiftRef (difference t) p.1 = r
    · obtain ⟨p, hp, e⟩ := he
      refine Or.inr ⟨p.1, p.2, by rw [getObject_eq _ _ hs]; exact SMap.mem_find hs hp, ?_⟩
      rw [← e, shiftRef_small (hsmall p hp)]
    · left
      rw [append_other t s r (fun p hp e => he ⟨p, hp, e⟩)] at h
      rw [getObject_eq _ _ ht.sorted]; exact h

/-- Whenever an object of the target has a number above the difference, and the source an object that comes to the same place, the object of the target
is lost. -/
theorem C53_gap_false (t s : OL (SObj σ)) (ht : SMap.Sorted t.objs) (hs : SMap.Sorted s.objs) (hsm : SmallFor (difference t) s) {r : Ref} {v w : SObj σ}
    (_ : t.getObject ⟨r.num + difference t, r.gen⟩ = some v) (h : s.getObject r = some w) :
    (appendObjects t s).getObject ⟨r.num + difference t, r.gen⟩ = some (fixRefs (difference t) w.1, w.2) := by
  rw [getObject_eq _ _ hs] at h
  rw [getObject_eq _ _ (append_objs_sorted t s ht)]
  exact append_found t s hs (fun p hp => (hsm.1 p hp).1) (SMap.find_mem h)

/-- Such a target comes from two objects created, the first removed, and reuse of numbers switched off. -/
example : let t := ((OL.new : OL (SObj Nat)).run [.create (.leaf, 10), .create (.leaf, 20), .remove ⟨1, 0⟩, .setReuse false]).2
    let s := ((OL.new : OL (SObj Nat)).run [.create (.leaf, 30)]).2
    difference t = 1 ∧ (t.getObject ⟨2, 0⟩).map (·.2) = some 20 ∧ (s.getObject ⟨1, 0⟩).map (·.2) = some 30 ∧
    ((appendObjects t s).getObject ⟨2, 0⟩).map (·.2) = some 30 := by
  refine ⟨?_, ?_, ?_, ?_⟩ <;> rfl

/-- A reference with object number 0, which leads nowhere, leads to the last object of the target afterwards, if the target has one with number
equal to the difference. -/
theorem C53_zero_reference_false (t s : OL (SObj σ)) (ht : Consistent t) (hgap : NoGaps t) (hs : SMap.Sorted s.objs) (hpos : ∀ p ∈ s.objs, 1 ≤ p.1.num)
    (hsm : SmallFor (difference t) s) (hd : difference t < 4294967296) {v : SObj σ} (hv : t.getObject ⟨difference t, 0⟩ = some v) :
    fixRefs (difference t) (.ref ⟨0, 0⟩) = .ref ⟨difference t, 0⟩ ∧ (appendObjects t s).getObject ⟨difference t, 0⟩ = some v := by
  refine ⟨?_, (C53_append_partial t s ht hgap hs hpos hsm).1 _ _ hv⟩
  rw [fixRefs, shiftRef_small (by simpa using hd)]
  simp

end

/-! ### The list stays consistent -/

section
variable {V W : Type}

theorem addFree_num_ne (o : OL V) (r : Ref) (h : Consistent o) (hf : ∀ f ∈ o.free, f.num ≠ r.num) (hl : ∀ p ∈ o.objs, p.1.num ≠ r.num) :
    Consistent (o.addFree r) := by
  have ho := addFree_objs o r
  have hcu : o.count ≤ (o.addFree r).count ∧ r.num < (o.addFree r).count ∧ (o.addFree r).unavail = o.unavail := by
    rw [addFree, if_neg (show ¬ (o.free.dropWhile (fun x => Ref.lt x r)).head? = some r from
      fun hh => hf r ((List.dropWhile_sublist _).mem (List.mem_of_mem_head? hh)) rfl), tryIncrement]
    dsimp only
    split
    · exact ⟨by simp only; omega, by simp only; omega, rfl⟩
    · exact ⟨Nat.le_refl _, by simp only; omega, rfl⟩
  refine ⟨by rw [ho]; exact h.sorted, ?_, by rw [ho]; exact h.live_one, ?_, ?_, ?_, addFree_nodup o r h.free_nodup (fun hm => hf r hm rfl), by rw [hcu.2.2]; exact h.unavail⟩
  · rw [ho]; exact fun p hp => Nat.lt_of_lt_of_le (h.live_lt p hp) hcu.1
  · intro f hm
    rcases (addFree_mem o r f).1 hm with e | e
    · rw [e]; exact hcu.2.1
    · exact Nat.lt_of_lt_of_le (h.free_lt f e) hcu.1
  · intro f hm f' hm' e
    rcases (addFree_mem o r f).1 hm with e1 | e1 <;> rcases (addFree_mem o r f').1 hm' with e2 | e2
    · rw [e1, e2]
    · exact absurd (by rw [← e, e1]) (hf f' e2)
    · exact absurd (by rw [e, e2]) (hf f e1)
    · exact h.free_one f e1 f' e2 e
  · rw [ho]
    intro f hm p hp e
    rcases (addFree_mem o r f).1 hm with e1 | e1
    · exact hl p hp (by rw [← e, e1])
    · exact h.free_live f e1 p hp e

theorem push_num_ne (o : OL V) (r : Ref) (v : V) (h : Consistent o) (hf : ∀ f ∈ o.free, f.num ≠ r.num) (hl : ∀ p ∈ o.objs, p.1.num ≠ r.num) :
    Consistent (o.push r v) ∧ (o.push r v).free = o.free := by
  have ho := objs_push o r v
  have hcu : o.count ≤ (o.push r v).count ∧ r.num < (o.push r v).count ∧ (o.push r v).unavail = o.unavail ∧ (o.push r v).free = o.free := by
    rw [push, tryIncrement]
    dsimp only
    split
    · exact ⟨by simp only; omega, by simp only; omega, rfl, rfl⟩
    · exact ⟨Nat.le_refl _, by simp only; omega, rfl, rfl⟩
  obtain ⟨c1, c2, c3, c4⟩ := hcu
  refine ⟨⟨by rw [ho]; exact SMap.sorted_insert _ _ _ h.sorted, ?_, ?_, ?_, by rw [c4]; exact h.free_one, ?_, by rw [c4]; exact h.free_nodup, by rw [c3]; exact h.unavail⟩, c4⟩
  · rw [ho]; intro p hp
    rcases SMap.mem_insert hp with e | e
    · rw [e]; exact c2
    · exact Nat.lt_of_lt_of_le (h.live_lt p e) c1
  · rw [ho]; intro p hp q hq e
    rcases SMap.mem_insert hp with e1 | e1 <;> rcases SMap.mem_insert hq with e2 | e2
    · rw [e1, e2]
    · exact absurd (by rw [← e, e1]) (hl q e2)
    · exact absurd (by rw [e, e2]) (hl p e1)
    · exact h.live_one p e1 q e2 e
  · rw [c4]; exact fun f hm => Nat.lt_of_lt_of_le (h.free_lt f hm) c1
  · rw [c4, ho]; intro f hm p hp e
    rcases SMap.mem_insert hp with e1 | e1
    · rw [e1] at e; exact hf f hm e
    · exact h.free_live f hm p e1 e

theorem addAll_consistent (g : Ref → Ref) : ∀ (l : List Ref) (o : OL V), Consistent o → (l.map (fun r => (g r).num)).Nodup →
    (∀ r ∈ l, ∀ f ∈ o.free, f.num ≠ (g r).num) → (∀ r ∈ l, ∀ p ∈ o.objs, p.1.num ≠ (g r).num) →
    Consistent (l.foldl (fun o r => o.addFree (g r)) o) ∧
    ∀ f ∈ (l.foldl (fun o r => o.addFree (g r)) o).free, f ∈ o.free ∨ ∃ r ∈ l, f = g r
  | [], o, h, _, _, _ => ⟨h, fun f hf => Or.inl hf⟩
  | a :: l, o, h, hn, hf, hl => by
    rw [List.foldl_cons]
    rw [List.map_cons, List.nodup_cons] at hn
    have h1 := addFree_num_ne o (g a) h (hf a List.mem_cons_self) (hl a List.mem_cons_self)
    obtain ⟨h2, h3⟩ := addAll_consistent g l _ h1 hn.2 (fun r hr f hm => by
      rcases (addFree_mem o _ f).1 hm with e | e
      · intro e2
        exact hn.1 (List.mem_map.2 ⟨r, hr, by rw [← e2, e]⟩)
      · exact hf r (List.mem_cons_of_mem _ hr) f e) (fun r hr p hp => by
      rw [addFree_objs] at hp; exact hl r (List.mem_cons_of_mem _ hr) p hp)
    refine ⟨h2, fun f hm => ?_⟩
    rcases h3 f hm with e | ⟨r, hr, e⟩
    · rcases (addFree_mem o _ f).1 e with e | e
      · exact Or.inr ⟨a, List.mem_cons_self, e⟩
      · exact Or.inl e
    · exact Or.inr ⟨r, List.mem_cons_of_mem _ hr, e⟩

theorem pushAll_consistent (g : Ref → Ref) (c : V → W) : ∀ (l : List (Ref × V)) (o : OL W), Consistent o → (l.map (fun p => (g p.1).num)).Nodup →
    (∀ q ∈ l, ∀ f ∈ o.free, f.num ≠ (g q.1).num) → (∀ q ∈ l, ∀ p ∈ o.objs, p.1.num ≠ (g q.1).num) →
    Consistent (l.foldl (fun o p => o.push (g p.1) (c p.2)) o)
  | [], o, h, _, _, _ => h
  | a :: l, o, h, hn, hf, hl => by
    rw [List.foldl_cons]
    rw [List.map_cons, List.nodup_cons] at hn
    obtain ⟨h1, h1f⟩ := push_num_ne o (g a.1) (c a.2) h (hf a List.mem_cons_self) (hl a List.mem_cons_self)
    refine pushAll_consistent g c l _ h1 hn.2 (fun q hq f hm => ?_) (fun q hq p hp => ?_)
    · rw [h1f] at hm; exact hf q (List.mem_cons_of_mem _ hq) f hm
    · rw [objs_push] at hp
      rcases SMap.mem_insert hp with e | e
      · intro e2
        rw [e] at e2
        exact hn.1 (List.mem_map.2 ⟨q, hq, e2.symm⟩)
      · exact hl q (List.mem_cons_of_mem _ hq) p e

theorem nodup_map_of {α β : Type} (f : α → β) : ∀ (l : List α), l.Nodup → (∀ a ∈ l, ∀ b ∈ l, f a = f b → a = b) → (l.map f).Nodup
  | [], _, _ => List.nodup_nil
  | a :: l, hn, hi => by
    rw [List.map_cons, List.nodup_cons]
    rw [List.nodup_cons] at hn
    refine ⟨fun hm => ?_, nodup_map_of f l hn.2 (fun x hx y hy => hi x (List.mem_cons_of_mem _ hx) y (List.mem_cons_of_mem _ hy))⟩
    obtain ⟨b, hb, e⟩ := List.mem_map.1 hm
    exact hn.1 (by rw [← hi b (List.mem_cons_of_mem _ hb) a List.mem_cons_self e]; exact hb)

theorem sorted_nums_nodup (f : Nat → Nat) : ∀ (l : List (Ref × V)), SMap.Sorted l →
    (∀ p ∈ l, ∀ q ∈ l, f p.1.num = f q.1.num → p.1 = q.1) → (l.map (fun p => f p.1.num)).Nodup
  | [], _, _ => List.nodup_nil
  | a :: l, hs, hi => by
    rw [List.map_cons, List.nodup_cons]
    refine ⟨fun hm => ?_, sorted_nums_nodup f l hs.2 (fun x hx y hy => hi x (List.mem_cons_of_mem _ hx) y (List.mem_cons_of_mem _ hy))⟩
    obtain ⟨b, hb, e⟩ := List.mem_map.1 hm
    exact SMap.lt_ne (hs.1 b hb) (hi a List.mem_cons_self b (List.mem_cons_of_mem _ hb) e.symm)

/-- After appending, no two objects share a number, no free number is in use and the counter is above all: objects created later get numbers of their
own (`C30_fresh_partial` starts from such a list). -/
theorem C53_consistent {σ : Type} (t s : OL (SObj σ)) (ht : Consistent t) (hgap : NoGaps t) (hs : Consistent s) (hpos : ∀ p ∈ s.objs, 1 ≤ p.1.num)
    (hposf : ∀ f ∈ s.free, 1 ≤ f.num) (hsm : SmallFor (difference t) s) : Consistent (appendObjects t s) := by
  have hcount : t.count = difference t + 1 := hgap
  have hsh : ∀ p ∈ s.objs, (shiftRef (difference t) p.1).num = p.1.num + difference t := fun p hp => by rw [shiftRef_small (hsm.1 p hp).1]
  have hshf : ∀ f ∈ s.free, (shiftRef (difference t) f).num = f.num + difference t := fun p hp => by rw [shiftRef_small (hsm.2 p hp)]
  obtain ⟨h1, h2⟩ := addAll_consistent (shiftRef (difference t)) s.free t ht
    (nodup_map_of _ _ hs.free_nodup (fun a ha b hb e => by
      rw [hshf a ha, hshf b hb] at e; exact hs.free_one a ha b hb (by omega)))
    (fun r hr f hf e => by have := ht.free_lt f hf; have := hposf r hr; rw [hshf r hr] at e; omega)
    (fun r hr p hp e => by have := ht.live_lt p hp; have := hposf r hr; rw [hshf r hr] at e; omega)
  rw [appendObjects]
  refine pushAll_consistent (shiftRef (difference t)) (fun v : SObj σ => (fixRefs (difference t) v.1, v.2)) s.objs _ h1 ?_ ?_ ?_
  · refine sorted_nums_nodup (fun n => (n + difference t) % 4294967296) s.objs hs.sorted (fun p hp q hq e => ?_)
    have e1 := hsh p hp
    have e2 := hsh q hq
    simp only [shiftRef] at e1 e2
    refine hs.live_one p hp q hq ?_
    omega
  · intro q hq f hf e
    rw [hsh q hq] at e
    rcases h2 f hf with h | ⟨r, hr, h⟩
    · have := ht.free_lt f h; have := hpos q hq; omega
    · rw [h, hshf r hr] at e
      exact hs.free_live r hr q hq (by omega)
  · intro q hq p hp e
    rw [addAll_objs] at hp
    rw [hsh q hq] at e
    have := ht.live_lt p hp; have := hpos q hq; omega

end

/-! ### Documents made in memory have no gaps -/

section
variable {V : Type}

theorem insert_new_length (k : Ref) (v : V) : ∀ (l : List (Ref × V)), (∀ p ∈ l, p.1 ≠ k) → (SMap.insert k v l).length = l.length + 1
  | [], _ => rfl
  | (k', v') :: l, h => by
    rw [SMap.insert, if_neg (fun e => h _ List.mem_cons_self e.symm)]
    split
    · rfl
    · rw [List.length_cons, insert_new_length k v l (fun p hp => h p (List.mem_cons_of_mem _ hp)), List.length_cons]

theorem erase_mem_length (k : Ref) (v : V) : ∀ (l : List (Ref × V)), (k, v) ∈ l → (SMap.erase k l).length + 1 = l.length
  | [], h => by cases h
  | (k', v') :: l, h => by
    rw [SMap.erase]
    split
    · rfl
    · next hne =>
      rcases List.mem_cons.1 h with e | h
      · cases e; exact absurd rfl hne
      · rw [List.length_cons, erase_mem_length k v l h, List.length_cons]

theorem addFree_length (o : OL V) (r : Ref) (hr : r ∉ o.free) : (o.addFree r).free.length = o.free.length + 1 := by
  rw [addFree, if_neg (show ¬ (o.free.dropWhile (fun x => Ref.lt x r)).head? = some r from
    fun hh => hr ((List.dropWhile_sublist _).mem (List.mem_of_mem_head? hh)))]
  have : ∀ o' : OL V, (o'.tryIncrement r).free = o'.free := by
    intro o'; unfold tryIncrement; split <;> rfl
  rw [this]
  have := congrArg List.length (List.takeWhile_append_dropWhile (p := fun y => Ref.lt y r) (l := o.free))
  rw [List.length_append] at this
  simp only [List.length_append, List.length_cons]
  omega

/-- The generations in use after at most `k` removals. -/
def GensBelow (k : Nat) (o : OL V) : Prop := (∀ p ∈ o.objs, p.1.gen ≤ k) ∧ ∀ f ∈ o.free, f.gen ≤ k

/-- The numbers 1 to `count - 1` are in use or free, and no others. -/
structure Dense (k : Nat) (o : OL V) : Prop where
  cons : Consistent o
  gaps : NoGaps o
  gens : GensBelow k o
  posObjs : ∀ p ∈ o.objs, 1 ≤ p.1.num
  posFree : ∀ f ∈ o.free, 1 ≤ f.num
  reuse : o.reuse = true
  noUnavail : o.unavail = []

theorem dense_new : Dense 0 (OL.new : OL V) :=
  ⟨consistent_new, rfl, by constructor <;> simp [OL.new], by simp [OL.new], by simp [OL.new], rfl, rfl⟩

theorem dense_step (k : Nat) (o : OL V) (op : OLOp V) (hd : Dense k o) (hk : k < 65534) (hop : OnlyCreateRemove op = true) (hcount : o.count < 65535) :
    Dense (k + 1) (o.step op).2 ∧ (o.step op).2.count ≤ o.count + 1 := by
  obtain ⟨hc, hg, ⟨g1, g2⟩, p1, p2, hre, hun⟩ := hd
  have hg : o.count = o.objs.length + o.free.length + 1 := hg
  have hinv := step_inv o (fun _ => none) op hc (fun _ _ h => by cases h)
    (by cases op <;> simp [OnlyCreateRemove] at hop <;> rfl) (Or.inl hcount)
  have hcons : Consistent (o.step op).2 := hinv.1.1
  have hcnt : (o.step op).2.count ≤ o.count + creations [op] := hinv.1.2.2
  refine ⟨⟨hcons, ?_, ?_, ?_, ?_, ?_, ?_⟩, ?_⟩
  all_goals
    cases op with
    | push r v => simp [OnlyCreateRemove] at hop
    | clear => simp [OnlyCreateRemove] at hop
    | setReuse b => simp [OnlyCreateRemove] at hop
    | remove r =>
      rcases remove_cases o r hc.sorted with ⟨h, hno⟩ | h | ⟨v, hv, h⟩
      · simp only [OL.step, h, NoGaps, GensBelow]
        first
          | exact hg
          | exact ⟨fun p hp => Nat.le_succ_of_le (g1 p hp), fun f hf => Nat.le_succ_of_le (g2 f hf)⟩
          | exact p1
          | exact p2
          | exact hre
          | exact hun
          | omega
      · simp only [OL.step, h, NoGaps, GensBelow]
        first
          | exact hg
          | exact ⟨fun p hp => Nat.le_succ_of_le (g1 p hp), fun f hf => Nat.le_succ_of_le (g2 f hf)⟩
          | exact p1
          | exact p2
          | exact hre
          | exact hun
          | omega
      · have hgen := g1 _ hv
        have hsafe : o.safeAddFree r = o.addFree ⟨r.num, r.gen + 1⟩ := by
          rw [safeAddFree, tryAddFree, if_neg (by simp only [maxXRefGen]; simp only at hgen; omega)]
        have hnot : (⟨r.num, r.gen + 1⟩ : Ref) ∉ o.free := fun hm => hc.free_live _ hm _ hv rfl
        have hlt := hc.live_lt _ hv
        obtain ⟨a1, a2, a3, a4, a5⟩ := addFree_rest o ⟨r.num, r.gen + 1⟩ hlt
        have hlen := addFree_length o _ hnot
        have hel := erase_mem_length r v o.objs hv
        simp only [OL.step, h, NoGaps, GensBelow, hsafe]
        first
          | (rw [a2, hlen]; omega)
          | (refine ⟨fun p hp => Nat.le_succ_of_le (g1 p (SMap.mem_erase hp)), fun f hf => ?_⟩
             rcases (addFree_mem o _ f).1 hf with e | e
             · subst e; simp only at hgen ⊢; omega
             · exact Nat.le_succ_of_le (g2 f e))
          | exact fun p hp => p1 p (SMap.mem_erase hp)
          | (intro f hf
             rcases (addFree_mem o _ f).1 hf with e | e
             · subst e; exact p1 _ hv
             · exact p2 f e)
          | (rw [a5]; exact hre)
          | (rw [a3]; exact hun)
          | (rw [a2]; omega)
    | create v =>
      cases hfr : o.free with
      | nil =>
        rw [hfr] at hg
        have hnf : o.nextFree = (.ok ⟨o.count, 0⟩, o) := by
          rw [nextFree, hre, hfr]
          dsimp only
          rw [hun, Nat.mod_eq_of_lt (by omega), nextNum_small _ (by simp) _ _ hcount]
        have hfresh : ∀ p ∈ o.objs, p.1 ≠ ⟨o.count, 0⟩ := fun p hp e => by
          have := hc.live_lt p hp; rw [e] at this; simp only at this; omega
        have hil := insert_new_length (⟨o.count, 0⟩ : Ref) v o.objs hfresh
        simp only [List.length_nil] at hg
        simp only [OL.step, OL.create, hnf, NoGaps, GensBelow, push, tryIncrement, ge_iff_le, Nat.le_refl, if_true, hfr, List.length_nil, hil]
        all_goals first
          | omega
          | (refine ⟨fun p hp => ?_, by simp⟩
             rcases SMap.mem_insert hp with e | e
             · rw [e]; exact Nat.zero_le _
             · exact Nat.le_succ_of_le (g1 p e))
          | (intro p hp
             rcases SMap.mem_insert hp with e | e
             · rw [e]; simp only; omega
             · exact p1 p e)
          | simp
          | exact hre
          | exact hun
      | cons r rest =>
        rw [hfr] at hg g2 p2
        have hnf : o.nextFree = (.ok r, { o with free := rest }) := by
          rw [nextFree, hre, hfr]
        have hrf : r ∈ o.free := by rw [hfr]; exact List.mem_cons_self
        have hlt := hc.free_lt r hrf
        have hfresh : ∀ p ∈ o.objs, p.1 ≠ r := fun p hp e => hc.free_live r hrf p hp (by rw [e])
        have hil := insert_new_length r v o.objs hfresh
        have hnge : ¬ o.count ≤ r.num := by omega
        simp only [List.length_cons] at hg
        simp only [OL.step, OL.create, hnf, NoGaps, GensBelow, push, tryIncrement, ge_iff_le, if_neg hnge, hil]
        first
          | omega
          | (refine ⟨fun p hp => ?_, fun f hf => Nat.le_succ_of_le (g2 f (List.mem_cons_of_mem _ hf))⟩
             rcases SMap.mem_insert hp with e | e
             · rw [e]; exact Nat.le_succ_of_le (g2 r List.mem_cons_self)
             · exact Nat.le_succ_of_le (g1 p e))
          | (intro p hp
             rcases SMap.mem_insert hp with e | e
             · rw [e]; exact p2 r List.mem_cons_self
             · exact p1 p e)
          | exact fun f hf => p2 f (List.mem_cons_of_mem _ hf)
          | exact hre
          | exact hun

theorem dense_run (ops : List (OLOp V)) : ∀ (k : Nat) (o : OL V), Dense k o → (∀ op ∈ ops, OnlyCreateRemove op = true) → k + ops.length ≤ 65534 →
    o.count + ops.length ≤ 65535 → Dense (k + ops.length) (o.run ops).2 := by
  induction ops with
  | nil => intro k o h _ _ _; exact h
  | cons op rest ih =>
    intro k o h hops hk hcount
    rw [List.length_cons] at hk hcount ⊢
    obtain ⟨d, c⟩ := dense_step k o op h (by omega) (hops op List.mem_cons_self) (by omega)
    have := ih (k + 1) _ d (fun x hx => hops x (List.mem_cons_of_mem _ hx)) (by omega) (by omega)
    have e : k + 1 + rest.length = k + (rest.length + 1) := by omega
    rw [e] at this
    exact this

/-- Documents made in memory by up to 65534 creations and removals meet what `C53_append_partial` and `C53_consistent` ask of the target and of the source. -/
theorem C53_in_memory (ops : List (OLOp V)) (hops : ∀ op ∈ ops, OnlyCreateRemove op = true) (hlen : ops.length ≤ 65534) :
    Consistent ((OL.new : OL V).run ops).2 ∧ NoGaps ((OL.new : OL V).run ops).2 ∧ SMap.Sorted ((OL.new : OL V).run ops).2.objs ∧
    (∀ p ∈ ((OL.new : OL V).run ops).2.objs, 1 ≤ p.1.num) ∧ ∀ f ∈ ((OL.new : OL V).run ops).2.free, 1 ≤ f.num := by
  have h := dense_run ops 0 OL.new dense_new hops (by omega) (by show 1 + ops.length ≤ 65535; omega)
  exact ⟨h.cons, h.gaps, h.cons.sorted, h.posObjs, h.posFree⟩

end

/-- A document with two objects, the second naming the first, appended to one with a free number. -/
example : let t := ((OL.new : OL (SObj Nat)).run [.create (.leaf, 10), .create (.leaf, 20), .remove ⟨1, 0⟩]).2
    let s := ((OL.new : OL (SObj Nat)).run [.create (.leaf, 30), .create (.arr [.ref ⟨1, 0⟩], 40)]).2
    difference t = 2 ∧ ((appendObjects t s).getObject ⟨2, 0⟩).map (·.2) = some 20 ∧ (appendObjects t s).getObject ⟨4, 0⟩ = some (.arr [.ref ⟨3, 0⟩], 40) ∧
    SmallFor (difference t) s := by
  refine ⟨rfl, rfl, rfl, ⟨?_, ?_⟩⟩
  · intro p hp
    have hp : p = (⟨1, 0⟩, (.leaf, 30)) ∨ p = (⟨2, 0⟩, (.arr [.ref ⟨1, 0⟩], 40)) := by
      have : p ∈ [((⟨1, 0⟩ : Ref), ((.leaf : OVal), 30)), (⟨2, 0⟩, (.arr [.ref ⟨1, 0⟩], 40))] := hp
      simpa using this
    rcases hp with e | e
    · subst e
      exact ⟨by show 1 + 2 < _; omega, fun r hr => by simp [Mentions] at hr⟩
    · subst e
      refine ⟨by show 2 + 2 < _; omega, fun r hr => ?_⟩
      simp [Mentions, MentionsIn] at hr
      subst hr
      show 1 + 2 < _; omega
  · intro r hr; cases hr

/-! ### C54: inserting a page of another document -/

section
variable {σ : Type}

theorem find_of_mem {l : List (Ref × SObj σ)} {r q : Ref} (hs : SMap.Sorted l) {v : SObj σ} (hm : (q, v) ∈ l) (hlt : Ref.lt r q = true) :
    ∃ p, l.find? (fun p => Ref.lt r p.1) = some p ∧ p ∈ l ∧ p.1.num ≤ q.num := by
  induction l with
  | nil => cases hm
  | cons a l ih =>
    obtain ⟨k, x⟩ := a
    cases hk : Ref.lt r k with
    | true =>
      refine ⟨(k, x), by rw [List.find?_cons]; dsimp only; rw [hk], List.mem_cons_self, ?_⟩
      rcases List.mem_cons.1 hm with e | hm
      · cases e; exact Nat.le_refl _
      · have := hs.1 _ hm
        have h2 : Ref.lt k q = true := this
        simp only [Ref.lt] at h2
        split at h2
        · simp only; omega
        · simp at h2; simp only; omega
    | false =>
      rcases List.mem_cons.1 hm with e | hm
      · cases e; rw [hlt] at hk; cases hk
      · obtain ⟨p, h1, h2, h3⟩ := ih hs.2 hm
        exact ⟨p, by rw [List.find?_cons]; dsimp only; rw [hk]; exact h1, List.mem_cons_of_mem _ h2, h3⟩

theorem copies_endless (d : Nat) (hd : 0 < d) (k : Nat) : ∀ (o : OL (SObj σ)) (r : Ref) (v : SObj σ), SMap.Sorted o.objs → (r, v) ∈ o.objs →
    r.num + k * d < 4294967296 → insertCopies d k o (some r) = .error .diverge := by
  induction k with
  | zero => intro o r v _ _ _; rw [insertCopies.eq_def]
  | succ k ih =>
    intro o r v hs hm hb
    have hb' : r.num + d + k * d < 4294967296 := by rw [Nat.succ_mul] at hb; omega
    rw [insertCopies, getObject_eq _ _ hs, SMap.mem_find hs hm]
    dsimp only
    rw [shiftRef_small (by omega)]
    obtain ⟨o', ho'⟩ : ∃ x, x = o.push ⟨r.num + d, r.gen⟩ (fixRefs d v.1, v.2) := ⟨_, rfl⟩
    rw [← ho']
    have hs' : SMap.Sorted o'.objs := by rw [ho', objs_push]; exact SMap.sorted_insert _ _ _ hs
    have hm' : ((⟨r.num + d, r.gen⟩ : Ref), (fixRefs d v.1, v.2)) ∈ o'.objs := by
      rw [ho', objs_push]; exact SMap.find_mem (SMap.find_insert_self _ _ _)
    obtain ⟨p, h1, h2, h3⟩ := find_of_mem (r := r) hs' hm' (C25_reference_order.2.2.2.1 _ _ (by show r.num < r.num + d; omega))
    rw [nextKey, h1]
    exact ih o' p.1 p.2 hs' h2 (by simp only at h3; omega)

/-- `InsertDocumentPageAt` copies the objects of the document into itself, and there is always a next one: after any number `k` of copies the loop has
not ended, as long as numbers fit in 32 bits.  When the document has free numbers the loop before uses an invalid iterator, unless it has nothing to
insert.  So it ends for no document, whatever the other document and the pages are. -/
theorem C54_endless_false (t : OL (SObj σ)) (hs : SMap.Sorted t.objs) {r : Ref} {v : SObj σ} {rest : List (Ref × SObj σ)} (hne : t.objs = (r, v) :: rest)
    (k : Nat) (hk : r.num + k * difference t < 4294967296) :
    insertObjects k t = .error .diverge ∨ (t.free ≠ [] ∧ insertObjects k t = .error .ub) := by
  have hd : 0 < difference t := by rw [difference, hne, List.length_cons]; omega
  have hloop := copies_endless (difference t) hd k t r v hs (by rw [hne]; exact List.mem_cons_self) hk
  have hfree : ∀ l : List Ref, insertFree t (difference t) l = .ok () ∨ (l ≠ [] ∧ insertFree t (difference t) l = .error .ub) := by
    intro l
    induction l with
    | nil => exact Or.inl rfl
    | cons a l ih =>
      rw [insertFree]
      split
      · rcases ih with h | ⟨_, h⟩
        · exact Or.inl h
        · exact Or.inr ⟨by simp, h⟩
      · exact Or.inr ⟨by simp, rfl⟩
  rw [insertObjects]
  rcases hfree t.free with h | ⟨h1, h2⟩
  · left
    rw [h, hne]
    exact hloop
  · right
    rw [h2]
    exact ⟨h1, rfl⟩

/-- In particular for a document without free numbers. -/
theorem C54_endless_no_free_false (t : OL (SObj σ)) (hs : SMap.Sorted t.objs) {r : Ref} {v : SObj σ} {rest : List (Ref × SObj σ)} (hne : t.objs = (r, v) :: rest)
    (hfree : t.free = []) (k : Nat) (hk : r.num + k * difference t < 4294967296) : insertObjects k t = .error .diverge := by
  rcases C54_endless_false t hs hne k hk with h | ⟨h, _⟩
  · exact h
  · exact absurd hfree h

example : let t := ((OL.new : OL (SObj Nat)).run [.create (.leaf, 10), .create (.leaf, 20)]).2
    insertObjects 1000000 t = .error .diverge := by
  refine C54_endless_no_free_false _ ?_ (r := ⟨1, 0⟩) (v := (.leaf, 10)) (rest := [(⟨2, 0⟩, (.leaf, 20))]) rfl rfl _ ?_
  · exact (C53_in_memory _ (by simp [OnlyCreateRemove]) (by simp)).2.2.1
  · show 1 + 1000000 * 2 < _
    omega

end

/-! ### C107: appending a range of pages -/

section
variable {α : Type}

theorem deletePages_mid (i : Nat) (a : List α) (hi : a.length = i) : ∀ (m b : List α), deletePages i m.length (a ++ (m ++ b)) = (.ok (), a ++ b)
  | [], b => rfl
  | x :: m, b => by
    rw [List.length_cons, deletePages, dropPage, if_pos (by simp; omega)]
    dsimp only
    rw [List.eraseIdx_append_of_length_le (by omega), hi, Nat.sub_self]
    exact deletePages_mid i a hi m b

/-- `AppendDocumentPages` with a range inside the source adds exactly the pages of the range, in order. -/
theorem C107_range_partial (t s : List α) (i n : Nat) (hin : i + n ≤ s.length) (hsize : t.length + s.length < 4294967296) :
    appendRange t s i n = (.ok (), t ++ (s.drop i).take n) := by
  obtain ⟨A, hA⟩ : ∃ A, A = s.take i := ⟨_, rfl⟩
  obtain ⟨M, hM⟩ : ∃ M, M = (s.drop i).take n := ⟨_, rfl⟩
  obtain ⟨B, hB⟩ : ∃ B, B = (s.drop i).drop n := ⟨_, rfl⟩
  have hs : s = A ++ (M ++ B) := by rw [hA, hM, hB, List.take_append_drop, List.take_append_drop]
  have lA : A.length = i := by rw [hA, List.length_take]; omega
  have lM : M.length = n := by rw [hM, List.length_take, List.length_drop]; omega
  have lB : B.length = s.length - (i + n) := by rw [hB, List.length_drop, List.length_drop]; omega
  rw [appendRange]
  have r1 : (i + n) % 4294967296 = i + n := Nat.mod_eq_of_lt (by omega)
  have r2 : (s.length + 4294967296 - (i + n)) % 4294967296 = B.length := by
    rw [lB, show s.length + 4294967296 - (i + n) = (s.length - (i + n)) + 4294967296 by omega, Nat.add_mod_right, Nat.mod_eq_of_lt (by omega)]
  have r3 : (i + n + t.length) % 4294967296 = i + n + t.length := Nat.mod_eq_of_lt (by omega)
  have r4 : t.length % 4294967296 = t.length := Nat.mod_eq_of_lt (by omega)
  rw [r1, r3, r4, pagesAfter, r2]
  have d1 := deletePages_mid (i + n + t.length) (t ++ A ++ M) (by rw [List.length_append, List.length_append]; omega) B []
  have e1 : t ++ s = t ++ A ++ M ++ (B ++ []) := by rw [hs]; simp
  rw [e1, d1, deleteBefore]
  have d2 := deletePages_mid t.length t rfl A M
  rw [lA] at d2
  rw [List.append_nil, List.append_assoc, ← hM]
  exact d2

/-- With a range that goes beyond the pages of the source it fails, but only after all pages of the source have been added, and they stay. -/
theorem C107_beyond_false (t s : List α) (i n : Nat) (hin : s.length < i + n) (hsmall : i + n + t.length < 4294967296) :
    appendRange t s i n = (raise .PageNotFound, t ++ s) := by
  rw [appendRange]
  have r1 : (i + n) % 4294967296 = i + n := Nat.mod_eq_of_lt (by omega)
  have r2 : (s.length + 4294967296 - (i + n)) % 4294967296 = s.length + 4294967296 - (i + n) := Nat.mod_eq_of_lt (by omega)
  have r3 : (i + n + t.length) % 4294967296 = i + n + t.length := Nat.mod_eq_of_lt (by omega)
  obtain ⟨c, hc⟩ : ∃ c, s.length + 4294967296 - (i + n) = c + 1 := ⟨s.length + 4294967296 - (i + n) - 1, by omega⟩
  rw [r1, r3, pagesAfter, r2, hc]
  rw [deletePages, dropPage, if_neg (by rw [List.length_append]; omega)]
  rfl

example : appendRange [1, 2] [10, 11, 12, 13] 1 2 = (.ok (), [1, 2, 11, 12]) := C107_range_partial _ _ _ _ (by decide) (by decide)
example : appendRange [1, 2] [10, 11, 12, 13] 3 2 = (raise .PageNotFound, [1, 2, 10, 11, 12, 13]) := C107_beyond_false _ _ _ _ (by decide) (by decide)

end

end Pdfmm
