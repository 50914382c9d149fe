import Verif.Document.OutlineProps
import Verif.XRef.TextProps
/-
Taking an item out of an outline.
-/
set_option autoImplicit false
namespace Pdfmm
open Spec

/-- What taking out the item between the children `A` and `B` of `p` changes in another item `x`. -/
def remChange (p : Nat) (A B : List Nat) (x : Nat) (it : OItem) : OItem :=
  { parent := it.parent
    kParent := it.kParent
    next := if A.getLast? = some x then B.head? else it.next
    kNext := if A.getLast? = some x then B.head? else it.kNext
    prev := if B.head? = some x then A.getLast? else it.prev
    kPrev := if B.head? = some x then A.getLast? else it.kPrev
    first := if x = p then (A ++ B).head? else it.first
    kFirst := if x = p then (A ++ B).head? else it.kFirst
    last := if x = p then (A ++ B).getLast? else it.last
    kLast := if x = p then (A ++ B).getLast? else it.kLast }

theorem remove_outline {h h' : OHeap} {root p r : Nat} {ch : Nat → List Nat} (o : IsOutline h root ch) {A B : List Nat} (hp : ch p = A ++ r :: B)
    (hr : ch r = []) (hn : h'.next = h.next) (hgone : h'.get r = none)
    (hold : ∀ x, x ≠ r → h'.get x = (h.get x).map (remChange p A B x)) :
    IsOutline h' root (fun x => if x = p then A ++ B else ch x) := by
  have hrm : r ∈ ch p := by rw [hp]; simp
  obtain ⟨⟨pt, hlive⟩, ⟨rt, hrt, hrpar⟩, hpr⟩ := o.alive hrm
  have hA : ∀ a ∈ A, a ∈ ch p := fun a ha => by rw [hp]; exact List.mem_append_left _ ha
  have hB : ∀ b ∈ B, b ∈ ch p := fun b hb => by rw [hp]; exact List.mem_append_right _ (List.mem_cons_of_mem _ hb)
  have hnd : (A ++ r :: B).Nodup := by rw [← hp]; exact o.nodup p
  obtain ⟨ndA, ndrB, ndAB⟩ := List.nodup_append.1 hnd
  obtain ⟨ndr, ndB⟩ := List.nodup_cons.1 ndrB
  have hdis : ∀ a ∈ A, ∀ b ∈ B, a ≠ b := fun a ha b hb => ndAB a ha b (List.mem_cons_of_mem _ hb)
  have hrA : r ∉ A := fun h => ndAB r h r List.mem_cons_self rfl
  have hother : ∀ x, x ≠ p → ∀ c, c ∈ ch x → A.getLast? ≠ some c ∧ B.head? ≠ some c := by
    intro x hx c hc
    refine ⟨fun e => ?_, fun e => ?_⟩
    · exact hx (o.parent_eq hc (hA c (List.mem_of_getLast? e)))
    · exact hx (o.parent_eq hc (hB c (List.mem_of_mem_head? e)))
  have hnr : ∀ x, x ≠ p → r ∉ ch x := fun x hx hm => hx (o.parent_eq hm hrm)
  refine ⟨?_, ?_, ?_, ?_, ?_, ?_, ?_, ?_⟩
  · obtain ⟨it, t1, t2, t3, t4⟩ := o.top
    have hpar : root ∉ ch p := fun hm => by
      obtain ⟨_, ⟨i, hi, hi2⟩, _⟩ := o.alive hm
      rw [t1] at hi; cases hi; rw [t2] at hi2; cases hi2
    have hne : root ≠ r := fun e => hpar (e ▸ hrm)
    have hrA : A.getLast? ≠ some root := fun e => hpar (hA root (List.mem_of_getLast? e))
    have hrB : B.head? ≠ some root := fun e => hpar (hB root (List.mem_of_mem_head? e))
    refine ⟨remChange p A B root it, by rw [hold root hne, t1]; rfl, t2, ?_, ?_⟩
    · simp only [remChange]; rw [if_neg hrB]; exact t3
    · simp only [remChange]; rw [if_neg hrA]; exact t4
  · intro x it hx
    by_cases e : x = r
    · rw [e, hgone] at hx; cases hx
    · rw [hold x e] at hx
      cases hg : h.get x with
      | none => rw [hg] at hx; cases hx
      | some i =>
        rw [hg] at hx; cases hx
        simp only [remChange]
        by_cases e2 : x = p
        · rw [if_pos e2, if_pos e2, if_pos e2]; exact ⟨rfl, rfl⟩
        · rw [if_neg e2, if_neg e2, if_neg e2]; exact o.ends x i hg
  · intro x A' c B' hx
    by_cases e : x = p
    · rw [if_pos e] at hx
      subst e
      rcases split_mid (M := []) hx with ⟨A2, a1, a2⟩ | ⟨M1, M2, a1, a2, a3⟩ | ⟨B1, a1, a2⟩
      · -- before
        obtain ⟨k1, it, k2, k3, k4, k5⟩ := o.kid x A' c (A2 ++ r :: B) (by rw [hp, a1]; simp)
        have hcA : c ∈ A := by rw [a1]; exact List.mem_append_right _ List.mem_cons_self
        have hc : c ≠ r := fun e => hrA (e ▸ hcA)
        have hcB : B.head? ≠ some c := fun e => hdis c hcA c (List.mem_of_mem_head? e) rfl
        refine ⟨k1, remChange x A B c it, by rw [hold c hc, k2]; rfl, k3, ?_, ?_⟩
        · simp only [remChange]; rw [if_neg hcB]; exact k4
        · simp only [remChange]
          rw [a2]
          cases A2 with
          | nil => rw [a1]; simp
          | cons y A2 =>
            have : A.getLast? ≠ some c := by
              rw [a1]
              intro e
              rw [a1] at ndA
              have hm : c ∈ y :: A2 := by
                have e2 : (A' ++ c :: y :: A2).getLast? = (y :: A2).getLast? := by
                  rw [List.getLast?_append, List.getLast?_cons_cons, List.getLast?_cons]; rfl
                rw [e2] at e
                exact List.mem_of_getLast? e
              exact (List.nodup_cons.1 (List.nodup_append.1 ndA).2.1).1 hm
            rw [if_neg this, k5]; rfl
      · cases M1 <;> cases a1
      · -- after
        obtain ⟨k1, it, k2, k3, k4, k5⟩ := o.kid x (A ++ r :: B1) c B' (by rw [hp, a1]; simp)
        have hcB : c ∈ B := by rw [a1]; exact List.mem_append_right _ List.mem_cons_self
        have hc : c ≠ r := fun e => ndr (e ▸ hcB)
        have hcA : A.getLast? ≠ some c := fun e => hdis c (List.mem_of_getLast? e) c hcB rfl
        refine ⟨k1, remChange x A B c it, by rw [hold c hc, k2]; rfl, k3, ?_, ?_⟩
        · simp only [remChange]
          rw [a2]
          cases B1 with
          | nil => rw [a1]; simp
          | cons y B1 =>
            have : B.head? ≠ some c := by
              rw [a1]
              intro e
              rw [a1] at ndB
              have e : y = c := by simpa using e
              subst e
              exact (List.nodup_cons.1 ndB).1 (List.mem_append_right _ List.mem_cons_self)
            rw [if_neg this, k4]
            rw [List.getLast?_append, List.nil_append, List.getLast?_append, List.getLast?_cons_cons, List.getLast?_cons]
        · simp only [remChange]; rw [if_neg hcA]; exact k5
    · rw [if_neg e] at hx
      obtain ⟨k1, it, k2, k3, k4, k5⟩ := o.kid x A' c B' hx
      have hcx : c ∈ ch x := by rw [hx]; exact List.mem_append_right _ List.mem_cons_self
      have hc : c ≠ r := fun e2 => hnr x e (e2 ▸ hcx)
      obtain ⟨n1, n2⟩ := hother x e c hcx
      refine ⟨k1, remChange p A B c it, by rw [hold c hc, k2]; rfl, k3, ?_, ?_⟩
      · simp only [remChange]; rw [if_neg n2]; exact k4
      · simp only [remChange]; rw [if_neg n1]; exact k5
  · intro x
    by_cases e : x = p
    · rw [if_pos e]
      exact List.nodup_append.2 ⟨ndA, ndB, hdis⟩
    · rw [if_neg e]; exact o.nodup x
  · intro c it hc hr
    by_cases e : c = r
    · rw [e, hgone] at hc; cases hc
    · rw [hold c e] at hc
      cases hg : h.get c with
      | none => rw [hg] at hc; cases hc
      | some i =>
        obtain ⟨q, hq⟩ := o.up c i hg hr
        refine ⟨q, ?_⟩
        by_cases e2 : q = p
        · rw [if_pos e2]
          rw [e2, hp] at hq
          rcases List.mem_append.1 hq with h | h
          · exact List.mem_append_left _ h
          · rcases List.mem_cons.1 h with h | h
            · exact absurd h e
            · exact List.mem_append_right _ h
        · rw [if_neg e2]; exact hq
  · intro x hx
    by_cases e : x = r
    · rw [if_neg (by omega), e]; exact hr
    · rw [hold x e] at hx
      cases hg : h.get x with
      | none =>
        have : x ≠ p := fun e2 => by rw [e2, hlive] at hg; cases hg
        rw [if_neg this]; exact o.dead x hg
      | some i => rw [hg] at hx; cases hx
  · intro x it hx
    by_cases e : x = r
    · rw [e, hgone] at hx; cases hx
    · rw [hold x e] at hx
      cases hg : h.get x with
      | none => rw [hg] at hx; cases hx
      | some i =>
        rw [hg] at hx; cases hx
        obtain ⟨q1, q2, q3, q4, q5⟩ := o.keys x i hg
        simp only [remChange]
        rw [q1, q2, q3, q4, q5]
        exact ⟨rfl, rfl, rfl, rfl, rfl⟩
  · intro x it hx
    by_cases e : x = r
    · rw [e, hgone] at hx; cases hx
    · rw [hold x e] at hx
      cases hg : h.get x with
      | none => rw [hg] at hx; cases hx
      | some i => have := o.lt x i hg; omega

/-! ### The steps of `Erase` -/

theorem link_map {h : OHeap} {r : Nat} (hr : ∃ it, h.get r = some it) {x : Option Nat} (hx : ∀ y, x = some y → ∃ i, h.get y = some i)
    (f : OItem → OItem) : ∃ h', h.link r x f = .ok h' ∧ h'.next = h.next ∧ ∀ y, h'.get y = (h.get y).map (fun i => if y = r then f i else i) := by
  obtain ⟨it, hr⟩ := hr
  refine ⟨h.set r (f it), link_eq hr hx f, rfl, fun y => ?_⟩
  rw [get_oset]
  by_cases e : y = r
  · rw [if_pos e, e, hr]; simp
  · rw [if_neg e]; simp [e]

theorem unlink_run {h : OHeap} {root p r : Nat} {ch : Nat → List Nat} (o : IsOutline h root ch) {A B : List Nat} (hp : ch p = A ++ r :: B)
    (hr : ch r = []) {it : OItem} (hit : h.get r = some it) :
    ∃ h', unlinkItem h r it = .ok h' ∧ h'.next = h.next ∧ h'.get r = none ∧ ∀ x, x ≠ r → h'.get x = (h.get x).map (remChange p A B x) := by
  have hrm : r ∈ ch p := by rw [hp]; simp
  obtain ⟨⟨pt, hpt⟩, _, hpr⟩ := o.alive hrm
  obtain ⟨_, it', hit', k1, k2, k3⟩ := o.kid p A r B hp
  rw [hit] at hit'; cases hit'
  obtain ⟨en1, en2⟩ := o.ends p pt hpt
  obtain ⟨q1, q2, q3, q4, q5⟩ := o.keys p pt hpt
  have hA : ∀ a ∈ A, a ∈ ch p := fun a ha => by rw [hp]; exact List.mem_append_left _ ha
  have hB : ∀ b ∈ B, b ∈ ch p := fun b hb => by rw [hp]; exact List.mem_append_right _ (List.mem_cons_of_mem _ hb)
  have hAp : A.getLast? ≠ some p := fun e => by have := (o.alive (hA p (List.mem_of_getLast? e))).2.2; omega
  have hBp : B.head? ≠ some p := fun e => by have := (o.alive (hB p (List.mem_of_mem_head? e))).2.2; omega
  have lA : ∀ a, A.getLast? = some a → ∃ i, h.get a = some i := fun a ha => by
    obtain ⟨_, ⟨i, hi, _⟩, _⟩ := o.alive (hA a (List.mem_of_getLast? ha)); exact ⟨i, hi⟩
  have lB : ∀ b, B.head? = some b → ∃ i, h.get b = some i := fun b hb => by
    obtain ⟨_, ⟨i, hi, _⟩, _⟩ := o.alive (hB b (List.mem_of_mem_head? hb)); exact ⟨i, hi⟩
  -- the item before
  have s1 : ∃ h1, fixBefore h it = .ok h1 ∧ h1.next = h.next ∧
      ∀ x, h1.get x = (h.get x).map (fun i =>
        { i with next := (if A.getLast? = some x then B.head? else i.next), kNext := (if A.getLast? = some x then B.head? else i.kNext) }) := by
    rw [fixBefore, k2]
    cases ha : A.getLast? with
    | none =>
      refine ⟨h, rfl, rfl, fun x => ?_⟩
      cases h.get x <;> simp
    | some a =>
      dsimp only
      rw [k3]
      obtain ⟨h1, e1, e2, e3⟩ := link_map (lA a ha) lB (fun i => { i with next := B.head?, kNext := B.head? })
      refine ⟨h1, e1, e2, fun x => ?_⟩
      rw [e3 x]
      congr 1
      funext i
      by_cases e : x = a
      · simp [e]
      · have e' : ¬ a = x := fun h => e h.symm
        simp [e, e']
  obtain ⟨h1, s1, n1, g1⟩ := s1
  have live1 : ∀ y, (∃ i, h.get y = some i) → ∃ i, h1.get y = some i := by
    intro y ⟨i, hi⟩; exact ⟨_, by rw [g1 y, hi]; rfl⟩
  -- the item after
  have s2 : ∃ h2, fixAfter h1 it = .ok h2 ∧ h2.next = h.next ∧
      ∀ x, h2.get x = (h1.get x).map (fun i =>
        { i with prev := (if B.head? = some x then A.getLast? else i.prev), kPrev := (if B.head? = some x then A.getLast? else i.kPrev) }) := by
    rw [fixAfter, k3]
    cases hb : B.head? with
    | none =>
      refine ⟨h1, rfl, n1, fun x => ?_⟩
      cases h1.get x <;> simp
    | some b =>
      dsimp only
      rw [k2]
      obtain ⟨h2, e1, e2, e3⟩ := link_map (live1 b (lB b hb)) (fun y hy => live1 y (lA y hy)) (fun i => { i with prev := A.getLast?, kPrev := A.getLast? })
      refine ⟨h2, e1, by rw [e2, n1], fun x => ?_⟩
      rw [e3 x]
      congr 1
      funext i
      by_cases e : x = b
      · simp [e]
      · have e' : ¬ b = x := fun h => e h.symm
        simp [e, e']
  obtain ⟨h2, s2, n2, g2⟩ := s2
  have live2 : ∀ y, (∃ i, h.get y = some i) → ∃ i, h2.get y = some i := by
    intro y hy; obtain ⟨i, hi⟩ := live1 y hy; exact ⟨_, by rw [g2 y, hi]; rfl⟩
  have g2p : h2.get p = some pt := by
    rw [g2, g1, hpt]; simp [hAp, hBp]
  -- the first child
  have s3 : ∃ h3, fixFirst h2 r it = .ok h3 ∧ h3.next = h.next ∧
      ∀ x, h3.get x = (h2.get x).map (fun i =>
        { i with first := (if x = p then (A ++ B).head? else i.first), kFirst := (if x = p then (A ++ B).head? else i.kFirst) }) := by
    rw [fixFirst, k2, k1]
    cases ha : A.getLast? with
    | none =>
      have ha : A = [] := List.getLast?_eq_none_iff.1 ha
      subst ha
      dsimp only
      rw [g2p]
      dsimp only
      rw [if_pos (by rw [en1, hp]; rfl), k3]
      obtain ⟨h3, e1, e2, e3⟩ := link_map (live2 p ⟨pt, hpt⟩) (fun y hy => live2 y (lB y hy)) (fun i => { i with first := B.head?, kFirst := B.head? })
      refine ⟨h3, e1, by rw [e2, n2], fun x => ?_⟩
      rw [e3 x]
      congr 1
      funext i
      by_cases e : x = p <;> simp [e]
    | some a =>
      refine ⟨h2, rfl, n2, fun x => ?_⟩
      by_cases e : x = p
      · have : (A ++ B).head? = pt.first := by
          rw [en1, hp]
          cases A with
          | nil => cases ha
          | cons y A => rfl
        rw [e, g2p]
        simp only [Option.map_some, if_true, this]
        cases pt
        simp at q4 ⊢
        exact q4
      · cases h2.get x <;> simp [e]
  obtain ⟨h3, s3, n3, g3⟩ := s3
  have live3 : ∀ y, (∃ i, h.get y = some i) → ∃ i, h3.get y = some i := by
    intro y hy; obtain ⟨i, hi⟩ := live2 y hy; exact ⟨_, by rw [g3 y, hi]; rfl⟩
  -- the last child
  have g3p : h3.get p = some { pt with first := (A ++ B).head?, kFirst := (A ++ B).head? } := by
    rw [g3, g2p]; simp
  have s4 : ∃ h4, fixLast h3 r it = .ok h4 ∧ h4.next = h.next ∧
      ∀ x, h4.get x = (h3.get x).map (fun i =>
        { i with last := (if x = p then (A ++ B).getLast? else i.last), kLast := (if x = p then (A ++ B).getLast? else i.kLast) }) := by
    rw [fixLast, k3, k1]
    cases hb : B.head? with
    | none =>
      have hb : B = [] := List.head?_eq_none_iff.1 hb
      subst hb
      dsimp only
      rw [g3p]
      dsimp only
      rw [if_pos (by rw [en2, hp]; simp), k2, List.append_nil]
      obtain ⟨h4, e1, e2, e3⟩ := link_map (live3 p ⟨pt, hpt⟩) (fun y hy => live3 y (lA y hy)) (fun i => { i with last := A.getLast?, kLast := A.getLast? })
      refine ⟨h4, e1, by rw [e2, n3], fun x => ?_⟩
      rw [e3 x]
      congr 1
      funext i
      by_cases e : x = p <;> simp [e]
    | some b =>
      refine ⟨h3, rfl, n3, fun x => ?_⟩
      by_cases e : x = p
      · have : (A ++ B).getLast? = pt.last := by
          rw [en2, hp]
          cases B with
          | nil => cases hb
          | cons y B => rw [List.getLast?_append, List.getLast?_append, List.getLast?_cons_cons]
        rw [e, g3p]
        simp only [Option.map_some, if_true, this]
        cases pt
        simp at q5 ⊢
        exact q5
      · cases h3.get x <;> simp [e]
  obtain ⟨h4, s4, n4, g4⟩ := s4
  refine ⟨h4.free r, ?_, n4, ?_, ?_⟩
  · rw [unlinkItem, s1]
    dsimp only
    rw [s2]
    dsimp only
    rw [s3]
    dsimp only
    rw [s4]
  · simp [OHeap.free]
  · intro x hx
    have : (h4.free r).get x = h4.get x := by simp [OHeap.free, hx]
    rw [this, g4, g3, g2, g1]
    cases h.get x with
    | none => rfl
    | some i => rfl

/-! ### All of `Erase` -/

theorem under_le {h : OHeap} {root r x : Nat} {ch : Nat → List Nat} (o : IsOutline h root ch) (u : Under ch r x) : r ≤ x := by
  induction u with
  | refl => exact Nat.le_refl _
  | step _ hx ih => have := (o.alive hx).2.2; omega

theorem Spec.IsOutline.width {h : OHeap} {root : Nat} {ch : Nat → List Nat} (o : IsOutline h root ch) (p : Nat) : (ch p).length ≤ h.next := by
  have := length_le_of_subset (o.nodup p) (l₂ := List.range h.next) (fun x hx => by
    obtain ⟨_, ⟨i, hi, _⟩, _⟩ := o.alive hx
    exact List.mem_range.2 (o.lt _ _ hi))
  rwa [List.length_range] at this

theorem erase_run {N : Nat} (m : Nat) : ∀ (k : Nat) (h : OHeap) (root r : Nat) (ch : Nat → List Nat), IsOutline h root ch → h.next = N →
    ∀ (it : OItem), h.get r = some it → r ≠ root → N ≤ m + r → (ch r).length ≤ k → ∀ f, m * (N + 1) + k + 1 ≤ f →
    ∃ h' ch', eraseItem f h r = .ok h' ∧ h'.next = h.next ∧ IsOutline h' root ch' ∧
      (∀ x, ¬ Under ch r x → ch' x = (ch x).erase r) ∧
      (∀ x, (∃ i, h'.get x = some i) ↔ (∃ i, h.get x = some i) ∧ ¬ Under ch r x) := by
  induction m with
  | zero =>
    intro k h root r ch o hN it hit _ hm
    have := o.lt _ _ hit
    omega
  | succ m ihm =>
    intro k
    induction k with
    | zero =>
      intro h root r ch o hN it hit hroot hm hk f hf
      have hnil : ch r = [] := List.length_eq_zero_iff.1 (Nat.le_zero.1 hk)
      obtain ⟨p, hpm⟩ := o.up r it hit hroot
      obtain ⟨A, B, hp⟩ := List.append_of_mem hpm
      obtain ⟨h', e1, e2, e3, e4⟩ := unlink_run o hp hnil hit
      have hu : ∀ x, Under ch r x → x = r := by
        intro x u
        induction u with
        | refl => rfl
        | step _ hx ih => rw [ih, hnil] at hx; cases hx
      cases f with
      | zero => omega
      | succ f =>
        refine ⟨h', _, ?_, e2, remove_outline o hp hnil e2 e3 e4, ?_, ?_⟩
        · rw [eraseItem, hit]
          dsimp only
          have : it.first = none := by rw [(o.ends _ _ hit).1, hnil]; rfl
          rw [this]
          exact e1
        · intro x hx
          by_cases e : x = p
          · rw [if_pos e, e, hp]
            have : r ∉ A := by
              intro hm
              have := o.nodup p
              rw [hp] at this
              exact (List.nodup_append.1 this).2.2 r hm r List.mem_cons_self rfl
            rw [List.erase_append_right _ this, List.erase_cons_head]
          · rw [if_neg e, List.erase_of_not_mem (fun hm => e (o.parent_eq hm hpm))]
        · intro x
          by_cases e : x = r
          · rw [e, e3]
            exact ⟨fun ⟨i, hi⟩ => (by cases hi), fun ⟨_, hn⟩ => absurd Under.refl hn⟩
          · rw [e4 x e]
            constructor
            · intro ⟨i, hi⟩
              refine ⟨?_, fun u => e (hu x u)⟩
              cases hg : h.get x with
              | none => rw [hg] at hi; cases hi
              | some j => exact ⟨j, rfl⟩
            · intro ⟨⟨i, hi⟩, _⟩
              exact ⟨_, by rw [hi]; rfl⟩
    | succ k ihk =>
      intro h root r ch o hN it hit hroot hm hk f hf
      cases hc : ch r with
      | nil => exact ihk h root r ch o hN it hit hroot hm (by rw [hc]; exact Nat.zero_le _) f (by omega)
      | cons c R =>
        have hcm : c ∈ ch r := by rw [hc]; exact List.mem_cons_self
        obtain ⟨_, ⟨ct, hct, hcpar⟩, hrc⟩ := o.alive hcm
        have hcroot : c ≠ root := by
          intro e
          obtain ⟨i, t1, t2, _⟩ := o.top
          rw [e, t1] at hct; cases hct; rw [t2] at hcpar; cases hcpar
        cases f with
        | zero => omega
        | succ f =>
          have hfm : m * (N + 1) + N + 1 ≤ f := by
            have : (m + 1) * (N + 1) = m * (N + 1) + N + 1 := by rw [Nat.succ_mul, ← Nat.add_assoc]
            omega
          obtain ⟨h1, ch1, e1, n1, o1, c1, l1⟩ :=
            ihm N h root c ch o hN ct hct hcroot (by omega) (by rw [← hN]; exact o.width c) f hfm
          have hrnc : ¬ Under ch c r := fun u => by have := under_le o u; omega
          obtain ⟨it1, hit1⟩ := (l1 r).2 ⟨⟨it, hit⟩, hrnc⟩
          have hc1 : ch1 r = R := by rw [c1 r hrnc, hc, List.erase_cons_head]
          obtain ⟨h2, ch2, e2, n2, o2, c2, l2⟩ := ihk h1 root r ch1 o1 (by rw [n1, hN]) it1 hit1 hroot hm
            (by rw [hc1]; rw [hc, List.length_cons] at hk; omega) f (by omega)
          -- below `c` is below `r`
          have ucr : ∀ x, Under ch c x → Under ch r x := by
            intro x u
            induction u with
            | refl => exact Under.step Under.refl hcm
            | step _ hx ih => exact Under.step ih hx
          have sub : ∀ y x, x ∈ ch1 y → x ∈ ch y := by
            intro y x hx
            by_cases u : Under ch c y
            · have : h1.get y = none := by
                cases hg : h1.get y with
                | none => rfl
                | some i => exact absurd u ((l1 y).1 ⟨i, hg⟩).2
              rw [o1.dead y this] at hx; cases hx
            · rw [c1 y u] at hx; exact List.mem_of_mem_erase hx
          have u1r : ∀ x, Under ch1 r x → Under ch r x := by
            intro x u
            induction u with
            | refl => exact Under.refl
            | step _ hx ih => exact Under.step ih (sub _ _ hx)
          have ur : ∀ x, Under ch r x → Under ch c x ∨ Under ch1 r x := by
            intro x u
            induction u with
            | refl => exact Or.inr Under.refl
            | @step y x _ hx ih =>
              by_cases u : Under ch c y
              · exact Or.inl (Under.step u hx)
              · rcases ih with u' | u'
                · exact absurd u' u
                · by_cases e : x = c
                  · exact Or.inl (e ▸ Under.refl)
                  · refine Or.inr (Under.step u' ?_)
                    rw [c1 y u]
                    exact (List.mem_erase_of_ne e).2 hx
          refine ⟨h2, ch2, ?_, by rw [n2, n1], o2, ?_, ?_⟩
          · rw [eraseItem, hit]
            dsimp only
            have : it.first = some c := by rw [(o.ends _ _ hit).1, hc]; rfl
            rw [this]
            dsimp only
            rw [e1]
            exact e2
          · intro x hx
            have hxc : ¬ Under ch c x := fun u => hx (ucr x u)
            rw [c2 x (fun u => hx (u1r x u)), c1 x hxc]
            have : c ∉ ch x := fun hm => by
              have := o.parent_eq hm hcm
              exact hx (this ▸ Under.refl)
            rw [List.erase_of_not_mem this]
          · intro x
            rw [l2 x, l1 x]
            constructor
            · intro ⟨⟨a, b⟩, d⟩
              exact ⟨a, fun u => (ur x u).elim b d⟩
            · intro ⟨a, b⟩
              exact ⟨⟨a, fun u => b (ucr x u)⟩, fun u => b (u1r x u)⟩

end Pdfmm
