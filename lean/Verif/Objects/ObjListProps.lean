import Verif.Objects.ObjListModel
/-
C29 (the object list is a map), C30 (fresh references), C31 (generations), C32 (ReplaceObject).
-/
set_option autoImplicit false
set_option linter.unusedVariables false
namespace Pdfmm
open OL
variable {V : Type}

/-! ### C29 -/
namespace Spec

/-- The map after one event. -/
def objMapStep (m : Ref → Option V) : OLOp V × OLResult V → (Ref → Option V)
  | (.push r v, _) => fun x => if x = r then some v else m x
  | (.create v, .created r) => fun x => if x = r then some v else m x
  | (.remove r, .removed _) => fun x => if x = r then none else m x
  | (.clear, _) => fun _ => none
  | _ => m

def objMapAfter : (Ref → Option V) → List (OLOp V × OLResult V) → (Ref → Option V)
  | m, [] => m
  | m, e :: r => objMapAfter (objMapStep m e) r

/-- A removal returns what the map holds. -/
def RemovalsRight : (Ref → Option V) → List (OLOp V × OLResult V) → Prop
  | _, [] => True
  | m, e :: rest =>
    (match e with
     | (.remove r, .removed x) => x = m r
     | _ => True) ∧ RemovalsRight (objMapStep m e) rest

end Spec
open Spec

theorem sorted_split (r : Ref) : ∀ (l : List (Ref × V)), SMap.Sorted l →
    SMap.find? r l = (match notBefore r l with
      | [] => none
      | (k, v) :: _ => if Ref.ne k r then none else some v)
  | [], _ => rfl
  | (k, v) :: rest, hs => by
    simp only [SMap.find?, notBefore, List.dropWhile]
    by_cases hlt : Ref.lt k r = true
    · rw [hlt]
      have : r ≠ k := by intro e; rw [e, C25_reference_order.1] at hlt; cases hlt
      rw [if_neg this]
      exact sorted_split r rest hs.2
    · simp only [Bool.not_eq_true] at hlt
      rw [hlt]
      by_cases he : r = k
      · subst he
        simp [Ref.ne]
      · rw [if_neg he]
        have hne : Ref.ne k r = true := by
          rw [C25_reference_order.2.2.2.2.2.2.1]
          cases h : Ref.eq k r with
          | false => rfl
          | true => exact absurd ((C25_reference_order.2.2.2.2.2.1 k r).1 h).symm he
        dsimp only
        rw [hne, if_pos rfl]
        have hrk : Ref.lt r k = true := by
          rcases (StrictOrd.total r k he : StrictOrd.lt r k = true ∨ StrictOrd.lt k r = true) with h | h
          · exact h
          · have h : Ref.lt k r = true := h
            rw [hlt] at h; cases h
        exact SMap.find_none_of_lt (fun p hp => StrictOrd.trans r k p.1 hrk (hs.1 p hp))

theorem getObject_eq (o : OL V) (r : Ref) (hs : SMap.Sorted o.objs) :
    o.getObject r = SMap.find? r o.objs := by
  rw [getObject, sorted_split r o.objs hs]
  cases notBefore r o.objs <;> rfl

/-- Where `lower_bound` finds the reference, the list splits around it. -/
theorem split_at_found (r : Ref) (l : List (Ref × V)) (k : Ref) (v : V) (post : List (Ref × V))
    (h : notBefore r l = (k, v) :: post) (hne : Ref.ne k r = false) :
    k = r ∧ l = before r l ++ (r, v) :: post := by
  have hk : k = r := by
    rw [C25_reference_order.2.2.2.2.2.2.1] at hne
    cases he : Ref.eq k r with
    | false => rw [he] at hne; cases hne
    | true => exact (C25_reference_order.2.2.2.2.2.1 k r).1 he
  refine ⟨hk, ?_⟩
  conv => lhs; rw [← List.takeWhile_append_dropWhile (p := fun p : Ref × V => Ref.lt p.1 r) (l := l)]
  rw [before]
  rw [notBefore] at h
  rw [h, hk]

theorem erase_split (r : Ref) (v : V) : ∀ (pre post : List (Ref × V)),
    SMap.Sorted (pre ++ (r, v) :: post) → SMap.erase r (pre ++ (r, v) :: post) = pre ++ post
  | [], post, _ => by simp [SMap.erase]
  | (k, x) :: pre, post, hs => by
    simp only [List.cons_append, SMap.erase]
    have h : StrictOrd.lt k r = true := hs.1 (r, v) (by simp)
    have hne : r ≠ k := fun e => SMap.lt_ne h e.symm
    rw [if_neg hne, erase_split r v pre post hs.2]

/-- A removal erases the entry. -/
theorem remove_spec (o : OL V) (r : Ref) (b : Bool) (hs : SMap.Sorted o.objs) :
    match o.remove r b with
    | (.ok x, o') => x = SMap.find? r o.objs ∧ (∀ v, x = some v → o'.objs = SMap.erase r o.objs) ∧
        (x = none → o' = o)
    | (.error _, o') => o' = o := by
  have hfind := sorted_split r o.objs hs
  unfold remove
  cases h : notBefore r o.objs with
  | nil =>
    rw [h] at hfind
    exact ⟨hfind.symm, (fun v hv => by cases hv), fun _ => rfl⟩
  | cons p post =>
    obtain ⟨k, v⟩ := p
    rw [h] at hfind
    dsimp only at hfind ⊢
    cases hne : Ref.ne k r with
    | true =>
      rw [hne] at hfind
      simp only [if_true] at hfind ⊢
      exact ⟨hfind.symm, by simp, by simp⟩
    | false =>
      rw [hne] at hfind
      simp only [Bool.false_eq_true, if_false] at hfind ⊢
      obtain ⟨hk, hl⟩ := split_at_found r o.objs k v post h hne
      split
      · rename_i heq
        split at heq
        · cases heq
        · cases heq
          refine ⟨hfind.symm, ?_, fun hx => by cases hx⟩
          intro w _
          have : SMap.erase r o.objs = before r o.objs ++ post := by
            conv => lhs; rw [hl]
            exact erase_split r v _ _ (hl ▸ hs)
          rw [this]
      · rename_i heq
        split at heq
        · cases heq; rfl
        · cases heq

theorem objs_push (o : OL V) (r : Ref) (v : V) : (o.push r v).objs = SMap.insert r v o.objs := by
  unfold push tryIncrement
  split <;> rfl

theorem objs_nextFree (o : OL V) : (o.nextFree).2.objs = o.objs := by
  unfold nextFree
  split
  · rfl
  · split <;> rfl

theorem step_map (o : OL V) (op : OLOp V) (hs : SMap.Sorted o.objs) :
    SMap.Sorted (o.step op).2.objs ∧
    (∀ x, SMap.find? x (o.step op).2.objs = objMapStep (fun x => SMap.find? x o.objs) (op, (o.step op).1) x) ∧
    (∀ r x, op = .remove r → (o.step op).1 = .removed x → x = SMap.find? r o.objs) := by
  cases op with
  | push r v =>
    simp only [step, objs_push]
    exact ⟨SMap.sorted_insert _ _ _ hs, fun x => by rw [SMap.find_insert]; rfl, fun _ _ h => by cases h⟩
  | create v =>
    simp only [step, create]
    have ho := objs_nextFree o
    cases h : o.nextFree with
    | mk res o' =>
      rw [h] at ho
      cases res with
      | ok r =>
        simp only [objs_push]
        simp only at ho
        rw [ho]
        exact ⟨SMap.sorted_insert _ _ _ hs, fun x => by rw [SMap.find_insert]; rfl, fun _ _ h => by cases h⟩
      | error e =>
        simp only at ho ⊢
        rw [ho]
        exact ⟨hs, fun x => rfl, fun _ _ h => by cases h⟩
  | remove r =>
    have h := remove_spec o r true hs
    simp only [step]
    cases hr : o.remove r true with
    | mk res o' =>
      rw [hr] at h
      cases res with
      | ok x =>
        obtain ⟨h1, h2, h3⟩ := h
        dsimp only
        cases x with
        | none =>
          rw [h3 rfl]
          refine ⟨hs, ?_, ?_⟩
          · intro y
            simp only [objMapStep]
            split
            · rename_i e; rw [e, ← h1]
            · rfl
          · intro r' x' e1 e2; cases e1; cases e2; exact h1
        | some v =>
          rw [h2 v rfl]
          refine ⟨SMap.sorted_erase _ hs, ?_, ?_⟩
          · intro y; rw [SMap.find_erase _ _ hs]; rfl
          · intro r' x' e1 e2; cases e1; cases e2; exact h1
      | error e =>
        dsimp only
        rw [h]
        exact ⟨hs, fun _ => rfl, fun _ _ _ h => by cases h⟩
  | setReuse b =>
    simp only [step, setReuse]
    cases b <;> exact ⟨hs, fun _ => rfl, fun _ _ h => by cases h⟩
  | clear =>
    exact ⟨trivial, fun _ => rfl, fun _ _ h => by cases h⟩

/-- **C29.** After any history, `GetObject` returns what was last stored under the reference and not removed
since; removals return it; and iteration visits every stored object once, in increasing reference order. -/
theorem C29_list_is_map (ops : List (OLOp V)) : ∀ (o : OL V), SMap.Sorted o.objs →
    let m := Spec.objMapAfter (fun r => o.getObject r) (o.run ops).1
    let o' := (o.run ops).2
    (∀ r, o'.getObject r = m r) ∧
    RemovalsRight (fun r => o.getObject r) (o.run ops).1 ∧
    SMap.Sorted o'.objs ∧ ∀ r v, (r, v) ∈ o'.objs ↔ m r = some v := by
  induction ops with
  | nil =>
    intro o hs
    refine ⟨fun r => rfl, trivial, hs, ?_⟩
    intro r v
    simp only [run, Spec.objMapAfter]
    rw [getObject_eq o r hs]
    exact ⟨fun h => SMap.mem_find hs h, fun h => SMap.find_mem h⟩
  | cons op rest ih =>
    intro o hs
    obtain ⟨h1, h2, h3⟩ := step_map o op hs
    have e : (fun r => o.getObject r) = fun r => SMap.find? r o.objs := funext fun r => getObject_eq o r hs
    have e' : (fun r => (o.step op).2.getObject r) = objMapStep (fun x => SMap.find? x o.objs) (op, (o.step op).1) := by
      funext r; rw [getObject_eq _ r h1, h2]
    have := ih (o.step op).2 h1
    rw [e'] at this
    simp only [run]
    rw [e]
    obtain ⟨t1, t2, t3, t4⟩ := this
    refine ⟨t1, ⟨?_, t2⟩, t3, t4⟩
    split
    · rename_i r x heq
      have h4 : op = .remove r := congrArg Prod.fst heq
      have h5 : (o.step op).1 = .removed x := congrArg Prod.snd heq
      exact h3 r x h4 h5
    · trivial

example : ((OL.new : OL Nat).run [.create 10, .create 20, .remove ⟨1, 0⟩, .create 30, .push ⟨9, 2⟩ 40]).2.objs =
    [(⟨1, 1⟩, 30), (⟨2, 0⟩, 20), (⟨9, 2⟩, 40)] := by decide +kernel

/-! ### C30 and C31: references of new objects -/
namespace Spec

/-- Every creation succeeds and returns a number that no object in the map has. -/
def FreshCreations : (Ref → Option V) → List (OLOp V × OLResult V) → Prop
  | _, [] => True
  | m, e :: rest =>
    (match e with
     | (.create _, .created r) => ∀ g, m ⟨r.num, g⟩ = none
     | (.create _, _) => False
     | _ => True) ∧ FreshCreations (objMapStep m e) rest

/-- The generation under which each number was last removed. -/
def lastStep (last : Nat → Option Nat) : OLOp V × OLResult V → (Nat → Option Nat)
  | (.remove r, .removed (some _)) => fun n => if n = r.num then some r.gen else last n
  | _ => last

/-- A number that was removed with generation `g` only comes back with generation `g + 1`, which must be
less than 65535. -/
def NextGenerations : (Nat → Option Nat) → List (OLOp V × OLResult V) → Prop
  | _, [] => True
  | last, e :: rest =>
    (match e with
     | (.create _, .created r) => ∀ g, last r.num = some g → r.gen = g + 1 ∧ g + 1 < 65535
     | _ => True) ∧ NextGenerations (lastStep last e) rest

/-- Creations and removals, with reuse of numbers switched on and off. -/
def CreateRemove : OLOp V → Bool
  | .create _ => true
  | .remove _ => true
  | .setReuse _ => true
  | _ => false

def creations : List (OLOp V) → Nat
  | [] => 0
  | .create _ :: r => creations r + 1
  | _ :: r => creations r

/-- A consistent list, as a new or a loaded document has it: no number is used twice, or both used and free,
and the counter is beyond all of them. -/
structure Consistent (o : OL V) : Prop where
  sorted : SMap.Sorted o.objs
  live_lt : ∀ p ∈ o.objs, p.1.num < o.count
  live_one : ∀ p ∈ o.objs, ∀ q ∈ o.objs, p.1.num = q.1.num → p.1 = q.1
  free_lt : ∀ f ∈ o.free, f.num < o.count
  free_one : ∀ f ∈ o.free, ∀ f' ∈ o.free, f.num = f'.num → f = f'
  free_live : ∀ f ∈ o.free, ∀ p ∈ o.objs, f.num ≠ p.1.num
  free_nodup : o.free.Nodup
  unavail : ∀ u ∈ o.unavail, 65535 ≤ u

end Spec

theorem consistent_new : Consistent (OL.new : OL V) := by
  constructor <;> simp [OL.new, SMap.Sorted]

/-- What the list knows about the numbers removed so far. -/
def Knows (last : Nat → Option Nat) (o : OL V) : Prop :=
  ∀ n g, last n = some g → (∀ p ∈ o.objs, p.1.num ≠ n) →
    n < o.count ∧ ∀ f ∈ o.free, f.num = n → f.gen = g + 1 ∧ g + 1 < 65535

theorem addFree_mem (o : OL V) (r x : Ref) : x ∈ (o.addFree r).free ↔ x = r ∨ x ∈ o.free := by
  have h : x ∈ o.free ↔ x ∈ o.free.takeWhile (fun y => Ref.lt y r) ∨
      x ∈ o.free.dropWhile (fun y => Ref.lt y r) := by
    rw [← List.mem_append, List.takeWhile_append_dropWhile]
  unfold addFree
  dsimp only
  split
  · rename_i hh
    have : r ∈ o.free.dropWhile (fun y => Ref.lt y r) := List.mem_of_mem_head? hh
    have : r ∈ o.free := (List.dropWhile_sublist _).mem this
    constructor
    · exact .inr
    · rintro (e | e)
      · rw [e]; exact this
      · exact e
  · have : ∀ o' : OL V, (o'.tryIncrement r).free = o'.free := by
      intro o'; unfold tryIncrement; split <;> rfl
    rw [this]
    simp only [List.mem_append, List.mem_cons]
    rw [h]
    constructor
    · rintro (e | e | e)
      · exact .inr (.inl e)
      · exact .inl e
      · exact .inr (.inr e)
    · rintro (e | e | e)
      · exact .inr (.inl e)
      · exact .inl e
      · exact .inr (.inr e)

theorem addFree_nodup (o : OL V) (r : Ref) (h : o.free.Nodup) (hr : r ∉ o.free) :
    (o.addFree r).free.Nodup := by
  unfold addFree
  dsimp only
  split
  · exact h
  · have : ∀ o' : OL V, (o'.tryIncrement r).free = o'.free := by
      intro o'; unfold tryIncrement; split <;> rfl
    rw [this]
    dsimp only
    have hp := (List.takeWhile_append_dropWhile (p := fun y => Ref.lt y r) (l := o.free))
    have hperm : (o.free.takeWhile (fun y => Ref.lt y r) ++ r :: o.free.dropWhile (fun y => Ref.lt y r)).Perm
        (r :: o.free) := by
      refine List.perm_middle.trans ?_
      rw [hp]
    exact hperm.nodup_iff.2 (List.nodup_cons.2 ⟨hr, h⟩)

theorem addFree_rest (o : OL V) (r : Ref) (hr : r.num < o.count) :
    (o.addFree r).objs = o.objs ∧ (o.addFree r).count = o.count ∧ (o.addFree r).unavail = o.unavail ∧
    (o.addFree r).streams = o.streams ∧ (o.addFree r).reuse = o.reuse := by
  unfold addFree
  dsimp only
  split
  · exact ⟨rfl, rfl, rfl, rfl, rfl⟩
  · unfold tryIncrement
    rw [if_neg (by simp only [ge_iff_le]; omega)]
    exact ⟨rfl, rfl, rfl, rfl, rfl⟩

theorem nextNum_small (u : List Nat) (hu : ∀ x ∈ u, 65535 ≤ x) (f n : Nat) (hn : n < 65535) :
    nextNum u (f + 1) n = .ok n := by
  rw [nextNum]
  rw [if_neg (by simp only [maxReserve]; omega), if_neg]
  intro h
  have := hu n h
  omega

theorem remove_cases (o : OL V) (r : Ref) (hs : SMap.Sorted o.objs) :
    (o.remove r = (.ok none, o) ∧ ∀ v, (r, v) ∉ o.objs) ∨
    (o.remove r = (.error (.error .InternalLogic), o)) ∨
    (∃ v, (r, v) ∈ o.objs ∧ o.remove r = (.ok (some v), { o.safeAddFree r with objs := SMap.erase r o.objs })) := by
  have hfind := sorted_split r o.objs hs
  have hno : SMap.find? r o.objs = none → ∀ v, (r, v) ∉ o.objs := by
    intro hn v hv; rw [SMap.mem_find hs hv] at hn; cases hn
  unfold remove
  cases h : notBefore r o.objs with
  | nil => rw [h] at hfind; exact .inl ⟨rfl, hno hfind⟩
  | cons p post =>
    obtain ⟨k, v⟩ := p
    rw [h] at hfind
    dsimp only at hfind ⊢
    cases hne : Ref.ne k r with
    | true =>
      rw [hne] at hfind
      simp only [if_true] at hfind ⊢
      exact .inl ⟨trivial, hno hfind⟩
    | false =>
      simp only [Bool.false_eq_true, if_false]
      obtain ⟨hk, hl⟩ := split_at_found r o.objs k v post h hne
      by_cases hst : k.num ∈ o.streams
      · rw [if_pos hst]; exact .inr (.inl rfl)
      · rw [if_neg hst]
        refine .inr (.inr ⟨v, ?_, ?_⟩)
        · rw [hl]; simp
        · have : SMap.erase r o.objs = before r o.objs ++ post := by
            conv => lhs; rw [hl]
            exact erase_split r v _ _ (hl ▸ hs)
          rw [this, hk]
          simp

theorem erase_not_mem (r : Ref) (v : V) (l : List (Ref × V)) (hs : SMap.Sorted l) :
    (r, v) ∉ SMap.erase r l := by
  intro h
  have := SMap.mem_find (SMap.sorted_erase r hs) h
  rw [SMap.find_erase _ _ hs, if_pos rfl] at this
  cases this

/-- One step of the invariant. -/
theorem step_inv (o : OL V) (last : Nat → Option Nat) (op : OLOp V) (hc : Consistent o) (hk : Knows last o)
    (hop : CreateRemove op = true) (hcount : o.count < 65535 ∨ ∀ v, op ≠ .create v) :
    let e := (op, (o.step op).1)
    let o' := (o.step op).2
    (Consistent o' ∧ Knows (lastStep last e) o' ∧ o'.count ≤ o.count + creations [op]) ∧
    (match e with
     | (.create _, .created r) => (∀ p ∈ o.objs, p.1.num ≠ r.num) ∧
         ∀ g, last r.num = some g → r.gen = g + 1 ∧ g + 1 < 65535
     | (.create _, _) => False
     | _ => True) := by
  cases op with
  | push r v => simp [CreateRemove] at hop
  | clear => simp [CreateRemove] at hop
  | setReuse b =>
    refine ⟨?_, trivial⟩
    simp only [step, setReuse, lastStep, creations]
    cases b with
    | true => exact ⟨⟨hc.sorted, hc.live_lt, hc.live_one, hc.free_lt, hc.free_one, hc.free_live, hc.free_nodup, hc.unavail⟩, hk, by simp⟩
    | false =>
      refine ⟨⟨hc.sorted, hc.live_lt, hc.live_one, by simp, by simp, by simp, by simp, hc.unavail⟩, ?_, by simp⟩
      intro n g hl hn
      exact ⟨(hk n g hl hn).1, by simp⟩
  | remove r =>
    refine ⟨?_, trivial⟩
    simp only [creations, Nat.add_zero]
    rcases remove_cases o r hc.sorted with ⟨h, hno⟩ | h | ⟨v, hv, h⟩
    · simp only [step, h, lastStep]
      exact ⟨hc, hk, Nat.le_refl _⟩
    · simp only [step, h, lastStep]
      exact ⟨hc, hk, Nat.le_refl _⟩
    · simp only [step, h, lastStep]
      have hrlt : r.num < o.count := hc.live_lt _ hv
      have hnum : ∀ p ∈ SMap.erase r o.objs, p.1.num ≠ r.num := by
        intro p hp e
        have hp' := SMap.mem_erase hp
        have : p.1 = r := hc.live_one p hp' (r, v) hv e
        obtain ⟨pk, pv⟩ := p
        simp only at this
        subst this
        exact erase_not_mem _ _ _ hc.sorted hp
      by_cases hg : r.gen + 1 ≥ maxXRefGen
      · have hs : o.safeAddFree r = { o with unavail := (r.gen + 1) :: o.unavail } := by
          unfold safeAddFree tryAddFree; rw [if_pos hg]
        rw [hs]
        refine ⟨⟨SMap.sorted_erase _ hc.sorted, fun p hp => hc.live_lt p (SMap.mem_erase hp),
          fun p hp q hq => hc.live_one p (SMap.mem_erase hp) q (SMap.mem_erase hq), hc.free_lt, hc.free_one,
          fun f hf p hp => hc.free_live f hf p (SMap.mem_erase hp), hc.free_nodup, ?_⟩, ?_, Nat.le_refl _⟩
        · intro u hu
          rcases List.mem_cons.1 hu with e | e
          · rw [e]; exact hg
          · exact hc.unavail u e
        · intro n g hl hn
          dsimp only at hl hn ⊢
          by_cases e : n = r.num
          · rw [if_pos e] at hl
            subst e
            refine ⟨hrlt, fun f hf hfn => absurd hfn (hc.free_live f hf _ hv)⟩
          · rw [if_neg e] at hl
            refine hk n g hl ?_
            intro p hp hpn
            by_cases hpr : p.1 = r
            · rw [hpr] at hpn; exact e hpn.symm
            · have : SMap.find? p.1 (SMap.erase r o.objs) = some p.2 := by
                rw [SMap.find_erase _ _ hc.sorted, if_neg hpr]; exact SMap.mem_find hc.sorted hp
              exact hn _ (SMap.find_mem this) hpn
      · have hs : o.safeAddFree r = o.addFree ⟨r.num, r.gen + 1⟩ := by
          unfold safeAddFree tryAddFree; rw [if_neg hg]
        rw [hs]
        have hr' : (⟨r.num, r.gen + 1⟩ : Ref).num < o.count := hrlt
        obtain ⟨e1, e2, e3, e4, e5⟩ := addFree_rest o ⟨r.num, r.gen + 1⟩ hr'
        have hnf : (⟨r.num, r.gen + 1⟩ : Ref) ∉ o.free := fun hf => hc.free_live _ hf _ hv rfl
        refine ⟨⟨SMap.sorted_erase _ hc.sorted, ?_, ?_, ?_, ?_, ?_, ?_, ?_⟩, ?_, by simp only [e2]; exact Nat.le_refl _⟩
        · intro p hp; simp only [e2]; exact hc.live_lt p (SMap.mem_erase hp)
        · intro p hp q hq; exact hc.live_one p (SMap.mem_erase hp) q (SMap.mem_erase hq)
        · intro f hf
          simp only [e2]
          rcases (addFree_mem o _ f).1 hf with e | e
          · rw [e]; exact hrlt
          · exact hc.free_lt f e
        · intro f hf f' hf' hff
          rcases (addFree_mem o _ f).1 hf with e | e <;> rcases (addFree_mem o _ f').1 hf' with e' | e'
          · rw [e, e']
          · rw [e] at hff; exact absurd hff.symm (hc.free_live f' e' _ hv)
          · rw [e'] at hff; exact absurd hff (hc.free_live f e _ hv)
          · exact hc.free_one f e f' e' hff
        · intro f hf p hp
          rcases (addFree_mem o _ f).1 hf with e | e
          · rw [e]; exact (hnum p hp).symm
          · exact hc.free_live f e p (SMap.mem_erase hp)
        · exact addFree_nodup o _ hc.free_nodup hnf
        · simp only [e3]; exact hc.unavail
        · intro n g hl hn
          dsimp only at hl hn ⊢
          by_cases e : n = r.num
          · rw [if_pos e] at hl
            cases hl
            subst e
            refine ⟨by rw [e2]; exact hrlt, ?_⟩
            intro f hf hfn
            rcases (addFree_mem o _ f).1 hf with e' | e'
            · rw [e']; simp only [maxXRefGen] at hg; exact ⟨rfl, by omega⟩
            · exact absurd hfn (hc.free_live f e' _ hv)
          · rw [if_neg e] at hl
            have := hk n g hl (by
              intro p hp hpn
              by_cases hpr : p.1 = r
              · rw [hpr] at hpn; exact e hpn.symm
              · have : SMap.find? p.1 (SMap.erase r o.objs) = some p.2 := by
                  rw [SMap.find_erase _ _ hc.sorted, if_neg hpr]; exact SMap.mem_find hc.sorted hp
                exact hn _ (SMap.find_mem this) hpn)
            refine ⟨by rw [e2]; exact this.1, ?_⟩
            intro f hf hfn
            rcases (addFree_mem o _ f).1 hf with e' | e'
            · rw [e'] at hfn; exact absurd hfn.symm e
            · exact this.2 f e' hfn
  | create v =>
    have hcount : o.count < 65535 := hcount.resolve_right (fun h => h v rfl)
    simp only [creations, Nat.zero_add]
    -- the reference is the first free one, or the counter
    have hcase : (∃ r rest, o.free = r :: rest ∧ o.nextFree = (.ok r, { o with free := rest })) ∨
        (o.nextFree = (.ok ⟨o.count, 0⟩, o)) := by
      unfold nextFree
      split
      · rename_i r rest _ hfr; exact .inl ⟨_, _, hfr, rfl⟩
      · right
        rw [Nat.mod_eq_of_lt (by omega), nextNum_small _ hc.unavail _ _ hcount]
    rcases hcase with ⟨r, rest, hfr, hnx⟩ | hnx
    · simp only [step, create, hnx, lastStep]
      have hrf : r ∈ o.free := by rw [hfr]; simp
      have hrlt := hc.free_lt r hrf
      have hpush : ({ o with free := rest } : OL V).push r v =
          { o with free := rest, objs := SMap.insert r v o.objs } := by
        unfold push tryIncrement
        rw [if_neg (by simp only [ge_iff_le]; omega)]
      rw [hpush]
      have hsub : ∀ f ∈ rest, f ∈ o.free := by intro f hf; rw [hfr]; simp [hf]
      have hnr : ∀ f ∈ rest, f.num ≠ r.num := by
        intro f hf e
        have := hc.free_one f (hsub f hf) r hrf e
        subst this
        have := hc.free_nodup
        rw [hfr] at this
        exact (List.nodup_cons.1 this).1 hf
      refine ⟨⟨⟨SMap.sorted_insert _ _ _ hc.sorted, ?_, ?_, ?_, ?_, ?_, ?_, hc.unavail⟩, ?_, by simp⟩, ?_, ?_⟩
      · intro p hp
        rcases SMap.mem_insert hp with e | e
        · rw [e]; exact hrlt
        · exact hc.live_lt p e
      · intro p hp q hq hpq
        rcases SMap.mem_insert hp with e | e <;> rcases SMap.mem_insert hq with e' | e'
        · rw [e, e']
        · rw [e] at hpq; exact absurd hpq (hc.free_live r hrf q e')
        · rw [e'] at hpq; exact absurd hpq.symm (hc.free_live r hrf p e)
        · exact hc.live_one p e q e' hpq
      · intro f hf; exact hc.free_lt f (hsub f hf)
      · intro f hf f' hf'; exact hc.free_one f (hsub f hf) f' (hsub f' hf')
      · intro f hf p hp
        rcases SMap.mem_insert hp with e | e
        · rw [e]; exact hnr f hf
        · exact hc.free_live f (hsub f hf) p e
      · have := hc.free_nodup
        rw [hfr] at this
        exact (List.nodup_cons.1 this).2
      · intro n g hl hn
        simp only at hn ⊢
        have hnr' : r.num ≠ n := by
          have : SMap.find? r (SMap.insert r v o.objs) = some v := SMap.find_insert_self _ _ _
          exact hn _ (SMap.find_mem this)
        have := hk n g hl (by
          intro p hp
          have hne : p.1 ≠ r := by
            intro e; exact hc.free_live r hrf p hp (by rw [e])
          have : SMap.find? p.1 (SMap.insert r v o.objs) = some p.2 := by
            rw [SMap.find_insert_ne _ _ hne]; exact SMap.mem_find hc.sorted hp
          exact hn _ (SMap.find_mem this))
        exact ⟨this.1, fun f hf => this.2 f (hsub f hf)⟩
      · intro p hp; exact (hc.free_live r hrf p hp).symm
      · intro g hl
        exact (hk r.num g hl (fun p hp => (hc.free_live r hrf p hp).symm)).2 r hrf rfl
    · simp only [step, create, hnx, lastStep]
      have hpush : o.push ⟨o.count, 0⟩ v =
          { o with count := o.count + 1, objs := SMap.insert ⟨o.count, 0⟩ v o.objs } := by
        unfold push tryIncrement
        rw [if_pos (by simp)]
      rw [hpush]
      have hlive : ∀ p ∈ o.objs, p.1.num ≠ o.count := fun p hp => Nat.ne_of_lt (hc.live_lt p hp)
      refine ⟨⟨⟨SMap.sorted_insert _ _ _ hc.sorted, ?_, ?_, ?_, hc.free_one, ?_, hc.free_nodup, hc.unavail⟩, ?_,
        Nat.le_refl _⟩, hlive, ?_⟩
      · intro p hp
        rcases SMap.mem_insert hp with e | e
        · rw [e]; exact Nat.lt_succ_self _
        · exact Nat.lt_succ_of_lt (hc.live_lt p e)
      · intro p hp q hq hpq
        rcases SMap.mem_insert hp with e | e <;> rcases SMap.mem_insert hq with e' | e'
        · rw [e, e']
        · rw [e] at hpq; exact absurd hpq.symm (hlive q e')
        · rw [e'] at hpq; exact absurd hpq (hlive p e)
        · exact hc.live_one p e q e' hpq
      · intro f hf; exact Nat.lt_succ_of_lt (hc.free_lt f hf)
      · intro f hf p hp
        rcases SMap.mem_insert hp with e | e
        · rw [e]; exact Nat.ne_of_lt (hc.free_lt f hf)
        · exact hc.free_live f hf p e
      · intro n g hl hn
        simp only at hn ⊢
        have := hk n g hl (by
          intro p hp
          have hne : p.1 ≠ ⟨o.count, 0⟩ := by
            intro e; exact hlive p hp (by rw [e])
          have : SMap.find? p.1 (SMap.insert ⟨o.count, 0⟩ v o.objs) = some p.2 := by
            rw [SMap.find_insert_ne _ _ hne]; exact SMap.mem_find hc.sorted hp
          exact hn _ (SMap.find_mem this))
        exact ⟨Nat.lt_succ_of_lt this.1, this.2⟩
      · intro g hl
        have := (hk o.count g hl hlive).1
        omega

theorem creations_cons (op : OLOp V) (r : List (OLOp V)) : creations (op :: r) = creations [op] + creations r := by
  cases op <;> simp [creations, Nat.add_comm]

theorem history_inv (ops : List (OLOp V)) : ∀ (o : OL V) (last : Nat → Option Nat), Consistent o →
    Knows last o → (∀ op ∈ ops, CreateRemove op = true) → o.count + creations ops ≤ 65535 →
    FreshCreations (fun r => o.getObject r) (o.run ops).1 ∧ NextGenerations last (o.run ops).1 ∧
      Consistent (o.run ops).2 := by
  induction ops with
  | nil => intro o last hc _ _ _; exact ⟨trivial, trivial, hc⟩
  | cons op rest ih =>
    intro o last hc hk hops hcount
    rw [creations_cons] at hcount
    have hlt : o.count < 65535 ∨ ∀ v, op ≠ .create v := by
      cases op with
      | create v => left; simp only [creations] at hcount; omega
      | _ => right; intro v h; cases h
    obtain ⟨⟨h1, h2, h3⟩, h4⟩ := step_inv o last op hc hk (hops op (by simp)) hlt
    obtain ⟨t1, t2, t3⟩ := ih (o.step op).2 (lastStep last (op, (o.step op).1)) h1 h2
      (fun x hx => hops x (by simp [hx])) (by omega)
    have e' : (fun r => (o.step op).2.getObject r) = objMapStep (fun x => o.getObject x) (op, (o.step op).1) := by
      have e : (fun r => o.getObject r) = fun r => SMap.find? r o.objs :=
        funext fun r => getObject_eq o r hc.sorted
      rw [e]
      funext r
      rw [getObject_eq _ r h1.sorted, (step_map o op hc.sorted).2.1]
    rw [e'] at t1
    simp only [run]
    refine ⟨⟨?_, t1⟩, ⟨?_, t2⟩, t3⟩
    · revert h4
      generalize (o.step op).1 = res
      intro h4
      cases op with
      | create v =>
        cases res with
        | created r =>
          intro g
          dsimp only
          rw [getObject_eq _ _ hc.sorted]
          cases hf : SMap.find? (⟨r.num, g⟩ : Ref) o.objs with
          | none => rfl
          | some w => exact absurd rfl (h4.1 _ (SMap.find_mem hf))
        | done => exact h4
        | removed _ => exact h4
        | raised => exact h4
      | _ => cases res <;> trivial
    · revert h4
      generalize (o.step op).1 = res
      intro h4
      cases op with
      | create v =>
        cases res with
        | created r => exact h4.2
        | _ => trivial
      | _ => cases res <;> trivial

/-- **C30 (partial).** In any history of creations and removals from a new or loaded document whose object
numbers stay below 65535, every creation succeeds with a number no live object has. -/
theorem C30_fresh_partial (o : OL V) (ops : List (OLOp V)) (hc : Consistent o)
    (hops : ∀ op ∈ ops, CreateRemove op = true) (hcount : o.count + creations ops ≤ 65535) :
    FreshCreations (fun r => o.getObject r) (o.run ops).1 :=
  (history_inv ops o (fun _ => none) hc (fun _ _ h => by cases h) hops hcount).1

/-- **C31 (partial).** In such a history a number removed with generation `g` only comes back with generation
`g + 1`, and never when that would be 65535. -/
theorem C31_generations_partial (o : OL V) (ops : List (OLOp V)) (hc : Consistent o)
    (hops : ∀ op ∈ ops, CreateRemove op = true) (hcount : o.count + creations ops ≤ 65535) :
    NextGenerations (fun _ => none) (o.run ops).1 :=
  (history_inv ops o (fun _ => none) hc (fun _ _ h => by cases h) hops hcount).2.1

example : let ops : List (OLOp Nat) := [.create 1, .create 2, .remove ⟨1, 0⟩, .create 3]
    (∀ op ∈ ops, CreateRemove op = true) ∧ (OL.new : OL Nat).count + creations ops ≤ 65535 ∧
    ((OL.new : OL Nat).run ops).2.objs = [(⟨1, 1⟩, 3), (⟨2, 0⟩, 2)] := by decide +kernel

/-- Creating from a fresh list: the counter counts. -/
theorem create_fresh (o : OL V) (v : V) (n : Nat) (h1 : o.count = n) (h2 : o.free = []) (h3 : o.unavail = [])
    (hn : n < 65536) :
    o.step (.create v) = (.created ⟨n, 0⟩, { o with count := n + 1, objs := SMap.insert ⟨n, 0⟩ v o.objs }) := by
  have : o.nextFree = (.ok ⟨n, 0⟩, o) := by
    unfold nextFree
    rw [h2, h3, h1, Nat.mod_eq_of_lt hn]
    have : nextNum [] 65536 n = .ok n := by
      rw [show (65536 : Nat) = 65535 + 1 from rfl, nextNum]
      rw [if_neg (by simp only [maxReserve]; omega), if_neg (by simp)]
    rw [this]
    cases o.reuse <;> rfl
  simp only [step, create, this, push, tryIncrement]
  rw [if_pos (by simp [h1])]

theorem run_append (a b : List (OLOp V)) : ∀ (o : OL V),
    (o.run (a ++ b)).1 = (o.run a).1 ++ ((o.run a).2.run b).1 ∧ (o.run (a ++ b)).2 = ((o.run a).2.run b).2 := by
  induction a with
  | nil => intro o; simp [run]
  | cons op r ih =>
    intro o
    simp only [List.cons_append, run]
    exact ⟨by rw [(ih _).1], (ih _).2⟩

theorem create_many : ∀ (vs : List V) (o : OL V), o.free = [] → o.unavail = [] →
    o.count + vs.length ≤ 65536 →
    let o' := (o.run (vs.map OLOp.create)).2
    o'.count = o.count + vs.length ∧ o'.free = [] ∧ o'.unavail = []
  | [], o, h1, h2, _ => ⟨rfl, h1, h2⟩
  | v :: vs, o, h1, h2, h => by
    simp only [List.length_cons] at h
    simp only [List.map_cons, run]
    rw [create_fresh o v o.count rfl h1 h2 (by omega)]
    obtain ⟨t1, t2, t3⟩ := create_many vs { o with count := o.count + 1, objs := SMap.insert ⟨o.count, 0⟩ v o.objs }
      h1 h2 (by simp only; omega)
    refine ⟨?_, t2, t3⟩
    rw [t1]
    simp only [List.length_cons]
    omega

theorem create_wrapped (o : OL V) (v : V) (h1 : o.count % 65536 = 0) (h0 : 0 < o.count) (h2 : o.free = [])
    (h3 : o.unavail = []) :
    o.step (.create v) = (.created ⟨0, 0⟩, { o with objs := SMap.insert ⟨0, 0⟩ v o.objs }) := by
  have : o.nextFree = (.ok ⟨0, 0⟩, o) := by
    unfold nextFree
    rw [h2, h3, h1]
    have : nextNum [] 65536 0 = .ok 0 := by
      rw [show (65536 : Nat) = 65535 + 1 from rfl, nextNum]
      rw [if_neg (by simp [maxReserve]), if_neg (by simp)]
    rw [this]
    cases o.reuse <;> rfl
  simp only [step, create, this, push, tryIncrement]
  rw [if_neg (by simp only [ge_iff_le]; omega)]

/-- **C30 is false of the code.** In a new document, create 65535 objects and two more, `a` and `b`: both get
the reference 0 0, and `a` is replaced by `b`. -/
theorem C30_fresh_false (vs : List V) (a b : V) (h : vs.length = 65535) :
    let r := (OL.new : OL V).run (vs.map OLOp.create ++ [.create a, .create b])
    r.1.drop vs.length = [(.create a, .created ⟨0, 0⟩), (.create b, .created ⟨0, 0⟩)] ∧
    r.2.getObject ⟨0, 0⟩ = some b := by
  have hone : (OL.new : OL V).count = 1 := rfl
  obtain ⟨c1, c2, c3⟩ := create_many vs (OL.new : OL V) rfl rfl (by omega)
  have hcnt : ((OL.new : OL V).run (vs.map OLOp.create)).2.count % 65536 = 0 := by
    rw [c1]; omega
  have hpos : 0 < ((OL.new : OL V).run (vs.map OLOp.create)).2.count := by
    rw [c1]; omega
  have hlen : ∀ (ops : List (OLOp V)) (o : OL V), (o.run ops).1.length = ops.length := by
    intro ops
    induction ops with
    | nil => intro o; rfl
    | cons op r ih => intro o; simp [run, ih]
  have hsort := (C29_list_is_map (vs.map OLOp.create) (OL.new : OL V) trivial).2.2.1
  have happ := run_append (vs.map OLOp.create) [.create a, .create b] (OL.new : OL V)
  simp only [happ.1, happ.2]
  generalize hx : ((OL.new : OL V).run (vs.map OLOp.create)) = x at *
  simp only [run]
  rw [create_wrapped _ a hcnt hpos c2 c3]
  dsimp only
  rw [create_wrapped { x.2 with objs := SMap.insert ⟨0, 0⟩ a x.2.objs } b hcnt hpos c2 c3]
  dsimp only
  refine ⟨?_, ?_⟩
  · have : x.1.length = vs.length := by rw [← hx, hlen]; simp
    rw [← this, List.drop_append_of_le_length (Nat.le_refl _), List.drop_length, List.nil_append]
  · rw [getObject_eq]
    · exact SMap.find_insert_self _ _ _
    · exact SMap.sorted_insert _ _ _ (SMap.sorted_insert _ _ _ hsort)

/-- In a loaded document with more than 65536 objects, creating an object replaces a live one. -/
theorem C30_replaces_live_false :
    let r := (OL.new : OL Nat).run [.push ⟨1, 0⟩ 5, .push ⟨65536, 0⟩ 7, .create 9]
    r.1.map (fun e => match e.2 with | .created r => some r | _ => none) = [none, none, some ⟨1, 0⟩] ∧
    r.2.objs = [(⟨1, 0⟩, 9), (⟨65536, 0⟩, 7)] := by decide +kernel

/-- **C31 is false for loaded documents**: a file whose last entry is number 5 with the maximal generation
(`PdfParser` calls `SafeAddFreeObject`, `src/pdfmm/base/PdfParser.cpp:757`) gets 5 handed out again. -/
theorem C31_exhausted_false :
    (((OL.new : OL Nat).safeAddFree ⟨5, 65535⟩).run [.create 1, .create 2, .create 3, .create 4, .create 5]).2.objs =
      [(⟨1, 0⟩, 1), (⟨2, 0⟩, 2), (⟨3, 0⟩, 3), (⟨4, 0⟩, 4), (⟨5, 0⟩, 5)] := by decide +kernel

/-! ### C32: ReplaceObject -/

/-- **C32 (partial).** If the reference is present and the object belongs to the document, `ReplaceObject`
returns the old object, stores the new one and changes nothing else. -/
theorem C32_replace_partial (o : OL V) (r : Ref) (old v : V) (hs : SMap.Sorted o.objs)
    (h : o.getObject r = some old) :
    (o.replace r v true).1 = .ok old ∧
    ∀ x, (o.replace r v true).2.getObject x = if x = r then some v else o.getObject x := by
  rw [getObject_eq o r hs] at h
  have hfind := sorted_split r o.objs hs
  rw [h] at hfind
  cases hn : notBefore r o.objs with
  | nil => rw [hn] at hfind; cases hfind
  | cons p post =>
    obtain ⟨k, w⟩ := p
    rw [hn] at hfind
    dsimp only at hfind
    cases hne : Ref.ne k r with
    | true => rw [hne] at hfind; simp at hfind
    | false =>
      rw [hne] at hfind
      simp only [Bool.false_eq_true, if_false, Option.some.injEq] at hfind
      subst hfind
      obtain ⟨hk, hl⟩ := split_at_found r o.objs k old post hn hne
      have he : SMap.erase r o.objs = before r o.objs ++ post := by
        conv => lhs; rw [hl]
        exact erase_split r old _ _ (hl ▸ hs)
      have hr : o.replace r v true = (.ok old, push { o with objs := SMap.erase r o.objs } r v) := by
        unfold replace
        rw [hn, he]
        simp
      rw [hr]
      refine ⟨rfl, ?_⟩
      intro x
      have hs' : SMap.Sorted (push { o with objs := SMap.erase r o.objs } r v).objs := by
        rw [objs_push]; exact SMap.sorted_insert _ _ _ (SMap.sorted_erase _ hs)
      rw [getObject_eq _ _ hs', getObject_eq _ _ hs, objs_push, SMap.find_insert]
      split
      · rfl
      · rename_i hx
        rw [SMap.find_erase _ _ hs, if_neg hx]

example : ((OL.new : OL Nat).run [.create 1, .create 2]).2.getObject ⟨2, 0⟩ = some 2 := by decide +kernel

/-- **C32 is false for an absent reference**: whatever object follows it in the list is removed and
returned. -/
theorem C32_neighbour_false (o : OL V) (r k : Ref) (v w : V) (post : List (Ref × V))
    (hs : SMap.Sorted o.objs) (h : notBefore r o.objs = (k, w) :: post) (hk : k ≠ r) :
    o.getObject r = none ∧ o.getObject k = some w ∧
    (o.replace r v true).1 = .ok w ∧ (o.replace r v true).2.getObject k = none := by
  have hl : o.objs = before r o.objs ++ (k, w) :: post := by
    conv => lhs; rw [← List.takeWhile_append_dropWhile (p := fun p : Ref × V => Ref.lt p.1 r) (l := o.objs)]
    rw [before]; rw [notBefore] at h; rw [h]
  have hmem : (k, w) ∈ o.objs := by rw [hl]; simp
  have hne : Ref.ne k r = true := by
    rw [C25_reference_order.2.2.2.2.2.2.1]
    cases h : Ref.eq k r with
    | false => rfl
    | true => exact absurd ((C25_reference_order.2.2.2.2.2.1 k r).1 h) hk
  have he : SMap.erase k o.objs = before r o.objs ++ post := by
    conv => lhs; rw [hl]
    exact erase_split k w _ _ (hl ▸ hs)
  have hr : o.replace r v true = (.ok w, push { o with objs := SMap.erase k o.objs } r v) := by
    unfold replace
    rw [h, he]
    simp
  refine ⟨?_, ?_, ?_, ?_⟩
  · rw [getObject, h]; simp [hne]
  · rw [getObject_eq _ _ hs]; exact SMap.mem_find hs hmem
  · rw [hr]
  · rw [hr, getObject_eq]
    · rw [objs_push, SMap.find_insert, if_neg hk, SMap.find_erase _ _ hs, if_pos rfl]
    · rw [objs_push]; exact SMap.sorted_insert _ _ _ (SMap.sorted_erase _ hs)

example : let o := ((OL.new : OL Nat).run [.push ⟨1, 0⟩ 1, .push ⟨3, 0⟩ 3]).2
    notBefore ⟨2, 0⟩ o.objs = [(⟨3, 0⟩, 3)] := by decide +kernel

/-- **C32 is false for an object made outside the document**: the old object is lost, the new one not stored,
and the call raises. -/
theorem C32_foreign_false :
    let o := ((OL.new : OL Nat).run [.create 1, .create 2]).2
    let r := o.replace ⟨2, 0⟩ 9 false
    r.1 = .error (.error .InternalLogic) ∧ r.2.getObject ⟨2, 0⟩ = none := by decide +kernel

end Pdfmm
