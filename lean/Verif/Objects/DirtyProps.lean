import Verif.Objects.DirtyModel
/-
C26 (dictionaries are finite maps), C27 (arrays are lists), C28 (modifications reach the file).
-/
set_option autoImplicit false
set_option linter.unusedVariables false
namespace Pdfmm
open DObj

/-! ### Specification -/
namespace Spec

mutual
/-- Every object inside, at any depth, is linked to its container. -/
def AllLinked : DObj → Prop
  | .mk _ _ _ c => AllLinkedIn c
def AllLinkedIn : List (Bytes × DObj) → Prop
  | [] => True
  | p :: r => (p.2.linked = true ∧ AllLinked p.2) ∧ AllLinkedIn r
end

/-- The object at a path. -/
def objectAt : List Nat → DObj → Option DObj
  | [], o => some o
  | i :: p, .mk _ _ _ c =>
    match c[i]? with
    | none => none
    | some (_, child) => objectAt p child

/-- All links from the object at the path up to the top are there. -/
def PathLinked : List Nat → DObj → Prop
  | [], _ => True
  | i :: p, .mk _ _ _ c =>
    match c[i]? with
    | none => True
    | some (_, child) => child.linked = true ∧ PathLinked p child

/-- Modifications after which every object inside is still linked and which report themselves: all but
`insert` in the middle of an array, growth of a non-empty array beyond its capacity, `PdfArray::resize`
and assignment to a contained dictionary. -/
def Safe : DOp → DObj → Prop
  | .arrAdd v, .mk _ _ (.arr cap) c => AllLinked v ∧ (c = [] ∨ c.length < cap)
  | .arrInsert i v, .mk _ _ (.arr cap) c => i = c.length ∧ AllLinked v ∧ (c = [] ∨ c.length < cap)
  | .arrResize n _, .mk _ _ (.arr cap) c => n ≤ c.length ∨ n ≤ cap ∨ c = []
  | .dictAdd _ v, _ => AllLinked v
  | .dictReplace _, _ => False
  | .arrRawResize _, _ => False
  | _, _ => True

/-- A history in which every modification is safe where it happens. -/
def SafeHistory : IndObj → List IndStep → Prop
  | _, [] => True
  | o, .save :: r => SafeHistory (o.step .save) r
  | o, .modify p op :: r =>
    (∀ x, objectAt p o.tree = some x → Safe op x) ∧ SafeHistory (o.step (.modify p op)) r

end Spec
open Spec

/-! ### Links -/

theorem allLinkedIn_iff : ∀ (c : List (Bytes × DObj)),
    AllLinkedIn c ↔ ∀ p ∈ c, p.2.linked = true ∧ AllLinked p.2
  | [] => by simp [AllLinkedIn]
  | p :: r => by simp [AllLinkedIn, allLinkedIn_iff r]

theorem linked_setParent (d : Bool) (o : DObj) : (setParent d o).linked = true := by
  cases o; rw [setParent]; split <;> rfl

mutual
theorem allLinked_setParent (d : Bool) : ∀ (o : DObj), AllLinked o → AllLinked (setParent d o)
  | .mk l d' k c, h => by
    rw [setParent]
    split
    · exact h
    · rw [AllLinked] at *
      exact allLinkedIn_setParents d c (fun p hp => ((allLinkedIn_iff c).1 h p hp).2)
theorem allLinkedIn_setParents (d : Bool) : ∀ (c : List (Bytes × DObj)), (∀ p ∈ c, AllLinked p.2) →
    AllLinkedIn (setParents d c)
  | [], _ => by simp [setParents, AllLinkedIn]
  | p :: r, h => by
    rw [setParents, AllLinkedIn]
    exact ⟨⟨linked_setParent _ _, allLinked_setParent d p.2 (h p (by simp))⟩,
      allLinkedIn_setParents d r (fun q hq => h q (by simp [hq]))⟩
end

mutual
theorem allLinked_copied : ∀ (o : DObj), AllLinked (copied o)
  | .mk l d' k c => by rw [copied, AllLinked]; exact allLinkedIn_copiedKids c
theorem allLinkedIn_copiedKids : ∀ (c : List (Bytes × DObj)), AllLinkedIn (copiedKids c)
  | [] => by simp [copiedKids, AllLinkedIn]
  | p :: r => by
    rw [copiedKids, AllLinkedIn]
    exact ⟨⟨linked_setParent _ _, allLinked_setParent _ _ (allLinked_copied p.2)⟩,
      allLinkedIn_copiedKids r⟩
end

theorem allLinked_moved (o : DObj) (h : AllLinked o) : AllLinked o.moved := by
  cases o with
  | mk l d k c =>
    rw [moved, AllLinked]
    exact allLinkedIn_setParents _ _ (fun p hp => ((allLinkedIn_iff c).1 h p hp).2)

theorem allLinked_kids {o : DObj} (h : AllLinked o) : AllLinkedIn o.kids := by
  cases o; exact h

theorem allLinked_moveInto (t s : DObj) (h : AllLinked s) : AllLinked (moveInto t s) := by
  rw [moveInto, AllLinked]
  exact allLinkedIn_setParents _ _ (fun p hp => ((allLinkedIn_iff _).1 (allLinked_kids h) p hp).2)

theorem linked_moveInto (t s : DObj) : (moveInto t s).linked = t.linked := rfl

/-! ### Values -/

mutual
theorem value_setParent (d : Bool) : ∀ (o : DObj), value (setParent d o) = value o
  | .mk l d' k c => by
    rw [setParent]
    split
    · simp only [value]
    · simp only [value, values_setParents d c, entries_setParents d c]
theorem values_setParents (d : Bool) : ∀ (c : List (Bytes × DObj)), values (setParents d c) = values c
  | [] => by simp [setParents]
  | p :: r => by simp only [setParents, values, value_setParent d p.2, values_setParents d r]
theorem entries_setParents (d : Bool) : ∀ (c : List (Bytes × DObj)), entries (setParents d c) = entries c
  | [] => by simp [setParents]
  | p :: r => by simp only [setParents, entries, value_setParent d p.2, entries_setParents d r]
end

theorem value_moved (o : DObj) : value (moved o) = value o := by
  cases o with
  | mk l d k c => simp only [moved, value, values_setParents, entries_setParents]

mutual
theorem value_copied : ∀ (o : DObj), value (copied o) = value o
  | .mk l d' k c => by
    rw [copied]
    cases k <;> simp only [copiedKind, value, values_copiedKids c, entries_copiedKids c]
theorem values_copiedKids : ∀ (c : List (Bytes × DObj)), values (copiedKids c) = values c
  | [] => by simp [copiedKids]
  | p :: r => by simp only [copiedKids, values, value_setParent, value_copied p.2, values_copiedKids r]
theorem entries_copiedKids : ∀ (c : List (Bytes × DObj)), entries (copiedKids c) = entries c
  | [] => by simp [copiedKids]
  | p :: r => by simp only [copiedKids, entries, value_setParent, value_copied p.2, entries_copiedKids r]
end

theorem value_moveInto (t s : DObj) : value (moveInto t s) = value s := by
  cases s with
  | mk l d k c =>
    simp only [moveInto, DObj.kind, DObj.kids, value, values_setParents, entries_setParents]

theorem value_assignInto (t s : DObj) : value (assignInto t s) = value s := by
  rw [assignInto, value_moveInto, value_copied]

theorem values_eq_map : ∀ (c : List (Bytes × DObj)), values c = c.map (fun p => value p.2)
  | [] => rfl
  | p :: r => by simp [values, values_eq_map r]

theorem entries_eq_map : ∀ (c : List (Bytes × DObj)), entries c = c.map (fun p => (p.1, value p.2))
  | [] => rfl
  | p :: r => by simp [entries, entries_eq_map r]

theorem values_realloc (c : List (Bytes × DObj)) : values (DVec.realloc c) = values c := by
  simp [values_eq_map, DVec.realloc, value_moved]

theorem values_append (a b : List (Bytes × DObj)) : values (a ++ b) = values a ++ values b := by
  simp [values_eq_map]

theorem values_pushBack (d : Bool) (cap : Nat) (l : List (Bytes × DObj)) (v : DObj) :
    values (DVec.pushBack d cap l v).2 = values l ++ [value v] := by
  unfold DVec.pushBack
  split <;> simp [values_append, values_realloc, values, value_setParent, value_moved]

theorem values_shiftRight : ∀ (l : List (Bytes × DObj)) (x : DObj),
    values (DVec.shiftRight l x) = value x :: values l
  | [], x => by simp [DVec.shiftRight, values, value_moved]
  | p :: r, x => by
    simp only [DVec.shiftRight, values, value_moveInto, values_shiftRight r p.2]

theorem values_take (l : List (Bytes × DObj)) (i : Nat) : values (l.take i) = (values l).take i := by
  simp [values_eq_map, List.map_take]

theorem values_drop (l : List (Bytes × DObj)) (i : Nat) : values (l.drop i) = (values l).drop i := by
  simp [values_eq_map, List.map_drop]

theorem values_insertMid (d : Bool) (cap : Nat) (l : List (Bytes × DObj)) (i : Nat) (v : DObj)
    (hi : i < l.length) :
    values (DVec.insertMid d cap l i v).2 = (values l).take i ++ value v :: (values l).drop i := by
  unfold DVec.insertMid
  split
  · have hd : values (l.drop i) = (values l).drop i := values_drop l i
    split
    · rename_i h
      have := congrArg List.length h
      simp at this
      omega
    · rename_i p r h
      rw [h] at hd
      simp only [values_append, values_take, values, value_setParent, value_moveInto, value_moved,
        values_shiftRight, ← hd]
  · simp only [values_append, values, values_realloc, values_take, values_drop, value_setParent,
      value_moved]

theorem values_shiftLeft : ∀ (l : List (Bytes × DObj)), values (DVec.shiftLeft l) = (values l).tail
  | [] => rfl
  | [_] => rfl
  | p :: q :: r => by
    simp only [DVec.shiftLeft, values, value_moveInto, values_shiftLeft (q :: r), List.tail_cons]

theorem values_eraseAt (l : List (Bytes × DObj)) (i : Nat) :
    values (DVec.eraseAt l i) = (values l).eraseIdx i := by
  rw [DVec.eraseAt, values_append, values_take, values_shiftLeft, values_drop, List.tail_drop,
    List.eraseIdx_eq_take_drop_succ]

theorem values_replicate (n : Nat) (p : Bytes × DObj) :
    values (List.replicate n p) = List.replicate n (value p.2) := by
  simp [values_eq_map]

theorem values_length (c : List (Bytes × DObj)) : (values c).length = c.length := by
  simp [values_eq_map]

theorem values_resize (d : Bool) (cap : Nat) (l : List (Bytes × DObj)) (n : Nat) (v : DObj) :
    values (DVec.resize d cap l n v).2 =
      (values l).take n ++ List.replicate (n - l.length) (value v) := by
  unfold DVec.resize
  split
  · rename_i h
    simp [values_take, Nat.sub_eq_zero_of_le h]
  · rename_i h
    have ht : (values l).take n = values l := by
      apply List.take_of_length_le; rw [values_length]; omega
    dsimp only
    split <;>
      simp only [values_append, values_realloc, values_replicate, value_setParent, value_copied, ht]

theorem entries_insert (k : Bytes) (v : DObj) : ∀ (c : List (Bytes × DObj)),
    entries (SMap.insert k v c) = SMap.insert k (value v) (entries c)
  | [] => rfl
  | (k', v') :: r => by
    simp only [SMap.insert, entries]
    split
    · simp [entries]
    · split <;> simp [entries, entries_insert k v r]

theorem entries_erase (k : Bytes) : ∀ (c : List (Bytes × DObj)),
    entries (SMap.erase k c) = SMap.erase k (entries c)
  | [] => rfl
  | (k', v') :: r => by
    simp only [SMap.erase, entries]
    split
    · rfl
    · simp [entries, entries_erase k r]

theorem find_entries (k : Bytes) : ∀ (c : List (Bytes × DObj)),
    SMap.find? k (entries c) = (SMap.find? k c).map value
  | [] => rfl
  | (k', v') :: r => by
    simp only [SMap.find?, entries]
    split
    · rfl
    · exact find_entries k r

theorem erase_of_find_none (k : Bytes) {V : Type} : ∀ (c : List (Bytes × V)),
    SMap.find? k c = none → SMap.erase k c = c
  | [], _ => rfl
  | (k', v') :: r, h => by
    simp only [SMap.find?] at h
    split at h
    · cases h
    · rename_i hk
      simp only [SMap.erase, if_neg hk, erase_of_find_none k r h]

/-! ### C27: arrays are lists -/

/-- The operations of `PdfArray` on elements. `SetAt` is assignment to the element
(`src/pdfmm/base/PdfArray.cpp:122-131`). -/
inductive ArrOp
  | add (v : DObj) | setAt (i : Nat) (v : DObj) | insert (i : Nat) (v : DObj) | removeAt (i : Nat)
  | resize (n : Nat) (v : DObj) | clear

/-- The effect on an object holding an array. -/
def ArrOp.run : ArrOp → DObj → Option (DObj × Bool)
  | .add v, o => applyAt (.arrAdd v) [] o
  | .setAt i v, o => applyAt (.assign v) [i] o
  | .insert i v, o => applyAt (.arrInsert i v) [] o
  | .removeAt i, o => applyAt (.arrRemove i) [] o
  | .resize n v, o => applyAt (.arrResize n v) [] o
  | .clear, o => applyAt .clear [] o

/-- A sequence of operations; one that raises leaves the array as it is, the caller carries on. -/
def ArrOp.runAll : List ArrOp → DObj → DObj
  | [], o => o
  | op :: r, o => runAll r (match op.run o with | none => o | some (o', _) => o')

/-- The same operation on a list of values; `none` when an index is out of range. -/
def Spec.listOp : ArrOp → List DVal → Option (List DVal)
  | .add v, l => some (l ++ [v.value])
  | .setAt i v, l => if i < l.length then some (l.set i v.value) else none
  | .insert i v, l => if i ≤ l.length then some (l.take i ++ v.value :: l.drop i) else none
  | .removeAt i, l => if i < l.length then some (l.eraseIdx i) else none
  | .resize n v, l => some (l.take n ++ List.replicate (n - l.length) v.value)
  | .clear, _ => some []

def Spec.listOps : List ArrOp → List DVal → List DVal
  | [], l => l
  | op :: r, l => listOps r ((listOp op l).getD l)

/-- One operation does to the array what it does to the list, and raises exactly when an index is out of
range. -/
theorem C27_array_op (op : ArrOp) (l d : Bool) (cap : Nat) (c : List (Bytes × DObj)) :
    (op.run (.mk l d (.arr cap) c)).map (fun r => r.1.value) =
      (Spec.listOp op (values c)).map DVal.arr ∧
    ∀ o' n, op.run (.mk l d (.arr cap) c) = some (o', n) → ∃ cap' c', o' = .mk l d (.arr cap') c' := by
  cases op with
  | add v =>
    simp only [ArrOp.run, applyAt, DOp.apply, Spec.listOp]
    refine ⟨by simp [value, values_pushBack], ?_⟩
    intro o' n h; cases h; exact ⟨_, _, rfl⟩
  | setAt i v =>
    simp only [ArrOp.run, applyAt, Spec.listOp, values_length]
    by_cases hi : i < c.length
    · rw [List.getElem?_eq_getElem hi]
      simp only [DOp.apply, if_pos hi]
      refine ⟨?_, ?_⟩
      · simp [value, values_eq_map, value_assignInto, List.map_set]
      · intro o' n h; cases h; exact ⟨_, _, rfl⟩
    · rw [List.getElem?_eq_none (by omega)]
      simp [hi]
  | insert i v =>
    simp only [ArrOp.run, applyAt, DOp.apply, Spec.listOp, values_length]
    by_cases hi : i < c.length
    · simp only [if_pos hi, if_pos (Nat.le_of_lt hi)]
      refine ⟨by simp [value, values_insertMid _ _ _ _ _ hi], ?_⟩
      intro o' n h; cases h; exact ⟨_, _, rfl⟩
    · by_cases he : i = c.length
      · simp only [if_neg hi, if_pos he, if_pos (Nat.le_of_eq he)]
        refine ⟨?_, ?_⟩
        · subst he
          have h1 : (values c).take c.length = values c :=
            List.take_of_length_le (by rw [values_length]; omega)
          have h2 : (values c).drop c.length = [] :=
            List.drop_of_length_le (by rw [values_length]; omega)
          simp [value, values_pushBack, h1, h2]
        · intro o' n h; cases h; exact ⟨_, _, rfl⟩
      · have : ¬ i ≤ c.length := by omega
        simp [hi, he, this]
  | removeAt i =>
    simp only [ArrOp.run, applyAt, DOp.apply, Spec.listOp, values_length]
    by_cases hi : i < c.length
    · simp only [if_pos hi]
      refine ⟨by simp [value, values_eraseAt], ?_⟩
      intro o' n h; cases h; exact ⟨_, _, rfl⟩
    · simp [hi]
  | resize n v =>
    simp only [ArrOp.run, applyAt, DOp.apply, Spec.listOp, values_length]
    refine ⟨by simp [value, values_resize], ?_⟩
    intro o' n h; cases h; exact ⟨_, _, rfl⟩
  | clear =>
    simp only [ArrOp.run, applyAt, DOp.apply, Spec.listOp]
    refine ⟨by simp [value, values], ?_⟩
    intro o' n h; cases h; exact ⟨_, _, rfl⟩

/-- **C27.** After any sequence of operations an array holds exactly the list of values the same operations
give on a list, where an operation with an index out of range changes nothing. -/
theorem C27_array_is_list (ops : List ArrOp) : ∀ (l d : Bool) (cap : Nat) (c : List (Bytes × DObj)),
    (ArrOp.runAll ops (.mk l d (.arr cap) c)).value = .arr (Spec.listOps ops (values c)) := by
  induction ops with
  | nil => intro l d cap c; simp [ArrOp.runAll, Spec.listOps, value]
  | cons op r ih =>
    intro l d cap c
    obtain ⟨h1, h2⟩ := C27_array_op op l d cap c
    rw [ArrOp.runAll, Spec.listOps]
    cases h : op.run (.mk l d (.arr cap) c) with
    | none =>
      rw [h] at h1
      have : Spec.listOp op (values c) = none := by
        cases hh : Spec.listOp op (values c) with
        | none => rfl
        | some x => rw [hh] at h1; simp at h1
      rw [this]
      exact ih l d cap c
    | some x =>
      obtain ⟨o', n⟩ := x
      rw [h] at h1
      obtain ⟨cap', c', e⟩ := h2 o' n h
      cases hh : Spec.listOp op (values c) with
      | none => rw [hh] at h1; simp at h1
      | some x =>
        rw [hh] at h1
        simp only [Option.map_some, Option.some.injEq] at h1
        dsimp only
        subst e
        rw [ih, Option.getD_some]
        simp only [value, DVal.arr.injEq] at h1
        rw [h1]

example : ∃ o : DObj, ∃ ops : List ArrOp, ops.length = 6 ∧ o.kind = .arr 0 ∧
    (ArrOp.runAll ops o).value = .arr [.scalar 7, .scalar 2] := by
  let s : Int → DObj := fun v => .mk false false (.scalar v) []
  refine ⟨.mk false true (.arr 0) [],
    [.add (s 1), .add (s 2), .insert 1 (s 3), .setAt 0 (s 7), .removeAt 1, .removeAt 9], rfl, rfl, ?_⟩
  rw [C27_array_is_list]
  rfl

/-- **C27, indexed access.** For arrays of less than 2^32 elements and `unsigned` indices, access returns the
element of the list or raises `ValueOutOfRange`. -/
theorem C27_index (c : List DObj) (i : Nat) (hc : c.length < 2 ^ 32) (hi : i < 2 ^ 32) :
    arrayIndex c i = match c[i]? with
      | some x => .ok x
      | none => .error (.error .ValueOutOfRange) := by
  unfold arrayIndex
  rw [Nat.mod_eq_of_lt hc, Nat.mod_eq_of_lt hi]
  by_cases h : i < c.length
  · rw [if_neg (by omega), List.getElem?_eq_getElem h]
  · rw [if_pos (by omega), List.getElem?_eq_none (by omega)]

/-- **C27 is false of `operator[]`** with its `size_t` index: index 2^32 of a one-element array gives the
first element. -/
theorem C27_index_false (x : DObj) : arrayIndex [x] (2 ^ 32) = .ok x := by
  rfl

/-! ### C26: dictionaries are finite maps -/

/-- The operations of `PdfDictionary` on entries. -/
inductive DictOp
  | add (k : Bytes) (v : DObj) | remove (k : Bytes) | clear

/-- The effect on an object holding a dictionary; these never raise. -/
def DictOp.run : DictOp → DObj → DObj
  | .add k v, o => match applyAt (.dictAdd k v) [] o with | some (o', _) => o' | none => o
  | .remove k, o => match applyAt (.dictRemove k) [] o with | some (o', _) => o' | none => o
  | .clear, o => match applyAt .clear [] o with | some (o', _) => o' | none => o

def DictOp.runAll : List DictOp → DObj → DObj
  | [], o => o
  | op :: r, o => runAll r (op.run o)

/-- `PdfDictionary::getKey`, `src/pdfmm/base/PdfDictionary.cpp:123-132`. -/
def dictGet (k : Bytes) (o : DObj) : Option DObj := SMap.find? k o.kids
/-- `PdfDictionary::HasKey`, `src/pdfmm/base/PdfDictionary.cpp:172-177`. -/
def dictHas (k : Bytes) (o : DObj) : Bool := (SMap.find? k o.kids).isSome
/-- `PdfDictionary::GetSize`, `src/pdfmm/base/PdfDictionary.cpp:309-312`. -/
def dictSize (o : DObj) : Nat := o.kids.length

/-- The last value added for a key and not removed since. -/
def Spec.mapAfter : List DictOp → (Bytes → Option DVal) → (Bytes → Option DVal)
  | [], m => m
  | .add k v :: r, m => mapAfter r (fun x => if x = k then some v.value else m x)
  | .remove k :: r, m => mapAfter r (fun x => if x = k then none else m x)
  | .clear :: r, _ => mapAfter r (fun _ => none)

theorem dictOp_run (op : DictOp) (l d : Bool) (c : List (Bytes × DObj)) (hs : SMap.Sorted c) :
    ∃ c', op.run (.mk l d .dict c) = .mk l d .dict c' ∧ SMap.Sorted c' ∧
      ∀ x, (SMap.find? x c').map value = Spec.mapAfter [op] (fun x => (SMap.find? x c).map value) x := by
  cases op with
  | add k v =>
    simp only [DictOp.run, applyAt, DOp.apply]
    cases h : SMap.find? k c with
    | none =>
      refine ⟨_, rfl, SMap.sorted_insert _ _ _ hs, ?_⟩
      intro x
      rw [SMap.find_insert]
      simp only [Spec.mapAfter]
      split <;> simp [value_setParent, value_moved]
    | some old =>
      refine ⟨_, rfl, SMap.sorted_insert _ _ _ hs, ?_⟩
      intro x
      rw [SMap.find_insert]
      simp only [Spec.mapAfter]
      split <;> simp [value_setParent, value_assignInto]
  | remove k =>
    simp only [DictOp.run, applyAt, DOp.apply]
    cases h : SMap.find? k c with
    | none =>
      refine ⟨_, rfl, hs, ?_⟩
      intro x
      simp only [Spec.mapAfter]
      split
      · rename_i e; subst e; rw [h]; rfl
      · rfl
    | some old =>
      refine ⟨_, rfl, SMap.sorted_erase _ hs, ?_⟩
      intro x
      rw [SMap.find_erase _ _ hs]
      simp only [Spec.mapAfter]
      split <;> simp_all
  | clear =>
    refine ⟨_, rfl, trivial, ?_⟩
    intro x; rfl

theorem mapAfter_cons (op : DictOp) (r : List DictOp) (m : Bytes → Option DVal) :
    Spec.mapAfter (op :: r) m = Spec.mapAfter r (Spec.mapAfter [op] m) := by
  cases op <;> rfl

/-- **C26.** After any sequence of operations a lookup returns the last value added for the key and not
removed since, `HasKey` agrees with it, and the size is the number of keys present (`ks` lists every key
present exactly once). -/
theorem C26_dict_is_map (ops : List DictOp) : ∀ (l d : Bool) (c : List (Bytes × DObj)), SMap.Sorted c →
    let o := DictOp.runAll ops (.mk l d .dict c)
    let m := Spec.mapAfter ops (fun k => (SMap.find? k c).map value)
    (∀ k, (dictGet k o).map value = m k) ∧
    (∀ k, dictHas k o = (m k).isSome) ∧
    ∃ ks : List Bytes, ks.Nodup ∧ (∀ k, k ∈ ks ↔ (m k).isSome = true) ∧ dictSize o = ks.length := by
  induction ops with
  | nil =>
    intro l d c hs
    refine ⟨fun k => rfl, ?_, c.map (·.1), ?_, ?_, ?_⟩
    · intro k; simp [Spec.mapAfter, dictHas, DictOp.runAll, DObj.kids]
    · clear l d
      induction c with
      | nil => simp
      | cons p r ih =>
        obtain ⟨k, v⟩ := p
        simp only [List.map_cons, List.nodup_cons]
        refine ⟨?_, ih hs.2⟩
        intro hm
        obtain ⟨q, hq, e⟩ := List.mem_map.1 hm
        have := hs.1 q hq
        rw [e, StrictOrd.irrefl] at this
        cases this
    · intro k
      simp only [Spec.mapAfter, Option.isSome_map]
      constructor
      · intro hm
        obtain ⟨q, hq, e⟩ := List.mem_map.1 hm
        obtain ⟨k', v⟩ := q
        simp only at e
        subst e
        rw [SMap.mem_find hs hq]; rfl
      · intro h
        obtain ⟨v, hv⟩ := Option.isSome_iff_exists.1 h
        exact List.mem_map.2 ⟨_, SMap.find_mem hv, rfl⟩
    · simp [dictSize, DictOp.runAll, DObj.kids]
  | cons op r ih =>
    intro l d c hs
    obtain ⟨c', h1, h2, h3⟩ := dictOp_run op l d c hs
    have := ih l d c' h2
    rw [DictOp.runAll, h1, mapAfter_cons]
    rw [show (fun k => (SMap.find? k c').map value) = _ from funext h3] at this
    exact this

example : ∃ ops : List DictOp, ∃ o : DObj, o.kind = .dict ∧ SMap.Sorted o.kids ∧
    (dictGet [65] (DictOp.runAll ops o)).map value = some (.scalar 2) ∧
    (dictGet [66] (DictOp.runAll ops o)).map value = none := by
  let s : Int → DObj := fun v => .mk false false (.scalar v) []
  refine ⟨[.add [65] (s 1), .add [66] (s 5), .add [65] (s 2), .remove [66]],
    .mk false true .dict [], rfl, trivial, ?_, ?_⟩
  · rw [(C26_dict_is_map _ false true [] trivial).1]; rfl
  · rw [(C26_dict_is_map _ false true [] trivial).1]; rfl

/-! ### C28: modifications reach the file -/

theorem kids_find_linked {k : Bytes} {old : DObj} {c : List (Bytes × DObj)} (h : AllLinkedIn c)
    (hf : SMap.find? k c = some old) : old.linked = true ∧ AllLinked old :=
  (allLinkedIn_iff c).1 h (k, old) (SMap.find_mem hf)

theorem allLinkedIn_append (a b : List (Bytes × DObj)) (ha : AllLinkedIn a) (hb : AllLinkedIn b) :
    AllLinkedIn (a ++ b) := by
  rw [allLinkedIn_iff] at *
  intro p hp
  rcases List.mem_append.1 hp with h | h
  · exact ha p h
  · exact hb p h

theorem allLinkedIn_sub (a b : List (Bytes × DObj)) (h : ∀ p ∈ a, p ∈ b) (hb : AllLinkedIn b) :
    AllLinkedIn a := by
  rw [allLinkedIn_iff] at *
  exact fun p hp => hb p (h p hp)

theorem allLinkedIn_insert (k : Bytes) (v : DObj) (c : List (Bytes × DObj)) (hl : v.linked = true)
    (hv : AllLinked v) (hc : AllLinkedIn c) : AllLinkedIn (SMap.insert k v c) := by
  rw [allLinkedIn_iff] at *
  intro p hp
  rcases SMap.mem_insert hp with h | h
  · subst h; exact ⟨hl, hv⟩
  · exact hc p h

theorem allLinkedIn_pushBack (d : Bool) (cap : Nat) (c : List (Bytes × DObj)) (v : DObj)
    (hv : AllLinked v) (h : c = [] ∨ c.length < cap) (hc : AllLinkedIn c) :
    AllLinkedIn (DVec.pushBack d cap c v).2 := by
  have hn : AllLinkedIn [(([] : Bytes), setParent d v.moved)] :=
    ⟨⟨linked_setParent _ _, allLinked_setParent _ _ (allLinked_moved _ hv)⟩, trivial⟩
  unfold DVec.pushBack
  split
  · exact allLinkedIn_append _ _ hc hn
  · rcases h with h | h
    · subst h; exact hn
    · omega

theorem allLinkedIn_shiftLeft : ∀ (c : List (Bytes × DObj)), AllLinkedIn c → AllLinkedIn (DVec.shiftLeft c)
  | [], _ => trivial
  | [_], _ => trivial
  | p :: q :: r, h => by
    rw [DVec.shiftLeft, AllLinkedIn]
    exact ⟨⟨by rw [linked_moveInto]; exact h.1.1, allLinked_moveInto _ _ h.2.1.2⟩,
      allLinkedIn_shiftLeft (q :: r) h.2⟩

theorem allLinkedIn_replicate (n : Nat) (p : Bytes × DObj) (hl : p.2.linked = true) (h : AllLinked p.2) :
    AllLinkedIn (List.replicate n p) := by
  rw [allLinkedIn_iff]
  intro q hq
  rw [List.eq_of_mem_replicate hq]
  exact ⟨hl, h⟩

theorem allLinkedIn_resize (d : Bool) (cap : Nat) (c : List (Bytes × DObj)) (n : Nat) (v : DObj)
    (h : n ≤ c.length ∨ n ≤ cap ∨ c = []) (hc : AllLinkedIn c) :
    AllLinkedIn (DVec.resize d cap c n v).2 := by
  have hn : AllLinkedIn (List.replicate (n - c.length) (([] : Bytes), setParent d (DObj.copied v))) :=
    allLinkedIn_replicate _ _ (linked_setParent _ _) (allLinked_setParent _ _ (allLinked_copied v))
  unfold DVec.resize
  split
  · exact allLinkedIn_sub _ _ (fun p hp => List.mem_of_mem_take hp) hc
  · dsimp only
    split
    · exact allLinkedIn_append _ _ hc hn
    · rcases h with h | h | h
      · omega
      · omega
      · rw [h] at hn ⊢; exact hn

/-- One modification of the object itself. -/
theorem apply_facts (op : DOp) (o o' : DObj) (n : Bool) (hl : AllLinked o) (hs : Safe op o)
    (h : op.apply o = some (o', n)) :
    AllLinked o' ∧ o'.linked = o.linked ∧ (n = true ∨ value o' = value o) := by
  obtain ⟨l, d, k, c⟩ := o
  have hc : AllLinkedIn c := hl
  cases op with
  | setScalar v =>
    cases k with
    | scalar x => simp only [DOp.apply] at h; cases h; exact ⟨hl, rfl, .inl rfl⟩
    | _ => simp [DOp.apply] at h
  | assign v =>
    simp only [DOp.apply] at h; cases h
    exact ⟨allLinked_moveInto _ _ (allLinked_copied v), rfl, .inl rfl⟩
  | arrAdd v =>
    cases k with
    | arr cap =>
      simp only [DOp.apply] at h; cases h
      exact ⟨allLinkedIn_pushBack _ _ _ _ hs.1 hs.2 hc, rfl, .inl rfl⟩
    | _ => simp [DOp.apply] at h
  | arrInsert i v =>
    cases k with
    | arr cap =>
      obtain ⟨hi, h1, h2⟩ := hs
      simp only [DOp.apply, if_neg (show ¬ i < c.length by omega), if_pos hi] at h
      cases h
      exact ⟨allLinkedIn_pushBack _ _ _ _ h1 h2 hc, rfl, .inl rfl⟩
    | _ => simp [DOp.apply] at h
  | arrRemove i =>
    cases k with
    | arr cap =>
      simp only [DOp.apply] at h
      split at h
      · cases h
        refine ⟨?_, rfl, .inl rfl⟩
        exact allLinkedIn_append _ _ (allLinkedIn_sub _ _ (fun p hp => List.mem_of_mem_take hp) hc)
          (allLinkedIn_shiftLeft _ (allLinkedIn_sub _ _ (fun p hp => List.mem_of_mem_drop hp) hc))
      · cases h
    | _ => simp [DOp.apply] at h
  | arrResize m v =>
    cases k with
    | arr cap =>
      simp only [DOp.apply] at h; cases h
      refine ⟨allLinkedIn_resize _ _ _ _ _ hs hc, rfl, ?_⟩
      by_cases he : m = c.length
      · right
        subst he
        simp only [value, values_resize, Nat.sub_self, List.replicate_zero, List.append_nil]
        rw [List.take_of_length_le (by rw [values_length]; omega)]
      · left; simpa using he
    | _ => simp [DOp.apply] at h
  | clear =>
    cases k with
    | scalar x => simp [DOp.apply] at h
    | arr cap =>
      simp only [DOp.apply] at h; cases h
      refine ⟨trivial, rfl, ?_⟩
      cases c with
      | nil => right; rfl
      | cons => left; rfl
    | dict =>
      simp only [DOp.apply] at h; cases h
      refine ⟨trivial, rfl, ?_⟩
      cases c with
      | nil => right; rfl
      | cons => left; rfl
  | dictAdd key v =>
    cases k with
    | dict =>
      have hv : AllLinked v := hs
      simp only [DOp.apply] at h
      cases hf : SMap.find? key c with
      | none =>
        rw [hf] at h; cases h
        exact ⟨allLinkedIn_insert _ _ _ (linked_setParent _ _)
          (allLinked_setParent _ _ (allLinked_moved _ hv)) hc, rfl, .inl rfl⟩
      | some old =>
        rw [hf] at h; cases h
        exact ⟨allLinkedIn_insert _ _ _ (linked_setParent _ _)
          (allLinked_setParent _ _ (allLinked_moveInto _ _ (allLinked_copied v))) hc, rfl,
          .inl (kids_find_linked hc hf).1⟩
    | _ => simp [DOp.apply] at h
  | dictRemove key =>
    cases k with
    | dict =>
      simp only [DOp.apply] at h
      cases hf : SMap.find? key c with
      | none => rw [hf] at h; cases h; exact ⟨hl, rfl, .inr rfl⟩
      | some old =>
        rw [hf] at h; cases h
        exact ⟨allLinkedIn_sub _ _ (fun p hp => SMap.mem_erase hp) hc, rfl, .inl rfl⟩
    | _ => simp [DOp.apply] at h
  | dictReplace l' => exact absurd hs (by simp [Safe])
  | arrRawResize m => exact absurd hs (by simp [Safe])

theorem values_set_same (c : List (Bytes × DObj)) (i : Nat) (key : Bytes) (x y : DObj)
    (hi : c[i]? = some (key, x)) (hv : value y = value x) :
    values (c.set i (key, y)) = values c ∧ entries (c.set i (key, y)) = entries c := by
  induction c generalizing i with
  | nil => simp at hi
  | cons p r ih =>
    cases i with
    | zero =>
      simp only [List.getElem?_cons_zero, Option.some.injEq] at hi
      subst hi
      simp [values, entries, hv]
    | succ i =>
      simp only [List.getElem?_cons_succ] at hi
      simp [values, entries, ih i hi]

/-- A modification at any depth: if everything is linked, the top object is told, or its value is as
before. -/
theorem applyAt_facts (op : DOp) : ∀ (path : List Nat) (o o' : DObj) (n : Bool), AllLinked o →
    (∀ x, objectAt path o = some x → Safe op x) → applyAt op path o = some (o', n) →
    AllLinked o' ∧ o'.linked = o.linked ∧ (n = true ∨ value o' = value o) := by
  intro path
  induction path with
  | nil => intro o o' n hl hs h; exact apply_facts op o o' n hl (hs o rfl) h
  | cons i p ih =>
    intro o o' n hl hs h
    obtain ⟨l, d, k, c⟩ := o
    have hc : AllLinkedIn c := hl
    simp only [applyAt] at h
    cases hi : c[i]? with
    | none => rw [hi] at h; cases h
    | some q =>
      obtain ⟨key, child⟩ := q
      rw [hi] at h
      dsimp only at h
      cases ha : applyAt op p child with
      | none => rw [ha] at h; cases h
      | some q' =>
        obtain ⟨child', n'⟩ := q'
        rw [ha] at h
        cases h
        have hm : (key, child) ∈ c := List.mem_of_getElem? hi
        obtain ⟨hcl, hca⟩ := (allLinkedIn_iff c).1 hc _ hm
        have hs' : ∀ x, objectAt p child = some x → Safe op x := by
          intro x hx; apply hs; simp only [objectAt, hi]; exact hx
        obtain ⟨h1, h2, h3⟩ := ih child child' n' hca hs' ha
        refine ⟨?_, rfl, ?_⟩
        · rw [AllLinked, allLinkedIn_iff]
          intro q hq
          rcases List.mem_or_eq_of_mem_set hq with hq | hq
          · exact (allLinkedIn_iff c).1 hc _ hq
          · subst hq; exact ⟨h2.trans hcl, h1⟩
        · rcases h3 with h3 | h3
          · left; rw [h3, h2.trans hcl]; rfl
          · right
            obtain ⟨e1, e2⟩ := values_set_same c i key child child' hi h3
            simp only [value, e1, e2]

/-- **C28 (partial).** Take an indirect object as it is after parsing or construction (everything linked)
and whose value on disk is current or which is dirty.  After any history of modifications at any depth and
incremental saves, as long as no array was grown by moving its elements and no contained dictionary was
assigned to, an incremental save writes the current value. -/
theorem C28_changes_saved_partial (h : List IndStep) : ∀ (o : IndObj), AllLinked o.tree →
    (o.dirty = true ∨ o.disk = o.tree.value) → SafeHistory o h →
    ((o.steps h).step .save).disk = (o.steps h).tree.value := by
  induction h with
  | nil =>
    intro o _ hd _
    rw [IndObj.steps, IndObj.step]
    by_cases hn : o.dirty = true
    · rw [if_pos hn]
    · rw [if_neg hn]
      exact hd.resolve_left hn
  | cons s r ih =>
    intro o hl hd hs
    rw [IndObj.steps]
    cases s with
    | save =>
      refine ih _ ?_ ?_ hs
      · simp only [IndObj.step]; split <;> exact hl
      · simp only [IndObj.step]
        split
        · exact .inr rfl
        · exact hd
    | modify p op =>
      refine ih _ ?_ ?_ hs.2
      · simp only [IndObj.step]
        split
        · exact hl
        · rename_i t n ha
          exact (applyAt_facts op p _ _ _ hl hs.1 ha).1
      · simp only [IndObj.step]
        split
        · exact hd
        · rename_i t n ha
          obtain ⟨_, _, h3⟩ := applyAt_facts op p _ _ _ hl hs.1 ha
          rcases hd with hd | hd
          · left; simp [hd]
          · rcases h3 with h3 | h3
            · left; simp [h3]
            · right; exact hd.trans h3.symm

/-- A modification at a depth of two in a saved object, then a save. -/
example : ∃ (o : IndObj) (h : List IndStep), AllLinked o.tree ∧ o.dirty = false ∧ SafeHistory o h ∧
    (o.steps h).tree.value = .dict [([65], .arr [.scalar 1, .scalar 9])] ∧
    o.disk = .dict [([65], .arr [.scalar 1, .scalar 2])] := by
  refine ⟨⟨.mk false true .dict [([65], .mk true true (.arr 2) [([], .mk true true (.scalar 1) []),
    ([], .mk true true (.scalar 2) [])])], false, .dict [([65], .arr [.scalar 1, .scalar 2])]⟩,
    [.modify [0, 1] (.setScalar 9)], ?_, rfl, ?_, ?_, rfl⟩
  · simp [AllLinked, AllLinkedIn, DObj.linked]
  · simp [SafeHistory, objectAt, Safe]
  · rfl

/-- **A missing link loses the notification**, whatever the operation. -/
theorem C28_lost_without_link (op : DOp) : ∀ (path : List Nat) (o o' : DObj) (n : Bool),
    applyAt op path o = some (o', n) → ¬ PathLinked path o → n = false := by
  have hlk : ∀ (path : List Nat) (o o' : DObj) (n : Bool), applyAt op path o = some (o', n) →
      o'.linked = o.linked := by
    intro path o o' n h
    cases path with
    | nil =>
      obtain ⟨l, d, k, c⟩ := o
      simp only [applyAt] at h
      unfold DOp.apply at h
      split at h <;> (try split at h) <;> (try split at h) <;> (try cases h) <;>
        first
          | rfl
          | (simp_all [DObj.linked]; done)
          | (rename_i e; cases e; rfl)
          | skip
      all_goals (split <;> (try split) <;> simp_all [DObj.linked])
    | cons i p =>
      obtain ⟨l, d, k, c⟩ := o
      simp only [applyAt] at h
      split at h
      · cases h
      · split at h
        · cases h
        · cases h; rfl
  intro path
  induction path with
  | nil => intro o o' n _ hp; exact absurd trivial hp
  | cons i p ih =>
    intro o o' n h hp
    obtain ⟨l, d, k, c⟩ := o
    simp only [applyAt] at h
    simp only [PathLinked] at hp
    cases hi : c[i]? with
    | none => rw [hi] at h; cases h
    | some q =>
      obtain ⟨key, child⟩ := q
      rw [hi] at h hp
      dsimp only at h hp
      cases ha : applyAt op p child with
      | none => rw [ha] at h; cases h
      | some q' =>
        obtain ⟨child', n'⟩ := q'
        rw [ha] at h
        cases h
        by_cases hc : child.linked = true
        · have : ¬ PathLinked p child := fun x => hp ⟨hc, x⟩
          rw [ih child child' n' ha this]; rfl
        · rw [hlk p child child' n' ha]
          simp at hc
          simp [hc]

/-- **C28 is false of the code**: from an empty array in a clean object, add two values, save, change the
first one through the element, save: the file still has the old value. -/
theorem C28_array_growth_false :
    let o : IndObj := ⟨.mk false true (.arr 0) [], false, .arr []⟩
    let s : Int → DObj := fun v => .mk false false (.scalar v) []
    let o' := o.steps [.modify [] (.arrAdd (s 1)), .modify [] (.arrAdd (s 2)), .save,
      .modify [0] (.setScalar 7), .save]
    o'.tree.value = .arr [.scalar 7, .scalar 2] ∧ o'.disk = .arr [.scalar 1, .scalar 2] := by
  exact ⟨rfl, rfl⟩

/-- The same through an insertion without reallocation: the last element is lost. -/
theorem C28_array_insert_false :
    let s : Int → DObj := fun v => .mk true true (.scalar v) []
    let o : IndObj := ⟨.mk false true (.arr 4) [([], s 1), ([], s 2)], false, .arr [.scalar 1, .scalar 2]⟩
    let o' := o.steps [.modify [] (.arrInsert 0 (s 0)), .save, .modify [2] (.setScalar 7), .save]
    AllLinked o.tree ∧ o'.tree.value = .arr [.scalar 0, .scalar 1, .scalar 7] ∧
      o'.disk = .arr [.scalar 0, .scalar 1, .scalar 2] := by
  refine ⟨?_, rfl, rfl⟩
  simp [AllLinked, AllLinkedIn, DObj.linked]

/-- Assignment to a contained dictionary is never noticed. -/
theorem C28_dict_assign_false (l : List (Bytes × DObj)) (c : List (Bytes × DObj)) (disk : DVal) :
    let o : IndObj := ⟨.mk false true .dict c, false, disk⟩
    let o' := o.steps [.modify [] (.dictReplace l), .save]
    o'.tree.value = .dict (entries l) ∧ o'.disk = disk := by
  refine ⟨?_, rfl⟩
  simp only [IndObj.steps, IndObj.step, applyAt, DOp.apply, value]
  simp [value, entries_setParents, entries_copiedKids]

/-- `PdfArray::resize` is never noticed either. -/
theorem C28_resize_false (c : List (Bytes × DObj)) (cap n : Nat) (disk : DVal) (hn : n < c.length) :
    let o : IndObj := ⟨.mk false true (.arr cap) c, false, disk⟩
    let o' := o.steps [.modify [] (.arrRawResize n), .save]
    o'.tree.value = .arr ((values c).take n) ∧ o'.disk = disk := by
  refine ⟨?_, rfl⟩
  simp [IndObj.steps, IndObj.step, applyAt, DOp.apply, Nat.le_of_lt hn, value, values_take]

end Pdfmm
