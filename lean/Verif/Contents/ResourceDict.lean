import Verif.Forms.Inherit

set_option autoImplicit false

/-! # Resources of pages and forms

The resource dictionary is an indirect object; each kind of resource is a dictionary in it, or an object it refers to. -/

namespace Pdfmm

/-- Where the dictionary of one kind of resource is. -/
inductive ResPlace
  | inside
  | object (q : Ref)
  deriving DecidableEq

/-- `tryGetDictionary`, `src/pdfmm/base/PdfResources.cpp:135-145`, with `FindKey`, `src/pdfmm/base/PdfDictionary.cpp:134-146`. -/
def FDoc.kindDict (h : FDoc) (r : Ref) (t : Bytes) : Option (ResPlace × FDict) :=
  match SMap.find? t (h.dict r) with
  | some (.ref n g) => match h ⟨n, g⟩ with
    | some (.dict d) => some (.object ⟨n, g⟩, d)
    | _ => none
  | some (.dict d) => some (.inside, d)
  | _ => none

/-- A change of that dictionary in place. -/
def FDoc.putKind (h : FDoc) (r : Ref) (t : Bytes) (d : FDict) : ResPlace → FDoc
  | .inside => h.addKey r t (.dict d)
  | .object q => h.set q (.dict d)

/-- `getOrCreateDictionary`, `src/pdfmm/base/PdfResources.cpp:147-154`: anything that is no dictionary is replaced by an empty one. -/
def FDoc.kindOrNew (h : FDoc) (r : Ref) (t : Bytes) : ResPlace × FDict := (h.kindDict r t).getD (.inside, [])

/-- What is put under the name: a reference to an object of the document, or a copy, `AddKeyIndirectSafe`, `src/pdfmm/base/PdfDictionary.cpp:88-94`. -/
inductive ResObj
  | object (o : Ref)
  | value (v : Var)

def ResObj.entry : ResObj → Var
  | .object o => .ref o.num o.gen
  | .value v => v

/-- `AddResource`, `src/pdfmm/base/PdfResources.cpp:25-29`. -/
def FDoc.addResource (h : FDoc) (r : Ref) (t k : Bytes) (x : ResObj) : FDoc :=
  h.putKind r t (SMap.insert k x.entry (h.kindOrNew r t).2) (h.kindOrNew r t).1

/-- `RemoveResource`, `src/pdfmm/base/PdfResources.cpp:58-65`. -/
def FDoc.removeResource (h : FDoc) (r : Ref) (t k : Bytes) : FDoc :=
  match h.kindDict r t with
  | none => h
  | some (w, d) => h.putKind r t (SMap.erase k d) w

/-- `AddResource` with a pointer, `src/pdfmm/base/PdfResources.cpp:31-38`: a null pointer removes the name, an object that is not indirect in the document raises — in both cases after the
dictionary was made. -/
def FDoc.addResourcePtr (h : FDoc) (r : Ref) (t k : Bytes) : Option ResObj → FDoc × Res Unit
  | none => (h.putKind r t (SMap.erase k (h.kindOrNew r t).2) (h.kindOrNew r t).1, .ok ())
  | some (.object o) => (h.addResource r t k (.object o), .ok ())
  | some (.value _) => (h.putKind r t (h.kindOrNew r t).2 (h.kindOrNew r t).1, raise .InvalidHandle)

/-- `RemoveResources`, `src/pdfmm/base/PdfResources.cpp:67-70`. -/
def FDoc.removeResources (h : FDoc) (r : Ref) (t : Bytes) : FDoc := h.removeKey r t

/-- `GetResource`, `src/pdfmm/base/PdfResources.cpp:125-133`. -/
def FDoc.getResource (h : FDoc) (r : Ref) (t k : Bytes) : Option Var :=
  match h.kindDict r t with
  | none => none
  | some (_, d) => h.findKey d k

/-! ## The specification -/

/-- What stands under a kind and a name, before references are followed. -/
def Spec.slot (h : FDoc) (r : Ref) (t k : Bytes) : Option Var := (h.kindDict r t).bind fun p => SMap.find? k p.2

/-- The object at `r` is a sorted dictionary, and so is every kind of resource; no kind is the resource dictionary itself; kinds given by reference are different objects. -/
structure Spec.Apart (h : FDoc) (r : Ref) : Prop where
  dict : h r = some (.dict (h.dict r))
  sorted : SMap.Sorted (h.dict r)
  kinds : ∀ t p, h.kindDict r t = some p → SMap.Sorted p.2
  self : ∀ t q d, h.kindDict r t = some (.object q, d) → q ≠ r
  distinct : ∀ t t' q d d', h.kindDict r t = some (.object q, d) → h.kindDict r t' = some (.object q, d') → t = t'

/-! ## Proofs -/

theorem dict_of (h : FDoc) (r : Ref) (d : FDict) (e : h r = some (.dict d)) : h.dict r = d := by rw [FDoc.dict, e]

theorem kindDict_inside {h : FDoc} {r : Ref} {t : Bytes} {d : FDict} (e : SMap.find? t (h.dict r) = some (.dict d)) :
    h.kindDict r t = some (.inside, d) := by rw [FDoc.kindDict, e]

theorem kindDict_object {h : FDoc} {r q : Ref} {t : Bytes} {d : FDict} (e : SMap.find? t (h.dict r) = some (.ref q.num q.gen)) (eq : h q = some (.dict d)) :
    h.kindDict r t = some (.object q, d) := by
  rw [FDoc.kindDict, e]
  show (match h q with | some (.dict d) => some (ResPlace.object q, d) | _ => none) = _
  rw [eq]

/-- The three cases of `kindDict`. -/
theorem kindDict_cases (h : FDoc) (r : Ref) (t : Bytes) :
    (∃ d, SMap.find? t (h.dict r) = some (.dict d) ∧ h.kindDict r t = some (.inside, d)) ∨
    (∃ q d, SMap.find? t (h.dict r) = some (.ref q.num q.gen) ∧ h q = some (.dict d) ∧ h.kindDict r t = some (.object q, d)) ∨
    h.kindDict r t = none := by
  rw [FDoc.kindDict]
  split
  · rename_i n g e
    split
    · rename_i d ed
      exact .inr (.inl ⟨⟨n, g⟩, d, e, ed, rfl⟩)
    · exact .inr (.inr rfl)
  · rename_i d e
    exact .inl ⟨d, e, rfl⟩
  · exact .inr (.inr rfl)

/-- Putting a dictionary in the place of the kind: it is found there, and the place stays. -/
theorem kindDict_put {h : FDoc} {r : Ref} (ha : Spec.Apart h r) (t : Bytes) (d : FDict) :
    (h.putKind r t d (h.kindOrNew r t).1).kindDict r t = some ((h.kindOrNew r t).1, d) := by
  rcases kindDict_cases h r t with ⟨d0, e, ek⟩ | ⟨q, d0, e, eq, ek⟩ | ek
  · rw [FDoc.kindOrNew, ek]
    apply kindDict_inside
    rw [show FDoc.putKind h r t d _ = h.addKey r t (.dict d) from rfl, FDoc.addKey, dict_of _ r _ (by rw [FDoc.set, if_pos rfl]), SMap.find_insert_self]
  · rw [FDoc.kindOrNew, ek]
    have hq := ha.self t q d0 ek
    apply kindDict_object
    · show SMap.find? t ((h.set q (.dict d)).dict r) = _
      have : (h.set q (.dict d)).dict r = h.dict r := by rw [FDoc.dict, FDoc.set, if_neg (Ne.symm hq)]; rfl
      rw [this, e]
    · show (h.set q (.dict d)) q = _
      rw [FDoc.set, if_pos rfl]
  · rw [FDoc.kindOrNew, ek]
    apply kindDict_inside
    rw [show FDoc.putKind h r t d _ = h.addKey r t (.dict d) from rfl, FDoc.addKey, dict_of _ r _ (by rw [FDoc.set, if_pos rfl]), SMap.find_insert_self]

/-- Other kinds stay as they are. -/
theorem kindDict_put_ne {h : FDoc} {r : Ref} (ha : Spec.Apart h r) (t t' : Bytes) (ht : t' ≠ t) (d : FDict) :
    (h.putKind r t d (h.kindOrNew r t).1).kindDict r t' = h.kindDict r t' := by
  have inside : (h.addKey r t (.dict d)).kindDict r t' = h.kindDict r t' := by
    have e : SMap.find? t' ((h.addKey r t (.dict d)).dict r) = SMap.find? t' (h.dict r) := by
      rw [FDoc.addKey, dict_of _ r _ (by rw [FDoc.set, if_pos rfl]), SMap.find_insert_ne _ _ ht]
    rcases kindDict_cases h r t' with ⟨d0, e0, ek⟩ | ⟨q, d0, e0, eq, ek⟩ | ek
    · rw [ek, kindDict_inside (e.trans e0)]
    · rw [ek]
      apply kindDict_object (e.trans e0)
      rw [FDoc.addKey, FDoc.set, if_neg (ha.self t' q d0 ek), eq]
    · rw [ek, FDoc.kindDict, e]
      rw [FDoc.kindDict] at ek
      split at ek
      · rename_i n g e0
        by_cases hq : (⟨n, g⟩ : Ref) = r
        · rw [hq, ha.dict] at ek; cases ek
        · rw [FDoc.addKey, FDoc.set, if_neg hq]; exact ek
      · cases ek
      · rfl
  rcases kindDict_cases h r t with ⟨d0, _, ek⟩ | ⟨q, d0, e, eq, ek⟩ | ek
  · rw [FDoc.kindOrNew, ek]; exact inside
  · rw [FDoc.kindOrNew, ek]
    have hq := ha.self t q d0 ek
    have hd : (h.set q (.dict d)).dict r = h.dict r := by rw [FDoc.dict, FDoc.set, if_neg (Ne.symm hq)]; rfl
    show (h.set q (.dict d)).kindDict r t' = _
    rcases kindDict_cases h r t' with ⟨d1, e1, ek1⟩ | ⟨q1, d1, e1, eq1, ek1⟩ | ek1
    · rw [ek1, kindDict_inside (by rw [hd, e1])]
    · rw [ek1]
      apply kindDict_object (by rw [hd, e1])
      have : q1 ≠ q := by
        intro hx; subst hx
        exact ht (ha.distinct t' t q1 d1 d0 ek1 ek)
      rw [FDoc.set, if_neg this, eq1]
    · rw [ek1, FDoc.kindDict, hd]
      rw [FDoc.kindDict] at ek1
      split at ek1
      · rename_i n g e0
        by_cases hx : (⟨n, g⟩ : Ref) = q
        · rw [hx, eq] at ek1; cases ek1
        · rw [FDoc.set, if_neg hx]; exact ek1
      · cases ek1
      · rfl
  · rw [FDoc.kindOrNew, ek]; exact inside

theorem kindOrNew_sorted {h : FDoc} {r : Ref} (ha : Spec.Apart h r) (t : Bytes) : SMap.Sorted (h.kindOrNew r t).2 := by
  rw [FDoc.kindOrNew]
  cases e : h.kindDict r t with
  | none => exact trivial
  | some p => exact ha.kinds t p e

/-- A resource that was added stands under its kind and name, whatever stood there and whatever the entry of the kind was; every other name and kind is as before. -/
theorem C161_add_partial (h : FDoc) (r : Ref) (ha : Spec.Apart h r) (t k : Bytes) (x : ResObj) (t' k' : Bytes) :
    Spec.slot (h.addResource r t k x) r t' k' = if t' = t ∧ k' = k then some x.entry else Spec.slot h r t' k' := by
  rw [Spec.slot, FDoc.addResource]
  by_cases ht : t' = t
  · subst ht
    rw [kindDict_put ha]
    by_cases hk : k' = k
    · rw [if_pos ⟨rfl, hk⟩, hk]; exact SMap.find_insert_self _ _ _
    · rw [if_neg (fun c => hk c.2)]
      show SMap.find? k' (SMap.insert k x.entry (h.kindOrNew r t').2) = _
      rw [SMap.find_insert_ne _ _ hk, FDoc.kindOrNew, Spec.slot]
      cases h.kindDict r t' <;> rfl
  · rw [kindDict_put_ne ha t t' ht, if_neg (fun c => ht c.1)]; rfl

theorem putKind_apart {h : FDoc} {r : Ref} (ha : Spec.Apart h r) (t : Bytes) (d : FDict) (hd : SMap.Sorted d) :
    Spec.Apart (h.putKind r t d (h.kindOrNew r t).1) r := by
  have place : ∀ q, (h.kindOrNew r t).1 = .object q → ∃ d0, h.kindDict r t = some (.object q, d0) := by
    intro q hq
    rw [FDoc.kindOrNew] at hq
    cases e : h.kindDict r t with
    | none => rw [e] at hq; cases hq
    | some p =>
      rw [e] at hq
      obtain ⟨w, d0⟩ := p
      exact ⟨d0, by rw [show w = .object q from hq]⟩
  have old : ∀ t' q d', (h.putKind r t d (h.kindOrNew r t).1).kindDict r t' = some (.object q, d') → ∃ d0, h.kindDict r t' = some (.object q, d0) := by
    intro t' q d' e
    by_cases ht : t' = t
    · subst ht
      rw [kindDict_put ha] at e
      injection e with e
      exact place q (congrArg Prod.fst e)
    · rw [kindDict_put_ne ha t t' ht] at e
      exact ⟨d', e⟩
  have top : h.putKind r t d (h.kindOrNew r t).1 r = some (.dict (h.dict r)) ∨
      h.putKind r t d (h.kindOrNew r t).1 r = some (.dict (SMap.insert t (.dict d) (h.dict r))) := by
    cases e : (h.kindOrNew r t).1 with
    | inside => right; show (h.addKey r t (.dict d)) r = _; rw [FDoc.addKey, FDoc.set, if_pos rfl]
    | object q =>
      left
      obtain ⟨d0, e0⟩ := place q e
      show (h.set q (.dict d)) r = _
      rw [FDoc.set, if_neg (Ne.symm (ha.self t q d0 e0))]; exact ha.dict
  constructor
  · rcases top with e | e <;> rw [dict_of _ _ _ e] <;> exact e
  · rcases top with e | e <;> rw [dict_of _ _ _ e]
    · exact ha.sorted
    · exact SMap.sorted_insert _ _ _ ha.sorted
  · intro t' p e
    by_cases ht : t' = t
    · subst ht
      rw [kindDict_put ha] at e
      injection e with e
      rw [← e]; exact hd
    · rw [kindDict_put_ne ha t t' ht] at e
      exact ha.kinds t' p e
  · intro t' q d' e
    obtain ⟨d0, e0⟩ := old t' q d' e
    exact ha.self t' q d0 e0
  · intro t1 t2 q d1 d2 e1 e2
    obtain ⟨d3, e3⟩ := old t1 q d1 e1
    obtain ⟨d4, e4⟩ := old t2 q d2 e2
    exact ha.distinct t1 t2 q d3 d4 e3 e4

theorem kindOrNew_some {h : FDoc} {r : Ref} {t : Bytes} {w : ResPlace} {d : FDict} (e : h.kindDict r t = some (w, d)) : h.kindOrNew r t = (w, d) := by
  rw [FDoc.kindOrNew, e]; rfl

/-- A resource that was removed is no longer there; every other one is. -/
theorem C161_remove_partial (h : FDoc) (r : Ref) (ha : Spec.Apart h r) (t k t' k' : Bytes) :
    Spec.slot (h.removeResource r t k) r t' k' = if t' = t ∧ k' = k then none else Spec.slot h r t' k' := by
  rw [FDoc.removeResource]
  cases e : h.kindDict r t with
  | none =>
    simp only
    split
    · rename_i c; rw [c.1, Spec.slot, e]; rfl
    · rfl
  | some p =>
    obtain ⟨w, d⟩ := p
    simp only
    have ew : w = (h.kindOrNew r t).1 := by rw [kindOrNew_some e]
    rw [ew]
    by_cases ht : t' = t
    · subst ht
      rw [Spec.slot, kindDict_put ha]
      show SMap.find? k' (SMap.erase k d) = _
      rw [SMap.find_erase _ _ (ha.kinds _ _ e), Spec.slot, e]
      by_cases hk : k' = k
      · simp [hk]
      · simp [hk]
    · rw [Spec.slot, kindDict_put_ne ha t t' ht, if_neg (fun c => ht c.1)]; rfl

/-- Removing all resources of a kind leaves none of that kind and every other one. -/
theorem C161_remove_all_partial (h : FDoc) (r : Ref) (ha : Spec.Apart h r) (t t' k' : Bytes) :
    Spec.slot (h.removeResources r t) r t' k' = if t' = t then none else Spec.slot h r t' k' := by
  have ed : (h.removeResources r t).dict r = SMap.erase t (h.dict r) := by
    rw [FDoc.removeResources, FDoc.removeKey, dict_of _ r _ (by rw [FDoc.set, if_pos rfl])]
  have eo : ∀ q, q ≠ r → (h.removeResources r t) q = h q := by
    intro q hq; rw [FDoc.removeResources, FDoc.removeKey, FDoc.set, if_neg hq]
  have ef : SMap.find? t' ((h.removeResources r t).dict r) = if t' = t then none else SMap.find? t' (h.dict r) := by
    rw [ed, SMap.find_erase _ _ ha.sorted]
  by_cases ht : t' = t
  · rw [if_pos ht] at ef ⊢
    rw [Spec.slot, FDoc.kindDict, ef]; rfl
  · rw [if_neg ht] at ef ⊢
    have ek : (h.removeResources r t).kindDict r t' = h.kindDict r t' := by
      rcases kindDict_cases h r t' with ⟨d0, e0, ek⟩ | ⟨q, d0, e0, eq, ek⟩ | ek
      · rw [ek, kindDict_inside (ef.trans e0)]
      · rw [ek]
        exact kindDict_object (ef.trans e0) (by rw [eo q (ha.self t' q d0 ek), eq])
      · rw [ek, FDoc.kindDict, ef]
        rw [FDoc.kindDict] at ek
        split at ek
        · rename_i n g e0
          by_cases hq : (⟨n, g⟩ : Ref) = r
          · rw [hq, ha.dict] at ek; cases ek
          · rw [eo _ hq]; exact ek
        · cases ek
        · rfl
    rw [Spec.slot, ek]; rfl

/-- With a pointer to an object of the document the same is added; a null pointer removes the name and nothing else. -/
theorem C161_pointer_partial (h : FDoc) (r : Ref) (ha : Spec.Apart h r) (t k : Bytes) (o : Ref) (t' k' : Bytes) :
    (h.addResourcePtr r t k (some (.object o))).2 = .ok () ∧ (h.addResourcePtr r t k none).2 = .ok () ∧
    Spec.slot (h.addResourcePtr r t k (some (.object o))).1 r t' k' = (if t' = t ∧ k' = k then some (.ref o.num o.gen) else Spec.slot h r t' k') ∧
      Spec.slot (h.addResourcePtr r t k none).1 r t' k' = if t' = t ∧ k' = k then none else Spec.slot h r t' k' := by
  refine ⟨rfl, rfl, C161_add_partial h r ha t k (.object o) t' k', ?_⟩
  show Spec.slot (h.putKind r t (SMap.erase k (h.kindOrNew r t).2) (h.kindOrNew r t).1) r t' k' = _
  rw [Spec.slot]
  by_cases ht : t' = t
  · subst ht
    rw [kindDict_put ha]
    show SMap.find? k' (SMap.erase k (h.kindOrNew r t').2) = _
    rw [SMap.find_erase _ _ (kindOrNew_sorted ha t')]
    by_cases hk : k' = k
    · simp [hk]
    · simp only [hk, if_false, and_false, Spec.slot, FDoc.kindOrNew]
      cases h.kindDict r t' <;> rfl
  · rw [kindDict_put_ne ha t t' ht, if_neg (fun c => ht c.1)]; rfl

/-! ## Histories -/

/-- Changes of the resources. -/
inductive ResOp
  | add (t k : Bytes) (x : ResObj)
  | remove (t k : Bytes)

def FDoc.resOp (h : FDoc) (r : Ref) : ResOp → FDoc
  | .add t k x => h.addResource r t k x
  | .remove t k => h.removeResource r t k

/-- What a history leaves under a kind and a name: the last change of that slot decides. -/
def Spec.lastChange (start : Option Var) (t k : Bytes) : List ResOp → Option Var
  | [] => start
  | .add t' k' x :: ops => Spec.lastChange (if t = t' ∧ k = k' then some x.entry else start) t k ops
  | .remove t' k' :: ops => Spec.lastChange (if t = t' ∧ k = k' then none else start) t k ops

theorem resOp_apart {h : FDoc} {r : Ref} (ha : Spec.Apart h r) (o : ResOp) : Spec.Apart (h.resOp r o) r := by
  cases o with
  | add t k x => exact putKind_apart ha t _ (SMap.sorted_insert _ _ _ (kindOrNew_sorted ha t))
  | remove t k =>
    show Spec.Apart (h.removeResource r t k) r
    rw [FDoc.removeResource]
    cases e : h.kindDict r t with
    | none => exact ha
    | some p =>
      obtain ⟨w, d⟩ := p
      have ew : w = (h.kindOrNew r t).1 := by rw [kindOrNew_some e]
      rw [ew]
      exact putKind_apart ha t _ (SMap.sorted_erase _ (ha.kinds _ _ e))

/-- For every history of additions and removals, under every kind and name stands what was put there last. -/
theorem C161_history_partial (r : Ref) (t k : Bytes) : ∀ (ops : List ResOp) (h : FDoc), Spec.Apart h r →
    Spec.slot (ops.foldl (fun h o => h.resOp r o) h) r t k = Spec.lastChange (Spec.slot h r t k) t k ops := by
  intro ops
  induction ops with
  | nil => intro h _; rfl
  | cons o ops ih =>
    intro h ha
    rw [List.foldl_cons, ih _ (resOp_apart ha o)]
    cases o with
    | add t' k' x =>
      rw [Spec.lastChange, show h.resOp r (.add t' k' x) = h.addResource r t' k' x from rfl, C161_add_partial h r ha]
    | remove t' k' =>
      rw [Spec.lastChange, show h.resOp r (.remove t' k') = h.removeResource r t' k' from rfl, C161_remove_partial h r ha]

/-- `GetResource` gives what stands in the slot, following one reference. -/
theorem C161_get (h : FDoc) (r : Ref) (t k : Bytes) :
    h.getResource r t k = match Spec.slot h r t k with
      | none => none
      | some (.ref n g) => h ⟨n, g⟩
      | some v => some v := by
  rw [FDoc.getResource, Spec.slot]
  cases h.kindDict r t with
  | none => rfl
  | some p => rfl

/-- An object added as a resource is the one found, as it is in the document, unless it is itself a dictionary of resources that the addition changes. -/
theorem C161_found (h : FDoc) (r : Ref) (ha : Spec.Apart h r) (t k : Bytes) (o : Ref) (ho : o ≠ r) (hk : ∀ d, h.kindDict r t ≠ some (.object o, d)) :
    (h.addResource r t k (.object o)).getResource r t k = h o := by
  rw [C161_get, C161_add_partial h r ha, if_pos ⟨rfl, rfl⟩]
  show (h.addResource r t k (.object o)) o = h o
  rw [FDoc.addResource]
  rcases kindDict_cases h r t with ⟨d0, _, ek⟩ | ⟨q, d0, _, _, ek⟩ | ek
  · rw [kindOrNew_some ek]
    show (h.addKey r t _) o = _
    rw [FDoc.addKey, FDoc.set, if_neg ho]
  · rw [kindOrNew_some ek]
    show (h.set q _) o = _
    have : o ≠ q := fun c => hk d0 (by rw [c]; exact ek)
    rw [FDoc.set, if_neg this]
  · rw [FDoc.kindOrNew, ek]
    show (h.addKey r t _) o = _
    rw [FDoc.addKey, FDoc.set, if_neg ho]

/-- Resources of one kind that two dictionaries share by reference are changed for both: adding to one page adds to the other. -/
theorem C161_shared_false (h : FDoc) (r r' q : Ref) (hr : q ≠ r') (t t' k : Bytes) (d : FDict) (e : h.kindDict r t = some (.object q, d))
    (e' : h.kindDict r' t' = some (.object q, d)) (x : ResObj) : Spec.slot (h.addResource r t k x) r' t' k = some x.entry := by
  have hs : h.addResource r t k x = h.set q (.dict (SMap.insert k x.entry d)) := by rw [FDoc.addResource, kindOrNew_some e]; rfl
  have e0 : SMap.find? t' (h.dict r') = some (.ref q.num q.gen) := by
    rcases kindDict_cases h r' t' with ⟨_, _, ek⟩ | ⟨q1, _, e0, _, ek⟩ | ek
    · rw [ek] at e'; cases e'
    · rw [ek] at e'
      injection e' with e'
      have : q1 = q := by injection (congrArg Prod.fst e')
      rw [← this]; exact e0
    · rw [ek] at e'; cases e'
  have hd : (h.set q (.dict (SMap.insert k x.entry d))).dict r' = h.dict r' := by rw [FDoc.dict, FDoc.set, if_neg (Ne.symm hr)]; rfl
  rw [hs, Spec.slot, kindDict_object (d := SMap.insert k x.entry d) (by rw [hd]; exact e0) (by rw [FDoc.set, if_pos rfl])]
  exact SMap.find_insert_self _ _ _

/-- Removing what is not there by a null pointer changes the document: an entry for the kind is made, in place of any that is no dictionary. An object that cannot be referred to raises, but the
entry is made all the same. `RemoveResource` leaves the document alone. -/
theorem C161_pointer_false (h : FDoc) (r : Ref) (t k : Bytes) (v : Var) (e : h.kindDict r t = none) :
    h.removeResource r t k = h ∧ (h.addResourcePtr r t k none).1.kindDict r t = some (.inside, []) ∧
      (h.addResourcePtr r t k (some (.value v))).2 = raise .InvalidHandle ∧ (h.addResourcePtr r t k (some (.value v))).1.kindDict r t = some (.inside, []) := by
  have hn : h.kindOrNew r t = (.inside, []) := by rw [FDoc.kindOrNew, e]; rfl
  have hk : (h.addKey r t (.dict [])).kindDict r t = some (.inside, []) := by
    apply kindDict_inside
    rw [FDoc.addKey, dict_of _ r _ (by rw [FDoc.set, if_pos rfl]), SMap.find_insert_self]
  refine ⟨by rw [FDoc.removeResource, e], ?_, rfl, ?_⟩
  · rw [FDoc.addResourcePtr, hn]; exact hk
  · rw [FDoc.addResourcePtr, hn]; exact hk

/-! ## Colour spaces -/

def keyColorSpace : Bytes := asciiB "ColorSpace"

/-- The test whether a colour space is there, `src/pdfmm/base/PdfResources.cpp:92-93` and `:104-105`. -/
def FDoc.hasColor (h : FDoc) (r : Ref) (name : Bytes) : Res Bool :=
  match SMap.find? keyColorSpace (h.dict r) with
  | none => .ok false
  | some _ => match h.findKey (h.dict r) keyColorSpace with
    | none => raise .NoObject
    | some (.dict d) => .ok (SMap.find? name d).isSome
    | some _ => raise .InvalidDataType

/-- `AddColorResource`, `src/pdfmm/base/PdfResources.cpp:82-123`: `fresh` is the number the new object gets and `cs` the colour space `BuildColorSpace` puts there; the object for the tint
function of a separation is left out. `test` and `name` are the names tested and written. -/
def FDoc.addColor (h : FDoc) (r fresh : Ref) (cs : Var) (test name : Bytes) : Res FDoc :=
  match h.hasColor r test with
  | .error e => .error e
  | .ok true => .ok h
  | .ok false => .ok ((h.set fresh cs).addResource r keyColorSpace name (.object fresh))

/-- A separation, `src/pdfmm/base/PdfResources.cpp:86-100`. -/
def FDoc.addSeparation (h : FDoc) (r fresh : Ref) (sep : Bytes) (cs : Var) : Res FDoc := h.addColor r fresh cs (keyColorSpace ++ sep) (keyColorSpace ++ sep)

/-- A CIE-Lab colour, `src/pdfmm/base/PdfResources.cpp:102-112`. -/
def FDoc.addLab (h : FDoc) (r fresh : Ref) (cs : Var) : Res FDoc := h.addColor r fresh cs (asciiB "ColorSpaceLab") (asciiB "ColorSpaceCieLab")

theorem hasColor_slot (h : FDoc) (r : Ref) (name : Bytes) (p : ResPlace × FDict) (e : h.kindDict r keyColorSpace = some p) :
    h.hasColor r name = .ok (Spec.slot h r keyColorSpace name).isSome := by
  rw [Spec.slot, e]
  rcases kindDict_cases h r keyColorSpace with ⟨d, e0, ek⟩ | ⟨q, d, e0, eq, ek⟩ | ek
  · rw [ek] at e; injection e with e; subst e
    rw [FDoc.hasColor, e0]; simp only [FDoc.findKey, e0]; rfl
  · rw [ek] at e; injection e with e; subst e
    have : h.findKey (h.dict r) keyColorSpace = some (.dict d) := by rw [FDoc.findKey, e0]; exact eq
    rw [FDoc.hasColor, e0]; simp only [this]; rfl
  · rw [ek] at e; cases e

/-- A second separation of the same name is not added, whatever its colour: text painted with it gets the colour of the first. -/
theorem C161_separation_false (h : FDoc) (r fresh o : Ref) (sep : Bytes) (cs : Var) (hs : Spec.slot h r keyColorSpace (keyColorSpace ++ sep) = some (.ref o.num o.gen)) :
    ∃ h', h.addSeparation r fresh sep cs = .ok h' ∧ h'.getResource r keyColorSpace (keyColorSpace ++ sep) = h o := by
  have he : ∃ p, h.kindDict r keyColorSpace = some p := by
    cases e : h.kindDict r keyColorSpace with
    | none => rw [Spec.slot, e] at hs; cases hs
    | some p => exact ⟨p, rfl⟩
  obtain ⟨p, e⟩ := he
  refine ⟨h, ?_, ?_⟩
  · rw [FDoc.addSeparation, FDoc.addColor, hasColor_slot h r _ p e, hs]; rfl
  · rw [C161_get, hs]

/-- Whether a Lab colour is there is asked under another name than it is written: each use makes another object and replaces the entry. -/
theorem C161_lab_false (h : FDoc) (r fresh : Ref) (cs : Var) (hf : h fresh = none) (ha : Spec.Apart (h.set fresh cs) r)
    (o : Ref) (hs : Spec.slot h r keyColorSpace (asciiB "ColorSpaceCieLab") = some (.ref o.num o.gen))
    (hl : Spec.slot h r keyColorSpace (asciiB "ColorSpaceLab") = none) :
    ∃ h', h.addLab r fresh cs = .ok h' ∧ h fresh = none ∧ Spec.slot h' r keyColorSpace (asciiB "ColorSpaceCieLab") = some (.ref fresh.num fresh.gen) := by
  have he : ∃ p, h.kindDict r keyColorSpace = some p := by
    cases e : h.kindDict r keyColorSpace with
    | none => rw [Spec.slot, e] at hs; cases hs
    | some p => exact ⟨p, rfl⟩
  obtain ⟨p, e⟩ := he
  refine ⟨(h.set fresh cs).addResource r keyColorSpace (asciiB "ColorSpaceCieLab") (.object fresh), ?_, hf, ?_⟩
  · rw [FDoc.addLab, FDoc.addColor, hasColor_slot h r _ p e, hl]; rfl
  · rw [C161_add_partial _ r ha, if_pos ⟨rfl, rfl⟩]; rfl

/-- An entry for colour spaces that is no dictionary makes adding a colour raise, although adding any other resource would replace it. -/
theorem C161_color_false (h : FDoc) (r fresh : Ref) (cs : Var) (test name : Bytes) (v : Var) (hv : SMap.find? keyColorSpace (h.dict r) = some v)
    (hk : h.kindDict r keyColorSpace = none) : ∃ c, h.addColor r fresh cs test name = raise c := by
  have : ∃ c, h.hasColor r test = raise c := by
    rw [FDoc.hasColor, hv]
    simp only
    cases e : h.findKey (h.dict r) keyColorSpace with
    | none => exact ⟨_, rfl⟩
    | some w =>
      cases w with
      | dict d =>
        exfalso
        rw [FDoc.findKey, hv] at e
        rw [FDoc.kindDict, hv] at hk
        cases v with
        | ref n g => simp only at e hk; rw [e] at hk; cases hk
        | dict d' => cases hk
        | _ => cases e
      | _ => exact ⟨_, rfl⟩
  obtain ⟨c, hc⟩ := this
  refine ⟨c, ?_⟩
  rw [FDoc.addColor, hc]

/-- Resources in object 5, the fonts in object 6. -/
def resDoc : FDoc := fun q =>
  if q = ⟨5, 0⟩ then some (.dict [(asciiB "ColorSpace", .dict [(asciiB "ColorSpaceCieLab", .ref 8 0)]), (asciiB "Font", .ref 6 0)])
  else if q = ⟨6, 0⟩ then some (.dict [(asciiB "F1", .ref 7 0)]) else if q = ⟨7, 0⟩ then some (.dict []) else none

theorem resDoc_kind (t : Bytes) (p : ResPlace × FDict) (h : resDoc.kindDict ⟨5, 0⟩ t = some p) :
    (t = asciiB "ColorSpace" ∧ p = (.inside, [(asciiB "ColorSpaceCieLab", .ref 8 0)])) ∨ (t = asciiB "Font" ∧ p = (.object ⟨6, 0⟩, [(asciiB "F1", .ref 7 0)])) := by
  have hd : resDoc.dict ⟨5, 0⟩ = [(asciiB "ColorSpace", .dict [(asciiB "ColorSpaceCieLab", .ref 8 0)]), (asciiB "Font", .ref 6 0)] := rfl
  by_cases h1 : t = asciiB "ColorSpace"
  · left
    refine ⟨h1, ?_⟩
    rw [kindDict_inside (d := [(asciiB "ColorSpaceCieLab", .ref 8 0)]) (by rw [hd, h1, SMap.find?, if_pos rfl])] at h
    injection h with h; exact h.symm
  · by_cases h2 : t = asciiB "Font"
    · right
      refine ⟨h2, ?_⟩
      rw [kindDict_object (q := ⟨6, 0⟩) (d := [(asciiB "F1", .ref 7 0)]) (by rw [hd, SMap.find?, if_neg h1, h2, SMap.find?, if_pos rfl]) rfl] at h
      injection h with h; exact h.symm
    · rw [FDoc.kindDict, hd, SMap.find?, if_neg h1, SMap.find?, if_neg h2, SMap.find?] at h
      cases h

/-- The hypothesis of the theorems is met. -/
theorem resDoc_apart : Spec.Apart resDoc ⟨5, 0⟩ := by
  constructor
  · rfl
  · show SMap.Sorted [_, _]; decide
  · intro t p h
    rcases resDoc_kind t p h with ⟨_, rfl⟩ | ⟨_, rfl⟩ <;> decide
  · intro t q d h
    rcases resDoc_kind t _ h with ⟨_, e⟩ | ⟨_, e⟩
    · cases e
    · injection e with e1 _; injection e1 with e1; rw [e1]; decide
  · intro t t' q d d' h h'
    rcases resDoc_kind t _ h with ⟨_, e⟩ | ⟨e0, _⟩
    · cases e
    · rcases resDoc_kind t' _ h' with ⟨_, e⟩ | ⟨e1, _⟩
      · cases e
      · rw [e0, e1]

example : Spec.slot resDoc ⟨5, 0⟩ (asciiB "Font") (asciiB "F1") = some (.ref 7 0) ∧ resDoc.getResource ⟨5, 0⟩ (asciiB "Font") (asciiB "F1") = some (.dict []) ∧
    Spec.slot resDoc ⟨5, 0⟩ keyColorSpace (asciiB "ColorSpaceLab") = none ∧ resDoc.kindDict ⟨5, 0⟩ (asciiB "XObject") = none := ⟨rfl, rfl, rfl, rfl⟩

example : Spec.slot (resDoc.addResource ⟨5, 0⟩ (asciiB "Font") (asciiB "F2") (.object ⟨9, 0⟩)) ⟨5, 0⟩ (asciiB "Font") (asciiB "F2") = some (.ref 9 0) := by
  rw [C161_add_partial _ _ resDoc_apart, if_pos ⟨rfl, rfl⟩]; rfl

/-- Two resource dictionaries, objects 5 and 9, that share the fonts of object 6. -/
def sharedDoc : FDoc := resDoc.set ⟨9, 0⟩ (.dict [(asciiB "Font", .ref 6 0)])

/-- Fonts added to one are fonts of the other. -/
example : Spec.slot (sharedDoc.addResource ⟨5, 0⟩ (asciiB "Font") (asciiB "F2") (.object ⟨7, 0⟩)) ⟨9, 0⟩ (asciiB "Font") (asciiB "F2") = some (.ref 7 0) :=
  C161_shared_false sharedDoc ⟨5, 0⟩ ⟨9, 0⟩ ⟨6, 0⟩ (by decide) _ _ _ [(asciiB "F1", .ref 7 0)] rfl rfl (.object ⟨7, 0⟩)

/-- Nothing is known of images, and the null pointer makes an entry for them. -/
example : resDoc.removeResource ⟨5, 0⟩ (asciiB "XObject") (asciiB "I") = resDoc ∧
    (resDoc.addResourcePtr ⟨5, 0⟩ (asciiB "XObject") (asciiB "I") none).1.kindDict ⟨5, 0⟩ (asciiB "XObject") = some (.inside, []) :=
  let h := C161_pointer_false resDoc ⟨5, 0⟩ (asciiB "XObject") (asciiB "I") .null rfl
  ⟨h.1, h.2.1⟩

/-- A document with the separation "Gold" of object 8. -/
def goldDoc : FDoc := fun q =>
  if q = ⟨5, 0⟩ then some (.dict [(asciiB "ColorSpace", .dict [(asciiB "ColorSpaceGold", .ref 8 0)])]) else if q = ⟨8, 0⟩ then some (.arr []) else none

example : ∃ h', goldDoc.addSeparation ⟨5, 0⟩ ⟨9, 0⟩ (asciiB "Gold") (.arr [.null]) = .ok h' ∧ h'.getResource ⟨5, 0⟩ keyColorSpace (asciiB "ColorSpaceGold") = some (.arr []) :=
  C161_separation_false goldDoc ⟨5, 0⟩ ⟨9, 0⟩ ⟨8, 0⟩ (asciiB "Gold") _ rfl

/-- A colour space entry that is null. -/
example : ∃ c, (FDoc.set (fun _ => none) ⟨5, 0⟩ (.dict [(asciiB "ColorSpace", .null)])).addSeparation ⟨5, 0⟩ ⟨9, 0⟩ (asciiB "Gold") (.arr []) = raise c :=
  C161_color_false _ ⟨5, 0⟩ ⟨9, 0⟩ _ _ _ .null rfl rfl

/-- With the Lab entry of `resDoc`. -/
theorem labDoc_apart : Spec.Apart (resDoc.set ⟨9, 0⟩ (.arr [])) ⟨5, 0⟩ := by
  have e : ∀ t p, (resDoc.set ⟨9, 0⟩ (.arr [])).kindDict ⟨5, 0⟩ t = some p → resDoc.kindDict ⟨5, 0⟩ t = some p := by
    intro t p h
    rw [FDoc.kindDict, show (resDoc.set ⟨9, 0⟩ (.arr [])).dict ⟨5, 0⟩ = resDoc.dict ⟨5, 0⟩ from rfl] at h
    rw [FDoc.kindDict]
    split at h
    · rename_i n g _
      by_cases hq : (⟨n, g⟩ : Ref) = ⟨9, 0⟩
      · rw [hq] at h; cases h
      · rw [FDoc.set, if_neg hq] at h; exact h
    · exact h
    · cases h
  have ha := resDoc_apart
  exact ⟨ha.dict, ha.sorted, fun t p h => ha.kinds t p (e t p h), fun t q d h => ha.self t q d (e _ _ h), fun t t' q d d' h h' => ha.distinct t t' q d d' (e _ _ h) (e _ _ h')⟩

example : ∃ h', resDoc.addLab ⟨5, 0⟩ ⟨9, 0⟩ (.arr []) = .ok h' ∧ resDoc ⟨9, 0⟩ = none ∧ Spec.slot h' ⟨5, 0⟩ keyColorSpace (asciiB "ColorSpaceCieLab") = some (.ref 9 0) :=
  C161_lab_false resDoc ⟨5, 0⟩ ⟨9, 0⟩ (.arr []) rfl labDoc_apart ⟨8, 0⟩ rfl rfl

example : Spec.slot (resDoc.removeResources ⟨5, 0⟩ (asciiB "Font")) ⟨5, 0⟩ (asciiB "Font") (asciiB "F1") = none ∧
    Spec.slot (resDoc.removeResources ⟨5, 0⟩ (asciiB "Font")) ⟨5, 0⟩ keyColorSpace (asciiB "ColorSpaceCieLab") = some (.ref 8 0) := by
  rw [C161_remove_all_partial _ _ resDoc_apart, C161_remove_all_partial _ _ resDoc_apart, if_pos rfl, if_neg (by decide)]
  exact ⟨rfl, rfl⟩

end Pdfmm
