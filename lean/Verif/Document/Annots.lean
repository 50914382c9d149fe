import Verif.Document.Catalog
import Verif.Pages.Boxes
import Verif.Util.Tables
/-
C181: annotations: appearances, entries, rectangles and kinds.
-/
set_option autoImplicit false
namespace Pdfmm

/-! ## Appearances -/


def kAP : Bytes := litBytes "AP"
def kAS : Bytes := litBytes "AS"

/-- `enum class PdfAppearanceType`, `src/pdfmm/base/PdfDeclarations.h:612-617`. -/
inductive ApKind
  | normal | rollover | down
  deriving DecidableEq

/-- `GetAppearanceName`, `src/pdfmm/base/PdfAnnotation.cpp:370-383`, and the same names in `:69-75`. -/
def ApKind.key : ApKind → Bytes
  | .normal => litBytes "N"
  | .rollover => litBytes "R"
  | .down => litBytes "D"

/-- `FindKey`, `src/pdfmm/base/PdfDictionary.cpp:134-146`, with the place of what is found: an object of its own or a direct entry. -/
def IDoc.look (doc : IDoc) (d : FDict) (k : Bytes) : Option (Option Ref × Loaded) :=
  match SMap.find? k d with
  | none => none
  | some (.ref n g) => (doc ⟨n, g⟩).map fun l => (some ⟨n, g⟩, l)
  | some v => some (none, .plain v)

/-- The dictionary of an object, empty if it is none. -/
def IDoc.dictAt (doc : IDoc) (r : Ref) : FDict :=
  match (doc r).map Loaded.var with
  | some (.dict d) => d
  | _ => []

/-- An object with another dictionary. -/
def IDoc.putDict (doc : IDoc) (r : Ref) (d : FDict) : IDoc :=
  match doc r with
  | some l => doc.put r (l.withDict d)
  | none => doc

/-- The dictionary of an object, `GetDictionary` and `IsDictionary`: a stream object is one. -/
def Loaded.asDict (l : Loaded) : Option FDict :=
  match l.var with
  | .dict d => some d
  | _ => none

/-- `FindKey` and `IsDictionary`, `src/pdfmm/base/PdfAnnotation.cpp:77-79`: the dictionary that is found and where it is. -/
def IDoc.lookDict (doc : IDoc) (d : FDict) (k : Bytes) : Option (Option Ref × FDict) :=
  (doc.look d k).bind fun e => e.2.asDict.map fun i => (e.1, i)

/-- The entry of the appearance dictionary, `src/pdfmm/base/PdfAnnotation.cpp:81-93`: the appearance dictionary afterwards, or the object that is changed in its place. -/
def IDoc.apEntry (doc : IDoc) (ap : FDict) (k : ApKind) (state : Option Bytes) (x : Ref) : FDict ⊕ (Ref × FDict) :=
  match state with
  | none => .inl (SMap.insert k.key (.ref x.num x.gen) ap)
  | some s =>
    match doc.lookDict ap k.key with
    | some (some q, i) => .inr (q, SMap.insert s (.ref x.num x.gen) i)
    | some (none, i) => .inl (SMap.insert k.key (.dict (SMap.insert s (.ref x.num x.gen) i)) ap)
    | none => .inl (SMap.insert k.key (.dict [(s, .ref x.num x.gen)]) ap)

/-- `SetAppearanceStreamForObject`, `src/pdfmm/base/PdfAnnotation.cpp:63-93`, for the annotation `a` and the form object `x` of the same document (`AddKeyIndirectSafe` then stores a reference).
Simplified: the resources that the form is given (line 67) are not stated. -/
def IDoc.apStore (doc : IDoc) (a x : Ref) (k : ApKind) (state : Option Bytes) : IDoc :=
  let d := doc.dictAt a
  let found := doc.lookDict d kAP
  match doc.apEntry ((found.map Prod.snd).getD []) k state x with
  | .inr (q, i) => doc.putDict q i
  | .inl ap =>
    match found with
    | some (some p, _) => doc.putDict p ap
    | _ => doc.putDict a (SMap.insert kAP (.dict ap) d)

/-- `SetAppearanceStream`, `src/pdfmm/base/PdfAnnotation.cpp:190-193` with `:63-100`: the state becomes the current one if there is none. -/
def IDoc.setAppearance (doc : IDoc) (a x : Ref) (k : ApKind) (state : Option Bytes) : IDoc :=
  let doc1 := doc.apStore a x k state
  match state with
  | none => doc1
  | some s => if SMap.find? kAS (doc1.dictAt a) = none then doc1.putDict a (SMap.insert kAS (.name s) (doc1.dictAt a)) else doc1

/-- The appearance dictionary, `src/pdfmm/base/PdfAnnotation.cpp:268-277`. -/
def IDoc.apDict (doc : IDoc) (a : Ref) : Option FDict := (doc.lookDict (doc.dictAt a) kAP).map Prod.snd

/-- `getAppearanceStream`, `src/pdfmm/base/PdfAnnotation.cpp:251-266`. -/
def IDoc.getAppearance (doc : IDoc) (a : Ref) (k : ApKind) (state : Option Bytes) : Res (Option (Option Ref × Loaded)) :=
  match doc.apDict a with
  | none => .ok none
  | some ap =>
    match doc.look ap k.key with
    | none => .ok none
    | some e =>
      match state with
      | none => .ok (some e)
      | some s =>
        match e.2.asDict with
        | some i => .ok (doc.look i s)
        | none => raise .InvalidDataType

/-- The value an iteration over a dictionary gives for an entry, `src/pdfmm/base/PdfDictionary.h:492-508`: a reference that leads nowhere is given as it is. -/
def IDoc.deref (doc : IDoc) (v : Var) : Option Ref × Loaded :=
  match v with
  | .ref n g =>
    match doc ⟨n, g⟩ with
    | some l => (some ⟨n, g⟩, l)
    | none => (none, .plain v)
  | _ => (none, .plain v)

/-- The kind of appearance an entry is for, `src/pdfmm/base/PdfAnnotation.cpp:205-213`. -/
def apKindOf (k : Bytes) : Option ApKind :=
  if k = litBytes "R" then some .rollover
  else if k = litBytes "D" then some .down
  else if k = litBytes "N" then some .normal
  else none

/-- `HasStream`. -/
def Loaded.hasStream : Loaded → Bool
  | .stream _ => true
  | .plain _ => false

/-- The appearances of one entry, `src/pdfmm/base/PdfAnnotation.cpp:215-227`. -/
def IDoc.apList (doc : IDoc) (k : ApKind) (v : Var) : List (ApKind × Option Bytes × (Option Ref × Loaded)) :=
  if (doc.deref v).2.hasStream then [(k, none, doc.deref v)]
  else (((doc.deref v).2.asDict).getD []).filterMap fun sw => if (doc.deref sw.2).2.hasStream then some (k, some sw.1, doc.deref sw.2) else none

/-- `GetAppearanceStreams`, `src/pdfmm/base/PdfAnnotation.cpp:195-229`. -/
def IDoc.appearances (doc : IDoc) (a : Ref) : List (ApKind × Option Bytes × (Option Ref × Loaded)) :=
  ((doc.apDict a).getD []).flatMap fun kv =>
    match apKindOf kv.1 with
    | none => []
    | some ak => doc.apList ak kv.2

/-! ### What is expected -/

/-- The dictionary under a key: a direct one, or an object that is a dictionary or a stream. -/
inductive Spec.DictUnder (doc : IDoc) (d : FDict) (k : Bytes) (e : FDict) : Prop
  | direct : SMap.find? k d = some (.dict e) → Spec.DictUnder doc d k e
  | object (r : Ref) (l : Loaded) : SMap.find? k d = some (.ref r.num r.gen) → doc r = some l → l.var = .dict e → Spec.DictUnder doc d k e

/-- The entry for an appearance (ISO 32000-1, 12.5.5): under /AP, by its kind, and by its state if it has one. -/
def Spec.Appearance (doc : IDoc) (d : FDict) (k : Bytes) (state : Option Bytes) (v : Var) : Prop :=
  ∃ ap, Spec.DictUnder doc d (litBytes "AP") ap ∧
    match state with
    | none => SMap.find? k ap = some v
    | some s => ∃ i, Spec.DictUnder doc ap k i ∧ SMap.find? s i = some v

/-- An annotation whose parts are not each other and not the form `x`: the appearance dictionary and the dictionary of states, where they are objects of their own. -/
structure Spec.ApShape (doc : IDoc) (a x : Ref) (d : FDict) (k : Bytes) : Prop where
  at_ : doc a = some (.plain (.dict d))
  ap : ∀ p : Ref, SMap.find? (litBytes "AP") d = some (.ref p.num p.gen) → p ≠ a ∧ p ≠ x
  inner : ∀ (ap : FDict) (q : Ref), Spec.DictUnder doc d (litBytes "AP") ap → SMap.find? k ap = some (.ref q.num q.gen) →
    q ≠ a ∧ ∀ p : Ref, SMap.find? (litBytes "AP") d = some (.ref p.num p.gen) → q ≠ p

theorem dictAt_eq {doc : IDoc} {a : Ref} {d : FDict} (h : doc a = some (.plain (.dict d))) : doc.dictAt a = d := by
  simp only [IDoc.dictAt, h, Option.map_some, Loaded.var]

theorem putDict_other (doc : IDoc) (r q : Ref) (d : FDict) (h : q ≠ r) : doc.putDict r d q = doc q := by
  unfold IDoc.putDict
  cases e : doc r with
  | none => rfl
  | some l => simp [IDoc.put, h]

theorem putDict_self (doc : IDoc) (r : Ref) (l : Loaded) (d : FDict) (h : doc r = some l) : doc.putDict r d r = some (l.withDict d) := by
  simp [IDoc.putDict, h, IDoc.put]

theorem withDict_var (l : Loaded) (d : FDict) : (l.withDict d).var = .dict d := by cases l <;> rfl

theorem asDict_iff (l : Loaded) (d : FDict) : l.asDict = some d ↔ l.var = .dict d := by
  unfold Loaded.asDict
  split
  · rename_i e h; rw [h]; simp
  · rename_i h; constructor
    · intro e; cases e
    · intro e; exact absurd e (h d)

theorem look_ref (doc : IDoc) (d : FDict) (k : Bytes) (x : Ref) (l : Loaded) (h : SMap.find? k d = some (.ref x.num x.gen)) (hx : doc x = some l) : doc.look d k = some (some x, l) := by
  have hx' : doc ⟨x.num, x.gen⟩ = some l := hx
  simp only [IDoc.look, h, hx', Option.map_some]

theorem look_dict (doc : IDoc) (d i : FDict) (k : Bytes) (h : SMap.find? k d = some (.dict i)) : doc.look d k = some (none, .plain (.dict i)) := by
  simp only [IDoc.look, h]

theorem lookDict_obj (doc : IDoc) (d e : FDict) (k : Bytes) (q : Ref) :
    doc.lookDict d k = some (some q, e) ↔ SMap.find? k d = some (.ref q.num q.gen) ∧ ∃ l, doc q = some l ∧ l.var = .dict e := by
  constructor
  · intro h
    unfold IDoc.lookDict IDoc.look at h
    split at h
    · cases h
    · rename_i n g e1
      cases e2 : doc ⟨n, g⟩ with
      | none => rw [e2] at h; cases h
      | some l =>
        rw [e2] at h
        simp only [Option.map_some, Option.bind_some, Option.map_eq_some_iff, Prod.mk.injEq, Option.some.injEq] at h
        obtain ⟨i, h1, rfl, rfl⟩ := h
        exact ⟨e1, l, e2, (asDict_iff l _).1 h1⟩
    · simp only [Option.bind_some, Option.map_eq_some_iff, Prod.mk.injEq] at h
      obtain ⟨i, -, h2, -⟩ := h
      cases h2
  · rintro ⟨h, l, h1, h2⟩
    unfold IDoc.lookDict
    rw [look_ref doc d k q l h h1]
    simp [(asDict_iff l e).2 h2]

theorem lookDict_direct (doc : IDoc) (d e : FDict) (k : Bytes) : doc.lookDict d k = some (none, e) ↔ SMap.find? k d = some (.dict e) := by
  constructor
  · intro h
    unfold IDoc.lookDict IDoc.look at h
    split at h
    · cases h
    · rename_i n g e1
      cases e2 : doc ⟨n, g⟩ with
      | none => rw [e2] at h; cases h
      | some l =>
        rw [e2] at h
        simp only [Option.map_some, Option.bind_some, Option.map_eq_some_iff, Prod.mk.injEq] at h
        obtain ⟨i, -, h2, -⟩ := h
        cases h2
    · rename_i v _ e1
      simp only [Option.bind_some, Option.map_eq_some_iff, Prod.mk.injEq, true_and] at h
      obtain ⟨i, h1, rfl⟩ := h
      rw [e1]
      exact congrArg some ((asDict_iff _ _).1 h1)
  · intro h
    unfold IDoc.lookDict
    rw [look_dict doc d e k h]
    rfl

theorem dictUnder_iff (doc : IDoc) (d e : FDict) (k : Bytes) : Spec.DictUnder doc d k e ↔ ∃ r, doc.lookDict d k = some (r, e) := by
  constructor
  · rintro (h | ⟨r, l, h1, h2, h3⟩)
    · exact ⟨none, (lookDict_direct ..).2 h⟩
    · exact ⟨some r, (lookDict_obj ..).2 ⟨h1, l, h2, h3⟩⟩
  · rintro ⟨r, h⟩
    cases r with
    | none => exact .direct ((lookDict_direct ..).1 h)
    | some q => obtain ⟨h1, l, h2, h3⟩ := (lookDict_obj ..).1 h; exact .object q l h1 h2 h3

theorem dictUnder_unique {doc : IDoc} {d e e' : FDict} {k : Bytes} (h : Spec.DictUnder doc d k e) (h' : Spec.DictUnder doc d k e') : e = e' := by
  obtain ⟨r, h1⟩ := (dictUnder_iff ..).1 h
  obtain ⟨r', h2⟩ := (dictUnder_iff ..).1 h'
  rw [h1] at h2; cases h2; rfl

theorem apKey_inj {k k' : ApKind} (h : k.key = k'.key) : k = k' := by
  revert h; cases k <;> cases k' <;> decide

theorem apKindOf_iff (b : Bytes) (k : ApKind) : apKindOf b = some k ↔ b = k.key := by
  constructor
  · intro h
    unfold apKindOf at h
    split at h
    · cases h; assumption
    · split at h
      · cases h; assumption
      · split at h
        · cases h; assumption
        · cases h
  · rintro rfl; cases k <;> rfl

/-- What an entry changed in place holds. -/
theorem apEntry_inl (doc : IDoc) (ap ap' : FDict) (k : ApKind) (state : Option Bytes) (x : Ref) (h : doc.apEntry ap k state x = .inl ap') :
    (match state with
     | none => SMap.find? k.key ap' = some (.ref x.num x.gen)
     | some s => ∃ i, SMap.find? k.key ap' = some (.dict i) ∧ SMap.find? s i = some (.ref x.num x.gen) ∧
        ∀ i0, Spec.DictUnder doc ap k.key i0 → ∀ s', s' ≠ s → SMap.find? s' i = SMap.find? s' i0) ∧
    ∀ k', k' ≠ k.key → SMap.find? k' ap' = SMap.find? k' ap := by
  cases state with
  | none =>
    simp only [IDoc.apEntry] at h
    cases h
    exact ⟨SMap.find_insert_self _ _ _, fun k' hk => SMap.find_insert_ne _ _ hk⟩
  | some s =>
    simp only [IDoc.apEntry] at h
    cases e : doc.lookDict ap k.key with
    | none =>
      rw [e] at h
      cases h
      refine ⟨⟨_, SMap.find_insert_self _ _ _, by simp [SMap.find?], ?_⟩, fun k' hk => SMap.find_insert_ne _ _ hk⟩
      intro i0 h0
      obtain ⟨r, h0⟩ := (dictUnder_iff ..).1 h0
      rw [e] at h0; cases h0
    | some y =>
      obtain ⟨r, i⟩ := y
      rw [e] at h
      cases r with
      | some q => cases h
      | none =>
        cases h
        refine ⟨⟨_, SMap.find_insert_self _ _ _, SMap.find_insert_self _ _ _, ?_⟩, fun k' hk => SMap.find_insert_ne _ _ hk⟩
        intro i0 h0 s' hs
        obtain ⟨r, h0⟩ := (dictUnder_iff ..).1 h0
        rw [e] at h0; cases h0
        exact SMap.find_insert_ne _ _ hs

/-- What an object changed instead holds. -/
theorem apEntry_inr (doc : IDoc) (ap i' : FDict) (k : ApKind) (state : Option Bytes) (x q : Ref) (h : doc.apEntry ap k state x = .inr (q, i')) :
    ∃ s l i, state = some s ∧ SMap.find? k.key ap = some (.ref q.num q.gen) ∧ doc q = some l ∧ l.var = .dict i ∧ i' = SMap.insert s (.ref x.num x.gen) i := by
  cases state with
  | none => simp [IDoc.apEntry] at h
  | some s =>
    simp only [IDoc.apEntry] at h
    cases e : doc.lookDict ap k.key with
    | none => rw [e] at h; cases h
    | some y =>
      obtain ⟨r, i⟩ := y
      rw [e] at h
      cases r with
      | none => cases h
      | some q' =>
        cases h
        obtain ⟨h1, l, h2, h3⟩ := (lookDict_obj ..).1 e
        exact ⟨s, l, i, rfl, h1, h2, h3, rfl⟩

/-- Three ways to store: the object of the appearance dictionary, the annotation, or the object with the states. -/
inductive ApWay (doc : IDoc) (a x : Ref) (d : FDict) (k : ApKind) (state : Option Bytes) : IDoc → FDict → Prop
  | inPlace (p : Ref) (l : Loaded) (ap ap' : FDict) : SMap.find? kAP d = some (.ref p.num p.gen) → doc p = some l → l.var = .dict ap → doc.apEntry ap k state x = .inl ap' →
      ApWay doc a x d k state (doc.putDict p ap') d
  | inAnnot (ap ap' : FDict) : (∀ e, Spec.DictUnder doc d kAP e → e = ap) → doc.apEntry ap k state x = .inl ap' →
      ApWay doc a x d k state (doc.putDict a (SMap.insert kAP (.dict ap') d)) (SMap.insert kAP (.dict ap') d)
  | inStates (ap : FDict) (q : Ref) (l : Loaded) (i : FDict) (s : Bytes) : Spec.DictUnder doc d kAP ap → state = some s → SMap.find? k.key ap = some (.ref q.num q.gen) → doc q = some l →
      l.var = .dict i → ApWay doc a x d k state (doc.putDict q (SMap.insert s (.ref x.num x.gen) i)) d

theorem apStore_way (doc : IDoc) (a x : Ref) (d : FDict) (k : ApKind) (state : Option Bytes) (h : doc a = some (.plain (.dict d))) : ∃ d1, ApWay doc a x d k state (doc.apStore a x k state) d1 := by
  unfold IDoc.apStore
  simp only [dictAt_eq h]
  cases e : doc.lookDict d kAP with
  | none =>
    simp only [Option.map_none, Option.getD_none]
    cases e2 : doc.apEntry [] k state x with
    | inl ap' =>
      refine ⟨_, .inAnnot [] ap' ?_ e2⟩
      intro y hy; obtain ⟨r, hr⟩ := (dictUnder_iff ..).1 hy; rw [e] at hr; cases hr
    | inr qi =>
      obtain ⟨q, i⟩ := qi
      obtain ⟨s, l, i0, -, h2, -⟩ := apEntry_inr doc [] i k state x q e2
      simp [SMap.find?] at h2
  | some y =>
    obtain ⟨r, ap⟩ := y
    have hu : Spec.DictUnder doc d kAP ap := (dictUnder_iff ..).2 ⟨r, e⟩
    simp only [Option.map_some, Option.getD_some]
    cases e2 : doc.apEntry ap k state x with
    | inl ap' =>
      cases r with
      | none => exact ⟨_, .inAnnot ap ap' (fun y hy => dictUnder_unique hy hu) e2⟩
      | some p => obtain ⟨h1, l, h2, h3⟩ := (lookDict_obj ..).1 e; exact ⟨_, .inPlace p l ap ap' h1 h2 h3 e2⟩
    | inr qi =>
      obtain ⟨q, i⟩ := qi
      obtain ⟨s, l, i0, h1, h2, h3, h4, rfl⟩ := apEntry_inr doc ap i k state x q e2
      exact ⟨_, .inStates ap q l i0 s hu h1 h2 h3 h4⟩

/-- The state of the annotation after an appearance was set. -/
def Spec.NowState (state : Option Bytes) (old new : Option Var) : Prop :=
  match state, old with
  | some s, none => new = some (.name s)
  | _, v => new = v

/-- The step that makes the state the current one changes only the annotation. -/
theorem setAppearance_eq (doc : IDoc) (a x : Ref) (k : ApKind) (state : Option Bytes) (d1 : FDict) (h : (doc.apStore a x k state) a = some (.plain (.dict d1))) :
    ∃ d', doc.setAppearance a x k state a = some (.plain (.dict d')) ∧ (∀ r, r ≠ a → doc.setAppearance a x k state r = doc.apStore a x k state r) ∧
      (∀ key, key ≠ kAS → SMap.find? key d' = SMap.find? key d1) ∧ Spec.NowState state (SMap.find? kAS d1) (SMap.find? kAS d') := by
  unfold IDoc.setAppearance
  cases state with
  | none => exact ⟨d1, h, fun _ _ => rfl, fun _ _ => rfl, rfl⟩
  | some s =>
    simp only [dictAt_eq h]
    by_cases hc : SMap.find? kAS d1 = none
    · rw [if_pos hc]
      refine ⟨_, putDict_self _ _ _ _ h, fun r hr => putDict_other _ _ _ _ hr, fun key hk => SMap.find_insert_ne _ _ hk, ?_⟩
      rw [hc]; exact SMap.find_insert_self _ _ _
    · rw [if_neg hc]
      refine ⟨d1, h, fun _ _ => rfl, fun _ _ => rfl, ?_⟩
      unfold Spec.NowState
      cases e : SMap.find? kAS d1 with
      | none => exact absurd e hc
      | some v => rfl

/-- The states of one kind, as the code sees them: a direct dictionary or an object without a stream. -/
def PlainStates (doc : IDoc) (v : Var) (i : FDict) : Prop := v = .dict i ∨ ∃ q : Ref, v = .ref q.num q.gen ∧ doc q = some (.plain (.dict i))

theorem plainStates_deref {doc : IDoc} {v : Var} {i : FDict} (h : PlainStates doc v i) : (doc.deref v).2 = .plain (.dict i) := by
  rcases h with rfl | ⟨q, rfl, h⟩
  · rfl
  · have h' : doc ⟨q.num, q.gen⟩ = some (.plain (.dict i)) := h
    simp only [IDoc.deref, h']

theorem plainStates_look {doc : IDoc} {d : FDict} {k : Bytes} {v : Var} {i : FDict} (h : PlainStates doc v i) (hf : SMap.find? k d = some v) :
    ∃ r, doc.look d k = some (r, .plain (.dict i)) := by
  rcases h with rfl | ⟨q, rfl, h⟩
  · exact ⟨none, look_dict doc d i k hf⟩
  · exact ⟨some q, look_ref doc d k q _ hf h⟩

theorem plainStates_under {doc : IDoc} {d : FDict} {k : Bytes} {v : Var} {i : FDict} (h : PlainStates doc v i) (hf : SMap.find? k d = some v) : Spec.DictUnder doc d k i := by
  rcases h with rfl | ⟨q, rfl, h⟩
  · exact .direct hf
  · exact .object q _ hf h rfl

/-- What the appearance dictionary holds afterwards. -/
theorem setAppearance_core (doc : IDoc) (a x : Ref) (d : FDict) (k : ApKind) (state : Option Bytes) (o : StObj) (hs : Spec.ApShape doc a x d k.key) (hx : doc x = some (.stream o))
    (hst : ∀ s, state = some s → ∀ (ap : FDict) (q : Ref) (o' : StObj), Spec.DictUnder doc d kAP ap → SMap.find? k.key ap = some (.ref q.num q.gen) → doc q ≠ some (.stream o')) :
    ∃ d' ap', doc.setAppearance a x k state a = some (.plain (.dict d')) ∧ doc.setAppearance a x k state x = some (.stream o) ∧
      Spec.DictUnder (doc.setAppearance a x k state) d' kAP ap' ∧
      (∀ k' ap0, k' ≠ k.key → Spec.DictUnder doc d kAP ap0 → SMap.find? k' ap' = SMap.find? k' ap0) ∧
      (match state with
       | none => SMap.find? k.key ap' = some (.ref x.num x.gen)
       | some s => ∃ v i, SMap.find? k.key ap' = some v ∧ PlainStates (doc.setAppearance a x k state) v i ∧ SMap.find? s i = some (.ref x.num x.gen) ∧
          ∀ ap0 i0, Spec.DictUnder doc d kAP ap0 → Spec.DictUnder doc ap0 k.key i0 → ∀ s', s' ≠ s → SMap.find? s' i = SMap.find? s' i0) ∧
      Spec.NowState state (SMap.find? kAS d) (SMap.find? kAS d') ∧
      (∀ key, key ≠ kAP → key ≠ kAS → SMap.find? key d' = SMap.find? key d) ∧
      (∀ r, r ≠ a → SMap.find? kAP d ≠ some (.ref r.num r.gen) → (∀ ap, Spec.DictUnder doc d kAP ap → SMap.find? k.key ap ≠ some (.ref r.num r.gen)) → doc.setAppearance a x k state r = doc r) := by
  have hax : x ≠ a := by rintro rfl; rw [hs.at_] at hx; cases hx
  have hPS : kAP ≠ kAS := by decide
  obtain ⟨d1, hw⟩ := apStore_way doc a x d k state hs.at_
  revert hw
  generalize hdoc1 : doc.apStore a x k state = doc1
  intro hw
  cases hw with
  | inPlace p l ap ap' hp1 hp2 hp3 he =>
    obtain ⟨hpa, hpx⟩ := hs.ap p hp1
    have h1 : (doc.putDict p ap') a = some (.plain (.dict d)) := by rw [putDict_other _ _ _ _ (Ne.symm hpa)]; exact hs.at_
    obtain ⟨d', g1, g2, g3, g4⟩ := setAppearance_eq doc a x k state d (by rw [hdoc1]; exact h1)
    rw [hdoc1] at g2
    obtain ⟨f1, f2⟩ := apEntry_inl doc ap ap' k state x he
    have hu : Spec.DictUnder doc d kAP ap := .object p l hp1 hp2 hp3
    refine ⟨d', ap', g1, ?_, ?_, ?_, ?_, g4, ?_, ?_⟩
    · rw [g2 x hax, putDict_other _ _ _ _ (Ne.symm hpx)]; exact hx
    · refine .object p (l.withDict ap') (by rw [g3 _ hPS]; exact hp1) ?_ (withDict_var _ _)
      rw [g2 p hpa]; exact putDict_self _ _ _ _ hp2
    · intro k' ap0 hk hu0
      rw [dictUnder_unique hu0 hu]; exact f2 k' hk
    · cases state with
      | none => exact f1
      | some s =>
        obtain ⟨i, i1, i2, i3⟩ := f1
        refine ⟨_, i, i1, Or.inl rfl, i2, ?_⟩
        intro ap0 i0 hu0 hi0
        rw [dictUnder_unique hu0 hu] at hi0
        exact i3 i0 hi0
    · intro key _ hk; exact g3 key hk
    · intro r hr hr2 _
      rw [g2 r hr]
      exact putDict_other _ _ _ _ (by rintro rfl; exact hr2 hp1)
  | inAnnot ap ap' hun he =>
    have h1 : (doc.putDict a (SMap.insert kAP (.dict ap') d)) a = some (.plain (.dict (SMap.insert kAP (.dict ap') d))) := putDict_self _ _ _ _ hs.at_
    obtain ⟨d', g1, g2, g3, g4⟩ := setAppearance_eq doc a x k state _ (by rw [hdoc1]; exact h1)
    rw [hdoc1] at g2
    obtain ⟨f1, f2⟩ := apEntry_inl doc ap ap' k state x he
    refine ⟨d', ap', g1, ?_, ?_, ?_, ?_, ?_, ?_, ?_⟩
    · rw [g2 x hax, putDict_other _ _ _ _ hax]; exact hx
    · exact .direct (by rw [g3 _ hPS]; exact SMap.find_insert_self _ _ _)
    · intro k' ap0 hk hu0
      rw [hun ap0 hu0]; exact f2 k' hk
    · cases state with
      | none => exact f1
      | some s =>
        obtain ⟨i, i1, i2, i3⟩ := f1
        refine ⟨_, i, i1, Or.inl rfl, i2, ?_⟩
        intro ap0 i0 hu0 hi0
        rw [hun ap0 hu0] at hi0
        exact i3 i0 hi0
    · rw [SMap.find_insert_ne _ _ (Ne.symm hPS)] at g4; exact g4
    · intro key hk1 hk2; rw [g3 key hk2, SMap.find_insert_ne _ _ hk1]
    · intro r hr _ _
      rw [g2 r hr]
      exact putDict_other _ _ _ _ hr
  | inStates ap q l i s hu hse hq1 hq2 hq3 =>
    obtain ⟨hqa, hqp⟩ := hs.inner ap q hu hq1
    have hl : ∃ v, l = .plain v := by
      cases l with
      | plain v => exact ⟨v, rfl⟩
      | stream o' => exact absurd hq2 (hst s hse ap q o' hu hq1)
    obtain ⟨v, rfl⟩ := hl
    simp only [Loaded.var] at hq3
    subst hq3
    have hqx : x ≠ q := by rintro rfl; rw [hx] at hq2; cases hq2
    have h1 : (doc.putDict q (SMap.insert s (.ref x.num x.gen) i)) a = some (.plain (.dict d)) := by rw [putDict_other _ _ _ _ (Ne.symm hqa)]; exact hs.at_
    obtain ⟨d', g1, g2, g3, g4⟩ := setAppearance_eq doc a x k state d (by rw [hdoc1]; exact h1)
    rw [hdoc1] at g2
    have hq' : doc.setAppearance a x k state q = some (.plain (.dict (SMap.insert s (.ref x.num x.gen) i))) := by
      rw [g2 q hqa]; exact putDict_self _ _ _ _ hq2
    refine ⟨d', ap, g1, ?_, ?_, ?_, ?_, g4, ?_, ?_⟩
    · rw [g2 x hax, putDict_other _ _ _ _ hqx]; exact hx
    · rcases hu with hu | ⟨p, lp, hp1, hp2, hp3⟩
      · exact .direct (by rw [g3 _ hPS]; exact hu)
      · refine .object p lp (by rw [g3 _ hPS]; exact hp1) ?_ hp3
        rw [g2 p (hs.ap p hp1).1, putDict_other _ _ _ _ (Ne.symm (hqp p hp1))]; exact hp2
    · intro k' ap0 _ hu0
      rw [dictUnder_unique hu0 hu]
    · subst hse
      refine ⟨_, _, hq1, Or.inr ⟨q, rfl, hq'⟩, SMap.find_insert_self _ _ _, ?_⟩
      intro ap0 i0 hu0 hi0 s' hs'
      rw [dictUnder_unique hu0 hu] at hi0
      rw [dictUnder_unique hi0 (.object q _ hq1 hq2 rfl)]
      exact SMap.find_insert_ne _ _ hs'
    · intro key _ hk; exact g3 key hk
    · intro r hr _ hr3
      rw [g2 r hr]
      exact putDict_other _ _ _ _ (by rintro rfl; exact hr3 ap hu hq1)

theorem apDict_of_under {doc : IDoc} {a : Ref} {d ap : FDict} (h : doc a = some (.plain (.dict d))) (hu : Spec.DictUnder doc d kAP ap) : doc.apDict a = some ap := by
  obtain ⟨r, hr⟩ := (dictUnder_iff ..).1 hu
  simp only [IDoc.apDict, dictAt_eq h, hr, Option.map_some]

/-- **C181** (proved part). Setting an appearance, for every kind and with or without a state, wherever the appearance dictionary and the states are kept: the entry for it holds the form, it is found and
listed, the other kinds and the other states stay, the state becomes the current one only if there was none, and no other entry of the annotation and no other object changes.  With a state the entry of the
kind must not be a form already.  Missing: `C181_state_over_form_false`. -/
theorem C181_appearance_partial (doc : IDoc) (a x : Ref) (d : FDict) (k : ApKind) (state : Option Bytes) (o : StObj) (hs : Spec.ApShape doc a x d k.key) (hx : doc x = some (.stream o))
    (hst : ∀ s, state = some s → ∀ (ap : FDict) (q : Ref) (o' : StObj), Spec.DictUnder doc d (litBytes "AP") ap → SMap.find? k.key ap = some (.ref q.num q.gen) → doc q ≠ some (.stream o')) :
    ∃ d', doc.setAppearance a x k state a = some (.plain (.dict d')) ∧
      Spec.Appearance (doc.setAppearance a x k state) d' k.key state (.ref x.num x.gen) ∧
      (doc.setAppearance a x k state).getAppearance a k state = .ok (some (some x, .stream o)) ∧
      (k, state, (some x, .stream o)) ∈ (doc.setAppearance a x k state).appearances a ∧
      (∀ k' v, k' ≠ k → Spec.Appearance doc d k'.key none v → Spec.Appearance (doc.setAppearance a x k state) d' k'.key none v) ∧
      (∀ s s' v, state = some s → s' ≠ s → Spec.Appearance doc d k.key (some s') v → Spec.Appearance (doc.setAppearance a x k state) d' k.key (some s') v) ∧
      Spec.NowState state (SMap.find? (litBytes "AS") d) (SMap.find? (litBytes "AS") d') ∧
      (∀ key, key ≠ litBytes "AP" → key ≠ litBytes "AS" → SMap.find? key d' = SMap.find? key d) ∧
      (∀ r, r ≠ a → SMap.find? (litBytes "AP") d ≠ some (.ref r.num r.gen) →
        (∀ ap, Spec.DictUnder doc d (litBytes "AP") ap → SMap.find? k.key ap ≠ some (.ref r.num r.gen)) → doc.setAppearance a x k state r = doc r) := by
  obtain ⟨d', ap', h1, h2, h3, h4, h5, h6, h7, h8⟩ := setAppearance_core doc a x d k state o hs hx hst
  revert h1 h2 h3 h5 h8
  generalize doc.setAppearance a x k state = doc'
  intro h1 h2 h3 h5 h8
  have hap := apDict_of_under h1 h3
  refine ⟨d', h1, ?_, ?_, ?_, ?_, ?_, h6, h7, h8⟩
  · refine ⟨ap', h3, ?_⟩
    cases state with
    | none => exact h5
    | some s => obtain ⟨v, i, i1, i2, i3, -⟩ := h5; exact ⟨i, plainStates_under i2 i1, i3⟩
  · unfold IDoc.getAppearance
    rw [hap]
    cases state with
    | none => simp only [look_ref doc' ap' k.key x _ h5 h2]
    | some s =>
      obtain ⟨v, i, i1, i2, i3, -⟩ := h5
      obtain ⟨r, hr⟩ := plainStates_look i2 i1
      simp only [hr, Loaded.asDict, Loaded.var, look_ref doc' i s x _ i3 h2]
  · unfold IDoc.appearances
    rw [hap, Option.getD_some, List.mem_flatMap]
    have hx' : doc' ⟨x.num, x.gen⟩ = some (.stream o) := h2
    have hdx : doc'.deref (.ref x.num x.gen) = (some x, .stream o) := by simp only [IDoc.deref, hx']
    cases state with
    | none =>
      refine ⟨(k.key, .ref x.num x.gen), SMap.find_mem h5, ?_⟩
      simp only [(apKindOf_iff k.key k).2 rfl, IDoc.apList, hdx, Loaded.hasStream, if_true, List.mem_singleton]
    | some s =>
      obtain ⟨v, i, i1, i2, i3, -⟩ := h5
      refine ⟨(k.key, v), SMap.find_mem i1, ?_⟩
      simp only [(apKindOf_iff k.key k).2 rfl, IDoc.apList, plainStates_deref i2, Loaded.hasStream, Loaded.asDict, Loaded.var, Option.getD_some]
      rw [if_neg (by simp), List.mem_filterMap]
      refine ⟨(s, .ref x.num x.gen), SMap.find_mem i3, ?_⟩
      simp only [hdx, if_true]
  · rintro k' v hk ⟨ap0, g1, g2⟩
    refine ⟨ap', h3, ?_⟩
    show SMap.find? k'.key ap' = some v
    rw [h4 k'.key ap0 (fun e => hk (apKey_inj e)) g1]
    exact g2
  · rintro s s' v rfl hne ⟨ap0, g1, i0, g2, g3⟩
    obtain ⟨w, i, i1, i2, i3, i4⟩ := h5
    exact ⟨ap', h3, i, plainStates_under i2 i1, by rw [i4 ap0 i0 g1 g2 s' hne]; exact g3⟩

/-- **C181** fails: when the entry of the kind is a form (the appearance without states that was there before), setting an appearance for a state writes the new appearance into the dictionary of that form.
It is not listed, and the form that shows the annotation has an entry it should not have. -/
theorem C181_state_over_form_false (doc : IDoc) (a x : Ref) (d ap : FDict) (k : ApKind) (s : Bytes) (q : Ref) (oq : StObj) (hs : Spec.ApShape doc a x d k.key)
    (hu : Spec.DictUnder doc d (litBytes "AP") ap) (hsr : SMap.Sorted ap) (hq1 : SMap.find? k.key ap = some (.ref q.num q.gen)) (hq2 : doc q = some (.stream oq)) :
    doc.setAppearance a x k (some s) q = some (.stream { oq with dict := SMap.insert s (.ref x.num x.gen) oq.dict }) ∧
    ∀ e, (k, some s, e) ∉ (doc.setAppearance a x k (some s)).appearances a := by
  have hPS : kAP ≠ kAS := by decide
  obtain ⟨hqa, hqp⟩ := hs.inner ap q hu hq1
  obtain ⟨r0, hr0⟩ := (dictUnder_iff ..).1 hu
  have hst : doc.apStore a x k (some s) = doc.putDict q (SMap.insert s (.ref x.num x.gen) oq.dict) := by
    have hl : doc.lookDict ap k.key = some (some q, oq.dict) := (lookDict_obj ..).2 ⟨hq1, _, hq2, rfl⟩
    have hr0' : doc.lookDict d kAP = some (r0, ap) := hr0
    simp only [IDoc.apStore, dictAt_eq hs.at_, hr0', Option.map_some, Option.getD_some, IDoc.apEntry, hl]
  have h1 : (doc.apStore a x k (some s)) a = some (.plain (.dict d)) := by rw [hst, putDict_other _ _ _ _ (Ne.symm hqa)]; exact hs.at_
  obtain ⟨d', g1, g2, g3, -⟩ := setAppearance_eq doc a x k (some s) d h1
  rw [hst] at g2
  have hq' : doc.setAppearance a x k (some s) q = some (.stream { oq with dict := SMap.insert s (.ref x.num x.gen) oq.dict }) := by
    rw [g2 q hqa]; exact putDict_self _ _ _ _ hq2
  refine ⟨hq', ?_⟩
  have hu' : Spec.DictUnder (doc.setAppearance a x k (some s)) d' kAP ap := by
    rcases hu with hu | ⟨p, lp, hp1, hp2, hp3⟩
    · exact .direct (by rw [g3 _ hPS]; exact hu)
    · refine .object p lp (by rw [g3 _ hPS]; exact hp1) ?_ hp3
      rw [g2 p (hs.ap p hp1).1, putDict_other _ _ _ _ (Ne.symm (hqp p hp1))]; exact hp2
  intro e he
  have hap := apDict_of_under g1 hu'
  revert hq' he hap
  generalize doc.setAppearance a x k (some s) = doc'
  intro hq' he hap
  unfold IDoc.appearances at he
  rw [hap, Option.getD_some, List.mem_flatMap] at he
  obtain ⟨⟨key, v⟩, hm, he⟩ := he
  have hf := SMap.mem_find hsr hm
  cases hk : apKindOf key with
  | none => simp [hk] at he
  | some k' =>
    simp only [hk] at he
    have hk' := (apKindOf_iff _ _).1 hk
    unfold IDoc.apList at he
    split at he
    · simp at he
    · rename_i hns
      rw [List.mem_filterMap] at he
      obtain ⟨sw, -, he⟩ := he
      split at he
      · simp only [Option.some.injEq, Prod.mk.injEq] at he
        obtain ⟨rfl, -, -⟩ := he
        rw [hk', hq1] at hf
        cases hf
        have hq'' : doc' ⟨q.num, q.gen⟩ = some (.stream { oq with dict := SMap.insert s (.ref x.num x.gen) oq.dict }) := hq'
        simp only [IDoc.deref, hq'', Loaded.hasStream] at hns
        exact hns trivial
      · cases he

/-- Non-vacuity: an annotation whose appearance dictionary is an object, with the states on and off of the normal appearance in another one; and one with a form as its normal appearance. -/
example : let doc : IDoc := fun r => if r = ⟨1, 0⟩ then some (.plain (.dict [(litBytes "AP", .ref 2 0)])) else if r = ⟨2, 0⟩ then some (.plain (.dict [(litBytes "D", .ref 4 0), (litBytes "N", .ref 3 0)]))
      else if r = ⟨3, 0⟩ then some (.plain (.dict [(litBytes "Off", .ref 4 0)])) else if r = ⟨4, 0⟩ then some (.stream ⟨[], [1], [], false⟩) else if r = ⟨5, 0⟩ then some (.stream ⟨[], [2], [], false⟩) else none
    Spec.ApShape doc ⟨1, 0⟩ ⟨5, 0⟩ [(litBytes "AP", .ref 2 0)] ApKind.normal.key ∧ (∃ o, doc ⟨5, 0⟩ = some (.stream o)) ∧ doc ⟨3, 0⟩ = some (.plain (.dict [(litBytes "Off", .ref 4 0)])) ∧
    Spec.ApShape doc ⟨1, 0⟩ ⟨5, 0⟩ [(litBytes "AP", .ref 2 0)] ApKind.down.key ∧ doc ⟨4, 0⟩ = some (.stream ⟨[], [1], [], false⟩) := by
  intro doc
  have hAP : SMap.find? (litBytes "AP") [(litBytes "AP", Var.ref 2 0)] = some (.ref 2 0) := rfl
  have hu : ∀ ap, Spec.DictUnder doc [(litBytes "AP", .ref 2 0)] (litBytes "AP") ap → ap = [(litBytes "D", .ref 4 0), (litBytes "N", .ref 3 0)] := by
    intro ap h
    refine dictUnder_unique h (.object ⟨2, 0⟩ _ rfl rfl rfl)
  have one : ∀ p : Ref, SMap.find? (litBytes "AP") [(litBytes "AP", Var.ref 2 0)] = some (.ref p.num p.gen) → p = ⟨2, 0⟩ := by
    rintro ⟨n, g⟩ h; rw [hAP] at h; cases h; rfl
  refine ⟨⟨rfl, ?_, ?_⟩, ⟨_, rfl⟩, rfl, ⟨rfl, ?_, ?_⟩, rfl⟩
  · intro p hp; rw [one p hp]; decide
  · intro ap q h hq
    rw [hu ap h] at hq
    have : q = ⟨3, 0⟩ := by
      obtain ⟨n, g⟩ := q
      have e : SMap.find? ApKind.normal.key [(litBytes "D", Var.ref 4 0), (litBytes "N", .ref 3 0)] = some (.ref 3 0) := rfl
      rw [e] at hq; cases hq; rfl
    subst this
    exact ⟨by decide, fun p hp => by rw [one p hp]; decide⟩
  · intro p hp; rw [one p hp]; decide
  · intro ap q h hq
    rw [hu ap h] at hq
    have : q = ⟨4, 0⟩ := by
      obtain ⟨n, g⟩ := q
      have e : SMap.find? ApKind.down.key [(litBytes "D", Var.ref 4 0), (litBytes "N", .ref 3 0)] = some (.ref 4 0) := rfl
      rw [e] at hq; cases hq; rfl
    subst this
    exact ⟨by decide, fun p hp => by rw [one p hp]; decide⟩

/-! ## Entries -/

/-- The objects without their streams. -/
def IDoc.vars (doc : IDoc) : FDoc := fun r => (doc r).map Loaded.var

/-- `SetTitle` and `SetContents`, `src/pdfmm/base/PdfAnnotation.cpp:313-319` and `src/pdfmm/base/PdfAnnotation.cpp:331-337`, and `SetOpen`, `src/pdfmm/base/PdfAnnotation_Types.cpp:66-72`: an entry is
set or removed. -/
def IDoc.setEntry (doc : IDoc) (a : Ref) (k : Bytes) : Option Var → IDoc
  | some v => doc.putDict a (SMap.insert k v (doc.dictAt a))
  | none => doc.putDict a (SMap.erase k (doc.dictAt a))

/-- `GetTitle` and `GetContents`, `src/pdfmm/base/PdfAnnotation.cpp:321-329` and `src/pdfmm/base/PdfAnnotation.cpp:339-347`: the string, and whether it is written in hexadecimal. -/
def IDoc.getText (doc : IDoc) (a : Ref) (k : Bytes) (stack : Nat) : Res (Option (Bytes × Bool)) :=
  (doc.vars.findKeyParent k stack (doc.dictAt a)).map fun v =>
    match v with
    | some (.str b h) => some (b, h)
    | _ => none

/-- `SetFlags`, `src/pdfmm/base/PdfAnnotation.cpp:279-282`: flags are of 32 bits. -/
def IDoc.setFlags (doc : IDoc) (a : Ref) (f : Nat) : IDoc := doc.setEntry a (litBytes "F") (some (.num f))

/-- `GetFlags`, `src/pdfmm/base/PdfAnnotation.cpp:284-292`.  A real number is no number (`TryGetNumber`). -/
def IDoc.getFlags (doc : IDoc) (a : Ref) (stack : Nat) : Res Nat :=
  (doc.vars.findKeyParent (litBytes "F") stack (doc.dictAt a)).map fun v =>
    match v with
    | some (.num n) => (n % 4294967296).toNat
    | _ => 0

/-- `SetRect`, `src/pdfmm/base/PdfAnnotation.cpp:56-61`. -/
def IDoc.setAnnotRect (doc : IDoc) (a : Ref) (q : Rect) : IDoc := doc.setEntry a (litBytes "Rect") (some (.arr q.toVars))

/-- `GetRect`, `src/pdfmm/base/PdfAnnotation.cpp:48-54`. -/
def IDoc.getAnnotRect (doc : IDoc) (a : Ref) : Res Rect :=
  if SMap.find? (litBytes "Rect") (doc.dictAt a) = none then .ok ⟨0, 0, 0, 0⟩
  else
    match (doc.find (doc.dictAt a) (litBytes "Rect")).map Loaded.var with
    | none => raise .NoObject
    | some (.arr l) => Rect.ofVars l
    | some _ => raise .InvalidDataType

/-- `GetOpen`, `src/pdfmm/base/PdfAnnotation_Types.cpp:74-77` and `src/pdfmm/base/PdfAnnotation_Types.cpp:87-90`, with `GetKeyAs` (C35): references are not followed. -/
def IDoc.getOpen (doc : IDoc) (a : Ref) : Res Bool :=
  match SMap.find? (litBytes "Open") (doc.dictAt a) with
  | none => .ok false
  | some (.bool b) => .ok b
  | some _ => raise .InvalidDataType

/-- The kind an object says it is, `src/pdfmm/base/PdfAnnotation.cpp:577-586`. -/
def IDoc.annotKind (doc : IDoc) (v : Var) : Res AnnotName :=
  match v with
  | .dict d =>
    match (doc.find d (litBytes "Subtype")).map Loaded.var with
    | some (.name n) => nameToAnnot (latinStr n)
    | _ => .ok .Unknown
  | _ => raise .InvalidDataType

/-- `tryCreateFromObject`, `src/pdfmm/base/PdfAnnotation.cpp:410-511`: the kind of the annotation that is made; `want` is the kind asked for, or `Unknown` for any. -/
def IDoc.tryAnnot (doc : IDoc) (want : AnnotName) (v : Var) : Res (Option AnnotName) :=
  (doc.annotKind v).bind fun t =>
    if want ≠ .Unknown ∧ t ≠ want then .ok none
    else if t = .Unknown then raise .InvalidEnumValue
    else .ok (some t)

/-- The dictionary of a new annotation, `src/pdfmm/base/PdfAnnotation.cpp:23-41`, on the page `p`: a new dictionary has no flags, so only the flag for printing (4) is set. -/
def newAnnot (p : Ref) (t : AnnotName) (q : Rect) : Res FDict :=
  (annotToName t).map fun n =>
    SMap.insert (litBytes "F") (.num 4) (SMap.insert (litBytes "P") (.ref p.num p.gen) (SMap.insert (litBytes "Rect") (.arr q.toVars)
      (SMap.insert (litBytes "Subtype") (.name (litBytes n)) [(litBytes "Type", .name (litBytes "Annot"))])))

/-- Only one entry of the annotation changed, and it is `v` now. -/
structure Spec.EntryNow (doc doc' : IDoc) (a : Ref) (d : FDict) (k : Bytes) (v : Option Var) : Prop where
  objects : ∀ r, r ≠ a → doc' r = doc r
  now : ∃ d', doc' a = some (.plain (.dict d')) ∧ SMap.find? k d' = v ∧ ∀ k', k' ≠ k → SMap.find? k' d' = SMap.find? k' d

theorem setEntry_now (doc : IDoc) (a : Ref) (d : FDict) (k : Bytes) (v : Option Var) (h : doc a = some (.plain (.dict d))) (hs : SMap.Sorted d) : Spec.EntryNow doc (doc.setEntry a k v) a d k v := by
  cases v with
  | some v =>
    simp only [IDoc.setEntry, dictAt_eq h]
    exact ⟨fun r hr => putDict_other _ _ _ _ hr, _, putDict_self _ _ _ _ h, SMap.find_insert_self _ _ _, fun k' hk => SMap.find_insert_ne _ _ hk⟩
  | none =>
    simp only [IDoc.setEntry, dictAt_eq h]
    refine ⟨fun r hr => putDict_other _ _ _ _ hr, _, putDict_self _ _ _ _ h, by rw [SMap.find_erase _ _ hs, if_pos rfl], fun k' hk => by rw [SMap.find_erase _ _ hs, if_neg hk]⟩

theorem findKeyParent_direct (h : FDoc) (k : Bytes) (d : FDict) (v : Var) (hv : SMap.find? k d = some v) (hn : ∀ n g, v ≠ .ref n g) (stack : Nat) (hs : 0 < stack) :
    h.findKeyParent k stack d = .ok (some v) := by
  cases stack with
  | zero => omega
  | succ n =>
    have : h.findKey d k = some v := by
      unfold FDoc.findKey
      rw [hv]
      cases v with
      | ref n g => exact absurd rfl (hn n g)
      | _ => rfl
    rw [FDoc.findKeyParent, this]

/-- **C181** (proved part). A title or contents that is set is read back, byte by byte, whatever the parents of the annotation have, and only that entry changes; removed from an annotation that has no
parent it is gone.  Missing: `C181_removed_false`. -/
theorem C181_text_partial (doc : IDoc) (a : Ref) (d : FDict) (k : Bytes) (hk : k = litBytes "T" ∨ k = litBytes "Contents") (ha : doc a = some (.plain (.dict d))) (hs : SMap.Sorted d)
    (stack : Nat) (hst : 0 < stack) :
    (∀ b h, Spec.EntryNow doc (doc.setEntry a k (some (.str b h))) a d k (some (.str b h)) ∧ (doc.setEntry a k (some (.str b h))).getText a k stack = .ok (some (b, h))) ∧
    (SMap.find? (litBytes "Parent") d = none → Spec.EntryNow doc (doc.setEntry a k none) a d k none ∧ (doc.setEntry a k none).getText a k stack = .ok none) := by
  constructor
  · intro b h
    have he := setEntry_now doc a d k (some (.str b h)) ha hs
    refine ⟨he, ?_⟩
    obtain ⟨d', g1, g2, -⟩ := he.now
    simp only [IDoc.getText, dictAt_eq g1, findKeyParent_direct _ k d' _ g2 (by intro n g e; cases e) stack hst, Except.map]
  · intro hp
    have he := setEntry_now doc a d k none ha hs
    refine ⟨he, ?_⟩
    obtain ⟨d', g1, g2, g3⟩ := he.now
    have hp' : SMap.find? keyParent d' = none := by
      rw [g3 keyParent (by rcases hk with rfl | rfl <;> decide)]; exact hp
    have : (doc.setEntry a k none).vars.findKeyParent k stack d' = .ok none := by
      cases stack with
      | zero => omega
      | succ n => simp only [FDoc.findKeyParent, FDoc.findKey, g2, hp']
    simp only [IDoc.getText, dictAt_eq g1, this, Except.map]

/-- **C181** fails: a title or contents that is removed from an annotation whose parent has such an entry (a widget of a form field, whose partial name is then taken for the title) is not gone: the
parent's is given. -/
theorem C181_removed_false (doc : IDoc) (a p : Ref) (d pd : FDict) (k b : Bytes) (h : Bool) (hk : k = litBytes "T" ∨ k = litBytes "Contents") (ha : doc a = some (.plain (.dict d)))
    (hs : SMap.Sorted d) (hpa : p ≠ a) (hp : SMap.find? (litBytes "Parent") d = some (.ref p.num p.gen)) (hpd : doc p = some (.plain (.dict pd))) (hb : SMap.find? k pd = some (.str b h))
    (stack : Nat) (hst : 2 ≤ stack) : (doc.setEntry a k none).getText a k stack = .ok (some (b, h)) := by
  have he := setEntry_now doc a d k none ha hs
  obtain ⟨d', g1, g2, g3⟩ := he.now
  have hp' : SMap.find? keyParent d' = some (.ref p.num p.gen) := by
    rw [g3 keyParent (by rcases hk with rfl | rfl <;> decide)]; exact hp
  have hpo : (doc.setEntry a k none).vars ⟨p.num, p.gen⟩ = some (.dict pd) := by
    have : doc.setEntry a k none ⟨p.num, p.gen⟩ = some (.plain (.dict pd)) := by rw [he.objects ⟨p.num, p.gen⟩ hpa]; exact hpd
    simp only [IDoc.vars, this, Option.map_some, Loaded.var]
  have : (doc.setEntry a k none).vars.findKeyParent k stack d' = .ok (some (.str b h)) := by
    obtain ⟨n, rfl⟩ : ∃ n, stack = n + 1 + 1 := ⟨stack - 2, by omega⟩
    rw [FDoc.findKeyParent]
    simp only [FDoc.findKey, g2, hp', hpo]
    exact findKeyParent_direct _ k pd _ hb (by intro n g e; cases e) (n + 1) (by omega)
  simp only [IDoc.getText, dictAt_eq g1, this, Except.map]

/-- **C181.** Flags that are set are the flags, for all 32 bits and whatever the parents have; only their entry changes. -/
theorem C181_flags (doc : IDoc) (a : Ref) (d : FDict) (f : Nat) (hf : f < 4294967296) (ha : doc a = some (.plain (.dict d))) (hs : SMap.Sorted d) (stack : Nat) (hst : 0 < stack) :
    Spec.EntryNow doc (doc.setFlags a f) a d (litBytes "F") (some (.num f)) ∧ (doc.setFlags a f).getFlags a stack = .ok f := by
  have he := setEntry_now doc a d (litBytes "F") (some (.num f)) ha hs
  refine ⟨he, ?_⟩
  obtain ⟨d', g1, g2, -⟩ := he.now
  simp only [IDoc.getFlags, IDoc.setFlags, dictAt_eq g1, findKeyParent_direct _ _ d' _ g2 (by intro n g e; cases e) stack hst, Except.map]
  congr 1
  omega

/-- **C181.** A rectangle that is set is read back, in any doubles; without one it is the rectangle without extent; a rectangle that is an object of its own is read. -/
theorem C181_rect (doc : IDoc) (a : Ref) (d : FDict) (ha : doc a = some (.plain (.dict d))) (hs : SMap.Sorted d) :
    (∀ q, Spec.Doubles q → Spec.Proper q → Spec.EntryNow doc (doc.setAnnotRect a q) a d (litBytes "Rect") (some (.arr q.toVars)) ∧ (doc.setAnnotRect a q).getAnnotRect a = .ok q) ∧
    (SMap.find? (litBytes "Rect") d = none → doc.getAnnotRect a = .ok ⟨0, 0, 0, 0⟩) ∧
    (∀ q (r : Ref), Spec.Doubles q → Spec.Proper q → SMap.find? (litBytes "Rect") d = some (.ref r.num r.gen) → doc r = some (.plain (.arr q.toVars)) → doc.getAnnotRect a = .ok q) := by
  refine ⟨?_, ?_, ?_⟩
  · intro q hd hp
    have he := setEntry_now doc a d (litBytes "Rect") (some (.arr q.toVars)) ha hs
    refine ⟨he, ?_⟩
    obtain ⟨d', g1, g2, -⟩ := he.now
    unfold IDoc.setAnnotRect IDoc.getAnnotRect
    rw [dictAt_eq g1, g2, if_neg (by simp)]
    simp only [IDoc.find, g2, Option.map_some, Loaded.var]
    exact ofVars_toVars q hd hp
  · intro h
    unfold IDoc.getAnnotRect
    rw [dictAt_eq ha, if_pos h]
  · intro q r hd hp h hr
    have hr' : doc ⟨r.num, r.gen⟩ = some (.plain (.arr q.toVars)) := hr
    unfold IDoc.getAnnotRect
    rw [dictAt_eq ha, h, if_neg (by simp)]
    simp only [IDoc.find, h, hr', Option.map_some, Loaded.var]
    exact ofVars_toVars q hd hp

/-- **C181** (proved part). Whether a popup or a text annotation is open is what was set, and it is closed when nothing was set.  Missing: `C181_open_false`. -/
theorem C181_open_partial (doc : IDoc) (a : Ref) (d : FDict) (ha : doc a = some (.plain (.dict d))) (hs : SMap.Sorted d) :
    (∀ b, (doc.setEntry a (litBytes "Open") (some (.bool b))).getOpen a = .ok b) ∧ (doc.setEntry a (litBytes "Open") none).getOpen a = .ok false := by
  constructor
  · intro b
    obtain ⟨d', g1, g2, -⟩ := (setEntry_now doc a d (litBytes "Open") (some (.bool b)) ha hs).now
    simp only [IDoc.getOpen, dictAt_eq g1, g2]
  · obtain ⟨d', g1, g2, -⟩ := (setEntry_now doc a d (litBytes "Open") none ha hs).now
    simp only [IDoc.getOpen, dictAt_eq g1, g2]

/-- **C181** fails: when the entry is an object of its own, asking whether the annotation is open raises an error. -/
theorem C181_open_false (doc : IDoc) (a : Ref) (d : FDict) (ha : doc a = some (.plain (.dict d))) (r : Ref) (h : SMap.find? (litBytes "Open") d = some (.ref r.num r.gen)) :
    doc.getOpen a = raise .InvalidDataType := by
  simp only [IDoc.getOpen, dictAt_eq ha, h]

theorem annotName_latin (t : AnnotName) (n : String) (h : annotToName t = .ok n) : latinStr (litBytes n) = n := by
  have : ∀ s : String, s.toList.all (fun c => decide (c.toNat < 256)) = true → latinStr (litBytes s) = s := by
    intro s hs
    have hm : (litBytes s).map (fun c => Char.ofNat c.toNat) = s.toList := by
      unfold litBytes
      rw [List.map_map]
      conv => rhs; rw [← List.map_id s.toList]
      apply List.map_congr_left
      intro c hc
      have hc' : c.toNat < 256 := by simpa using List.all_eq_true.1 hs c hc
      simp only [Function.comp_apply, UInt8.toNat_ofNat', id]
      rw [Nat.mod_eq_of_lt (by simpa using hc')]
      exact Char.ofNat_toNat c
    unfold latinStr
    rw [hm]
    exact String.ofList_toList
  apply this
  revert h
  cases t <;> simp only [annotToName, raise] <;> intro h <;> cases h <;> decide +kernel

/-- **C181.** A new annotation has the kind, the rectangle and the page it was made with and is printed; it is found with its kind when any kind or its kind is asked for, and not when another one is. -/
theorem C181_kind (doc : IDoc) (p : Ref) (t : AnnotName) (ht : t ≠ .Unknown) (q : Rect) : ∃ d n, newAnnot p t q = .ok d ∧ annotToName t = .ok n ∧
    SMap.find? (litBytes "Type") d = some (.name (litBytes "Annot")) ∧ SMap.find? (litBytes "Subtype") d = some (.name (litBytes n)) ∧ SMap.find? (litBytes "Rect") d = some (.arr q.toVars) ∧
    SMap.find? (litBytes "P") d = some (.ref p.num p.gen) ∧ SMap.find? (litBytes "F") d = some (.num 4) ∧
    ∀ want, doc.tryAnnot want (.dict d) = .ok (if want = .Unknown ∨ want = t then some t else none) := by
  obtain ⟨n, hn⟩ : ∃ n, annotToName t = .ok n := by cases t <;> first | exact absurd rfl ht | exact ⟨_, rfl⟩
  refine ⟨_, n, by simp only [newAnnot, hn, Except.map]; rfl, hn, ?_, ?_, ?_, ?_, ?_, ?_⟩
  · rw [SMap.find_insert_ne _ _ (by decide), SMap.find_insert_ne _ _ (by decide), SMap.find_insert_ne _ _ (by decide), SMap.find_insert_ne _ _ (by decide)]; simp [SMap.find?]
  · rw [SMap.find_insert_ne _ _ (by decide), SMap.find_insert_ne _ _ (by decide), SMap.find_insert_ne _ _ (by decide)]; exact SMap.find_insert_self _ _ _
  · rw [SMap.find_insert_ne _ _ (by decide), SMap.find_insert_ne _ _ (by decide)]; exact SMap.find_insert_self _ _ _
  · rw [SMap.find_insert_ne _ _ (by decide)]; exact SMap.find_insert_self _ _ _
  · exact SMap.find_insert_self _ _ _
  · intro want
    have hk : ∀ d : FDict, SMap.find? (litBytes "Subtype") d = some (.name (litBytes n)) → doc.annotKind (.dict d) = .ok t := by
      intro d hd
      simp only [IDoc.annotKind, IDoc.find, hd, Option.map_some, Loaded.var, annotName_latin t n hn]
      exact (translates_inverse C64_annotations).1 t n hn
    unfold IDoc.tryAnnot
    rw [hk _ (by rw [SMap.find_insert_ne _ _ (by decide), SMap.find_insert_ne _ _ (by decide), SMap.find_insert_ne _ _ (by decide)]; exact SMap.find_insert_self _ _ _)]
    simp only [Except.bind]
    by_cases h1 : want = .Unknown
    · rw [if_neg (by simp [h1]), if_neg ht, if_pos (Or.inl h1)]
    · by_cases h2 : want = t
      · rw [if_neg (by simp [h2]), if_neg ht, if_pos (Or.inr h2)]
      · rw [if_pos ⟨h1, fun e => h2 e.symm⟩, if_neg (by simp [h1, h2])]

theorem nameToAnnot_cases (s : String) : nameToAnnot s = raise .InternalLogic ∨ ∃ t, nameToAnnot s = .ok t := by
  have aux : ∀ (c : Prop) [Decidable c] (t : AnnotName) (x : Res AnnotName), (x = raise .InternalLogic ∨ ∃ t, x = .ok t) →
      ((if c then .ok t else x) = raise .InternalLogic ∨ ∃ t', (if c then .ok t else x) = .ok t') := by
    intro c _ t x h
    by_cases hc : c
    · exact Or.inr ⟨t, by rw [if_pos hc]⟩
    · rw [if_neg hc]; exact h
  unfold nameToAnnot
  repeat apply aux
  exact Or.inl rfl

/-- **C181** fails: trying to make an annotation of an object that is none raises an error instead of reporting that it is none: for every object that is no dictionary, for every dictionary without a
subtype, and for every subtype that is not known. -/
theorem C181_try_false (doc : IDoc) (v : Var) (d : FDict) :
    ((∀ e, v ≠ .dict e) → doc.tryAnnot .Unknown v = raise .InvalidDataType) ∧
    (SMap.find? (litBytes "Subtype") d = none → doc.tryAnnot .Unknown (.dict d) = raise .InvalidEnumValue) ∧
    (∀ n want, SMap.find? (litBytes "Subtype") d = some (.name n) → (∀ t, annotToName t ≠ .ok (latinStr n)) → doc.tryAnnot want (.dict d) = raise .InternalLogic) := by
  refine ⟨?_, ?_, ?_⟩
  · intro h
    have : doc.annotKind v = raise .InvalidDataType := by
      cases v with
      | dict e => exact absurd rfl (h e)
      | _ => rfl
    simp only [IDoc.tryAnnot, this, raise, Except.bind]
  · intro h
    simp [IDoc.tryAnnot, IDoc.annotKind, IDoc.find, h, Except.bind]
  · intro n want h ht
    have : nameToAnnot (latinStr n) = raise .InternalLogic := by
      have h2 : ∀ t, nameToAnnot (latinStr n) ≠ .ok t := fun t e => ht t ((translates_inverse C64_annotations).2.1 _ t e)
      rcases nameToAnnot_cases (latinStr n) with e | ⟨t, e⟩
      · exact e
      · exact absurd e (h2 t)
    simp only [IDoc.tryAnnot, IDoc.annotKind, IDoc.find, h, Option.map_some, Loaded.var, this, raise, Except.bind]

/-- Non-vacuity: a widget whose field has a name. -/
example : let doc : IDoc := fun r => if r = ⟨1, 0⟩ then some (.plain (.dict [(litBytes "Parent", .ref 2 0), (litBytes "T", .str [1] false)])) else if r = ⟨2, 0⟩ then
      some (.plain (.dict [(litBytes "T", .str (litBytes "field") false)])) else none
    SMap.Sorted [(litBytes "Parent", Var.ref 2 0), (litBytes "T", .str [1] false)] ∧ doc ⟨1, 0⟩ = some (.plain (.dict [(litBytes "Parent", .ref 2 0), (litBytes "T", .str [1] false)])) ∧
    (doc.setEntry ⟨1, 0⟩ (litBytes "T") none).getText ⟨1, 0⟩ (litBytes "T") 100 = .ok (some (litBytes "field", false)) := by
  refine ⟨by simp [SMap.Sorted]; decide, rfl, ?_⟩
  exact C181_removed_false _ ⟨1, 0⟩ ⟨2, 0⟩ [(litBytes "Parent", .ref 2 0), (litBytes "T", .str [1] false)] [(litBytes "T", .str (litBytes "field") false)] _ _ _ (Or.inl rfl) rfl
    (by simp [SMap.Sorted]; decide) (by decide) rfl rfl rfl 100 (by omega)

end Pdfmm
