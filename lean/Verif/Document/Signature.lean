import Verif.Document.Annots
import Verif.Document.Dates
/-
C182: the entries of a signature: signer, reason, place, date, creator and certification.
-/
set_option autoImplicit false
namespace Pdfmm

def kSigV : Bytes := litBytes "V"
def kSigM : Bytes := litBytes "M"
def kSigReference : Bytes := litBytes "Reference"
def kSigPropBuild : Bytes := litBytes "Prop_Build"
def kPerms : Bytes := litBytes "Perms"

/-- The object `PdfSignature::m_ValueObj` points at: an object of the document, or the direct entry /V of the field. -/
inductive SigPlace
  | none | object (r : Ref) | inField
  deriving DecidableEq

/-- A signature field: the objects of its document, the object of the field and the value (`src/pdfmm/base/PdfSignature.h:38-160`). -/
structure Sig where
  objs : IDoc
  field : Ref
  place : SigPlace

/-- `PdfSignature(PdfObject&, PdfAcroForm*)`, `src/pdfmm/base/PdfSignature.cpp:36-41`. -/
def openSig (doc : IDoc) (f : Ref) : Sig :=
  match doc.look (doc.dictAt f) kSigV with
  | none => ⟨doc, f, .none⟩
  | some (some r, _) => ⟨doc, f, .object r⟩
  | some (none, _) => ⟨doc, f, .inField⟩

/-- `m_ValueObj->GetDictionary()`; nothing if the value is no dictionary. -/
def Sig.value (s : Sig) : Option FDict :=
  match s.place with
  | .none => none
  | .object r => (s.objs r).bind Loaded.asDict
  | .inField => ((SMap.find? kSigV (s.objs.dictAt s.field)).map Loaded.plain).bind Loaded.asDict

/-- The value with another dictionary. -/
def Sig.store (s : Sig) (d : FDict) : Sig :=
  match s.place with
  | .none => s
  | .object r => { s with objs := s.objs.putDict r d }
  | .inField => { s with objs := s.objs.putDict s.field (SMap.insert kSigV (.dict d) (s.objs.dictAt s.field)) }

/-- The start of every setter, `src/pdfmm/base/PdfSignature.cpp:59-60`, and `GetDictionary`, which raises if the value is no dictionary. -/
def Sig.dict (s : Sig) : Res FDict :=
  if s.place = .none then raise .InvalidHandle
  else
    match s.value with
    | some d => .ok d
    | none => raise .InvalidDataType

/-- An entry set or removed, `AddKey` and `RemoveKey`. -/
def setOrErase (k : Bytes) (v : Option Var) (d : FDict) : FDict :=
  match v with
  | some w => SMap.insert k w d
  | none => SMap.erase k d

/-- The texts of a signature. -/
inductive SigText
  | signer | reason | location
  deriving DecidableEq

/-- The entries of the texts, `src/pdfmm/base/PdfSignature.cpp:63,74,122`. -/
def SigText.key : SigText → Bytes
  | .signer => litBytes "Name"
  | .reason => litBytes "Reason"
  | .location => litBytes "Location"

/-- `SetSignerName`, `SetSignatureReason`, `SetSignatureLocation`, `src/pdfmm/base/PdfSignature.cpp:57-77,116-125`; a string is its bytes and its notation. -/
def Sig.setText (s : Sig) (t : SigText) (v : Option (Bytes × Bool)) : Res Sig :=
  s.dict.map fun d => s.store (setOrErase t.key (v.map fun p => .str p.1 p.2) d)

/-- `SetSignatureDate`, `src/pdfmm/base/PdfSignature.cpp:79-94`. -/
def Sig.setDate (s : Sig) (v : Option PDate) : Res Sig :=
  s.dict.map fun d => s.store (setOrErase kSigM (v.map fun dt => .str (dt.text false) false) d)

/-- `SetSignatureCreator`, `src/pdfmm/base/PdfSignature.cpp:127-145`. -/
def Sig.setCreator (s : Sig) (v : Option (Bytes × Bool)) : Res Sig :=
  s.dict.map fun d => s.store (setOrErase kSigPropBuild (v.map fun p => .dict [(litBytes "App", .dict [(litBytes "Name", .str p.1 p.2)])]) d)

/-- `FindKey` and `TryGetString`. -/
def IDoc.findStr (doc : IDoc) (d : FDict) (k : Bytes) : Option (Bytes × Bool) :=
  match (doc.find d k).map Loaded.var with
  | some (.str b h) => some (b, h)
  | _ => none

/-- The dictionary a getter reads, `src/pdfmm/base/PdfSignature.cpp:175-178`: nothing without a value, an error if the value is no dictionary. -/
def Sig.read {α : Type} (s : Sig) (g : FDict → Option α) : Res (Option α) :=
  if s.place = .none then .ok none
  else
    match s.value with
    | some d => .ok (g d)
    | none => raise .InvalidDataType

/-- `GetSignerName`, `GetSignatureReason`, `GetSignatureLocation`, `src/pdfmm/base/PdfSignature.cpp:173-210`. -/
def Sig.getText (s : Sig) (t : SigText) : Res (Option (Bytes × Bool)) := s.read fun d => s.objs.findStr d t.key

/-- `GetSignatureDate`, `src/pdfmm/base/PdfSignature.cpp:212-226`.  Simplified: the text of the date is the bytes of the string. -/
def Sig.getDate (s : Sig) : Res (Option PDate) := s.read fun d => (s.objs.findStr d kSigM).bind fun p => tryParseDate p.1

/-- `EnsureValueObject`, `src/pdfmm/base/PdfSignature.cpp:233-243`; `r` is the reference the new object gets (`PdfIndirectObjectList::addNewObject`). -/
def Sig.ensure (s : Sig) (r : Ref) : Sig :=
  match s.place with
  | .none =>
    let objs := s.objs.put r (.plain (.dict [(litBytes "Type", .name (litBytes "Sig"))]))
    { s with objs := objs.putDict s.field (SMap.insert kSigV (.ref r.num r.gen) (objs.dictAt s.field)), place := .object r }
  | _ => s

/-- `PrepareForSigning`, `src/pdfmm/base/PdfSignature.cpp:96-114`; `r` as in `Sig.ensure`.
Simplified: the reserved data are given as values (`contents`, `range`); how they are written and filled in is C115. -/
def Sig.prepare (s : Sig) (r : Ref) (filter sub type : Bytes) (contents range : Var) : Res Sig :=
  (s.ensure r).dict.map fun d =>
    (s.ensure r).store (SMap.insert (litBytes "ByteRange") range (SMap.insert (litBytes "Contents") contents (SMap.insert (litBytes "Type") (.name type)
      (SMap.insert (litBytes "SubFilter") (.name sub) (SMap.insert (litBytes "Filter") (.name filter) d)))))

/-- The transform parameters, `src/pdfmm/base/PdfSignature.cpp:157-159`; `perm` is the number of the permission (`src/pdfmm/base/PdfSignature.h:22-27`). -/
def transParams (perm : Int) : FDict :=
  SMap.insert (litBytes "P") (.num perm) (SMap.insert (litBytes "V") (.name (litBytes "1.2")) [(litBytes "Type", .name (litBytes "TransformParams"))])

/-- The signature reference, `src/pdfmm/base/PdfSignature.cpp:154-160`: the parameters are copied into it. -/
def sigRefDict (perm : Int) : FDict :=
  SMap.insert (litBytes "TransformParams") (.dict (transParams perm))
    (SMap.insert (litBytes "TransformMethod") (.name (litBytes "DocMDP")) [(litBytes "Type", .name (litBytes "SigRef"))])

/-- The objects after the first part of `AddCertificationReference`, `src/pdfmm/base/PdfSignature.cpp:152-160`. -/
def Sig.certStart (s : Sig) (d : FDict) (r1 r2 : Ref) (perm : Int) : Sig :=
  let s1 := s.store (SMap.erase kSigReference d)
  { s1 with objs := (s1.objs.put r1 (.plain (.dict (sigRefDict perm)))).put r2 (.plain (.dict (transParams perm))) }

/-- The rest, `src/pdfmm/base/PdfSignature.cpp:162-170`, `cat` being the catalog. -/
def Sig.certEnd (s : Sig) (cat : Ref) (vref : Ref) (perm : Int) : Sig :=
  let s2 := { s with objs := s.objs.putDict cat (SMap.insert kPerms (.dict [(litBytes "DocMDP", .ref vref.num vref.gen)]) (s.objs.dictAt cat)) }
  s2.store (SMap.insert kSigReference (.arr [.dict (sigRefDict perm)]) (s2.value.getD []))

/-- `AddCertificationReference`, `src/pdfmm/base/PdfSignature.cpp:147-171`: what it answers and the signature afterwards.  `r1` and `r2` are the references the two new objects get.
`GetKey("V")->GetReference()` raises if the value is not an object of its own. -/
def Sig.certify (s : Sig) (cat r1 r2 : Ref) (perm : Int) : Res Unit × Sig :=
  match s.dict with
  | .error e => (.error e, s)
  | .ok d =>
    match SMap.find? kSigV ((s.certStart d r1 r2 perm).objs.dictAt s.field) with
    | none => (.error .ub, s.certStart d r1 r2 perm)
    | some (.ref n g) => (.ok (), (s.certStart d r1 r2 perm).certEnd cat ⟨n, g⟩ perm)
    | some _ => (raise .InvalidDataType, s.certStart d r1 r2 perm)

/-! ## What is expected -/

/-- The signature dictionary of a field (ISO 32000-1, 12.7.4.5): the value /V of the field, a dictionary or an object that is one. -/
def Spec.SigValue (doc : IDoc) (f : Ref) (d : FDict) : Prop := Spec.DictUnder doc (doc.dictAt f) (litBytes "V") d

/-- An entry of a dictionary is this string, directly or through a reference; or there is no such entry. -/
def Spec.TextIs (doc : IDoc) (d : FDict) (k : Bytes) : Option (Bytes × Bool) → Prop
  | some (b, h) => (doc.find d k).map Loaded.var = some (.str b h)
  | none => SMap.find? k d = none

/-- The entries of the texts, ISO 32000-1, table 252. -/
inductive Spec.SigEntry : SigText → Bytes → Prop
  | signer : Spec.SigEntry .signer (litBytes "Name")
  | reason : Spec.SigEntry .reason (litBytes "Reason")
  | location : Spec.SigEntry .location (litBytes "Location")

/-- The field has its signature dictionary, the entry `k` of it is `v`, and nothing else differs: no other entry of it, no other entry of the field, no other object.
The field and an object that is its value are not the same. -/
structure Spec.SigOnly (k : Bytes) (v : Option Var) (f : Ref) (doc doc' : IDoc) (d : FDict) : Prop where
  now : ∃ d', Spec.SigValue doc' f d' ∧ SMap.find? k d' = v ∧ ∀ k', k' ≠ k → SMap.find? k' d' = SMap.find? k' d
  field : ∀ k', k' ≠ litBytes "V" → SMap.find? k' (doc'.dictAt f) = SMap.find? k' (doc.dictAt f)
  others : ∀ r, r ≠ f → SMap.find? (litBytes "V") (doc.dictAt f) ≠ some (.ref r.num r.gen) → doc' r = doc r

/-- A field that can be read: its dictionary and its value are in order and the value is not the field itself. -/
structure Spec.SigField (doc : IDoc) (f : Ref) (d : FDict) : Prop where
  there : ∃ l e, doc f = some l ∧ l.var = .dict e ∧ SMap.Sorted e
  value : Spec.SigValue doc f d
  sorted : SMap.Sorted d
  apart : SMap.find? (litBytes "V") (doc.dictAt f) ≠ some (.ref f.num f.gen)

/-- A value has a reference to `r` somewhere in it. -/
inductive Spec.Names (r : Ref) : Var → Prop
  | ref : Spec.Names r (.ref r.num r.gen)
  | arr {l : List Var} {v : Var} : v ∈ l → Spec.Names r v → Spec.Names r (.arr l)
  | dict {d : FDict} {k : Bytes} {v : Var} : (k, v) ∈ d → Spec.Names r v → Spec.Names r (.dict d)

/-- A signature reference for certification (ISO 32000-1, tables 253 and 254): the method DocMDP, its version and the permission. -/
structure Spec.CertRef (perm : Int) (d : FDict) : Prop where
  type : SMap.find? (litBytes "Type") d = some (.name (litBytes "SigRef"))
  method : SMap.find? (litBytes "TransformMethod") d = some (.name (litBytes "DocMDP"))
  params : ∃ p, SMap.find? (litBytes "TransformParams") d = some (.dict p) ∧ SMap.find? (litBytes "Type") p = some (.name (litBytes "TransformParams")) ∧
    SMap.find? (litBytes "P") p = some (.num perm) ∧ SMap.find? (litBytes "V") p = some (.name (litBytes "1.2"))

/-- A document ready to be certified: the field, its value, which is the object `v`, the catalog, and two references no object has. -/
structure Spec.CertReady (doc : IDoc) (f v cat r1 r2 : Ref) (d c : FDict) : Prop where
  sig : Spec.SigField doc f d
  isRef : SMap.find? (litBytes "V") (doc.dictAt f) = some (.ref v.num v.gen)
  catalog : doc cat = some (.plain (.dict c))
  apart : cat ≠ v ∧ cat ≠ f
  free1 : doc r1 = none
  free2 : doc r2 = none
  two : r1 ≠ r2

/-! ## Lemmas -/

theorem dictAt_var {doc : IDoc} {a : Ref} {l : Loaded} {d : FDict} (h : doc a = some l) (hv : l.var = .dict d) : doc.dictAt a = d := by
  simp only [IDoc.dictAt, h, Option.map_some, hv]

theorem dictAt_putDict {doc : IDoc} {a : Ref} {l : Loaded} {d : FDict} (h : doc a = some l) : (doc.putDict a d).dictAt a = d :=
  dictAt_var (putDict_self doc a l d h) (withDict_var l d)

theorem dictAt_put_other {doc : IDoc} {a r : Ref} {d : FDict} (h : a ≠ r) : (doc.putDict r d).dictAt a = doc.dictAt a := by
  simp only [IDoc.dictAt, putDict_other doc r a d h]

theorem openSig_direct {doc : IDoc} {f : Ref} {d : FDict} (h : SMap.find? kSigV (doc.dictAt f) = some (.dict d)) :
    openSig doc f = ⟨doc, f, .inField⟩ := by
  simp only [openSig, look_dict doc _ d _ h]

theorem openSig_object {doc : IDoc} {f r : Ref} {l : Loaded} (h : SMap.find? kSigV (doc.dictAt f) = some (.ref r.num r.gen)) (hl : doc r = some l) :
    openSig doc f = ⟨doc, f, .object r⟩ := by
  simp only [openSig, look_ref doc _ _ r l h hl]

theorem openSig_parts (doc : IDoc) (f : Ref) : (openSig doc f).objs = doc ∧ (openSig doc f).field = f := by
  unfold openSig; split <;> exact ⟨rfl, rfl⟩

theorem sig_value {doc : IDoc} {f : Ref} {d : FDict} (h : Spec.SigValue doc f d) : (openSig doc f).place ≠ .none ∧ (openSig doc f).value = some d := by
  rcases h with h | ⟨r, l, h1, h2, h3⟩
  · rw [openSig_direct h]
    refine ⟨by simp, ?_⟩
    have h' : SMap.find? kSigV (doc.dictAt f) = some (.dict d) := h
    simp [Sig.value, h', Loaded.asDict, Loaded.var]
  · rw [openSig_object h1 h2]
    refine ⟨by simp, ?_⟩
    simp [Sig.value, h2, (asDict_iff l d).2 h3]

theorem sig_dict {doc : IDoc} {f : Ref} {d : FDict} (h : Spec.SigValue doc f d) : (openSig doc f).dict = .ok d := by
  simp only [Sig.dict, (sig_value h).1, if_false, (sig_value h).2]

theorem sigField_sorted {doc : IDoc} {f : Ref} {d : FDict} (h : Spec.SigField doc f d) : SMap.Sorted (doc.dictAt f) := by
  obtain ⟨l, e, h1, h2, h3⟩ := h.there
  rw [dictAt_var h1 h2]; exact h3

/-- Storing another dictionary as the value. -/
theorem sig_store {doc : IDoc} {f : Ref} {d : FDict} (h : Spec.SigField doc f d) (d' : FDict) (hs : SMap.Sorted d') :
    openSig ((openSig doc f).store d').objs f = (openSig doc f).store d' ∧ Spec.SigField ((openSig doc f).store d').objs f d' ∧
    (∀ k', k' ≠ litBytes "V" → SMap.find? k' (((openSig doc f).store d').objs.dictAt f) = SMap.find? k' (doc.dictAt f)) ∧
    ∀ r, r ≠ f → SMap.find? (litBytes "V") (doc.dictAt f) ≠ some (.ref r.num r.gen) → ((openSig doc f).store d').objs r = doc r := by
  obtain ⟨l, e, h1, h2, h3⟩ := h.there
  have hda := dictAt_var h1 h2
  rcases h.value with hv | ⟨r, l', hv, hl', hd⟩
  · rw [openSig_direct hv]
    simp only [Sig.store]
    have hx := dictAt_putDict (d := SMap.insert kSigV (.dict d') (doc.dictAt f)) h1
    have hf : SMap.find? kSigV ((doc.putDict f (SMap.insert kSigV (.dict d') (doc.dictAt f))).dictAt f) = some (.dict d') := by
      rw [hx]; exact SMap.find_insert_self _ _ _
    refine ⟨openSig_direct hf, ⟨⟨_, _, putDict_self doc f l _ h1, withDict_var _ _, SMap.sorted_insert _ _ _ (sigField_sorted h)⟩, .direct hf, hs, ?_⟩, ?_, ?_⟩
    · intro c
      have c' : SMap.find? kSigV _ = _ := c
      rw [hf] at c'; cases c'
    · intro k' hk; rw [hx]; exact SMap.find_insert_ne _ _ hk
    · intro r hr _; exact putDict_other _ _ _ _ hr
  · have hne : f ≠ r := by
      rintro rfl; exact h.apart hv
    rw [openSig_object hv hl']
    simp only [Sig.store]
    have hx : (doc.putDict r d').dictAt f = doc.dictAt f := dictAt_put_other hne
    have hf : SMap.find? kSigV ((doc.putDict r d').dictAt f) = some (.ref r.num r.gen) := by rw [hx]; exact hv
    refine ⟨openSig_object hf (putDict_self doc r l' d' hl'), ⟨⟨l, e, by rw [putDict_other _ _ _ _ hne, h1], h2, h3⟩,
      .object r _ hf (putDict_self doc r l' d' hl') (withDict_var _ _), hs, ?_⟩, ?_, ?_⟩
    · rw [hx]; exact h.apart
    · intro k' hk; rw [hx]
    · intro q _ hq
      apply putDict_other
      rintro rfl; exact hq hv

theorem setOrErase_sorted (k : Bytes) (v : Option Var) {d : FDict} (h : SMap.Sorted d) : SMap.Sorted (setOrErase k v d) := by
  cases v with
  | none => exact SMap.sorted_erase k h
  | some w => exact SMap.sorted_insert k w d h

theorem setOrErase_self (k : Bytes) (v : Option Var) {d : FDict} (h : SMap.Sorted d) : SMap.find? k (setOrErase k v d) = v := by
  cases v with
  | none => simp only [setOrErase]; rw [SMap.find_erase k k h]; simp
  | some w => exact SMap.find_insert_self k w d

theorem setOrErase_ne (k k' : Bytes) (v : Option Var) {d : FDict} (h : SMap.Sorted d) (hk : k' ≠ k) : SMap.find? k' (setOrErase k v d) = SMap.find? k' d := by
  cases v with
  | none => simp only [setOrErase]; rw [SMap.find_erase k k' h]; simp [hk]
  | some w => exact SMap.find_insert_ne _ _ hk

/-- What every setter does. -/
theorem sig_set {doc : IDoc} {f : Ref} {d : FDict} (h : Spec.SigField doc f d) (k : Bytes) (v : Option Var) :
    ∃ s', ((openSig doc f).dict.map fun d => (openSig doc f).store (setOrErase k v d)) = .ok s' ∧ s' = openSig s'.objs f ∧
      Spec.SigOnly k v f doc s'.objs d ∧ Spec.SigField s'.objs f (setOrErase k v d) := by
  obtain ⟨e1, e2, e3, e4⟩ := sig_store h _ (setOrErase_sorted k v h.sorted)
  refine ⟨_, by rw [sig_dict h.value]; rfl, e1.symm, ⟨⟨_, e2.value, setOrErase_self k v h.sorted, fun k' hk => setOrErase_ne k k' v h.sorted hk⟩, e3, e4⟩, e2⟩

theorem findStr_of {doc : IDoc} {d : FDict} {k : Bytes} {b : Bytes} {h : Bool} (e : SMap.find? k d = some (.str b h)) : doc.findStr d k = some (b, h) := by
  simp [IDoc.findStr, IDoc.find, e, Loaded.var]

theorem findStr_none {doc : IDoc} {d : FDict} {k : Bytes} (e : SMap.find? k d = none) : doc.findStr d k = none := by
  simp [IDoc.findStr, IDoc.find, e]

/-! ## Theorems -/

/-- C182.  After the signer, the reason or the place is set or removed, the signature dictionary has just that entry changed, nothing else in the document differs,
and the getter gives the text back, both from the same signature and from the field opened anew. -/
theorem C182_text {doc : IDoc} {f : Ref} {d : FDict} (h : Spec.SigField doc f d) (t : SigText) (k : Bytes) (hk : Spec.SigEntry t k) (v : Option (Bytes × Bool)) :
    ∃ s', (openSig doc f).setText t v = .ok s' ∧ Spec.SigOnly k (v.map fun p => .str p.1 p.2) f doc s'.objs d ∧
      s'.getText t = .ok v ∧ (openSig s'.objs f).getText t = .ok v := by
  have hkk : t.key = k := by cases hk <;> rfl
  obtain ⟨s', e1, e2, e3, e4⟩ := sig_set h t.key (v.map fun p => .str p.1 p.2)
  have hg : (openSig s'.objs f).getText t = .ok v := by
    simp only [Sig.getText, Sig.read, (sig_value e4.value).1, if_false, (sig_value e4.value).2, (openSig_parts s'.objs f).1]
    have := setOrErase_self t.key (v.map fun p => Var.str p.1 p.2) h.sorted
    cases v with
    | none => rw [findStr_none this]
    | some p => rw [findStr_of this]
  exact ⟨s', e1, hkk ▸ e3, by rw [e2]; exact hg, hg⟩

/-- C182.  A text held as an object of its own is read like one held in the signature dictionary. -/
theorem C182_text_object {doc : IDoc} {f : Ref} {d : FDict} (h : Spec.SigField doc f d) (t : SigText) (k : Bytes) (hk : Spec.SigEntry t k) (n g : Nat)
    (hd : SMap.find? k d = some (.ref n g)) (b : Bytes) (hex : Bool) (ho : doc ⟨n, g⟩ = some (.plain (.str b hex))) :
    (openSig doc f).getText t = .ok (some (b, hex)) := by
  have hkk : t.key = k := by cases hk <;> rfl
  simp only [Sig.getText, Sig.read, (sig_value h.value).1, if_false, (sig_value h.value).2, (openSig_parts doc f).1, hkk]
  simp [IDoc.findStr, IDoc.find, hd, ho, Loaded.var]

/-- C182.  The same for the date, when the clock of the date lies in the years 0 to 9999 and the offset is below 60 hours (the library's own dates do). -/
theorem C182_date {doc : IDoc} {f : Ref} {d : FDict} (h : Spec.SigField doc f d) (v : Option PDate)
    (hd : ∀ dt, v = some dt → -62167219200 ≤ dt.secs + 60 * dt.off.getD 0 ∧ dt.secs + 60 * dt.off.getD 0 < 253402300800 ∧ ∀ o, dt.off = some o → -3600 < o ∧ o < 3600) :
    ∃ s', (openSig doc f).setDate v = .ok s' ∧ Spec.SigOnly (litBytes "M") (v.map fun dt => .str (dt.text false) false) f doc s'.objs d ∧
      s'.getDate = .ok v ∧ (openSig s'.objs f).getDate = .ok v := by
  obtain ⟨s', e1, e2, e3, e4⟩ := sig_set h kSigM (v.map fun dt => .str (dt.text false) false)
  have hg : (openSig s'.objs f).getDate = .ok v := by
    simp only [Sig.getDate, Sig.read, (sig_value e4.value).1, if_false, (sig_value e4.value).2, (openSig_parts s'.objs f).1]
    have := setOrErase_self kSigM (v.map fun dt => Var.str (dt.text false) false) h.sorted
    cases v with
    | none => rw [findStr_none this]; rfl
    | some dt =>
      rw [findStr_of this]
      obtain ⟨a, b, c⟩ := hd dt rfl
      simp only [Option.bind_some, (C59_date_roundtrip dt a b c).1]
  exact ⟨s', e1, e3, by rw [e2]; exact hg, hg⟩

/-- C182.  A signature without a value: every setter is refused, every getter gives nothing, and certifying it changes nothing. -/
theorem C182_no_value (doc : IDoc) (f : Ref) (h : SMap.find? (litBytes "V") (doc.dictAt f) = none) (t : SigText) (v : Option (Bytes × Bool)) (dt : Option PDate) (cat r1 r2 : Ref) (perm : Int) :
    (openSig doc f).setText t v = raise .InvalidHandle ∧ (openSig doc f).setDate dt = raise .InvalidHandle ∧ (openSig doc f).setCreator v = raise .InvalidHandle ∧
    (openSig doc f).getText t = .ok none ∧ (openSig doc f).getDate = .ok none ∧ (openSig doc f).certify cat r1 r2 perm = (raise .InvalidHandle, openSig doc f) := by
  have h' : SMap.find? kSigV (doc.dictAt f) = none := h
  have e : openSig doc f = ⟨doc, f, .none⟩ := by simp only [openSig, IDoc.look, h']
  rw [e]
  exact ⟨rfl, rfl, rfl, rfl, rfl, rfl⟩

/-- C182.  Giving a signature a value: a field that has one, whatever it is, is left as it is; one that has none gets a new signature dictionary, and only the field and the new object differ. -/
theorem C182_ensure (doc : IDoc) (f r : Ref) (l : Loaded) (e : FDict) (hf : doc f = some l) (hl : l.var = .dict e) (he : SMap.Sorted e) (hr : doc r = none) :
    (∀ d, Spec.SigValue doc f d → (openSig doc f).ensure r = openSig doc f) ∧
    (SMap.find? (litBytes "V") e = none → ∃ doc', (openSig doc f).ensure r = openSig doc' f ∧
      Spec.SigField doc' f [(litBytes "Type", .name (litBytes "Sig"))] ∧ SMap.find? (litBytes "V") (doc'.dictAt f) = some (.ref r.num r.gen) ∧
      (∀ k, k ≠ litBytes "V" → SMap.find? k (doc'.dictAt f) = SMap.find? k e) ∧ ∀ q, q ≠ f → q ≠ r → doc' q = doc q) := by
  have hda := dictAt_var hf hl
  constructor
  · intro d hd
    have := (sig_value hd).1
    unfold Sig.ensure
    split
    · rename_i c; exact absurd c this
    · rfl
  · intro hv
    have hfr : f ≠ r := by rintro rfl; rw [hf] at hr; cases hr
    have h' : SMap.find? kSigV (doc.dictAt f) = none := by rw [hda]; exact hv
    have eo : openSig doc f = ⟨doc, f, .none⟩ := by simp only [openSig, IDoc.look, h']
    have hpf : doc.put r (.plain (.dict [(litBytes "Type", .name (litBytes "Sig"))])) f = some l := by simp [IDoc.put, hfr, hf]
    have hpa := dictAt_var hpf hl
    have hx := dictAt_putDict (d := SMap.insert kSigV (.ref r.num r.gen) e) hpf
    have hfv : SMap.find? kSigV (((doc.put r (.plain (.dict [(litBytes "Type", .name (litBytes "Sig"))]))).putDict f (SMap.insert kSigV (.ref r.num r.gen) e)).dictAt f) = some (.ref r.num r.gen) := by
      rw [hx]; exact SMap.find_insert_self _ _ _
    have hrv : ((doc.put r (.plain (.dict [(litBytes "Type", .name (litBytes "Sig"))]))).putDict f (SMap.insert kSigV (.ref r.num r.gen) e)) r = some (.plain (.dict [(litBytes "Type", .name (litBytes "Sig"))])) := by
      rw [putDict_other _ _ _ _ (Ne.symm hfr)]; simp [IDoc.put]
    refine ⟨_, ?_, ⟨⟨_, _, putDict_self _ f l _ hpf, withDict_var _ _, SMap.sorted_insert _ _ _ he⟩, .object r _ hfv hrv rfl, by simp [SMap.Sorted], ?_⟩, hfv, ?_, ?_⟩
    · rw [openSig_object hfv hrv, eo]
      simp only [Sig.ensure, hpa]
    · intro c
      have c' : SMap.find? kSigV _ = _ := c
      rw [hfv] at c'
      injection c' with c'
      injection c' with c1 c2
      exact hfr (by cases f; cases r; simp_all)
    · intro k hk; rw [hx]; exact SMap.find_insert_ne _ _ hk
    · intro q hq hqr
      rw [putDict_other _ _ _ _ hq]; simp [IDoc.put, hqr]

/-- C182.  The creator is stored as the name of the application, and removed with its entry. -/
theorem C182_creator_partial {doc : IDoc} {f : Ref} {d : FDict} (h : Spec.SigField doc f d) (v : Option (Bytes × Bool)) :
    ∃ s', (openSig doc f).setCreator v = .ok s' ∧
      Spec.SigOnly (litBytes "Prop_Build") (v.map fun p => .dict [(litBytes "App", .dict [(litBytes "Name", .str p.1 p.2)])]) f doc s'.objs d := by
  obtain ⟨s', e1, -, e3, -⟩ := sig_set h kSigPropBuild (v.map fun p => .dict [(litBytes "App", .dict [(litBytes "Name", .str p.1 p.2)])])
  exact ⟨s', e1, e3⟩

/-- C182 is false of the creator: whatever else /Prop_Build held is lost, always. -/
theorem C182_creator_false {doc : IDoc} {f : Ref} {d : FDict} (h : Spec.SigField doc f d) (p : Bytes × Bool) (b : FDict) (_hb : SMap.find? (litBytes "Prop_Build") d = some (.dict b))
    (k : Bytes) (_hk : SMap.find? k b ≠ none) (hne : k ≠ litBytes "App") :
    ∃ s' d' b', (openSig doc f).setCreator (some p) = .ok s' ∧ Spec.SigValue s'.objs f d' ∧ SMap.find? (litBytes "Prop_Build") d' = some (.dict b') ∧ SMap.find? k b' = none := by
  obtain ⟨s', e1, ⟨⟨d', h1, h2, -⟩, -, -⟩⟩ := C182_creator_partial h (some p)
  exact ⟨s', d', _, e1, h1, h2, by simpa [SMap.find?] using hne⟩

/-- C182.  Preparing a signature that has a value: five entries of the signature dictionary are set, every other keeps its value. -/
theorem C182_prepare {doc : IDoc} {f : Ref} {d : FDict} (h : Spec.SigField doc f d) (r : Ref) (filter sub type : Bytes) (contents range : Var) :
    ∃ s' d', (openSig doc f).prepare r filter sub type contents range = .ok s' ∧ s' = openSig s'.objs f ∧ Spec.SigField s'.objs f d' ∧
      SMap.find? (litBytes "Filter") d' = some (.name filter) ∧ SMap.find? (litBytes "SubFilter") d' = some (.name sub) ∧
      SMap.find? (litBytes "Type") d' = some (.name type) ∧ SMap.find? (litBytes "Contents") d' = some contents ∧ SMap.find? (litBytes "ByteRange") d' = some range ∧
      (∀ k, k ∉ [litBytes "Filter", litBytes "SubFilter", litBytes "Type", litBytes "Contents", litBytes "ByteRange"] → SMap.find? k d' = SMap.find? k d) ∧
      (∀ k, k ≠ litBytes "V" → SMap.find? k (s'.objs.dictAt f) = SMap.find? k (doc.dictAt f)) ∧
      ∀ q, q ≠ f → SMap.find? (litBytes "V") (doc.dictAt f) ≠ some (.ref q.num q.gen) → s'.objs q = doc q := by
  have he : (openSig doc f).ensure r = openSig doc f := by
    have := (sig_value h.value).1
    unfold Sig.ensure
    split
    · rename_i c; exact absurd c this
    · rfl
  obtain ⟨e1, e2, e3, e4⟩ := sig_store h _ (SMap.sorted_insert (litBytes "ByteRange") range _ (SMap.sorted_insert (litBytes "Contents") contents _
    (SMap.sorted_insert (litBytes "Type") (.name type) _ (SMap.sorted_insert (litBytes "SubFilter") (.name sub) _ (SMap.sorted_insert (litBytes "Filter") (.name filter) _ h.sorted)))))
  refine ⟨_, _, by simp only [Sig.prepare, he, sig_dict h.value]; rfl, e1.symm, e2, ?_, ?_, ?_, ?_, SMap.find_insert_self _ _ _, ?_, e3, e4⟩
  · repeat rw [SMap.find_insert_ne _ _ (by decide)]
    exact SMap.find_insert_self _ _ _
  · repeat rw [SMap.find_insert_ne (k₀ := litBytes "SubFilter") _ _ (by decide)]
    exact SMap.find_insert_self _ _ _
  · repeat rw [SMap.find_insert_ne (k₀ := litBytes "Type") _ _ (by decide)]
    exact SMap.find_insert_self _ _ _
  · rw [SMap.find_insert_ne _ _ (by decide)]
    exact SMap.find_insert_self _ _ _
  · intro k hk
    simp only [List.mem_cons, List.not_mem_nil, or_false, not_or] at hk
    obtain ⟨a, b, c, e, g⟩ := hk
    rw [SMap.find_insert_ne _ _ g, SMap.find_insert_ne _ _ e, SMap.find_insert_ne _ _ c, SMap.find_insert_ne _ _ b, SMap.find_insert_ne _ _ a]

/-- The objects after a certification. -/
theorem cert_objs {doc : IDoc} {f v cat r1 r2 : Ref} {d c : FDict} (h : Spec.CertReady doc f v cat r1 r2 d c) (perm : Int) :
    ∃ s' lv, (openSig doc f).certify cat r1 r2 perm = (.ok (), s') ∧ doc v = some lv ∧ lv.var = .dict d ∧ s'.objs f = doc f ∧
      s'.objs v = some (lv.withDict (SMap.insert kSigReference (.arr [.dict (sigRefDict perm)]) (SMap.erase kSigReference d))) ∧
      s'.objs cat = some (.plain (.dict (SMap.insert kPerms (.dict [(litBytes "DocMDP", .ref v.num v.gen)]) c))) ∧
      s'.objs r1 = some (.plain (.dict (sigRefDict perm))) ∧ s'.objs r2 = some (.plain (.dict (transParams perm))) ∧
      ∀ q, q ≠ v → q ≠ cat → q ≠ r1 → q ≠ r2 → s'.objs q = doc q := by
  obtain ⟨lf, ef, hf1, hf2, -⟩ := h.sig.there
  have hv : ∃ lv, doc v = some lv ∧ lv.var = .dict d := by
    rcases h.sig.value with hx | ⟨r, l, hx, h2, h3⟩
    · rw [h.isRef] at hx; cases hx
    · rw [h.isRef] at hx
      have : v = r := by cases v; cases r; simpa using hx
      subst this
      exact ⟨l, h2, h3⟩
  obtain ⟨lv, hl, hd⟩ := hv
  have hvf : f ≠ v := by rintro rfl; exact h.sig.apart h.isRef
  have hf1' : f ≠ r1 := by rintro rfl; rw [h.free1] at hf1; cases hf1
  have hf2' : f ≠ r2 := by rintro rfl; rw [h.free2] at hf1; cases hf1
  have hv1 : v ≠ r1 := by rintro rfl; rw [h.free1] at hl; cases hl
  have hv2 : v ≠ r2 := by rintro rfl; rw [h.free2] at hl; cases hl
  have hc1 : cat ≠ r1 := by rintro rfl; have := h.catalog; rw [h.free1] at this; cases this
  have hc2 : cat ≠ r2 := by rintro rfl; have := h.catalog; rw [h.free2] at this; cases this
  have hcv := h.apart.1
  have hcf := h.apart.2
  have ho := openSig_object h.isRef hl
  -- the objects before the catalog is changed
  have hs : ∀ q, ((openSig doc f).certStart d r1 r2 perm).objs q =
      if q = r2 then some (.plain (.dict (transParams perm))) else if q = r1 then some (.plain (.dict (sigRefDict perm)))
      else doc.putDict v (SMap.erase kSigReference d) q := by
    intro q; rw [ho]; rfl
  have hsp : ((openSig doc f).certStart d r1 r2 perm).place = .object v := by rw [ho]; rfl
  have hsf : ((openSig doc f).certStart d r1 r2 perm).objs f = doc f := by
    rw [hs, if_neg hf2', if_neg hf1', putDict_other _ _ _ _ hvf]
  have hsv : ((openSig doc f).certStart d r1 r2 perm).objs v = some (lv.withDict (SMap.erase kSigReference d)) := by
    rw [hs, if_neg hv2, if_neg hv1, putDict_self _ _ _ _ hl]
  have hsc : ((openSig doc f).certStart d r1 r2 perm).objs cat = some (.plain (.dict c)) := by
    rw [hs, if_neg hc2, if_neg hc1, putDict_other _ _ _ _ hcv, h.catalog]
  have hda : ((openSig doc f).certStart d r1 r2 perm).objs.dictAt f = doc.dictAt f := by
    simp only [IDoc.dictAt, hsf]
  have hk : SMap.find? kSigV (((openSig doc f).certStart d r1 r2 perm).objs.dictAt (openSig doc f).field) = some (.ref v.num v.gen) := by
    rw [(openSig_parts doc f).2, hda]; exact h.isRef
  generalize hS : (openSig doc f).certStart d r1 r2 perm = S at *
  have hcd : S.objs.dictAt cat = c := dictAt_eq hsc
  have hce : (S.certEnd cat v perm).objs = (S.objs.putDict cat (SMap.insert kPerms (.dict [(litBytes "DocMDP", .ref v.num v.gen)]) c)).putDict v
      (SMap.insert kSigReference (.arr [.dict (sigRefDict perm)]) (SMap.erase kSigReference d)) := by
    have hval : (({ S with objs := S.objs.putDict cat (SMap.insert kPerms (.dict [(litBytes "DocMDP", .ref v.num v.gen)]) c) } : Sig).value) = some (SMap.erase kSigReference d) := by
      simp only [Sig.value, hsp, putDict_other _ _ _ _ (Ne.symm hcv), hsv, Option.bind_some]
      exact (asDict_iff _ _).2 (withDict_var _ _)
    simp only [Sig.certEnd, hcd, hval, Option.getD_some]
    simp only [Sig.store, hsp]
  have hvS : (S.objs.putDict cat (SMap.insert kPerms (.dict [(litBytes "DocMDP", .ref v.num v.gen)]) c)) v = some (lv.withDict (SMap.erase kSigReference d)) := by
    rw [putDict_other _ _ _ _ (Ne.symm hcv), hsv]
  refine ⟨S.certEnd cat v perm, lv, ?_, hl, hd, ?_, ?_, ?_, ?_, ?_, ?_⟩
  · simp only [Sig.certify, sig_dict h.sig.value, hS, hk]
  · rw [hce, putDict_other _ _ _ _ hvf, putDict_other _ _ _ _ (Ne.symm hcf), hsf]
  · rw [hce, putDict_self _ _ _ _ hvS]
    cases lv <;> rfl
  · rw [hce, putDict_other _ _ _ _ hcv, putDict_self _ _ _ _ hsc]; rfl
  · rw [hce, putDict_other _ _ _ _ (Ne.symm hv1), putDict_other _ _ _ _ (Ne.symm hc1), hs, if_neg h.two, if_pos rfl]
  · rw [hce, putDict_other _ _ _ _ (Ne.symm hv2), putDict_other _ _ _ _ (Ne.symm hc2), hs, if_pos rfl]
  · intro q a b e g
    rw [hce, putDict_other _ _ _ _ a, putDict_other _ _ _ _ b, hs, if_neg g, if_neg e, putDict_other _ _ _ _ a]

theorem sigRefDict_ok (perm : Int) : Spec.CertRef perm (sigRefDict perm) := by
  refine ⟨?_, ?_, ⟨transParams perm, SMap.find_insert_self _ _ _, ?_, SMap.find_insert_self _ _ _, ?_⟩⟩
  · unfold sigRefDict
    rw [SMap.find_insert_ne _ _ (by decide), SMap.find_insert_ne _ _ (by decide)]; rfl
  · unfold sigRefDict
    rw [SMap.find_insert_ne _ _ (by decide)]; exact SMap.find_insert_self _ _ _
  · unfold transParams
    rw [SMap.find_insert_ne _ _ (by decide), SMap.find_insert_ne _ _ (by decide)]; rfl
  · unfold transParams
    rw [SMap.find_insert_ne _ _ (by decide)]; exact SMap.find_insert_self _ _ _

/-- C182.  Certifying a signature whose value is an object of its own: the signature dictionary refers to the method and the permission in place of what it referred to before,
the permissions of the catalog name the signature, and the other entries of both, the field and every other object that was there are unchanged. -/
theorem C182_certify_partial {doc : IDoc} {f v cat r1 r2 : Ref} {d c : FDict} (h : Spec.CertReady doc f v cat r1 r2 d c) (perm : Int) :
    ∃ s' d' c' sr p, (openSig doc f).certify cat r1 r2 perm = (.ok (), s') ∧ Spec.SigValue s'.objs f d' ∧
      SMap.find? (litBytes "Reference") d' = some (.arr [.dict sr]) ∧ Spec.CertRef perm sr ∧ (∀ k, k ≠ litBytes "Reference" → SMap.find? k d' = SMap.find? k d) ∧
      s'.objs cat = some (.plain (.dict c')) ∧ SMap.find? (litBytes "Perms") c' = some (.dict p) ∧ SMap.find? (litBytes "DocMDP") p = some (.ref v.num v.gen) ∧
      (∀ k, k ≠ litBytes "Perms" → SMap.find? k c' = SMap.find? k c) ∧ ∀ q, q ≠ v → q ≠ cat → doc q ≠ none → s'.objs q = doc q := by
  obtain ⟨s', lv, e1, e2, e3, e4, e5, e6, e7, e8, e9⟩ := cert_objs h perm
  refine ⟨s', _, _, _, _, e1, .object v _ ?_ e5 (withDict_var _ _), SMap.find_insert_self _ _ _, sigRefDict_ok perm, ?_, e6, SMap.find_insert_self _ _ _, rfl, ?_, ?_⟩
  · have : s'.objs.dictAt f = doc.dictAt f := by simp only [IDoc.dictAt, e4]
    rw [this]; exact h.isRef
  · intro k hk
    have hk' : k ≠ kSigReference := hk
    rw [SMap.find_insert_ne _ _ hk', SMap.find_erase _ _ h.sig.sorted]
    simp [hk']
  · intro k hk; exact SMap.find_insert_ne _ _ hk
  · intro q a b g
    apply e9 q a b
    · rintro rfl; exact g h.free1
    · rintro rfl; exact g h.free2

/-- C182 is false of the other permissions of the document: whatever else /Perms held, such as usage rights, is lost, always. -/
theorem C182_perms_false {doc : IDoc} {f v cat r1 r2 : Ref} {d c : FDict} (h : Spec.CertReady doc f v cat r1 r2 d c) (perm : Int) (p : FDict)
    (_hp : SMap.find? (litBytes "Perms") c = some (.dict p)) (k : Bytes) (_hk : SMap.find? k p ≠ none) (hne : k ≠ litBytes "DocMDP") :
    ∃ s' c' p', (openSig doc f).certify cat r1 r2 perm = (.ok (), s') ∧ s'.objs cat = some (.plain (.dict c')) ∧ SMap.find? (litBytes "Perms") c' = some (.dict p') ∧
      SMap.find? k p' = none := by
  obtain ⟨s', lv, e1, -, -, -, -, e6, -⟩ := cert_objs h perm
  exact ⟨s', _, _, e1, e6, SMap.find_insert_self _ _ _, by simpa [SMap.find?] using hne⟩

theorem names_dict {r : Ref} {d : FDict} (h : Spec.Names r (.dict d)) : ∃ k v, (k, v) ∈ d ∧ Spec.Names r v := by
  cases h with
  | dict a b => exact ⟨_, _, a, b⟩

theorem names_insert {r : Ref} {k : Bytes} {v : Var} {d : FDict} (h : Spec.Names r (.dict (SMap.insert k v d))) : Spec.Names r v ∨ Spec.Names r (.dict d) := by
  obtain ⟨k', v', h1, h2⟩ := names_dict h
  rcases SMap.mem_insert h1 with e | e
  · injection e with _ e; subst e; exact .inl h2
  · exact .inr (.dict e h2)

theorem not_names_transParams (r : Ref) (perm : Int) : ¬ Spec.Names r (.dict (transParams perm)) := by
  intro h
  rcases names_insert h with c | c
  · cases c
  · rcases names_insert c with c | c
    · cases c
    · obtain ⟨k, v, h1, h2⟩ := names_dict c
      simp only [List.mem_singleton, Prod.mk.injEq] at h1
      rw [h1.2] at h2; cases h2

theorem not_names_sigRef (r : Ref) (perm : Int) : ¬ Spec.Names r (.dict (sigRefDict perm)) := by
  intro h
  rcases names_insert h with c | c
  · exact not_names_transParams r perm c
  · rcases names_insert c with c | c
    · cases c
    · obtain ⟨k, v, h1, h2⟩ := names_dict c
      simp only [List.mem_singleton, Prod.mk.injEq] at h1
      rw [h1.2] at h2; cases h2

/-- C182 is false of the rest of the document: each certification adds two objects that nothing refers to. -/
theorem C182_orphans_false {doc : IDoc} {f v cat r1 r2 : Ref} {d c : FDict} (h : Spec.CertReady doc f v cat r1 r2 d c) (perm : Int)
    (hn : ∀ q l, doc q = some l → ¬ Spec.Names r1 l.var ∧ ¬ Spec.Names r2 l.var) :
    ∃ s', (openSig doc f).certify cat r1 r2 perm = (.ok (), s') ∧ s'.objs r1 ≠ none ∧ s'.objs r2 ≠ none ∧
      ∀ q l, s'.objs q = some l → ¬ Spec.Names r1 l.var ∧ ¬ Spec.Names r2 l.var := by
  obtain ⟨s', lv, e1, e2, e3, e4, e5, e6, e7, e8, e9⟩ := cert_objs h perm
  refine ⟨s', e1, by rw [e7]; simp, by rw [e8]; simp, ?_⟩
  have hval : ∀ r, ¬ Spec.Names r lv.var → ¬ Spec.Names r (.dict (SMap.insert kSigReference (.arr [.dict (sigRefDict perm)]) (SMap.erase kSigReference d))) := by
    intro r hr c
    rcases names_insert c with c | c
    · cases c with
      | arr a b => simp only [List.mem_singleton] at a; subst a; exact not_names_sigRef r perm b
    · obtain ⟨k, w, h1, h2⟩ := names_dict c
      rw [e3] at hr
      exact hr (.dict (SMap.mem_erase h1) h2)
  have hcat : ∀ r, r ≠ v → ¬ Spec.Names r (.dict c) → ¬ Spec.Names r (.dict (SMap.insert kPerms (.dict [(litBytes "DocMDP", .ref v.num v.gen)]) c)) := by
    intro r hv hr cc
    rcases names_insert cc with cc | cc
    · obtain ⟨k, w, h1, h2⟩ := names_dict cc
      simp only [List.mem_singleton, Prod.mk.injEq] at h1
      rw [h1.2] at h2
      have : r.num = v.num ∧ r.gen = v.gen := by
        generalize hw : Var.ref v.num v.gen = w' at h2
        cases h2 with
        | ref => injection hw with a b; exact ⟨a.symm, b.symm⟩
        | arr => cases hw
        | dict => cases hw
      exact hv (by cases r; cases v; simp_all)
    · exact hr cc
  have hv1 : r1 ≠ v := by rintro rfl; rw [h.free1] at e2; cases e2
  have hv2 : r2 ≠ v := by rintro rfl; rw [h.free2] at e2; cases e2
  intro q l hq
  by_cases a : q = v
  · subst a; rw [e5] at hq; cases hq
    rw [withDict_var]
    exact ⟨hval r1 (hn _ _ e2).1, hval r2 (hn _ _ e2).2⟩
  · by_cases b : q = cat
    · subst b; rw [e6] at hq; cases hq
      exact ⟨hcat r1 hv1 (hn _ _ h.catalog).1, hcat r2 hv2 (hn _ _ h.catalog).2⟩
    · by_cases e : q = r1
      · subst e; rw [e7] at hq; cases hq
        exact ⟨not_names_sigRef _ perm, not_names_sigRef _ perm⟩
      · by_cases g : q = r2
        · subst g; rw [e8] at hq; cases hq
          exact ⟨not_names_transParams _ perm, not_names_transParams _ perm⟩
        · rw [e9 q a b e g] at hq
          exact hn q l hq

/-- C182 is false of a value that is a direct dictionary: certifying raises an error, always, and by then what the signature referred to is lost and two objects were added. -/
theorem C182_certify_direct_false {doc : IDoc} {f cat r1 r2 : Ref} {d : FDict} (h : Spec.SigField doc f d) (hd : SMap.find? (litBytes "V") (doc.dictAt f) = some (.dict d))
    (h1 : doc r1 = none) (h2 : doc r2 = none) (perm : Int) :
    ∃ s' d', (openSig doc f).certify cat r1 r2 perm = (raise .InvalidDataType, s') ∧ Spec.SigValue s'.objs f d' ∧ SMap.find? (litBytes "Reference") d' = none ∧
      s'.objs r1 ≠ none ∧ s'.objs r2 ≠ none := by
  obtain ⟨lf, ef, hf1, hf2, -⟩ := h.there
  have hfr1 : f ≠ r1 := by rintro rfl; rw [h1] at hf1; cases hf1
  have hfr2 : f ≠ r2 := by rintro rfl; rw [h2] at hf1; cases hf1
  have ho := openSig_direct hd
  have hs : ∀ q, ((openSig doc f).certStart d r1 r2 perm).objs q =
      if q = r2 then some (.plain (.dict (transParams perm))) else if q = r1 then some (.plain (.dict (sigRefDict perm)))
      else doc.putDict f (SMap.insert kSigV (.dict (SMap.erase kSigReference d)) (doc.dictAt f)) q := by
    intro q; rw [ho]; rfl
  have hsf : ((openSig doc f).certStart d r1 r2 perm).objs.dictAt f = SMap.insert kSigV (.dict (SMap.erase kSigReference d)) (doc.dictAt f) := by
    apply dictAt_var (l := lf.withDict (SMap.insert kSigV (.dict (SMap.erase kSigReference d)) (doc.dictAt f))) _ (withDict_var _ _)
    rw [hs, if_neg hfr2, if_neg hfr1, putDict_self _ _ _ _ hf1]
  have hk : SMap.find? kSigV (((openSig doc f).certStart d r1 r2 perm).objs.dictAt (openSig doc f).field) = some (.dict (SMap.erase kSigReference d)) := by
    rw [(openSig_parts doc f).2, hsf]; exact SMap.find_insert_self _ _ _
  refine ⟨(openSig doc f).certStart d r1 r2 perm, SMap.erase kSigReference d, ?_, .direct ?_, ?_, ?_, ?_⟩
  · simp only [Sig.certify, sig_dict h.value, hk]
  · rw [hsf]; exact SMap.find_insert_self _ _ _
  · have := SMap.find_erase kSigReference kSigReference h.sorted
    rw [if_pos rfl] at this; exact this
  · rw [hs]; split <;> simp
  · rw [hs, if_pos rfl]; simp

/-! ## Examples -/

/-- A field 5 whose value is the object 6, and a catalog 1 with usage rights. -/
def exSigDoc : IDoc := fun q =>
  if q = ⟨1, 0⟩ then some (.plain (.dict [(litBytes "Perms", .dict [(litBytes "UR3", .null)]), (litBytes "Type", .name (litBytes "Catalog"))]))
  else if q = ⟨5, 0⟩ then some (.plain (.dict [(litBytes "FT", .name (litBytes "Sig")), (litBytes "V", .ref 6 0)]))
  else if q = ⟨6, 0⟩ then some (.plain (.dict [(litBytes "Prop_Build", .dict [(litBytes "Filter", .null)]), (litBytes "Reason", .str [65] false)]))
  else if q = ⟨7, 0⟩ then some (.plain (.dict [(litBytes "V", .dict [(litBytes "Reference", .arr [])])]))
  else none

example : Spec.CertReady exSigDoc ⟨5, 0⟩ ⟨6, 0⟩ ⟨1, 0⟩ ⟨8, 0⟩ ⟨9, 0⟩ [(litBytes "Prop_Build", .dict [(litBytes "Filter", .null)]), (litBytes "Reason", .str [65] false)]
    [(litBytes "Perms", .dict [(litBytes "UR3", .null)]), (litBytes "Type", .name (litBytes "Catalog"))] := by
  refine ⟨⟨⟨_, _, rfl, rfl, ?_⟩, .object ⟨6, 0⟩ _ rfl rfl rfl, ?_, ?_⟩, rfl, rfl, by decide, rfl, rfl, by decide⟩
  · simp only [SMap.Sorted]; decide
  · simp only [SMap.Sorted]; decide
  · intro c
    have : SMap.find? (litBytes "V") (exSigDoc.dictAt ⟨5, 0⟩) = some (.ref 6 0) := rfl
    rw [this] at c; cases c

example : Spec.SigField exSigDoc ⟨7, 0⟩ [(litBytes "Reference", .arr [])] ∧ SMap.find? (litBytes "V") (exSigDoc.dictAt ⟨7, 0⟩) = some (.dict [(litBytes "Reference", .arr [])]) := by
  refine ⟨⟨⟨_, _, rfl, rfl, ?_⟩, .direct rfl, ?_, ?_⟩, rfl⟩
  · simp only [SMap.Sorted]; decide
  · simp only [SMap.Sorted]; decide
  · intro c
    have : SMap.find? (litBytes "V") (exSigDoc.dictAt ⟨7, 0⟩) = some (.dict [(litBytes "Reference", .arr [])]) := rfl
    rw [this] at c; cases c

example : ((openSig exSigDoc ⟨5, 0⟩).setText .reason (some ([66], false))).bind (fun s => s.getText .reason) = .ok (some ([66], false)) := by rfl

end Pdfmm
