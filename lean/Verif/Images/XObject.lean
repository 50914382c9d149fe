import Verif.Images.ImageObj
import Verif.Pages.Boxes
import Verif.Syntax.Numbers
set_option autoImplicit false
/-!
# XObjects: their kinds, rectangles, matrices and names

`PdfXObject` and its subclasses: creating them, finding them in a document, their matrix, and the name under which pages use them.  Property C175.
-/
namespace Pdfmm

/-- The key /BBox, `src/pdfmm/base/PdfXObjectForm.cpp:25`. -/
def kBBox : Bytes := litBytes "BBox"
/-- The key /Matrix, `src/pdfmm/base/PdfXObject.cpp:124`. -/
def kMatrix : Bytes := litBytes "Matrix"
/-- The key /Resources, `src/pdfmm/base/PdfXObjectForm.cpp:28`. -/
def kResources : Bytes := litBytes "Resources"

/-- `toString`, `src/pdfmm/base/PdfXObject.cpp:174-187`. -/
def XObjKind.name : XObjKind → Res Bytes
  | .Form => .ok (litBytes "Form")
  | .Image => .ok (litBytes "Image")
  | .PostScript => .ok (litBytes "PS")
  | .Unknown => raise .InvalidDataType

/-- The dictionary of a new XObject, `src/pdfmm/base/PdfXObject.cpp:26-31` and `src/pdfmm/base/PdfIndirectObjectList.cpp:212-226`. -/
def newXObj (k : XObjKind) : Res FDict :=
  k.name.map fun n => SMap.insert (litBytes "Subtype") (.name n) [(litBytes "Type", .name (litBytes "XObject"))]

/-- The dictionary of a new form, `src/pdfmm/base/PdfXObjectForm.cpp:16-20` and `src/pdfmm/base/PdfXObjectForm.cpp:95-114`. -/
def newForm (q : Rect) : Res FDict :=
  (newXObj .Form).map fun d =>
    SMap.insert kMatrix (.arr [.num 1, .num 0, .num 0, .num 1, .num 0, .num 0])
      (SMap.insert (litBytes "FormType") (.num 1) (SMap.insert kBBox (.arr q.toVars) d))

/-- `SetRect`, `src/pdfmm/base/PdfXObjectForm.cpp:55-61`, on the dictionary. -/
def setFormRect (q : Rect) (d : FDict) : FDict := SMap.insert kBBox (.arr q.toVars) d

/-- The XObjects that a document can give: a form with its rectangle, an image with its dimensions, PostScript. -/
inductive XObjVal
  | form (q : Rect)
  | image (w h : Nat)
  | postScript
  deriving DecidableEq

/-- The kind of an XObject, `PdfXObject::GetType`. -/
def XObjVal.kind : XObjVal → XObjKind
  | .form _ => .Form
  | .image _ _ => .Image
  | .postScript => .PostScript

/-- The rectangle of a form, `src/pdfmm/base/PdfXObjectForm.cpp:25-26`; without an entry it is the one without extent, `src/pdfmm/base/PdfRect.cpp:23-26`. -/
def IDoc.formRect (doc : IDoc) (d : FDict) : Res Rect :=
  if SMap.find? kBBox d = none then .ok ⟨0, 0, 0, 0⟩
  else
    match (doc.find d kBBox).map Loaded.var with
    | none => raise .NoObject
    | some (.arr l) => Rect.ofVars l
    | some _ => raise .InvalidDataType

/-- The resources of a form, `src/pdfmm/base/PdfXObjectForm.cpp:28-30` with `src/pdfmm/base/PdfElement.cpp:26-34`. -/
def IDoc.formResources (doc : IDoc) (d : FDict) : Res Unit :=
  match (doc.find d kResources).map Loaded.var with
  | none => .ok ()
  | some (.dict _) => .ok ()
  | some _ => raise .InvalidDataType

/-- `tryCreateFromObject`, `src/pdfmm/base/PdfXObject.cpp:65-109`; `want` is the kind asked for, or `Unknown` for any. -/
def IDoc.tryXObj (doc : IDoc) (want : XObjKind) (v : Var) : Res (Option XObjVal) :=
  match xobjDict v with
  | none => .ok none
  | some d =>
    if want ≠ .Unknown ∧ doc.xtype d ≠ want then .ok none
    else
      match doc.xtype d with
      | .Form => (doc.formRect d).bind fun q => (doc.formResources d).map fun _ => some (.form q)
      | .PostScript => .ok (some .postScript)
      | .Image => (doc.dim d kWidth).bind fun w => (doc.dim d kHeight).map fun h => some (.image w h)
      | .Unknown => .ok none

/-- `GetReal` of an element of an array, `src/pdfmm/base/PdfArray.cpp:245-251` and `src/pdfmm/base/PdfVariant.cpp:567-574`. -/
def realAt (l : List Var) (i : Nat) : Res Rat :=
  match l[i]? with
  | none => raise .ValueOutOfRange
  | some v =>
    match v.toRat? with
    | none => raise .InvalidDataType
    | some q => .ok q

/-- `Matrix::FromArray`, `src/pdfmm/base/PdfMath.cpp:31-34`.  The order in which the arguments are evaluated is not defined: here it is from the first on, which matters only for which of two errors is raised. -/
def Mat.ofVars (l : List Var) : Res Mat :=
  (realAt l 0).bind fun a => (realAt l 1).bind fun b => (realAt l 2).bind fun c =>
    (realAt l 3).bind fun d => (realAt l 4).bind fun e => (realAt l 5).map fun f => ⟨a, b, c, d, e, f⟩

/-- `GetMatrix`, `src/pdfmm/base/PdfXObject.cpp:122-130`: `GetKey` does not follow references. -/
def xobjMatrix (d : FDict) : Res Mat :=
  match SMap.find? kMatrix d with
  | none => .ok Mat.one
  | some (.arr l) => Mat.ofVars l
  | some _ => raise .InvalidDataType

/-- `SetMatrix`, `src/pdfmm/base/PdfXObject.cpp:132-143`. -/
def setXObjMatrix (m : Mat) (d : FDict) : FDict :=
  SMap.insert kMatrix (.arr ([m.a, m.b, m.c, m.d, m.e, m.f].map coordVar)) d

/-- `initIdentifiers`, `src/pdfmm/base/PdfXObject.cpp:160-172`. -/
def xobjId (prefix_ : Bytes) (num : Nat) : Bytes := (if prefix_ = [] then litBytes "XOb" else prefix_) ++ fmtNat num

/-- The name and the resource that `DrawXObject` uses, `src/pdfmm/base/PdfPainter.cpp:807-814`, with `src/pdfmm/base/PdfPainter.cpp:1215-1221` and `src/pdfmm/base/PdfResources.cpp:25-29`: the entry of that name among the XObjects of the page is replaced.  The names drawn are in order. -/
def drawXObj (prefix_ : Bytes) (r : Ref) (page : FDict × List Bytes) : FDict × List Bytes :=
  (SMap.insert (xobjId prefix_ r.num) (.ref r.num r.gen) page.1, page.2 ++ [xobjId prefix_ r.num])

/-! ### Specification -/

/-- An object is an XObject of a kind by the entries /Type and /Subtype of its dictionary (ISO 32000-1, 8.8 to 8.10); both may be references to names. -/
structure Spec.XObjectOf (doc : IDoc) (v : Var) (d : FDict) (subtype : String) : Prop where
  dict : v = .dict d
  type : SMap.find? (litBytes "Type") d = some (.name (litBytes "XObject"))
  subtype : (doc.find d (litBytes "Subtype")).map Loaded.var = some (.name (litBytes subtype))

/-- A request for any kind, or for the given one. -/
def Spec.XObjAsked (want k : XObjKind) : Prop := want = .Unknown ∨ want = k

theorem xobjDict_some {v : Var} {d : FDict} : xobjDict v = some d ↔ v = .dict d ∧ SMap.find? (litBytes "Type") d = some (.name (litBytes "XObject")) := by
  unfold xobjDict
  cases v <;> simp
  rename_i l
  split <;> simp_all
  · rename_i n hn
    by_cases h : n = litBytes "XObject"
    · simp [h]; intro e; subst e; rw [hn, h]
    · simp [h]; intro e; subst e; rw [hn]; simpa using h
  · intro e; subst e; intro h2; simp_all

theorem xtype_cases (doc : IDoc) (d : FDict) (s : String) (k : XObjKind) (hk : (s, k) ∈ [("Form", XObjKind.Form), ("Image", .Image), ("PS", .PostScript)]) :
    doc.xtype d = k ↔ (doc.find d (litBytes "Subtype")).map Loaded.var = some (.name (litBytes s)) := by
  unfold IDoc.xtype xtypeOf
  have h1 : litBytes "Form" ≠ litBytes "Image" := by decide +kernel
  have h2 : litBytes "Form" ≠ litBytes "PS" := by decide +kernel
  have h3 : litBytes "Image" ≠ litBytes "PS" := by decide +kernel
  simp only [List.mem_cons, Prod.mk.injEq, List.not_mem_nil, or_false] at hk
  split
  · rename_i n hn
    rw [hn]
    rcases hk with ⟨rfl, rfl⟩ | ⟨rfl, rfl⟩ | ⟨rfl, rfl⟩ <;> grind
  · rename_i hn
    rcases hk with ⟨rfl, rfl⟩ | ⟨rfl, rfl⟩ | ⟨rfl, rfl⟩ <;> exact ⟨(fun h => by cases h), fun h => absurd h (hn _)⟩

/-- C175: what is given out as a form, an image or PostScript is an object of that kind, and of the kind that was asked for. -/
theorem C175_kind (doc : IDoc) (want : XObjKind) (v : Var) (x : XObjVal) (h : doc.tryXObj want v = .ok (some x)) :
    Spec.XObjAsked want x.kind ∧ ∃ d, match x with
      | .form _ => Spec.XObjectOf doc v d "Form"
      | .image _ _ => Spec.XObjectOf doc v d "Image"
      | .postScript => Spec.XObjectOf doc v d "PS" := by
  unfold IDoc.tryXObj at h
  cases hx : xobjDict v with
  | none => simp [hx] at h
  | some d =>
    obtain ⟨e1, e2⟩ := xobjDict_some.1 hx
    simp only [hx] at h
    split at h
    · simp at h
    · rename_i hw
      unfold Spec.XObjAsked
      cases ht : doc.xtype d with
      | Unknown => simp [ht] at h
      | PostScript =>
        simp [ht] at h; subst h
        exact ⟨by simp [XObjVal.kind]; simp [ht] at hw; grind, d, e1, e2, (xtype_cases doc d "PS" .PostScript (by simp)).1 ht⟩
      | Form =>
        simp [ht] at h
        cases hr : doc.formRect d with
        | error e => simp [hr, Except.bind] at h
        | ok q =>
          cases hs : doc.formResources d with
          | error e => simp [hr, hs, Except.bind, Except.map] at h
          | ok u =>
            simp [hr, hs, Except.bind, Except.map] at h; subst h
            exact ⟨by simp [XObjVal.kind]; simp [ht] at hw; grind, d, e1, e2, (xtype_cases doc d "Form" .Form (by simp)).1 ht⟩
      | Image =>
        simp [ht] at h
        cases hr : doc.dim d kWidth with
        | error e => simp [hr, Except.bind] at h
        | ok q =>
          cases hs : doc.dim d kHeight with
          | error e => simp [hr, hs, Except.bind, Except.map] at h
          | ok u =>
            simp [hr, hs, Except.bind, Except.map] at h; subst h
            exact ⟨by simp [XObjVal.kind]; simp [ht] at hw; grind, d, e1, e2, (xtype_cases doc d "Image" .Image (by simp)).1 ht⟩

/-- C175: every PostScript XObject is found, and every form whose rectangle is an array of four numbers (or is not there) and whose resources are a dictionary (or are not there), with that rectangle, also by reference. -/
theorem C175_found_partial (doc : IDoc) (want : XObjKind) (v : Var) (d : FDict) :
    (Spec.XObjectOf doc v d "PS" → Spec.XObjAsked want .PostScript → doc.tryXObj want v = .ok (some .postScript)) ∧
    (∀ x1 y1 x2 y2 : Rat, ∀ a b c e : Var, Spec.XObjectOf doc v d "Form" → Spec.XObjAsked want .Form →
      (doc.find d kBBox).map Loaded.var = some (.arr [a, b, c, e]) → a.toRat? = some x1 → b.toRat? = some y1 → c.toRat? = some x2 → e.toRat? = some y2 →
      (doc.find d kResources = none ∨ ∃ rd, (doc.find d kResources).map Loaded.var = some (.dict rd)) →
      doc.tryXObj want v = .ok (some (.form (Rect.fromCorners x1 y1 x2 y2)))) ∧
    (∀ w h : Nat, w < 4294967296 → h < 4294967296 → Spec.XObjectOf doc v d "Image" → Spec.XObjAsked want .Image →
      doc.find d kWidth = some (.plain (.num w)) → doc.find d kHeight = some (.plain (.num h)) →
      doc.tryXObj want v = .ok (some (.image w h))) := by
  unfold Spec.XObjAsked
  refine ⟨?_, ?_, ?_⟩
  · rintro ⟨e1, e2, e3⟩ hw
    have hk := (xtype_cases doc d "PS" .PostScript (by simp)).2 e3
    unfold IDoc.tryXObj
    rw [xobjDict_some.2 ⟨e1, e2⟩]
    simp only [hk]
    rw [if_neg (by grind)]
  · rintro x1 y1 x2 y2 a b c e ⟨e1, e2, e3⟩ hw hb ha hb' hc he hr
    have hk := (xtype_cases doc d "Form" .Form (by simp)).2 e3
    unfold IDoc.tryXObj
    rw [xobjDict_some.2 ⟨e1, e2⟩]
    simp only [hk]
    rw [if_neg (by grind)]
    have h1 : doc.formRect d = .ok (Rect.fromCorners x1 y1 x2 y2) := by
      unfold IDoc.formRect
      rw [if_neg, hb]
      · simp [Rect.ofVars, ha, hb', hc, he]
      · intro hn; simp [IDoc.find, hn] at hb
    have h2 : doc.formResources d = .ok () := by
      unfold IDoc.formResources
      rcases hr with hr | ⟨rd, hr⟩ <;> rw [hr] <;> rfl
    simp [h1, h2, Except.bind, Except.map]
  · rintro w h hw hh ⟨e1, e2, e3⟩ hwant h1 h2
    have hk := (xtype_cases doc d "Image" .Image (by simp)).2 e3
    unfold IDoc.tryXObj
    rw [xobjDict_some.2 ⟨e1, e2⟩]
    simp only [hk]
    rw [if_neg (by grind)]
    have d1 : doc.dim d kWidth = .ok w := by
      simp only [IDoc.dim, h1, Option.map, Loaded.var]; congr 1; omega
    have d2 : doc.dim d kHeight = .ok h := by
      simp only [IDoc.dim, h2, Option.map, Loaded.var]; congr 1; omega
    simp [d1, d2, Except.bind, Except.map]

/-- C175: a new form is found again with its rectangle, in every document, and so it is after `SetRect`. -/
theorem C175_new_form (doc : IDoc) (want : XObjKind) (hw : Spec.XObjAsked want .Form) (q q' : Rect) (hd : Spec.Doubles q) (hp : Spec.Proper q) (hd' : Spec.Doubles q') (hp' : Spec.Proper q') :
    ∃ d, newForm q = .ok d ∧ doc.tryXObj want (.dict d) = .ok (some (.form q)) ∧ xobjMatrix d = .ok Mat.one
      ∧ doc.tryXObj want (.dict (setFormRect q' d)) = .ok (some (.form q')) := by
  have key : ∀ (q : Rect), Spec.Doubles q → Spec.Proper q → ∀ l : FDict, SMap.find? (litBytes "Type") l = some (.name (litBytes "XObject")) →
      SMap.find? (litBytes "Subtype") l = some (.name (litBytes "Form")) → SMap.find? kBBox l = some (.arr q.toVars) → SMap.find? kResources l = none →
      doc.tryXObj want (.dict l) = .ok (some (.form q)) := by
    intro q hd hp l h1 h2 h3 h4
    have hk : doc.xtype l = .Form := by simp [IDoc.xtype, IDoc.find, h2, Loaded.var, xtypeOf]
    unfold IDoc.tryXObj
    rw [xobjDict_some.2 ⟨rfl, h1⟩]
    simp only [hk]
    unfold Spec.XObjAsked at hw
    rw [if_neg (by grind)]
    simp [IDoc.formRect, IDoc.formResources, IDoc.find, h3, h4, Loaded.var, ofVars_toVars q hd hp, Except.bind, Except.map]
  have n1 : kMatrix ≠ litBytes "Type" := by decide +kernel
  have n2 : kMatrix ≠ litBytes "Subtype" := by decide +kernel
  have n3 : kMatrix ≠ kBBox := by decide +kernel
  have n4 : kMatrix ≠ kResources := by decide +kernel
  have n5 : litBytes "FormType" ≠ litBytes "Type" := by decide +kernel
  have n6 : litBytes "FormType" ≠ litBytes "Subtype" := by decide +kernel
  have n7 : litBytes "FormType" ≠ kBBox := by decide +kernel
  have n8 : litBytes "FormType" ≠ kResources := by decide +kernel
  have n9 : kBBox ≠ litBytes "Type" := by decide +kernel
  have n10 : kBBox ≠ litBytes "Subtype" := by decide +kernel
  have n11 : kBBox ≠ kResources := by decide +kernel
  have n12 : litBytes "Subtype" ≠ litBytes "Type" := by decide +kernel
  have n13 : litBytes "Subtype" ≠ kResources := by decide +kernel
  have n14 : litBytes "Type" ≠ kResources := by decide +kernel
  refine ⟨_, rfl, ?_, ?_, ?_⟩
  · apply key q hd hp <;>
      simp only [SMap.find_insert_self, SMap.find_insert_ne, ne_eq, n1, n2, n3, n4, n5, n6, n7, n8, n9, n10, n11, n12, n13, n14, not_false_eq_true, Ne.symm, SMap.find?] <;> simp [*, SMap.find?]
  · simp only [xobjMatrix, SMap.find_insert_self]; decide +kernel
  · unfold setFormRect
    apply key q' hd' hp' <;>
      simp only [SMap.find_insert_self, SMap.find_insert_ne, ne_eq, n1, n2, n3, n4, n5, n6, n7, n8, n9, n10, n11, n12, n13, n14, not_false_eq_true, Ne.symm, SMap.find?] <;> simp [*, SMap.find?]

example : Spec.Doubles ⟨0, 0, 100, 50⟩ ∧ Spec.Proper ⟨0, 0, 100, 50⟩ := by
  refine ⟨⟨Spec.Double.int 0, Spec.Double.int 0, Spec.Double.int 100, Spec.Double.int 50⟩, by unfold Spec.Proper; decide⟩

/-- Asking for a new image raises: "try" does not mean that it does not. -/
theorem C175_new_image_false (doc : IDoc) : ∃ d, newXObj .Image = .ok d ∧ Spec.XObjectOf doc (.dict d) d "Image" ∧ doc.tryXObj .Unknown (.dict d) = raise .NoObject := by
  refine ⟨_, rfl, ⟨rfl, rfl, rfl⟩, rfl⟩

/-- So does a form whose rectangle is malformed, whatever else is asked of it. -/
theorem C175_bad_box_false (doc : IDoc) (v : Var) (d : FDict) (l : List Var) (hx : Spec.XObjectOf doc v d "Form") (hb : (doc.find d kBBox).map Loaded.var = some (.arr l)) (hl : l.length ≠ 4) :
    doc.tryXObj .Unknown v = raise .ValueOutOfRange := by
  obtain ⟨e1, e2, e3⟩ := hx
  have hk := (xtype_cases doc d "Form" .Form (by simp)).2 e3
  unfold IDoc.tryXObj
  rw [xobjDict_some.2 ⟨e1, e2⟩]
  simp only [hk]
  rw [if_neg (by simp)]
  have h1 : doc.formRect d = raise .ValueOutOfRange := by
    unfold IDoc.formRect
    rw [if_neg, hb]
    · simp only [Rect.ofVars]
      split
      · simp at hl
      · rfl
    · intro hn; simp [IDoc.find, hn] at hb
  simp [h1, Except.bind, raise]

/-- XObjects without /Type, which the format allows, are not found, and neither are those whose /Type is a reference. -/
theorem C175_untyped_false (doc : IDoc) (want : XObjKind) (d : FDict) (h : SMap.find? (litBytes "Type") d = none ∨ ∃ n g, SMap.find? (litBytes "Type") d = some (.ref n g)) :
    doc.tryXObj want (.dict d) = .ok none := by
  have : xobjDict (.dict d) = none := by
    unfold xobjDict
    rcases h with h | ⟨n, g, h⟩ <;> simp [h]
  simp [IDoc.tryXObj, this]

/-- An image is decoded as if its mask were not there when that has no /Type. -/
theorem C175_untyped_mask_false (flate : Filt) (doc : IDoc) (im : ImObj) (r : Ref) (o : StObj) (h1 : SMap.find? kSMask im.obj.dict = some (.ref r.num r.gen))
    (h2 : doc r = some (.stream o)) (h3 : SMap.find? (litBytes "Type") o.dict = none) : im.mask flate doc = .ok none := by
  have h2' : doc { num := r.num, gen := r.gen } = some (.stream o) := h2
  have : xobjDict (.dict o.dict) = none := by simp [xobjDict, h3]
  simp [ImObj.mask, IDoc.find, h1, h2', IDoc.tryImage, Loaded.var, this, Except.bind]

/-! ### Matrices -/

/-- C175: a matrix is the one that was set, of any doubles, and nothing else changes; without one it is the identity. -/
theorem C175_matrix_partial (m : Mat) (d : FDict) (hm : ∀ q ∈ [m.a, m.b, m.c, m.d, m.e, m.f], Spec.Double q) :
    xobjMatrix (setXObjMatrix m d) = .ok m ∧ (∀ k, k ≠ litBytes "Matrix" → SMap.find? k (setXObjMatrix m d) = SMap.find? k d)
      ∧ (SMap.find? (litBytes "Matrix") d = none → xobjMatrix d = .ok ⟨1, 0, 0, 1, 0, 0⟩) := by
  refine ⟨?_, fun k hk => SMap.find_insert_ne _ _ (show k ≠ kMatrix from hk), ?_⟩
  · have h : ∀ q ∈ [m.a, m.b, m.c, m.d, m.e, m.f], (coordVar q).toRat? = some q := fun q hq => coordVar_exact q (hm q hq)
    simp only [List.mem_cons, List.not_mem_nil, or_false, forall_eq_or_imp, forall_eq] at h
    simp [xobjMatrix, setXObjMatrix, SMap.find_insert_self, Mat.ofVars, realAt, h, Except.bind, Except.map]
  · intro h
    have h' : SMap.find? kMatrix d = none := h
    simp [xobjMatrix, h', Mat.one]

example : ∀ q ∈ ([1, 0, 0, 1, 10, 20] : List Rat), Spec.Double q := by
  simp only [List.mem_cons, List.not_mem_nil, or_false, forall_eq_or_imp, forall_eq]
  exact ⟨Spec.Double.int 1, Spec.Double.int 0, Spec.Double.int 0, Spec.Double.int 1, Spec.Double.int 10, Spec.Double.int 20⟩

/-- A matrix that is an object of its own is not read: the call raises. -/
theorem C175_matrix_ref_false (d : FDict) (n g : Nat) (h : SMap.find? kMatrix d = some (.ref n g)) : xobjMatrix d = raise .InvalidDataType := by
  simp [xobjMatrix, h]

/-- Numbers after the sixth are ignored, fewer raise. -/
theorem C175_matrix_length (d : FDict) (l : List Var) (h : SMap.find? kMatrix d = some (.arr l)) :
    (∀ m, xobjMatrix d = .ok m → 6 ≤ l.length ∧ Mat.ofVars (l.take 6) = .ok m) := by
  intro m hm
  simp only [xobjMatrix, h] at hm
  have hl : 6 ≤ l.length := by
    apply Nat.le_of_not_lt
    intro hlt
    have : realAt l 5 = raise .ValueOutOfRange := by
      unfold realAt
      rw [List.getElem?_eq_none (by omega)]
    unfold Mat.ofVars at hm
    rw [this] at hm
    cases h0 : realAt l 0 <;> simp [h0, Except.bind] at hm
    cases h1 : realAt l 1 <;> simp [h1, Except.bind] at hm
    cases h2 : realAt l 2 <;> simp [h2, Except.bind] at hm
    cases h3 : realAt l 3 <;> simp [h3, Except.bind] at hm
    cases h4 : realAt l 4 <;> simp [h4, Except.bind, Except.map, raise] at hm
  refine ⟨hl, ?_⟩
  have hr : ∀ i, i < 6 → realAt (l.take 6) i = realAt l i := by
    intro i hi; unfold realAt; rw [List.getElem?_take_of_lt hi]
  unfold Mat.ofVars
  rw [hr 0 (by omega), hr 1 (by omega), hr 2 (by omega), hr 3 (by omega), hr 4 (by omega), hr 5 (by omega)]
  exact hm

/-! ### Names -/

theorem fmtNat_inj {a b : Nat} (h : fmtNat a = fmtNat b) : a = b := by
  have h1 := natDigitsAux_val a a (Nat.le_refl _)
  have h2 := natDigitsAux_val b b (Nat.le_refl _)
  unfold fmtNat at h
  rw [h] at h1; omega

/-- Pages on which things were drawn: the entry of each name drawn, in order. -/
def Spec.Uses (page : FDict × List Bytes) : List (Option Var) := page.2.map fun n => SMap.find? n page.1

/-- C175: drawing objects with different numbers and one prefix, each draws what it was given. -/
theorem C175_names_distinct_partial (p : Bytes) (rs : List Ref) (hd : ∀ a ∈ rs, ∀ b ∈ rs, a.num = b.num → a = b) (page : FDict) :
    Spec.Uses (rs.foldl (fun pg r => drawXObj p r pg) (page, [])) = rs.map fun r => some (.ref r.num r.gen) := by
  have hinj : ∀ a b, xobjId p a = xobjId p b → a = b := by
    intro a b h; unfold xobjId at h; exact fmtNat_inj (List.append_cancel_left h)
  have gen : ∀ (rs done : List Ref) (pg : FDict), (∀ a ∈ done ++ rs, ∀ b ∈ done ++ rs, a.num = b.num → a = b) →
      (∀ r ∈ done, SMap.find? (xobjId p r.num) pg = some (.ref r.num r.gen)) →
      Spec.Uses (rs.foldl (fun pg r => drawXObj p r pg) (pg, done.map fun r => xobjId p r.num)) = (done ++ rs).map fun r => some (.ref r.num r.gen) := by
    intro rs
    induction rs with
    | nil =>
      intro done pg _ hdn
      simp only [List.foldl_nil, Spec.Uses, List.map_map, List.append_nil]
      apply List.map_congr_left
      intro r hr; exact hdn r hr
    | cons r rs ih =>
      intro done pg hne hdn
      have := ih (done ++ [r]) (SMap.insert (xobjId p r.num) (.ref r.num r.gen) pg) (by simpa using hne) ?_
      · simpa [drawXObj] using this
      · intro a ha
        rcases List.mem_append.1 ha with ha | ha
        · by_cases e : a.num = r.num
          · have : a = r := hne a (by simp [ha]) r (by simp) e
            subst this; exact SMap.find_insert_self ..
          · rw [SMap.find_insert_ne _ _ (fun h => e (hinj _ _ h))]; exact hdn a ha
        · simp at ha; subst ha; exact SMap.find_insert_self ..
  simpa using gen rs [] page (by simpa using hd) (by simp)

example : ∀ a ∈ [(⟨1, 0⟩ : Ref), ⟨12, 0⟩], ∀ b ∈ [(⟨1, 0⟩ : Ref), ⟨12, 0⟩], a.num = b.num → a = b := by decide

theorem natDigitsAux_fuel (f : Nat) : ∀ g n, n ≤ f → n ≤ g → natDigitsAux f n = natDigitsAux g n := by
  induction f with
  | zero =>
    intro g n h1 _
    have : n = 0 := by omega
    subst this
    cases g <;> simp [natDigitsAux]
  | succ f ih =>
    intro g n h1 h2
    cases g with
    | zero =>
      have : n = 0 := by omega
      subst this
      simp [natDigitsAux]
    | succ g =>
      simp only [natDigitsAux]
      split
      · rfl
      · rw [ih g (n / 10) (by omega) (by omega)]

theorem fmtNat_step {n : Nat} (h : 10 ≤ n) : fmtNat n = fmtNat (n / 10) ++ fmtNat (n % 10) := by
  unfold fmtNat
  obtain ⟨m, rfl⟩ : ∃ m, n = m + 1 := ⟨n - 1, by omega⟩
  have h9 : natDigitsAux ((m + 1) % 10) ((m + 1) % 10) = [digitChar ((m + 1) % 10)] := by
    cases hm : (m + 1) % 10 with
    | zero => rfl
    | succ k => simp only [natDigitsAux]; rw [if_pos (by omega)]
  rw [natDigitsAux, if_neg (by omega), h9, natDigitsAux_fuel m ((m + 1) / 10) _ (by omega) (by omega)]

/-- With prefixes that end in digits two objects get one name, and drawing both draws the second one twice. -/
theorem C175_names_false (p : Bytes) (hp : p ≠ []) (a b : Ref) (hb : 10 ≤ b.num) (ha : a.num = b.num % 10) (page : FDict) :
    Spec.Uses (drawXObj p b (drawXObj (p ++ fmtNat (b.num / 10)) a (page, []))) = [some (.ref b.num b.gen), some (.ref b.num b.gen)] := by
  have e : xobjId (p ++ fmtNat (b.num / 10)) a.num = xobjId p b.num := by
    unfold xobjId
    rw [if_neg (by simp [hp]), if_neg hp, ha, fmtNat_step hb, List.append_assoc]
  simp [Spec.Uses, drawXObj, e, SMap.find_insert_self]

example : (10 : Nat) ≤ 12 ∧ 2 = 12 % 10 ∧ litBytes "Im" ++ fmtNat (12 / 10) = litBytes "Im1" := by decide +kernel

end Pdfmm
