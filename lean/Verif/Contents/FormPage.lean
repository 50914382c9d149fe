import Verif.Pages.Boxes
import Verif.Streams.Canvas
/-
C164: a form filled from a page.
-/
set_option autoImplicit false
namespace Pdfmm

/-! ### The frame -/

/-- The cosine of a multiple of 90 degrees.  The code computes it from doubles; that it is not exact there is left out. -/
def quarterCos (n : Int) : Rat := if n % 360 = 0 then 1 else if n % 360 = 180 then -1 else 0

/-- The sine of a multiple of 90 degrees. -/
def quarterSin (n : Int) : Rat := if n % 360 = 90 then 1 else if n % 360 = 270 then -1 else 0

/-- The correction of negative rotations, `src/pdfmm/base/PdfXObjectForm.cpp:122-125`. -/
def formTurn (rot : Int) : Int := if rot < 0 then 360 + rot else rot

/-- The rectangle that the form remembers, `src/pdfmm/base/PdfXObjectForm.cpp:127-147`. -/
def formRect (rot : Int) (q : Rect) : Rect :=
  if formTurn rot = 90 ∨ formTurn rot = 270 then ⟨q.bottom, q.left, q.height, q.width⟩ else q

/-- The matrix, `src/pdfmm/base/PdfXObjectForm.cpp:149-191`.  Rotations are multiples of 90 degrees, as PDF requires. -/
def formMatrix (rot : Int) (q : Rect) : Mat :=
  let r := formRect rot q
  let alpha := -formTurn rot
  let e := if formTurn rot = 180 ∨ formTurn rot = 270 then r.left + r.width else -r.left
  let f := if formTurn rot = 90 ∨ formTurn rot = 180 then r.bottom + r.height else -r.bottom
  ⟨quarterCos alpha, quarterSin alpha, -quarterSin alpha, quarterCos alpha, e, f⟩

/-- The bounding box, `src/pdfmm/base/PdfXObjectForm.cpp:118-120`: written before the rectangle is changed. -/
def formBBox (q : Rect) : List Rat := q.toArray

/-- A point turned clockwise around the origin by quarters of a turn. -/
def Spec.turned : Nat → V2 → V2
  | 0, v => v
  | n + 1, v => ⟨(Spec.turned n v).y, -(Spec.turned n v).x⟩

/-- How many quarters of a turn a rotation is. -/
def Spec.quarters (rot : Int) : Nat := (rot / 90 % 4).toNat

/-- The frame of a page as it is shown: upright or on its side. -/
def Spec.shownAt (rot : Int) (q : Rect) : Rect := if rot % 180 = 0 then ⟨0, 0, q.width, q.height⟩ else ⟨0, 0, q.height, q.width⟩

theorem turns {rot : Int} (hm : rot % 90 = 0) (h : rot % 360 = 0 ∨ (-360 ≤ rot ∧ rot ≤ 270)) :
    rot % 360 = 0 ∨ rot = 90 ∨ rot = 180 ∨ rot = 270 ∨ rot = -90 ∨ rot = -180 ∨ rot = -270 := by omega

theorem formMatrix_upright (rot : Int) (q : Rect) (h : rot % 360 = 0) : formMatrix rot q = ⟨1, 0, 0, 1, -q.left, -q.bottom⟩ := by
  have h1 : formTurn rot % 360 = 0 := by rw [formTurn]; split <;> omega
  have h2 : (-formTurn rot) % 360 = 0 := by omega
  have e1 : formRect rot q = q := by rw [formRect, if_neg (by omega)]
  have n1 : ¬ (formTurn rot = 180 ∨ formTurn rot = 270) := by omega
  have n2 : ¬ (formTurn rot = 90 ∨ formTurn rot = 180) := by omega
  simp only [formMatrix, e1, quarterCos, quarterSin, h2, n1, n2]
  simp

/-- C164, `_partial`: the matrix of the form turns the page clockwise by its rotation, and puts its frame with a corner at the origin: a point is within the bounding
box exactly when its image is within the frame of the page as it is shown.  This is for every box, and for rotations of full turns, or from -360 to 270 degrees. -/
theorem C164_matrix_partial (rot : Int) (q : Rect) (hm : rot % 90 = 0) (h : rot % 360 = 0 ∨ (-360 ≤ rot ∧ rot ≤ 270)) :
    (∃ t : V2, ∀ v : V2, v.mul (formMatrix rot q) = (Spec.turned (Spec.quarters rot) v).add t) ∧
    (∀ v : V2, Spec.In q v.x v.y ↔ Spec.In (Spec.shownAt rot q) (v.mul (formMatrix rot q)).x (v.mul (formMatrix rot q)).y) := by
  obtain ⟨l, b, w, hh⟩ := q
  have ht := turns hm h
  clear hm h
  suffices key : (∀ v : V2, v.mul (formMatrix rot ⟨l, b, w, hh⟩) =
      (Spec.turned (Spec.quarters rot) v).add ⟨(formMatrix rot ⟨l, b, w, hh⟩).e, (formMatrix rot ⟨l, b, w, hh⟩).f⟩) ∧
      (∀ v : V2, Spec.In ⟨l, b, w, hh⟩ v.x v.y ↔
        Spec.In (Spec.shownAt rot ⟨l, b, w, hh⟩) (v.mul (formMatrix rot ⟨l, b, w, hh⟩)).x (v.mul (formMatrix rot ⟨l, b, w, hh⟩)).y) from ⟨⟨_, key.1⟩, key.2⟩
  rcases ht with h0 | rfl | rfl | rfl | rfl | rfl | rfl
  · rw [formMatrix_upright rot _ h0]
    have e1 : Spec.quarters rot = 0 := by rw [Spec.quarters]; omega
    have e2 : rot % 180 = 0 := by omega
    constructor
    · intro v
      rw [e1]
      simp only [V2.mul, Spec.turned, V2.add, V2.mk.injEq]
      constructor <;> grind
    · intro v
      rw [Spec.shownAt, if_pos e2]
      simp only [Spec.In, Rect.right, Rect.top, V2.mul]
      constructor <;> (intro h; refine ⟨?_, ?_, ?_, ?_⟩ <;> grind)
  all_goals
    constructor
    · intro v
      simp [V2.mul, formMatrix, formTurn, quarterCos, quarterSin, Spec.turned, Spec.quarters, V2.add]
      constructor <;> grind
    · intro v
      simp [Spec.shownAt, Spec.In, Rect.right, Rect.top, V2.mul, formMatrix, formTurn, formRect, quarterCos, quarterSin]
      constructor <;> (intro h; refine ⟨?_, ?_, ?_, ?_⟩ <;> grind)

/-- C164: rotations that are more than one full turn away, like 450 degrees, are not put in place: for every page with a corner at the origin, points of the page are left or
below of the frame. -/
theorem C164_matrix_false (rot : Int) (w h : Rat) (hw : 0 < w) (hh : 0 < h) (hm : rot % 90 = 0) (h0 : rot % 360 ≠ 0) (hr : rot < -360 ∨ 270 < rot) :
    ∃ v : V2, Spec.In ⟨0, 0, w, h⟩ v.x v.y ∧ ((v.mul (formMatrix rot ⟨0, 0, w, h⟩)).x < 0 ∨ (v.mul (formMatrix rot ⟨0, 0, w, h⟩)).y < 0) := by
  have e1 : formTurn rot % 360 = rot % 360 ∧ (formTurn rot < 0 ∨ 270 < formTurn rot) := by rw [formTurn]; split <;> omega
  obtain ⟨e1, e2⟩ := e1
  have hR : formRect rot ⟨0, 0, w, h⟩ = ⟨0, 0, w, h⟩ := by rw [formRect, if_neg (by omega)]
  have hM : formMatrix rot ⟨0, 0, w, h⟩ = ⟨quarterCos (-formTurn rot), quarterSin (-formTurn rot), -quarterSin (-formTurn rot), quarterCos (-formTurn rot), 0, 0⟩ := by
    simp only [formMatrix, hR]
    rw [if_neg (by omega), if_neg (by omega)]
    simp
  rw [hM]
  have h3 : rot % 360 = 90 ∨ rot % 360 = 180 ∨ rot % 360 = 270 := by omega
  have inside : ∀ x y : Rat, 0 ≤ x → x ≤ w → 0 ≤ y → y ≤ h → Spec.In ⟨0, 0, w, h⟩ x y := by
    intro x y a b c d
    simp only [Spec.In, Rect.right, Rect.top]
    refine ⟨a, ?_, c, ?_⟩ <;> grind
  rcases h3 with h3 | h3 | h3
  · have e : (-formTurn rot) % 360 = 270 := by omega
    refine ⟨⟨w, 0⟩, inside _ _ (by grind) (by grind) (by grind) (by grind), Or.inr ?_⟩
    simp [V2.mul, quarterCos, quarterSin, e]; grind
  · have e : (-formTurn rot) % 360 = 180 := by omega
    refine ⟨⟨w, 0⟩, inside _ _ (by grind) (by grind) (by grind) (by grind), Or.inl ?_⟩
    simp [V2.mul, quarterCos, quarterSin, e]; grind
  · have e : (-formTurn rot) % 360 = 90 := by omega
    refine ⟨⟨0, h⟩, inside _ _ (by grind) (by grind) (by grind) (by grind), Or.inl ?_⟩
    simp [V2.mul, quarterCos, quarterSin, e]; grind

/-- C164: the bounding box that is written is read back as the box of the page, whatever the rotation; but on its side the form itself tells another one, unless the box
is a square with its corner on the diagonal. -/
theorem C164_rect_false (rot : Int) (q : Rect) (hq : Spec.Proper q) :
    Rect.fromArray (formBBox q) = .ok q ∧
    ((rot = 90 ∨ rot = 270 ∨ rot = -90 ∨ rot = -270) → (formRect rot q = q ↔ q.left = q.bottom ∧ q.width = q.height)) := by
  refine ⟨C154_array_partial q hq, ?_⟩
  intro h
  have e : formTurn rot = 90 ∨ formTurn rot = 270 := by rw [formTurn]; split <;> omega
  rw [formRect, if_pos e]
  obtain ⟨l, b, w, hh⟩ := q
  simp only [Rect.mk.injEq]
  constructor
  · rintro ⟨a, b, c, d⟩; exact ⟨b, d⟩
  · rintro ⟨a, b⟩; exact ⟨a.symm, a, b.symm, b⟩

/-! ### The box -/

/-- The box of `FillXObjectFromPage`, `src/pdfmm/base/PdfDocument.cpp:361-368`. -/
def FDoc.formBox (h : FDoc) (stack : Nat) (r : Ref) (trim : Bool) : Res Rect :=
  (h.getBox stack r .media).bind fun m => (h.getBox stack r .crop).bind fun c =>
    if trim then (h.getBox stack r .trim).bind fun t => .ok ((m.intersect c).intersect t) else .ok (m.intersect c)

/-- C164: the box of the form has the points that are in the media box and in the crop box, and in the trim box when this is asked for. -/
theorem C164_box (h : FDoc) (stack : Nat) (r : Ref) (trim : Bool) (m c t q : Rect) (hm : h.getBox stack r .media = .ok m) (hc : h.getBox stack r .crop = .ok c)
    (ht : h.getBox stack r .trim = .ok t) (hc0 : c ≠ ⟨0, 0, 0, 0⟩) (ht0 : t ≠ ⟨0, 0, 0, 0⟩) (hq : h.formBox stack r trim = .ok q) (x y : Rat) :
    Spec.In q x y ↔ Spec.In m x y ∧ Spec.In c x y ∧ (trim = true → Spec.In t x y) := by
  have e : q = if trim then (m.intersect c).intersect t else m.intersect c := by
    rw [FDoc.formBox, hm, hc, ht] at hq
    simp only [Except.bind] at hq
    split at hq <;> rename_i h' <;> simp only [h', if_true, if_false, Bool.false_eq_true] <;> exact (Except.ok.inj hq).symm
  rw [e]
  cases trim with
  | true =>
    rw [if_pos rfl, ← contains_iff, C154_intersect_partial _ _ ht0, C154_intersect_partial _ _ hc0, contains_iff, contains_iff, contains_iff, and_assoc]
    simp
  | false =>
    rw [if_neg (by decide), ← contains_iff, C154_intersect_partial _ _ hc0, contains_iff, contains_iff]
    simp

/-! ### The contents -/

/-- An element of the array `/Contents` in the document: a reference to a stream (with its decoded data), to nothing, to objects that refer to each other without an end, to an
object without stream, or an object that is no reference (with its text). -/
inductive PageChild
  | stream (data : Bytes)
  | missing
  | loop
  | plain
  | direct (text : Bytes)

/-- The loop over the array in `FillXObjectFromPage`, `src/pdfmm/base/PdfDocument.cpp:387-423`: the data the form gets. -/
def formText : List PageChild → Res Bytes
  | [] => .ok []
  | .stream b :: l => (formText l).map fun r => b ++ r
  | .missing :: l => formText l
  | .loop :: _ => .error .diverge
  | .plain :: _ => raise .InvalidStream
  | .direct t :: l => (formText l).map fun r => t ++ [32] ++ r

/-- What the page itself delivers (C86): its streams, with a line feed between them. -/
def Spec.pageDelivers (l : List Bytes) : Bytes := Spec.joined (l.map some)

theorem formText_streams : ∀ l : List Bytes, formText (l.map PageChild.stream) = .ok l.flatten
  | [] => rfl
  | b :: l => by rw [List.map_cons, formText, formText_streams l]; rfl

theorem joined_length : ∀ l : List Bytes, (∀ b ∈ l, b ≠ []) → l ≠ [] → (Spec.pageDelivers l).length + 1 = l.flatten.length + l.length := by
  intro l hl hn
  have e : Spec.nonEmpty (l.map some) = l := by
    rw [Spec.nonEmpty]
    clear hn
    induction l with
    | nil => rfl
    | cons b l ih =>
      have hb := hl b (List.mem_cons_self ..)
      cases b with
      | nil => exact absurd rfl hb
      | cons x t => simp only [List.map_cons, List.filterMap_cons]; rw [ih fun c hc => hl c (List.mem_cons_of_mem _ hc)]
  rw [Spec.pageDelivers, Spec.joined, e]
  clear e hl
  induction l with
  | nil => exact absurd rfl hn
  | cons b l ih =>
    cases l with
    | nil => simp
    | cons c l =>
      have := ih (by simp)
      rw [List.intercalate_cons_cons]
      simp only [List.length_append, List.length_cons, List.length_nil, List.flatten_cons] at this ⊢
      omega

/-- C164, `_partial`: a form filled from a page with one stream, or none, has the text of the page. -/
theorem C164_contents_partial (b : Bytes) : formText [.stream b] = .ok (Spec.pageDelivers [b]) ∧ formText [] = .ok (Spec.pageDelivers []) := by
  refine ⟨?_, rfl⟩
  cases b with
  | nil => rfl
  | cons x t => rw [formText, formText]; simp [Spec.pageDelivers, Spec.joined, Spec.nonEmpty, Except.map, List.intercalate]

/-- C164: a form filled from a page with two or more streams gets them without anything between them, so that it never has the text of the page: what ends one stream and what
begins the next run together. -/
theorem C164_contents_false (l : List Bytes) (h : ∀ b ∈ l, b ≠ []) (h2 : 2 ≤ l.length) :
    formText (l.map PageChild.stream) = .ok l.flatten ∧ l.flatten ≠ Spec.pageDelivers l := by
  refine ⟨formText_streams l, fun e => ?_⟩
  have := joined_length l h (by intro e; rw [e] at h2; simp at h2)
  rw [← e] at this
  omega

/-- C164: filling a form does not end when an element of the array refers to objects that refer to each other. -/
theorem C164_loop_false (l m : List PageChild) (h : ∀ c ∈ l, c ≠ .plain) : formText (l ++ .loop :: m) = .error .diverge := by
  induction l with
  | nil => rfl
  | cons c l ih =>
    have e := ih fun x hx => h x (List.mem_cons_of_mem _ hx)
    rw [List.cons_append]
    cases c with
    | stream b => rw [formText, e]; rfl
    | missing => rw [formText, e]
    | loop => rfl
    | plain => exact absurd rfl (h _ (List.mem_cons_self ..))
    | direct t => rw [formText, e]; rfl

/-! ### The resources -/

def keyResources : Bytes := asciiB "Resources"

/-- `GetProcSet`, `src/pdfmm/base/PdfCanvas.cpp:70-79`. -/
def procSet : Var := .arr ((["PDF", "Text", "ImageB", "ImageC", "ImageI"].map fun s => Var.name (asciiB s)))

/-- The dictionary of `PdfResources(PdfDictionary&)`, `src/pdfmm/base/PdfResources.cpp:19-23`. -/
def newResources : Var := .dict [(asciiB "ProcSet", procSet)]

/-- The resources in `FillXObjectFromPage`, `src/pdfmm/base/PdfDocument.cpp:370-372`, for a page of the same document. -/
def FDoc.fillResources (h : FDoc) (form page : Ref) : FDoc := match SMap.find? keyResources (h.dict page) with
  | some v => h.addKey form keyResources v
  | none => h

/-- `GetOrCreateResources` of a form that has no resources object yet, `src/pdfmm/base/PdfXObjectForm.cpp:40-47`: the entry is made anew. -/
def FDoc.formResources (h : FDoc) (form : Ref) : FDoc := h.addKey form keyResources newResources

/-- C164, `_partial`: a form gets the resources the page has itself. -/
theorem C164_resources_partial (h : FDoc) (form page : Ref) (v : Var) (hp : SMap.find? keyResources (h.dict page) = some v) :
    SMap.find? keyResources ((h.fillResources form page).dict form) = some v ∧ ∀ r, r ≠ form → h.fillResources form page r = h r := by
  rw [FDoc.fillResources, hp]
  refine ⟨?_, fun r hr => ?_⟩
  · show SMap.find? keyResources ((h.addKey form keyResources v).dict form) = some v
    rw [addKey_dict, if_pos rfl, SMap.find_insert_self]
  · show h.addKey form keyResources v r = h r
    rw [FDoc.addKey, FDoc.set, if_neg hr]

/-- C164: resources that the page inherits are not given to the form, although the contents that are copied use them. -/
theorem C164_inherited_false (h : FDoc) (form page parent : Ref) (v : Var) (stack : Nat)
    (hp : SMap.find? keyResources (h.dict page) = none) (hq : SMap.find? keyParent (h.dict page) = some (.ref parent.num parent.gen))
    (hpd : h parent = some (.dict (h.dict parent))) (hv : h.findKey (h.dict parent) keyResources = some v) :
    h.findKeyParent keyResources (stack + 2) (h.dict page) = .ok (some v) ∧ h.fillResources form page = h := by
  constructor
  · rw [FDoc.findKeyParent, show h.findKey (h.dict page) keyResources = none by rw [FDoc.findKey, hp],
      show h.findKey (h.dict page) keyParent = some (.dict (h.dict parent)) by rw [FDoc.findKey, hq]; exact hpd]
    simp only [FDoc.findKeyParent, hv]
  · rw [FDoc.fillResources, hp]

/-- C164: the first thing that is drawn on a new form after filling it from a page takes all resources of the page away, although the contents use them. -/
theorem C164_draw_false (h : FDoc) (form page : Ref) (v : Var) (hp : SMap.find? keyResources (h.dict page) = some v) :
    SMap.find? keyResources ((h.fillResources form page).dict form) = some v ∧
    SMap.find? keyResources (((h.fillResources form page).formResources form).dict form) = some newResources := by
  refine ⟨(C164_resources_partial h form page v hp).1, ?_⟩
  rw [FDoc.formResources, addKey_dict, if_pos rfl, SMap.find_insert_self]

/-! ### Witnesses -/

example : formMatrix 90 ⟨10, 20, 300, 400⟩ = ⟨0, -1, 1, 0, -20, 310⟩ := by decide +kernel
example : V2.mul ⟨10, 20⟩ (formMatrix 90 ⟨10, 20, 300, 400⟩) = ⟨0, 300⟩ ∧ V2.mul ⟨310, 420⟩ (formMatrix 90 ⟨10, 20, 300, 400⟩) = ⟨400, 0⟩ := by decide +kernel
example : (-90 : Int) % 90 = 0 ∧ (-360 : Int) ≤ -90 ∧ (450 : Int) % 90 = 0 ∧ (450 : Int) % 360 ≠ 0 ∧ (270 : Int) < 450 := by decide
example : formText [.stream (asciiB "q"), .stream (asciiB "Q")] = .ok (asciiB "qQ") ∧ Spec.pageDelivers [asciiB "q", asciiB "Q"] = asciiB "q\nQ" := by decide

end Pdfmm
