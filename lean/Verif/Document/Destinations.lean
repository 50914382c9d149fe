import Verif.Util.Geometry
import Verif.Objects.Refs
import Verif.Fonts.CMapModel
/-
C163: destinations and actions of outline items and links.
-/
set_option autoImplicit false
namespace Pdfmm

/-- An element of a destination's array, `src/pdfmm/base/PdfVariant.h`: a reference, a name, a number, null, or anything else.  Numbers are exact here. -/
inductive DestVal
  | ref (r : Ref)
  | name (n : Bytes)
  | num (x : Rat)
  | null
  | other
  deriving DecidableEq

/-- A destination is an array, `src/pdfmm/base/PdfDestination.h:51`. -/
abbrev Dest := List DestVal

/-- `enum class PdfDestinationFit`, `src/pdfmm/base/PdfDestination.h:18-27`. -/
inductive DestFit
  | Unknown | Fit | FitH | FitV | FitB | FitBH | FitBV
  deriving DecidableEq

/-- `enum class PdfDestinationType`, `src/pdfmm/base/PdfDestination.h:33-44`. -/
inductive DestType
  | Unknown | XYZ | Fit | FitH | FitV | FitR | FitB | FitBH | FitBV
  deriving DecidableEq

/-- `arr[i]`, `PdfArray::getAt`, `src/pdfmm/base/PdfArray.cpp:245-251`: the index is checked. -/
def Dest.elem (d : Dest) (i : Nat) : Res DestVal := match d[i]? with
  | some v => .ok v
  | none => raise .ValueOutOfRange

/-- `PdfVariant::GetReal`, `src/pdfmm/base/PdfVariant.cpp:567-574`, on an element: references are not followed. -/
def DestVal.real : DestVal → Res Rat
  | .num x => .ok x
  | _ => raise .InvalidDataType

/-- `PdfVariant::GetName`, `src/pdfmm/base/PdfVariant.cpp:653-660`. -/
def DestVal.nameOf : DestVal → Res Bytes
  | .name n => .ok n
  | _ => raise .InvalidDataType

/-- `PdfVariant::GetReference`, `src/pdfmm/base/PdfVariant.cpp:692-699`. -/
def DestVal.refOf : DestVal → Res Ref
  | .ref r => .ok r
  | _ => raise .InvalidDataType

/-- A destination with a page and a fit, `src/pdfmm/base/PdfDestination.cpp:29-41`: for all other fits the name stays empty. -/
def destFit (p : Ref) (f : DestFit) : Dest :=
  [.ref p, .name (if f = .Fit then asciiB "Fit" else if f = .FitB then asciiB "FitB" else [])]

/-- A destination with a rectangle, `src/pdfmm/base/PdfDestination.cpp:43-53`. -/
def destRect (p : Ref) (r : Rect) : Dest := [.ref p, .name (asciiB "FitR")] ++ r.toArray.map .num

/-- A destination with a corner and a zoom, `src/pdfmm/base/PdfDestination.cpp:55-64`. -/
def destXYZ (p : Ref) (left top zoom : Rat) : Dest := [.ref p, .name (asciiB "XYZ"), .num left, .num top, .num zoom]

/-- A destination with a fit and a value, `src/pdfmm/base/PdfDestination.cpp:66-85`. -/
def destValue (p : Ref) (f : DestFit) (v : Rat) : Res Dest :=
  if f = .FitH then .ok [.ref p, .name (asciiB "FitH"), .num v]
  else if f = .FitV then .ok [.ref p, .name (asciiB "FitV"), .num v]
  else if f = .FitBH then .ok [.ref p, .name (asciiB "FitBH"), .num v]
  else if f = .FitBV then .ok [.ref p, .name (asciiB "FitBV"), .num v]
  else raise .InvalidKey

/-- The comparisons of `GetType`, `src/pdfmm/base/PdfDestination.cpp:177-194`. -/
def destTypeOf (n : Bytes) : DestType :=
  if n = asciiB "XYZ" then .XYZ else if n = asciiB "Fit" then .Fit else if n = asciiB "FitH" then .FitH else if n = asciiB "FitV" then .FitV
  else if n = asciiB "FitR" then .FitR else if n = asciiB "FitB" then .FitB else if n = asciiB "FitBH" then .FitBH else if n = asciiB "FitBV" then .FitBV
  else .Unknown

/-- `PdfDestination::GetType`, `src/pdfmm/base/PdfDestination.cpp:170-195`. -/
def Dest.type (d : Dest) : Res DestType :=
  if d.length = 0 then .ok .Unknown else (d.elem 1).bind fun v => v.nameOf.bind fun n => .ok (destTypeOf n)

/-- `PdfDestination::GetPage`, `src/pdfmm/base/PdfDestination.cpp:160-168`: the reference that the page is looked up with. -/
def Dest.page (d : Dest) : Res (Option Ref) := if d.length = 0 then .ok none else (d.elem 0).bind fun v => v.refOf.map some

/-- `GetArray()[i].GetReal()`. -/
def Dest.realAt (d : Dest) (i : Nat) : Res Rat := (d.elem i).bind DestVal.real

/-- `PdfDestination::GetDValue`, `src/pdfmm/base/PdfDestination.cpp:197-208`. -/
def Dest.dValue (d : Dest) : Res Rat :=
  d.type.bind fun t => if t ≠ .FitH ∧ t ≠ .FitV ∧ t ≠ .FitBH then raise .WrongDestinationType else d.realAt 2

/-- `PdfDestination::GetLeft`, `src/pdfmm/base/PdfDestination.cpp:210-221`. -/
def Dest.left (d : Dest) : Res Rat :=
  d.type.bind fun t => if t ≠ .FitV ∧ t ≠ .XYZ ∧ t ≠ .FitR then raise .WrongDestinationType else d.realAt 2

/-- `PdfDestination::GetRect`, `src/pdfmm/base/PdfDestination.cpp:223-231`: the third and fourth numbers become the width and the height. -/
def Dest.rect (d : Dest) : Res Rect :=
  d.type.bind fun t => if t ≠ .FitR then raise .WrongDestinationType
    else (d.realAt 2).bind fun a => (d.realAt 3).bind fun b => (d.realAt 4).bind fun w => (d.realAt 5).bind fun h => .ok ⟨a, b, w, h⟩

/-- `PdfDestination::GetTop`, `src/pdfmm/base/PdfDestination.cpp:233-256`. -/
def Dest.top (d : Dest) : Res Rat :=
  d.type.bind fun t => match t with
    | .XYZ => d.realAt 3
    | .FitH => d.realAt 2
    | .FitBH => d.realAt 2
    | .FitR => d.realAt 5
    | _ => raise .WrongDestinationType

/-- `PdfDestination::GetZoom`, `src/pdfmm/base/PdfDestination.cpp:258-264`. -/
def Dest.zoom (d : Dest) : Res Rat := d.type.bind fun t => if t ≠ .XYZ then raise .WrongDestinationType else d.realAt 4

/-! ### What is read back -/

/-- The views of the PDF standard (ISO 32000-1, table 151); a coordinate that is left out keeps the viewer's. -/
inductive Spec.View
  | xyz (left top zoom : Option Rat)
  | fit
  | fitH (top : Option Rat)
  | fitV (left : Option Rat)
  | fitR (left bottom right top : Rat)
  | fitB
  | fitBH (top : Option Rat)
  | fitBV (left : Option Rat)

/-- A coordinate that is left out is written as null. -/
def Spec.coordinate : Option Rat → DestVal
  | some x => .num x
  | none => .null

/-- The array the standard gives to a view of a page. -/
def Spec.destArray (p : Ref) : Spec.View → Dest
  | .xyz l t z => [.ref p, .name (asciiB "XYZ"), Spec.coordinate l, Spec.coordinate t, Spec.coordinate z]
  | .fit => [.ref p, .name (asciiB "Fit")]
  | .fitH t => [.ref p, .name (asciiB "FitH"), Spec.coordinate t]
  | .fitV l => [.ref p, .name (asciiB "FitV"), Spec.coordinate l]
  | .fitR l b r t => [.ref p, .name (asciiB "FitR"), .num l, .num b, .num r, .num t]
  | .fitB => [.ref p, .name (asciiB "FitB")]
  | .fitBH t => [.ref p, .name (asciiB "FitBH"), Spec.coordinate t]
  | .fitBV l => [.ref p, .name (asciiB "FitBV"), Spec.coordinate l]

/-- The kind of a view. -/
def Spec.kindOf : Spec.View → DestType
  | .xyz _ _ _ => .XYZ
  | .fit => .Fit
  | .fitH _ => .FitH
  | .fitV _ => .FitV
  | .fitR _ _ _ _ => .FitR
  | .fitB => .FitB
  | .fitBH _ => .FitBH
  | .fitBV _ => .FitBV

/-- The left coordinate of a view that has one. -/
def Spec.leftOf : Spec.View → Option (Option Rat)
  | .xyz l _ _ => some l
  | .fitV l => some l
  | .fitR l _ _ _ => some (some l)
  | .fitBV l => some l
  | _ => none

/-- The top coordinate of a view that has one. -/
def Spec.topOf : Spec.View → Option (Option Rat)
  | .xyz _ t _ => some t
  | .fitH t => some t
  | .fitR _ _ _ t => some (some t)
  | .fitBH t => some t
  | _ => none

/-- The zoom of a view that has one. -/
def Spec.zoomOf : Spec.View → Option (Option Rat)
  | .xyz _ _ z => some z
  | _ => none

/-- The value of a view that has exactly one. -/
def Spec.viewValue : Spec.View → Option (Option Rat)
  | .fitH v => some v
  | .fitV v => some v
  | .fitBH v => some v
  | .fitBV v => some v
  | _ => none

/-- C163: every way of making a destination writes the array the standard gives to it. -/
theorem C163_written (p : Ref) (l t z v : Rat) (r : Rect) :
    destXYZ p l t z = Spec.destArray p (.xyz (some l) (some t) (some z)) ∧ destFit p .Fit = Spec.destArray p .fit ∧ destFit p .FitB = Spec.destArray p .fitB ∧
    destRect p r = Spec.destArray p (.fitR r.left r.bottom r.right r.top) ∧ destValue p .FitH v = .ok (Spec.destArray p (.fitH (some v))) ∧
    destValue p .FitV v = .ok (Spec.destArray p (.fitV (some v))) ∧ destValue p .FitBH v = .ok (Spec.destArray p (.fitBH (some v))) ∧
    destValue p .FitBV v = .ok (Spec.destArray p (.fitBV (some v))) ∧ (∀ f, f ∈ [DestFit.Unknown, .Fit, .FitB] → destValue p f v = raise .InvalidKey) := by
  refine ⟨rfl, rfl, rfl, ?_, rfl, rfl, rfl, rfl, ?_⟩
  · simp only [destRect, Rect.toArray, Spec.destArray, Rect.right, Rect.top, List.map, List.cons_append, List.nil_append, Rat.add_comm]
  · intro f hf
    simp only [List.mem_cons, List.not_mem_nil, or_false] at hf
    rcases hf with rfl | rfl | rfl <;> rfl

/-- C163: without a value, a fit that needs one is taken without an error, and gives a destination of no kind. -/
theorem C163_fit_false (p : Ref) (f : DestFit) (h : f ≠ .Fit ∧ f ≠ .FitB) : (destFit p f).type = .ok .Unknown ∧ ∀ v, destFit p f ≠ Spec.destArray p v := by
  have e : destFit p f = [.ref p, .name []] := by rw [destFit, if_neg h.1, if_neg h.2]
  rw [e]
  refine ⟨rfl, fun v hv => ?_⟩
  cases v <;> simp [Spec.destArray] at hv <;> exact absurd hv (by decide)

/-- C163: page and kind are those of the array, for every array of the standard. -/
theorem C163_kind (p : Ref) (v : Spec.View) : (Spec.destArray p v).type = .ok (Spec.kindOf v) ∧ (Spec.destArray p v).page = .ok (some p) := by
  cases v <;> exact ⟨rfl, rfl⟩

theorem bind_type (p : Ref) (v : Spec.View) {α : Type} (f : DestType → Res α) : (Spec.destArray p v).type.bind f = f (Spec.kindOf v) := by
  rw [(C163_kind p v).1]; rfl

/-- C163, `_partial`: the left coordinate is that of the view, when it is given and the view is not `FitBV`; views without one are refused. -/
theorem C163_left_partial (p : Ref) (v : Spec.View) :
    (∀ x, Spec.leftOf v = some (some x) → Spec.kindOf v ≠ .FitBV → (Spec.destArray p v).left = .ok x) ∧
    (Spec.leftOf v = none → (Spec.destArray p v).left = raise .WrongDestinationType) := by
  constructor
  · intro x h hk
    rw [Dest.left, bind_type]
    cases v <;> simp [Spec.leftOf] at h
    · subst h; rfl
    · subst h; rfl
    · subst h; rfl
    · exact absurd rfl hk
  · intro h
    rw [Dest.left, bind_type]
    cases v <;> first | rfl | (simp [Spec.leftOf] at h)

/-- C163: the top coordinate is that of the view, when it is given; views without one are refused. -/
theorem C163_top_partial (p : Ref) (v : Spec.View) :
    (∀ x, Spec.topOf v = some (some x) → (Spec.destArray p v).top = .ok x) ∧ (Spec.topOf v = none → (Spec.destArray p v).top = raise .WrongDestinationType) := by
  constructor
  · intro x h
    rw [Dest.top, bind_type]
    cases v <;> simp [Spec.topOf] at h <;> subst h <;> rfl
  · intro h
    rw [Dest.top, bind_type]
    cases v <;> first | rfl | (simp [Spec.topOf] at h)

/-- C163: the zoom is that of the view, when it is given; views without one are refused. -/
theorem C163_zoom_partial (p : Ref) (v : Spec.View) :
    (∀ x, Spec.zoomOf v = some (some x) → (Spec.destArray p v).zoom = .ok x) ∧ (Spec.zoomOf v = none → (Spec.destArray p v).zoom = raise .WrongDestinationType) := by
  constructor
  · intro x h
    rw [Dest.zoom, bind_type]
    cases v <;> simp [Spec.zoomOf] at h <;> subst h <;> rfl
  · intro h
    rw [Dest.zoom, bind_type]
    cases v <;> first | rfl | (simp [Spec.zoomOf] at h)

/-- C163, `_partial`: the single value is that of the view, when it is given and the view is not `FitBV`; views without one are refused. -/
theorem C163_value_partial (p : Ref) (v : Spec.View) :
    (∀ x, Spec.viewValue v = some (some x) → Spec.kindOf v ≠ .FitBV → (Spec.destArray p v).dValue = .ok x) ∧
    (Spec.viewValue v = none → (Spec.destArray p v).dValue = raise .WrongDestinationType) := by
  constructor
  · intro x h hk
    rw [Dest.dValue, bind_type]
    cases v <;> simp [Spec.viewValue] at h
    · subst h; rfl
    · subst h; rfl
    · subst h; rfl
    · exact absurd rfl hk
  · intro h
    rw [Dest.dValue, bind_type]
    cases v <;> first | rfl | (simp [Spec.viewValue] at h)

/-- C163: the value of a `FitBV` destination is delivered by none of the functions, although the library writes it. -/
theorem C163_fitbv_false (p : Ref) (l : Option Rat) :
    (Spec.destArray p (.fitBV l)).left = raise .WrongDestinationType ∧ (Spec.destArray p (.fitBV l)).dValue = raise .WrongDestinationType ∧
    (Spec.destArray p (.fitBV l)).top = raise .WrongDestinationType := ⟨rfl, rfl, rfl⟩

/-- C163: a coordinate left out, as the standard allows and as is common, is an error when asked for. -/
theorem C163_null_false (p : Ref) (l t z : Option Rat) :
    (l = none → (Spec.destArray p (.xyz l t z)).left = raise .InvalidDataType) ∧ (t = none → (Spec.destArray p (.xyz l t z)).top = raise .InvalidDataType) ∧
    (z = none → (Spec.destArray p (.xyz l t z)).zoom = raise .InvalidDataType) := by
  refine ⟨?_, ?_, ?_⟩ <;> (intro h; subst h; rfl)

/-- C163: the rectangle of a destination has the left and the bottom side of the one that was given, but its right and top side as width and height. -/
theorem C163_rect_false (p : Ref) (r : Rect) :
    (destRect p r).rect = .ok ⟨r.left, r.bottom, r.right, r.top⟩ ∧ ((destRect p r).rect = .ok r ↔ r.left = 0 ∧ r.bottom = 0) := by
  have e : (destRect p r).rect = .ok ⟨r.left, r.bottom, r.right, r.top⟩ := by
    rw [(C163_written p 0 0 0 0 r).2.2.2.1, Dest.rect, bind_type]
    rfl
  refine ⟨e, ?_⟩
  rw [e]
  obtain ⟨a, b, w, h⟩ := r
  simp only [Rect.right, Rect.top, Except.ok.injEq, Rect.mk.injEq, true_and]
  constructor
  · rintro ⟨h1, h2⟩; constructor <;> grind
  · rintro ⟨h1, h2⟩; constructor <;> grind

/-- C163: whatever is in the array, asking for the kind, the page or a coordinate gives an answer or an error of the library. -/
theorem C163_safe (d : Dest) :
    (∀ e, d.type = .error e → ∃ c, e = .error c) ∧ (∀ e, d.page = .error e → ∃ c, e = .error c) ∧ (∀ e, d.left = .error e → ∃ c, e = .error c) ∧
    (∀ e, d.top = .error e → ∃ c, e = .error c) ∧ (∀ e, d.zoom = .error e → ∃ c, e = .error c) ∧ (∀ e, d.dValue = .error e → ∃ c, e = .error c) ∧
    (∀ e, d.rect = .error e → ∃ c, e = .error c) := by
  have bindSafe : ∀ {α β : Type} (x : Res α) (f : α → Res β), (∀ e, x = .error e → ∃ c, e = .error c) → (∀ a e, f a = .error e → ∃ c, e = .error c) →
      ∀ e, x.bind f = .error e → ∃ c, e = .error c := by
    intro α β x f hx hf e h
    cases x with
    | error e' => exact hx e (by simpa [Except.bind] using h)
    | ok a => exact hf a e h
  have okSafe : ∀ {α : Type} (a : α) e, (Except.ok a : Res α) = .error e → ∃ c, e = .error c := fun a e h => nomatch h
  have raiseSafe : ∀ {α : Type} (c : ErrorCode) e, (raise c : Res α) = .error e → ∃ c, e = .error c := by
    intro α c e h; cases h; exact ⟨c, rfl⟩
  have elemSafe : ∀ i e, d.elem i = .error e → ∃ c, e = .error c := by
    intro i e h
    rw [Dest.elem] at h
    split at h
    · cases h
    · cases h; exact ⟨_, rfl⟩
  have real : ∀ (v : DestVal) e, v.real = .error e → ∃ c, e = .error c := by
    intro v e h; cases v <;> cases h <;> exact ⟨_, rfl⟩
  have name : ∀ (v : DestVal) e, v.nameOf = .error e → ∃ c, e = .error c := by
    intro v e h; cases v <;> cases h <;> exact ⟨_, rfl⟩
  have at' : ∀ i e, d.realAt i = .error e → ∃ c, e = .error c := fun i => bindSafe _ _ (elemSafe i) real
  have type : ∀ e, d.type = .error e → ∃ c, e = .error c := by
    intro e h
    rw [Dest.type] at h
    split at h
    · cases h
    · exact bindSafe _ _ (elemSafe 1) (fun v => bindSafe _ _ (name v) (fun n => okSafe _)) e h
  have ite : ∀ {α : Type} (c : Prop) [Decidable c] (x : Res α) (k : ErrorCode), (∀ e, x = .error e → ∃ c, e = .error c) →
      ∀ e, (if c then raise k else x) = .error e → ∃ c, e = .error c := by
    intro α c _ x k hx e h
    split at h
    · exact raiseSafe k e h
    · exact hx e h
  refine ⟨type, ?_, bindSafe _ _ type fun t => ite _ _ _ (at' 2), bindSafe _ _ type ?_, bindSafe _ _ type fun t => ite _ _ _ (at' 4),
    bindSafe _ _ type fun t => ite _ _ _ (at' 2), bindSafe _ _ type fun t => ite _ _ _ ?_⟩
  · intro e h
    rw [Dest.page] at h
    split at h
    · cases h
    · refine bindSafe _ _ (elemSafe 0) (fun v e h => ?_) e h
      cases v <;> cases h <;> exact ⟨_, rfl⟩
  · intro t e h
    cases t <;> first | exact at' _ e h | exact raiseSafe _ e h
  · exact bindSafe _ _ (at' 2) fun a => bindSafe _ _ (at' 3) fun b => bindSafe _ _ (at' 4) fun w => bindSafe _ _ (at' 5) fun h => okSafe _

/-! ### Named destinations -/

/-- What a destination is made from, and what a name stands for: an array, a string, a name, a dictionary with its entry `/D` (missing, not an array, or an array),
or anything else. -/
inductive DestObj
  | arr (d : Dest)
  | str (s : Bytes)
  | name (n : Bytes)
  | dict (d : Option (Option Dest))
  | other

/-- `PdfDestination(PdfObject&)`, `src/pdfmm/base/PdfDestination.cpp:24-27`, with `src/pdfmm/base/PdfElement.cpp:26-34`: only arrays. -/
def DestObj.direct : DestObj → Res Dest
  | .arr d => .ok d
  | _ => raise .InvalidDataType

/-- The end of `Create`, `src/pdfmm/base/PdfDestination.cpp:128-143`. -/
def DestObj.target : Option DestObj → Res Dest
  | none => raise .InvalidName
  | some (.arr d) => .ok d
  | some (.dict none) => raise .NoObject
  | some (.dict (some none)) => raise .InvalidDataType
  | some (.dict (some (some d))) => .ok d
  | some _ => raise .InvalidDataType

/-- The two places of a document that give names to destinations: the tree `/Dests` of the names, when the document has names, and the dictionary `/Dests` of the
catalog, when there is one.  Looking a key up in them is C49 and `FindKey`.  A `/Dests` entry in the catalog that is not a dictionary is left out. -/
structure DNames where
  tree : Option (Bytes → Option DestObj)
  old : Option (Bytes → Option DestObj)

/-- `PdfDestination::Create`, `src/pdfmm/base/PdfDestination.cpp:87-144`, in a document that is read or made in memory. -/
def DNames.create (n : DNames) : DestObj → Res Dest
  | .arr d => .ok d
  | .str s => match n.tree with
    | none => raise .NoObject
    | some f => DestObj.target (f s)
  | .name k => match n.old with
    | none => raise .InvalidKey
    | some f => DestObj.target (f k)
  | _ => raise .InvalidDataType

/-- What a name stands for, by the standard: an array, or the array in the dictionary's entry `/D`. -/
def Spec.StandsFor (o : DestObj) (d : Dest) : Prop := o = .arr d ∨ o = .dict (some (some d))

/-- C163: a destination is found exactly when it is an array, or a string or name that stands for an array in the place for strings or for names. -/
theorem C163_named (n : DNames) (o : DestObj) (d : Dest) :
    n.create o = .ok d ↔ o = .arr d ∨ (∃ s f v, o = .str s ∧ n.tree = some f ∧ f s = some v ∧ Spec.StandsFor v d) ∨
      (∃ k f v, o = .name k ∧ n.old = some f ∧ f k = some v ∧ Spec.StandsFor v d) := by
  have target : ∀ x, DestObj.target x = .ok d ↔ ∃ v, x = some v ∧ Spec.StandsFor v d := by
    intro x
    unfold DestObj.target
    split <;> simp_all [Spec.StandsFor, raise]
  cases o with
  | arr d' => simp [DNames.create]
  | str s =>
    rw [DNames.create]
    cases h : n.tree with
    | none => simp
    | some f => simp [target]
  | name k =>
    rw [DNames.create]
    cases h : n.old with
    | none => simp
    | some f => simp [target]
  | dict x => simp [DNames.create]
  | other => simp [DNames.create]

/-! ### Items with a destination or an action -/

/-- An outline item or a link: the entries `/Dest` and `/A` of its dictionary, and what the item itself remembers. -/
structure LinkItem where
  dest : Option DestObj
  act : Option Bytes
  destMem : Option Dest
  actMem : Option Bytes

/-- `PdfOutlineItem::SetDestination`, `src/pdfmm/base/PdfOutlines.cpp:250-254`, and `PdfAnnotationLink::SetDestination`,
`src/pdfmm/base/PdfAnnotation_Types.cpp:16-20`, with `AddToDictionary`, `src/pdfmm/base/PdfDestination.cpp:146-158`. -/
def LinkItem.setDest (i : LinkItem) (d : Dest) : Res LinkItem :=
  if d.length = 0 then .ok { i with destMem := some d }
  else if i.act.isSome then raise .ActionAlreadyPresent
  else .ok { i with dest := some (.arr d), destMem := some d }

/-- `PdfOutlineItem::SetAction`, `src/pdfmm/base/PdfOutlines.cpp:275-279`, with `AddToDictionary`, `src/pdfmm/base/PdfAction.cpp:85-93`.  An action is the bytes of
its dictionary here. -/
def LinkItem.setAct (i : LinkItem) (a : Bytes) : Res LinkItem :=
  if i.dest.isSome then raise .ActionAlreadyPresent else .ok { i with act := some a, actMem := some a }

/-- `PdfAnnotationActionBase::SetAction`, `src/pdfmm/base/PdfAnnotationActionBase.cpp:25-29`, of a link: a destination is not looked for. -/
def LinkItem.setActLink (i : LinkItem) (a : Bytes) : LinkItem := { i with act := some a, actMem := some a }

/-- `PdfOutlineItem::getDestination`, `src/pdfmm/base/PdfOutlines.cpp:261-273`. -/
def LinkItem.getDest (i : LinkItem) (n : DNames) : Res (Option Dest) := match i.destMem, i.dest with
  | some d, _ => .ok (some d)
  | none, none => .ok none
  | none, some o => (n.create o).map some

/-- `PdfAnnotationLink::getDestination`, `src/pdfmm/base/PdfAnnotation_Types.cpp:27-39`. -/
def LinkItem.getDestLink (i : LinkItem) : Res (Option Dest) := match i.destMem, i.dest with
  | some d, _ => .ok (some d)
  | none, none => .ok none
  | none, some o => o.direct.map some

/-- An item as it is after loading: nothing is remembered. -/
def LinkItem.loaded (i : LinkItem) : LinkItem := { i with destMem := none, actMem := none }

/-- What is done to an outline item. -/
inductive LinkOp
  | dest (d : Dest)
  | act (a : Bytes)

/-- One call; one that is refused leaves the item as it was. -/
def LinkItem.step (i : LinkItem) : LinkOp → LinkItem
  | .dest d => (i.setDest d).toOption.getD i
  | .act a => (i.setAct a).toOption.getD i

/-- The dictionary has at most one of the two. -/
def Spec.AtMostOne (i : LinkItem) : Prop := i.dest = none ∨ i.act = none

/-- C163: whatever is done to an outline item, its dictionary never has both a destination and an action, when it did not at the start; and an entry that is there is
never lost or changed into the other. -/
theorem C163_exclusive (ops : List LinkOp) : ∀ i : LinkItem, Spec.AtMostOne i →
    Spec.AtMostOne (ops.foldl LinkItem.step i) ∧ (i.dest.isSome → (ops.foldl LinkItem.step i).dest.isSome) ∧ (i.act.isSome → (ops.foldl LinkItem.step i).act.isSome) := by
  induction ops with
  | nil => exact fun i h => ⟨h, id, id⟩
  | cons o ops ih =>
    intro i h
    have key : Spec.AtMostOne (i.step o) ∧ (i.dest.isSome → (i.step o).dest.isSome) ∧ (i.act.isSome → (i.step o).act.isSome) := by
      cases o with
      | dest d =>
        simp only [LinkItem.step, LinkItem.setDest]
        split
        · exact ⟨h, id, id⟩
        · split
          · exact ⟨h, id, id⟩
          · rename_i hn
            exact ⟨Or.inr (show i.act = none by simpa using hn), fun _ => rfl, id⟩
      | act a =>
        simp only [LinkItem.step, LinkItem.setAct]
        split
        · exact ⟨h, id, id⟩
        · rename_i hn
          exact ⟨Or.inl (show i.dest = none by simpa using hn), id, fun _ => rfl⟩
    obtain ⟨h1, h2, h3⟩ := ih (i.step o) key.1
    exact ⟨h1, h2 ∘ key.2.1, h3 ∘ key.2.2⟩

/-- C163: a destination that is set is read back, at once and after loading; it is refused exactly when there is an action.  The destination has elements. -/
theorem C163_set (i : LinkItem) (n : DNames) (d : Dest) (h : d ≠ []) :
    (i.act.isSome → i.setDest d = raise .ActionAlreadyPresent) ∧
    (i.act = none → ∃ j, i.setDest d = .ok j ∧ j.dest = some (.arr d) ∧ j.act = none ∧ j.getDest n = .ok (some d) ∧ j.loaded.getDest n = .ok (some d) ∧
      j.getDestLink = .ok (some d) ∧ j.loaded.getDestLink = .ok (some d)) := by
  have hl : ¬ d.length = 0 := by simpa using h
  constructor
  · intro ha
    rw [LinkItem.setDest, if_neg hl, if_pos ha]
  · intro ha
    refine ⟨{ i with dest := some (.arr d), destMem := some d }, ?_, rfl, ha, rfl, rfl, rfl, rfl⟩
    rw [LinkItem.setDest, if_neg hl, if_neg (by simp [ha])]

/-- C163: an empty destination is taken without an error even when there is an action, and is read back, but after loading the item has what it had before. -/
theorem C163_empty_false (i : LinkItem) (n : DNames) :
    ∃ j, i.setDest [] = .ok j ∧ j.getDest n = .ok (some []) ∧ j.dest = i.dest ∧ j.loaded.getDest n = i.loaded.getDest n :=
  ⟨_, rfl, rfl, rfl, rfl⟩

/-- C163: setting an action of a link that has a destination is not refused, and leaves the link with both. -/
theorem C163_link_false (i : LinkItem) (a : Bytes) (h : i.dest.isSome) :
    (i.setActLink a).act = some a ∧ (i.setActLink a).dest = i.dest ∧ ¬ Spec.AtMostOne (i.setActLink a) := by
  refine ⟨rfl, rfl, ?_⟩
  rintro (h' | h')
  · rw [show (i.setActLink a).dest = i.dest from rfl] at h'
    rw [h'] at h
    cases h
  · cases h'

/-- C163: a named destination of a link that is loaded is never found, although that of an outline item is whenever the name stands for one. -/
theorem C163_link_named_false (i : LinkItem) (n : DNames) (o : DestObj) (d : Dest) (h : i.dest = some o) (hs : (∃ s, o = .str s) ∨ ∃ k, o = .name k)
    (hc : n.create o = .ok d) : i.loaded.getDestLink = raise .InvalidDataType ∧ i.loaded.getDest n = .ok (some d) := by
  have e1 : i.loaded.getDestLink = o.direct.map some := by simp [LinkItem.loaded, LinkItem.getDestLink, h]
  have e2 : i.loaded.getDest n = (n.create o).map some := by simp [LinkItem.loaded, LinkItem.getDest, h]
  rw [e1, e2, hc]
  rcases hs with ⟨s, rfl⟩ | ⟨k, rfl⟩ <;> exact ⟨rfl, rfl⟩

/-! ### Kinds of actions -/

/-- `s_names`, `src/pdfmm/base/PdfAction.cpp:14-34`. -/
def actionNames : List (Option Bytes) :=
  none :: ["GoTo", "GoToR", "GoToE", "Launch", "Thread", "URI", "Sound", "Movie", "Hide", "Named", "SubmitForm", "ResetForm", "ImportData", "JavaScript", "SetOCGState",
    "Rendition", "Trans", "GoTo3DView"].map fun s => some (asciiB s)

/-- `TypeNameForIndex`, `src/pdfmm/private/PdfDeclarationsPrivate.cpp:647-650`. -/
def typeNameFor (i : Nat) (l : List (Option Bytes)) : Option Bytes := (l[i]?).getD none

/-- `TypeNameToIndex`, `src/pdfmm/private/PdfDeclarationsPrivate.cpp:652-664`, from index `i` on; the name is read up to its first zero byte. -/
def typeIndex (s : Bytes) (unknown : Nat) : Nat → List (Option Bytes) → Nat
  | _, [] => unknown
  | i, some t :: l => if s.takeWhile (· ≠ 0) = t then i else typeIndex s unknown (i + 1) l
  | i, none :: l => typeIndex s unknown (i + 1) l

/-- The name written by `PdfAction(PdfDocument&, PdfActionType)`, `src/pdfmm/base/PdfAction.cpp:36-44`; the type is its number, `src/pdfmm/base/PdfAction.h:30-52`.
`PdfName(const char*)`, `src/pdfmm/base/PdfName.cpp:40-43`, measures a null pointer before the test for a missing name is reached. -/
def newAction (t : Nat) : Res Bytes := match typeNameFor t actionNames with
  | some n => .ok n
  | none => .error .ub

/-- The type read by `PdfAction(PdfObject&)`, `src/pdfmm/base/PdfAction.cpp:46-53`; without a name it is read as the empty one. -/
def readAction (s : Option Bytes) : Nat := typeIndex (s.getD []) 0 0 actionNames

theorem takeWhile_nonzero : ∀ s : Bytes, 0 ∉ s → s.takeWhile (· ≠ 0) = s
  | [], _ => rfl
  | a :: s, h => by
    rw [List.mem_cons, not_or] at h
    rw [List.takeWhile_cons_of_pos (by simpa using fun e => h.1 e.symm), takeWhile_nonzero s h.2]

theorem typeIndex_at (s : Bytes) (u : Nat) : ∀ (l : List (Option Bytes)) (i k : Nat), l.Nodup → l[k]? = some (some s) → 0 ∉ s → typeIndex s u i l = i + k := by
  have tw := takeWhile_nonzero
  intro l
  induction l with
  | nil => intro i k _ h; simp at h
  | cons x l ih =>
    intro i k hn h hz
    cases k with
    | zero =>
      simp only [List.getElem?_cons_zero, Option.some.injEq] at h
      subst h
      rw [typeIndex, if_pos (tw s hz)]
      omega
    | succ k =>
      rw [List.getElem?_cons_succ] at h
      have hne : x ≠ some s := fun e => (List.nodup_cons.1 hn).1 (e ▸ List.mem_of_getElem? h)
      have := ih (i + 1) k (List.nodup_cons.1 hn).2 h hz
      cases x with
      | none => rw [typeIndex, this]; omega
      | some t =>
        rw [typeIndex, if_neg (by rw [tw s hz]; exact fun e => hne (by rw [e])), this]
        omega

theorem typeIndex_unknown (s : Bytes) (u : Nat) : ∀ (l : List (Option Bytes)) (i : Nat), some (s.takeWhile (· ≠ 0)) ∉ l → typeIndex s u i l = u := by
  intro l
  induction l with
  | nil => intro i _; rfl
  | cons x l ih =>
    intro i h
    rw [List.mem_cons, not_or] at h
    cases x with
    | none => exact ih _ h.2
    | some t => rw [typeIndex, if_neg (fun e => h.1 (by rw [e]))]; exact ih _ h.2

/-- C163, `_partial`: an action of any type from `GoTo` to `GoTo3DView` is read back with its type; a name that is none of the table's has no type. -/
theorem C163_action_partial :
    (∀ t, 1 ≤ t → t ≤ 18 → ∃ n, newAction t = .ok n ∧ readAction (some n) = t) ∧ (∀ s : Bytes, 0 ∉ s → some s ∉ actionNames → readAction (some s) = 0) ∧
    readAction none = 0 := by
  refine ⟨?_, ?_, rfl⟩
  · intro t h1 h2
    have hl : actionNames.length = 19 := rfl
    have hs : ∀ x ∈ actionNames.tail, x.isSome ∧ 0 ∉ x.getD [] := by decide
    have ht : t < actionNames.length := by omega
    have hm : actionNames[t] ∈ actionNames.tail := by
      rw [List.mem_iff_getElem]
      refine ⟨t - 1, by simp [List.length_tail]; omega, ?_⟩
      rw [List.getElem_tail]
      congr 1; omega
    obtain ⟨a, b⟩ := hs _ hm
    obtain ⟨n, hn⟩ := Option.isSome_iff_exists.1 a
    rw [hn] at b
    have hg : actionNames[t]? = some (some n) := by rw [List.getElem?_eq_getElem ht, hn]
    refine ⟨n, ?_, ?_⟩
    · rw [newAction, typeNameFor, hg]; rfl
    · have := typeIndex_at n 0 actionNames 0 t (by decide) hg b
      rw [readAction, Option.getD_some, this]; omega
  · intro s hz hs
    refine typeIndex_unknown s 0 actionNames 0 ?_
    rw [takeWhile_nonzero s hz]
    exact hs

/-- The kinds of action of the standard, in the order of `PdfActionType`, `src/pdfmm/base/PdfAction.h:30-52`. -/
inductive Spec.Act where
  | GoTo
  | GoToR
  | GoToE
  | Launch
  | Thread
  | URI
  | Sound
  | Movie
  | Hide
  | Named
  | SubmitForm
  | ResetForm
  | ImportData
  | JavaScript
  | SetOCGState
  | Rendition
  | Trans
  | GoTo3DView
deriving DecidableEq

/-- The number of the kind in `PdfActionType`. -/
def Spec.Act.number : Spec.Act → Nat
  | .GoTo => 1
  | .GoToR => 2
  | .GoToE => 3
  | .Launch => 4
  | .Thread => 5
  | .URI => 6
  | .Sound => 7
  | .Movie => 8
  | .Hide => 9
  | .Named => 10
  | .SubmitForm => 11
  | .ResetForm => 12
  | .ImportData => 13
  | .JavaScript => 14
  | .SetOCGState => 15
  | .Rendition => 16
  | .Trans => 17
  | .GoTo3DView => 18

/-- The name that the standard gives the kind in /S. -/
def Spec.Act.name : Spec.Act → String
  | .GoTo => "GoTo"
  | .GoToR => "GoToR"
  | .GoToE => "GoToE"
  | .Launch => "Launch"
  | .Thread => "Thread"
  | .URI => "URI"
  | .Sound => "Sound"
  | .Movie => "Movie"
  | .Hide => "Hide"
  | .Named => "Named"
  | .SubmitForm => "SubmitForm"
  | .ResetForm => "ResetForm"
  | .ImportData => "ImportData"
  | .JavaScript => "JavaScript"
  | .SetOCGState => "SetOCGState"
  | .Rendition => "Rendition"
  | .Trans => "Trans"
  | .GoTo3DView => "GoTo3DView"

/-- C163: an action of a kind is written with the name of the standard for this kind, and an action with this name is read as that kind. -/
theorem C163_action_names (k : Spec.Act) : newAction k.number = .ok (asciiB k.name) ∧ readAction (some (asciiB k.name)) = k.number := by
  cases k <;> decide

/-- C163: making an action of the type for rich media, or of the unknown type, reads through a null pointer instead of raising an error. -/
theorem C163_action_false (t : Nat) (h : t = 0 ∨ 19 ≤ t) : newAction t = .error .ub := by
  rw [newAction, typeNameFor]
  rcases h with rfl | h
  · rfl
  · rw [List.getElem?_eq_none (by rw [show actionNames.length = 19 from rfl]; omega)]
    rfl

/-! ### Witnesses -/

example : Spec.leftOf (.fitR 1 2 3 4) = some (some 1) ∧ Spec.kindOf (.fitR 1 2 3 4) ≠ .FitBV ∧ Spec.leftOf .fit = none := ⟨rfl, by decide, rfl⟩
example : Spec.topOf (.xyz none (some 700) none) = some (some 700) ∧ Spec.zoomOf (.xyz none none (some 2)) = some (some 2) := ⟨rfl, rfl⟩
example : Spec.viewValue (.fitH (some 5)) = some (some 5) ∧ Spec.viewValue (.fitBV (some 5)) = some (some 5) := ⟨rfl, rfl⟩
example : (destRect ⟨3, 0⟩ ⟨10, 20, 30, 40⟩).rect = .ok ⟨10, 20, 40, 60⟩ := by decide +kernel
example : DestFit.FitH ≠ .Fit ∧ DestFit.FitH ≠ .FitB := by decide

/-- A document in which the string `toc` stands for a destination in a dictionary. -/
def tocNames : DNames := ⟨some fun s => if s = asciiB "toc" then some (.dict (some (some (destFit ⟨3, 0⟩ .Fit)))) else none, none⟩
example : tocNames.create (.str (asciiB "toc")) = .ok (destFit ⟨3, 0⟩ .Fit) := rfl
example : tocNames.create (.name (asciiB "toc")) = raise .InvalidKey := rfl
example : Spec.AtMostOne ⟨none, none, none, none⟩ ∧ Spec.AtMostOne ⟨some (.arr (destFit ⟨3, 0⟩ .Fit)), none, none, none⟩ := ⟨Or.inl rfl, Or.inr rfl⟩
example : ([LinkOp.dest (destFit ⟨3, 0⟩ .Fit), .act (asciiB "a"), .dest (destFit ⟨4, 0⟩ .FitB)].foldl LinkItem.step ⟨none, none, none, none⟩).destMem =
    some (destFit ⟨4, 0⟩ .FitB) := rfl
example : newAction 6 = .ok (asciiB "URI") ∧ readAction (some (asciiB "URI")) = 6 ∧ readAction (some (asciiB "RichMediaExecute")) = 0 := by decide

end Pdfmm
