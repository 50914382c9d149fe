import Verif.Base.Basic
/-
Tables of names: filters, PDF versions, annotation types and color spaces.
-/
set_option autoImplicit false
namespace Pdfmm

/-! ### Model -/

/-- `PdfFilterType`, `src/pdfmm/base/PdfDeclarations.h:182-195`. -/
inductive FilterName
  | None_ | ASCIIHexDecode | ASCII85Decode | LZWDecode | FlateDecode | RunLengthDecode | CCITTFaxDecode | JBIG2Decode | DCTDecode | JPXDecode | Crypt
  deriving DecidableEq, Repr

/-- `PdfVersion`, `src/pdfmm/base/PdfDeclarations.h:67-79`. -/
inductive PdfVer
  | Unknown | V1_0 | V1_1 | V1_2 | V1_3 | V1_4 | V1_5 | V1_6 | V1_7 | V2_0
  deriving DecidableEq, Repr

/-- `PdfAnnotationType`, `src/pdfmm/base/PdfDeclarations.h:518-550`. -/
inductive AnnotName
  | Unknown | Text | Link | FreeText | Line | Square | Circle | Polygon | PolyLine | Highlight | Underline | Squiggly | StrikeOut | Stamp | Caret | Ink | Popup | FileAttachement | Sound | Movie | Widget | Screen | PrinterMark | TrapNet | Watermark | Model3D | RichMedia | WebMedia | Redact | Projection
  deriving DecidableEq, Repr

/-- `PdfColorSpace`, `src/pdfmm/base/PdfDeclarations.h:312-326`. -/
inductive ColorSp
  | Unknown | DeviceGray | DeviceRGB | DeviceCMYK | CalGray | CalRGB | Lab | ICCBased | Indexed | Pattern | Separation | DeviceN
  deriving DecidableEq, Repr

/-- `FilterToName`, `src/pdfmm/private/PdfDeclarationsPrivate.cpp:400-427`. -/
def filterToName : FilterName → Res String
  | .ASCIIHexDecode => .ok "ASCIIHexDecode"
  | .ASCII85Decode => .ok "ASCII85Decode"
  | .LZWDecode => .ok "LZWDecode"
  | .FlateDecode => .ok "FlateDecode"
  | .RunLengthDecode => .ok "RunLengthDecode"
  | .CCITTFaxDecode => .ok "CCITTFaxDecode"
  | .JBIG2Decode => .ok "JBIG2Decode"
  | .DCTDecode => .ok "DCTDecode"
  | .JPXDecode => .ok "JPXDecode"
  | .Crypt => .ok "Crypt"
  | _ => raise .InvalidEnumValue

/-- `NameToFilter`, `src/pdfmm/private/PdfDeclarationsPrivate.cpp:353-377`. -/
def nameToFilter (s : String) : Res FilterName :=
  if s = "ASCIIHexDecode" then .ok .ASCIIHexDecode else
  if s = "ASCII85Decode" then .ok .ASCII85Decode else
  if s = "LZWDecode" then .ok .LZWDecode else
  if s = "FlateDecode" then .ok .FlateDecode else
  if s = "RunLengthDecode" then .ok .RunLengthDecode else
  if s = "CCITTFaxDecode" then .ok .CCITTFaxDecode else
  if s = "JBIG2Decode" then .ok .JBIG2Decode else
  if s = "DCTDecode" then .ok .DCTDecode else
  if s = "JPXDecode" then .ok .JPXDecode else
  if s = "Crypt" then .ok .Crypt else
  raise .UnsupportedFilter

/-- `FilterToNameShort`, `src/pdfmm/private/PdfDeclarationsPrivate.cpp:429-454`. -/
def filterToNameShort : FilterName → Res String
  | .ASCIIHexDecode => .ok "AHx"
  | .ASCII85Decode => .ok "A85"
  | .LZWDecode => .ok "LZW"
  | .FlateDecode => .ok "Fl"
  | .RunLengthDecode => .ok "RL"
  | .CCITTFaxDecode => .ok "CCF"
  | .DCTDecode => .ok "DCT"
  | _ => raise .InvalidEnumValue

/-- `NameToFilterShort`, `src/pdfmm/private/PdfDeclarationsPrivate.cpp:379-398`. -/
def nameToFilterShort (s : String) : Res FilterName :=
  if s = "AHx" then .ok .ASCIIHexDecode else
  if s = "A85" then .ok .ASCII85Decode else
  if s = "LZW" then .ok .LZWDecode else
  if s = "Fl" then .ok .FlateDecode else
  if s = "RL" then .ok .RunLengthDecode else
  if s = "CCF" then .ok .CCITTFaxDecode else
  if s = "DCT" then .ok .DCTDecode else
  raise .UnsupportedFilter

/-- `AnnotationTypeToName`, `src/pdfmm/private/PdfDeclarationsPrivate.cpp:166-231`. -/
def annotToName : AnnotName → Res String
  | .Text => .ok "Text"
  | .Link => .ok "Link"
  | .FreeText => .ok "FreeText"
  | .Line => .ok "Line"
  | .Square => .ok "Square"
  | .Circle => .ok "Circle"
  | .Polygon => .ok "Polygon"
  | .PolyLine => .ok "PolyLine"
  | .Highlight => .ok "Highlight"
  | .Underline => .ok "Underline"
  | .Squiggly => .ok "Squiggly"
  | .StrikeOut => .ok "StrikeOut"
  | .Stamp => .ok "Stamp"
  | .Caret => .ok "Caret"
  | .Ink => .ok "Ink"
  | .Popup => .ok "Popup"
  | .FileAttachement => .ok "FileAttachment"
  | .Sound => .ok "Sound"
  | .Movie => .ok "Movie"
  | .Widget => .ok "Widget"
  | .Screen => .ok "Screen"
  | .PrinterMark => .ok "PrinterMark"
  | .TrapNet => .ok "TrapNet"
  | .Watermark => .ok "Watermark"
  | .Model3D => .ok "3D"
  | .RichMedia => .ok "RichMedia"
  | .WebMedia => .ok "WebMedia"
  | .Redact => .ok "Redact"
  | .Projection => .ok "Projection"
  | _ => raise .InvalidEnumValue

/-- `NameToAnnotationType`, `src/pdfmm/private/PdfDeclarationsPrivate.cpp:233-295`. -/
def nameToAnnot (s : String) : Res AnnotName :=
  if s = "Text" then .ok .Text else
  if s = "Link" then .ok .Link else
  if s = "FreeText" then .ok .FreeText else
  if s = "Line" then .ok .Line else
  if s = "Square" then .ok .Square else
  if s = "Circle" then .ok .Circle else
  if s = "Polygon" then .ok .Polygon else
  if s = "PolyLine" then .ok .PolyLine else
  if s = "Highlight" then .ok .Highlight else
  if s = "Underline" then .ok .Underline else
  if s = "Squiggly" then .ok .Squiggly else
  if s = "StrikeOut" then .ok .StrikeOut else
  if s = "Stamp" then .ok .Stamp else
  if s = "Caret" then .ok .Caret else
  if s = "Ink" then .ok .Ink else
  if s = "Popup" then .ok .Popup else
  if s = "FileAttachment" then .ok .FileAttachement else
  if s = "Sound" then .ok .Sound else
  if s = "Movie" then .ok .Movie else
  if s = "Widget" then .ok .Widget else
  if s = "Screen" then .ok .Screen else
  if s = "PrinterMark" then .ok .PrinterMark else
  if s = "TrapNet" then .ok .TrapNet else
  if s = "Watermark" then .ok .Watermark else
  if s = "3D" then .ok .Model3D else
  if s = "RichMedia" then .ok .RichMedia else
  if s = "WebMedia" then .ok .WebMedia else
  if s = "Redact" then .ok .Redact else
  if s = "Projection" then .ok .Projection else
  raise .InternalLogic

/-- `ColorSpaceToNameRaw`, `src/pdfmm/private/PdfDeclarationsPrivate.cpp:323-351`. -/
def colorToName : ColorSp → Res String
  | .DeviceGray => .ok "DeviceGray"
  | .DeviceRGB => .ok "DeviceRGB"
  | .DeviceCMYK => .ok "DeviceCMYK"
  | .CalGray => .ok "CalGray"
  | .Lab => .ok "Lab"
  | .ICCBased => .ok "ICCBased"
  | .Indexed => .ok "Indexed"
  | .Pattern => .ok "Pattern"
  | .Separation => .ok "Separation"
  | .DeviceN => .ok "DeviceN"
  | _ => raise .InvalidEnumValue

/-- `NameToColorSpaceRaw`, `src/pdfmm/private/PdfDeclarationsPrivate.cpp:297-321`. -/
def nameToColor (s : String) : Res ColorSp :=
  if s = "DeviceGray" then .ok .DeviceGray else
  if s = "DeviceRGB" then .ok .DeviceRGB else
  if s = "DeviceCMYK" then .ok .DeviceCMYK else
  if s = "CalGray" then .ok .CalGray else
  if s = "Lab" then .ok .Lab else
  if s = "ICCBased" then .ok .ICCBased else
  if s = "Indexed" then .ok .Indexed else
  if s = "Pattern" then .ok .Pattern else
  if s = "Separation" then .ok .Separation else
  if s = "DeviceN" then .ok .DeviceN else
  raise .CannotConvertColor

/-- `s_PdfVersions`, `src/pdfmm/private/PdfDeclarationsPrivate.cpp:59-69`. -/
def verTable : List (String × PdfVer) :=
  [("1.0", .V1_0), ("1.1", .V1_1), ("1.2", .V1_2), ("1.3", .V1_3), ("1.4", .V1_4), ("1.5", .V1_5), ("1.6", .V1_6), ("1.7", .V1_7), ("2.0", .V2_0)]

/-- The loop of `GetPdfVersion`, `src/pdfmm/private/PdfDeclarationsPrivate.cpp:126-136`. -/
def verLoop (s : String) : List (String × PdfVer) → PdfVer
  | [] => .Unknown
  | e :: r => if e.1 = s then e.2 else verLoop s r

/-- `GetPdfVersion`, `src/pdfmm/private/PdfDeclarationsPrivate.cpp:126-136`. -/
def getPdfVersion (s : String) : PdfVer := verLoop s verTable

/-- `s_PdfVersions[i].Name`. -/
def verNameAt (i : Nat) : Res String :=
  match verTable[i]? with
  | some e => .ok e.1
  | none => .error .ub

/-- `GetPdfVersionName`, `src/pdfmm/private/PdfDeclarationsPrivate.cpp:138-163`. -/
def verToName : PdfVer → Res String
  | .V1_0 => verNameAt 0
  | .V1_1 => verNameAt 1
  | .V1_2 => verNameAt 2
  | .V1_3 => verNameAt 3
  | .V1_4 => verNameAt 4
  | .V1_5 => verNameAt 5
  | .V1_6 => verNameAt 6
  | .V1_7 => verNameAt 7
  | .V2_0 => verNameAt 8
  | _ => raise .InvalidEnumValue

/-! ### Specification -/

namespace Spec

/-- The filters of ISO 32000-1, table 6, with the abbreviations of table 94. -/
def isoFilters : List (FilterName × String × Option String) :=
  [(.ASCIIHexDecode, "ASCIIHexDecode", some "AHx"), (.ASCII85Decode, "ASCII85Decode", some "A85"),
   (.LZWDecode, "LZWDecode", some "LZW"), (.FlateDecode, "FlateDecode", some "Fl"),
   (.RunLengthDecode, "RunLengthDecode", some "RL"), (.CCITTFaxDecode, "CCITTFaxDecode", some "CCF"),
   (.JBIG2Decode, "JBIG2Decode", none), (.DCTDecode, "DCTDecode", some "DCT"), (.JPXDecode, "JPXDecode", none),
   (.Crypt, "Crypt", none)]

/-- The versions of PDF. -/
def isoVersions : List (PdfVer × String) :=
  [(.V1_0, "1.0"), (.V1_1, "1.1"), (.V1_2, "1.2"), (.V1_3, "1.3"), (.V1_4, "1.4"), (.V1_5, "1.5"), (.V1_6, "1.6"),
   (.V1_7, "1.7"), (.V2_0, "2.0")]

/-- The annotation types of ISO 32000-2, table 171, and one of an extension. -/
def isoAnnots : List (AnnotName × String) :=
  [(.Text, "Text"), (.Link, "Link"), (.FreeText, "FreeText"), (.Line, "Line"), (.Square, "Square"),
   (.Circle, "Circle"), (.Polygon, "Polygon"), (.PolyLine, "PolyLine"), (.Highlight, "Highlight"),
   (.Underline, "Underline"), (.Squiggly, "Squiggly"), (.StrikeOut, "StrikeOut"), (.Stamp, "Stamp"),
   (.Caret, "Caret"), (.Ink, "Ink"), (.Popup, "Popup"), (.FileAttachement, "FileAttachment"), (.Sound, "Sound"),
   (.Movie, "Movie"), (.Widget, "Widget"), (.Screen, "Screen"), (.PrinterMark, "PrinterMark"),
   (.TrapNet, "TrapNet"), (.Watermark, "Watermark"), (.Model3D, "3D"), (.RichMedia, "RichMedia"),
   (.WebMedia, "WebMedia"), (.Redact, "Redact"), (.Projection, "Projection")]

/-- The color spaces of ISO 32000-1, table 62. -/
def isoColors : List (ColorSp × String) :=
  [(.DeviceGray, "DeviceGray"), (.DeviceRGB, "DeviceRGB"), (.DeviceCMYK, "DeviceCMYK"), (.CalGray, "CalGray"),
   (.CalRGB, "CalRGB"), (.Lab, "Lab"), (.ICCBased, "ICCBased"), (.Indexed, "Indexed"), (.Pattern, "Pattern"),
   (.Separation, "Separation"), (.DeviceN, "DeviceN")]

/-- A pair of functions which translates exactly the pairs of a table, in both directions, and raises for all
other values and names. -/
def Translates {α : Type} (table : List (α × String)) (toName : α → Res String) (ofName : String → Res α) : Prop :=
  (∀ a s, toName a = .ok s ↔ (a, s) ∈ table) ∧ (∀ s a, ofName s = .ok a ↔ (a, s) ∈ table)

end Spec
open Spec

/-! ### Proofs -/

/-- Values and names of a table are translated back, and no two values share a name. -/
theorem translates_inverse {α : Type} {table : List (α × String)} {toName : α → Res String}
    {ofName : String → Res α} (h : Translates table toName ofName) :
    (∀ a s, toName a = .ok s → ofName s = .ok a) ∧ (∀ s a, ofName s = .ok a → toName a = .ok s) ∧
    (∀ a b s, toName a = .ok s → toName b = .ok s → a = b) := by
  have h1 : ∀ a s, toName a = .ok s → ofName s = .ok a := fun a s e => (h.2 s a).2 ((h.1 a s).1 e)
  refine ⟨h1, fun s a e => (h.1 a s).2 ((h.2 s a).1 e), fun a b s ea eb => ?_⟩
  have := (h1 a s ea).symm.trans (h1 b s eb)
  exact Except.ok.inj this

theorem ok_ite {α : Type} {c : Prop} [Decidable c] {x a : α} {r : Res α} :
    (if c then (.ok x : Res α) else r) = .ok a ↔ (c ∧ x = a) ∨ (¬ c ∧ r = .ok a) := by
  by_cases h : c <;> simp [h]

/-- **C64** for filters. -/
theorem C64_filters : Translates (isoFilters.map (fun e => (e.1, e.2.1))) filterToName nameToFilter := by
  constructor
  · intro a s
    cases a <;> simp [filterToName, isoFilters, eq_comm]
  · intro s a
    simp only [nameToFilter, ok_ite, isoFilters, List.map_cons, List.map_nil, List.mem_cons, Prod.mk.injEq, List.not_mem_nil]
    constructor
    · intro h
      repeat' (rcases h with ⟨rfl, rfl⟩ | ⟨-, h⟩)
      all_goals simp at *
    · intro h
      repeat' (rcases h with ⟨rfl, rfl⟩ | h)
      all_goals simp at *

/-- **C64** for the abbreviations of filters. -/
theorem C64_short_filters : Translates (isoFilters.filterMap (fun e => e.2.2.map (fun s => (e.1, s)))) filterToNameShort nameToFilterShort := by
  constructor
  · intro a s
    cases a <;> simp [filterToNameShort, isoFilters, eq_comm]
  · intro s a
    simp only [nameToFilterShort, isoFilters, ok_ite, List.map_cons, List.map_nil, List.filter, List.filterMap, Option.map, List.mem_cons, Prod.mk.injEq, List.not_mem_nil]
    constructor
    · intro h
      repeat' (rcases h with ⟨rfl, rfl⟩ | ⟨-, h⟩)
      all_goals simp at *
    · intro h
      repeat' (rcases h with ⟨rfl, rfl⟩ | h)
      all_goals simp at *

/-- **C64** for annotation types. -/
theorem C64_annotations : Translates isoAnnots annotToName nameToAnnot := by
  constructor
  · intro a s
    cases a <;> simp [annotToName, isoAnnots, eq_comm]
  · intro s a
    simp only [nameToAnnot, isoAnnots, ok_ite, List.map_cons, List.map_nil, List.filter, List.filterMap, Option.map, List.mem_cons, Prod.mk.injEq, List.not_mem_nil]
    constructor
    · intro h
      repeat' (rcases h with ⟨rfl, rfl⟩ | ⟨-, h⟩)
      all_goals simp at *
    · intro h
      repeat' (rcases h with ⟨rfl, rfl⟩ | h)
      all_goals simp at *

/-- **C64** for versions; other texts are the version `Unknown`, which has no name. -/
theorem C64_versions : Translates isoVersions verToName
    (fun s => if getPdfVersion s = .Unknown then raise .InvalidEnumValue else .ok (getPdfVersion s)) := by
  constructor
  · intro a s
    cases a <;> simp [verToName, verNameAt, verTable, isoVersions, eq_comm]
  · intro s a
    simp only [getPdfVersion, verTable, verLoop, isoVersions, List.mem_cons, Prod.mk.injEq, List.not_mem_nil]
    constructor
    · intro h
      repeat' split at h
      all_goals first
        | (simp at h; done)
        | (subst_vars; contradiction)
        | (subst_vars; simp at h; simp [← h])
    · intro h
      repeat' (rcases h with ⟨rfl, rfl⟩ | h)
      all_goals simp at *

/-- **C64** for color spaces, in part: all but `CalRGB`. -/
theorem C64_color_spaces_partial : Translates (isoColors.filter (fun e => e.1 ≠ .CalRGB)) colorToName nameToColor := by
  constructor
  · intro a s
    cases a <;> simp [colorToName, isoColors, eq_comm]
  · intro s a
    simp only [nameToColor, isoColors, ok_ite, List.map_cons, List.map_nil, List.filter, List.filterMap, Option.map, List.mem_cons, Prod.mk.injEq, List.not_mem_nil]
    constructor
    · intro h
      repeat' (rcases h with ⟨rfl, rfl⟩ | ⟨-, h⟩)
      all_goals simp at *
    · intro h
      simp at h
      repeat' (rcases h with ⟨rfl, rfl⟩ | h)
      all_goals (subst_vars; simp)

/-- C64 is false for the color space `CalRGB`: it has no name in one direction and is not known in the other. -/
theorem C64_calrgb_false : (ColorSp.CalRGB, "CalRGB") ∈ isoColors ∧ colorToName .CalRGB = raise .InvalidEnumValue ∧
    nameToColor "CalRGB" = raise .CannotConvertColor := by decide +kernel

example : filterToName .DCTDecode = .ok "DCTDecode" ∧ nameToFilter "DCTDecode" = .ok .DCTDecode :=
  ⟨rfl, (translates_inverse C64_filters).1 _ _ rfl⟩
example : nameToAnnot "3D" = .ok .Model3D := (translates_inverse C64_annotations).1 .Model3D _ rfl
example : nameToColor "Lab" = .ok .Lab := (translates_inverse C64_color_spaces_partial).1 .Lab _ rfl
example : getPdfVersion "2.0" = .V2_0 ∧ getPdfVersion "1.8" = .Unknown := by decide +kernel

end Pdfmm
