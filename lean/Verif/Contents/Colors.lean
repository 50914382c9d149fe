import Verif.Base.SMap
import Verif.Base.Chars
import Verif.Filters.Spec
import Verif.Syntax.Reals
import Verif.Fonts.CMapModel

set_option autoImplicit false

/-! # Colours

`PdfColor`, with exact numbers in place of doubles: the rounding of the arithmetic, infinities and NaN are left out. -/

namespace Pdfmm

/-- The colours a separation can stand for, and the plain colours: the union and the space of `PdfColor`, `src/pdfmm/base/PdfColor.h:384-402`. -/
inductive BaseColor
  | gray (g : Rat)
  | rgb (r g b : Rat)
  | cmyk (c m y k : Rat)
  | lab (l a b : Rat)
  deriving DecidableEq

/-- `PdfColor`, `src/pdfmm/base/PdfColor.h:396-402`. -/
inductive Color
  | base (c : BaseColor)
  | sep (name : Bytes) (density : Rat) (alt : BaseColor)
  | transparent
  deriving DecidableEq

/-- `CheckDoubleRange`, `src/pdfmm/base/PdfColor.cpp:297-301`. -/
def colorRange (v lo hi : Rat) : Res Unit := if v < lo ∨ v > hi then raise .ValueOutOfRange else .ok ()

/-- `PdfColor(gray)`, `src/pdfmm/base/PdfColor.cpp:313-323`. -/
def newGray (g : Rat) : Res Color := (colorRange g 0 1).bind fun _ => .ok (.base (.gray g))

/-- `PdfColor(red, green, blue)`, `src/pdfmm/base/PdfColor.cpp:325-340`. -/
def newRgb (r g b : Rat) : Res Color :=
  (colorRange r 0 1).bind fun _ => (colorRange g 0 1).bind fun _ => (colorRange b 0 1).bind fun _ => .ok (.base (.rgb r g b))

/-- `PdfColor(cyan, magenta, yellow, black)`, `src/pdfmm/base/PdfColor.cpp:342-359`. -/
def newCmyk (c m y k : Rat) : Res Color :=
  (colorRange c 0 1).bind fun _ => (colorRange m 0 1).bind fun _ => (colorRange y 0 1).bind fun _ => (colorRange k 0 1).bind fun _ => .ok (.base (.cmyk c m y k))

/-- `CreateCieLab`, `src/pdfmm/base/PdfColor.cpp:373-384`. -/
def newLab (l a b : Rat) : Res Color :=
  (colorRange l 0 100).bind fun _ => (colorRange a (-128) 127).bind fun _ => (colorRange b (-128) 127).bind fun _ => .ok (.base (.lab l a b))

/-- The formula of `ConvertToRGB`, `src/pdfmm/base/PdfColor.cpp:528-537` and `:543-552`; the same in `ConvertToGrayScale`, `:480-489`. -/
def cmykToRgb (c m y k : Rat) : Res Color := newRgb (1 - (c * (1 - k) + k)) (1 - (m * (1 - k) + k)) (1 - (y * (1 - k) + k))

/-- `ConvertToRGB`, `src/pdfmm/base/PdfColor.cpp:514-576`. -/
def Color.toRgb : Color → Res Color
  | .base (.gray g) => newRgb g g g
  | .base (.rgb r g b) => .ok (.base (.rgb r g b))
  | .base (.cmyk c m y k) => cmykToRgb c m y k
  | .sep _ _ (.cmyk c m y k) => cmykToRgb c m y k
  | .sep _ _ _ => raise .NotImplemented
  | .base (.lab _ _ _) => raise .CannotConvertColor
  | .transparent => raise .CannotConvertColor

/-- The gray of an RGB colour, `src/pdfmm/base/PdfColor.cpp:470`. -/
def rgbToGray (r g b : Rat) : Res Color := newGray (299 / 1000 * r + 587 / 1000 * g + 114 / 1000 * b)

/-- `ConvertToGrayScale` of a colour that is gray or RGB, `src/pdfmm/base/PdfColor.cpp:464-471`. -/
def Color.grayOf : Color → Res Color
  | .base (.rgb r g b) => rgbToGray r g b
  | c => .ok c

/-- `ConvertToGrayScale`, `src/pdfmm/base/PdfColor.cpp:460-512`. -/
def Color.toGray : Color → Res Color
  | .base (.gray g) => .ok (.base (.gray g))
  | .base (.rgb r g b) => rgbToGray r g b
  | .base (.cmyk c m y k) => (cmykToRgb c m y k).bind Color.grayOf
  | .sep _ _ (.cmyk c m y k) => cmykToRgb c m y k
  | .sep _ _ _ => raise .NotImplemented
  | .base (.lab _ _ _) => raise .CannotConvertColor
  | .transparent => raise .CannotConvertColor

/-- `std::min`, used at `src/pdfmm/base/PdfColor.cpp:592`. -/
def minR (a b : Rat) : Rat := if b < a then b else a

/-- The black of an RGB colour, `src/pdfmm/base/PdfColor.cpp:592`. -/
def blackOf (r g b : Rat) : Rat := minR (1 - r) (minR (1 - g) (1 - b))

/-- `ConvertToCMYK` of an RGB colour, `src/pdfmm/base/PdfColor.cpp:586-606`. -/
def rgbToCmyk (r g b : Rat) : Res Color :=
  if blackOf r g b < 1 then
    newCmyk ((1 - r - blackOf r g b) / (1 - blackOf r g b)) ((1 - g - blackOf r g b) / (1 - blackOf r g b)) ((1 - b - blackOf r g b) / (1 - blackOf r g b)) (blackOf r g b)
  else newCmyk 0 0 0 (blackOf r g b)

/-- `ConvertToCMYK`, `src/pdfmm/base/PdfColor.cpp:578-625`. -/
def Color.toCmyk : Color → Res Color
  | .base (.gray g) => (newRgb g g g).bind fun _ => rgbToCmyk g g g
  | .base (.rgb r g b) => rgbToCmyk r g b
  | .base (.cmyk c m y k) => .ok (.base (.cmyk c m y k))
  | _ => raise .CannotConvertColor

/-- `ToArray`, `src/pdfmm/base/PdfColor.cpp:627-679`. -/
def Color.toArray : Color → Res (List Rat)
  | .base (.gray g) => .ok [g]
  | .base (.rgb r g b) => .ok [r, g, b]
  | .base (.cmyk c m y k) => .ok [c, m, y, k]
  | .base (.lab l a b) => .ok [l, a, b]
  | .sep _ d _ => .ok [d]
  | .transparent => raise .CannotConvertColor

/-- `TryCreateFromArray`, `src/pdfmm/base/PdfColor.cpp:810-850`; `none` is an element that is no number (`TryGetReal`, `src/pdfmm/base/PdfVariant.cpp:576-591`), `.ok none` is
`return false`. The branch for the empty array has no return of its own. -/
def Color.tryFromArray : List (Option Rat) → Res (Option Color)
  | [some g] => (newGray g).map some
  | [some r, some g, some b] => (newRgb r g b).map some
  | [some c, some m, some y, some k] => (newCmyk c m y k).map some
  | _ => .ok none

/-- `FromArray`, `src/pdfmm/base/PdfColor.cpp:853-860`. -/
def Color.fromArray (l : List (Option Rat)) : Res Color :=
  match Color.tryFromArray l with
  | .error e => .error e
  | .ok none => raise .InvalidDataType
  | .ok (some c) => .ok c

/-- `CreateSeparation`, `src/pdfmm/base/PdfColor.cpp:386-433`. -/
def newSeparation (name : Bytes) (density : Rat) : Color → Res Color
  | .base c => .ok (.sep name density c)
  | .sep _ _ _ => raise .InternalLogic
  | .transparent => raise .InvalidEnumValue

/-! ## The specification -/

/-- Between 0 and 1. -/
def Spec.Unit01 (x : Rat) : Prop := 0 ≤ x ∧ x ≤ 1

/-- A colour as the constructors make it. -/
def Spec.ValidBase : BaseColor → Prop
  | .gray g => Spec.Unit01 g
  | .rgb r g b => Spec.Unit01 r ∧ Spec.Unit01 g ∧ Spec.Unit01 b
  | .cmyk c m y k => Spec.Unit01 c ∧ Spec.Unit01 m ∧ Spec.Unit01 y ∧ Spec.Unit01 k
  | .lab l a b => (0 ≤ l ∧ l ≤ 100) ∧ (-128 ≤ a ∧ a ≤ 127) ∧ (-128 ≤ b ∧ b ≤ 127)

/-! ## Proofs -/

theorem colorRange_ok {v lo hi : Rat} (h : lo ≤ v ∧ v ≤ hi) : colorRange v lo hi = .ok () := by
  rw [colorRange, if_neg]
  rintro (c | c)
  · exact absurd c (Rat.not_lt.2 h.1)
  · exact absurd c (Rat.not_lt.2 h.2)

theorem colorRange_bad {v lo hi : Rat} (h : ¬ (lo ≤ v ∧ v ≤ hi)) : colorRange v lo hi = raise .ValueOutOfRange := by
  rw [colorRange, if_pos]
  by_cases h1 : lo ≤ v
  · exact .inr (Rat.not_le.1 fun c => h ⟨h1, c⟩)
  · exact .inl (Rat.not_le.1 h1)

theorem newGray_ok {g : Rat} (h : Spec.Unit01 g) : newGray g = .ok (.base (.gray g)) := by rw [newGray, colorRange_ok h]; rfl
theorem newRgb_ok {r g b : Rat} (h1 : Spec.Unit01 r) (h2 : Spec.Unit01 g) (h3 : Spec.Unit01 b) : newRgb r g b = .ok (.base (.rgb r g b)) := by
  rw [newRgb, colorRange_ok h1, colorRange_ok h2, colorRange_ok h3]; rfl
theorem newCmyk_ok {c m y k : Rat} (h1 : Spec.Unit01 c) (h2 : Spec.Unit01 m) (h3 : Spec.Unit01 y) (h4 : Spec.Unit01 k) : newCmyk c m y k = .ok (.base (.cmyk c m y k)) := by
  rw [newCmyk, colorRange_ok h1, colorRange_ok h2, colorRange_ok h3, colorRange_ok h4]; rfl

theorem unit_inv (c k : Rat) (hc : Spec.Unit01 c) (hk : Spec.Unit01 k) : Spec.Unit01 (1 - (c * (1 - k) + k)) := by
  have e : 1 - (c * (1 - k) + k) = (1 - c) * (1 - k) := by grind
  rw [e]
  have h1 : 0 ≤ 1 - c := by have := hc.2; grind
  have h2 : 0 ≤ 1 - k := by have := hk.2; grind
  refine ⟨Rat.mul_nonneg h1 h2, ?_⟩
  have h3 : 0 ≤ c + k * (1 - c) := by
    have := Rat.mul_nonneg hk.1 h1
    have := hc.1
    grind
  grind

/-- A constructor accepts exactly the components in range, and otherwise raises. -/
theorem C162_ranges (r g b : Rat) :
    (newGray g = .ok (.base (.gray g)) ↔ Spec.Unit01 g) ∧ (¬ Spec.Unit01 g → newGray g = raise .ValueOutOfRange) ∧
    (newRgb r g b = .ok (.base (.rgb r g b)) ↔ Spec.Unit01 r ∧ Spec.Unit01 g ∧ Spec.Unit01 b) ∧
    (¬ (Spec.Unit01 r ∧ Spec.Unit01 g ∧ Spec.Unit01 b) → newRgb r g b = raise .ValueOutOfRange) ∧
    (∀ k, (newCmyk r g b k = .ok (.base (.cmyk r g b k)) ↔ Spec.Unit01 r ∧ Spec.Unit01 g ∧ Spec.Unit01 b ∧ Spec.Unit01 k) ∧
      (¬ (Spec.Unit01 r ∧ Spec.Unit01 g ∧ Spec.Unit01 b ∧ Spec.Unit01 k) → newCmyk r g b k = raise .ValueOutOfRange)) ∧
    (newLab r g b = .ok (.base (.lab r g b)) ↔ Spec.ValidBase (.lab r g b)) := by
  have gray_bad : ¬ Spec.Unit01 g → newGray g = raise .ValueOutOfRange := by intro h; rw [newGray, colorRange_bad h]; rfl
  have rgb_bad : ¬ (Spec.Unit01 r ∧ Spec.Unit01 g ∧ Spec.Unit01 b) → newRgb r g b = raise .ValueOutOfRange := by
    intro h
    rw [newRgb]
    by_cases h1 : Spec.Unit01 r
    · by_cases h2 : Spec.Unit01 g
      · by_cases h3 : Spec.Unit01 b
        · exact absurd ⟨h1, h2, h3⟩ h
        · rw [colorRange_ok h1, colorRange_ok h2, colorRange_bad h3]; rfl
      · rw [colorRange_ok h1, colorRange_bad h2]; rfl
    · rw [colorRange_bad h1]; rfl
  have cmyk_bad : ∀ k, ¬ (Spec.Unit01 r ∧ Spec.Unit01 g ∧ Spec.Unit01 b ∧ Spec.Unit01 k) → newCmyk r g b k = raise .ValueOutOfRange := by
    intro k h
    rw [newCmyk]
    by_cases h1 : Spec.Unit01 r
    · by_cases h2 : Spec.Unit01 g
      · by_cases h3 : Spec.Unit01 b
        · by_cases h4 : Spec.Unit01 k
          · exact absurd ⟨h1, h2, h3, h4⟩ h
          · rw [colorRange_ok h1, colorRange_ok h2, colorRange_ok h3, colorRange_bad h4]; rfl
        · rw [colorRange_ok h1, colorRange_ok h2, colorRange_bad h3]; rfl
      · rw [colorRange_ok h1, colorRange_bad h2]; rfl
    · rw [colorRange_bad h1]; rfl
  refine ⟨⟨?_, newGray_ok⟩, gray_bad, ⟨?_, fun h => newRgb_ok h.1 h.2.1 h.2.2⟩, rgb_bad, fun k => ⟨⟨?_, fun h => newCmyk_ok h.1 h.2.1 h.2.2.1 h.2.2.2⟩, cmyk_bad k⟩, ?_, ?_⟩
  · intro h
    by_cases c : Spec.Unit01 g
    · exact c
    · rw [gray_bad c] at h; cases h
  · intro h
    by_cases c : Spec.Unit01 r ∧ Spec.Unit01 g ∧ Spec.Unit01 b
    · exact c
    · rw [rgb_bad c] at h; cases h
  · intro h
    by_cases c : Spec.Unit01 r ∧ Spec.Unit01 g ∧ Spec.Unit01 b ∧ Spec.Unit01 k
    · exact c
    · rw [cmyk_bad k c] at h; cases h
  · intro h
    rw [newLab] at h
    by_cases h1 : 0 ≤ r ∧ r ≤ 100
    · by_cases h2 : -128 ≤ g ∧ g ≤ 127
      · by_cases h3 : -128 ≤ b ∧ b ≤ 127
        · exact ⟨h1, h2, h3⟩
        · rw [colorRange_ok h1, colorRange_ok h2, colorRange_bad h3] at h; cases h
      · rw [colorRange_ok h1, colorRange_bad h2] at h; cases h
    · rw [colorRange_bad h1] at h; cases h
  · rintro ⟨h1, h2, h3⟩
    rw [newLab, colorRange_ok h1, colorRange_ok h2, colorRange_ok h3]; rfl

theorem blackOf_spec (r g b : Rat) (hr : Spec.Unit01 r) (hg : Spec.Unit01 g) (hb : Spec.Unit01 b) :
    Spec.Unit01 (blackOf r g b) ∧ blackOf r g b ≤ 1 - r ∧ blackOf r g b ≤ 1 - g ∧ blackOf r g b ≤ 1 - b := by
  obtain ⟨_, _⟩ := hr
  obtain ⟨_, _⟩ := hg
  obtain ⟨_, _⟩ := hb
  simp only [blackOf, minR, Spec.Unit01]
  grind

theorem ink_unit {x k : Rat} (hx : 0 ≤ x) (hle : k ≤ 1 - x) (hk1 : k < 1) : Spec.Unit01 ((1 - x - k) / (1 - k)) ∧ (1 - x - k) / (1 - k) * (1 - k) = 1 - x - k := by
  have hp : 0 < 1 - k := by grind
  have hi : 0 < (1 - k)⁻¹ := Rat.inv_pos.2 hp
  have hc : (1 - k)⁻¹ * (1 - k) = 1 := Rat.inv_mul_cancel _ (by grind)
  have e : (1 - x - k) / (1 - k) * (1 - k) = 1 - x - k := by rw [Rat.div_def, Rat.mul_assoc, hc, Rat.mul_one]
  refine ⟨⟨?_, ?_⟩, e⟩
  · rw [Rat.div_def]; exact Rat.mul_nonneg (by grind) (Rat.le_of_lt hi)
  · have h1 : 0 ≤ (1 - (1 - x - k)) - k := by grind
    have h2 : 0 ≤ ((1 - (1 - x - k)) - k) * (1 - k)⁻¹ := Rat.mul_nonneg h1 (Rat.le_of_lt hi)
    have h3 : ((1 - (1 - x - k)) - k) * (1 - k)⁻¹ = (1 - k) * (1 - k)⁻¹ - (1 - x - k) * (1 - k)⁻¹ := by grind
    rw [h3, Rat.mul_comm (1 - k), hc, ← Rat.div_def] at h2
    grind

/-- Converting an RGB colour to CMYK and back gives the same colour: for every RGB colour, nothing is out of range. -/
theorem C162_rgb_cmyk_rgb (r g b : Rat) (h : Spec.ValidBase (.rgb r g b)) :
    ∃ c m y k, (Color.base (.rgb r g b)).toCmyk = .ok (.base (.cmyk c m y k)) ∧ Spec.ValidBase (.cmyk c m y k) ∧ (Color.base (.cmyk c m y k)).toRgb = .ok (.base (.rgb r g b)) := by
  obtain ⟨hr, hg, hb⟩ := h
  obtain ⟨hk, h1, h2, h3⟩ := blackOf_spec r g b hr hg hb
  by_cases hlt : blackOf r g b < 1
  · obtain ⟨u1, e1⟩ := ink_unit hr.1 h1 hlt
    obtain ⟨u2, e2⟩ := ink_unit hg.1 h2 hlt
    obtain ⟨u3, e3⟩ := ink_unit hb.1 h3 hlt
    refine ⟨_, _, _, _, by rw [Color.toCmyk, rgbToCmyk, if_pos hlt]; exact newCmyk_ok u1 u2 u3 hk, ⟨u1, u2, u3, hk⟩, ?_⟩
    rw [Color.toRgb, cmykToRgb, e1, e2, e3]
    have q1 : 1 - (1 - r - blackOf r g b + blackOf r g b) = r := by grind
    have q2 : 1 - (1 - g - blackOf r g b + blackOf r g b) = g := by grind
    have q3 : 1 - (1 - b - blackOf r g b + blackOf r g b) = b := by grind
    rw [q1, q2, q3]
    exact newRgb_ok hr hg hb
  · have z : Spec.Unit01 0 := ⟨by decide, by decide⟩
    refine ⟨_, _, _, _, by rw [Color.toCmyk, rgbToCmyk, if_neg hlt]; exact newCmyk_ok z z z hk, ⟨z, z, z, hk⟩, ?_⟩
    have er : r = 0 := by have := hr.1; grind
    have eg : g = 0 := by have := hg.1; grind
    have eb : b = 0 := by have := hb.1; grind
    have ek : blackOf r g b = 1 := by have := hk.2; grind
    rw [Color.toRgb, cmykToRgb, ek, show (1 : Rat) - (0 * (1 - 1) + 1) = 0 by decide +kernel, newRgb_ok z z z, er, eg, eb]

/-- A gray converted to RGB or CMYK and back to gray is the same gray. -/
theorem C162_gray (g : Rat) (h : Spec.ValidBase (.gray g)) :
    (∃ c, (Color.base (.gray g)).toRgb = .ok c ∧ c.toGray = .ok (.base (.gray g))) ∧
      (∃ c m y k, (Color.base (.gray g)).toCmyk = .ok (.base (.cmyk c m y k)) ∧ Spec.ValidBase (.cmyk c m y k) ∧ (Color.base (.cmyk c m y k)).toGray = .ok (.base (.gray g))) := by
  have e : 299 / 1000 * g + 587 / 1000 * g + 114 / 1000 * g = g := by grind
  have hg : rgbToGray g g g = .ok (.base (.gray g)) := by rw [rgbToGray, e]; exact newGray_ok h
  refine ⟨⟨_, newRgb_ok h h h, hg⟩, ?_⟩
  obtain ⟨x, m, y, k, h1, hv, h2⟩ := C162_rgb_cmyk_rgb g g g ⟨h, h, h⟩
  have h1' : rgbToCmyk g g g = .ok (.base (.cmyk x m y k)) := h1
  have h2' : cmykToRgb x m y k = .ok (.base (.rgb g g g)) := h2
  refine ⟨x, m, y, k, by rw [Color.toCmyk, newRgb_ok h h h]; exact h1', hv, ?_⟩
  rw [Color.toGray, h2']; exact hg

/-- Every device colour converts to gray, RGB and CMYK: nothing gets out of range. -/
theorem C162_total (c : BaseColor) (h : Spec.ValidBase c) (hl : ∀ l a b, c ≠ .lab l a b) :
    (∃ g, (Color.base c).toGray = .ok (.base (.gray g)) ∧ Spec.ValidBase (.gray g)) ∧
      (∃ r g b, (Color.base c).toRgb = .ok (.base (.rgb r g b)) ∧ Spec.ValidBase (.rgb r g b)) ∧
      ∃ x m y k, (Color.base c).toCmyk = .ok (.base (.cmyk x m y k)) ∧ Spec.ValidBase (.cmyk x m y k) := by
  have mix : ∀ r g b, Spec.Unit01 r → Spec.Unit01 g → Spec.Unit01 b → Spec.Unit01 (299 / 1000 * r + 587 / 1000 * g + 114 / 1000 * b) := by
    intro r g b ⟨_, _⟩ ⟨_, _⟩ ⟨_, _⟩
    constructor <;> grind
  cases c with
  | gray g =>
    refine ⟨⟨g, rfl, h⟩, ⟨g, g, g, newRgb_ok h h h, h, h, h⟩, ?_⟩
    obtain ⟨x, m, y, k, h1, hv, _⟩ := (C162_gray g h).2
    exact ⟨x, m, y, k, h1, hv⟩
  | rgb r g b =>
    refine ⟨⟨_, newGray_ok (mix r g b h.1 h.2.1 h.2.2), mix r g b h.1 h.2.1 h.2.2⟩, ⟨r, g, b, rfl, h⟩, ?_⟩
    obtain ⟨x, m, y, k, h1, hv, _⟩ := C162_rgb_cmyk_rgb r g b h
    exact ⟨x, m, y, k, h1, hv⟩
  | cmyk c m y k =>
    obtain ⟨h1, h2, h3, h4⟩ := h
    have u1 := unit_inv c k h1 h4
    have u2 := unit_inv m k h2 h4
    have u3 := unit_inv y k h3 h4
    have e := newRgb_ok u1 u2 u3
    refine ⟨⟨_, ?_, mix _ _ _ u1 u2 u3⟩, ⟨_, _, _, e, u1, u2, u3⟩, ⟨c, m, y, k, rfl, h1, h2, h3, h4⟩⟩
    rw [Color.toGray, cmykToRgb, e]
    exact newGray_ok (mix _ _ _ u1 u2 u3)
  | lab l a b => exact absurd rfl (hl l a b)

/-- A colour written to an array and read back is the same, for gray, RGB and CMYK. -/
theorem C162_array_partial (c : BaseColor) (h : Spec.ValidBase c) (hl : ∀ l a b, c ≠ .lab l a b) :
    ∃ l, (Color.base c).toArray = .ok l ∧ Color.fromArray (l.map some) = .ok (.base c) := by
  cases c with
  | gray g => exact ⟨_, rfl, by simp only [List.map, Color.fromArray, Color.tryFromArray, newGray_ok h, Except.map]⟩
  | rgb r g b => exact ⟨_, rfl, by simp only [List.map, Color.fromArray, Color.tryFromArray, newRgb_ok h.1 h.2.1 h.2.2, Except.map]⟩
  | cmyk c m y k => exact ⟨_, rfl, by simp only [List.map, Color.fromArray, Color.tryFromArray, newCmyk_ok h.1 h.2.1 h.2.2.1 h.2.2.2, Except.map]⟩
  | lab l a b => exact absurd rfl (hl l a b)

theorem newRgb_cases (r g b : Rat) : newRgb r g b = .ok (.base (.rgb r g b)) ∨ newRgb r g b = raise .ValueOutOfRange := by
  by_cases h : Spec.Unit01 r ∧ Spec.Unit01 g ∧ Spec.Unit01 b
  · exact .inl (newRgb_ok h.1 h.2.1 h.2.2)
  · exact .inr ((C162_ranges r g b).2.2.2.1 h)

theorem newGray_cases (g : Rat) : newGray g = .ok (.base (.gray g)) ∨ newGray g = raise .ValueOutOfRange := by
  by_cases h : Spec.Unit01 g
  · exact .inl (newGray_ok h)
  · exact .inr ((C162_ranges 0 g 0).2.1 h)

/-- A Lab or a separation colour is written to an array, but read back as an RGB or a gray colour or not at all; the empty array, which stands for transparency, is refused; and numbers out of range
raise also where failure should be told by the return value. -/
theorem C162_array_false (name : Bytes) (d l a b : Rat) (alt : BaseColor) :
    (∃ x, (Color.base (.lab l a b)).toArray = .ok x ∧ (Color.fromArray (x.map some) = .ok (.base (.rgb l a b)) ∨ Color.fromArray (x.map some) = raise .ValueOutOfRange)) ∧
      (∃ x, (Color.sep name d alt).toArray = .ok x ∧ (Color.fromArray (x.map some) = .ok (.base (.gray d)) ∨ Color.fromArray (x.map some) = raise .ValueOutOfRange)) ∧
      Color.fromArray [] = raise .InvalidDataType ∧ (¬ Spec.Unit01 d → Color.tryFromArray [some d] = raise .ValueOutOfRange) := by
  refine ⟨⟨_, rfl, ?_⟩, ⟨_, rfl, ?_⟩, rfl, ?_⟩
  · rcases newRgb_cases l a b with e | e
    · left; simp only [List.map, Color.fromArray, Color.tryFromArray, e, Except.map]
    · right; simp only [List.map, Color.fromArray, Color.tryFromArray, e, Except.map]
  · rcases newGray_cases d with e | e
    · left; simp only [List.map, Color.fromArray, Color.tryFromArray, e, Except.map]
    · right; simp only [List.map, Color.fromArray, Color.tryFromArray, e, Except.map]
  · intro h
    rw [Color.tryFromArray, (C162_ranges 0 d 0).2.1 h]; rfl

/-- An array of any other length, or with an element that is no number, is refused without raising. -/
theorem C162_array_refused (l : List (Option Rat)) (h : none ∈ l ∨ (l.length ≠ 1 ∧ l.length ≠ 3 ∧ l.length ≠ 4)) :
    Color.tryFromArray l = .ok none ∧ Color.fromArray l = raise .InvalidDataType := by
  have e : Color.tryFromArray l = .ok none := by
    rw [Color.tryFromArray.eq_def]
    split
    · simp at h
    · simp at h
    · simp at h
    · rfl
  exact ⟨e, by rw [Color.fromArray, e]⟩

/-- The density of a separation is not checked: any number is taken. -/
theorem C162_density_false (name : Bytes) (d : Rat) (c : BaseColor) (_h : ¬ Spec.Unit01 d) : newSeparation name d (.base c) = .ok (.sep name d c) := rfl

/-- `ConvertToGrayScale` of a CMYK separation gives an RGB colour, not a gray one. -/
theorem C162_separation_gray_false (name : Bytes) (d c m y k : Rat) (h : Spec.ValidBase (.cmyk c m y k)) :
    ∃ r g b, (Color.sep name d (.cmyk c m y k)).toGray = .ok (.base (.rgb r g b)) := by
  obtain ⟨h1, h2, h3, h4⟩ := h
  have e := newRgb_ok (unit_inv c k h1 h4) (unit_inv m k h2 h4) (unit_inv y k h3 h4)
  exact ⟨_, _, _, e⟩

/-- The colour a separation is converted to does not depend on its density, and only CMYK alternates are converted; to CMYK itself none is, although the values are there. -/
theorem C162_separation_false (name : Bytes) (d d' : Rat) (alt : BaseColor) :
    (Color.sep name d alt).toRgb = (Color.sep name d' alt).toRgb ∧ (Color.sep name d alt).toGray = (Color.sep name d' alt).toGray ∧ (Color.sep name d alt).toCmyk = raise .CannotConvertColor ∧
      ((∀ c m y k, alt ≠ .cmyk c m y k) → (Color.sep name d alt).toRgb = raise .NotImplemented ∧ (Color.sep name d alt).toGray = raise .NotImplemented) := by
  cases alt with
  | cmyk c m y k => exact ⟨rfl, rfl, rfl, fun h => absurd rfl (h c m y k)⟩
  | _ => exact ⟨rfl, rfl, rfl, fun _ => ⟨rfl, rfl⟩⟩

/-- The red, green and blue of a CMYK colour are what the inks leave of white. -/
theorem C162_cmyk_rgb (c m y k : Rat) (h : Spec.ValidBase (.cmyk c m y k)) :
    (Color.base (.cmyk c m y k)).toRgb = .ok (.base (.rgb ((1 - c) * (1 - k)) ((1 - m) * (1 - k)) ((1 - y) * (1 - k)))) := by
  obtain ⟨h1, h2, h3, h4⟩ := h
  have e : ∀ x : Rat, 1 - (x * (1 - k) + k) = (1 - x) * (1 - k) := by intro x; grind
  have := newRgb_ok (unit_inv c k h1 h4) (unit_inv m k h2 h4) (unit_inv y k h3 h4)
  rw [e, e, e] at this
  rw [Color.toRgb, cmykToRgb, e, e, e, this]

/-- A CMYK colour with all three inks and no black changes on the way to RGB and back. -/
theorem C162_cmyk_rgb_cmyk_false (c m y : Rat) (hc : 0 < c ∧ c ≤ 1) (hm : 0 < m ∧ m ≤ 1) (hy : 0 < y ∧ y ≤ 1) (d e : Color)
    (h1 : (Color.base (.cmyk c m y 0)).toRgb = .ok d) (h2 : d.toCmyk = .ok e) : e ≠ .base (.cmyk c m y 0) := by
  intro he
  subst he
  have z : Spec.Unit01 0 := ⟨by decide, by decide⟩
  rw [C162_cmyk_rgb c m y 0 ⟨⟨Rat.le_of_lt hc.1, hc.2⟩, ⟨Rat.le_of_lt hm.1, hm.2⟩, ⟨Rat.le_of_lt hy.1, hy.2⟩, z⟩] at h1
  injection h1 with h1
  subst h1
  have hb : 0 < blackOf ((1 - c) * (1 - 0)) ((1 - m) * (1 - 0)) ((1 - y) * (1 - 0)) := by
    obtain ⟨_, _⟩ := hc
    obtain ⟨_, _⟩ := hm
    obtain ⟨_, _⟩ := hy
    simp only [blackOf, minR]
    grind
  obtain ⟨k, hk⟩ : ∃ k, k = blackOf ((1 - c) * (1 - 0)) ((1 - m) * (1 - 0)) ((1 - y) * (1 - 0)) := ⟨_, rfl⟩
  have out : ∀ x m y k : Rat, ∀ d, newCmyk x m y k = .ok d → d = .base (.cmyk x m y k) := by
    intro x m y k d h
    rw [newCmyk] at h
    simp only [colorRange] at h
    split at h
    · cases h
    · simp only [Except.bind] at h
      split at h
      · cases h
      · repeat' split at h
        all_goals first | (cases h; rfl) | cases h | skip
        all_goals simp_all
  rw [Color.toCmyk, rgbToCmyk, ← hk] at h2
  rw [← hk] at hb
  split at h2
  all_goals
    have := out _ _ _ _ _ h2
    injection this with this
    injection this with _ _ _ this
    rw [← this] at hb
    exact absurd hb (by decide)


/-! ## The tint function of a separation -/

/-- `static_cast<char>(double)`: cut towards zero; where `char` is signed, as on x86, a value that does not fit is undefined behaviour. -/
def castChar (x : Rat) : Res Int :=
  let t := if x < 0 then -(-x).floor else x.floor
  if -128 ≤ t ∧ t ≤ 127 then .ok t else .error .ub

/-- Several of them. -/
def castChars : List Rat → Res (List Int)
  | [] => .ok []
  | x :: l => (castChar x).bind fun a => (castChars l).map fun r => a :: r

/-- The samples of the tint function at tint 0 and at tint 1: `src/pdfmm/base/PdfColor.cpp:903-905` (gray), `:930-936` (RGB), `:965-973` (CMYK), `:1004-1010` (Lab). The rest of
`BuildColorSpace`, `:862-1098`, is left out. -/
def tintSamples : BaseColor → Res (List Int × List Int)
  | .gray g => (castChars [g]).map fun l => ([0], l)
  | .rgb r g b => (castChars [r * 255, g * 255, b * 255]).map fun l => ([0, 0, 0], l)
  | .cmyk c m y k => (castChars [c * 255, m * 255, y * 255, k * 255]).map fun l => ([0, 0, 0, 0], l)
  | .lab l a b => (castChars [l * 255, a * 255, b * 255]).map fun l => ([0, 0, 0], l)

/-- A sample stands for a component: it is the component in steps of 1/255, rounded down. -/
def Spec.SampleOf (x : Rat) (s : Int) : Prop := (s : Rat) ≤ x * 255 ∧ x * 255 < (s : Rat) + 1

/-- Small enough for a `char`. -/
def Spec.Small (x : Rat) : Prop := 0 ≤ x ∧ x * 255 < 128

theorem castChar_nonneg {x : Rat} (h0 : 0 ≤ x) : castChar x = if x.floor ≤ 127 then .ok x.floor else .error .ub := by
  have hf0 : 0 ≤ x.floor := Rat.le_floor_iff.2 (by simpa using h0)
  rw [castChar, if_neg (Rat.not_lt.2 h0)]
  by_cases h : x.floor ≤ 127
  · rw [if_pos ⟨by omega, h⟩, if_pos h]
  · rw [if_neg (fun c => h c.2), if_neg h]

theorem castChar_sample {x : Rat} (h : Spec.Small x) : ∃ s, castChar (x * 255) = .ok s ∧ Spec.SampleOf x s := by
  have hn : 0 ≤ x * 255 := Rat.mul_nonneg h.1 (by decide +kernel)
  have hle := Rat.floor_le (x * 255)
  have hlt := Rat.lt_floor_add_one (x * 255)
  have hf : (x * 255).floor < 128 := by
    have h2 : (((x * 255).floor : Int) : Rat) < ((128 : Int) : Rat) := by
      have := h.2
      have : (((x * 255).floor : Int) : Rat) < 128 := by grind
      exact this
    exact Rat.intCast_lt_intCast.1 h2
  refine ⟨(x * 255).floor, by rw [castChar_nonneg hn, if_pos (by omega)], hle, ?_⟩
  rw [Rat.intCast_add] at hlt
  exact hlt

theorem castChar_big {x : Rat} (h : 128 ≤ x * 255) : castChar (x * 255) = .error .ub := by
  have hn : 0 ≤ x * 255 := Rat.le_trans (by decide) h
  have : (128 : Int) ≤ (x * 255).floor := Rat.le_floor_iff.2 h
  rw [castChar_nonneg hn, if_neg (by omega)]

theorem castChars_big (l : List Rat) (h : ∃ x ∈ l, 128 ≤ x) (h0 : ∀ x ∈ l, 0 ≤ x) : castChars l = .error .ub := by
  induction l with
  | nil => obtain ⟨x, hx, _⟩ := h; cases hx
  | cons a l ih =>
    rw [castChars, castChar_nonneg (h0 a (by simp))]
    by_cases ha : a.floor ≤ 127
    · rw [if_pos ha]
      have : ∃ x ∈ l, 128 ≤ x := by
        obtain ⟨x, hx, hb⟩ := h
        rcases List.mem_cons.1 hx with rfl | hx
        · have : (128 : Int) ≤ x.floor := Rat.le_floor_iff.2 hb
          omega
        · exact ⟨x, hx, hb⟩
      rw [ih this (fun x hx => h0 x (List.mem_cons_of_mem _ hx))]; rfl
    · rw [if_neg ha]; rfl

/-- A separation standing for CMYK inks all below 128/255: no ink at tint 0, and at tint 1 the inks given, to 1/255. -/
theorem C162_tint_partial (c m y k : Rat) (h1 : Spec.Small c) (h2 : Spec.Small m) (h3 : Spec.Small y) (h4 : Spec.Small k) :
    ∃ a b d e, tintSamples (.cmyk c m y k) = .ok ([0, 0, 0, 0], [a, b, d, e]) ∧ Spec.SampleOf c a ∧ Spec.SampleOf m b ∧ Spec.SampleOf y d ∧ Spec.SampleOf k e := by
  obtain ⟨a, ea, ha⟩ := castChar_sample h1
  obtain ⟨b, eb, hb⟩ := castChar_sample h2
  obtain ⟨d, ed, hd⟩ := castChar_sample h3
  obtain ⟨e, ee, he⟩ := castChar_sample h4
  refine ⟨a, b, d, e, ?_, ha, hb, hd, he⟩
  simp only [tintSamples, castChars, ea, eb, ed, ee, Except.bind, Except.map]

/-- The same of RGB at tint 1; but tint 0, no colorant at all, is black. -/
theorem C162_tint_rgb_partial (r g b : Rat) (h1 : Spec.Small r) (h2 : Spec.Small g) (h3 : Spec.Small b) :
    ∃ a c d, tintSamples (.rgb r g b) = .ok ([0, 0, 0], [a, c, d]) ∧ Spec.SampleOf r a ∧ Spec.SampleOf g c ∧ Spec.SampleOf b d := by
  obtain ⟨a, ea, ha⟩ := castChar_sample h1
  obtain ⟨c, ec, hc⟩ := castChar_sample h2
  obtain ⟨d, ed, hd⟩ := castChar_sample h3
  refine ⟨a, c, d, ?_, ha, hc, hd⟩
  simp only [tintSamples, castChars, ea, ec, ed, Except.bind, Except.map]

/-- With a component of 128/255 or more the conversion to `char` is undefined: full ink, or white, never works. -/
theorem C162_tint_large_false (c m y k : Rat) (h : Spec.ValidBase (.cmyk c m y k)) (hb : 128 ≤ c * 255 ∨ 128 ≤ m * 255 ∨ 128 ≤ y * 255 ∨ 128 ≤ k * 255) :
    tintSamples (.cmyk c m y k) = .error .ub ∧ (128 ≤ c * 255 ∨ 128 ≤ m * 255 ∨ 128 ≤ y * 255 → tintSamples (.rgb c m y) = .error .ub) := by
  obtain ⟨h1, h2, h3, h4⟩ := h
  have nn : ∀ x : Rat, Spec.Unit01 x → 0 ≤ x * 255 := fun x hx => Rat.mul_nonneg hx.1 (by decide +kernel)
  constructor
  · rw [tintSamples, castChars_big]
    · rfl
    · rcases hb with hb | hb | hb | hb <;> exact ⟨_, by simp, hb⟩
    · intro x hx
      simp only [List.mem_cons, List.not_mem_nil, or_false] at hx
      rcases hx with rfl | rfl | rfl | rfl
      · exact nn _ h1
      · exact nn _ h2
      · exact nn _ h3
      · exact nn _ h4
  · intro hb
    rw [tintSamples, castChars_big]
    · rfl
    · rcases hb with hb | hb | hb <;> exact ⟨_, by simp, hb⟩
    · intro x hx
      simp only [List.mem_cons, List.not_mem_nil, or_false] at hx
      rcases hx with rfl | rfl | rfl
      · exact nn _ h1
      · exact nn _ h2
      · exact nn _ h3

/-- A gray alternate is not scaled: every gray below white has the sample 0, which is black, and white has the sample 1. -/
theorem C162_tint_gray_false (g : Rat) (h : Spec.Unit01 g) : tintSamples (.gray g) = .ok ([0], [if g < 1 then 0 else 1]) := by
  have hf0 : (0 : Int) ≤ g.floor := Rat.le_floor_iff.2 (by simpa using h.1)
  have e : castChar g = .ok (if g < 1 then 0 else 1) := by
    have hle := Rat.floor_le g
    rw [castChar_nonneg h.1]
    split
    · rename_i hf
      split
      · rename_i hlt
        have : ((g.floor : Int) : Rat) < ((1 : Int) : Rat) := by
          have : ((g.floor : Int) : Rat) < 1 := by grind
          exact this
        have := Rat.intCast_lt_intCast.1 this
        rw [show g.floor = 0 by omega]
      · rename_i hge
        have e1 : g = 1 := by have := h.2; grind
        rw [e1]; rfl
    · rename_i hf
      have : ((g.floor : Int) : Rat) ≤ ((1 : Int) : Rat) := by
        have := h.2
        have : ((g.floor : Int) : Rat) ≤ 1 := by grind
        exact this
      have := Rat.intCast_le_intCast.1 this
      omega
  simp only [tintSamples, castChars, e, Except.bind, Except.map]

/-- A Lab alternate of any lightness from 1 up is undefined, although the lightness goes to 100. -/
theorem C162_tint_lab_false (l a b : Rat) (h : 1 ≤ l) : tintSamples (.lab l a b) = .error .ub := by
  have : castChar (l * 255) = .error .ub := castChar_big (by grind)
  simp only [tintSamples, castChars, this, Except.bind, Except.map]

/-! ## Colours from text -/

/-- The number `std::from_chars` reads, as in `fromCharsFixed`. -/
def fixedRat : Bool × Nat × Nat → Rat
  | (neg, m, s) => if neg then -((m : Rat) / (10 : Rat) ^ s) else (m : Rat) / (10 : Rat) ^ s

/-- Two hexadecimal digits, `src/pdfmm/base/PdfColor.cpp:707-719` and `:736-751`. -/
def hexPair (hi lo : Byte) : Option Rat :=
  match tryGetHexValue hi, tryGetHexValue lo with
  | some a, some b => some (((16 * a.toNat + b.toNat : Nat) : Rat) / 255)
  | _, _ => none

/-- `std::tolower` in the C locale. -/
def lowerB (b : Byte) : Byte := if 65 ≤ b ∧ b ≤ 90 then b + 32 else b

/-- `utls::ToLower`, `src/pdfmm/private/PdfDeclarationsPrivate.cpp:990-996`. -/
def lowerBytes (s : Bytes) : Bytes := s.map lowerB

/-- `s_NamedColors`, `src/pdfmm/base/PdfColor.cpp:145-295`: names and colour codes. -/
def namedColorRows : List (String × Nat) :=
  [("aliceblue", 0xF0F8FF), ("antiquewhite", 0xFAEBD7), ("aqua", 0x00FFFF), ("aquamarine", 0x7FFFD4), ("azure", 0xF0FFFF), ("beige", 0xF5F5DC),
   ("bisque", 0xFFE4C4), ("black", 0x000000), ("blanchedalmond", 0xFFEBCD), ("blue", 0x0000FF), ("blueviolet", 0x8A2BE2), ("brown", 0xA52A2A),
   ("burlywood", 0xDEB887), ("cadetblue", 0x5F9EA0), ("chartreuse", 0x7FFF00), ("chocolate", 0xD2691E), ("coral", 0xFF7F50), ("cornflowerblue", 0x6495ED),
   ("cornsilk", 0xFFF8DC), ("crimson", 0xDC143C), ("cyan", 0x00FFFF), ("darkblue", 0x00008B), ("darkcyan", 0x008B8B), ("darkgoldenrod", 0xB8860B),
   ("darkgray", 0xA9A9A9), ("darkgreen", 0x006400), ("darkgrey", 0xA9A9A9), ("darkkhaki", 0xBDB76B), ("darkmagenta", 0x8B008B), ("darkolivegreen", 0x556B2F),
   ("darkorange", 0xFF8C00), ("darkorchid", 0x9932CC), ("darkred", 0x8B0000), ("darksalmon", 0xE9967A), ("darkseagreen", 0x8FBC8F), ("darkslateblue", 0x483D8B),
   ("darkslategray", 0x2F4F4F), ("darkslategrey", 0x2F4F4F), ("darkturquoise", 0x00CED1), ("darkviolet", 0x9400D3), ("deeppink", 0xFF1493), ("deepskyblue", 0x00BFFF),
   ("dimgray", 0x696969), ("dimgrey", 0x696969), ("dodgerblue", 0x1E90FF), ("firebrick", 0xB22222), ("floralwhite", 0xFFFAF0), ("forestgreen", 0x228B22),
   ("fuchsia", 0xFF00FF), ("gainsboro", 0xDCDCDC), ("ghostwhite", 0xF8F8FF), ("gold", 0xFFD700), ("goldenrod", 0xDAA520), ("gray", 0xBEBEBE),
   ("green", 0x00FF00), ("greenyellow", 0xADFF2F), ("grey", 0xBEBEBE), ("honeydew", 0xF0FFF0), ("hotpink", 0xFF69B4), ("indianred", 0xCD5C5C),
   ("indigo", 0x4B0082), ("ivory", 0xFFFFF0), ("khaki", 0xF0E68C), ("lavender", 0xE6E6FA), ("lavenderblush", 0xFFF0F5), ("lawngreen", 0x7CFC00),
   ("lemonchiffon", 0xFFFACD), ("lightblue", 0xADD8E6), ("lightcoral", 0xF08080), ("lightcyan", 0xE0FFFF), ("lightgoldenrod", 0xEEDD82), ("lightgoldenrodyellow", 0xFAFAD2),
   ("lightgray", 0xD3D3D3), ("lightgreen", 0x90EE90), ("lightgrey", 0xD3D3D3), ("lightpink", 0xFFB6C1), ("lightsalmon", 0xFFA07A), ("lightseagreen", 0x20B2AA),
   ("lightskyblue", 0x87CEFA), ("lightslategray", 0x778899), ("lightslategrey", 0x778899), ("lightsteelblue", 0xB0C4DE), ("lightyellow", 0xFFFFE0), ("lime", 0x00FF00),
   ("limegreen", 0x32CD32), ("linen", 0xFAF0E6), ("magenta", 0xFF00FF), ("maroon", 0xB03060), ("mediumaquamarine", 0x66CDAA), ("mediumblue", 0x0000CD),
   ("mediumorchid", 0xBA55D3), ("mediumpurple", 0x9370DB), ("mediumseagreen", 0x3CB371), ("mediumslateblue", 0x7B68EE), ("mediumspringgreen", 0x00FA9A), ("mediumturquoise", 0x48D1CC),
   ("mediumvioletred", 0xC71585), ("midnightblue", 0x191970), ("mintcream", 0xF5FFFA), ("mistyrose", 0xFFE4E1), ("moccasin", 0xFFE4B5), ("navajowhite", 0xFFDEAD),
   ("navy", 0x000080), ("oldlace", 0xFDF5E6), ("olive", 0x808000), ("olivedrab", 0x6B8E23), ("orange", 0xFFA500), ("orangered", 0xFF4500),
   ("orchid", 0xDA70D6), ("palegoldenrod", 0xEEE8AA), ("palegreen", 0x98FB98), ("paleturquoise", 0xAFEEEE), ("palevioletred", 0xDB7093), ("papayawhip", 0xFFEFD5),
   ("peachpuff", 0xFFDAB9), ("peru", 0xCD853F), ("pink", 0xFFC0CB), ("plum", 0xDDA0DD), ("powderblue", 0xB0E0E6), ("purple", 0xA020F0),
   ("red", 0xFF0000), ("rosybrown", 0xBC8F8F), ("royalblue", 0x4169E1), ("saddlebrown", 0x8B4513), ("salmon", 0xFA8072), ("sandybrown", 0xF4A460),
   ("seagreen", 0x2E8B57), ("seashell", 0xFFF5EE), ("sienna", 0xA0522D), ("silver", 0xC0C0C0), ("skyblue", 0x87CEEB), ("slateblue", 0x6A5ACD),
   ("slategray", 0x708090), ("slategrey", 0x708090), ("snow", 0xFFFAFA), ("springgreen", 0x00FF7F), ("steelblue", 0x4682B4), ("tan", 0xD2B48C),
   ("teal", 0x008080), ("thistle", 0xD8BFD8), ("tomato", 0xFF6347), ("turquoise", 0x40E0D0), ("violet", 0xEE82EE), ("wheat", 0xF5DEB3),
   ("white", 0xFFFFFF), ("whitesmoke", 0xF5F5F5), ("yellow", 0xFFFF00), ("yellowgreen", 0x9ACD32)]

/-- The same with the names as bytes, `src/pdfmm/base/PdfColor.cpp:145-295`. -/
def namedColors : List (Bytes × Nat) := namedColorRows.map fun p => (asciiB p.1, p.2)

/-- `FromRGBString`, `src/pdfmm/base/PdfColor.cpp:1114-1118`. -/
def rgbOfCode (n : Nat) : Color := .base (.rgb (((n / 65536 % 256 : Nat) : Rat) / 255) (((n / 256 % 256 : Nat) : Rat) / 255) (((n % 256 : Nat) : Rat) / 255))

/-- `std::equal_range` on a sorted table, `src/pdfmm/base/PdfColor.cpp:780-786`: the first entry that is not less, if the name is not less than it. -/
def lookupNamed (tab : List (Bytes × Nat)) (key : Bytes) : Option Nat :=
  match tab.dropWhile fun p => StrictOrd.lt p.1 key with
  | [] => none
  | p :: _ => if StrictOrd.lt key p.1 then none else some p.2

/-- A string view handed on by its pointer alone, `name.data()`: what is read goes up to the next zero byte, in the view or behind it. -/
def throughPointer (view behind : Bytes) : Res Bytes := if 0 ∈ view ++ behind then .ok ((view ++ behind).takeWhile (· ≠ 0)) else .error .ub

/-- `PdfColor()`, `src/pdfmm/base/PdfColor.cpp:303-311`. -/
def defaultColor : Color := .base (.gray 0)

/-- The colour of six or eight hexadecimal digits, `src/pdfmm/base/PdfColor.cpp:696-763`. -/
def hexColor : Bytes → Res Color
  | [a, b, c, d, e, f] => match hexPair a b, hexPair c d, hexPair e f with
    | some x, some y, some z => newRgb x y z
    | _, _, _ => raise .CannotConvertColor
  | [a, b, c, d, e, f, g, h] => match hexPair a b, hexPair c d, hexPair e f, hexPair g h with
    | some x, some y, some z, some w => newCmyk x y z w
    | _, _, _, _ => raise .CannotConvertColor
  | _ => .ok defaultColor

/-- `FromString`, `src/pdfmm/base/PdfColor.cpp:681-790`. `behind` is what follows the text in memory; `array` is what the tokenizer and `FromArray` make of a text that starts with `[`, which is
modelled elsewhere. `isdigit` of a negative `char` is taken to be false. -/
def Color.fromString (array : Bytes → Res Color) (view behind : Bytes) : Res Color :=
  match view with
  | [] => .ok defaultColor
  | c :: rest =>
    if isDigitB c ∨ c = 46 then
      match fromCharsFixed rest with
      | none => raise .NoNumber
      | some v => newGray (fixedRat v)
    else if c = 35 then hexColor rest
    else if c = 91 then array view
    else match throughPointer view behind with
      | .error e => .error e
      | .ok key => .ok (match lookupNamed namedColors (lowerBytes key) with
        | some n => rgbOfCode n
        | none => defaultColor)

/-- The number `0.d₁d₂…`. -/
def Spec.frac : Bytes → Rat
  | [] => 0
  | d :: ds => (((d.toNat - 48 : Nat) : Rat) + Spec.frac ds) / 10

/-- The number `d₁d₂…`. -/
def Spec.whole (ds : Bytes) : Nat := ds.foldl (fun a c => 10 * a + (c.toNat - 48)) 0

theorem frac_eq (ds : Bytes) : ((decVal ds : Nat) : Rat) / (10 : Rat) ^ ds.length = Spec.frac ds := by
  induction ds with
  | nil => decide +kernel
  | cons d ds ih =>
    have e := decVal_append_list [d] ds
    rw [show [d] ++ ds = d :: ds from rfl, show decVal [d] = d.toNat - 48 by simp [decVal]] at e
    have hp : (10 : Rat) ^ ds.length ≠ 0 := by
      have : (0 : Rat) < (10 : Rat) ^ ds.length := Rat.pow_pos (by decide)
      intro c; rw [c] at this; exact absurd this (by decide)
    rw [Spec.frac, ← ih, e, List.length_cons, Rat.pow_succ, Rat.natCast_add, Rat.natCast_mul, Rat.natCast_pow]
    have hc : (10 : Rat) ^ ds.length * ((10 : Rat) ^ ds.length)⁻¹ = 1 := Rat.mul_inv_cancel _ hp
    simp only [Rat.div_def, Rat.inv_mul_rev]
    rw [show ((10 : Nat) : Rat) = 10 from rfl]
    grind

theorem fixed_point {ds : Bytes} (hd : ∀ c ∈ ds, isDigitB c = true) (hn : ds ≠ []) : fromCharsFixed (46 :: ds) = some (false, decVal ds, ds.length) := by
  have ht : ds.takeWhile isDigitB = ds := by simpa using takeWhile_all hd [] (by intro c t h; cases h)
  rw [fromCharsFixed]
  · rw [fromCharsFixed.fixedBody]
    have : isDigitB 46 = false := by decide
    simp only [List.dropWhile, List.takeWhile, this, ht]
    rw [if_neg (fun c => hn c.2)]; rfl
  · intro r h; cases h

theorem fixed_whole {ds : Bytes} (hd : ∀ c ∈ ds, isDigitB c = true) (hn : ds ≠ []) : fromCharsFixed ds = some (false, decVal ds, 0) := by
  have ht : ds.takeWhile isDigitB = ds := by simpa using takeWhile_all hd [] (by intro c t h; cases h)
  have hdr : ds.dropWhile isDigitB = [] := by
    have := List.takeWhile_append_dropWhile (p := isDigitB) (l := ds)
    rw [ht] at this
    exact List.append_right_eq_self.1 this
  rw [fromCharsFixed]
  · rw [fromCharsFixed.fixedBody, hdr, ht, if_neg hn]
  · intro r h
    subst h
    exact absurd (hd 45 (by simp)) (by decide)

/-- A text `0.d₁d₂…` is that gray. -/
theorem C162_number_partial (array : Bytes → Res Color) (ds behind : Bytes) (hd : ∀ c ∈ ds, isDigitB c = true) (hn : ds ≠ []) :
    Color.fromString array (48 :: 46 :: ds) behind = newGray (Spec.frac ds) := by
  rw [Color.fromString, if_pos (.inl (by decide)), fixed_point hd hn]
  simp only [fixedRat, frac_eq]; rfl

/-- The first character of a number is skipped: `1.d₁d₂…` is taken for `0.d₁d₂…`, so `1.0` is black; a single digit raises; `.d₁d₂…` is taken for the whole number `d₁d₂…`. -/
theorem C162_number_false (array : Bytes → Res Color) (c : Byte) (ds behind : Bytes) (hc : isDigitB c = true) (hd : ∀ c ∈ ds, isDigitB c = true) (hn : ds ≠ []) :
    Color.fromString array (c :: 46 :: ds) behind = newGray (Spec.frac ds) ∧ Color.fromString array [c] behind = raise .NoNumber ∧
      Color.fromString array (46 :: ds) behind = newGray (Spec.whole ds) := by
  refine ⟨?_, ?_, ?_⟩
  · rw [Color.fromString, if_pos (.inl hc), fixed_point hd hn]
    simp only [fixedRat, frac_eq]; rfl
  · rw [Color.fromString, if_pos (.inl hc)]; rfl
  · rw [Color.fromString, if_pos (.inr rfl), fixed_whole hd hn]
    simp only [fixedRat]
    rw [show ((10 : Rat) ^ 0) = 1 by decide +kernel, Rat.div_def, show (1 : Rat)⁻¹ = 1 by decide +kernel, Rat.mul_one]; rfl

/-- A minus sign behind the first digit counts: such a text is a negative number, or zero, and not a gray unless it is zero. -/
theorem C162_number_sign (array : Bytes → Res Color) (c : Byte) (ds behind : Bytes) (hc : isDigitB c = true) (hd : ∀ c ∈ ds, isDigitB c = true) (hn : ds ≠ []) :
    Color.fromString array (c :: 45 :: ds) behind = newGray (-(Spec.whole ds : Rat)) ∧ (0 < Spec.whole ds → Color.fromString array (c :: 45 :: ds) behind = raise .ValueOutOfRange) := by
  have hv : fromCharsFixed (45 :: ds) = some (true, decVal ds, 0) := by
    have ht : ds.takeWhile isDigitB = ds := by simpa using takeWhile_all hd [] (by intro c t h; cases h)
    have hdr : ds.dropWhile isDigitB = [] := by
      have := List.takeWhile_append_dropWhile (p := isDigitB) (l := ds)
      rw [ht] at this
      exact List.append_right_eq_self.1 this
    rw [fromCharsFixed, fromCharsFixed.fixedBody, hdr, ht, if_neg hn]
  have e : Color.fromString array (c :: 45 :: ds) behind = newGray (-(Spec.whole ds : Rat)) := by
    rw [Color.fromString, if_pos (.inl hc), hv]
    simp only [fixedRat, if_true]
    rw [show ((10 : Rat) ^ 0) = 1 by decide +kernel, Rat.div_def, show (1 : Rat)⁻¹ = 1 by decide +kernel, Rat.mul_one]; rfl
  refine ⟨e, fun h => ?_⟩
  have hp : (0 : Rat) < (Spec.whole ds : Rat) := by
    have := Rat.natCast_lt_natCast.2 h
    simpa using this
  rw [e, newGray, colorRange, if_pos (Or.inl (by grind))]; rfl

theorem hexVal_try (b : Byte) : (tryGetHexValue b).map UInt8.toNat = Spec.hexVal b := by
  refine forall_byte (P := fun b => (tryGetHexValue b).map UInt8.toNat = Spec.hexVal b) ?_ b
  decide +kernel

theorem hexVal_lt {b : Byte} {v : Nat} (h : Spec.hexVal b = some v) : v < 16 := by
  rw [Spec.hexVal] at h
  repeat' split at h
  all_goals first | (injection h with h; omega) | cases h

theorem hexPair_some {a b : Byte} {x y : Nat} (hx : Spec.hexVal a = some x) (hy : Spec.hexVal b = some y) :
    hexPair a b = some (((16 * x + y : Nat) : Rat) / 255) ∧ Spec.Unit01 (((16 * x + y : Nat) : Rat) / 255) := by
  have l1 := hexVal_lt hx
  have l2 := hexVal_lt hy
  rw [← hexVal_try] at hx hy
  constructor
  · rw [hexPair]
    cases ea : tryGetHexValue a with
    | none => rw [ea] at hx; cases hx
    | some u =>
      cases eb : tryGetHexValue b with
      | none => rw [eb] at hy; cases hy
      | some v =>
        rw [ea] at hx; rw [eb] at hy
        injection hx with hx; injection hy with hy
        simp only [hx, hy]
  · have h1 : (0 : Rat) ≤ ((16 * x + y : Nat) : Rat) := by exact_mod_cast Nat.zero_le _
    have h2 : ((16 * x + y : Nat) : Rat) ≤ ((255 : Nat) : Rat) := Rat.natCast_le_natCast.2 (by omega)
    have h3 : ((255 : Nat) : Rat) = 255 := rfl
    rw [h3] at h2
    constructor <;> grind

theorem hexPair_none {a b : Byte} (h : Spec.hexVal a = none ∨ Spec.hexVal b = none) : hexPair a b = none := by
  rw [← hexVal_try, ← hexVal_try] at h
  rw [hexPair]
  cases ea : tryGetHexValue a <;> cases eb : tryGetHexValue b <;> simp_all

/-- `#rrggbb` is the RGB colour and `#ccmmyykk` the CMYK colour of those numbers out of 255, in digits of either case. -/
theorem C162_hex (array : Bytes → Res Color) (behind : Bytes) (a b c d e f g h : Byte) (va vb vc vd ve vf vg vh : Nat)
    (ha : Spec.hexVal a = some va) (hb : Spec.hexVal b = some vb) (hc : Spec.hexVal c = some vc) (hd : Spec.hexVal d = some vd)
    (he : Spec.hexVal e = some ve) (hf : Spec.hexVal f = some vf) (hg : Spec.hexVal g = some vg) (hh : Spec.hexVal h = some vh) :
    Color.fromString array [35, a, b, c, d, e, f] behind =
        .ok (.base (.rgb (((16 * va + vb : Nat) : Rat) / 255) (((16 * vc + vd : Nat) : Rat) / 255) (((16 * ve + vf : Nat) : Rat) / 255))) ∧
      Color.fromString array [35, a, b, c, d, e, f, g, h] behind =
        .ok (.base (.cmyk (((16 * va + vb : Nat) : Rat) / 255) (((16 * vc + vd : Nat) : Rat) / 255) (((16 * ve + vf : Nat) : Rat) / 255) (((16 * vg + vh : Nat) : Rat) / 255))) := by
  obtain ⟨e1, u1⟩ := hexPair_some ha hb
  obtain ⟨e2, u2⟩ := hexPair_some hc hd
  obtain ⟨e3, u3⟩ := hexPair_some he hf
  obtain ⟨e4, u4⟩ := hexPair_some hg hh
  constructor
  · rw [Color.fromString, if_neg (by decide), if_pos rfl, hexColor, e1, e2, e3]
    exact newRgb_ok u1 u2 u3
  · rw [Color.fromString, if_neg (by decide), if_pos rfl, hexColor, e1, e2, e3, e4]
    exact newCmyk_ok u1 u2 u3 u4

/-- Six characters after `#` that are not all hexadecimal digits raise. -/
theorem C162_hex_bad (array : Bytes → Res Color) (behind : Bytes) (a b c d e f : Byte) (h : ∃ x ∈ [a, b, c, d, e, f], Spec.hexVal x = none) :
    Color.fromString array [35, a, b, c, d, e, f] behind = raise .CannotConvertColor := by
  rw [Color.fromString, if_neg (by decide), if_pos rfl, hexColor]
  obtain ⟨x, hx, hn⟩ := h
  simp only [List.mem_cons, List.not_mem_nil, or_false] at hx
  rcases hx with rfl | rfl | rfl | rfl | rfl | rfl
  · rw [hexPair_none (.inl hn)]
  · rw [hexPair_none (.inr hn)]
  · rw [hexPair_none (a := x) (.inl hn)]; cases hexPair a b <;> rfl
  · rw [hexPair_none (b := x) (.inr hn)]; cases hexPair a b <;> rfl
  · rw [hexPair_none (a := x) (.inl hn)]; cases hexPair a b <;> cases hexPair c d <;> rfl
  · rw [hexPair_none (b := x) (.inr hn)]; cases hexPair a b <;> cases hexPair c d <;> rfl

/-- With any other number of characters the colour is black and nothing is raised. -/
theorem C162_hex_length_false (array : Bytes → Res Color) (rest behind : Bytes) (h6 : rest.length ≠ 6) (h8 : rest.length ≠ 8) :
    Color.fromString array (35 :: rest) behind = .ok (.base (.gray 0)) := by
  rw [Color.fromString, if_neg (by decide), if_pos rfl, hexColor.eq_def]
  split
  · simp at h6
  · simp at h8
  · rfl

/-! ### Named colours -/

/-- Each name is less than the next. -/
def ascending : List (Bytes × Nat) → Bool
  | [] => true
  | [_] => true
  | p :: q :: l => StrictOrd.lt p.1 q.1 && ascending (q :: l)

theorem ascending_sorted : ∀ l : List (Bytes × Nat), ascending l = true → SMap.Sorted l := by
  intro l
  induction l with
  | nil => intro _; trivial
  | cons p l ih =>
    cases l with
    | nil => intro _; exact ⟨(fun _ h => nomatch h), trivial⟩
    | cons q l =>
      intro h
      rw [ascending, Bool.and_eq_true] at h
      have hs := ih h.2
      refine ⟨?_, hs⟩
      intro x hx
      rcases List.mem_cons.1 hx with rfl | hx
      · exact h.1
      · exact StrictOrd.trans _ _ _ h.1 (hs.1 x hx)

/-- The table is sorted, as the search needs. -/
theorem namedColors_sorted : SMap.Sorted namedColors := ascending_sorted _ (by decide +kernel)

theorem lookupNamed_mem : ∀ (l : List (Bytes × Nat)), SMap.Sorted l → ∀ p ∈ l, lookupNamed l p.1 = some p.2 := by
  intro l
  induction l with
  | nil => intro _ p hp; cases hp
  | cons q l ih =>
    intro hs p hp
    rcases List.mem_cons.1 hp with rfl | hp
    · rw [lookupNamed]
      simp only [List.dropWhile, StrictOrd.irrefl]
      rfl
    · have hlt := hs.1 p hp
      have := ih hs.2 p hp
      rw [lookupNamed] at this ⊢
      simp only [List.dropWhile, hlt]
      exact this

theorem lookupNamed_none : ∀ (l : List (Bytes × Nat)) (k : Bytes), (∀ p ∈ l, p.1 ≠ k) → lookupNamed l k = none := by
  intro l k
  induction l with
  | nil => intro _; rfl
  | cons q l ih =>
    intro h
    rw [lookupNamed]
    cases hq : StrictOrd.lt q.1 k with
    | true =>
      simp only [List.dropWhile, hq]
      exact ih fun p hp => h p (List.mem_cons_of_mem _ hp)
    | false =>
      simp only [List.dropWhile, hq]
      have : StrictOrd.lt k q.1 = true := by
        rcases StrictOrd.total q.1 k (h q (by simp)) with c | c
        · rw [hq] at c; cases c
        · exact c
      rw [if_pos this]

/-- A text that is neither a number nor starts with `#` or `[`. -/
def Spec.ColorName (s : Bytes) : Prop := ∃ c t, s = c :: t ∧ isDigitB c = false ∧ c ≠ 46 ∧ c ≠ 35 ∧ c ≠ 91

theorem fromString_name (array : Bytes → Res Color) (s behind : Bytes) (hs : Spec.ColorName s) (key : Bytes) (hk : throughPointer s behind = .ok key) :
    Color.fromString array s behind = .ok (match lookupNamed namedColors (lowerBytes key) with
        | some n => rgbOfCode n
        | none => .base (.gray 0)) := by
  obtain ⟨c, t, rfl, h1, h2, h3, h4⟩ := hs
  rw [Color.fromString, if_neg (by rw [h1]; rintro (c | c); cases c; exact h2 c), if_neg h3, if_neg h4, hk]; rfl

theorem throughPointer_zero (s b : Bytes) (hz : 0 ∉ s) : throughPointer s (0 :: b) = .ok s := by
  rw [throughPointer, if_pos (by simp)]
  congr 1
  induction s with
  | nil => rfl
  | cons a s ih =>
    have ha : a ≠ 0 := fun c => hz (by rw [c]; simp)
    simp only [List.cons_append, List.takeWhile, ha, ne_eq, not_false_eq_true, decide_true]
    rw [ih fun c => hz (List.mem_cons_of_mem _ c)]

/-- A text is another one with its letters from `A` to `Z` made small, and nothing else changed. -/
def Spec.SmallLetters : Bytes → Bytes → Prop
  | [], [] => True
  | a :: s, b :: t => (if 65 ≤ a.toNat ∧ a.toNat ≤ 90 then b.toNat = a.toNat + 32 else b = a) ∧ Spec.SmallLetters s t
  | _, _ => False

theorem lowerB_spec (a b : Byte) : (if 65 ≤ a.toNat ∧ a.toNat ≤ 90 then b.toNat = a.toNat + 32 else b = a) ↔ b = lowerB a := by
  refine forall_byte2 (P := fun a b => (if 65 ≤ a.toNat ∧ a.toNat ≤ 90 then b.toNat = a.toNat + 32 else b = a) ↔ b = lowerB a) ?_ a b
  decide +kernel

theorem smallLetters_iff : ∀ s t : Bytes, Spec.SmallLetters s t ↔ t = lowerBytes s
  | [], [] => by simp [Spec.SmallLetters, lowerBytes]
  | [], b :: t => by simp [Spec.SmallLetters, lowerBytes]
  | a :: s, [] => by simp [Spec.SmallLetters, lowerBytes]
  | a :: s, b :: t => by
    rw [Spec.SmallLetters, lowerB_spec, smallLetters_iff s t]
    simp [lowerBytes]

/-- Every name of the table, in any mixture of cases, is its colour, if the text is followed by a zero byte. -/
theorem C162_named_partial (array : Bytes → Res Color) (s b name : Bytes) (hs : Spec.ColorName s) (hz : 0 ∉ s) (code : Nat) (hl : Spec.SmallLetters s name)
    (h : (name, code) ∈ namedColors) :
    Color.fromString array s (0 :: b) =
      .ok (.base (.rgb (((code / 65536 % 256 : Nat) : Rat) / 255) (((code / 256 % 256 : Nat) : Rat) / 255) (((code % 256 : Nat) : Rat) / 255))) := by
  rw [(smallLetters_iff s name).1 hl] at h
  rw [fromString_name array s _ hs s (throughPointer_zero s b hz), lookupNamed_mem _ namedColors_sorted _ h]; rfl

/-- A name that is not in the table is black; nothing is raised. -/
theorem C162_unknown_false (array : Bytes → Res Color) (s b : Bytes) (hs : Spec.ColorName s) (hz : 0 ∉ s) (h : ∀ p ∈ namedColors, ¬ Spec.SmallLetters s p.1) :
    Color.fromString array s (0 :: b) = .ok (.base (.gray 0)) := by
  rw [fromString_name array s _ hs s (throughPointer_zero s b hz), lookupNamed_none _ _ fun p hp e => h p hp ((smallLetters_iff s p.1).2 e)]

/-- The end of the view is not respected: a name followed in memory by more text is looked up with that text, and without a zero byte the read does not stop. -/
theorem C162_view_false (array : Bytes → Res Color) (s more b : Bytes) (hs : Spec.ColorName s) (hz : 0 ∉ s ++ more) :
    Color.fromString array s (more ++ 0 :: b) = Color.fromString array (s ++ more) (0 :: b) ∧ Color.fromString array s more = .error .ub := by
  obtain ⟨c, t, rfl, h1, h2, h3, h4⟩ := hs
  have hs' : Spec.ColorName (c :: t) := ⟨c, t, rfl, h1, h2, h3, h4⟩
  have hs'' : Spec.ColorName (c :: t ++ more) := ⟨c, t ++ more, rfl, h1, h2, h3, h4⟩
  have e1 : throughPointer (c :: t) (more ++ 0 :: b) = .ok (c :: t ++ more) := by
    rw [← throughPointer_zero _ b hz, throughPointer, throughPointer, List.append_assoc]
  constructor
  · rw [fromString_name array _ _ hs' _ e1, fromString_name array _ _ hs'' _ (throughPointer_zero _ b hz)]
  · rw [Color.fromString, if_neg (by rw [h1]; rintro (c | c); cases c; exact h2 c), if_neg h3, if_neg h4, throughPointer, if_neg hz]

/-! ## Cases that meet the hypotheses -/

example : Spec.ValidBase (.rgb (1 / 2) (1 / 4) 0) ∧ Spec.ValidBase (.cmyk 1 (1 / 3) 0 (1 / 5)) ∧ ¬ Spec.Unit01 (3 / 2) := by
  simp only [Spec.ValidBase, Spec.Unit01]; decide +kernel

example : (Color.base (.rgb (1 / 2) (1 / 4) 0)).toCmyk = .ok (.base (.cmyk 0 (1 / 2) 1 (1 / 2))) := by decide +kernel

example : (Color.sep (asciiB "Gold") 1 (.cmyk 0 (1 / 4) 1 0)).toGray = .ok (.base (.rgb 1 (3 / 4) 0)) := by decide +kernel

example : (Color.base (.cmyk (1 / 2) (1 / 2) (1 / 2) 0)).toRgb = .ok (.base (.rgb (1 / 2) (1 / 2) (1 / 2))) ∧
    (Color.base (.rgb (1 / 2) (1 / 2) (1 / 2))).toCmyk = .ok (.base (.cmyk 0 0 0 (1 / 2))) := by decide +kernel

example : Spec.Small (1 / 4) ∧ tintSamples (.cmyk (1 / 4) 0 (2 / 5) 0) = .ok ([0, 0, 0, 0], [63, 0, 102, 0]) ∧ tintSamples (.gray (9 / 10)) = .ok ([0], [0]) ∧
    tintSamples (.rgb 1 0 0) = .error .ub := by
  refine ⟨?_, by decide +kernel, by decide +kernel, by decide +kernel⟩
  simp only [Spec.Small]; decide +kernel

example : Color.fromString (fun _ => raise .NoObject) (asciiB "1.0") [] = .ok (.base (.gray 0)) ∧ Color.fromString (fun _ => raise .NoObject) (asciiB ".1") [] = .ok (.base (.gray 1)) ∧
    Color.fromString (fun _ => raise .NoObject) (asciiB "0.25") [] = .ok (.base (.gray (1 / 4))) ∧ Color.fromString (fun _ => raise .NoObject) (asciiB ".5") [] = raise .ValueOutOfRange := by
  decide +kernel

example : Color.fromString (fun _ => raise .NoObject) (asciiB "#Ff0080") [] = .ok (.base (.rgb 1 0 (128 / 255))) := by decide +kernel

example : Spec.ColorName (asciiB "Red") ∧ Spec.SmallLetters (asciiB "Red") (asciiB "red") ∧ (asciiB "red", 0xFF0000) ∈ namedColors ∧ Color.fromString (fun _ => raise .NoObject) (asciiB "Red") [0] = .ok (.base (.rgb 1 0 0)) ∧
    Color.fromString (fun _ => raise .NoObject) (asciiB "Red") (asciiB "dish" ++ [0]) = .ok (.base (.gray 0)) := by
  refine ⟨⟨82, _, rfl, by decide, by decide, by decide, by decide⟩, (smallLetters_iff _ _).2 (by decide), by decide +kernel, by decide +kernel, by decide +kernel⟩

end Pdfmm
