import Verif.Document.Annots
import Verif.Fonts.FontFiles
import Verif.Fonts.CidWidths
/-
C187: fonts loaded from their dictionaries: which are taken, their metrics, and the widths of their characters.
-/
set_option autoImplicit false
namespace Pdfmm

/-- A decimal number: numerator and number of decimals. -/
abbrev Dec := Int × Nat

/-- The product of two; the code multiplies doubles, whose rounding is not modelled. -/
def decMul (a b : Dec) : Dec := (a.1 * b.1, a.2 + b.2)

/-- `GetReal`, `src/pdfmm/base/PdfVariant.cpp:567-591`. -/
def decOf : Var → Res Dec
  | .num n => .ok (n, 0)
  | .real neg m s => .ok (if neg then -(m : Int) else m, s)
  | _ => raise .InvalidDataType

/-- `GetNumberLenient`, `src/pdfmm/base/PdfVariant.cpp:520-544`; a real outside of 64 bits cannot be converted. -/
def lenientInt : Var → Res Int
  | .num n => .ok n
  | .real neg m s => if roundDec m s < 9223372036854775808 then .ok (if neg then -(roundDec m s : Int) else roundDec m s) else .error .ub
  | _ => raise .InvalidDataType

/-- `GetNumber`, `src/pdfmm/base/PdfVariant.cpp:546-553`. -/
def strictInt : Var → Res Int
  | .num n => .ok n
  | _ => raise .InvalidDataType

def strictName : Var → Res Bytes
  | .name n => .ok n
  | _ => raise .InvalidDataType

def strictArr : Var → Res (List Var)
  | .arr l => .ok l
  | _ => raise .InvalidDataType

def strictDict : Var → Res FDict
  | .dict d => .ok d
  | _ => raise .InvalidDataType

/-- `PdfArray::operator[]`, `src/pdfmm/base/PdfArray.cpp:245-251` and `src/pdfmm/base/PdfArray.cpp:317-325`. -/
def arrAt (l : List Var) (i : Nat) : Res Var :=
  match l[i]? with
  | none => raise .ValueOutOfRange
  | some v => .ok v

/-- What is done with an entry when it is there. -/
def withKey {α : Type} (h : FDoc) (d : FDict) (k : Bytes) (absent : α) (f : Var → Res α) : Res α :=
  match h.findKey d k with
  | none => .ok absent
  | some v => f v

/-- `static_cast<int>` of a real: outside of 32 bits it is undefined. -/
def castInt (x : Dec) : Res Int :=
  if -2147483649 < x.1.tdiv (10 ^ x.2 : Nat) ∧ x.1.tdiv (10 ^ x.2 : Nat) < 2147483648 then .ok (x.1.tdiv (10 ^ x.2 : Nat)) else .error .ub

/-- `getBBox`, `src/pdfmm/base/PdfFontMetricsObject.cpp:527-537`, with the two scales. -/
def fontBBox (m0 m3 : Dec) (v : Var) : Res (List Dec) := do
  let l ← strictArr v
  let a0 ← arrAt l 0
  let x0 ← lenientInt a0
  let a1 ← arrAt l 1
  let x1 ← lenientInt a1
  let a2 ← arrAt l 2
  let x2 ← lenientInt a2
  let a3 ← arrAt l 3
  let x3 ← lenientInt a3
  .ok [decMul (x0, 0) m0, decMul (x1, 0) m3, decMul (x2, 0) m0, decMul (x3, 0) m3]

/-- The metrics read from a font dictionary, `src/pdfmm/base/PdfFontMetricsObject.h:82-119`, as far as they are modelled. -/
structure ObjMetrics where
  name : Bytes
  kind : FontFileKind
  bbox : List Dec
  m0 : Dec
  m3 : Dec
  widths : List Dec
  dflt : Dec
  weight : Int
  ascent : Dec
  descent : Dec

/-- The matrix of a new object: thousandths, `src/pdfmm/base/PdfFontMetricsObject.cpp:40-42`. -/
def thousandth : Dec := (1, 3)

/-- The values read from a descriptor at the end, `src/pdfmm/base/PdfFontMetricsObject.cpp:241-308`: weight, ascent and descent; the others only as far as they
can be refused.  A /FontStretch that is a string is read through the null pointer `name` (line 289). -/
def descTail (h : FDoc) (m3 : Dec) : Option Var → Res (Int × Dec × Dec)
  | none => .ok (-1, (0, 0), (0, 0))
  | some dv => do
    let d ← strictDict dv
    withKey h d (litBytes "FontStretch") () (fun v => match v with | .str _ _ => .error .ub | _ => .ok ())
    let w ← withKey h d (litBytes "FontWeight") (-1, 0) decOf
    let wi ← castInt w
    let _ ← withKey h d (litBytes "Flags") 0 strictInt
    let it ← withKey h d (litBytes "ItalicAngle") (0, 0) decOf
    let _ ← castInt it
    let asc ← withKey h d (litBytes "Ascent") (0, 0) decOf
    let desc ← withKey h d (litBytes "Descent") (0, 0) decOf
    let _ ← [litBytes "Leading", litBytes "CapHeight", litBytes "XHeight", litBytes "StemV", litBytes "StemH", litBytes "AvgWidth", litBytes "MaxWidth"].mapM
      (fun k => withKey h d k (0, 0) decOf)
    .ok (wi, decMul asc m3, decMul desc m3)

/-- The kind of the font program in a simple font, `src/pdfmm/base/PdfFontMetricsObject.cpp:78-110`.  The map FreeType makes of a TrueType program is not
modelled; it is not used for widths. -/
def simpleKind (h : FDoc) (k : FontFileKind) (d : FDict) : Res FontFileKind :=
  let own := if k = .type1 then litBytes "FontFile" else litBytes "FontFile2"
  if k = .type3 ∨ h.findKey d own ≠ none then .ok k
  else withKey h d (litBytes "FontFile3") k (fun f => do
    let fd ← strictDict f
    let s ← withKey h fd (litBytes "Subtype") [] strictName
    .ok (if k = .type1 ∧ s = litBytes "Type1C" then .type1CCF else if s = litBytes "OpenType" then .openType else k))

/-- A name, when there is none yet. -/
def nameOr (h : FDoc) (n : Bytes) (d : FDict) (k : Bytes) : Res Bytes := if n = [] then withKey h d k [] strictName else .ok n

/-- The first half of the metrics of a simple font, `src/pdfmm/base/PdfFontMetricsObject.cpp:61-113`: name, box, kind and default width.  Without a descriptor
all but Type 3 fonts go through a null pointer. -/
def simpleHead (h : FDoc) (f : FDict) (k : FontFileKind) (n : Bytes) : Option Var → Res (Bytes × List Dec × FontFileKind × Dec)
  | none =>
    if k = .type3 then do
      let n ← nameOr h n f (litBytes "Name")
      let b ← withKey h f (litBytes "FontBBox") [] (fontBBox thousandth thousandth)
      .ok (n, b, k, (0, 0))
    else .error .ub
  | some dv => do
    let d ← strictDict dv
    let n ← nameOr h n d (litBytes "FontName")
    let b ← withKey h d (litBytes "FontBBox") [] (fontBBox thousandth thousandth)
    let k ← simpleKind h k d
    let w ← withKey h d (litBytes "MissingWidth") (0, 0) decOf
    .ok (n, b, k, w)

/-- The matrix of a Type 3 font, `src/pdfmm/base/PdfFontMetricsObject.cpp:115-122`: the scales across and up. -/
def fontMatrix (h : FDoc) (f : FDict) (k : FontFileKind) : Res (Dec × Dec) :=
  if k ≠ .type3 then .ok (thousandth, thousandth)
  else withKey h f (litBytes "FontMatrix") (thousandth, thousandth) (fun v => do
    let l ← strictArr v
    let xs ← [0, 1, 2, 3, 4, 5].mapM (fun i => do
      let a ← arrAt l i
      decOf a)
    .ok (xs.getD 0 (0, 0), xs.getD 3 (0, 0)))

/-- The widths of a simple font, `src/pdfmm/base/PdfFontMetricsObject.cpp:124-131`. -/
def simpleWidths (m0 : Dec) : List Var → Res (List Dec)
  | [] => .ok []
  | v :: l => do
    let x ← decOf v
    let r ← simpleWidths m0 l
    .ok (decMul x m0 :: r)

/-- The kind a subtype of simple fonts starts as, `src/pdfmm/base/PdfFontMetricsObject.cpp:45-59`. -/
def simpleSub (s : Bytes) : Option FontFileKind :=
  if s = litBytes "Type1" then some .type1 else if s = litBytes "TrueType" then some .trueType else if s = litBytes "Type3" then some .type3 else none

/-- `PdfFontMetricsObject` of a simple font, `src/pdfmm/base/PdfFontMetricsObject.cpp:23-132` and `src/pdfmm/base/PdfFontMetricsObject.cpp:241-318`. -/
def simpleMetrics (h : FDoc) (f : FDict) (k : FontFileKind) (desc : Option Var) : Res ObjMetrics := do
  let n ← withKey h f (litBytes "BaseFont") [] strictName
  let hd ← simpleHead h f k n desc
  let m ← fontMatrix h f k
  let ws ← withKey h f (litBytes "Widths") [] (fun v => do
    let l ← strictArr v
    simpleWidths m.1 l)
  let t ← descTail h m.2 desc
  .ok ⟨hd.1, hd.2.2.1, hd.2.1, m.1, m.2, ws, hd.2.2.2, t.1, t.2.1, t.2.2⟩

/-- The limits of an encoding map, and whether it is simple. -/
structure MapLimits where
  simple : Bool
  first : Nat
  last : Nat

/-- What is loaded: the metrics, and the first code its limits state. -/
structure LoadedFont where
  metrics : ObjMetrics
  simple : Bool
  first : Nat
  last : Nat

/-- The encoding of a font object, `src/pdfmm/base/PdfEncoding.cpp:43-61` with `GetLimits`, `src/pdfmm/base/PdfEncoding.cpp:463-469`: /FirstChar and /LastChar
count when the last is above the first. -/
def withLimits (h : FDoc) (f : FDict) (m : ObjMetrics) (e : MapLimits) : Res LoadedFont := do
  let a ← withKey h f (litBytes "FirstChar") 4294967295 (fun v => (strictInt v).map (truncTo 32))
  let b ← withKey h f (litBytes "LastChar") 0 (fun v => (strictInt v).map (truncTo 32))
  if a < b then .ok ⟨m, e.simple, a, b⟩ else .ok ⟨m, e.simple, e.first, e.last⟩

/-- What the loading of a simple font takes from outside: the map of its encoding, if it has one (`PdfEncodingFactory::CreateEncoding`,
`src/pdfmm/base/PdfEncodingFactory.cpp:25-64`), and which names are those of standard fonts. -/
structure FontWorld where
  enc : FDict → ObjMetrics → Option MapLimits
  std : Bytes → Bool

/-- What a font object becomes: a font of its dictionary, a standard font, a composite font of a descendant, or none. -/
inductive FontGot
  | simple (f : LoadedFont)
  | std (n : Bytes)
  | composite (d : FDict)
  | null

/-- A simple font. -/
def simpleGot (w : FontWorld) (h : FDoc) (f : FDict) (k : FontFileKind) (desc : Option Var) : Res FontGot := do
  let m ← simpleMetrics h f k desc
  match w.enc f m with
  | none => .ok .null
  | some e => do
    let l ← withLimits h f m e
    .ok (.simple l)

/-- A composite font, `src/pdfmm/base/PdfFontFactory.cpp:94-118`: of its first descendant, which `FindAt` looks up, `src/pdfmm/base/PdfArray.cpp:253-263`; one that
is not there is used through a null pointer.  The metrics of composite fonts are the subject of C128. -/
def compositeGot (h : FDoc) : Option Var → Res FontGot
  | some (.arr []) => .ok .null
  | some (.arr (.ref n g :: _)) =>
    match h ⟨n, g⟩ with
    | none => .error .ub
    | some v => (strictDict v).map .composite
  | some (.arr (v :: _)) => (strictDict v).map .composite
  | _ => raise .InvalidDataType

/-- A Type 1 font without a descriptor, `src/pdfmm/base/PdfFontFactory.cpp:123-141`. -/
def stdGot (w : FontWorld) : Option Var → Res FontGot
  | none => raise .NoObject
  | some v => do
    let n ← strictName v
    if w.std n then .ok (.std n) else raise .NoObject

/-- The choice by subtype, `src/pdfmm/base/PdfFontFactory.cpp:89-178`. -/
def subGot (w : FontWorld) (h : FDoc) (f : FDict) (s : Bytes) : Res FontGot :=
  if s = litBytes "Type0" then compositeGot h (h.findKey f (litBytes "DescendantFonts"))
  else if s = litBytes "Type1" ∧ h.findKey f (litBytes "FontDescriptor") = none then stdGot w (h.findKey f (litBytes "BaseFont"))
  else match simpleSub s with
    | none => .ok .null
    | some k => simpleGot w h f k (h.findKey f (litBytes "FontDescriptor"))

/-- `PdfFont::TryCreateFromObject`, `src/pdfmm/base/PdfFontFactory.cpp:75-179`, for a dictionary. -/
def loadFont (w : FontWorld) (h : FDoc) (f : FDict) : Res FontGot :=
  match h.findKey f (litBytes "Type") with
  | some (.name t) =>
    if t ≠ litBytes "Font" then raise .InvalidDataType
    else match h.findKey f (litBytes "Subtype") with
      | some (.name s) => subGot w h f s
      | _ => raise .InvalidDataType
  | _ => raise .InvalidDataType

/-- `GetCIDLengthRaw` of a loaded simple font, `src/pdfmm/base/PdfFont.cpp:409-416`, `src/pdfmm/base/PdfFontObject.cpp:35-56`, over `GetGlyphWidth` and
`GetDefaultWidth`, `src/pdfmm/base/PdfFontMetrics.cpp:29-36` and `src/pdfmm/base/PdfFontMetrics.cpp:167-174`; the code of a simple font is its CID
(`src/pdfmm/base/PdfEncoding.cpp:235-242`). -/
def LoadedFont.codeWidth (f : LoadedFont) (code : Nat) : Res Dec :=
  if f.simple = true ∧ f.last < f.first then raise .ValueOutOfRange
  else
    let gid := if f.simple then (code + 4294967296 - f.first) % 4294967296 else code
    .ok (match f.metrics.widths[gid]? with
      | some x => x
      | none => if f.metrics.dflt.1 < 0 then (0, 0) else f.metrics.dflt)

namespace Spec

/-- Two decimals of one value. -/
def DecEq (a b : Dec) : Prop := a.1 * 10 ^ b.2 = b.1 * 10 ^ a.2

/-- The value of a number object. -/
def NumVal : Var → Option Dec
  | .num n => some (n, 0)
  | .real neg m s => some (if neg then -(m : Int) else m, s)
  | _ => none

/-- An entry of a dictionary, looked up in the document. -/
def HasEntry (h : FDoc) (d : FDict) (k : String) (v : Var) : Prop := h.findKey d (litBytes k) = some v

/-- The unit of widths: thousandths, in a Type 3 font the first number of its matrix. -/
def WidthUnit (h : FDoc) (f : FDict) (u : Dec) : Prop :=
  (HasEntry h f "Subtype" (.name (litBytes "Type3")) → (h.findKey f (litBytes "FontMatrix") = none ∧ u = (1, 3)) ∨
    ∃ v l, HasEntry h f "FontMatrix" (.arr (v :: l)) ∧ NumVal v = some u) ∧
  (¬ HasEntry h f "Subtype" (.name (litBytes "Type3")) → u = (1, 3))

end Spec

/-! ### Proofs -/

theorem bind_ok {α β : Type} {x : Res α} {f : α → Res β} {b : β} (h : (x >>= f) = .ok b) : ∃ a, x = .ok a ∧ f a = .ok b := by
  cases x with
  | error e => cases h
  | ok a => exact ⟨a, rfl, h⟩

theorem decOf_val {v : Var} {x : Dec} (h : decOf v = .ok x) : Spec.NumVal v = some x := by
  cases v <;> simp_all [decOf, Spec.NumVal, raise]

theorem simpleWidths_get {m0 : Dec} {l : List Var} {r : List Dec} (h : simpleWidths m0 l = .ok r) :
    r.length = l.length ∧ ∀ (i : Nat) v, l[i]? = some v → ∃ x, Spec.NumVal v = some x ∧ r[i]? = some (decMul x m0) := by
  induction l generalizing r with
  | nil => simp [simpleWidths] at h; subst h; simp
  | cons v l ih =>
    simp only [simpleWidths] at h
    obtain ⟨x, hx, h⟩ := bind_ok h
    obtain ⟨r', hr, h⟩ := bind_ok h
    simp only [Except.ok.injEq] at h
    subst h
    have := ih hr
    refine ⟨by simp [this.1], fun i w hi => ?_⟩
    cases i with
    | zero => simp at hi; subst hi; exact ⟨x, decOf_val hx, by simp⟩
    | succ i => simpa using this.2 i w (by simpa using hi)

theorem withKey_some {α : Type} {h : FDoc} {d : FDict} {k : Bytes} {absent : α} {f : Var → Res α} {v : Var} (hv : h.findKey d k = some v) :
    withKey h d k absent f = f v := by simp [withKey, hv]

theorem withKey_none {α : Type} {h : FDoc} {d : FDict} {k : Bytes} {absent : α} {f : Var → Res α} (hv : h.findKey d k = none) :
    withKey h d k absent f = .ok absent := by simp [withKey, hv]

theorem fontMatrix_type3 {h : FDoc} {f : FDict} {m : Dec × Dec} (hm : fontMatrix h f .type3 = .ok m) :
    (h.findKey f (litBytes "FontMatrix") = none ∧ m.1 = thousandth) ∨ ∃ v l, h.findKey f (litBytes "FontMatrix") = some (.arr (v :: l)) ∧ Spec.NumVal v = some m.1 := by
  unfold fontMatrix at hm
  rw [if_neg (by simp)] at hm
  cases hk : h.findKey f (litBytes "FontMatrix") with
  | none => rw [withKey_none hk] at hm; simp at hm; subst hm; exact Or.inl ⟨rfl, rfl⟩
  | some v =>
    rw [withKey_some hk] at hm
    obtain ⟨l, hl, hm2⟩ := bind_ok hm
    clear hm
    obtain ⟨xs, hxs, hm⟩ := bind_ok hm2
    clear hm2
    simp only [Except.ok.injEq] at hm
    subst hm
    have hv : v = .arr l := by cases v <;> simp [strictArr, raise] at hl; subst hl; rfl
    subst hv
    right
    rw [List.mapM_cons] at hxs
    obtain ⟨x0, h0, hxs⟩ := bind_ok hxs
    obtain ⟨ys, _, hxs⟩ := bind_ok hxs
    have hx : xs = x0 :: ys := by injection hxs with e; exact e.symm
    subst hx
    obtain ⟨a, ha, h0⟩ := bind_ok h0
    cases l with
    | nil => simp [arrAt, raise] at ha
    | cons v l =>
      simp [arrAt] at ha
      subst ha
      exact ⟨v, l, rfl, by simpa using decOf_val h0⟩

theorem simpleSub_type3 {s : Bytes} {k : FontFileKind} (h : simpleSub s = some k) : k = .type3 ↔ s = litBytes "Type3" := by
  unfold simpleSub at h
  split at h
  · next e => simp at h; subst h e; decide
  · split at h
    · next e => simp at h; subst h e; decide
    · split at h
      · next e => simp at h; subst h e; simp
      · simp at h

theorem compositeGot_not (h : FDoc) (o : Option Var) (lf : LoadedFont) : compositeGot h o ≠ .ok (.simple lf) := by
  have hcomp : ∀ v : Var, (strictDict v).map FontGot.composite ≠ .ok (.simple lf) := by
    intro v; cases v <;> simp [strictDict, raise, Except.map]
  intro hl
  unfold compositeGot at hl
  split at hl
  · cases hl
  · split at hl
    · cases hl
    · exact hcomp _ hl
  · exact hcomp _ hl
  · simp [raise] at hl

theorem stdGot_not (w : FontWorld) (o : Option Var) (lf : LoadedFont) : stdGot w o ≠ .ok (.simple lf) := by
  intro hl
  cases o with
  | none => simp [stdGot, raise] at hl
  | some v =>
    simp only [stdGot] at hl
    obtain ⟨n, _, hl⟩ := bind_ok hl
    split at hl
    · cases hl
    · simp [raise] at hl

theorem loadFont_font {w : FontWorld} {h : FDoc} {f : FDict} {s : Bytes} (ht : h.findKey f (litBytes "Type") = some (.name (litBytes "Font")))
    (hs : h.findKey f (litBytes "Subtype") = some (.name s)) : loadFont w h f = subGot w h f s := by
  simp [loadFont, ht, hs]

/-- What a font loaded as a simple one went through. -/
theorem loaded_simple {w : FontWorld} {h : FDoc} {f : FDict} {lf : LoadedFont} (hl : loadFont w h f = .ok (.simple lf)) :
    ∃ s k m e, h.findKey f (litBytes "Subtype") = some (.name s) ∧ simpleSub s = some k ∧ simpleMetrics h f k (h.findKey f (litBytes "FontDescriptor")) = .ok m ∧
      w.enc f m = some e ∧ withLimits h f m e = .ok lf := by
  unfold loadFont at hl
  split at hl
  · split at hl
    · simp [raise] at hl
    · split at hl
      · next s hs =>
        unfold subGot at hl
        split at hl
        · exact absurd hl (compositeGot_not h _ lf)
        · split at hl
          · exact absurd hl (stdGot_not w _ lf)
          · cases hk : simpleSub s with
            | none => simp [hk] at hl
            | some k =>
              simp only [hk, simpleGot] at hl
              obtain ⟨m, hm, hl⟩ := bind_ok hl
              cases he : w.enc f m with
              | none => simp [he] at hl
              | some e =>
                simp only [he] at hl
                obtain ⟨l, hlim, hl⟩ := bind_ok hl
                cases hl
                exact ⟨s, k, m, e, hs, hk, hm, he, hlim⟩
      · simp [raise] at hl
  · simp [raise] at hl

theorem metrics_parts {h : FDoc} {f : FDict} {k : FontFileKind} {desc : Option Var} {m : ObjMetrics} (hm : simpleMetrics h f k desc = .ok m) :
    (∃ n hd, simpleHead h f k n desc = .ok hd ∧ m.dflt = hd.2.2.2) ∧ (∃ mm, fontMatrix h f k = .ok mm ∧ m.m0 = mm.1) ∧
    ∀ l, h.findKey f (litBytes "Widths") = some (.arr l) → simpleWidths m.m0 l = .ok m.widths := by
  unfold simpleMetrics at hm
  obtain ⟨n, hn, hm⟩ := bind_ok hm
  obtain ⟨hd, hhd, hm⟩ := bind_ok hm
  obtain ⟨mm, hmm, hm⟩ := bind_ok hm
  obtain ⟨ws, hws, hm⟩ := bind_ok hm
  obtain ⟨t, ht, hm⟩ := bind_ok hm
  cases hm
  refine ⟨⟨n, hd, hhd, rfl⟩, ⟨mm, hmm, rfl⟩, fun l hl => ?_⟩
  rw [withKey_some hl] at hws
  exact hws

theorem limits_parts {h : FDoc} {f : FDict} {m : ObjMetrics} {e : MapLimits} {lf : LoadedFont} (hl : withLimits h f m e = .ok lf) :
    lf.metrics = m ∧ lf.simple = e.simple ∧
    ∀ a b : Nat, h.findKey f (litBytes "FirstChar") = some (.num a) → h.findKey f (litBytes "LastChar") = some (.num b) → a < 4294967296 → b < 4294967296 →
      (a < b → lf.first = a ∧ lf.last = b) ∧ (¬ a < b → lf.first = e.first ∧ lf.last = e.last) := by
  unfold withLimits at hl
  obtain ⟨a, ha, hl⟩ := bind_ok hl
  obtain ⟨b, hb, hl⟩ := bind_ok hl
  have h12 : lf.metrics = m ∧ lf.simple = e.simple := by split at hl <;> cases hl <;> exact ⟨rfl, rfl⟩
  refine ⟨h12.1, h12.2, fun a' b' ha' hb' hla hlb => ?_⟩
  rw [withKey_some ha'] at ha
  rw [withKey_some hb'] at hb
  have ea : a = a' := by
    simp only [strictInt, Except.map, Except.ok.injEq, truncTo] at ha; omega
  have eb : b = b' := by
    simp only [strictInt, Except.map, Except.ok.injEq, truncTo] at hb; omega
  subst ea eb
  refine ⟨fun hab => ?_, fun hab => ?_⟩
  · rw [if_pos hab] at hl; cases hl; exact ⟨rfl, rfl⟩
  · rw [if_neg hab] at hl; cases hl; exact ⟨rfl, rfl⟩

/-- **C187, widths.** Any document and any font dictionary loaded as a simple font with a simple encoding, /FirstChar below /LastChar and /Widths: the width of
each code from /FirstChar on for which /Widths has a number is that number in the unit of the font. -/
theorem C187_widths_partial (w : FontWorld) (h : FDoc) (f : FDict) (lf : LoadedFont) (hl : loadFont w h f = .ok (.simple lf)) (hs : lf.simple = true)
    (a b : Nat) (ha : Spec.HasEntry h f "FirstChar" (.num a)) (hb : Spec.HasEntry h f "LastChar" (.num b)) (hab : a < b) (hb' : b < 4294967296)
    (ws : List Var) (hw : Spec.HasEntry h f "Widths" (.arr ws)) (c : Nat) (hc : a ≤ c) (hc' : c < 4294967296) (v : Var) (hv : ws[c - a]? = some v) :
    ∃ u x, Spec.WidthUnit h f u ∧ Spec.NumVal v = some x ∧ lf.codeWidth c = .ok (decMul x u) := by
  obtain ⟨s, k, m, e, h1, h2, h3, h4, h5⟩ := loaded_simple hl
  obtain ⟨p1, p2, p3⟩ := limits_parts h5
  obtain ⟨p4, p5⟩ := (p3 a b ha hb (by omega) hb').1 hab
  obtain ⟨_, ⟨mm, q1, q2⟩, q3⟩ := metrics_parts h3
  obtain ⟨x, hx, hr⟩ := (simpleWidths_get (q3 ws hw)).2 (c - a) v hv
  refine ⟨m.m0, x, ⟨fun h3' => ?_, fun h3' => ?_⟩, hx, ?_⟩
  · unfold Spec.HasEntry at h3'
    rw [h1] at h3'
    simp only [Option.some.injEq, Var.name.injEq] at h3'
    have := (simpleSub_type3 h2).2 h3'
    subst this
    rcases fontMatrix_type3 q1 with ⟨g1, g2⟩ | ⟨v, l, g1, g2⟩
    · exact Or.inl ⟨g1, by rw [q2, g2]; rfl⟩
    · exact Or.inr ⟨v, l, g1, by rw [q2]; exact g2⟩
  · have hk : k ≠ .type3 := by
      intro hk
      apply h3'
      have := (simpleSub_type3 h2).1 hk
      unfold Spec.HasEntry
      rw [h1, this]
    unfold fontMatrix at q1
    rw [if_pos hk] at q1
    cases q1
    exact q2
  · unfold LoadedFont.codeWidth
    rw [if_neg (by rw [p4, p5]; omega)]
    simp only [hs, if_true, p4, p1]
    have : (c + 4294967296 - a) % 4294967296 = c - a := by omega
    rw [this, hr]

/-- **C187, codes outside.** A code below /FirstChar, or above the last one /Widths has a number for, has the default width of the font. -/
theorem C187_outside_partial (w : FontWorld) (h : FDoc) (f : FDict) (lf : LoadedFont) (hl : loadFont w h f = .ok (.simple lf)) (hs : lf.simple = true)
    (a b : Nat) (ha : Spec.HasEntry h f "FirstChar" (.num a)) (hb : Spec.HasEntry h f "LastChar" (.num b)) (hab : a < b) (hb' : b < 4294967296)
    (ws : List Var) (hw : Spec.HasEntry h f "Widths" (.arr ws)) (hlen : a + ws.length ≤ 4294967296) (c : Nat) (hc' : c < 4294967296)
    (hout : c < a ∨ a + ws.length ≤ c) : lf.codeWidth c = .ok (if lf.metrics.dflt.1 < 0 then (0, 0) else lf.metrics.dflt) := by
  obtain ⟨s, k, m, e, h1, h2, h3, h4, h5⟩ := loaded_simple hl
  obtain ⟨p1, p2, p3⟩ := limits_parts h5
  obtain ⟨p4, p5⟩ := (p3 a b ha hb (by omega) hb').1 hab
  obtain ⟨_, _, q3⟩ := metrics_parts h3
  have hlw := (simpleWidths_get (q3 ws hw)).1
  unfold LoadedFont.codeWidth
  rw [if_neg (by rw [p4, p5]; omega)]
  simp only [hs, if_true, p4]
  have : lf.metrics.widths[(c + 4294967296 - a) % 4294967296]? = none := by
    rw [p1, List.getElem?_eq_none]
    rw [hlw]
    omega
  rw [this]

/-- **C187, the default width.** In every font loaded with a descriptor, the default width is the number of /MissingWidth as it stands, not in the unit of the
font: for every number but nought, and every unit but one, it is another width than the font states. -/
theorem C187_missing_false (w : FontWorld) (h : FDoc) (f : FDict) (lf : LoadedFont) (hl : loadFont w h f = .ok (.simple lf)) (d : FDict) (v : Var) (x : Dec)
    (hd : Spec.HasEntry h f "FontDescriptor" (.dict d)) (hv : Spec.HasEntry h d "MissingWidth" v) (hx : Spec.NumVal v = some x) (hx0 : x.1 ≠ 0) :
    lf.metrics.dflt = x ∧ (¬ Spec.DecEq lf.metrics.m0 (1, 0) → ¬ Spec.DecEq lf.metrics.dflt (decMul x lf.metrics.m0)) := by
  obtain ⟨s, k, m, e, h1, h2, h3, h4, h5⟩ := loaded_simple hl
  obtain ⟨p1, p2, p3⟩ := limits_parts h5
  obtain ⟨⟨n, hdd, q1, q2⟩, _, _⟩ := metrics_parts h3
  unfold Spec.HasEntry at hd hv
  rw [hd] at q1
  simp only [simpleHead] at q1
  obtain ⟨d', e1, q1⟩ := bind_ok q1
  cases e1
  obtain ⟨n', _, q1⟩ := bind_ok q1
  obtain ⟨b, _, q1⟩ := bind_ok q1
  obtain ⟨k', _, q1⟩ := bind_ok q1
  obtain ⟨x', hx', q1⟩ := bind_ok q1
  rw [withKey_some hv] at hx'
  cases q1
  have hxx : x' = x := by have := decOf_val hx'; rw [hx] at this; simpa using this.symm
  have hdf : lf.metrics.dflt = x := by rw [p1, q2, hxx]
  refine ⟨hdf, fun hu he => hu ?_⟩
  unfold Spec.DecEq at he ⊢
  rw [hdf] at he
  simp only [decMul, Int.pow_add] at he
  have h10 : (10 ^ x.2 : Int) ≠ 0 := by
    have := Int.pow_pos (n := 10) (m := x.2) (by decide); omega
  have he' : (x.1 * 10 ^ x.2) * 10 ^ lf.metrics.m0.2 = (x.1 * 10 ^ x.2) * lf.metrics.m0.1 := by
    rw [← Int.mul_assoc] at he
    rw [he, Int.mul_assoc, Int.mul_assoc, Int.mul_comm lf.metrics.m0.1]
  have := Int.eq_of_mul_eq_mul_left (Int.mul_ne_zero hx0 h10) he'
  simp [this]

/-- **C187, one character.** A font of one character, /FirstChar being /LastChar, as subsets of one glyph are: its /FirstChar is not used, and the width of the
character is looked up at its distance from the first code of the encoding; when that is the code 0, as in the predefined encodings, no character but that one
gets its width. -/
theorem C187_one_false (w : FontWorld) (h : FDoc) (f : FDict) (lf : LoadedFont) (hl : loadFont w h f = .ok (.simple lf)) (hs : lf.simple = true)
    (a : Nat) (ha : Spec.HasEntry h f "FirstChar" (.num a)) (hb : Spec.HasEntry h f "LastChar" (.num a)) (ha' : a < 4294967296) (ha0 : 0 < a)
    (hw0 : ∀ m e, w.enc f m = some e → e.first = 0) (v : Var) (hw : Spec.HasEntry h f "Widths" (.arr [v])) :
    lf.codeWidth a = .ok (if lf.metrics.dflt.1 < 0 then (0, 0) else lf.metrics.dflt) := by
  obtain ⟨s, k, m, e, h1, h2, h3, h4, h5⟩ := loaded_simple hl
  obtain ⟨p1, p2, p3⟩ := limits_parts h5
  obtain ⟨p4, p5⟩ := (p3 a a ha hb ha' ha').2 (by omega)
  obtain ⟨_, _, q3⟩ := metrics_parts h3
  have hlw := (simpleWidths_get (q3 [v] hw)).1
  have he := hw0 m e h4
  unfold LoadedFont.codeWidth
  rw [if_neg (by rw [p4, he]; omega)]
  simp only [hs, if_true, p4, he]
  have : lf.metrics.widths[(a + 4294967296 - 0) % 4294967296]? = none := by
    rw [p1, List.getElem?_eq_none]
    simp at hlw
    omega
  rw [this]

/-- **C187, limits.** A simple font without a /FirstChar, or without a /LastChar, goes from the first to the last code of its encoding. -/
theorem C187_limits (w : FontWorld) (h : FDoc) (f : FDict) (lf : LoadedFont) (hl : loadFont w h f = .ok (.simple lf))
    (hk : h.findKey f (litBytes "FirstChar") = none ∨ h.findKey f (litBytes "LastChar") = none) :
    ∃ e, w.enc f lf.metrics = some e ∧ lf.first = e.first ∧ lf.last = e.last := by
  obtain ⟨s, k, m, e, h1, h2, h3, h4, h5⟩ := loaded_simple hl
  have hm := (limits_parts h5).1
  refine ⟨e, by rw [hm]; exact h4, ?_⟩
  unfold withLimits at h5
  obtain ⟨a, ha, h5⟩ := bind_ok h5
  obtain ⟨b, hb, h5⟩ := bind_ok h5
  have hb32 : b < 4294967296 := by
    cases hf : h.findKey f (litBytes "LastChar") with
    | none => rw [withKey_none hf] at hb; cases hb; decide
    | some v =>
      rw [withKey_some hf] at hb
      cases hv : strictInt v with
      | error x => simp [hv, Except.map] at hb
      | ok z => simp only [hv, Except.map, Except.ok.injEq, truncTo] at hb; omega
  have : ¬ a < b := by
    rcases hk with hk | hk
    · rw [withKey_none hk] at ha; cases ha; omega
    · rw [withKey_none hk] at hb; cases hb; omega
  rw [if_neg this] at h5; cases h5; exact ⟨rfl, rfl⟩

/-- **C187, refused.** A dictionary without a /Type, or with another than /Font, or without a /Subtype, is refused with one error; a font of an unknown subtype
is no font. -/
theorem C187_refused (w : FontWorld) (h : FDoc) (f : FDict) :
    (h.findKey f (litBytes "Type") = none → loadFont w h f = raise .InvalidDataType) ∧
    (∀ v, h.findKey f (litBytes "Type") = some v → v ≠ .name (litBytes "Font") → loadFont w h f = raise .InvalidDataType) ∧
    (h.findKey f (litBytes "Type") = some (.name (litBytes "Font")) →
      (h.findKey f (litBytes "Subtype") = none → loadFont w h f = raise .InvalidDataType) ∧
      ∀ s, h.findKey f (litBytes "Subtype") = some (.name s) → s ∉ [litBytes "Type0", litBytes "Type1", litBytes "TrueType", litBytes "Type3"] →
        loadFont w h f = .ok .null) := by
  refine ⟨fun ht => by simp [loadFont, ht], fun v hv hne => ?_, fun ht => ⟨fun hs => by simp [loadFont, ht, hs], fun s hs hn => ?_⟩⟩
  · cases v <;> simp_all [loadFont]
  · simp only [List.mem_cons, List.not_mem_nil, or_false, not_or] at hn
    rw [loadFont_font ht hs]
    unfold subGot
    rw [if_neg hn.1, if_neg (fun x => hn.2.1 x.1)]
    have : simpleSub s = none := by simp [simpleSub, hn]
    simp only [this]

theorem loadFont_sub {w : FontWorld} {h : FDoc} {f : FDict} {s : Bytes} {k : FontFileKind} (ht : Spec.HasEntry h f "Type" (.name (litBytes "Font")))
    (hs : Spec.HasEntry h f "Subtype" (.name s)) (hk : simpleSub s = some k) (hd : k = .type1 → h.findKey f (litBytes "FontDescriptor") ≠ none) :
    loadFont w h f = simpleGot w h f k (h.findKey f (litBytes "FontDescriptor")) := by
  rw [loadFont_font ht hs]
  unfold subGot
  have h0 : s ≠ litBytes "Type0" := by rintro rfl; revert hk; cases k <;> decide
  rw [if_neg h0, if_neg]
  · simp only [hk]
  rintro ⟨e, hn⟩
  subst e
  have : k = .type1 := by
    have h2 : simpleSub (litBytes "Type1") = some .type1 := by decide
    rw [h2] at hk; simpa using hk.symm
  exact hd this hn

/-- **C187, TrueType fonts without a descriptor.** Every one of them, whatever else it holds, goes through a null pointer, unless its /BaseFont is refused first. -/
theorem C187_truetype_false (w : FontWorld) (h : FDoc) (f : FDict) (n : Bytes) (ht : Spec.HasEntry h f "Type" (.name (litBytes "Font")))
    (hs : Spec.HasEntry h f "Subtype" (.name (litBytes "TrueType"))) (hb : Spec.HasEntry h f "BaseFont" (.name n))
    (hd : h.findKey f (litBytes "FontDescriptor") = none) : loadFont w h f = .error .ub := by
  rw [loadFont_sub ht hs (k := .trueType) (by decide) (by simp), hd]
  unfold simpleGot simpleMetrics
  rw [withKey_some hb]
  rfl

/-- **C187, composite fonts without their descendant.** When the first descendant is a reference to no object, the font goes through a null pointer. -/
theorem C187_descendant_false (w : FontWorld) (h : FDoc) (f : FDict) (n g : Nat) (l : List Var) (ht : Spec.HasEntry h f "Type" (.name (litBytes "Font")))
    (hs : Spec.HasEntry h f "Subtype" (.name (litBytes "Type0"))) (hd : Spec.HasEntry h f "DescendantFonts" (.arr (.ref n g :: l))) (hr : h ⟨n, g⟩ = none) :
    loadFont w h f = .error .ub := by
  rw [loadFont_font ht hs]
  unfold Spec.HasEntry at hd
  unfold subGot
  rw [if_pos rfl, hd]
  simp [compositeGot, hr]

/-- **C187, the stretch as a string.** A descriptor whose /FontStretch is a string: no such font is loaded; whatever is not refused before reads through a null
pointer. -/
theorem C187_stretch_false (h : FDoc) (d : FDict) (m3 : Dec) (t : Bytes) (hex : Bool) (hs : Spec.HasEntry h d "FontStretch" (.str t hex)) :
    descTail h m3 (some (.dict d)) = .error .ub ∧
    ∀ (w : FontWorld) (f : FDict) (lf : LoadedFont), Spec.HasEntry h f "FontDescriptor" (.dict d) → loadFont w h f ≠ .ok (.simple lf) := by
  have h1 : ∀ m3, descTail h m3 (some (.dict d)) = .error .ub := by
    intro m3
    unfold descTail
    show (withKey h d (litBytes "FontStretch") () _ >>= _) = _
    rw [withKey_some hs]
    rfl
  refine ⟨h1 m3, fun w f lf hd hl => ?_⟩
  obtain ⟨s, k, m, e, g1, g2, g3, g4, g5⟩ := loaded_simple hl
  unfold Spec.HasEntry at hd
  rw [hd] at g3
  unfold simpleMetrics at g3
  obtain ⟨n, hn, g3⟩ := bind_ok g3
  obtain ⟨hd', hhd, g3⟩ := bind_ok g3
  obtain ⟨mm, hmm, g3⟩ := bind_ok g3
  obtain ⟨ws, hws, g3⟩ := bind_ok g3
  obtain ⟨t', ht, g3⟩ := bind_ok g3
  rw [h1] at ht
  cases ht

/-! ### Witnesses -/

/-- A document with no other objects. -/
def noFontObjs : FDoc := fun _ => none

/-- A font of two characters, with a descriptor that states a missing width. -/
def sampleFont (first last : Int) (ws : List Var) : FDict :=
  [(litBytes "Type", .name (litBytes "Font")), (litBytes "Subtype", .name (litBytes "Type1")), (litBytes "BaseFont", .name (litBytes "Sample")),
   (litBytes "FirstChar", .num first), (litBytes "LastChar", .num last), (litBytes "Widths", .arr ws),
   (litBytes "FontDescriptor", .dict [(litBytes "MissingWidth", .num 250), (litBytes "Ascent", .num 700)])]

def sampleWorld : FontWorld := ⟨fun _ _ => some ⟨true, 0, 255⟩, fun _ => false⟩

def sampleLoaded (first last : Nat) (ws : List Dec) : LoadedFont :=
  ⟨⟨litBytes "Sample", .type1, [], (1, 3), (1, 3), ws, (250, 0), -1, (700, 3), (0, 3)⟩, true, first, last⟩

/-- Not vacuous: the font is loaded, and the widths are those of /Widths in thousandths. -/
theorem sample_loads : loadFont sampleWorld noFontObjs (sampleFont 65 66 [.num 500, .num 600]) = .ok (.simple (sampleLoaded 65 66 [(500, 3), (600, 3)])) := by rfl

example : (sampleLoaded 65 66 [(500, 3), (600, 3)]).codeWidth 66 = .ok (600, 3) := by rfl

/-- Not vacuous: the width of a code outside is 250 units, not thousandths. -/
example : (sampleLoaded 65 66 [(500, 3), (600, 3)]).codeWidth 67 = .ok (250, 0) ∧ ¬ Spec.DecEq (250, 0) (250, 3) := by
  refine ⟨rfl, ?_⟩
  unfold Spec.DecEq
  decide

/-- Not vacuous: the font of one character. -/
example : loadFont sampleWorld noFontObjs (sampleFont 65 65 [.num 500]) = .ok (.simple (sampleLoaded 0 255 [(500, 3)])) ∧
    (sampleLoaded 0 255 [(500, 3)]).codeWidth 65 = .ok (250, 0) := ⟨rfl, rfl⟩

/-- Not vacuous: a TrueType font without a descriptor, and a composite font whose descendant is not there. -/
example : loadFont sampleWorld noFontObjs [(litBytes "Type", .name (litBytes "Font")), (litBytes "Subtype", .name (litBytes "TrueType")), (litBytes "BaseFont", .name (litBytes "Arial"))] = .error .ub ∧
    loadFont sampleWorld noFontObjs [(litBytes "Type", .name (litBytes "Font")), (litBytes "Subtype", .name (litBytes "Type0")), (litBytes "DescendantFonts", .arr [.ref 9 0])] = .error .ub :=
  ⟨C187_truetype_false _ _ _ (litBytes "Arial") rfl rfl rfl rfl, C187_descendant_false _ _ _ 9 0 [] rfl rfl rfl rfl⟩

/-- Not vacuous: a descriptor whose stretch is a string. -/
example : Spec.HasEntry noFontObjs [(litBytes "FontStretch", .str (litBytes "Normal") false)] "FontStretch" (.str (litBytes "Normal") false) := rfl

/-- Not vacuous: a font without a /FirstChar, of an encoding from 0 to 255. -/
example : noFontObjs.findKey (SMap.erase (litBytes "FirstChar") (sampleFont 65 66 [.num 500])) (litBytes "FirstChar") = none ∧
    loadFont sampleWorld noFontObjs (SMap.erase (litBytes "FirstChar") (sampleFont 65 66 [.num 500])) = .ok (.simple (sampleLoaded 0 255 [(500, 3)])) := ⟨rfl, rfl⟩

end Pdfmm
