import Verif.Base.Chars
/-
PDF names: escaping, unescaping, writing.
-/
namespace Pdfmm

/-- The characters `EscapeNameTo` copies unchanged, `src/pdfmm/base/PdfName.cpp:159-160,171-173`. -/
def nameLiteral (b : Byte) : Bool := isRegular b && isPrintable b && b != 35

/-- `hexchr`, `src/pdfmm/base/PdfName.cpp:319-324`: two upper-case digits from a table. -/
def hexchr (b : Byte) : Bytes := [hexDigit (b / 16), hexDigit (b % 16)]

/-- Second loop of `EscapeNameTo`, `src/pdfmm/base/PdfName.cpp:168-182`. -/
def escapeNameBody : Bytes → Bytes
  | [] => []
  | b :: r => if nameLiteral b then b :: escapeNameBody r else 35 :: (hexchr b ++ escapeNameBody r)

/-- `EscapeNameTo`, `src/pdfmm/base/PdfName.cpp:141-183`: a NUL raises before anything is written. -/
def escapeName (n : Bytes) : Res Bytes :=
  if n.contains 0 then raise .InvalidName else .ok (escapeNameBody n)

/-- The digit conversion of `UnescapeName`, `src/pdfmm/base/PdfName.cpp:208-209`; no validation. -/
def unescapeDigit (c : Byte) : Byte := if c < 65 then c - 48 else c - 55

/-- `UnescapeName`, `src/pdfmm/base/PdfName.cpp:193-221`.  The counter test
`incount + 1 < length` at a `#` is "at least two more characters follow". -/
def unescapeName : Bytes → Bytes
  | 35 :: hi :: low :: r =>
    ((unescapeDigit hi <<< 4) ||| (unescapeDigit low &&& 0x0F)) :: unescapeName r
  | b :: r => b :: unescapeName r
  | [] => []

/-- `PdfName::Write`, `src/pdfmm/base/PdfName.cpp:96-107`. -/
def writeName (n : Bytes) : Res Bytes :=
  match escapeName n with
  | .ok e => .ok (47 :: e)
  | .error f => .error f

theorem unescape_hexchr (b : Byte) (r : Bytes) :
    unescapeName (35 :: (hexchr b ++ r)) = b :: unescapeName r := by
  have h : ((unescapeDigit (hexDigit (b / 16)) <<< 4) |||
      (unescapeDigit (hexDigit (b % 16)) &&& 0x0F)) = b :=
    forall_byte (P := fun b => ((unescapeDigit (hexDigit (b / 16)) <<< 4) |||
      (unescapeDigit (hexDigit (b % 16)) &&& 0x0F)) = b) (by decide +kernel) b
  simp only [hexchr, List.cons_append, List.nil_append, unescapeName, h]

theorem unescape_literal (b : Byte) (r : Bytes) (h : nameLiteral b = true) :
    unescapeName (b :: r) = b :: unescapeName r := by
  have hb : b ≠ 35 := by
    intro e; subst e; simp [nameLiteral] at h
  rw [unescapeName.eq_def]
  split
  · rename_i heq; cases heq; exact absurd rfl hb
  · rename_i heq; cases heq; rfl
  · rename_i heq; cases heq

theorem unescape_escape (n : Bytes) : unescapeName (escapeNameBody n) = n := by
  induction n with
  | nil => rfl
  | cons b r ih =>
    simp only [escapeNameBody]
    split
    · rename_i h; rw [unescape_literal _ _ h, ih]
    · rw [unescape_hexchr, ih]

/-- C14. Every name without NUL is escaped, and unescaping gives it back; every name with a NUL is
refused with `InvalidName`. -/
theorem C14_name_escape_roundtrip (n : Bytes) :
    (0 ∉ n → ∃ e, escapeName n = .ok e ∧ unescapeName e = n) ∧
    (0 ∈ n → escapeName n = raise .InvalidName ∧ writeName n = raise .InvalidName) := by
  constructor
  · intro h
    refine ⟨escapeNameBody n, ?_, unescape_escape n⟩
    simp [escapeName, h]
  · intro h
    constructor
    · simp [escapeName, h]
    · simp [writeName, escapeName, h]

/-- Every escaped name is made of regular printable characters only (so no whitespace, delimiter or
comment sign can split the token), whatever the name. -/
theorem escapeName_chars (n : Bytes) :
    ∀ b ∈ escapeNameBody n, isRegular b = true ∧ isPrintable b = true := by
  induction n with
  | nil => simp [escapeNameBody]
  | cons b r ih =>
    intro c hc
    simp only [escapeNameBody] at hc
    split at hc
    · rename_i h
      rcases List.mem_cons.1 hc with hc | hc
      · subst hc; simp [nameLiteral] at h; exact ⟨h.1.1, h.1.2⟩
      · exact ih c hc
    · have h16 : ∀ x : Byte, isRegular (hexDigit (x / 16)) = true ∧
          isPrintable (hexDigit (x / 16)) = true ∧ isRegular (hexDigit (x % 16)) = true ∧
          isPrintable (hexDigit (x % 16)) = true :=
        forall_byte (P := fun x => isRegular (hexDigit (x / 16)) = true ∧
          isPrintable (hexDigit (x / 16)) = true ∧ isRegular (hexDigit (x % 16)) = true ∧
          isPrintable (hexDigit (x % 16)) = true) (by decide +kernel)
      have hb := h16 b
      simp only [hexchr, List.mem_cons, List.cons_append, List.nil_append] at hc
      rcases hc with hc | hc | hc | hc
      · subst hc; decide
      · subst hc; exact ⟨hb.1, hb.2.1⟩
      · subst hc; exact ⟨hb.2.2.1, hb.2.2.2⟩
      · exact ih c hc

/-- Distinct names have distinct escaped forms. -/
theorem C14_name_escape_injective (m n : Bytes) (h : escapeNameBody m = escapeNameBody n) :
    m = n := by
  rw [← unescape_escape m, h, unescape_escape]

/-- Non-vacuity: a name with a space, a `#`, a delimiter and a non-ASCII byte. -/
example : escapeName [65, 32, 35, 47, 0xE9] =
    .ok [65, 35, 50, 48, 35, 50, 51, 35, 50, 70, 35, 69, 57] ∧ (0 : UInt8) ∉ [65, 32, 35, 47, 0xE9] := by
  decide +kernel

end Pdfmm
