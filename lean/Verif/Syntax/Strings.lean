import Verif.Base.Chars
/-
PDF strings: the literal and hexadecimal writers and readers.
-/
namespace Pdfmm

/-- `getEscapedCharacter` of the writer, `src/pdfmm/base/PdfString.cpp:434-458`; 0 is "none". -/
def wrEscaped (b : Byte) : Byte :=
  if b = 10 then 110 else if b = 13 then 114 else if b = 9 then 116 else if b = 8 then 98
  else if b = 12 then 102 else if b = 40 then 40 else if b = 41 then 41 else if b = 92 then 92
  else 0

/-- `getEscapedCharacter` of the reader, `src/pdfmm/base/PdfTokenizer.cpp:747-770`. -/
def rdEscaped (b : Byte) : Byte :=
  if b = 110 then 10 else if b = 114 then 13 else if b = 116 then 9 else if b = 98 then 8
  else if b = 102 then 12 else if b = 40 then 40 else if b = 41 then 41 else if b = 92 then 92
  else 0

/-- One byte of the literal form, `src/pdfmm/base/PdfString.cpp:186-203`. -/
def wrLitByte (b : Byte) : Bytes := if wrEscaped b = 0 then [b] else [92, wrEscaped b]

/-- The bytes between the brackets, `src/pdfmm/base/PdfString.cpp:170-205`, for a string without
encryption whose stored bytes are `d` (states `RawBuffer` and `Ascii`). -/
def wrStringBody (d : Bytes) (hex : Bool) : Bytes :=
  if hex then d.flatMap writeCharHex else d.flatMap wrLitByte

/-- `PdfString::Write`, `src/pdfmm/base/PdfString.cpp:116-209` (no encryption, stored bytes). -/
def writeString (d : Bytes) (hex : Bool) : Bytes :=
  (if hex then 60 else 40) :: (wrStringBody d hex ++ [if hex then 62 else 41])

/-- `isOctalChar`, `src/pdfmm/base/PdfTokenizer.cpp:794-817`. -/
def isOctal (b : Byte) : Bool := 48 ≤ b && b ≤ 55

/-- The locals of `PdfTokenizer::ReadString`, `src/pdfmm/base/PdfTokenizer.cpp:492-499`. -/
structure StrSt where
  escape : Bool := false
  octEscape : Bool := false
  octCount : Nat := 0
  octValue : Byte := 0
  balance : Int := 0
  buf : Bytes := []

/-- The code after the loop, `src/pdfmm/base/PdfTokenizer.cpp:583-585`. -/
def StrSt.finish (s : StrSt) : Bytes := if s.octEscape then s.buf ++ [s.octValue] else s.buf

/-- `PdfTokenizer::ReadString`, `src/pdfmm/base/PdfTokenizer.cpp:490-610`, without encryption.
Returns the string and the unread input. -/
def readStringLoop : Bytes → StrSt → Bytes × Bytes
  | [], s => (s.finish, [])
  | c :: r, s =>
    if s.escape then
      if s.octEscape then
        if !isOctal c then
          if c = 41 then (s.finish, r)
          else if c ≠ 92 then
            readStringLoop r { s with buf := s.buf ++ [s.octValue] ++ [c], escape := false, octEscape := false, octCount := 0, octValue := 0 }
          else
            readStringLoop r { s with buf := s.buf ++ [s.octValue], octEscape := false, octCount := 0, octValue := 0 }
        else
          let v := (s.octValue <<< 3) ||| ((c - 48) &&& 7)
          if s.octCount + 1 = 3 then
            readStringLoop r { s with buf := s.buf ++ [v], escape := false, octEscape := false, octCount := 0, octValue := 0 }
          else readStringLoop r { s with octCount := s.octCount + 1, octValue := v }
      else if isOctal c then
        readStringLoop r { s with octValue := (c - 48) &&& 7, octEscape := true, octCount := 1 }
      else if c ≠ 10 ∧ c ≠ 13 ∧ rdEscaped c ≠ 0 then
        readStringLoop r { s with buf := s.buf ++ [rdEscaped c], escape := false }
      else readStringLoop r { s with escape := false }
    else if s.balance = 0 ∧ c = 41 then (s.finish, r)
    else
      let bal := if c = 40 then s.balance + 1 else if c = 41 then s.balance - 1 else s.balance
      if c = 92 then readStringLoop r { s with balance := bal, escape := true }
      else readStringLoop r { s with balance := bal, buf := s.buf ++ [c] }

/-- `PdfTokenizer::ReadString` from its initial locals. -/
def readString (inp : Bytes) : Bytes × Bytes := readStringLoop inp {}

/-- The digits kept by `readHexString`, `src/pdfmm/base/PdfTokenizer.cpp:783-786`. -/
def isHexDigitChar (b : Byte) : Bool :=
  (48 ≤ b && b ≤ 57) || (65 ≤ b && b ≤ 70) || (97 ≤ b && b ≤ 102)

/-- Loop of `readHexString`, `src/pdfmm/base/PdfTokenizer.cpp:776-787`. -/
def readHexLoop : Bytes → Bytes → Bytes × Bytes
  | [], acc => (acc, [])
  | c :: r, acc =>
    if c = 62 then (acc, r)
    else if isHexDigitChar c then readHexLoop r (acc ++ [c])
    else readHexLoop r acc

/-- `readHexString`, `src/pdfmm/base/PdfTokenizer.cpp:772-792`. -/
def readHexString (inp : Bytes) : Bytes × Bytes :=
  let (b, r) := readHexLoop inp []
  (if b.length % 2 = 1 then b ++ [48] else b, r)

/-- Loop of `PdfString::FromHexData`, `src/pdfmm/base/PdfString.cpp:73-100`; `pend` is the first
nibble when one is waiting (`low == false`). -/
def fromHexLoop : Bytes → Option Byte → Bytes → Bytes
  | [], none, acc => acc
  | [], some d, acc => acc ++ [d]
  | c :: r, pend, acc =>
    if isWhitespace c then fromHexLoop r pend acc
    else match pend with
      | none => fromHexLoop r (some (hexValueOrZero c &&& 0x0F)) acc
      | some d => fromHexLoop r none (acc ++ [(d <<< 4) ||| hexValueOrZero c])

/-- `PdfString::FromHexData`, `src/pdfmm/base/PdfString.cpp:67-114`, without encryption. -/
def fromHexData (h : Bytes) : Bytes := fromHexLoop h none []

/-- `PdfTokenizer::ReadHexString`, `src/pdfmm/base/PdfTokenizer.cpp:612-616`. -/
def readHex (inp : Bytes) : Bytes × Bytes :=
  let (b, r) := readHexString inp
  (fromHexData b, r)

/-! ### Proofs -/

theorem wrEscaped_spec (b : Byte) :
    (wrEscaped b = 0 → b ≠ 40 ∧ b ≠ 41 ∧ b ≠ 92) ∧
    (wrEscaped b ≠ 0 → rdEscaped (wrEscaped b) = b ∧ b ≠ 0 ∧ wrEscaped b ≠ 10 ∧ wrEscaped b ≠ 13 ∧
      isOctal (wrEscaped b) = false) :=
  forall_byte (P := fun b => (wrEscaped b = 0 → b ≠ 40 ∧ b ≠ 41 ∧ b ≠ 92) ∧
    (wrEscaped b ≠ 0 → rdEscaped (wrEscaped b) = b ∧ b ≠ 0 ∧ wrEscaped b ≠ 10 ∧ wrEscaped b ≠ 13 ∧
      isOctal (wrEscaped b) = false)) (by decide +kernel) b

theorem readString_litByte (b : Byte) (r buf : Bytes) :
    readStringLoop (wrLitByte b ++ r) { buf := buf } = readStringLoop r { buf := buf ++ [b] } := by
  have h := wrEscaped_spec b
  by_cases hb : wrEscaped b = 0
  · obtain ⟨h1, h2, h3⟩ := h.1 hb
    simp [wrLitByte, hb, readStringLoop, h1, h2, h3]
  · obtain ⟨h1, h2, h3, h4, h5⟩ := h.2 hb
    simp [wrLitByte, hb, readStringLoop, h1, h2, h3, h4, h5]

theorem readString_lit (d rest : Bytes) (buf : Bytes) :
    readStringLoop (d.flatMap wrLitByte ++ 41 :: rest) { buf := buf } = (buf ++ d, rest) := by
  induction d generalizing buf with
  | nil => simp [readStringLoop, StrSt.finish]
  | cons b d ih =>
    simp only [List.flatMap_cons, List.append_assoc]
    rw [readString_litByte, ih]
    simp

theorem readHexLoop_digits (d rest acc : Bytes) :
    readHexLoop (d.flatMap writeCharHex ++ 62 :: rest) acc = (acc ++ d.flatMap writeCharHex, rest) := by
  induction d generalizing acc with
  | nil => simp [readHexLoop]
  | cons b d ih =>
    have h : ∀ b : Byte, hexDigit ((b &&& 0xF0) >>> 4) ≠ 62 ∧ hexDigit (b &&& 0x0F) ≠ 62 ∧
        isHexDigitChar (hexDigit ((b &&& 0xF0) >>> 4)) = true ∧
        isHexDigitChar (hexDigit (b &&& 0x0F)) = true :=
      forall_byte (P := fun b => hexDigit ((b &&& 0xF0) >>> 4) ≠ 62 ∧ hexDigit (b &&& 0x0F) ≠ 62 ∧
        isHexDigitChar (hexDigit ((b &&& 0xF0) >>> 4)) = true ∧
        isHexDigitChar (hexDigit (b &&& 0x0F)) = true) (by decide +kernel)
    obtain ⟨h1, h2, h3, h4⟩ := h b
    simp only [List.flatMap_cons, writeCharHex, List.cons_append, List.nil_append]
    simp only [readHexLoop, h1, h2, h3, h4, if_true, if_false]
    rw [ih]; simp

theorem fromHexLoop_digits (d acc : Bytes) :
    fromHexLoop (d.flatMap writeCharHex) none acc = acc ++ d := by
  induction d generalizing acc with
  | nil => simp [fromHexLoop]
  | cons b d ih =>
    have h : ∀ b : Byte, isWhitespace (hexDigit ((b &&& 0xF0) >>> 4)) = false ∧
        isWhitespace (hexDigit (b &&& 0x0F)) = false ∧
        ((hexValueOrZero (hexDigit ((b &&& 0xF0) >>> 4)) &&& 0x0F) <<< 4) |||
          hexValueOrZero (hexDigit (b &&& 0x0F)) = b :=
      forall_byte (P := fun b => isWhitespace (hexDigit ((b &&& 0xF0) >>> 4)) = false ∧
        isWhitespace (hexDigit (b &&& 0x0F)) = false ∧
        ((hexValueOrZero (hexDigit ((b &&& 0xF0) >>> 4)) &&& 0x0F) <<< 4) |||
          hexValueOrZero (hexDigit (b &&& 0x0F)) = b) (by decide +kernel)
    obtain ⟨h1, h2, h3⟩ := h b
    simp only [List.flatMap_cons]
    simp only [writeCharHex, List.cons_append, List.nil_append, fromHexLoop, h1, h2, h3,
      Bool.false_eq_true, if_false]
    rw [ih]; simp

theorem flatMap_hex_length (d : Bytes) : (d.flatMap writeCharHex).length = 2 * d.length := by
  induction d with
  | nil => rfl
  | cons b d ih => simp [writeCharHex] at *; omega

/-- C16. Whatever the bytes of a string, the literal form written by `PdfString::Write`, read by
`ReadString` from just after the opening parenthesis, gives back exactly those bytes and leaves the
input right after the closing parenthesis. -/
theorem C16_literal_string_roundtrip (d rest : Bytes) :
    ∃ body, writeString d false ++ rest = 40 :: body ∧ readString body = (d, rest) := by
  refine ⟨d.flatMap wrLitByte ++ 41 :: rest, ?_, ?_⟩
  · simp [writeString, wrStringBody]
  · simpa [readString] using readString_lit d rest []

example : writeString [40, 92, 13, 0, 255] false =
    [40, 92, 40, 92, 92, 92, 114, 0, 255, 41] := by decide +kernel

theorem readHex_write (d rest : Bytes) :
    readHex (d.flatMap writeCharHex ++ 62 :: rest) = (d, rest) := by
  have h := readHexLoop_digits d rest []
  have hl : (d.flatMap writeCharHex).length % 2 ≠ 1 := by rw [flatMap_hex_length]; omega
  simp only [readHex, readHexString, h, List.nil_append, hl, if_false]
  simp only [fromHexData, fromHexLoop_digits, List.nil_append]

/-- C17. Whatever the bytes of a string, the hexadecimal form written by `PdfString::Write`, read by
`ReadHexString` from just after `<`, gives back exactly those bytes and leaves the input right
after `>`. -/
theorem C17_hex_string_roundtrip (d rest : Bytes) :
    ∃ body, writeString d true ++ rest = 60 :: body ∧ readHex body = (d, rest) := by
  refine ⟨d.flatMap writeCharHex ++ 62 :: rest, ?_, readHex_write d rest⟩
  simp [writeString, wrStringBody]

example : writeString [0, 0xAB] true = [60, 48, 48, 65, 66, 62] := by decide +kernel

/-- Reading a string never returns more input than it was given. -/
theorem readStringLoop_rest (inp : Bytes) (s : StrSt) :
    (readStringLoop inp s).2.length ≤ inp.length := by
  induction inp generalizing s with
  | nil => simp [readStringLoop]
  | cons c r ih =>
    rw [readStringLoop]
    repeat' split
    all_goals first
      | exact Nat.le_succ_of_le (ih _)
      | exact Nat.le_succ _

theorem readHexLoop_rest (inp acc : Bytes) :
    (readHexLoop inp acc).2.length ≤ inp.length := by
  induction inp generalizing acc with
  | nil => simp [readHexLoop]
  | cons c r ih =>
    rw [readHexLoop]
    repeat' split
    all_goals first
      | exact Nat.le_succ_of_le (ih _)
      | exact Nat.le_succ _

theorem readString_rest (inp : Bytes) : (readString inp).2.length ≤ inp.length :=
  readStringLoop_rest _ _

theorem readHex_rest (inp : Bytes) : (readHex inp).2.length ≤ inp.length :=
  readHexLoop_rest _ _

end Pdfmm
