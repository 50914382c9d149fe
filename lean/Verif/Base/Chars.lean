import Verif.Base.Basic
/-
Character classes and hexadecimal helpers.
-/
namespace Pdfmm

/-- `PdfTokenizer::IsWhitespace`, `src/pdfmm/base/PdfTokenizer.cpp:656-675`. -/
def isWhitespace (b : Byte) : Bool :=
  b == 0 || b == 9 || b == 10 || b == 12 || b == 13 || b == 32

/-- `PdfTokenizer::IsDelimiter`, `src/pdfmm/base/PdfTokenizer.cpp:677-704`:
`( ) < > [ ] { } / %`. -/
def isDelimiter (b : Byte) : Bool :=
  b == 40 || b == 41 || b == 60 || b == 62 || b == 91 || b == 93 || b == 123 || b == 125 ||
  b == 47 || b == 37

/-- `PdfTokenizer::IsTokenDelimiter`, `src/pdfmm/base/PdfTokenizer.cpp:706-735`:
`( ) [ ] { } /` (the characters `< > %` are treated separately). -/
def isTokenDelimiter (b : Byte) : Bool :=
  b == 40 || b == 41 || b == 91 || b == 93 || b == 123 || b == 125 || b == 47

/-- `PdfTokenizer::IsRegular`, `src/pdfmm/base/PdfTokenizer.cpp:737-740`. -/
def isRegular (b : Byte) : Bool := !isWhitespace b && !isDelimiter b

/-- `PdfTokenizer::IsPrintable`, `src/pdfmm/base/PdfTokenizer.cpp:742-745`:
`ch > 32 && ch < 125` on signed `char`. -/
def isPrintable (b : Byte) : Bool := decide (schar b > 32) && decide (schar b < 125)

/-- `utls::TryGetHexValue`, `src/pdfmm/private/PdfDeclarationsPrivate.cpp:666-728`;
`none` is `return false` (the value is then set to 0). -/
def tryGetHexValue (b : Byte) : Option Byte :=
  if 48 ≤ b ∧ b ≤ 57 then some (b - 48)
  else if 97 ≤ b ∧ b ≤ 102 then some (b - 87)
  else if 65 ≤ b ∧ b ≤ 70 then some (b - 55)
  else none

/-- The value left in the out parameter of `TryGetHexValue`. -/
def hexValueOrZero (b : Byte) : Byte := (tryGetHexValue b).getD 0

/-- One nibble written by `utls::WriteCharHexTo`,
`src/pdfmm/private/PdfDeclarationsPrivate.cpp:899-900`. -/
def hexDigit (n : Byte) : Byte := if n > 9 then n + (65 - 10) else n + 48

/-- `utls::WriteCharHexTo`, `src/pdfmm/private/PdfDeclarationsPrivate.cpp:897-904`. -/
def writeCharHex (b : Byte) : Bytes := [hexDigit ((b &&& 0xF0) >>> 4), hexDigit (b &&& 0x0F)]

end Pdfmm
