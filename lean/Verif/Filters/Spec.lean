import Verif.Base.Basic
/-
Independent specifications for the filters (ISO 32000-1 section 7.4, RFC 2083 section 6).
Nothing here refers to the model.
-/
namespace Pdfmm.Spec

/-- A base-85 digit character, `'!'` to `'u'`. -/
def IsA85Digit (b : UInt8) : Prop := 33 ≤ b.toNat ∧ b.toNat ≤ 117

instance (b : UInt8) : Decidable (IsA85Digit b) := inferInstanceAs (Decidable (_ ∧ _))

/-- The characters a reader of ASCII85 text may skip: PDF white space (ISO 32000-1 table 1), plus
backspace and DEL which pdfmm also skips. -/
def IsA85Skip (b : UInt8) : Prop := b.toNat ∈ [0, 8, 9, 10, 12, 13, 32, 127]

instance (b : UInt8) : Decidable (IsA85Skip b) := inferInstanceAs (Decidable (_ ∈ _))

/-- How many base-85 digits a text contains. -/
def a85DigitCount (t : List UInt8) : Nat := (t.filter fun b => decide (IsA85Digit b)).length

/-- White space of PDF, ISO 32000-1 table 1. -/
def IsWhite (b : UInt8) : Prop := b.toNat ∈ [0, 9, 10, 12, 13, 32]

instance (b : UInt8) : Decidable (IsWhite b) := inferInstanceAs (Decidable (_ ∈ _))

/-- Value of a hexadecimal digit character. -/
def hexVal (b : UInt8) : Option Nat :=
  if 48 ≤ b.toNat ∧ b.toNat ≤ 57 then some (b.toNat - 48)
  else if 65 ≤ b.toNat ∧ b.toNat ≤ 70 then some (b.toNat - 65 + 10)
  else if 97 ≤ b.toNat ∧ b.toNat ≤ 102 then some (b.toNat - 97 + 10)
  else none

/-- Bytes denoted by a list of hexadecimal digit values: pairs, an odd last digit is followed by 0. -/
def pairUp : List Nat → List UInt8
  | [] => []
  | [a] => [UInt8.ofNat (16 * a)]
  | a :: b :: t => UInt8.ofNat (16 * a + b) :: pairUp t

/-- The digits of ASCIIHex data: white space is skipped, `'>'` ends the data, anything else is
illegal. -/
def hexDigitsOf : List UInt8 → Option (List Nat)
  | [] => some []
  | b :: t =>
    if b.toNat = 62 then some []
    else if IsWhite b then hexDigitsOf t
    else
      match hexVal b, hexDigitsOf t with
      | some v, some r => some (v :: r)
      | _, _ => none

/-- ASCIIHexDecode, ISO 32000-1 7.4.2. -/
def asciiHexDecode (t : List UInt8) : Option (List UInt8) := (hexDigitsOf t).map pairUp

/-- Run-length representations, ISO 32000-1 7.4.5: `RunLength e d` says that `e` represents `d`. -/
inductive RunLength : List UInt8 → List UInt8 → Prop
  /-- end of data -/
  | eod : RunLength [128] []
  /-- length byte `n` in 0..127: the following `n + 1` bytes are copied -/
  | literal {e d : List UInt8} (bs : List UInt8) (h1 : 1 ≤ bs.length) (h2 : bs.length ≤ 128)
      (h : RunLength e d) : RunLength (UInt8.ofNat (bs.length - 1) :: bs ++ e) (bs ++ d)
  /-- length byte `n` in 129..255: the next byte is copied `257 - n` times -/
  | repeated {e d : List UInt8} (b : UInt8) (k : Nat) (h1 : 2 ≤ k) (h2 : k ≤ 128)
      (h : RunLength e d) : RunLength (UInt8.ofNat (257 - k) :: b :: e) (List.replicate k b ++ d)

/-! ### LZW, ISO 32000-1 7.4.4, with the default EarlyChange = 1 -/

/-- The `w` low bits of `c`, most significant first. -/
def natBits : Nat → Nat → List Bool
  | 0, _ => []
  | w + 1, c => c.testBit w :: natBits w c

/-- The bits of a byte string, most significant bit of each byte first. -/
def bytesBits (bs : List UInt8) : List Bool := bs.flatMap fun b => natBits 8 b.toNat

/-- Initial dictionary: codes 0..255 are the one-byte strings; 256 (clear table) and 257 (end of data)
denote no string. -/
def lzwBase : List (List UInt8) := (List.range 256).map (fun i => [UInt8.ofNat i]) ++ [[], []]

/-- Bit length of the code written after `n` string codes since the last clear-table code.  The
encoder's table then has `258 + n` entries, and "the first output code that is 10 bits long is the one
following creation of table entry 511", and so on for 1023 and 2047. -/
def lzwWidth (n : Nat) : Nat :=
  if 258 + n < 512 then 9 else if 258 + n < 1024 then 10 else if 258 + n < 2048 then 11 else 12

/-- `LzwCodes dict prev codes data`: an encoder with dictionary `dict`, having just written the string
`prev` (none right after a clear), may write `codes` for `data`.  After writing a string the encoder adds
that string extended by the next byte; it has to clear the table before it exceeds 4096 entries.
(Greedy matching is not required, so every conforming encoder is covered.) -/
inductive LzwCodes : List (List UInt8) → Option (List UInt8) → List Nat → List UInt8 → Prop
  /-- end of data -/
  | eod {dict prev} : LzwCodes dict prev [257] []
  /-- clear table -/
  | clear {dict prev cs d} (h : LzwCodes lzwBase none cs d) : LzwCodes dict prev (256 :: cs) d
  /-- first string after a clear -/
  | first {dict c x w cs d} (hc : dict[c]? = some (x :: w))
      (h : LzwCodes dict (some (x :: w)) cs d) : LzwCodes dict none (c :: cs) (x :: w ++ d)
  /-- next string: the previous one extended by the first byte of this one is now in the table -/
  | next {dict p c x w cs d} (hlen : dict.length < 4096)
      (hc : (dict ++ [p ++ [x]])[c]? = some (x :: w))
      (h : LzwCodes (dict ++ [p ++ [x]]) (some (x :: w)) cs d) :
      LzwCodes dict (some p) (c :: cs) (x :: w ++ d)

/-- The bits of a code sequence; `n` counts the string codes since the last clear. -/
def lzwBits : Nat → List Nat → List Bool
  | _, [] => []
  | n, c :: cs => natBits (lzwWidth n) c ++ lzwBits (if c = 256 then 0 else n + 1) cs

/-! ### PNG filtering (RFC 2083 section 6) and TIFF horizontal differencing -/

/-- PaethPredictor, RFC 2083 6.6. -/
def pngPaeth (a b c : UInt8) : UInt8 :=
  let p : Int := (a.toNat : Int) + b.toNat - c.toNat
  let dist (x : UInt8) : Nat := (p - x.toNat).natAbs
  if dist a ≤ dist b ∧ dist a ≤ dist c then a else if dist b ≤ dist c then b else c

/-- Prediction for a byte from the bytes `left`, `up`, `upLeft`; filter types None, Sub, Up, Average,
Paeth. -/
def pngPredict (type : Nat) (left up upLeft : UInt8) : UInt8 :=
  match type with
  | 1 => left
  | 2 => up
  | 3 => UInt8.ofNat ((left.toNat + up.toNat) / 2)
  | 4 => pngPaeth left up upLeft
  | _ => 0

/-- Byte `i` of a row, or 0 when it is outside the row (to the left of its start). -/
def byteAt (row : List UInt8) (i : Nat) : UInt8 := row.getD i 0

/-- The byte one pixel to the left. -/
def leftAt (bpp : Nat) (row : List UInt8) (i : Nat) : UInt8 := if i < bpp then 0 else byteAt row (i - bpp)

/-- A row filtered with `type`, given the previous row. -/
def pngFilterRow (bpp type : Nat) (prior raw : List UInt8) : List UInt8 :=
  (List.range raw.length).map fun i =>
    byteAt raw i - pngPredict type (leftAt bpp raw i) (byteAt prior i) (leftAt bpp prior i)

/-- An image as a list of (filter type, row); each row is written as its type byte and its filtered
bytes. -/
def pngFilterImage (bpp : Nat) (prior : List UInt8) : List (Nat × List UInt8) → List UInt8
  | [] => []
  | (t, raw) :: rows => UInt8.ofNat t :: pngFilterRow bpp t prior raw ++ pngFilterImage bpp raw rows

/-- TIFF predictor 2 for 8-bit components: each component minus the same component of the pixel to the
left. -/
def tiffRow (colors : Nat) (raw : List UInt8) : List UInt8 :=
  (List.range raw.length).map fun i => byteAt raw i - leftAt colors raw i

end Pdfmm.Spec
