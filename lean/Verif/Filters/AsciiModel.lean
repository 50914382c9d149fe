import Verif.Filters.Codec
import Verif.Base.Chars
/-
ASCIIHexDecode and ASCII85Decode filters, `src/pdfmm/private/PdfFiltersPrivate.cpp`.
-/
namespace Pdfmm

/-! ### PdfHexFilter -/

/-- `PdfHexFilter::EncodeBlockImpl`, `src/pdfmm/private/PdfFiltersPrivate.cpp:230-239`:
one `Write(data, 2)` per input byte; no begin/end action. -/
def hexEncoder : Codec.Stepper Unit where
  start := ()
  step := fun _ b => .ok ((), [writeCharHex b])
  finish := fun _ => .ok []

/-- Members `m_DecodedByte`, `m_Low` of `PdfHexFilter`. -/
structure HexState where
  decodedByte : Byte
  low : Bool
  deriving DecidableEq, Repr

/-- Loop body of `PdfHexFilter::DecodeBlockImpl`, `src/pdfmm/private/PdfFiltersPrivate.cpp:250-271`. -/
def hexDecodeStep (s : HexState) (b : Byte) : HexState × List Bytes :=
  if isWhitespace b then (s, [])
  else
    let val := hexValueOrZero b
    if s.low then ({ decodedByte := val &&& 0x0F, low := false }, [])
    else
      let d := (s.decodedByte <<< 4) ||| val
      ({ decodedByte := d, low := true }, [[d]])

/-- `BeginDecodeImpl`, `DecodeBlockImpl`, `EndDecodeImpl` of `PdfHexFilter`,
`src/pdfmm/private/PdfFiltersPrivate.cpp:241-283`. -/
def hexDecoder : Codec.Stepper HexState where
  start := { decodedByte := 0, low := true }
  step := fun s b => .ok (hexDecodeStep s b)
  finish := fun s => .ok (if s.low then [] else [[s.decodedByte]])

/-- The ASCIIHexDecode filter, encoding direction. -/
def hexEnc : Codec Unit := Codec.ofStepper hexEncoder
/-- The ASCIIHexDecode filter, decoding direction. -/
def hexDec : Codec HexState := Codec.ofStepper hexDecoder

/-! ### PdfAscii85Filter -/

/-- Members `m_count`, `m_tuple` (`unsigned`, 32 bits) of `PdfAscii85Filter`. -/
structure A85State where
  count : Nat
  tuple : Nat
  deriving DecidableEq, Repr

/-- First loop of `PdfAscii85Filter::EncodeTuple` (`i` iterations; the code uses 5): base-85 digits,
least significant first, `src/pdfmm/private/PdfFiltersPrivate.cpp:308-312`. -/
def a85Digits : Nat → Nat → List Nat
  | 0, _ => []
  | i + 1, t => t % 85 :: a85Digits i (t / 85)

/-- `PdfAscii85Filter::EncodeTuple`, `src/pdfmm/private/PdfFiltersPrivate.cpp:300-321`: the
`count + 1` most significant digits, offset by `'!'`, in one write. -/
def a85EncodeTuple (tuple count : Nat) : Bytes :=
  ((a85Digits 5 tuple).reverse.take (count + 1)).map fun d => UInt8.ofNat (d + 33)

/-- Loop body of `PdfAscii85Filter::EncodeBlockImpl`,
`src/pdfmm/private/PdfFiltersPrivate.cpp:336-361`.  `m_tuple |= (c << k)` on zero bits is addition
of a multiple (`|||` is kept here). -/
def a85EncodeStep (s : A85State) (b : Byte) : A85State × List Bytes :=
  let c := b.toNat
  match s.count with
  | 0 => ({ count := 1, tuple := s.tuple ||| (c <<< 24) }, [])
  | 1 => ({ count := 2, tuple := s.tuple ||| (c <<< 16) }, [])
  | 2 => ({ count := 3, tuple := s.tuple ||| (c <<< 8) }, [])
  | 3 =>
    let t := s.tuple ||| c
    ({ count := 0, tuple := 0 }, [if t = 0 then [122] else a85EncodeTuple t 4])
  | n + 4 => ({ s with count := n + 5 }, [])

/-- Encoding direction of `PdfAscii85Filter`,
`src/pdfmm/private/PdfFiltersPrivate.cpp:323-370`. -/
def a85Encoder : Codec.Stepper A85State where
  start := { count := 0, tuple := 0 }
  step := fun s b => .ok (a85EncodeStep s b)
  finish := fun s => .ok (if s.count > 0 then [a85EncodeTuple s.tuple s.count] else [])

/-- `s_Powers85`, `src/pdfmm/private/PdfFiltersPrivate.cpp:21`. -/
def powers85 : List Nat := [85 * 85 * 85 * 85, 85 * 85 * 85, 85 * 85, 85, 1]

/-- `PdfAscii85Filter::WidePut`, `src/pdfmm/private/PdfFiltersPrivate.cpp:432-459`: the `bytes` most
significant bytes of a 32-bit tuple (`bytes <= 4`). -/
def a85WidePut (tuple bytes : Nat) : Bytes :=
  ([tuple >>> 24, tuple >>> 16, tuple >>> 8, tuple].take bytes).map UInt8.ofNat

/-- The white-space characters skipped by the decoder,
`src/pdfmm/private/PdfFiltersPrivate.cpp:414-416`. -/
def a85IsSpace (b : Byte) : Bool :=
  b == 10 || b == 13 || b == 9 || b == 32 || b == 0 || b == 12 || b == 8 || b == 127

/-- One ordinary iteration of `PdfAscii85Filter::DecodeBlockImpl` (anything but `'~'`),
`src/pdfmm/private/PdfFiltersPrivate.cpp:384-404, 414-416`.  `m_tuple` is 32 bits wide; an index
into `s_Powers85` past its end is undefined behaviour. -/
def a85DecodeStep (s : A85State) (b : Byte) : Res (A85State × List Bytes) :=
  if b = 122 then
    if s.count ≠ 0 then raise .ValueOutOfRange else .ok (s, [a85WidePut 0 4])
  else if a85IsSpace b then .ok (s, [])
  else if schar b < 33 ∨ schar b > 117 then raise .ValueOutOfRange
  else
    match powers85[s.count]? with
    | none => .error .ub
    | some p =>
      let t := (s.tuple + (b.toNat - 33) * p) % 2 ^ 32
      if s.count + 1 = 5 then .ok ({ count := 0, tuple := 0 }, [a85WidePut t 4])
      else .ok ({ count := s.count + 1, tuple := t }, [])

/-- `PdfAscii85Filter::DecodeBlockImpl`, `src/pdfmm/private/PdfFiltersPrivate.cpp:374-420`:
`'~'` must be followed by `'>'` or by the end of the block, and drops the rest of this block. -/
def a85DecodeBlock : A85State → Bytes → Res (A85State × List Bytes)
  | s, [] => .ok (s, [])
  | s, b :: bs =>
    if b = 126 then
      match bs with
      | [] => .ok (s, [])
      | c :: _ => if c ≠ 62 then raise .ValueOutOfRange else .ok (s, [])
    else
      match a85DecodeStep s b with
      | .error e => .error e
      | .ok (s', o) =>
        match a85DecodeBlock s' bs with
        | .error e => .error e
        | .ok (s'', o') => .ok (s'', o ++ o')

/-- `PdfAscii85Filter::EndDecodeImpl`, `src/pdfmm/private/PdfFiltersPrivate.cpp:422-430`. -/
def a85EndDecode (s : A85State) : Res (List Bytes) :=
  if s.count > 0 then
    match powers85[s.count - 1]? with
    | none => .error .ub
    | some p => .ok [a85WidePut ((s.tuple + p) % 2 ^ 32) (s.count - 1)]
  else .ok []

/-- The ASCII85Decode filter, encoding direction. -/
def a85Enc : Codec A85State := Codec.ofStepper a85Encoder

/-- The ASCII85Decode filter, decoding direction,
`src/pdfmm/private/PdfFiltersPrivate.cpp:372-431`. -/
def a85Dec : Codec A85State where
  start := { count := 0, tuple := 0 }
  block := a85DecodeBlock
  finish := a85EndDecode

end Pdfmm
