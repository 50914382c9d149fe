import Verif.Filters.Codec
/-
LZWDecode and RunLengthDecode filters, `src/pdfmm/private/PdfFiltersPrivate.cpp:598-815`.
Both only decode (`CanEncode` is false).
-/
namespace Pdfmm

/-! ### PdfRLEFilter -/

/-- One iteration of `PdfRLEFilter::DecodeBlockImpl`,
`src/pdfmm/private/PdfFiltersPrivate.cpp:629-648`; the state is `m_CodeLen` (`int`).
`none` is the `break`.  Decrementing `INT_MIN` is signed overflow. -/
def rleStep (codeLen : Int) (b : Byte) : Res (Option (Int × List Bytes)) :=
  if codeLen = 0 then .ok (some (schar b, []))
  else if codeLen = 128 then .ok none
  else if codeLen ≤ 127 then
    if codeLen = -2147483648 then .error .ub else .ok (some (codeLen - 1, [[b]]))
  else .ok (some (-1, List.replicate (257 - codeLen).toNat [b]))

/-- `PdfRLEFilter::DecodeBlockImpl`, `src/pdfmm/private/PdfFiltersPrivate.cpp:625-650`. -/
def rleBlock : Int → Bytes → Res (Int × List Bytes)
  | s, [] => .ok (s, [])
  | s, b :: bs =>
    match rleStep s b with
    | .error e => .error e
    | .ok none => .ok (s, [])
    | .ok (some (s', o)) =>
      match rleBlock s' bs with
      | .error e => .error e
      | .ok (s'', o') => .ok (s'', o ++ o')

/-- The RunLengthDecode filter, decoding direction, `BeginDecodeImpl` sets `m_CodeLen = 0`;
`EndDecodeImpl` does nothing. -/
def rleDec : Codec Int where
  start := 0
  block := rleBlock
  finish := fun _ => .ok []

/-! ### PdfLZWFilter -/

/-- Members of `PdfLZWFilter`, `src/pdfmm/private/PdfFiltersPrivate.h`: `m_table`, `m_mask`,
`m_code_len`, `m_character`, `m_First`.  (`m_Predictor` is modelled by stacking the predictor codec on
the output.) -/
structure LzwState where
  table : List Bytes
  mask : Nat
  codeLen : Nat
  character : Byte
  first : Bool
  deriving DecidableEq, Repr

/-- `PdfLZWFilter::InitTable`, `src/pdfmm/private/PdfFiltersPrivate.cpp:795-813`: the 256 one-byte
strings and an empty dummy. -/
def lzwInitTable : List Bytes := (List.range 256).map (fun i => [UInt8.ofNat i]) ++ [[]]

/-- `PdfLZWFilter::s_masks`, `src/pdfmm/private/PdfFiltersPrivate.cpp:656`. -/
def lzwMasks : List Nat := [0x01FF, 0x03FF, 0x07FF, 0x0FFF]

/-- The handling of one code, `src/pdfmm/private/PdfFiltersPrivate.cpp:733-785`.
`none` means the end-of-data code was read. -/
def lzwCode (st : LzwState) (old code : Nat) : Res (Option (LzwState × Nat × List Bytes)) :=
  if code = 0x100 then
    .ok (some ({ st with mask := 0, codeLen := 9, table := lzwInitTable }, old, []))
  else if code = 0x101 then .ok none
  else
    let data? : Res Bytes :=
      match st.table[code]? with
      | some d => .ok d
      | none =>
        match st.table[old]? with
        | none => raise .ValueOutOfRange
        | some d => .ok (d ++ [st.character])
    match data? with
    | .error e => .error e
    | .ok [] => .error .ub           -- `data[0]` of an empty vector
    | .ok (c :: ds) =>
      let data2 := match st.table[old]? with
        | some d => d
        | none => c :: ds
      let table := st.table ++ [data2 ++ [c]]
      let bump := table.length = 511 ∨ table.length = 1023 ∨ table.length = 2047
      .ok (some ({ st with
          table := table
          character := c
          codeLen := if bump then st.codeLen + 1 else st.codeLen
          mask := if bump then st.mask + 1 else st.mask }, code, [c :: ds]))

/-- Inner loop, `src/pdfmm/private/PdfFiltersPrivate.cpp:727-786`: read codes while the bit buffer holds
at least one.  Returns state, `old`, `buffer_size`, whether end-of-data was seen, and the output. -/
def lzwDrain : Nat → LzwState → Nat → Nat → Nat → Res (LzwState × Nat × Nat × Bool × List Bytes)
  | 0, _, _, _, _ => .error .diverge
  | fuel + 1, st, old, size, buff =>
    if size < st.codeLen then .ok (st, old, size, false, [])
    else
      match lzwMasks[st.mask]? with
      | none => .error .ub
      | some m =>
        let code := (buff >>> (size - st.codeLen)) &&& m
        match lzwCode st old code with
        | .error e => .error e
        | .ok none => .ok (st, old, size - st.codeLen, true, [])
        | .ok (some (st', old', o)) =>
          match lzwDrain fuel st' old' (size - st.codeLen) buff with
          | .error e => .error e
          | .ok (st'', old'', size'', stop, o') => .ok (st'', old'', size'', stop, o ++ o')

/-- Fill loop, `src/pdfmm/private/PdfFiltersPrivate.cpp:715-724`: shift bytes into the 32-bit buffer
while `buffer_size <= 24 - 8` and input is left. -/
def lzwFill : Bytes → Nat → Nat → Bytes × Nat × Nat
  | [], size, buff => ([], size, buff)
  | b :: bs, size, buff =>
    if size ≤ 16 then lzwFill bs (size + 8) ((buff <<< 8) % 2 ^ 32 ||| b.toNat)
    else (b :: bs, size, buff)

/-- Outer loop, `src/pdfmm/private/PdfFiltersPrivate.cpp:712-787`. -/
def lzwOuter : Nat → LzwState → Nat → Nat → Nat → Bytes → Res (LzwState × List Bytes)
  | _, st, _, _, _, [] => .ok (st, [])
  | 0, _, _, _, _, _ :: _ => .error .diverge
  | fuel + 1, st, old, size, buff, b :: bs =>
    match lzwFill (b :: bs) size buff with
    | (bs', size', buff') =>
      match lzwDrain (size' + 1) st old size' buff' with
      | .error e => .error e
      | .ok (st', old', size'', stop, o) =>
        if stop then .ok (st', o)
        else
          match lzwOuter fuel st' old' size'' buff' bs' with
          | .error e => .error e
          | .ok (st'', o') => .ok (st'', o ++ o')

/-- `PdfLZWFilter::DecodeBlockImpl`, `src/pdfmm/private/PdfFiltersPrivate.cpp:694-788`.  The bit buffer
and `old` are local variables, reset for every block; `m_character = *buffer` of an empty first block
is an out-of-range read. -/
def lzwBlock (st : LzwState) (bs : Bytes) : Res (LzwState × List Bytes) :=
  if st.first then
    match bs with
    | [] => .error .ub
    | b :: _ => lzwOuter (bs.length + 1) { st with character := b, first := false } 0 0 0 bs
  else lzwOuter (bs.length + 1) st 0 0 0 bs

/-- The LZWDecode filter, `BeginDecodeImpl`: `src/pdfmm/private/PdfFiltersPrivate.cpp:680-692`. -/
def lzwDec : Codec LzwState where
  start := { table := lzwInitTable, mask := 0, codeLen := 9, character := 0, first := true }
  block := lzwBlock
  finish := fun _ => .ok []

end Pdfmm
