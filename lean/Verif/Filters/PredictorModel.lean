import Verif.Filters.Codec
/-
The predictor of the Flate and LZW decoders, `PdfPredictorDecoder`,
`src/pdfmm/private/PdfFiltersPrivate.cpp:29-219`.
-/
namespace Pdfmm

/-- `static_cast<int>` of an `int64_t` (two's complement wrap-around, C++20). -/
def toInt32 (z : Int) : Int :=
  let m := z % 4294967296
  if m < 2147483648 then m else m - 4294967296

/-- `int` multiplication: overflow is undefined. -/
def mulInt (a b : Int) : Res Int :=
  if -2147483648 ≤ a * b ∧ a * b ≤ 2147483647 then .ok (a * b) else .error .ub

/-- The integers found in `/DecodeParms` (defaults 1, 1, 8, 1 applied by `FindKeyAs`).  `/EarlyChange`
is read but not used by the code and is left out. -/
structure PredParams where
  predictor : Int
  colors : Int
  bitsPerComponent : Int
  columns : Int

/-- Constant members: `m_Predictor`, `m_BitsPerComponent`, `m_BytesPerPixel`, `m_Rows` (bytes per row). -/
structure PredCfg where
  predictor : Int
  bpc : Int
  bpp : Nat
  rows : Nat

/-- Variable members: `m_CurrPredictor`, `m_CurrRowIndex`, `m_NextByteIsPredictor`, `m_Prev`,
`m_UpperLeftPixelComponents`. -/
structure PredState where
  curr : Int
  row : Nat
  next : Bool
  prev : Bytes
  ul : Bytes

/-- Constructor, `src/pdfmm/private/PdfFiltersPrivate.cpp:32-80`.  The two products computed before
`DoesMultiplicationOverflow` are `int` products, so an overflow is undefined before the check is made;
once they fit, the `size_t` check cannot fail and is left out. -/
def predInit (p : PredParams) : Res (PredCfg × PredState) :=
  let pr := toInt32 p.predictor
  let colors := toInt32 p.colors
  let bpc := toInt32 p.bitsPerComponent
  let cols := toInt32 p.columns
  if cols < 1 ∨ colors < 1 ∨ bpc < 1 then raise .ValueOutOfRange
  else
    match mulInt bpc colors with
    | .error e => .error e
    | .ok bits =>
      match mulInt cols colors with
      | .error e => .error e
      | .ok cc =>
        match mulInt cc bpc with
        | .error e => .error e
        | .ok ccb =>
          let bpp := (bits / 8).toNat
          let rows := (ccb / 8).toNat
          if rows < 1 then raise .ValueOutOfRange
          else .ok (⟨pr, bpc, bpp, rows⟩,
            ⟨if pr ≥ 10 then -1 else pr, 0, pr ≥ 10, List.replicate rows 0, List.replicate bpp 0⟩)

/-- Conversion of an `int` to `char`. -/
def toChar (z : Int) : Byte := UInt8.ofNat (z % 256).toNat

/-- `m_CurrRowIndex - m_BytesPerPixel < 0 ? 0 : m_Prev[m_CurrRowIndex - m_BytesPerPixel]`. -/
def predLeft (cfg : PredCfg) (st : PredState) : Res Byte :=
  if st.row < cfg.bpp then .ok 0
  else match st.prev[st.row - cfg.bpp]? with
    | some x => .ok x
    | none => .error .ub

/-- Bytewise sum `char + int` stored into `char`: modulo 256, so `UInt8` addition. -/
def predSub (cfg : PredCfg) (st : PredState) (b : Byte) : Res PredState :=
  match predLeft cfg st with
  | .error e => .error e
  | .ok left =>
    if st.row < st.prev.length then .ok { st with prev := st.prev.set st.row (b + left) } else .error .ub

/-- The Paeth choice, `src/pdfmm/private/PdfFiltersPrivate.cpp:150-173`. -/
def paethClosest (a b c : Byte) : Byte :=
  let p : Int := a.toNat + b.toNat - c.toNat
  let pa := (p - a.toNat).natAbs
  let pb := (p - b.toNat).natAbs
  let pc := (p - c.toNat).natAbs
  if pa ≤ pb ∧ pa ≤ pc then a else if pb ≤ pc then b else c

/-- `switch (m_CurrPredictor)`, `src/pdfmm/private/PdfFiltersPrivate.cpp:99-193`. -/
def predSwitch (cfg : PredCfg) (st : PredState) (b : Byte) : Res PredState :=
  if st.curr = 2 then
    if cfg.bpc = 8 then predSub cfg st b else raise .InvalidPredictor
  else if st.curr = 10 then
    if st.row < st.prev.length then .ok { st with prev := st.prev.set st.row b } else .error .ub
  else if st.curr = 11 then predSub cfg st b
  else if st.curr = 12 then
    match st.prev[st.row]? with
    | none => .error .ub
    | some up => .ok { st with prev := st.prev.set st.row (up + b) }
  else if st.curr = 13 then
    match predLeft cfg st with
    | .error e => .error e
    | .ok left =>
      match st.prev[st.row]? with
      | none => .error .ub
      | some up => .ok { st with
          prev := st.prev.set st.row (toChar ((schar left + schar up) / 2 + schar b)) }
  else if st.curr = 14 then
    match predLeft cfg st with
    | .error e => .error e
    | .ok a =>
      match st.prev[st.row]? with
      | none => .error .ub
      | some up =>
        if cfg.bpp = 0 then .error .ub       -- `m_CurrRowIndex % m_BytesPerPixel`
        else
          match st.ul[st.row % cfg.bpp]? with
          | none => .error .ub
          | some u =>
            let c := if st.row < cfg.bpp then 0 else u
            .ok { st with
              ul := st.ul.set (st.row % cfg.bpp) up
              prev := st.prev.set st.row (b + paethClosest a up c) }
  else if st.curr = 15 then raise .InvalidPredictor
  else .ok st

/-- One iteration of the loop in `Decode`, `src/pdfmm/private/PdfFiltersPrivate.cpp:90-206`. -/
def predStep (cfg : PredCfg) (st : PredState) (b : Byte) : Res (PredState × List Bytes) :=
  let st1 : Res PredState :=
    if st.next then .ok { st with curr := schar b + 10, next := false }
    else match predSwitch cfg st b with
      | .error e => .error e
      | .ok st' => .ok { st' with row := st'.row + 1 }
  match st1 with
  | .error e => .error e
  | .ok st1 =>
    if st1.row ≥ cfg.rows then .ok ({ st1 with row := 0, next := st1.curr ≥ 10 }, [st1.prev])
    else .ok (st1, [])

/-- The byte loop of `Decode`. -/
def predStepper (cfg : PredCfg) (st0 : PredState) : Codec.Stepper PredState where
  start := st0
  step := predStep cfg
  finish := fun _ => .ok []

/-- `PdfPredictorDecoder::Decode`, `src/pdfmm/private/PdfFiltersPrivate.cpp:82-207`, as a codec (an
unfinished last row is never written). -/
def predDec (cfg : PredCfg) (st0 : PredState) : Codec PredState :=
  if cfg.predictor = 1 then
    { start := st0, block := fun s b => .ok (s, [b]), finish := fun _ => .ok [] }
  else Codec.ofStepper (predStepper cfg st0)

/-- Build the predictor from the parameters and decode the given blocks, as the Flate and LZW filters
do with their decompressed output (`src/pdfmm/private/PdfFiltersPrivate.cpp:520-575, 770-780`). -/
def predictorRun (p : PredParams) (bs : List Bytes) : Res Bytes :=
  match predInit p with
  | .error e => .error e
  | .ok (cfg, st0) => (predDec cfg st0).run bs

end Pdfmm
