import Verif.Filters.Codec
/-
Filter chains and the begin/block/end protocol, `src/pdfmm/base/PdfFilter.cpp`.
-/
namespace Pdfmm
open Codec

/-- A codec with its state type. -/
structure AnyCodec where
  State : Type
  codec : Codec State

/-- A filter with both directions, as returned by `PdfFilterFactory::Create`,
`src/pdfmm/base/PdfFilter.cpp:252-283`. -/
structure Filt where
  EncState : Type
  DecState : Type
  enc : Codec EncState
  dec : Codec DecState

/-- The loop of `PdfFilterFactory::CreateEncodeStream`, `src/pdfmm/base/PdfFilter.cpp:294-298`: each
further filter is put on top of the stream built so far. -/
def encodeLoop : AnyCodec → List Filt → AnyCodec
  | acc, [] => acc
  | acc, f :: fs => encodeLoop ⟨_, stack f.enc acc.codec⟩ fs

/-- `PdfFilterFactory::CreateEncodeStream`, `src/pdfmm/base/PdfFilter.cpp:285-301`: the first filter
writes to the output.  Data written to the result, then destruction (which ends the filters from the
top down), is `run`. -/
def createEncodeStream : List Filt → Res AnyCodec
  | [] => raise .InternalLogic
  | f :: fs => .ok (encodeLoop ⟨_, f.enc⟩ fs)

/-- The loop of the `PdfBufferedDecodeStream` constructor, `src/pdfmm/base/PdfFilter.cpp:129-137`, over
the filters in reverse order. -/
def decodeLoop : AnyCodec → List Filt → AnyCodec
  | acc, [] => acc
  | acc, f :: fs => decodeLoop ⟨_, stack f.dec acc.codec⟩ fs

/-- `PdfFilterFactory::CreateDecodeStream`, `src/pdfmm/base/PdfFilter.cpp:303-309, 123-138`: the last
filter writes into the read buffer, the first one receives the raw data. -/
def createDecodeStream (fs : List Filt) : Res AnyCodec :=
  match fs.reverse with
  | [] => raise .InternalLogic
  | f :: rest => .ok (decodeLoop ⟨_, f.dec⟩ rest)

/-! ### PdfBufferedDecodeStream -/

/-- Members of `PdfBufferedDecodeStream`: `m_inputEof`, `m_offset`, `m_buffer` and the filter state. -/
structure BufDec (σ : Type) where
  inputEof : Bool
  offset : Nat
  buffer : Bytes
  filter : σ

/-- Constructor, `src/pdfmm/base/PdfFilter.cpp:123-126`. -/
def BufDec.init {σ : Type} (c : Codec σ) : BufDec σ := ⟨false, 0, [], c.start⟩

/-- `PdfBufferedDecodeStream::readBuffer`, `src/pdfmm/base/PdfFilter.cpp:140-168`.  `input` stands for
the answers the underlying stream gives to successive `ReadBuffer` calls (bytes and end-of-file flag);
an exhausted list answers "no bytes, end of file".  Returns the new state, the remaining answers, the
bytes delivered and `eof`.  (An answer longer than the requested size would be a fault of the underlying
stream; the theorems hold without assuming it is not.) -/
def BufDec.read {σ : Type} (c : Codec σ) (st : BufDec σ) (input : List (Bytes × Bool)) (size : Nat) :
    Res (BufDec σ × List (Bytes × Bool) × Bytes × Bool) :=
  if st.offset < st.buffer.length then
    let n := min size (st.buffer.length - st.offset)
    .ok ({ st with offset := st.offset + n }, input, (st.buffer.drop st.offset).take n, false)
  else if st.inputEof then .ok (st, input, [], true)
  else
    let (chunk, eof, rest) := match input with
      | [] => ([], true, [])
      | (b, e) :: r => (b, e, r)
    match c.blocks st.filter (nonEmptyWrites [chunk]) with
    | .error e => .error e
    | .ok (s', o) =>
      let tail : Res (List Bytes) := if eof then c.finish s' else .ok []
      match tail with
      | .error e => .error e
      | .ok o' =>
        let buf := (o ++ o').flatten
        let n := min size buf.length
        .ok (⟨eof, n, buf, s'⟩, rest, buf.take n, false)

/-- A sequence of reads with the given sizes: the bytes delivered, and whether the last read reported
end of file. -/
def BufDec.reads {σ : Type} (c : Codec σ) : BufDec σ → List (Bytes × Bool) → List Nat → Res (Bytes × Bool)
  | _, _, [] => .ok ([], false)
  | st, input, n :: ns =>
    match st.read c input n with
    | .error e => .error e
    | .ok (st', input', b, eof) =>
      if eof then .ok (b, true)
      else match BufDec.reads c st' input' ns with
        | .error e => .error e
        | .ok (b', eof') => .ok (b ++ b', eof')

/-! ### The protocol of `PdfFilter` -/

/-- What a virtual `*Impl` call does: return, raise a `PdfError`, or throw something else. -/
inductive ImplResult
  | ok | pdfError | otherException
  deriving DecidableEq, Repr

/-- Public calls of a filter.  `impl` is what the virtual call does, `flushOk` what `Flush` of the output
stream does. -/
inductive FilterCall
  | beginEncode (impl : ImplResult) (flushOk : Bool)
  | encodeBlock (impl : ImplResult) (flushOk : Bool)
  | endEncode (impl : ImplResult) (flushOk : Bool)
  | beginDecode (impl : ImplResult) (flushOk : Bool)
  | decodeBlock (impl : ImplResult) (flushOk : Bool)
  | endDecode (impl : ImplResult) (flushOk : Bool)
  deriving DecidableEq, Repr

/-- What the caller sees. -/
inductive CallOutcome
  | done       -- returned normally
  | refused    -- `InternalLogic`: call not allowed now
  | failed     -- an exception of the implementation or of the output stream
  deriving DecidableEq, Repr

/-- `PdfFilter::FailEncodeDecode`, `src/pdfmm/base/PdfFilter.cpp:478-484`; the state is whether
`m_OutputStream` is set.  A throwing `Flush` leaves it set. -/
def failEncodeDecode (flushOk : Bool) : Bool := !flushOk

/-- `BeginEncode` / `BeginDecode`, `src/pdfmm/base/PdfFilter.cpp:360-375, 411-426`. -/
def filterBegin (isOpen : Bool) (impl : ImplResult) (flushOk : Bool) : Bool × CallOutcome :=
  if isOpen then (isOpen, .refused)
  else if impl = .ok then (true, .done)
  else (failEncodeDecode flushOk, .failed)

/-- `EncodeBlock` / `DecodeBlock`, `src/pdfmm/base/PdfFilter.cpp:377-391, 428-442`. -/
def filterBlock (isOpen : Bool) (impl : ImplResult) (flushOk : Bool) : Bool × CallOutcome :=
  if !isOpen then (isOpen, .refused)
  else if impl = .ok then (true, .done)
  else (failEncodeDecode flushOk, .failed)

/-- `EndEncode`, `src/pdfmm/base/PdfFilter.cpp:393-409`. -/
def filterEndEncode (isOpen : Bool) (impl : ImplResult) (flushOk : Bool) : Bool × CallOutcome :=
  if !isOpen then (isOpen, .refused)
  else if impl = .ok then (if flushOk then (false, .done) else (true, .failed))
  else (failEncodeDecode flushOk, .failed)

/-- `EndDecode`, `src/pdfmm/base/PdfFilter.cpp:444-476`: only `PdfError` is caught. -/
def filterEndDecode (isOpen : Bool) (impl : ImplResult) (flushOk : Bool) : Bool × CallOutcome :=
  if !isOpen then (isOpen, .refused)
  else match impl with
    | .ok => (false, if flushOk then .done else .failed)
    | .pdfError => (failEncodeDecode flushOk, .failed)
    | .otherException => (true, .failed)

/-- One public call. -/
def filterCall (isOpen : Bool) : FilterCall → Bool × CallOutcome
  | .beginEncode i f => filterBegin isOpen i f
  | .encodeBlock i f => filterBlock isOpen i f
  | .endEncode i f => filterEndEncode isOpen i f
  | .beginDecode i f => filterBegin isOpen i f
  | .decodeBlock i f => filterBlock isOpen i f
  | .endDecode i f => filterEndDecode isOpen i f

/-- A history of calls. -/
def filterCalls : Bool → List FilterCall → List CallOutcome
  | _, [] => []
  | s, c :: cs => (filterCall s c).2 :: filterCalls (filterCall s c).1 cs

end Pdfmm
