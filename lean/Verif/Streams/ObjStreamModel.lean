import Verif.Syntax.ObjectProps
import Verif.XRef.Model
import Verif.Filters.ChainProps
import Verif.Filters.PredictorModel
import Verif.Filters.LzwModel
import Verif.Util.Tables
import Verif.Objects.Refs
set_option autoImplicit false
/-!
# Stream objects: setting, decoding, copying, moving, writing and parsing

`PdfObjectStream` (over `PdfMemoryObjectStream`), `PdfObject::Write` and `PdfParserObject`.
Properties C62, C88, C89, C90, C91.
-/
namespace Pdfmm
open Codec

/-- A byte string as a text of characters below 256, for comparing names with literals. -/
def latinStr (b : Bytes) : String := String.ofList (b.map (fun c => Char.ofNat c.toNat))

/-- The bytes of an ASCII literal. -/
def litBytes (s : String) : Bytes := s.toList.map (fun c => UInt8.ofNat c.toNat)

/-- The key `Filter`. -/
def kFilter : Bytes := [70, 105, 108, 116, 101, 114]
/-- The key `DecodeParms`, PdfObjectStream.cpp 21. -/
def kDecodeParms : Bytes := [68, 101, 99, 111, 100, 101, 80, 97, 114, 109, 115]
/-- The key `Length`. -/
def kLength : Bytes := [76, 101, 110, 103, 116, 104]

/-- `FindKeyAs<int64_t>(key, default)`, `src/pdfmm/base/PdfDictionary.h:351-359`, for direct entries: an entry of another type raises. -/
def intParm (d : List (Bytes × Var)) (k : Bytes) (dflt : Int) : Res Int :=
  match SMap.find? k d with
  | none => .ok dflt
  | some (.num n) => .ok n
  | some _ => raise .InvalidDataType

/-- The parameters `PdfPredictorDecoder` reads, private/PdfFiltersPrivate.cpp 33-40. -/
def predParams (d : List (Bytes × Var)) : Res PredParams := do
  let p ← intParm d [80, 114, 101, 100, 105, 99, 116, 111, 114] 1
  let c ← intParm d [67, 111, 108, 111, 114, 115] 1
  let b ← intParm d [66, 105, 116, 115, 80, 101, 114, 67, 111, 109, 112, 111, 110, 101, 110, 116] 8
  let w ← intParm d [67, 111, 108, 117, 109, 110, 115] 1
  let _ ← intParm d [69, 97, 114, 108, 121, 67, 104, 97, 110, 103, 101] 1
  .ok ⟨p, c, b, w⟩

/-- An encoder that is never run: the filters of `filtDec` are only used to decode. -/
def noEnc : Codec Unit := ⟨(), fun _ _ => raise .UnsupportedFilter, fun _ => raise .UnsupportedFilter⟩

/-- A decoder followed by the predictor when there are parameters: private/PdfFiltersPrivate.cpp
514-525 (`PdfFlateFilter::BeginDecodeImpl`) and 528-590; `PdfLZWFilter` likewise. -/
def withPredictor {σ : Type} (dec : Codec σ) : Option (List (Bytes × Var)) → Res AnyCodec
  | none => .ok ⟨σ, dec⟩
  | some d =>
    match predParams d with
    | .error e => .error e
    | .ok p =>
      match predInit p with
      | .error e => .error e
      | .ok (cfg, st0) => .ok ⟨_, stack dec (predDec cfg st0)⟩

/-- The filter a `PdfFilteredDecodeStream` creates and begins: PdfFilter.cpp 55-64, 252-283. zlib is
the parameter `flate`. -/
def filtDec (flate : Filt) (f : FilterName) (parms : Option (List (Bytes × Var))) : Res Filt :=
  match f with
  | .ASCIIHexDecode => .ok hexFilt
  | .ASCII85Decode => .ok a85Filt
  | .RunLengthDecode => .ok ⟨_, _, noEnc, rleDec⟩
  | .LZWDecode => match withPredictor lzwDec parms with
    | .ok c => .ok ⟨_, _, noEnc, c.codec⟩
    | .error e => .error e
  | .FlateDecode => match withPredictor flate.dec parms with
    | .ok c => .ok ⟨_, _, flate.enc, c.codec⟩
    | .error e => .error e
  | _ => raise .UnsupportedFilter

/-- The filter a `PdfFilteredEncodeStream` creates and begins: PdfFilter.cpp 20-33; the encoders of
RunLength and LZW raise (private/PdfFiltersPrivate.cpp `BeginEncodeImpl`). -/
def filtEnc (flate : Filt) : FilterName → Res Filt
  | .ASCIIHexDecode => .ok hexFilt
  | .ASCII85Decode => .ok a85Filt
  | .FlateDecode => .ok flate
  | _ => raise .UnsupportedFilter

/-- Filters of a list, the first failure counting. -/
def filtsEnc (flate : Filt) : List FilterName → Res (List Filt)
  | [] => .ok []
  | f :: fs =>
    match filtEnc flate f with
    | .error e => .error e
    | .ok c => match filtsEnc flate fs with
      | .error e => .error e
      | .ok cs => .ok (c :: cs)

/-- Filters of a list with their parameters. The constructor goes through them from the last to the
first (PdfFilter.cpp 123-138); which of several failures is reported is not distinguished. -/
def filtsDec (flate : Filt) : List (FilterName × Option (List (Bytes × Var))) → Res (List Filt)
  | [] => .ok []
  | (f, p) :: fs =>
    match filtDec flate f p with
    | .error e => .error e
    | .ok c => match filtsDec flate fs with
      | .error e => .error e
      | .ok cs => .ok (c :: cs)

/-- A dictionary object with a stream: the dictionary, the data as stored (`PdfMemoryObjectStream::
m_buffer`), `m_Filters` and `m_locked` (PdfObjectStream.h). -/
structure StObj where
  dict : List (Bytes × Var)
  buf : Bytes
  filters : List FilterName
  locked : Bool

/-- `isMediaFilter`, PdfObjectStream.cpp 564-585. -/
def isMedia : FilterName → Res Bool
  | .ASCIIHexDecode | .ASCII85Decode | .LZWDecode | .FlateDecode | .RunLengthDecode | .Crypt => .ok false
  | .CCITTFaxDecode | .JBIG2Decode | .DCTDecode | .JPXDecode => .ok true
  | .None_ => raise .InvalidEnumValue

/-- `stripMediaFilters`, PdfObjectStream.cpp 541-562: regular filters and media filters. -/
def stripMedia : List FilterName → List FilterName → List FilterName → Res (List FilterName × List FilterName)
  | [], reg, media => .ok (reg, media)
  | f :: fs, reg, media =>
    match isMedia f with
    | .error e => .error e
    | .ok true => stripMedia fs reg (media ++ [f])
    | .ok false => if media ≠ [] then raise .UnsupportedFilter else stripMedia fs (reg ++ [f]) media

/-- The parameters of the `n` filters, PdfObjectStream.cpp 308-331, for direct entries: a dictionary
counts for every filter; of an array the i-th dictionary is stored at index i without a check of the
bound. -/
def parmsArr : Nat → Nat → List Var → List (Option (List (Bytes × Var))) → Res (List (Option (List (Bytes × Var))))
  | _, _, [], acc => .ok acc
  | n, i, .dict d :: r, acc => if n ≤ i then .error .ub else parmsArr n (i + 1) r (acc.set i (some d))
  | n, i, _ :: r, acc => parmsArr n (i + 1) r acc

/-- See `parmsArr`. -/
def decodeParms (o : StObj) : Res (List (Option (List (Bytes × Var)))) :=
  match SMap.find? kDecodeParms o.dict with
  | some (.dict d) => .ok (List.replicate o.filters.length (some d))
  | some (.arr l) => parmsArr o.filters.length 0 l (List.replicate o.filters.length none)
  | _ => .ok (List.replicate o.filters.length none)

/-- `CopyTo(buffer)`, i.e. the decoded data: PdfObjectStream.cpp 58-82 with `getInputStream`, 299-351.
Reading through the decode stream in pieces is C12. -/
def StObj.copyTo (flate : Filt) (o : StObj) : Res Bytes :=
  if o.filters = [] then .ok o.buf
  else
    match decodeParms o with
    | .error e => .error e
    | .ok ps =>
      match stripMedia o.filters [] [] with
      | .error e => .error e
      | .ok (reg, media) =>
        if media ≠ [] then raise .UnsupportedFilter
        else
          match filtsDec flate (reg.zip ps) with
          | .error e => .error e
          | .ok fs =>
            match createDecodeStream fs with
            | .error e => .error e
            | .ok d => d.codec.run [o.buf]

/-- The value of /Filter for a list, PdfObjectStream.cpp 428-447; `FilterToName` raises only for
`None` (there: inside a destructor, so the program would end; the model raises). -/
def filterNames : List FilterName → Res (List Var)
  | [] => .ok []
  | f :: fs =>
    match filterToName f with
    | .error e => .error e
    | .ok s => match filterNames fs with
      | .error e => .error e
      | .ok r => .ok (.name (litBytes s) :: r)

/-- The dictionary after the destructor of the output stream, PdfObjectStream.cpp 422-450. -/
def setFilterKey (d : List (Bytes × Var)) (fs : List FilterName) : Res (List (Bytes × Var)) :=
  match filterNames fs with
  | .error e => .error e
  | .ok [] => .ok (SMap.erase kFilter d)
  | .ok [v] => .ok (SMap.insert kFilter v d)
  | .ok l => .ok (SMap.insert kFilter (.arr l) d)

/-- The bytes stored when `pieces` are written through the encoders, PdfObjectStream.cpp 480-520. -/
def encodePieces (flate : Filt) (fs : List FilterName) (pieces : List Bytes) : Res Bytes :=
  if fs = [] then .ok pieces.flatten
  else
    match filtsEnc flate fs with
    | .error e => .error e
    | .ok cs =>
      match createEncodeStream cs with
      | .error e => .error e
      | .ok e => e.codec.run pieces

/-- `GetOutputStream(filters, append)`, writing `pieces` and closing; `SetData` is the case of one
piece (split into blocks of 4096 bytes) without appending: PdfObjectStream.cpp 35-50, 267-297,
353-367, 422-515. When the encoders cannot be created the buffer was already emptied
(`GetOutputStream` of the provider, PdfMemoryObjectStream.cpp 57-62, is an argument of
`CreateEncodeStream`). -/
def StObj.output (flate : Filt) (o : StObj) (fs : List FilterName) (append : Bool) (pieces : List Bytes) :
    Res Unit × StObj :=
  if o.locked then (raise .InternalLogic, o)
  else
    match (if append then o.copyTo flate else .ok []) with
    | .error e => (.error e, o)
    | .ok old =>
      match encodePieces flate fs (if old.length = 0 then pieces else old :: pieces) with
      | .error e => (.error e, { o with buf := [] })
      | .ok b =>
        match setFilterKey o.dict fs with
        | .error e => (.error e, { o with buf := b })
        | .ok d => (.ok (), ⟨d, b, fs, false⟩)

/-- The /Filter or /DecodeParms entry of the source put into the target's dictionary:
PdfObjectStream.cpp 213-236 and 250-262. -/
def copyEntry (k : Bytes) (src dst : List (Bytes × Var)) : List (Bytes × Var) :=
  match SMap.find? k src with
  | none => SMap.erase k dst
  | some v => SMap.insert k v dst

/-- `CopyFrom` between memory streams, PdfObjectStream.cpp 240-265, PdfMemoryObjectStream.cpp 31-39. -/
def StObj.copyFrom (o src : StObj) : Res Unit × StObj :=
  if o.locked then (raise .InternalLogic, o)
  else
    (.ok (), { o with
      dict := copyEntry kDecodeParms src.dict (copyEntry kFilter src.dict o.dict)
      buf := src.buf
      filters := src.filters })

/-- `MoveFrom` between memory streams, PdfObjectStream.cpp 201-238, PdfMemoryObjectStream.cpp 41-49:
target and source afterwards. A moved-from buffer is empty, a moved-from vector too (true of the
usual library implementations). -/
def StObj.moveFrom (o src : StObj) : Res Unit × StObj × StObj :=
  if o.locked then (raise .InternalLogic, o, src)
  else
    (.ok (),
     { o with
      dict := copyEntry kDecodeParms src.dict (copyEntry kFilter src.dict o.dict)
      buf := src.buf
      filters := src.filters },
     { src with
      dict := SMap.erase kDecodeParms (SMap.erase kFilter src.dict)
      buf := []
      filters := [] })

/-! ## Writing -/

/-- `" obj"`. -/
def tObj : Bytes := [32, 111, 98, 106]
/-- `"stream\n"`, PdfMemoryObjectStream.cpp 66. -/
def tStream : Bytes := [115, 116, 114, 101, 97, 109, 10]
/-- `"\nendstream\n"`, PdfMemoryObjectStream.cpp 78. -/
def tEndStream : Bytes := [10, 101, 110, 100, 115, 116, 114, 101, 97, 109, 10]
/-- `"endobj\n"`, PdfObject.cpp 276. -/
def tEndObj : Bytes := [101, 110, 100, 111, 98, 106, 10]

/-- The empty temporary object of PdfObject.cpp 240. -/
def StObj.temp : StObj := ⟨[], [], [], false⟩

/-- The compression step of `PdfObject::Write`, PdfObject.cpp 228-251: the data is encoded into a
temporary stream, and then the temporary stream takes the object's data over. -/
def StObj.compress (flate : Filt) (o : StObj) : Res StObj :=
  match o.copyTo flate with
  | .error e => .error e
  | .ok data =>
    match StObj.temp.output flate [.FlateDecode] false [data] with
    | (.error e, _) => .error e
    | (.ok (), t) =>
      match t.moveFrom o with
      | (.error e, _, _) => .error e
      | (.ok (), _, o') => .ok o'

/-- Options of `PdfObject::Write`: those of the variants, and the flags `NoPDFAPreserve` and
`NoFlateCompress` (PdfDeclarations.h). -/
structure SaveOpts where
  flags : WFlags
  noPdfA : Bool
  noCompress : Bool

/-- The line `n g obj`, PdfObject.cpp 219-233: the line break is left out with `NoPDFAPreserve` when
not writing cleanly. -/
def objHeader (s : SaveOpts) (r : Ref) : Bytes :=
  fmtNat r.num ++ 32 :: (fmtNat r.gen ++ (tObj ++
    (if s.flags.clean = false ∧ s.noPdfA = true then [] else [10])))

/-- `PdfObject::Write` for an indirect object without a stream, without encryption, PdfObject.cpp
208-281. -/
def writePlain (s : SaveOpts) (r : Ref) (v : Var) : Res Bytes :=
  match writeVar s.flags v with
  | .error e => .error e
  | .ok t => .ok (objHeader s r ++ (t ++ (10 :: tEndObj)))

/-- `PdfObject::Write` for an indirect object with a stream, without encryption, PdfObject.cpp
208-281; the stream by PdfMemoryObjectStream.cpp 64-81. `isMeta` says that this is the catalog's
metadata object. Gives the text and the object afterwards. -/
def StObj.write (flate : Filt) (isMeta : Bool) (s : SaveOpts) (r : Ref) (o : StObj) :
    Res (Bytes × StObj) :=
  match (if s.noCompress = false ∧ o.filters = [] ∧ isMeta = false then o.compress flate else .ok o) with
  | .error e => .error e
  | .ok o1 =>
    let d := SMap.insert kLength (.num o1.buf.length) o1.dict
    match writeVar s.flags (.dict d) with
    | .error e => .error e
    | .ok t =>
      .ok (objHeader s r ++ (t ++ (10 :: (tStream ++ (o1.buf ++ (tEndStream ++ tEndObj))))),
        { o1 with dict := d })

/-! ## Parsing -/

/-- The keyword `endobj`. -/
def kEndobj : Bytes := [101, 110, 100, 111, 98, 106]

/-- Kinds of parsed objects. -/
inductive Parsed
  /-- `endobj` at once: the null object -/
  | empty
  | plain (v : Var)
  | stream (d : List (Bytes × Var)) (rest : Bytes)

/-- `PdfParserObject::readReference`, PdfParserObject.cpp 258-281. -/
def readReference (cap : Nat) (s : PS) : Res Ref × PS :=
  match readNextNumber cap s with
  | (.error e, s) => (.error e, s)
  | (.ok n, s) =>
    match readNextNumber cap s with
    | (.error e, s) => (.error e, s)
    | (.ok g, s) =>
      match tryReadToken cap s with
      | (none, s) => (raise .NoObject, s)
      | (some t, s) =>
        if t.text = [111, 98, 106] then (.ok ⟨truncTo 32 n, truncTo 16 g⟩, s) else (raise .NoObject, s)

/-- `PdfParserObject::Parse(tokenizer)`, PdfParserObject.cpp 111-155, not for trailers; `rest` is what
follows `m_StreamOffset`. -/
def parseBody (cfg : Cfg) (s : PS) : Res Parsed :=
  match tryReadToken cfg.cap s with
  | (none, _) => raise .UnexpectedEOF
  | (some t, s1) =>
    if t.text = kEndobj then .ok .empty
    else
      match readTok cfg (2 * s1.weight + 2) t s1 with
      | (.error e, _) => .error e
      | (.ok none, _) => raise .InvalidDataType
      | (.ok (some v), s2) =>
        match tryReadToken cfg.cap s2 with
        | (none, _) => raise .UnexpectedEOF
        | (some t, s3) =>
          if t.text = kEndobj then .ok (.plain v)
          else
            match v with
            | .dict d =>
              if t.text = [115, 116, 114, 101, 97, 109] then .ok (.stream d s3.inp) else raise .NoObject
            | _ => raise .NoObject

/-- The start of the data: the white space loop of `parseStream`, PdfParserObject.cpp 174-217. -/
def streamStart : Bytes → Res Bytes
  | [] => raise .UnexpectedEOF
  | c :: r =>
    if c = 32 ∨ c = 9 then streamStart r
    else if c = 13 then
      match r with
      | [] => raise .UnexpectedEOF
      | c2 :: r2 => if c2 = 10 then .ok r2 else .ok (c :: r)
    else if c = 10 then .ok r
    else .ok (c :: r)

/-- The names of a filter array, PdfFilter.cpp 336-345, for direct entries. -/
def filtersOf : List Var → Res (List FilterName)
  | [] => .ok []
  | .name n :: r =>
    match nameToFilter (latinStr n) with
    | .error e => .error e
    | .ok f => match filtersOf r with
      | .error e => .error e
      | .ok fs => .ok (f :: fs)
  | _ :: _ => raise .UnsupportedFilter

/-- `PdfFilterFactory::CreateFilterList` on a dictionary, PdfFilter.cpp 311-352. -/
def createFilterList (d : List (Bytes × Var)) : Res (List FilterName) :=
  match SMap.find? kFilter d with
  | none => .ok []
  | some (.name n) => filtersOf [.name n]
  | some (.arr l) => filtersOf l
  | some _ => raise .InvalidDataType

/-- `PdfParserObject::parseStream`, PdfParserObject.cpp 161-245, without encryption, for a direct
/Length. A negative length becomes a huge `size_t`, so everything up to the end of the file is
taken; a length beyond the end gives what there is (`CopyTo`, PdfInputStream.cpp 89-103). -/
def parseStream (d : List (Bytes × Var)) (rest : Bytes) : Res StObj :=
  match SMap.find? kLength d with
  | none => raise .NoObject
  | some (.num n) =>
    match streamStart rest with
    | .error e => .error e
    | .ok b =>
      match createFilterList d with
      | .error e => .error e
      | .ok fs => .ok ⟨d, if n < 0 then b else b.take n.toNat, fs, false⟩
  | some _ => raise .InvalidStreamLength

/-- What an indirect object read from a file holds. -/
inductive Loaded
  | plain (v : Var)
  | stream (o : StObj)

/-- Reading an indirect object from the start of its text: `DelayedLoadImpl` and
`DelayedLoadStreamImpl`, PdfParserObject.cpp 71-100. -/
def loadObject (cfg : Cfg) (inp : Bytes) : Res (Ref × Loaded) :=
  match readReference cfg.cap ⟨[], inp, 0⟩ with
  | (.error e, _) => .error e
  | (.ok r, s) =>
    match parseBody cfg s with
    | .error e => .error e
    | .ok .empty => .ok (r, .plain .null)
    | .ok (.plain v) => .ok (r, .plain v)
    | .ok (.stream d rest) =>
      match parseStream d rest with
      | .error e => .error e
      | .ok o => .ok (r, .stream o)

end Pdfmm
