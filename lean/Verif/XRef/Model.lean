import Verif.Objects.Refs
import Verif.Syntax.TokModel
/-
The cross-reference table: what `PdfXRef` collects and writes, and what `PdfParser` and
`PdfXRefStreamParserObject` read.
-/
set_option autoImplicit false
namespace Pdfmm

/-! ### Collecting -/

/-- `PdfXRef::PdfXRefBlock`, `src/pdfmm/base/PdfXRef.h:45-67`: `items` are the objects in use with their
offsets.  `First` and `Count` are `uint32_t`. -/
structure XBlock where
  first : Nat
  count : Nat
  items : List (Ref × Nat)
  free : List Ref
  deriving DecidableEq, Repr

/-- The value of a `uint32_t` computation. -/
def u32 (n : Nat) : Nat := n % 4294967296

/-- Insertion of one element, for the model of `std::sort` below. -/
def sortIns {α : Type} (lt : α → α → Bool) (x : α) : List α → List α
  | [] => [x]
  | y :: r => if lt y x then y :: sortIns lt x r else x :: y :: r

/-- `std::sort`: some ascending order of the elements (it is unique when no two are equivalent). -/
def stdSort {α : Type} (lt : α → α → Bool) : List α → List α
  | [] => []
  | x :: r => sortIns lt x (stdSort lt r)

/-- `PdfXRefBlock::InsertItem`, `src/pdfmm/base/PdfXRef.cpp:322-372`; `off` is the offset of an object in use
and `none` for a free one.  `none` is `return false`. -/
def XBlock.insertItem (b : XBlock) (r : Ref) (off : Option Nat) : Option XBlock :=
  if r.num = u32 (b.first + b.count) then
    some (match off with
      | some o => { b with count := u32 (b.count + 1), items := b.items ++ [(r, o)] }
      | none => { b with count := u32 (b.count + 1), free := b.free ++ [r] })
  else if r.num = u32 (b.first + 4294967295) then
    some (match off with
      | some o => { b with first := u32 (b.first + 4294967295), count := u32 (b.count + 1),
                           items := (r, o) :: b.items }
      | none => { b with first := u32 (b.first + 4294967295), count := u32 (b.count + 1), free := r :: b.free })
  else if r.num > u32 (b.first + 4294967295) ∧ r.num < u32 (b.first + b.count) then
    some (match off with
      | some o => { b with count := u32 (b.count + 1),
                           items := stdSort (fun x y => Ref.lt x.1 y.1) (b.items ++ [(r, o)]) }
      | none => { b with count := u32 (b.count + 1), free := stdSort Ref.lt (b.free ++ [r]) })
  else none

/-- The loop over the blocks of `addObject`, `src/pdfmm/base/PdfXRef.cpp:53-60`. -/
def insertInto (r : Ref) (off : Option Nat) : List XBlock → Option (List XBlock)
  | [] => none
  | b :: bs =>
    match b.insertItem r off with
    | some b' => some (b' :: bs)
    | none => (insertInto r off bs).map (b :: ·)

/-- The block made for a number no block takes, `src/pdfmm/base/PdfXRef.cpp:64-70`. -/
def XBlock.single (r : Ref) (off : Option Nat) : XBlock :=
  match off with
  | some o => ⟨r.num, 1, [(r, o)], []⟩
  | none => ⟨r.num, 1, [], [r]⟩

/-- `addObject`, `src/pdfmm/base/PdfXRef.cpp:39-75`, for objects that get an entry: free ones and those with an
offset. -/
def addBlock (bs : List XBlock) (r : Ref) (off : Option Nat) : List XBlock :=
  match insertInto r off bs with
  | some bs' => bs'
  | none => stdSort (fun a b => decide (a.first < b.first)) (bs ++ [XBlock.single r off])

/-- What `PdfWriter` tells `PdfXRef`, `src/pdfmm/base/PdfWriter.cpp:131-183`: an object that was written at an
offset, an object of an earlier revision that was not written again, a free object. -/
inductive XAdd
  | inUse (r : Ref) (off : Nat)
  | old (r : Ref)
  | free (r : Ref)
  deriving DecidableEq, Repr

/-- `PdfXRef`: `m_blocks` and `m_maxObjCount`. -/
structure XRefW where
  blocks : List XBlock
  max : Nat

/-- `AddInUseObject` and `AddFreeObject`, `src/pdfmm/base/PdfXRef.cpp:29-45`. -/
def XRefW.add (x : XRefW) : XAdd → XRefW
  | .inUse r off => ⟨addBlock x.blocks r (some off), if r.num > x.max then r.num else x.max⟩
  | .old r => ⟨x.blocks, if r.num > x.max then r.num else x.max⟩
  | .free r => ⟨addBlock x.blocks r none, if r.num > x.max then r.num else x.max⟩

/-- `SetFirstEmptyBlock`, `src/pdfmm/base/PdfXRef.cpp:307-313`. -/
def XRefW.setFirstEmpty (x : XRefW) : XRefW := { x with blocks := ⟨0, 1, [], []⟩ :: x.blocks }

/-- What a save does before writing the table: `src/pdfmm/base/PdfWriter.cpp:97-100`. -/
def collect (incremental : Bool) (adds : List XAdd) : XRefW :=
  let x := adds.foldl XRefW.add ⟨[], 0⟩
  if incremental then x.setFirstEmpty else x

/-- `GetSize`, `src/pdfmm/base/PdfXRef.cpp:208-212`. -/
def XRefW.size (x : XRefW) : Nat := u32 (x.max + 1)

/-! ### Writing -/

/-- `XRefEntryType`, `src/pdfmm/base/PdfXRefEntry.h:16-22`. -/
inductive XType
  | free | inUse | compressed
  deriving DecidableEq, Repr

/-- `PdfXRefEntry`, `src/pdfmm/base/PdfXRefEntry.h:24-50`: `variant` is the offset or object number, `gen` the
generation or index. -/
structure XEntry where
  type : XType
  variant : Nat
  gen : Nat
  deriving DecidableEq, Repr

/-- The loop of `mergeBlocks`, `src/pdfmm/base/PdfXRef.cpp:223-245`. -/
def mergeFrom : XBlock → List XBlock → List XBlock
  | c, [] => [c]
  | c, n :: r =>
    if n.first = u32 (c.first + c.count) then
      mergeFrom ⟨c.first, u32 (c.count + n.count), c.items ++ n.items, c.free ++ n.free⟩ r
    else c :: mergeFrom n r

/-- `mergeBlocks`, `src/pdfmm/base/PdfXRef.cpp:214-246`. (`begin() + 1` is formed before the check for an empty
vector; the model raises the error.) -/
def mergeBlocks : List XBlock → Res (List XBlock)
  | [] => raise .NoXRef
  | b :: bs => .ok (mergeFrom b bs)

/-- The search of `getFirstFreeObject` and `getNextFreeObject`, `src/pdfmm/base/PdfXRef.cpp:158-206`: the first
free object among the rest of this block's and those of the blocks after it. -/
def nextFreeRef : List Ref → List XBlock → Option Ref
  | r :: _, _ => some r
  | [], [] => none
  | [], b :: bs => nextFreeRef b.free bs

/-- The entry of a free object. -/
def freeEntry (gen : Nat) (next : Option Ref) : XEntry :=
  ⟨.free, match next with | some r => r.num | none => 0, gen⟩

/-- The merge of the objects in use with the free ones, `src/pdfmm/base/PdfXRef.cpp:116-150`; `later` are the
blocks after this one. -/
def emit (later : List XBlock) : List (Ref × Nat) → List Ref → List (Ref × XEntry)
  | [], [] => []
  | [], f :: fs => (f, freeEntry f.gen (nextFreeRef fs later)) :: emit later [] fs
  | i :: is, [] => (i.1, ⟨.inUse, i.2, i.1.gen⟩) :: emit later is []
  | i :: is, f :: fs =>
    if Ref.lt f i.1 then (f, freeEntry f.gen (nextFreeRef fs later)) :: emit later (i :: is) fs
    else (i.1, ⟨.inUse, i.2, i.1.gen⟩) :: emit later is (f :: fs)

/-- A subsection: what `WriteSubSection` and the calls of `WriteXRefEntry` after it get. -/
structure XSection where
  first : Nat
  count : Nat
  entries : List (Ref × XEntry)
  deriving DecidableEq, Repr

/-- One round of the loop of `Write`, `src/pdfmm/base/PdfXRef.cpp:91-153`. -/
def sectionOf (b : XBlock) (later : List XBlock) : XSection :=
  let first := if b.first = 1 then b.first - 1 else b.first
  let count := if b.first = 1 then u32 (b.count + 1) else b.count
  let head := if first = 0 then [(⟨0, 65535⟩, freeEntry 65535 (nextFreeRef b.free later))] else []
  ⟨first, count, head ++ emit later b.items b.free⟩

def sectionsOf : List XBlock → List XSection
  | [] => []
  | b :: bs => sectionOf b bs :: sectionsOf bs

/-- The subsections `PdfXRef::Write` produces, `src/pdfmm/base/PdfXRef.cpp:77-156`. -/
def writeSections (incremental : Bool) (adds : List XAdd) : Res (List XSection) :=
  match mergeBlocks (collect incremental adds).blocks with
  | .error e => .error e
  | .ok bs => .ok (sectionsOf bs)

/-- `{:0wd}`. -/
def fmtPad (w n : Nat) : Bytes := List.replicate (w - (fmtNat n).length) 48 ++ fmtNat n

/-- `WriteXRefEntry`, `src/pdfmm/base/PdfXRef.cpp:263-285`: `{:010d} {:05d} {} \n`. -/
def entryText (e : XEntry) : Res Bytes :=
  match e.type with
  | .free => .ok (fmtPad 10 e.variant ++ 32 :: fmtPad 5 e.gen ++ [32, 102, 32, 10])
  | .inUse => .ok (fmtPad 10 e.variant ++ 32 :: fmtPad 5 e.gen ++ [32, 110, 32, 10])
  | .compressed => raise .InvalidEnumValue

def entriesText : List (Ref × XEntry) → Res Bytes
  | [] => .ok []
  | e :: r =>
    match entryText e.2, entriesText r with
    | .ok a, .ok b => .ok (a ++ b)
    | .error f, _ => .error f
    | _, .error f => .error f

/-- `WriteSubSection`, `src/pdfmm/base/PdfXRef.cpp:254-261`, and its entries. -/
def sectionText (s : XSection) : Res Bytes :=
  match entriesText s.entries with
  | .ok b => .ok (fmtNat s.first ++ 32 :: fmtNat s.count ++ 10 :: b)
  | .error f => .error f

def sectionsText : List XSection → Res Bytes
  | [] => .ok []
  | s :: r =>
    match sectionText s, sectionsText r with
    | .ok a, .ok b => .ok (a ++ b)
    | .error f, _ => .error f
    | _, .error f => .error f

/-! ### Reading a table -/

/-- C's `isspace` in the default locale. -/
def cIsSpace (b : Byte) : Bool := b = 32 || (9 ≤ b && b ≤ 13)

/-- A `sscanf` conversion `%<w>u`: white space, an optional sign and digits, `w` characters at most, into an
unsigned type with `m` values. -/
def scanNum (w m : Nat) (s : Bytes) : Option (Nat × Bytes) :=
  let s := s.dropWhile cIsSpace
  let neg := s.head? = some 45
  let signed := s.head? = some 45 ∨ s.head? = some 43
  let t := if signed then s.drop 1 else s
  let w := if signed then w - 1 else w
  let ds := (t.take w).takeWhile isDigitB
  if ds = [] then none else
    let v := decVal ds
    some ((if neg then (m - v % m) % m else v % m), t.drop ds.length)

/-- `CheckEOL`, `src/pdfmm/base/PdfParser.cpp:434-441`. -/
def checkEOL (e1 e2 : Byte) : Bool :=
  (e1 = 13 && e2 = 10) || (e1 = 10 && e2 = 13) || (e1 = 32 && (e2 = 13 || e2 = 10))

/-- The reading of one entry with `sscanf`, `src/pdfmm/base/PdfParser.cpp:481-534`.  Whatever is missing or
wrong, the error is the same. -/
def parseEntry (magic : Nat) (buf : Bytes) : Res XEntry :=
  match scanNum 10 18446744073709551616 (buf.takeWhile (· ≠ 0)) with
  | none => raise .InvalidXRef
  | some (v, s1) =>
    match scanNum 5 4294967296 s1 with
    | none => raise .InvalidXRef
    | some (g, s2) =>
      match s2.dropWhile cIsSpace with
      | t :: e1 :: e2 :: _ =>
        if ¬ (t = 110 ∨ t = 102) then raise .InvalidXRef
        else if checkEOL e1 e2 = false then raise .InvalidXRef
        else if t = 102 then .ok ⟨.free, v, g⟩
        else if (v + magic) % 18446744073709551616 > 9223372036854775807 then raise .ValueOutOfRange
        else .ok ⟨.inUse, (v + magic) % 18446744073709551616, g⟩
      | _ => raise .InvalidXRef

/-- `PdfXRefEntries`; `none` is an entry with `Parsed == false`. -/
abbrev XEntries := List (Option XEntry)

/-- `PdfXRefEntries::Enlarge`, `src/pdfmm/base/PdfXRefEntry.cpp:78-106`; `n` is the result of a signed addition. -/
def enlarge (max : Nat) (es : XEntries) (n : Int) : Res XEntries :=
  if n ≥ 9223372036854775808 ∨ n < -9223372036854775808 then .error .ub
  else if n < 0 then raise .ValueOutOfRange
  else if n > max then raise .InvalidXRef
  else .ok (es ++ List.replicate (n.toNat - es.length) none)

/-- The loop of `ReadXRefSubsection`, `src/pdfmm/base/PdfParser.cpp:466-538`: `k` entries are left, the next has
number `i`; what was read before a failure is kept. -/
def readEntries (magic : Nat) : Nat → Nat → XEntries → Bytes → Res Unit × XEntries × Bytes
  | 0, _, es, inp => (.ok (), es, inp)
  | k + 1, i, es, inp =>
    if inp.length < 20 then (raise .UnexpectedEOF, es, [])
    else
      match es[i]? with
      | some none =>
        match parseEntry magic (inp.take 20) with
        | .ok e => readEntries magic k (i + 1) (es.set i (some e)) (inp.drop 20)
        | .error f => (.error f, es, inp.drop 20)
      | _ => readEntries magic k (i + 1) es (inp.drop 20)

/-- `ReadXRefSubsection`, `src/pdfmm/base/PdfParser.cpp:448-545`. -/
def readSubsection (magic max : Nat) (first count : Int) (es : XEntries) (inp : Bytes) :
    Res Unit × XEntries × Bytes :=
  if first < 0 then (raise .ValueOutOfRange, es, inp)
  else if count < 0 then (raise .ValueOutOfRange, es, inp)
  else match enlarge max es (first + count) with
    | .error f => (.error f, es, inp)
    | .ok es => readEntries magic count.toNat first.toNat es (inp.dropWhile isWhitespace)

/-- `PdfTokenizer::ReadNextNumber`, `src/pdfmm/base/PdfTokenizer.cpp:191-208`. -/
def readNextNumber (cap : Nat) (s : PS) : Res Int × PS :=
  match tryReadToken cap s with
  | (none, s) => (raise .UnexpectedEOF, s)
  | (some t, s) =>
    match fromCharsInt t.text with
    | some n => (.ok n, s)
    | none => (raise .NoNumber, enqueue t s)

/-- The keyword `trailer`. -/
def kTrailer : Bytes := [116, 114, 97, 105, 108, 101, 114]

/-- The errors that only end the reading of subsections, `src/pdfmm/base/PdfParser.cpp:408`. -/
def tolerated : Fault → Bool
  | .error .NoNumber => true
  | .error .InvalidXRef => true
  | .error .UnexpectedEOF => true
  | _ => false

/-- One round of the loop below, `src/pdfmm/base/PdfParser.cpp:381-417`: whether the loop goes on. -/
def readSection (cap magic max : Nat) (es : XEntries) (s : PS) : Res Bool × XEntries × PS :=
  let caught (f : Fault) : Res Bool := if tolerated f then .ok false else .error f
  let tok := tryReadToken cap s
  let s1 := match tok.1 with
    | some t => enqueue t tok.2
    | none => tok.2
  if tok.1.map (·.text) = some kTrailer then (.ok false, es, s1)
  else
    match readNextNumber cap s1 with
    | (.error f, s2) => (caught f, es, s2)
    | (.ok first, s2) =>
      match readNextNumber cap s2 with
      | (.error f, s3) => (caught f, es, s3)
      | (.ok count, s3) =>
        match readSubsection magic max first count es s3.inp with
        | (.ok (), es', inp) => (.ok true, es', { s3 with inp := inp })
        | (.error f, es', inp) => (caught f, es', { s3 with inp := inp })

/-- `MAX_XREF_SESSION_COUNT`, `src/pdfmm/base/PdfParser.cpp:27`. -/
def maxSections : Nat := 512

/-- The loop over the subsections, `src/pdfmm/base/PdfParser.cpp:375-418`; `left` rounds are left. -/
def readSections (cap magic max : Nat) : Nat → XEntries → PS → Res Unit × XEntries × PS
  | 0, es, s => (raise .NoEOFToken, es, s)
  | left + 1, es, s =>
    match readSection cap magic max es s with
    | (.ok true, es', s') => readSections cap magic max left es' s'
    | (.ok false, es', s') => (.ok (), es', s')
    | (.error f, es', s') => (.error f, es', s')

/-! ### Cross-reference streams -/

/-- A big-endian number of `k` bytes. -/
def beBytes : Nat → Nat → Bytes
  | 0, _ => []
  | k + 1, n => beBytes k (n / 256) ++ [UInt8.ofNat (n % 256)]

/-- `PdfXRefStream::WriteXRefEntry`, `src/pdfmm/base/PdfXRefStream.cpp:57-82`: the bytes of an
`XRefStreamEntry`. -/
def streamEntry (e : XEntry) : Res Bytes :=
  match e.type with
  | .free => .ok (0 :: beBytes 4 (u32 e.variant) ++ beBytes 2 (e.gen % 65536))
  | .inUse => .ok (1 :: beBytes 4 (u32 e.variant) ++ beBytes 2 (e.gen % 65536))
  | .compressed => raise .InvalidEnumValue

/-- The index patched in `EndWriteImpl`, `src/pdfmm/base/PdfXRefStream.cpp:65-66, 94-97`: the entry of the
stream object itself gets the offset the stream is written at. -/
def patchSelf (self : Ref) (offset : Nat) (e : Ref × XEntry) : Ref × XEntry :=
  if e.1 = self then (e.1, { e.2 with variant := u32 offset }) else e

def streamData : List (Ref × XEntry) → Res Bytes
  | [] => .ok []
  | e :: r =>
    match streamEntry e.2, streamData r with
    | .ok a, .ok b => .ok (a ++ b)
    | .error f, _ => .error f
    | _, .error f => .error f

/-- `/Index`, `src/pdfmm/base/PdfXRefStream.cpp:49-55`. -/
def streamIndex (ss : List XSection) : List (Int × Int) := ss.map fun s => ((s.first : Int), (s.count : Int))

/-- A read of `k` bytes at a position of the buffer; outside it is undefined. -/
def readBE (data : Bytes) : Nat → Nat → Nat → Res Nat
  | _, 0, acc => .ok acc
  | pos, k + 1, acc =>
    match data[pos]? with
    | none => .error .ub
    | some b => readBE data (pos + 1) k ((acc * 256 + b.toNat) % 18446744073709551616)

/-- `readXRefStreamEntry`, `src/pdfmm/base/PdfXRefStreamParserObject.cpp:163-219`; `W_MAX_BYTES` is 4. -/
def readStreamEntry (data : Bytes) (pos w0 w1 w2 : Nat) : Res XEntry :=
  if w0 > 4 then raise .InvalidXRefStream else
  match readBE data pos w0 0 with
  | .error f => .error f
  | .ok a =>
    if w1 > 4 then raise .InvalidXRefStream else
    match readBE data (pos + w0) w1 0 with
    | .error f => .error f
    | .ok b =>
      if w2 > 4 then raise .InvalidXRefStream else
      match readBE data (pos + w0 + w1) w2 0 with
      | .error f => .error f
      | .ok c =>
        let type := if w0 = 0 then 1 else a
        if type = 0 then .ok ⟨.free, b, u32 c⟩
        else if type = 1 then .ok ⟨.inUse, b, u32 c⟩
        else if type = 2 then .ok ⟨.compressed, b, u32 c⟩
        else raise .InvalidXRefType

/-- The inner loop of `parseStream`, `src/pdfmm/base/PdfXRefStreamParserObject.cpp:122-133`; `i` is `objIndex`, an
`unsigned`. -/
def readStreamEntries (data : Bytes) (w0 w1 w2 : Nat) : Nat → Nat → Nat → XEntries → Res XEntries × Nat
  | 0, _, pos, es => (.ok es, pos)
  | k + 1, i, pos, es =>
    if pos ≥ data.length then (raise .NoXRef, pos)
    else
      match es[i]? with
      | some none =>
        match readStreamEntry data pos w0 w1 w2 with
        | .ok e => readStreamEntries data w0 w1 w2 k (u32 (i + 1)) (pos + (w0 + w1 + w2)) (es.set i (some e))
        | .error f => (.error f, pos)
      | _ => readStreamEntries data w0 w1 w2 k (u32 (i + 1)) (pos + (w0 + w1 + w2)) es

/-- The outer loop of `parseStream`, `src/pdfmm/base/PdfXRefStreamParserObject.cpp:116-134`. -/
def readStreamIndex (data : Bytes) (max w0 w1 w2 : Nat) : List (Int × Int) → Nat → XEntries → Res XEntries
  | [], _, es => .ok es
  | (first, count) :: r, pos, es =>
    match enlarge max es (first + count) with
    | .error f => .error f
    | .ok es1 =>
      match readStreamEntries data w0 w1 w2 (truncTo 32 count) (truncTo 32 first) pos es1 with
      | (.error f, _) => .error f
      | (.ok es2, pos') => readStreamIndex data max w0 w1 w2 r pos' es2

/-- `parseStream`, `src/pdfmm/base/PdfXRefStreamParserObject.cpp:89-135`. -/
def parseXRefStream (data : Bytes) (max : Nat) (w0 w1 w2 : Int) (idx : List (Int × Int)) (es : XEntries) :
    Res XEntries :=
  if w0 < 0 ∨ w1 < 0 ∨ w2 < 0 then raise .NoXRef
  else if w0 + w1 > 9223372036854775807 ∨ w0 + w1 + w2 > 9223372036854775807 then raise .NoXRef
  else readStreamIndex data max w0.toNat w1.toNat w2.toNat idx 0 es

end Pdfmm
