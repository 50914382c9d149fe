import Verif.XRef.Model
/-
Following the chain of cross-reference sections of a file: `PdfParser::ReadXRefContents`, `ReadNextTrailer`,
`ReadXRefStreamContents` and `MergeTrailer`.

What is at an offset of the file is a parameter: a table with its entries and trailer, or a cross-reference
stream.  How the entries of one section are read from its text or data is modelled in `Verif.XRef.Model`.
-/
set_option autoImplicit false
namespace Pdfmm

/-- A trailer dictionary: its entries, `/XRefStm` converted to `size_t`
(`src/pdfmm/base/PdfParser.cpp:247`), whether it has a `/Prev` (242) and its value if it is a number (256-259). -/
structure CTrailer (V : Type) where
  dict : List (Bytes × V)
  stm : Option Nat
  hasPrev : Bool
  prev : Option Int

/-- A classic section: the entries of its subsections, the error that ended their reading if any, what follows
as its trailer (`NoTrailer` if the keyword is missing), and how many levels of nested reads the trailer needs. -/
structure CTable (V : Type) where
  entries : List (Nat × XEntry)
  fault : Option Fault
  trailer : Res (CTrailer V)
  need : Nat

/-- A cross-reference stream that could be loaded: its dictionary, the result of `TryGetPreviousOffset`
(`src/pdfmm/base/PdfXRefStreamParserObject.cpp:221-226`), its entries and the error `ReadXRefTable` ended with. -/
structure CStream (V : Type) where
  dict : List (Bytes × V)
  prev : Option Nat
  entries : List (Nat × XEntry)
  fault : Option Fault
  need : Nat

/-- A file.  `keyword` tells whether the token at an offset is `xref`; `fallback` is the position found by
`src/pdfmm/base/PdfParser.cpp:339-351` for an offset behind the end; `old` is a version below 1.3. -/
structure XFile (V : Type) where
  size : Nat
  keyword : Nat → Res Bool
  table : Nat → CTable V
  stream : Nat → Res (CStream V)
  fallback : Res Nat
  old : Bool

/-- What the parser knows: `m_entries`, `m_Trailer`, `m_visitedXRefOffsets` (latest first), the thread's
recursion depth, `m_IncrementalUpdateCount`.  `log` lists the positions of the sections read, latest first; it is
not in the code. -/
structure CState (V : Type) where
  entries : Nat → Option XEntry
  trailer : Option (List (Bytes × V))
  visited : List Nat
  depth : Nat
  updates : Nat
  log : List Nat

/-- Storing entries: one that is already known stays, `src/pdfmm/base/PdfParser.cpp:475-478` and
`src/pdfmm/base/PdfXRefStreamParserObject.cpp:128-130`. -/
def addEntries (f : Nat → Option XEntry) : List (Nat × XEntry) → Nat → Option XEntry
  | [] => f
  | (n, e) :: r => addEntries (if f n = none then fun m => if m = n then some e else f m else f) r

def kSize : Bytes := [83, 105, 122, 101]
def kRoot : Bytes := [82, 111, 111, 116]
def kEncrypt : Bytes := [69, 110, 99, 114, 121, 112, 116]
def kInfo : Bytes := [73, 110, 102, 111]
def kID : Bytes := [73, 68]

/-- One of the five steps of `MergeTrailer`. -/
def mergeKey {V : Type} (older : List (Bytes × V)) (k : Bytes) (cur : List (Bytes × V)) : List (Bytes × V) :=
  match SMap.find? k older with
  | none => cur
  | some v => if SMap.find? k cur = none then SMap.insert k v cur else cur

/-- `MergeTrailer`, `src/pdfmm/base/PdfParser.cpp:191-215`. -/
def mergeTrailer {V : Type} (cur older : List (Bytes × V)) : List (Bytes × V) :=
  mergeKey older kID (mergeKey older kInfo (mergeKey older kEncrypt (mergeKey older kRoot (mergeKey older kSize cur))))

/-- The trailer is taken or merged, `src/pdfmm/base/PdfParser.cpp:227-237, 563-572`. -/
def CState.addTrailer {V : Type} (st : CState V) (d : List (Bytes × V)) : CState V :=
  { st with trailer := match st.trailer with
    | none => some d
    | some cur => some (mergeTrailer cur d) }

/-- The destructor of the guard. -/
def leaveC {V : Type} (r : Res Unit × CState V) : Res Unit × CState V := (r.1, { r.2 with depth := r.2.depth - 1 })

/-- `utls::RecursionGuard`, as in `Verif.Syntax.TokModel`. -/
def guardC {V : Type} (max : Nat) (m : CState V → Res Unit × CState V) (st : CState V) : Res Unit × CState V :=
  if st.depth + 1 > max then (raise .InvalidXRef, { st with depth := st.depth + 1 })
  else leaveC (m { st with depth := st.depth + 1 })

/-- `NoTrailer` is ignored, `src/pdfmm/base/PdfParser.cpp:420-431`. -/
def ignoreNoTrailer {V : Type} : Res Unit × CState V → Res Unit × CState V
  | (.error (.error .NoTrailer), st) => (.ok (), st)
  | r => r

/-- `NoNumber` is ignored, `src/pdfmm/base/PdfParser.cpp:592-601`. -/
def ignoreNoNumber {V : Type} : Res Unit × CState V → Res Unit × CState V
  | (.error (.error .NoNumber), st) => (.ok (), st)
  | r => r

/-- A stream's dictionary and entries are stored, `src/pdfmm/base/PdfParser.cpp:563-577`. -/
def CState.addStream {V : Type} (st : CState V) (off : Nat) (s : CStream V) : CState V :=
  { (st.addTrailer s.dict) with entries := addEntries st.entries s.entries, log := off :: st.log }

/-- A classic section's entries are stored. -/
def CState.addTable {V : Type} (st : CState V) (pos : Nat) (t : CTable V) : CState V :=
  { st with entries := addEntries st.entries t.entries, log := pos :: st.log }

/-- Sequencing: an error ends the run. -/
def thenC {V : Type} (r : Res Unit × CState V) (k : CState V → Res Unit × CState V) : Res Unit × CState V :=
  match r with
  | (.ok _, st) => k st
  | (.error e, st) => (.error e, st)

/-- `/Prev` of a trailer, `src/pdfmm/base/PdfParser.cpp:256-284`. -/
def followPrev {V : Type} (read : Nat → CState V → Res Unit × CState V) (prev : Option Int) (st : CState V) :
    Res Unit × CState V :=
  match prev with
  | none => (.ok (), st)
  | some p =>
    if p > 0 then
      if p.toNat ∈ st.visited then (.ok (), { st with updates := st.updates + 1 })
      else read p.toNat { st with updates := st.updates + 1 }
    else (.ok (), st)

/-- `/XRefStm` of a trailer, `src/pdfmm/base/PdfParser.cpp:238-254`. -/
def followStm {V : Type} (read : Nat → CState V → Res Unit × CState V) (tr : CTrailer V) (st : CState V) :
    Res Unit × CState V :=
  match tr.stm with
  | none => (.ok (), st)
  | some o => read o { st with updates := if tr.hasPrev then st.updates else st.updates + 1 }

/-- Where the section is read, `src/pdfmm/base/PdfParser.cpp:334-356`. -/
def XFile.position {V : Type} (F : XFile V) (off : Nat) : Res Nat := if off > F.size then F.fallback else .ok off

mutual
/-- `ReadXRefContents`, `src/pdfmm/base/PdfParser.cpp:316-432`. The number is fuel. -/
def readContents {V : Type} (max : Nat) (F : XFile V) : Nat → Nat → CState V → Res Unit × CState V
  | 0, _ => guardC max fun st => (.error .diverge, st)
  | f + 1, off => guardC max fun st =>
    if off ∈ st.visited then (raise .InvalidXRef, st)
    else
      let st := { st with visited := off :: st.visited }
      match F.position off with
      | .error e => (.error e, st)
      | .ok pos =>
        match F.keyword pos with
        | .error e => (.error e, st)
        | .ok false => if F.old then (raise .NoXRef, st) else readStream max F f pos st
        | .ok true =>
          let t := F.table pos
          let st := st.addTable pos t
          match t.fault with
          | none => ignoreNoTrailer (readTrailer max F f t st)
          | some e => if tolerated e then ignoreNoTrailer (readTrailer max F f t st) else (.error e, st)

/-- `ReadNextTrailer`, `src/pdfmm/base/PdfParser.cpp:217-291`. -/
def readTrailer {V : Type} (max : Nat) (F : XFile V) : Nat → CTable V → CState V → Res Unit × CState V
  | 0, _ => guardC max fun st => (.error .diverge, st)
  | f + 1, t => guardC max fun st =>
    match t.trailer with
    | .error e => (.error e, st)
    | .ok tr =>
      if st.depth + t.need > max then (raise .InvalidXRef, { st with depth := st.depth + 1 })
      else
        thenC (followStm (readStream max F f) tr (st.addTrailer tr.dict)) (followPrev (readContents max F f) tr.prev)

/-- `ReadXRefStreamContents`, `src/pdfmm/base/PdfParser.cpp:547-604`. -/
def readStream {V : Type} (max : Nat) (F : XFile V) : Nat → Nat → CState V → Res Unit × CState V
  | 0, _ => guardC max fun st => (.error .diverge, st)
  | f + 1, off => guardC max fun st =>
    match F.stream off with
    | .error e => (.error e, st)
    | .ok s =>
      if st.depth + s.need > max then (raise .InvalidXRef, { st with depth := st.depth + 1 })
      else
        let st := st.addStream off s
        match s.fault with
        | some e => (.error e, st)
        | none =>
          match s.prev with
          | none => (.ok (), st)
          | some p =>
            if p = off then (.ok (), st)
            else ignoreNoNumber (readContents max F f p { st with updates := st.updates + 1 })
end

/-- The state of a parser that has read nothing yet, at a recursion depth. -/
def CState.fresh {V : Type} (visited : List Nat) (depth : Nat) : CState V := ⟨fun _ => none, none, visited, depth, 0, []⟩

/-- `Reset`, `src/pdfmm/base/PdfParser.cpp:52-70`: the visited offsets stay. -/
def CState.reset {V : Type} (st : CState V) : CState V := .fresh st.visited st.depth

end Pdfmm
