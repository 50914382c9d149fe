import Verif.XRef.Model
import Verif.Parser.Header
import Verif.Parser.XChainModel
import Verif.Streams.ObjStreamModel
import Verif.Objects.ObjListModel
/-
Writing a whole file with `PdfWriter` and reading it with `PdfParser`, as bytes: `PdfMemDocument::Save` and
`SaveUpdate` from `writer.Write` on, and `PdfMemDocument::LoadFromDevice`.  Files with a cross-reference table,
without encryption.
-/
set_option autoImplicit false
namespace Pdfmm

/-! ### Writing -/

/-- What a save depends on besides the document: the Flate coder, which object is the catalog's metadata, the
options, and the identifier that `CreateFileIdentifier` computes from the information dictionary (a MD5 sum,
`src/pdfmm/base/PdfWriter.cpp:289-298`) or from the time if there is none. -/
structure SaveEnv where
  flate : Filt
  isMeta : Ref → Bool
  opts : SaveOpts
  ident : Option (List (Bytes × Var)) → Bytes

/-- An indirect object of a document and its dirty flag. -/
structure DocObj where
  ref : Ref
  obj : Loaded
  dirty : Bool

/-- What `PdfWriter` gets, `src/pdfmm/base/PdfMemDocument.cpp:241-247, 269-274`: the version's name, the objects in
the order of the list, its free objects, the trailer, and `m_PrevXRefOffset` (0 for a full save). -/
structure SaveIn where
  version : Bytes
  objs : List DocObj
  free : List Ref
  trailer : List (Bytes × Var)
  prev : Int

/-- `PdfObject::Write` of an object with or without a stream. -/
def writeIndirect (env : SaveEnv) (r : Ref) : Loaded → Res Bytes
  | .plain v => writePlain env.opts r v
  | .stream o =>
    match o.write env.flate (env.isMeta r) env.opts r with
    | .error e => .error e
    | .ok (t, _) => .ok t

/-- The loop over the objects of `WritePdfObjects`, `src/pdfmm/base/PdfWriter.cpp:133-177`, at a position of the
device; `m_rewriteXRefTable` is false in all callers. -/
def writeObjs (env : SaveEnv) (inc : Bool) : Nat → List DocObj → Res (Bytes × List XAdd)
  | _, [] => .ok ([], [])
  | pos, o :: os =>
    if inc = true ∧ o.dirty = false then
      match writeObjs env inc pos os with
      | .error e => .error e
      | .ok (t, adds) => .ok (t, .old o.ref :: adds)
    else
      match writeIndirect env o.ref o.obj with
      | .error e => .error e
      | .ok a =>
        match writeObjs env inc (pos + a.length) os with
        | .error e => .error e
        | .ok (t, adds) => .ok (a ++ t, .inUse o.ref pos :: adds)

/-- `Prev`, `XRefStm`, `Version`. -/
def nPrev : Bytes := [80, 114, 101, 118]
def nXRefStm : Bytes := [88, 82, 101, 102, 83, 116, 109]
def nVersion : Bytes := [86, 101, 114, 115, 105, 111, 110]

/-- An entry of the document's trailer is copied, `src/pdfmm/base/PdfWriter.cpp:191-196`. -/
def copyKey (k : Bytes) (tr d : List (Bytes × Var)) : List (Bytes × Var) :=
  match SMap.find? k tr with
  | none => d
  | some v => SMap.insert k v d

/-- `FillTrailerObject`, `src/pdfmm/base/PdfWriter.cpp:185-219`, without encryption. -/
def fillTrailer (tr : List (Bytes × Var)) (size : Nat) (inc : Bool) (orig id : Bytes) (prev : Int) :
    List (Bytes × Var) :=
  let d := copyKey kInfo tr (copyKey kRoot tr (SMap.insert kSize (.num size) []))
  let d := SMap.insert kID (.arr [.str (if inc = true ∧ orig ≠ [] then orig else id) true, .str id true]) d
  if prev > 0 then SMap.insert nPrev (.num prev) d else d

/-- `PdfObject::GetDictionary`. -/
def Loaded.dict : Loaded → Res (List (Bytes × Var))
  | .plain (.dict d) => .ok d
  | .stream o => .ok o.dict
  | .plain _ => raise .InvalidDataType

/-- `GetObject` among the objects. -/
def savedFind (objs : List DocObj) (r : Ref) : Option Loaded :=
  (objs.find? (fun o => decide (o.ref = r))).map (·.obj)

/-- The information dictionary, `src/pdfmm/base/PdfWriter.cpp:246-287`. -/
def infoOf (objs : List DocObj) (tr : List (Bytes × Var)) : Res (Option (List (Bytes × Var))) :=
  match SMap.find? kInfo tr with
  | none => .ok none
  | some (.ref n g) =>
    match savedFind objs ⟨n, g⟩ with
    | none => raise .InvalidHandle
    | some l =>
      match l.dict with
      | .error e => .error e
      | .ok d => .ok (some d)
  | some (.dict d) => .ok (some d)
  | some _ => raise .InvalidHandle

/-- The first string of an identifier array. -/
def firstString : Var → Res (Option Bytes)
  | .arr (.str d _ :: _) => .ok (some d)
  | .arr _ => .ok none
  | _ => raise .InvalidDataType

/-- The original identifier, `src/pdfmm/base/PdfWriter.cpp:227-241`. -/
def originalId (objs : List DocObj) (tr : List (Bytes × Var)) : Res (Option Bytes) :=
  match SMap.find? kID tr with
  | none => .ok none
  | some (.ref n g) =>
    match savedFind objs ⟨n, g⟩ with
    | none => .ok none
    | some (.plain v) => firstString v
    | some (.stream _) => raise .InvalidDataType
  | some v => firstString v

/-- `CreateFileIdentifier`, `src/pdfmm/base/PdfWriter.cpp:221-302`: the original identifier and the new one. -/
def fileIds (env : SaveEnv) (d : SaveIn) : Res (Bytes × Bytes) :=
  match originalId d.objs d.trailer with
  | .error e => .error e
  | .ok orig =>
    match infoOf d.objs d.trailer with
    | .error e => .error e
    | .ok info => .ok (orig.getD (env.ident info), env.ident info)

/-- `WritePdfHeader`, `src/pdfmm/base/PdfWriter.cpp:125-129`. -/
def headerText (version : Bytes) : Bytes := magicWord ++ (version ++ [10, 37, 226, 227, 207, 211, 10])

/-- `xref` and a line break, `src/pdfmm/base/PdfXRef.cpp:248-252`. -/
def xrefLine : Bytes := [120, 114, 101, 102, 10]

/-- What follows the table, `src/pdfmm/base/PdfXRef.cpp:287-305`, for the text of the trailer dictionary and the
position of the table. -/
def fileTail (trailer : Bytes) (off : Nat) : Bytes :=
  kTrailer ++ (10 :: (trailer ++ (10 :: (startXRef ++ (10 :: (fmtNat off ++ (10 :: (eofMarker ++ [10]))))))))

/-- `PdfXRef::Write`, `src/pdfmm/base/PdfXRef.cpp:77-156`, with the position of the device. -/
def xrefText (env : SaveEnv) (inc : Bool) (d : SaveIn) (ids : Bytes × Bytes) (adds : List XAdd) (off : Nat) :
    Res Bytes :=
  match writeSections inc adds with
  | .error e => .error e
  | .ok ss =>
    match sectionsText ss with
    | .error e => .error e
    | .ok t =>
      match writeVar env.opts.flags (.dict (fillTrailer d.trailer (collect inc adds).size inc ids.1 ids.2 d.prev)) with
      | .error e => .error e
      | .ok tr => .ok (xrefLine ++ (t ++ fileTail tr off))

/-- `PdfWriter::Write`, `src/pdfmm/base/PdfWriter.cpp:72-123`: what is written to a device at position `start`. -/
def writeFile (env : SaveEnv) (inc : Bool) (start : Nat) (d : SaveIn) : Res Bytes :=
  match fileIds env d with
  | .error e => .error e
  | .ok ids =>
    let hd := if inc then [] else headerText d.version
    match writeObjs env inc (start + hd.length) d.objs with
    | .error e => .error e
    | .ok (body, adds) =>
      match xrefText env inc d ids (adds ++ d.free.map .free) (start + hd.length + body.length) with
      | .error e => .error e
      | .ok x => .ok (hd ++ (body ++ x))

/-! ### Reading -/

/-- What the parser has found out: `m_entries`, `m_Trailer`, `m_visitedXRefOffsets`. -/
structure LState where
  entries : XEntries
  trailer : Option (List (Bytes × Var))
  visited : List Nat

/-- The object behind the keyword `trailer`: `PdfParserObject::DelayedLoadImpl` with its own tokenizer,
`src/pdfmm/base/PdfParserObject.cpp:71-79, 111-128`, and `GetDictionary`. -/
def parseTrailer (cfg : Cfg) (s : PS) : Res (List (Bytes × Var)) :=
  match tryReadToken cfg.cap s with
  | (none, _) => raise .UnexpectedEOF
  | (some t, s1) =>
    if t.text = kEndobj then raise .InvalidDataType
    else
      match readTok cfg (2 * s1.weight + 2) t s1 with
      | (.error e, _) => .error e
      | (.ok (some (.dict d)), _) => .ok d
      | (.ok _, _) => raise .InvalidDataType

/-- The first trailer is kept, the others are merged into it, `src/pdfmm/base/PdfParser.cpp:227-236`. -/
def joinTrailer (cur : Option (List (Bytes × Var))) (d : List (Bytes × Var)) : Option (List (Bytes × Var)) :=
  match cur with
  | none => some d
  | some c => some (mergeTrailer c d)

/-- `/Prev`, `src/pdfmm/base/PdfParser.cpp:256-259`.  (A reference is not resolved: no object is known yet.) -/
def prevOf (d : List (Bytes × Var)) : Option Int :=
  match SMap.find? nPrev d with
  | some (.num p) => some p
  | _ => none

/-- `ReadXRefContents` and `ReadNextTrailer`, `src/pdfmm/base/PdfParser.cpp:217-291, 316-432`.  The numbers are fuel,
the recursion depth and the offset.  Simplified: the tokenizer's queue is empty at the start; the search for a
table when the offset lies behind the end, cross-reference streams and `/XRefStm` are not followed (the model
gives `NotImplemented`). -/
def readXRef (cfg : Cfg) (magic max : Nat) (file : Bytes) : Nat → Nat → Nat → LState → Res LState
  | 0, _, _, _ => .error .diverge
  | fuel + 1, depth, off, st =>
    if depth + 1 > cfg.maxDepth then raise .InvalidXRef
    else if off ∈ st.visited then raise .InvalidXRef
    else if off > file.length then raise .NotImplemented
    else
      match tryReadToken cfg.cap ⟨[], file.drop off, depth + 1⟩ with
      | (none, _) => raise .NoXRef
      | (some t, s) =>
        if t.text ≠ [120, 114, 101, 102] then raise .NotImplemented
        else
          match readSections cfg.cap magic max maxSections st.entries s with
          | (.error e, _, _) => .error e
          | (.ok (), es, s1) =>
            if depth + 2 > cfg.maxDepth then raise .InvalidXRef
            else
              match tryReadToken cfg.cap s1 with
              | (none, _) => raise .UnexpectedEOF
              | (some t, s2) =>
                if t.text ≠ kTrailer then .ok ⟨es, st.trailer, off :: st.visited⟩
                else
                  match parseTrailer cfg ⟨[], s2.inp, depth + 2⟩ with
                  | .error e => .error e
                  | .ok d =>
                    if (SMap.find? nXRefStm d).isSome then raise .NotImplemented
                    else
                      match prevOf d with
                      | none => .ok ⟨es, joinTrailer st.trailer d, off :: st.visited⟩
                      | some p =>
                        if p > 0 then
                          if p.toNat ∈ off :: st.visited then .ok ⟨es, joinTrailer st.trailer d, off :: st.visited⟩
                          else readXRef cfg magic max file fuel (depth + 2) p.toNat
                            ⟨es, joinTrailer st.trailer d, off :: st.visited⟩
                        else .ok ⟨es, joinTrailer st.trailer d, off :: st.visited⟩

/-- One round of `ReadObjectsInternal`, `src/pdfmm/base/PdfParser.cpp:675-770`: an object is represented by its
offset.  Compressed entries do not occur in tables. -/
def addEntry (o : OL Nat) (i : Nat) : Option XEntry → Res (OL Nat)
  | some ⟨.inUse, off, gen⟩ =>
    if off > 0 then
      if i = 0 ∧ gen % 65536 = 0 then raise .InvalidHandle else .ok (o.push ⟨i, gen % 65536⟩ off)
    else if gen = 0 then .ok (o.addFree ⟨i, 1⟩) else .ok o
  | some ⟨.free, _, gen⟩ => if i ≠ 0 then .ok (o.safeAddFree ⟨i, gen % 65536⟩) else .ok o
  | some ⟨.compressed, _, _⟩ => .ok o
  | none => if i ≠ 0 then .ok (o.addFree ⟨i, 1⟩) else .ok o

/-- The loop over the entries, from number `i` on. -/
def addAllEntries : OL Nat → Nat → XEntries → Res (OL Nat)
  | o, _, [] => .ok o
  | o, i, e :: r =>
    match addEntry o i e with
    | .error f => .error f
    | .ok o' => addAllEntries o' (i + 1) r

/-- A loaded document: the objects with their offsets, the trailer, the version and `GetXRefOffset`. -/
structure LDoc where
  version : Bytes
  trailer : List (Bytes × Var)
  objs : OL Nat
  xref : Nat

/-- `GetObject` and the delayed loading of an object, `src/pdfmm/base/PdfParserObject.cpp:71-100`: the reference is
the one of the table. -/
def getAt (file : Bytes) (objs : OL Nat) (r : Ref) : Option (Res Loaded) :=
  (objs.getObject r).map fun off =>
    match loadObject {} (file.drop off) with
    | .error e => .error e
    | .ok (_, l) => .ok l

def LDoc.get (file : Bytes) (d : LDoc) (r : Ref) : Option (Res Loaded) := getAt file d.objs r

/-- `/Version` of a catalog, if it is a known version, `src/pdfmm/base/PdfParser.cpp:908-920`. -/
def catalogVersion (cat : List (Bytes × Var)) : Option Bytes :=
  match SMap.find? nVersion cat with
  | some (.name n) => if n ∈ versionNames then some n else none
  | _ => none

/-- `UpdateDocumentVersion`, `src/pdfmm/base/PdfParser.cpp:899-928`. -/
def updateVersion (v : Bytes) (root : Option (Res Loaded)) : Res Bytes :=
  match root with
  | none => .ok v
  | some (.error e) => .error e
  | some (.ok l) =>
    match l.dict with
    | .ok d => .ok ((catalogVersion d).getD v)
    | .error _ => .ok v

/-- `FindKey("Root")` of the trailer. -/
def findRoot (file : Bytes) (objs : OL Nat) (tr : List (Bytes × Var)) : Option (Res Loaded) :=
  match SMap.find? kRoot tr with
  | none => none
  | some (.ref n g) => getAt file objs ⟨n, g⟩
  | some v => some (.ok (.plain v))

/-- `startref`. -/
def startRef : Bytes := [115, 116, 97, 114, 116, 114, 101, 102]

/-- The number behind the keyword: `IsNextToken` and `ReadNextNumber`, `src/pdfmm/base/PdfParser.cpp:296-313`. -/
def numberAfter (cfg : Cfg) (file kw : Bytes) (pos : Nat) : Res (Option Int) :=
  match tryReadToken cfg.cap ⟨[], file.drop pos, 0⟩ with
  | (none, _) => raise .UnexpectedEOF
  | (some t, s) =>
    if t.text ≠ kw then .ok none
    else
      match readNextNumber cfg.cap s with
      | (.error e, _) => .error e
      | (.ok n, _) => .ok (some n)

/-- `FindXRef`, `src/pdfmm/base/PdfParser.cpp:293-314`; `last` is `m_LastEOFOffset`. The sum is a `size_t`. -/
def findXRef (cfg : Cfg) (file : Bytes) (magic last : Nat) : Res Nat :=
  match findTokenBackward file startXRef 512 last with
  | .error e => .error e
  | .ok pos =>
    match numberAfter cfg file startXRef pos with
    | .error e => .error e
    | .ok (some n) => .ok ((truncTo 64 n + magic) % 18446744073709551616)
    | .ok none =>
      match findTokenBackward file startRef 512 last with
      | .error e => .error e
      | .ok pos =>
        match numberAfter cfg file startRef pos with
        | .error e => .error e
        | .ok (some n) => .ok ((truncTo 64 n + magic) % 18446744073709551616)
        | .ok none => raise .NoXRef

/-- `GetMaxObjectCount`, `src/pdfmm/base/PdfParser.cpp:36`. -/
def maxObjectCount : Nat := 8388607

/-- The condition of `src/pdfmm/base/PdfParser.cpp:611-612`. -/
def isEncrypted (tr : List (Bytes × Var)) : Bool :=
  match SMap.find? kEncrypt tr with
  | none => false
  | some .null => false
  | some _ => true

/-- `PdfParser::Parse`, `src/pdfmm/base/PdfParser.cpp:72-160, 605-664`, by a new parser into a new document, without a
password: a missing trailer is dereferenced; encrypted files are not followed (`NotImplemented`). -/
def loadFile (cfg : Cfg) (file : Bytes) : Res LDoc :=
  match isPdfFile file with
  | none => raise .NoPdfFile
  | some (v, magic) =>
    match checkEOF false file with
    | .error e => .error e
    | .ok last =>
      match findXRef cfg file magic last with
      | .error e => .error e
      | .ok off =>
        match readXRef cfg magic maxObjectCount file (cfg.maxDepth + 1) 0 off ⟨[], none, []⟩ with
        | .error e => .error e
        | .ok st =>
          match st.trailer with
          | none => .error .ub
          | some tr =>
            if isEncrypted tr then raise .NotImplemented
            else
              match addAllEntries OL.new 0 st.entries with
              | .error e => .error e
              | .ok objs =>
                match updateVersion v (findRoot file objs tr) with
                | .error e => .error e
                | .ok v' => .ok ⟨v', tr, objs, off⟩

end Pdfmm
