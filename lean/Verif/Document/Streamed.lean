import Verif.Document.Annots
import Verif.Streams.ObjStreamData
/-
C188: documents that are written while they are made (`PdfStreamedDocument` over `PdfImmediateWriter`).
-/
set_option autoImplicit false
namespace Pdfmm

/-- Where the data of a stream goes: nowhere yet, into memory, or straight into the file, with the number of bytes so far and the object for its length. -/
inductive SProv
  | none
  | mem (buf : Bytes)
  | file (len : Nat) (lenRef : Ref)
  deriving DecidableEq

/-- An object of the document. -/
structure SdObj where
  val : Var
  prov : SProv
  filters : List FilterName
  locked : Bool

/-- The document with its writer, `src/pdfmm/base/PdfImmediateWriter.h:81-84`: the file (written at its end), `m_OpenStream`, `m_Last`, the objects, the number of the
next one and the entries of the table of objects.  Encryption is not modelled. -/
structure SDoc where
  file : Bytes
  opened : Bool
  last : Option Ref
  objs : List (Ref × SdObj)
  next : Nat
  xref : List (Ref × Nat)

def SDoc.get (s : SDoc) (r : Ref) : Option SdObj := s.objs.lookup r

def SDoc.put (s : SDoc) (r : Ref) (o : SdObj) : SDoc := { s with objs := s.objs.map fun p => if p.1 = r then (r, o) else p }

/-- A new object. -/
def SDoc.create (s : SDoc) (v : Var) : SDoc := { s with objs := s.objs ++ [(⟨s.next, 0⟩, ⟨v, .none, [], false⟩)], next := s.next + 1 }

/-- `forceCreateStream`, `src/pdfmm/base/PdfObject.cpp:324-341`, over `PdfImmediateWriter::CreateStream`, `src/pdfmm/base/PdfImmediateWriter.cpp:127-132`, and
`PdfStreamedObjectStream::Init`, `src/pdfmm/base/PdfStreamedObjectStream.cpp:67-71`.  A handle of an object that was removed is a dangling pointer. -/
def SDoc.makeStream (s : SDoc) (r : Ref) : Res Unit × SDoc :=
  match s.get r with
  | none => (.error .ub, s)
  | some o =>
    match o.prov, o.val with
    | .none, .dict d =>
      if s.opened then (.ok (), s.put r { o with prov := .mem [] })
      else (.ok (), (s.put r { o with val := .dict (SMap.insert kLength (.ref s.next 0) d), prov := .file 0 ⟨s.next, 0⟩ }).create (.num 0))
    | .none, _ => (raise .InvalidDataType, s)
    | _, _ => (.ok (), s)

/-- `FinishLastObject`, `src/pdfmm/base/PdfImmediateWriter.cpp:134-144`. -/
def SDoc.finishLast (s : SDoc) : SDoc :=
  match s.last with
  | none => s
  | some r => { s with file := s.file ++ (tEndStream ++ tEndObj), objs := s.objs.filter (fun p => p.1 ≠ r), last := none }

/-- `PdfImmediateWriter::WriteObject`, `src/pdfmm/base/PdfImmediateWriter.cpp:66-82`, with `PdfObject::Write`, `src/pdfmm/base/PdfObject.cpp:208-281`, for an object
whose data goes into the file.  Unless compression is off, or filters are known, the writer first reads the stream, which is refused
(`src/pdfmm/base/PdfStreamedObjectStream.cpp:90-94`) after it was locked (`src/pdfmm/base/PdfObjectStream.cpp:396-401`).  Otherwise the last seven bytes, `endobj`,
are written over.  When the object is the last one itself, it is freed before it is written. -/
def SDoc.writeObject (opts : SaveOpts) (s : SDoc) (r : Ref) (o : SdObj) : Res Unit × SDoc :=
  if s.last = some r then (.error .ub, s)
  else
    let s1 := { s.finishLast with xref := s.xref ++ [(r, s.finishLast.file.length)] }
    if opts.noCompress = false ∧ o.filters = [] then
      (raise .NotImplemented, { s1 with file := s1.file ++ objHeader opts r }.put r { o with locked := true })
    else
      match writePlain opts r o.val with
      | .error e => (.error e, s1)
      | .ok t => (.ok (), { s1 with file := (s1.file ++ t).take ((s1.file ++ t).length - 7) ++ tStream, last := some r })

/-- `GetOutputStream(filters)`, writing and closing, `src/pdfmm/base/PdfObjectStream.cpp:34-50`, `src/pdfmm/base/PdfObjectStream.cpp:422-460` and
`src/pdfmm/base/PdfObjectStream.cpp:478-515`: `BeginAppendStream` marks the writer (`src/pdfmm/base/PdfImmediateWriter.cpp:146-159`), and is called at the end as well
(`src/pdfmm/base/PdfObjectStream.cpp:458`), `EndAppendStream` never is.  The filters are entered into the object when the stream is closed. -/
def SDoc.writeStream (flate : Filt) (opts : SaveOpts) (s : SDoc) (r : Ref) (fs : List FilterName) (data : Bytes) : Res Unit × SDoc :=
  match s.get r with
  | none => (.error .ub, s)
  | some o =>
    if o.locked then (raise .InternalLogic, s)
    else
      match o.prov, o.val with
      | .file len lr, .dict d =>
        match { s with opened := true }.writeObject opts r o with
        | (.error e, s1) => (.error e, s1)
        | (.ok (), s1) =>
          match encodePieces flate fs [data] with
          | .error e => (.error e, s1)
          | .ok tx =>
            match setFilterKey d fs with
            | .error e => (.error e, { s1 with file := s1.file ++ tx })
            | .ok d' =>
              (.ok (), ({ s1 with file := s1.file ++ tx }.put r { o with val := .dict d', prov := .file (len + tx.length) lr, filters := fs }).put lr ⟨.num (len + tx.length), .none, [], false⟩)
      | .mem b, .dict d =>
        match (⟨d, b, o.filters, false⟩ : StObj).output flate fs false [data] with
        | (.error e, o') => (.error e, s.put r ⟨.dict o'.dict, .mem o'.buf, o'.filters, o'.locked⟩)
        | (.ok (), o') => (.ok (), s.put r ⟨.dict o'.dict, .mem o'.buf, o'.filters, o'.locked⟩)
      | _, _ => (raise .InvalidHandle, s)

/-- The objects still held, written at the end, `src/pdfmm/base/PdfWriter.cpp:131-183`; a stream for the file that was never opened is written without its data. -/
def writeHeld (flate : Filt) (opts : SaveOpts) : List (Ref × SdObj) → SDoc → Res Unit × SDoc
  | [], s => (.ok (), s)
  | (r, o) :: l, s =>
    let t : Res Bytes := match o.prov, o.val with
      | .mem b, .dict d => ((⟨d, b, o.filters, o.locked⟩ : StObj).write flate false opts r).map Prod.fst
      | .file _ _, _ => if opts.noCompress = false ∧ o.filters = [] then raise .NotImplemented else writePlain opts r o.val
      | _, _ => writePlain opts r o.val
    match t with
    | .error e => (.error e, s)
    | .ok t => writeHeld flate opts l { s with xref := s.xref ++ [(r, s.file.length)], file := s.file ++ t }

/-- `PdfStreamedDocument::Close` over `PdfImmediateWriter::Finish`, `src/pdfmm/base/PdfStreamedDocument.cpp:36-40` and `src/pdfmm/base/PdfImmediateWriter.cpp:84-125`; the
text of the table and trailer is a parameter. -/
def SDoc.close (flate : Filt) (opts : SaveOpts) (tail : List (Ref × Nat) → Nat → Bytes) (s : SDoc) : Res Unit × SDoc :=
  match writeHeld flate opts s.finishLast.objs s.finishLast with
  | (.error e, s1) => (.error e, s1)
  | (.ok (), s1) => (raise .NotImplemented, { s1 with file := s1.file ++ tail s1.xref s1.file.length })

/-- What a program does with the document. -/
inductive SCall
  | create (v : Var)
  | makeStream (r : Ref)
  | write (r : Ref) (fs : List FilterName) (data : Bytes)

def SDoc.call (flate : Filt) (opts : SaveOpts) (s : SDoc) : SCall → SDoc
  | .create v => s.create v
  | .makeStream r => (s.makeStream r).2
  | .write r fs data => (s.writeStream flate opts r fs data).2

def SDoc.calls (flate : Filt) (opts : SaveOpts) (s : SDoc) (cs : List SCall) : SDoc := cs.foldl (SDoc.call flate opts) s

/-- A new document: the header is in the file. -/
def SDoc.start (header : Bytes) : SDoc := ⟨header, false, none, [], 1, []⟩

namespace Spec

/-- Object `r` is a dictionary without a stream. -/
def PlainDictObj (s : SDoc) (r : Ref) (d : FDict) : Prop := s.get r = some ⟨.dict d, .none, [], false⟩

/-- No object has the number the next one gets. -/
def FreshNext (s : SDoc) : Prop := ∀ p ∈ s.objs, p.1 ≠ ⟨s.next, 0⟩

end Spec

/-! ### Proofs -/

theorem lookup_map_self (l : List (Ref × SdObj)) (r : Ref) (o o' : SdObj) (h : l.lookup r = some o') :
    (l.map fun p => if p.1 = r then (r, o) else p).lookup r = some o := by
  induction l with
  | nil => simp at h
  | cons p l ih =>
    rw [List.lookup_cons] at h
    rw [List.map_cons]
    by_cases hp : p.1 = r
    · rw [if_pos hp, List.lookup_cons]; simp
    · rw [if_neg hp, List.lookup_cons]
      have : (r == p.1) = false := by simp; exact fun e => hp e.symm
      rw [this] at h ⊢
      exact ih h

theorem lookup_map_ne (l : List (Ref × SdObj)) (r q : Ref) (o : SdObj) (h : q ≠ r) :
    (l.map fun p => if p.1 = r then (r, o) else p).lookup q = l.lookup q := by
  induction l with
  | nil => rfl
  | cons p l ih =>
    rw [List.map_cons, List.lookup_cons]
    by_cases hp : p.1 = r
    · have hq : (q == r) = false := by simp; exact h
      rw [if_pos hp, List.lookup_cons, hp, ih]
      show (match q == r with | true => _ | false => _) = _
      rw [hq]
    · rw [if_neg hp, List.lookup_cons, ih]

theorem get_put_self (s : SDoc) (r : Ref) (o o' : SdObj) (h : s.get r = some o') : (s.put r o).get r = some o := lookup_map_self s.objs r o o' h

theorem get_put_ne (s : SDoc) (r q : Ref) (o : SdObj) (h : q ≠ r) : (s.put r o).get q = s.get q := lookup_map_ne s.objs r q o h

theorem get_create (s : SDoc) (v : Var) (r : Ref) (o : SdObj) (h : s.get r = some o) : (s.create v).get r = some o := by
  unfold SDoc.get SDoc.create at *
  simp [List.lookup_append, h]

theorem lookup_fresh (l : List (Ref × SdObj)) (r : Ref) (h : ∀ p ∈ l, p.1 ≠ r) : l.lookup r = none := by
  rw [List.lookup_eq_none_iff]
  intro p hp
  simp
  exact fun e => h p hp e.symm

theorem get_create_new (s : SDoc) (v : Var) (hn : ∀ p ∈ s.objs, p.1 ≠ ⟨s.next, 0⟩) : (s.create v).get ⟨s.next, 0⟩ = some ⟨v, .none, [], false⟩ := by
  unfold SDoc.get SDoc.create
  simp [List.lookup_append, lookup_fresh _ _ hn]

theorem put_objs_keys (s : SDoc) (r : Ref) (o : SdObj) (q : Ref) (h : ∀ p ∈ s.objs, p.1 ≠ q) : ∀ p ∈ (s.put r o).objs, p.1 ≠ q := by
  intro p hp
  simp only [SDoc.put, List.mem_map] at hp
  obtain ⟨x, hx, rfl⟩ := hp
  by_cases e : x.1 = r
  · rw [if_pos e]; exact e ▸ h x hx
  · rw [if_neg e]; exact h x hx

theorem writeObject_opened (opts : SaveOpts) (s : SDoc) (r : Ref) (o : SdObj) : (s.writeObject opts r o).2.opened = s.opened := by
  have hf : s.finishLast.opened = s.opened := by unfold SDoc.finishLast; split <;> rfl
  unfold SDoc.writeObject
  split
  · rfl
  · simp only
    split
    · exact hf
    · split <;> exact hf

theorem call_opened (flate : Filt) (opts : SaveOpts) (s : SDoc) (c : SCall) (h : s.opened = true) : (s.call flate opts c).opened = true := by
  cases c with
  | create v => exact h
  | makeStream r =>
    simp only [SDoc.call, SDoc.makeStream]
    repeat' split
    all_goals first | exact h | skip
    all_goals (rename_i hc; exact absurd h hc)
  | write r fs data =>
    simp only [SDoc.call, SDoc.writeStream]
    split
    · exact h
    · split
      · exact h
      · split
        · have ho := fun o => writeObject_opened opts { s with opened := true } r o
          split
          · next e s1 he => have h2 := congrArg (fun x => x.2.opened) he; exact h2.symm.trans (ho _)
          · next s1 he =>
            have h2 := congrArg (fun x => x.2.opened) he
            have ho : s1.opened = true := h2.symm.trans (ho _)
            split
            · exact ho
            · split <;> exact ho
        · split <;> exact h
        · exact h

/-- **C188, one stream only.** Once a stream was opened for the file, the writer stays marked whatever the program does, and every stream made later is in memory. -/
theorem C188_memory_false (flate : Filt) (opts : SaveOpts) (s : SDoc) (cs : List SCall) (h : s.opened = true) (r : Ref) (d : FDict)
    (hr : Spec.PlainDictObj (s.calls flate opts cs) r d) : (s.calls flate opts cs).opened = true ∧
    ((s.calls flate opts cs).makeStream r).1 = .ok () ∧ (((s.calls flate opts cs).makeStream r).2.get r) = some ⟨.dict d, .mem [], [], false⟩ := by
  have ho : (s.calls flate opts cs).opened = true := by
    unfold SDoc.calls
    clear hr
    induction cs generalizing s with
    | nil => exact h
    | cons c cs ih => exact ih _ (call_opened flate opts s c h)
  unfold Spec.PlainDictObj at hr
  refine ⟨ho, ?_, ?_⟩
  · simp only [SDoc.makeStream, hr, ho, if_true]
  · simp only [SDoc.makeStream, hr, ho, if_true]
    exact get_put_self _ _ _ _ hr

theorem makeStream_file (s : SDoc) (r : Ref) (d : FDict) (h : Spec.PlainDictObj s r d) (ho : s.opened = false) (hn : Spec.FreshNext s) :
    ∃ s', s.makeStream r = (.ok (), s') ∧ s'.file = s.file ∧ s'.last = s.last ∧ s'.opened = false ∧ s'.xref = s.xref ∧
      s'.get r = some ⟨.dict (SMap.insert kLength (.ref s.next 0) d), .file 0 ⟨s.next, 0⟩, [], false⟩ ∧ s'.get ⟨s.next, 0⟩ = some ⟨.num 0, .none, [], false⟩ ∧ r ≠ ⟨s.next, 0⟩ := by
  unfold Spec.PlainDictObj at h
  have hr : r ≠ ⟨s.next, 0⟩ := by
    intro e
    have := lookup_fresh s.objs r (by rw [e]; exact hn)
    unfold SDoc.get at h
    rw [this] at h
    cases h
  refine ⟨(s.put r ⟨.dict (SMap.insert kLength (.ref s.next 0) d), .file 0 ⟨s.next, 0⟩, [], false⟩).create (.num 0),
    by simp only [SDoc.makeStream, h, ho, Bool.false_eq_true, if_false], rfl, rfl, ho, rfl, ?_, ?_, hr⟩
  · exact get_create _ _ _ _ (get_put_self _ _ _ _ h)
  · exact get_create_new (s.put r _) _ (put_objs_keys _ _ _ _ hn)

/-- **C188, with the default options.** As long as no stream was opened: whatever is written to a new stream of the document, by whatever filters, is refused; the file
gets the line that begins the object and nothing of the data, and the stream stays locked for good. -/
theorem C188_default_false (flate : Filt) (opts : SaveOpts) (hc : opts.noCompress = false) (s : SDoc) (hl : s.last = none) (ho : s.opened = false) (hn : Spec.FreshNext s)
    (r : Ref) (d : FDict) (h : Spec.PlainDictObj s r d) (fs fs' : List FilterName) (data data' : Bytes) :
    ∃ s1 s2, s.makeStream r = (.ok (), s1) ∧ s1.writeStream flate opts r fs data = (raise .NotImplemented, s2) ∧ s2.file = s.file ++ objHeader opts r ∧
      s2.writeStream flate opts r fs' data' = (raise .InternalLogic, s2) := by
  obtain ⟨s1, e1, e2, e3, e4, e5, e6, e7, e8⟩ := makeStream_file s r d h ho hn
  rw [hl] at e3
  have hw : s1.writeStream flate opts r fs data = (raise .NotImplemented,
      ({ s1 with opened := true, xref := s1.xref ++ [(r, s1.file.length)], file := s1.file ++ objHeader opts r }.put r
        ⟨.dict (SMap.insert kLength (.ref s.next 0) d), .file 0 ⟨s.next, 0⟩, [], true⟩)) := by
    simp [SDoc.writeStream, e6, SDoc.writeObject, e3, hc, SDoc.finishLast, raise]
  refine ⟨s1, _, e1, hw, by simp [SDoc.put, e2], ?_⟩
  have hg : ({ s1 with opened := true, xref := s1.xref ++ [(r, s1.file.length)], file := s1.file ++ objHeader opts r }.put r
        ⟨.dict (SMap.insert kLength (.ref s.next 0) d), .file 0 ⟨s.next, 0⟩, [], true⟩ : SDoc).get r = some ⟨.dict (SMap.insert kLength (.ref s.next 0) d), .file 0 ⟨s.next, 0⟩, [], true⟩ :=
    get_put_self _ _ _ _ e6
  simp only [SDoc.writeStream, hg, if_true]

/-- What a write to a new stream of the file leaves, when nothing is compressed. -/
theorem write_file (flate : Filt) (opts : SaveOpts) (hc : opts.noCompress = true) (s : SDoc) (hl : s.last = none) (ho : s.opened = false) (hn : Spec.FreshNext s)
    (r : Ref) (d : FDict) (h : Spec.PlainDictObj s r d) (fs : List FilterName) (data tx : Bytes) (htx : encodePieces flate fs [data] = .ok tx)
    (d' : FDict) (hd' : setFilterKey (SMap.insert kLength (.ref s.next 0) d) fs = .ok d') (t : Bytes)
    (ht : writeVar opts.flags (.dict (SMap.insert kLength (.ref s.next 0) d)) = .ok t) :
    ∃ s1 s2, s.makeStream r = (.ok (), s1) ∧ s1.writeStream flate opts r fs data = (.ok (), s2) ∧
      s2.file = s.file ++ (objHeader opts r ++ (t ++ (10 :: tStream ++ tx))) ∧ s2.xref = s.xref ++ [(r, s.file.length)] ∧ s2.last = some r ∧
      s2.get ⟨s.next, 0⟩ = some ⟨.num tx.length, .none, [], false⟩ ∧ (∃ o, s2.get r = some o ∧ o.locked = false ∧ ∃ n, o.prov = .file n ⟨s.next, 0⟩ ∧ o.val = .dict d') := by
  obtain ⟨s1, e1, e2, e3, e4, e5, e6, e7, e8⟩ := makeStream_file s r d h ho hn
  rw [hl] at e3
  have hw : ({ s1 with opened := true } : SDoc).writeObject opts r ⟨.dict (SMap.insert kLength (.ref s.next 0) d), .file 0 ⟨s.next, 0⟩, [], false⟩ =
      (.ok (), { s1 with opened := true, xref := s1.xref ++ [(r, s1.file.length)], file := s1.file ++ (objHeader opts r ++ (t ++ (10 :: tStream))), last := some r }) := by
    simp only [SDoc.writeObject, e3, hc, SDoc.finishLast, writePlain, ht]
    rw [if_neg (by simp), if_neg (by simp)]
    have hlen : (s1.file ++ (objHeader opts r ++ (t ++ 10 :: tEndObj))).length - 7 = (s1.file ++ (objHeader opts r ++ (t ++ [10]))).length := by
      simp [tEndObj]; omega
    have hsplit : s1.file ++ (objHeader opts r ++ (t ++ 10 :: tEndObj)) = (s1.file ++ (objHeader opts r ++ (t ++ [10]))) ++ tEndObj := by simp
    rw [hlen, hsplit, List.take_left]
    simp
  refine ⟨s1, _, e1, by simp [SDoc.writeStream, e6, hw, htx, hd']; rfl, by simp [SDoc.put, e2], by simp [SDoc.put, e2, e5], rfl, ?_, ?_⟩
  · rw [get_put_self _ _ _ ⟨.num 0, .none, [], false⟩]
    rw [get_put_ne _ _ _ _ (Ne.symm e8)]
    exact e7
  · refine ⟨⟨.dict d', .file tx.length ⟨s.next, 0⟩, fs, false⟩, ?_, rfl, _, rfl, rfl⟩
    rw [get_put_ne _ _ _ _ e8]
    exact lookup_map_self s1.objs r _ _ e6

theorem setFilterKey_nil (d : FDict) : setFilterKey d [] = .ok (SMap.erase kFilter d) := rfl

/-- **C188, raw data without compression.** As long as no stream was opened, and compression is turned off: what is written raw to a new stream is in the file, in one whole
object once the object is finished; the table has where it begins, and the object for its length the number of bytes. -/
theorem C188_raw_partial (flate : Filt) (opts : SaveOpts) (hc : opts.noCompress = true) (s : SDoc) (hl : s.last = none) (ho : s.opened = false) (hn : Spec.FreshNext s)
    (r : Ref) (d : FDict) (h : Spec.PlainDictObj s r d) (data t : Bytes) (ht : writeVar opts.flags (.dict (SMap.insert kLength (.ref s.next 0) d)) = .ok t) :
    ∃ s1 s2, s.makeStream r = (.ok (), s1) ∧ s1.writeStream flate opts r [] data = (.ok (), s2) ∧
      s2.finishLast.file = s.file ++ (objHeader opts r ++ (t ++ (litBytes "\nstream\n" ++ data ++ litBytes "\nendstream\nendobj\n"))) ∧
      (r, s.file.length) ∈ s2.finishLast.xref ∧ s2.finishLast.get ⟨s.next, 0⟩ = some ⟨.num data.length, .none, [], false⟩ := by
  obtain ⟨s1, s2, e1, e2, e3, e4, e5, e6, e7⟩ := write_file flate opts hc s hl ho hn r d h [] data data (by simp [encodePieces]) _ (setFilterKey_nil _) t ht
  refine ⟨s1, s2, e1, e2, ?_, ?_, ?_⟩
  · have a1 : litBytes "\nstream\n" = 10 :: tStream := by decide
    have a2 : litBytes "\nendstream\nendobj\n" = tEndStream ++ tEndObj := by decide
    simp only [SDoc.finishLast, e5, e3, a1, a2]
    simp
  · simp only [SDoc.finishLast, e5, e4]; simp
  · simp only [SDoc.finishLast, e5]
    have hr : r ≠ ⟨s.next, 0⟩ := by
      intro e
      unfold Spec.PlainDictObj SDoc.get at h
      rw [lookup_fresh s.objs r (by rw [e]; exact hn)] at h
      cases h
    unfold SDoc.get at e6 ⊢
    rw [← e6]
    simp only
    generalize s2.objs = l
    clear e6
    induction l with
    | nil => rfl
    | cons p l ih =>
      by_cases hp : p.1 = r
      · have hf : (⟨s.next, 0⟩ == p.1) = false := by simp; rw [hp]; exact Ne.symm hr
        rw [List.filter_cons, if_neg (by simp [hp]), List.lookup_cons, hf, ih]
      · rw [List.filter_cons, if_pos (by simp [hp]), List.lookup_cons, List.lookup_cons, ih]

/-- **C188, data through a filter.** As long as no stream was opened, and compression is turned off: what is written through any filters is in the file encoded, while the
dictionary in the file says nothing of a filter; only the object in memory does. -/
theorem C188_filter_false (flate : Filt) (hfl : RoundTrips flate.enc flate.dec) (opts : SaveOpts) (hc : opts.noCompress = true) (s : SDoc) (hl : s.last = none)
    (ho : s.opened = false) (hn : Spec.FreshNext s) (r : Ref) (d : FDict) (hs : SMap.Sorted d) (h : Spec.PlainDictObj s r d) (hf : SMap.find? kFilter d = none)
    (f : FilterName) (fs : List FilterName) (hfs : ∀ g ∈ f :: fs, Spec.Encodable g) (data t : Bytes)
    (ht : writeVar opts.flags (.dict (SMap.insert kLength (.ref s.next 0) d)) = .ok t) :
    ∃ s1 s2 tx dw dm, s.makeStream r = (.ok (), s1) ∧ s1.writeStream flate opts r (f :: fs) data = (.ok (), s2) ∧ encodePieces flate (f :: fs) [data] = .ok tx ∧
      writeVar opts.flags (.dict dw) = .ok t ∧ SMap.find? kFilter dw = none ∧ s2.file = s.file ++ (objHeader opts r ++ (t ++ (10 :: tStream ++ tx))) ∧
      (∃ o, s2.get r = some o ∧ o.val = .dict dm) ∧ SMap.find? kFilter dm ≠ none := by
  obtain ⟨tx, htx, -⟩ := encodePieces_ok flate hfl (f :: fs) hfs [data]
  have hsl : SMap.Sorted (SMap.insert kLength (.ref s.next 0) d) := SMap.sorted_insert _ _ _ hs
  obtain ⟨d', hd', hfe, -⟩ := setFilterKey_ok (SMap.insert kLength (.ref s.next 0) d) hsl (f :: fs)
    (fun g hg => by rcases hfs g hg with h | h | h <;> subst h <;> exact ⟨_, rfl⟩)
  obtain ⟨s1, s2, e1, e2, e3, e4, e5, e6, o, e7, e8, n, e9, e10⟩ := write_file flate opts hc s hl ho hn r d h (f :: fs) data tx htx d' hd' t ht
  refine ⟨s1, s2, tx, _, d', e1, e2, htx, ht, ?_, e3, ⟨o, e7, e10⟩, ?_⟩
  · rw [SMap.find_insert_ne _ _ (by decide)]; exact hf
  · intro hnone
    obtain ⟨names, h1, h2⟩ := hfe
    rw [hnone] at h2
    match names, h1, h2 with
    | [], h1, _ => simp at h1
    | [_], _, h2 => simp at h2
    | _ :: _ :: _, _, h2 => simp at h2

/-- **C188, closing.** Whatever the program did, closing the document ends in an error. -/
theorem C188_close_false (flate : Filt) (opts : SaveOpts) (tail : List (Ref × Nat) → Nat → Bytes) (s : SDoc) : (s.close flate opts tail).1 ≠ .ok () := by
  unfold SDoc.close
  split
  · simp
  · simp [raise]

/-- **C188, writing twice.** As long as no stream was opened, and compression is turned off: a second write to the stream just written uses an object that was freed. -/
theorem C188_again_false (flate : Filt) (opts : SaveOpts) (hc : opts.noCompress = true) (s : SDoc) (hl : s.last = none) (ho : s.opened = false) (hn : Spec.FreshNext s)
    (r : Ref) (d : FDict) (h : Spec.PlainDictObj s r d) (data t : Bytes) (ht : writeVar opts.flags (.dict (SMap.insert kLength (.ref s.next 0) d)) = .ok t)
    (fs : List FilterName) (data' : Bytes) :
    ∃ s1 s2, s.makeStream r = (.ok (), s1) ∧ s1.writeStream flate opts r [] data = (.ok (), s2) ∧ (s2.writeStream flate opts r fs data').1 = .error .ub := by
  obtain ⟨s1, s2, e1, e2, e3, e4, e5, e6, o, e7, e8, n, e9, e10⟩ := write_file flate opts hc s hl ho hn r d h [] data data (by simp [encodePieces]) _ (setFilterKey_nil _) t ht
  refine ⟨s1, s2, e1, e2, ?_⟩
  simp [SDoc.writeStream, e7, e8, e9, e10, SDoc.writeObject, e5]

/-- What holds of every document a program can have made. -/
def SInv (s : SDoc) : Prop := (s.opened = false → s.last = none) ∧ ∀ p ∈ s.objs, p.1.num < s.next

theorem sinv_put {s : SDoc} (h : SInv s) (r : Ref) (o : SdObj) : SInv (s.put r o) := by
  refine ⟨h.1, fun p hp => ?_⟩
  simp only [SDoc.put, List.mem_map] at hp
  obtain ⟨x, hx, rfl⟩ := hp
  by_cases e : x.1 = r
  · rw [if_pos e]; exact e ▸ h.2 x hx
  · rw [if_neg e]; exact h.2 x hx

theorem sinv_create {s : SDoc} (h : SInv s) (v : Var) : SInv (s.create v) := by
  refine ⟨h.1, fun p hp => ?_⟩
  simp only [SDoc.create, List.mem_append, List.mem_singleton] at hp ⊢
  rcases hp with hp | rfl
  · have := h.2 p hp; omega
  · simp

theorem finishLast_objs (s : SDoc) : s.finishLast.next = s.next ∧ ∀ p ∈ s.finishLast.objs, p ∈ s.objs := by
  unfold SDoc.finishLast
  split
  · exact ⟨rfl, fun p hp => hp⟩
  · exact ⟨rfl, fun p hp => (List.mem_filter.1 hp).1⟩

theorem sinv_writeObject (opts : SaveOpts) {s : SDoc} (h : SInv s) (ho : s.opened = true) (r : Ref) (o : SdObj) : SInv (s.writeObject opts r o).2 := by
  have hop := writeObject_opened opts s r o
  obtain ⟨f1, f2⟩ := finishLast_objs s
  have hb : ∀ p ∈ s.finishLast.objs, p.1.num < s.finishLast.next := fun p hp => by rw [f1]; exact h.2 p (f2 p hp)
  have hb2 : ∀ f x l, SInv ⟨f, s.finishLast.opened, l, s.finishLast.objs, s.finishLast.next, x⟩ := by
    intro f x l
    refine ⟨fun hf => ?_, hb⟩
    have : s.finishLast.opened = s.opened := by unfold SDoc.finishLast; split <;> rfl
    simp only [this, ho] at hf
    cases hf
  unfold SDoc.writeObject
  split
  · exact h
  · simp only
    split
    · exact sinv_put (hb2 _ _ _) r _
    · split
      · exact hb2 _ _ _
      · exact hb2 _ _ _

theorem sinv_call (flate : Filt) (opts : SaveOpts) {s : SDoc} (h : SInv s) (c : SCall) : SInv (s.call flate opts c) := by
  cases c with
  | create v => exact sinv_create h v
  | makeStream r =>
    simp only [SDoc.call, SDoc.makeStream]
    repeat' split
    all_goals first | exact h | exact sinv_put h _ _ | exact sinv_create (sinv_put h _ _) _
  | write r fs data =>
    simp only [SDoc.call, SDoc.writeStream]
    split
    · exact h
    · split
      · exact h
      · split
        · have h1 : SInv { s with opened := true } := ⟨fun h => by simp at h, h.2⟩
          have ho := fun o => sinv_writeObject opts h1 rfl r o
          split
          · next e s1 he => exact (congrArg (fun x => x.2) he) ▸ ho _
          · next s1 he =>
            have h3 := congrArg (fun x => x.2) he
            simp only at h3
            have h2 : SInv s1 := h3 ▸ ho _
            split
            · exact h2
            · split
              · exact h2
              · exact sinv_put (sinv_put (s := { s1 with file := _ }) h2 _ _) _ _
        · split <;> exact sinv_put h _ _
        · exact h

/-- Every document a program can have made with no stream opened meets the conditions of the theorems above. -/
theorem streamed_reach (flate : Filt) (opts : SaveOpts) (header : Bytes) (cs : List SCall) :
    let s := (SDoc.start header).calls flate opts cs
    (s.opened = false → s.last = none) ∧ Spec.FreshNext s := by
  have h : SInv ((SDoc.start header).calls flate opts cs) := by
    unfold SDoc.calls
    have h0 : SInv (SDoc.start header) := ⟨fun _ => rfl, fun p hp => by cases hp⟩
    revert h0
    generalize SDoc.start header = s
    induction cs generalizing s with
    | nil => exact id
    | cons c cs ih => exact fun h => ih _ (sinv_call flate opts h c)
  refine ⟨h.1, fun p hp e => ?_⟩
  have := h.2 p hp
  rw [e] at this
  simp at this

/-- Not vacuous: a new document with one dictionary. -/
example : Spec.PlainDictObj ((SDoc.start (litBytes "%PDF-1.4\n")).create (.dict [(litBytes "Type", .name (litBytes "XObject"))])) ⟨1, 0⟩ [(litBytes "Type", .name (litBytes "XObject"))] ∧
    Spec.FreshNext ((SDoc.start (litBytes "%PDF-1.4\n")).create (.dict [(litBytes "Type", .name (litBytes "XObject"))])) ∧
    ((SDoc.start (litBytes "%PDF-1.4\n")).create (.dict [(litBytes "Type", .name (litBytes "XObject"))])).opened = false := by
  refine ⟨rfl, ?_, rfl⟩
  intro p hp
  simp [SDoc.start, SDoc.create] at hp
  subst hp
  decide

end Pdfmm
