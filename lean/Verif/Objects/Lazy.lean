import Verif.Document.Annots
/-
C183: objects read on demand from a file: loading, freeing, assigning and moving them.
-/
set_option autoImplicit false
namespace Pdfmm

def kLzLength : Bytes := litBytes "Length"
def kLzFilter : Bytes := litBytes "Filter"

/-- What a file holds at the place of an object: its value (or the error parsing it raises), whether the keyword `stream` follows, the bytes after it and
the numbers indirect lengths stand for (`src/pdfmm/base/PdfParserObject.cpp:111-155`).  Simplified: what indirect lengths stand for does not change. -/
structure FileObj where
  value : Res Var
  hasStream : Bool
  rest : Bytes
  lenOf : Nat → Nat → Res Int

/-- The size as `InitData` takes it: a negative number becomes a huge `size_t`, and the copy ends with the file
(`src/pdfmm/base/PdfParserObject.cpp:243`, `src/pdfmm/base/PdfInputStream.cpp:89-103`). -/
def FileObj.size (f : FileObj) (n : Int) : Nat := if n < 0 then f.rest.length else n.toNat

/-- The length of the stream, from the dictionary the object has now (`src/pdfmm/base/PdfParserObject.cpp:168-170`). -/
def FileObj.len (f : FileObj) (v : Var) : Res Int :=
  match v with
  | .dict d =>
    match SMap.find? kLzLength d with
    | none => raise .NoObject
    | some (.num n) => .ok n
    | some (.ref n g) => f.lenOf n g
    | some _ => raise .InvalidStreamLength
  | _ => raise .InvalidDataType

/-- `PdfParserObject::parseStream`, `src/pdfmm/base/PdfParserObject.cpp:161-245`.  Simplified: the bytes kept in `rest` start after the line end, there is
no encryption and the filters named are known. -/
def FileObj.data (f : FileObj) (v : Var) : Res Bytes :=
  match f.len v with
  | .error e => .error e
  | .ok n => .ok (f.rest.take (f.size n))

/-- A stream: its raw bytes and the object it takes for its owner (`src/pdfmm/base/PdfObjectStream.h:236-240`). -/
structure LStr where
  data : Bytes
  parent : Nat
  deriving DecidableEq

/-- An object (`src/pdfmm/base/PdfObject.h:519-529`); `src` is there for a `PdfParserObject`.  Simplified: every object is indirect. -/
structure LObj where
  src : Option FileObj
  var : Var
  str : Option LStr
  loaded : Bool
  strLoaded : Bool
  dirty : Bool

/-- The objects of a program, by the place they have in memory. -/
abbrev LzState := Nat → LObj

def LzState.set (s : LzState) (i : Nat) (o : LObj) : LzState := fun k => if k = i then o else s k

/-- A `PdfParserObject` nobody has looked at (`src/pdfmm/base/PdfParserObject.cpp:38-56`). -/
def FileObj.fresh (f : FileObj) : LObj := ⟨some f, .null, none, false, false, false⟩

/-- A plain `PdfObject` holding `v` (`src/pdfmm/base/PdfObject.cpp:28-36`, `src/pdfmm/base/PdfObject.cpp:199-206`). -/
def plainObj (v : Var) : LObj := ⟨none, v, none, true, true, false⟩

/-- `PdfObject::DelayedLoad`, `src/pdfmm/base/PdfObject.cpp:161-176`, with `PdfParserObject::DelayedLoadImpl`, `src/pdfmm/base/PdfParserObject.cpp:71-79`. -/
def LObj.load (o : LObj) : Res LObj :=
  if o.loaded then .ok o
  else match o.src with
    | none => raise .InternalLogic
    | some f => match f.value with
      | .error e => .error e
      | .ok v => .ok { o with var := v, loaded := true }

/-- `PdfObject::delayedLoadStream`, `src/pdfmm/base/PdfObject.cpp:354-361`, with `PdfParserObject::DelayedLoadStreamImpl`,
`src/pdfmm/base/PdfParserObject.cpp:81-100`. -/
def LObj.loadStr' (o : LObj) (i : Nat) : Res LObj :=
  if o.strLoaded then .ok o
  else match o.src with
    | none => raise .InternalLogic
    | some f =>
      if f.hasStream then
        match f.data o.var with
        | .error e => .error e
        | .ok b => .ok { o with str := some ⟨b, i⟩, strLoaded := true }
      else .ok { o with strLoaded := true }

/-- `PdfObject::DelayedLoadStream`, `src/pdfmm/base/PdfObject.cpp:348-352`. -/
def LObj.loadStr (o : LObj) (i : Nat) : Res LObj :=
  match o.load with
  | .error e => .error e
  | .ok o' => o'.loadStr' i

/-- What a call shows. -/
inductive LObs
  | val (v : Var)
  | data (b : Option Bytes)
  | done

/-- `GetVariant` and the other readers, `src/pdfmm/base/PdfObject.cpp:523-533`. -/
def LzState.read (s : LzState) (i : Nat) : LzState × Res LObs :=
  match (s i).load with
  | .error e => (s, .error e)
  | .ok o => (s.set i o, .ok (.val o.var))

/-- `HasStream` and the raw data of `GetStream`, `src/pdfmm/base/PdfObject.cpp:122-132` and `src/pdfmm/base/PdfObject.cpp:312-316`. -/
def LzState.stream (s : LzState) (i : Nat) : LzState × Res LObs :=
  match (s i).loadStr i with
  | .error e => (s, .error e)
  | .ok o => (s.set i o, .ok (.data (o.str.map (·.data))))

/-- `SetNumber` and its like, and a change of the dictionary of the object, `src/pdfmm/base/PdfObject.cpp:706-746`, `src/pdfmm/base/PdfDictionary.cpp:96-103`. -/
def LzState.setVal (s : LzState) (i : Nat) (v : Var) : LzState × Res LObs :=
  match (s i).load with
  | .error e => (s, .error e)
  | .ok o => (s.set i { o with var := v, dirty := true }, .ok .done)

/-- `PdfDictionary::RemoveKey(/Filter)` on an object, `src/pdfmm/base/PdfDictionary.cpp:179-188`: a dictionary without the key is not marked. -/
def LObj.dropFilter (o : LObj) : Res LObj :=
  match o.var with
  | .dict d =>
    match SMap.find? kLzFilter d with
    | none => .ok o
    | some _ => .ok { o with var := .dict (SMap.erase kLzFilter d), dirty := true }
  | _ => .error .exn

/-- The new data put into the stream, and what the output stream does at its end (`src/pdfmm/base/PdfObjectStream.cpp:422-460`): the owner of the stream
loses /Filter.  The error there leaves a destructor: the program ends, `.exn`. -/
def LzState.putData (s : LzState) (i : Nat) (st : LStr) (b : Bytes) : LzState × Res LObs :=
  let s₁ := s.set i { s i with str := some { st with data := b } }
  match (s₁ st.parent).dropFilter with
  | .error e => (s₁, .error e)
  | .ok o => (s₁.set st.parent o, .ok .done)

/-- `getOrCreateStream`, `src/pdfmm/base/PdfObject.cpp:318-341`. -/
def LObj.orCreate (o : LObj) (i : Nat) : Res LStr :=
  match o.str with
  | some st => .ok st
  | none => match o.var with
    | .dict _ => .ok ⟨[], i⟩
    | _ => raise .InvalidDataType

/-- `GetOrCreateStream().SetData(buffer, true)`, `src/pdfmm/base/PdfObjectStream.cpp:267-275` and `src/pdfmm/base/PdfObjectStream.cpp:353-367`. -/
def LzState.setData (s : LzState) (i : Nat) (b : Bytes) : LzState × Res LObs :=
  match (s i).loadStr i with
  | .error e => (s, .error e)
  | .ok o => match o.orCreate i with
    | .error e => (s.set i o, .error e)
    | .ok st =>
      let s₁ := s.set i { o with str := some st }
      (s₁.set st.parent { s₁ st.parent with dirty := true }).putData i st b

/-- `GetOrCreateStream().GetOutputStreamRaw()`, the bytes written and the output stream closed, `src/pdfmm/base/PdfObjectStream.cpp:34-38`. -/
def LzState.outRaw (s : LzState) (i : Nat) (b : Bytes) : LzState × Res LObs :=
  match (s i).loadStr i with
  | .error e => (s, .error e)
  | .ok o => match o.orCreate i with
    | .error e => (s.set i o, .error e)
    | .ok st => (s.set i { o with str := some st }).putData i st b

/-- `PdfVariant::operator=(const PdfVariant&)` with itself: what `clear` deletes is read again for all but the simple types
(`src/pdfmm/base/PdfVariant.cpp:120-143`, `src/pdfmm/base/PdfVariant.cpp:240-245`). -/
def Var.heaped : Var → Bool
  | .str .. | .name .. | .arr .. | .dict .. => true
  | _ => false

/-- `copyStreamFrom`, `src/pdfmm/base/PdfObject.cpp:380-390`: `o` has got the value of the source, `src` is the source with its value loaded.  Simplified:
/Filter and /DecodeParms are direct entries, so that copying them changes nothing. -/
def LObj.copyStr (o src : LObj) (i : Nat) : Res LObj :=
  match src.str with
  | none => .ok o
  | some st => match o.orCreate i with
    | .error e => .error e
    | .ok t => .ok { o with str := some { t with data := st.data } }

/-- `PdfObject::operator=(const PdfObject&)`, `src/pdfmm/base/PdfObject.cpp:366-371` and `src/pdfmm/base/PdfObject.cpp:432-440`. -/
def LzState.assign (s : LzState) (i j : Nat) : LzState × Res LObs :=
  match (s j).load with
  | .error e => (s, .error e)
  | .ok oj =>
    if i = j ∧ oj.var.heaped = true then (s, .error .ub)
    else
      let s₁ := s.set j oj
      let s₂ := s₁.set i { s₁ i with var := oj.var, loaded := true }
      match (s₂ j).loadStr' j with
      | .error e => (s₂, .error e)
      | .ok oj' =>
        let s₃ := s₂.set j oj'
        match (s₃ i).copyStr oj' i with
        | .error e => (s₃, .error e)
        | .ok oi => (s₃.set i { oi with strLoaded := true, dirty := true }, .ok .done)

/-- The error leaves a function marked `noexcept`: the program ends. -/
def noexc {α : Type} : Res α → Res α
  | .error (.error _) => .error .exn
  | r => r

/-- `PdfObject::operator=(PdfObject&&)`, `src/pdfmm/base/PdfObject.cpp:373-378`, `src/pdfmm/base/PdfObject.cpp:392-396` and
`src/pdfmm/base/PdfObject.cpp:444-452`, of two different objects; the value moved from becomes null (`src/pdfmm/base/PdfVariant.cpp:247-255`). -/
def LzState.move (s : LzState) (i j : Nat) : LzState × Res LObs :=
  match (s j).load with
  | .error e => (s, noexc (.error e))
  | .ok oj =>
    let s₁ := s.set i { s i with var := oj.var, loaded := true }
    match ({ oj with var := .null } : LObj).loadStr j with
    | .error e => (s₁.set j { oj with var := .null }, noexc (.error e))
    | .ok oj' =>
      ((s₁.set i { s₁ i with str := oj'.str, strLoaded := true, dirty := true }).set j { oj' with str := none }, .ok .done)

/-- `PdfObject(PdfObject&&)`, `src/pdfmm/base/PdfObject.cpp:113-120`: the value is taken before anything is loaded. -/
def LzState.moveNew (s : LzState) (i j : Nat) : LzState × Res LObs :=
  let oj := s j
  match ({ oj with var := .null } : LObj).loadStr j with
  | .error e => (s.set j { oj with var := .null }, noexc (.error e))
  | .ok oj' => ((s.set i { plainObj oj.var with str := oj'.str }).set j { oj' with str := none }, .ok .done)

/-- `PdfMemDocument::FreeObjectMemory(obj, false)`, `src/pdfmm/base/PdfMemDocument.cpp:333-346` and `src/pdfmm/base/PdfParserObject.cpp:283-294`. -/
def LzState.free (s : LzState) (i : Nat) : LzState × Res LObs :=
  match (s i).src with
  | none => (s, raise .InvalidHandle)
  | some _ =>
    if (s i).dirty then (s, .ok .done)
    else (s.set i { s i with var := .null, str := none, loaded := false, strLoaded := false }, .ok .done)

/-- `ToString` of an object without a stream, `src/pdfmm/base/PdfObject.cpp:542-548`: `Write` marks the object clean at its end
(`src/pdfmm/base/PdfObject.cpp:208-281`).  The text itself is not kept here. -/
def LzState.toText (s : LzState) (i : Nat) : LzState × Res LObs :=
  match (s i).loadStr i with
  | .error e => (s, .error e)
  | .ok o => (s.set i { o with dirty := false }, .ok .done)

/-- A call of the program. -/
inductive LCall
  | read (i : Nat) | stream (i : Nat) | setVal (i : Nat) (v : Var) | setData (i : Nat) (b : Bytes) | outRaw (i : Nat) (b : Bytes)
  | assign (i j : Nat) | free (i : Nat) | toText (i : Nat)

def LzState.call (s : LzState) : LCall → LzState × Res LObs
  | .read i => s.read i
  | .stream i => s.stream i
  | .setVal i v => s.setVal i v
  | .setData i b => s.setData i b
  | .outRaw i b => s.outRaw i b
  | .assign i j => s.assign i j
  | .free i => s.free i
  | .toText i => s.toText i

/-- A program: its calls in turn, with what each shows. -/
def LzState.runCalls (s : LzState) : List LCall → LzState × List (Res LObs)
  | [] => (s, [])
  | c :: cs => (((s.call c).1.runCalls cs).1, (s.call c).2 :: ((s.call c).1.runCalls cs).2)

/-! ### Specification -/
namespace Spec

/-- An object as the user thinks of it: a value and, maybe, stream data. -/
structure LazyObj where
  val : Var
  data : Option Bytes

abbrev LazyObjs := Nat → LazyObj

def LazyObjs.set (s : LazyObjs) (i : Nat) (p : LazyObj) : LazyObjs := fun k => if k = i then p else s k

/-- Data given raw: the dictionary no longer names filters. -/
def unfiltered : Var → Var
  | .dict d => .dict (SMap.erase (litBytes "Filter") d)
  | v => v

/-- What each call ought to do and show; nothing is loaded, freed or marked here. -/
def LazyObjs.call (s : LazyObjs) : LCall → LazyObjs × LObs
  | .read i => (s, .val (s i).val)
  | .stream i => (s, .data (s i).data)
  | .setVal i v => (s.set i ⟨v, (s i).data⟩, .done)
  | .setData i b => (s.set i ⟨unfiltered (s i).val, some b⟩, .done)
  | .outRaw i b => (s.set i ⟨unfiltered (s i).val, some b⟩, .done)
  | .assign i j => (s.set i (s j), .done)
  | .free _ => (s, .done)
  | .toText _ => (s, .done)

def LazyObjs.runCalls (s : LazyObjs) : List LCall → List LObs
  | [] => []
  | c :: cs => (s.call c).2 :: (s.call c).1.runCalls cs

/-- What the file says of an object: a value and, if the keyword follows, the bytes its /Length counts. -/
def FileSays (f : FileObj) (p : LazyObj) : Prop :=
  f.value = .ok p.val ∧
  ((f.hasStream = false ∧ p.data = none) ∨
   (f.hasStream = true ∧ ∃ d n, p.val = .dict d ∧
      ((SMap.find? (litBytes "Length") d = some (.num n)) ∨ (∃ a g, SMap.find? (litBytes "Length") d = some (.ref a g) ∧ f.lenOf a g = .ok n)) ∧
      p.data = some (f.rest.take (if n < 0 then f.rest.length else n.toNat))))

def DictWith (P : FDict → Prop) (v : Var) : Prop := ∃ d, v = .dict d ∧ P d

/-- The calls the library gets right.  `file i` is what the file holds for object `i`, `at₀ i` what it says of it. -/
def LazyFair (file : Nat → Option FileObj) (at₀ s : LazyObjs) : LCall → Prop
  | .read _ | .stream _ => True
  -- the dictionary of a stream keeps its /Length
  | .setVal i v => (s i).data ≠ none →
      DictWith (fun d => DictWith (fun d₀ => SMap.find? (litBytes "Length") d = SMap.find? (litBytes "Length") d₀) (s i).val) v
  | .setData i _ => DictWith (fun _ => True) (s i).val
  -- an object of the file has /Filter
  | .outRaw i _ => DictWith (fun d => file i ≠ none → SMap.find? (litBytes "Filter") d ≠ none) (s i).val
  -- not to itself, and not of an object without a stream to one with
  | .assign i j => i ≠ j ∧ ((s i).data ≠ none → (s j).data ≠ none)
  | .free i => file i ≠ none
  -- no stream, and nothing changed
  | .toText i => (s i).data = none ∧ (file i ≠ none → s i = at₀ i)

/-- Every call of the program is one of those. -/
def LazyFairRun (file : Nat → Option FileObj) (at₀ : LazyObjs) : LazyObjs → List LCall → Prop
  | _, [] => True
  | s, c :: cs => LazyFair file at₀ s c ∧ LazyFairRun file at₀ (s.call c).1 cs

end Spec

/-! ### The library against the specification -/

/-- How an object stands to what the user thinks of it. -/
structure LRel (at₀ : Spec.LazyObj) (i : Nat) (o : LObj) (p : Spec.LazyObj) : Prop where
  unl : o.loaded = false → o.strLoaded = false
  src : ∀ f, o.src = some f → Spec.FileSays f at₀
  mem : o.src = none → o.loaded = true ∧ o.strLoaded = true
  ini : o.loaded = false → p = at₀
  var : o.loaded = true → o.var = p.val
  nos : o.strLoaded = false → o.str = none
  str : o.strLoaded = true → o.str = p.data.map (fun b => ⟨b, i⟩)
  lazyd : ∀ f, o.src = some f → o.strLoaded = false → p.data = at₀.data ∧
    (f.hasStream = true → Spec.DictWith (fun d => Spec.DictWith (fun d₀ => SMap.find? (litBytes "Length") d = SMap.find? (litBytes "Length") d₀) at₀.val) p.val)
  clean : o.dirty = false → o.src ≠ none → p = at₀
  dict : p.data ≠ none → Spec.DictWith (fun _ => True) p.val

theorem fileSays_len {f : FileObj} {p₀ : Spec.LazyObj} {v : Var} (h : Spec.FileSays f p₀) (hs : f.hasStream = true)
    (hv : Spec.DictWith (fun d => Spec.DictWith (fun d₀ => SMap.find? (litBytes "Length") d = SMap.find? (litBytes "Length") d₀) p₀.val) v) :
    ∃ b, p₀.data = some b ∧ f.data v = .ok b := by
  obtain ⟨d, rfl, d₀, hd₀, he⟩ := hv
  rcases h.2 with ⟨h1, _⟩ | ⟨_, d', n, h1, h2, h3⟩
  · rw [h1] at hs; cases hs
  · rw [h1] at hd₀; cases hd₀
    refine ⟨_, h3, ?_⟩
    unfold FileObj.data FileObj.len
    rcases h2 with h2 | ⟨a, g, h2, h4⟩
    · simp [kLzLength, he, h2, FileObj.size]
    · simp [kLzLength, he, h2, h4, FileObj.size]

theorem lrel_load {p₀ p : Spec.LazyObj} {i : Nat} {o : LObj} (h : LRel p₀ i o p) :
    ∃ o', o.load = .ok o' ∧ LRel p₀ i o' p ∧ o'.loaded = true ∧ o'.src = o.src ∧ o'.dirty = o.dirty ∧ o'.strLoaded = o.strLoaded ∧ o'.str = o.str := by
  unfold LObj.load
  cases hl : o.loaded with
  | true => exact ⟨o, by simp, h, hl, rfl, rfl, rfl, rfl⟩
  | false =>
    cases hsrc : o.src with
    | none => rw [(h.mem hsrc).1] at hl; cases hl
    | some f =>
      have hf := h.src f hsrc
      refine ⟨{ o with var := p₀.val, loaded := true }, by simp [hf.1, hsrc], ?_, rfl, hsrc, rfl, rfl, rfl⟩
      have hp := h.ini hl
      exact ⟨by simp, h.src, by simp [hsrc], by simp, by simp [hp], h.nos, h.str, h.lazyd, h.clean, h.dict⟩

theorem lrel_loadStr' {p₀ p : Spec.LazyObj} {i : Nat} {o : LObj} (h : LRel p₀ i o p) (hl : o.loaded = true) :
    ∃ o', o.loadStr' i = .ok o' ∧ LRel p₀ i o' p ∧ o'.loaded = true ∧ o'.strLoaded = true ∧ o'.src = o.src ∧ o'.dirty = o.dirty := by
  unfold LObj.loadStr'
  cases hs : o.strLoaded with
  | true => exact ⟨o, by simp, h, hl, hs, rfl, rfl⟩
  | false =>
    cases hsrc : o.src with
    | none => rw [(h.mem hsrc).2] at hs; cases hs
    | some f =>
      have hf := h.src f hsrc
      have hz := h.lazyd f hsrc hs
      cases hh : f.hasStream with
      | false =>
        have hd : p.data = none := by
          rw [hz.1]
          rcases hf.2 with h1 | h1
          · exact h1.2
          · rw [h1.1] at hh; cases hh
        refine ⟨{ o with strLoaded := true }, by simp [hh, hsrc], ?_, hl, rfl, hsrc, rfl⟩
        exact ⟨by simp [hl], h.src, by simp [hl], h.ini, h.var, by simp, by simp [hd, h.nos hs], by simp, h.clean, h.dict⟩
      | true =>
        obtain ⟨b, hb, hdat⟩ := fileSays_len hf hh (hz.2 hh)
        refine ⟨{ o with str := some ⟨b, i⟩, strLoaded := true }, by simp [hh, h.var hl, hdat, hsrc], ?_, hl, rfl, hsrc, rfl⟩
        exact ⟨by simp [hl], h.src, by simp [hl], h.ini, h.var, by simp, by simp [hz.1, hb], by simp, h.clean, h.dict⟩

theorem lrel_loadStr {p₀ p : Spec.LazyObj} {i : Nat} {o : LObj} (h : LRel p₀ i o p) :
    ∃ o', o.loadStr i = .ok o' ∧ LRel p₀ i o' p ∧ o'.loaded = true ∧ o'.strLoaded = true ∧ o'.src = o.src ∧ o'.dirty = o.dirty := by
  obtain ⟨o₁, h1, h2, h3, h4, h5, _⟩ := lrel_load h
  obtain ⟨o₂, g1, g2, g3, g4, g5, g6⟩ := lrel_loadStr' h2 h3
  exact ⟨o₂, by simp [LObj.loadStr, h1, g1], g2, g3, g4, by rw [g5, h4], by rw [g6, h5]⟩

/-- The states match. -/
def SRel (file : Nat → Option FileObj) (at₀ : Spec.LazyObjs) (s : LzState) (t : Spec.LazyObjs) : Prop :=
  ∀ i, LRel (at₀ i) i (s i) (t i) ∧ (s i).src = file i

theorem srel_set {file : Nat → Option FileObj} {at₀ : Spec.LazyObjs} {s : LzState} {t : Spec.LazyObjs} (h : SRel file at₀ s t) {i : Nat} {o : LObj} {p : Spec.LazyObj}
    (ho : LRel (at₀ i) i o p) (hs : o.src = file i) : SRel file at₀ (s.set i o) (t.set i p) := by
  intro k
  unfold LzState.set Spec.LazyObjs.set
  by_cases hk : k = i
  · subst hk; simpa using ⟨ho, hs⟩
  · simpa [hk] using h k

theorem srel_set_same {file : Nat → Option FileObj} {at₀ : Spec.LazyObjs} {s : LzState} {t : Spec.LazyObjs} (h : SRel file at₀ s t) {i : Nat} {o : LObj}
    (ho : LRel (at₀ i) i o (t i)) (hs : o.src = file i) : SRel file at₀ (s.set i o) t := by
  have := srel_set h ho hs
  have e : t.set i (t i) = t := by funext k; unfold Spec.LazyObjs.set; split <;> simp_all
  rwa [e] at this

theorem LzState.set_self (s : LzState) (i : Nat) (o : LObj) : s.set i o i = o := by simp [LzState.set]
theorem LzState.set_set (s : LzState) (i : Nat) (o o' : LObj) : (s.set i o).set i o' = s.set i o' := by
  funext k; unfold LzState.set; split <;> rfl
theorem LzState.set_other (s : LzState) {i k : Nat} (o : LObj) (h : k ≠ i) : s.set i o k = s k := by simp [LzState.set, h]

/-- An object with new data, matched. -/
theorem lrel_data {p₀ p : Spec.LazyObj} {i : Nat} {o : LObj} {b : Bytes} (h : LRel p₀ i o p) (hl : o.loaded = true) (hs : o.strLoaded = true)
    {d : FDict} (hd : p.val = .dict d) (dirty : Bool) (hdr : dirty = true ∨ o.src = none) :
    LRel p₀ i { o with var := .dict (SMap.erase kLzFilter d), str := some ⟨b, i⟩, dirty := dirty } ⟨Spec.unfiltered p.val, some b⟩ := by
  refine ⟨by simp [hl], h.src, by simp [hl, hs], by simp [hl], by simp [hd, Spec.unfiltered, kLzFilter], by simp [hs], by simp, by simp [hs], ?_, ?_⟩
  · intro h1 h2
    rcases hdr with h3 | h3
    · simp_all
    · exact absurd h3 h2
  · intro _; exact ⟨_, by simp [hd, Spec.unfiltered]; rfl, trivial⟩

theorem lz_erase_absent {k : Bytes} {d : FDict} (h : SMap.find? k d = none) : SMap.erase k d = d := by
  induction d with
  | nil => rfl
  | cons x t ih => simp only [SMap.find?] at h; simp only [SMap.erase]; grind

theorem orCreate_rel {p₀ p : Spec.LazyObj} {i : Nat} {o : LObj} (h : LRel p₀ i o p) (hl : o.loaded = true) (hs : o.strLoaded = true)
    (hd : Spec.DictWith (fun _ => True) p.val) : ∃ b, o.orCreate i = .ok ⟨b, i⟩ := by
  obtain ⟨d, hd, _⟩ := hd
  unfold LObj.orCreate
  rw [h.str hs, h.var hl, hd]
  cases p.data with
  | none => exact ⟨[], rfl⟩
  | some b => exact ⟨b, rfl⟩

theorem putData_eq {s : LzState} {i : Nat} {b b' : Bytes} {d : FDict} (hd : (s i).var = .dict d) :
    s.putData i ⟨b', i⟩ b = (s.set i { s i with var := .dict (SMap.erase kLzFilter d), str := some ⟨b, i⟩, dirty := (s i).dirty || (SMap.find? kLzFilter d).isSome }, .ok .done) := by
  unfold LzState.putData LObj.dropFilter
  simp only [LzState.set_self, hd]
  cases hf : SMap.find? kLzFilter d with
  | none => simp [LzState.set_set, lz_erase_absent hf]
  | some x => simp [LzState.set_set]

theorem call_rel {file : Nat → Option FileObj} {at₀ : Spec.LazyObjs} {s : LzState} {t : Spec.LazyObjs} (h : SRel file at₀ s t) (c : LCall)
    (hc : Spec.LazyFair file at₀ t c) : SRel file at₀ (s.call c).1 (t.call c).1 ∧ (s.call c).2 = .ok (t.call c).2 := by
  cases c with
  | read i =>
    obtain ⟨o, h1, h2, h3, h4, _⟩ := lrel_load (h i).1
    simp only [LzState.call, LzState.read, h1, Spec.LazyObjs.call]
    exact ⟨srel_set_same h h2 (by rw [h4, (h i).2]), by rw [h2.var h3]⟩
  | stream i =>
    obtain ⟨o, h1, h2, h3, h4, h5, _⟩ := lrel_loadStr (h i).1
    simp only [LzState.call, LzState.stream, h1, Spec.LazyObjs.call]
    refine ⟨srel_set_same h h2 (by rw [h5, (h i).2]), ?_⟩
    rw [h2.str h4]; cases (t i).data <;> rfl
  | setVal i v =>
    obtain ⟨o, h1, h2, h3, h4, h5, h6, _⟩ := lrel_load (h i).1
    simp only [LzState.call, LzState.setVal, h1, Spec.LazyObjs.call]
    refine ⟨srel_set h ?_ (by simp [h4, (h i).2]), trivial⟩
    simp only [Spec.LazyFair] at hc
    refine ⟨by simp [h3], h2.src, h2.mem, by simp [h3], by simp, h2.nos, h2.str, ?_, by simp, ?_⟩
    · intro f hf hs
      have hz := h2.lazyd f hf hs
      refine ⟨hz.1, fun hh => ?_⟩
      obtain ⟨b, hb, _⟩ := fileSays_len (h2.src f hf) hh (hz.2 hh)
      obtain ⟨d, rfl, d', hd', he⟩ := hc (by rw [hz.1, hb]; simp)
      obtain ⟨d₂, hd₂, d₀, hd₀, he'⟩ := hz.2 hh
      rw [hd'] at hd₂; cases hd₂
      exact ⟨d, rfl, d₀, hd₀, he.trans he'⟩
    · intro hd
      obtain ⟨d, rfl, _⟩ := hc hd
      exact ⟨d, rfl, trivial⟩
  | setData i b =>
    obtain ⟨o, h1, h2, h3, h4, h5, h6⟩ := lrel_loadStr (h i).1
    obtain ⟨b', hb'⟩ := orCreate_rel h2 h3 h4 hc
    obtain ⟨d, hd, _⟩ := hc
    simp only [LzState.call, LzState.setData, h1, hb', Spec.LazyObjs.call, LzState.set_self, LzState.set_set]
    rw [putData_eq (d := d) (by simp [LzState.set_self, h2.var h3, hd])]
    simp only [LzState.set_self, LzState.set_set, Bool.true_or]
    exact ⟨srel_set h (lrel_data h2 h3 h4 hd true (.inl rfl)) (by simp [h5, (h i).2]), trivial⟩
  | outRaw i b =>
    obtain ⟨o, h1, h2, h3, h4, h5, h6⟩ := lrel_loadStr (h i).1
    obtain ⟨d, hd, hf⟩ := hc
    obtain ⟨b', hb'⟩ := orCreate_rel h2 h3 h4 ⟨d, hd, trivial⟩
    simp only [LzState.call, LzState.outRaw, h1, hb', Spec.LazyObjs.call]
    rw [putData_eq (d := d) (by simp [LzState.set_self, h2.var h3, hd])]
    simp only [LzState.set_self, LzState.set_set]
    refine ⟨srel_set h (lrel_data h2 h3 h4 hd _ ?_) (by simp [h5, (h i).2]), trivial⟩
    cases hi : file i with
    | none => exact .inr (by rw [h5, (h i).2, hi])
    | some f =>
      have := hf (by simp [hi])
      left
      cases hx : SMap.find? kLzFilter d with
      | none => exact absurd hx this
      | some x => simp
  | assign i j =>
    obtain ⟨hne, hd⟩ := hc
    obtain ⟨o, h1, h2, h3, h4, h5, h6, h7⟩ := lrel_load (h j).1
    obtain ⟨o', g1, g2, g3, g4, g5, g6⟩ := lrel_loadStr' h2 h3
    have hji : j ≠ i := fun e => hne e.symm
    simp only [LzState.call, LzState.assign, h1, Spec.LazyObjs.call, hne, false_and, if_false]
    rw [LzState.set_other _ _ hji, LzState.set_self, g1]
    have hi : (s.set j o) i = s i := LzState.set_other _ _ hne
    simp only [LzState.set_other _ _ hne, LzState.set_self]
    have hcopy : ∃ oi, ({ s i with var := o.var, loaded := true } : LObj).copyStr o' i = .ok oi ∧
        oi.src = (s i).src ∧ oi.loaded = true ∧ oi.var = o.var ∧ oi.str = (t j).data.map (fun b => ⟨b, i⟩) := by
      unfold LObj.copyStr
      rw [g2.str g4]
      cases hdj : (t j).data with
      | none =>
        refine ⟨_, rfl, rfl, rfl, rfl, ?_⟩
        have hti : (t i).data = none := by
          cases hti : (t i).data with
          | none => rfl
          | some b => exact absurd hdj (hd (by simp [hti]))
        cases hsi : (s i).strLoaded with
        | false => simp [(h i).1.nos hsi]
        | true => simp [(h i).1.str hsi, hti]
      | some b =>
        have hdict := (h j).1.dict (by simp [hdj])
        obtain ⟨d, hdv, _⟩ := hdict
        have hov : o.var = .dict d := by rw [h2.var h3, hdv]
        have hor : ∃ b', ({ s i with var := o.var, loaded := true } : LObj).orCreate i = .ok ⟨b', i⟩ := by
          unfold LObj.orCreate
          cases hsi : (s i).strLoaded with
          | false => simp [(h i).1.nos hsi, hov]
          | true =>
            rw [(h i).1.str hsi]
            cases (t i).data with
            | none => simp [hov]
            | some b' => exact ⟨b', rfl⟩
        obtain ⟨b', hb'⟩ := hor
        simp only [Option.map_some, hb']
        exact ⟨_, rfl, rfl, rfl, rfl, rfl⟩
    obtain ⟨oi, k1, k2, k3, k4, k5⟩ := hcopy
    rw [k1]
    refine ⟨?_, rfl⟩
    have hbase : SRel file at₀ (s.set j o') t := srel_set_same h g2 (by rw [g5, h4, (h j).2])
    have e : ((((s.set j o).set i { s i with var := o.var, loaded := true }).set j o').set i { oi with strLoaded := true, dirty := true })
        = (s.set j o').set i { oi with strLoaded := true, dirty := true } := by
      funext k; unfold LzState.set; grind
    simp only [e]
    refine srel_set hbase ?_ (by simp [k2, (h i).2])
    refine ⟨by simp [k3], ?_, by simp [k3], by simp [k3], by simp [k4, h2.var h3], by simp, by simp [k5], by simp, by simp, (h j).1.dict⟩
    intro f hf; exact (h i).1.src f (by rw [← k2]; exact hf)
  | free i =>
    simp only [LzState.call, LzState.free, Spec.LazyObjs.call]
    simp only [Spec.LazyFair] at hc
    cases hsrc : (s i).src with
    | none => rw [← (h i).2, hsrc] at hc; exact absurd rfl hc
    | some f =>
      cases hdirty : (s i).dirty with
      | true => simp only [if_true]; exact ⟨h, trivial⟩
      | false =>
        simp only [Bool.false_eq_true, if_false]
        refine ⟨srel_set_same h ?_ (by rw [← (h i).2, hsrc]), trivial⟩
        have hp := (h i).1.clean hdirty (by simp [hsrc])
        refine ⟨by simp, by simpa [hsrc] using (h i).1.src, by simp, fun _ => hp, by simp, by simp, by simp, ?_, fun _ _ => hp, (h i).1.dict⟩
        intro f' hf' _
        replace hf' : (s i).src = some f' := by rw [hsrc]; exact hf'
        refine ⟨by rw [hp], fun hh => ?_⟩
        rcases ((h i).1.src f' hf').2 with h1 | ⟨_, d, n, h1, _⟩
        · rw [h1.1] at hh; cases hh
        · exact ⟨d, by rw [hp]; exact h1, d, h1, rfl⟩
  | toText i =>
    obtain ⟨o, h1, h2, h3, h4, h5, h6⟩ := lrel_loadStr (h i).1
    simp only [LzState.call, LzState.toText, h1, Spec.LazyObjs.call]
    simp only [Spec.LazyFair] at hc
    refine ⟨srel_set_same h ?_ (by simp [h5, (h i).2]), trivial⟩
    refine ⟨h2.unl, h2.src, h2.mem, h2.ini, h2.var, h2.nos, h2.str, h2.lazyd, ?_, h2.dict⟩
    intro _ hs
    exact hc.2 (by rw [← (h i).2, ← h5]; exact hs)

theorem run_rel {file : Nat → Option FileObj} {at₀ : Spec.LazyObjs} (cs : List LCall) : ∀ {s : LzState} {t : Spec.LazyObjs}, SRel file at₀ s t →
    Spec.LazyFairRun file at₀ t cs → (s.runCalls cs).2 = (t.runCalls cs).map .ok := by
  induction cs with
  | nil => intros; rfl
  | cons c cs ih =>
    intro s t h hf
    have hc := call_rel h c hf.1
    simp only [LzState.runCalls, Spec.LazyObjs.runCalls, List.map_cons]
    rw [hc.2, ih hc.1 hf.2]

/-- Objects of a file not looked at yet, and objects made by the program. -/
def startState (file : Nat → Option FileObj) (made : Nat → Var) : LzState := fun i =>
  match file i with
  | some f => f.fresh
  | none => plainObj (made i)

/-- **C183.** The objects of a file, none looked at yet, and objects the program made: whatever the program reads, changes, assigns or frees with the calls
listed in `Spec.LazyFair`, in any order, every call shows what it would show had the whole file been read at once and nothing ever been freed. -/
theorem C183_lazy_partial (file : Nat → Option FileObj) (made : Nat → Var) (at₀ : Spec.LazyObjs)
    (hfile : ∀ i f, file i = some f → Spec.FileSays f (at₀ i)) (hmade : ∀ i, file i = none → at₀ i = ⟨made i, none⟩)
    (cs : List LCall) (hf : Spec.LazyFairRun file at₀ at₀ cs) :
    ((startState file made).runCalls cs).2 = (at₀.runCalls cs).map .ok := by
  apply run_rel cs _ hf
  intro i
  unfold startState
  cases hi : file i with
  | none =>
    have hm := hmade i hi
    refine ⟨⟨by simp [plainObj], by simp [plainObj], by simp [plainObj], by simp [plainObj], by simp [plainObj, hm], by simp [plainObj],
      by simp [plainObj, hm], by simp [plainObj], by simp [plainObj], by simp [hm]⟩, rfl⟩
  | some f =>
    have hfs := hfile i f hi
    refine ⟨⟨by simp [FileObj.fresh], ?_, by simp [FileObj.fresh], by simp, by simp [FileObj.fresh], by simp [FileObj.fresh], by simp [FileObj.fresh],
      ?_, by simp, ?_⟩, rfl⟩
    · intro f' hf'; cases hf'; exact hfs
    · intro f' hf' _; cases hf'
      refine ⟨rfl, fun hh => ?_⟩
      rcases hfs.2 with h1 | ⟨_, d, n, h1, _⟩
      · rw [h1.1] at hh; cases hh
      · exact ⟨d, h1, d, h1, rfl⟩
    · intro hd
      rcases hfs.2 with h1 | ⟨_, d, n, h1, _⟩
      · exact absurd h1.2 hd
      · exact ⟨d, h1, trivial⟩

/-- **C183.** An object whose text in the file cannot be read raises the same error at every look, and looking changes nothing. -/
theorem C183_broken (s : LzState) (i : Nat) (f : FileObj) (e : Fault) (hs : (s i).src = some f) (hl : (s i).loaded = false) (hv : f.value = .error e) :
    s.read i = (s, .error e) ∧ s.stream i = (s, .error e) ∧ ∀ v, s.setVal i v = (s, .error e) := by
  simp [LzState.read, LzState.stream, LzState.setVal, LObj.loadStr, LObj.load, hs, hl, hv]

/-- **C183, what is read is what the file says.** Asking an object nobody has looked at for its stream succeeds only if the file has the object, with a /Length that is a number or a reference to
one when it has a stream; what it has then is what the file says. -/
theorem C183_read (s : LzState) (i : Nat) (f : FileObj) (hs : s i = f.fresh) (s' : LzState) (o : LObs) (h : s.stream i = (s', .ok o)) :
    ∃ v b, Spec.FileSays f ⟨v, b⟩ ∧ (s' i).var = v ∧ o = .data b := by
  unfold LzState.stream LObj.loadStr LObj.load LObj.loadStr' at h
  rw [hs] at h
  simp only [FileObj.fresh, Bool.false_eq_true, if_false] at h
  cases hv : f.value with
  | error e => simp [hv] at h
  | ok v =>
    simp only [hv] at h
    cases hh : f.hasStream with
    | false =>
      simp only [hh, Bool.false_eq_true, if_false, Prod.mk.injEq, Except.ok.injEq] at h
      obtain ⟨rfl, rfl⟩ := h
      exact ⟨v, none, ⟨hv, .inl ⟨hh, rfl⟩⟩, by simp [LzState.set], rfl⟩
    | true =>
      simp only [hh, if_true] at h
      cases hl : f.len v with
      | error e => simp [FileObj.data, hl] at h
      | ok n =>
        simp only [FileObj.data, hl, Prod.mk.injEq, Except.ok.injEq] at h
        obtain ⟨rfl, rfl⟩ := h
        refine ⟨v, some _, ⟨hv, .inr ⟨hh, ?_⟩⟩, by simp [LzState.set], rfl⟩
        unfold FileObj.len at hl
        split at hl
        · next d =>
          split at hl
          · simp [raise] at hl
          · next m hm => simp only [Except.ok.injEq] at hl; subst hl; exact ⟨d, m, rfl, .inl hm, rfl⟩
          · next a g hm => exact ⟨d, n, rfl, .inr ⟨a, g, hm, hl⟩, rfl⟩
          · simp [raise] at hl
        · simp [raise] at hl

/-- **C183, refuted.** Looking at the text of a changed object (`ToString`) marks it clean: freed afterwards, it shows what the file says again.  For every
object of a file without a stream and every new value. -/
theorem C183_text_false (file : Nat → Option FileObj) (made : Nat → Var) (i : Nat) (f : FileObj) (v₀ v : Var) (hi : file i = some f) (hv : f.value = .ok v₀)
    (hs : f.hasStream = false) :
    ((startState file made).runCalls [.setVal i v, .read i, .toText i, .free i, .read i]).2 =
      [.ok .done, .ok (.val v), .ok .done, .ok .done, .ok (.val v₀)] := by
  simp [LzState.runCalls, LzState.call, LzState.setVal, LzState.read, LzState.toText, LzState.free, LObj.load, LObj.loadStr, LObj.loadStr', startState, hi,
    FileObj.fresh, hv, hs, LzState.set]

/-- The same object is left out of an update of the file: it is not marked (`src/pdfmm/base/PdfWriter.cpp:135`). -/
theorem C183_text_clean_false (file : Nat → Option FileObj) (made : Nat → Var) (i : Nat) (f : FileObj) (v₀ v : Var) (hi : file i = some f)
    (hv : f.value = .ok v₀) (hs : f.hasStream = false) :
    let s := ((startState file made).runCalls [.setVal i v, .toText i]).1
    (s i).dirty = false ∧ (s i).var = v := by
  simp [LzState.runCalls, LzState.call, LzState.setVal, LzState.toText, LObj.load, LObj.loadStr, LObj.loadStr', startState, hi, FileObj.fresh, hv, hs, LzState.set]

/-- **C183, refuted.** New data written through `GetOutputStreamRaw` to a stream without /Filter leave the object unmarked, so that an update of the file
omits them and freeing the object brings the old data back.  `SetData` with the same bytes marks it.  For every such stream and all bytes. -/
theorem C183_raw_false (file : Nat → Option FileObj) (made : Nat → Var) (i : Nat) (f : FileObj) (d : FDict) (n : Int) (b : Bytes) (hi : file i = some f)
    (hv : f.value = .ok (.dict d)) (hs : f.hasStream = true) (hn : SMap.find? (litBytes "Length") d = some (.num n))
    (hf : SMap.find? (litBytes "Filter") d = none) :
    let old := f.rest.take (if n < 0 then f.rest.length else n.toNat)
    ((startState file made).runCalls [.outRaw i b, .stream i, .free i, .stream i]).2 =
      [.ok .done, .ok (.data (some b)), .ok .done, .ok (.data (some old))] ∧
    ((((startState file made).runCalls [.outRaw i b]).1) i).dirty = false ∧ ((((startState file made).runCalls [.setData i b]).1) i).dirty = true := by
  simp [LzState.runCalls, LzState.call, LzState.outRaw, LzState.setData, LzState.putData, LObj.dropFilter, LObj.orCreate, LzState.stream, LzState.free, LObj.load,
    LObj.loadStr, LObj.loadStr', startState, hi, FileObj.fresh, hv, hs, LzState.set, FileObj.data, FileObj.len, FileObj.size, kLzLength, kLzFilter, hn, hf]

/-- **C183, refuted.** An object without a stream assigned to an object with one: the old stream is kept if somebody had looked at it, and dropped if not. -/
theorem C183_assign_false (file : Nat → Option FileObj) (made : Nat → Var) (i j : Nat) (f : FileObj) (d : FDict) (n : Int) (hne : i ≠ j) (hi : file i = some f)
    (hj : file j = none) (hv : f.value = .ok (.dict d)) (hs : f.hasStream = true) (hn : SMap.find? (litBytes "Length") d = some (.num n)) :
    let old := f.rest.take (if n < 0 then f.rest.length else n.toNat)
    ((startState file made).runCalls [.stream i, .assign i j, .stream i]).2 = [.ok (.data (some old)), .ok .done, .ok (.data (some old))] ∧
    ((startState file made).runCalls [.assign i j, .stream i]).2 = [.ok .done, .ok (.data none)] := by
  have hji : j ≠ i := fun e => hne e.symm
  simp [LzState.runCalls, LzState.call, LzState.assign, LObj.copyStr, LzState.stream, LObj.load,
    LObj.loadStr, LObj.loadStr', startState, hi, hj, FileObj.fresh, plainObj, hv, hs, LzState.set, FileObj.data, FileObj.len, FileObj.size, kLzLength, hn, hne, hji]

/-- **C183, refuted.** A new /Length given before anybody looked at the stream changes what the stream is read as; given after, it does not. -/
theorem C183_length_false (file : Nat → Option FileObj) (made : Nat → Var) (i : Nat) (f : FileObj) (d d' : FDict) (n : Int) (m : Nat) (hi : file i = some f)
    (hv : f.value = .ok (.dict d)) (hs : f.hasStream = true) (hn : SMap.find? (litBytes "Length") d = some (.num n))
    (hm : SMap.find? (litBytes "Length") d' = some (.num (m : Int))) :
    let old := f.rest.take (if n < 0 then f.rest.length else n.toNat)
    ((startState file made).runCalls [.stream i, .setVal i (.dict d'), .stream i]).2 = [.ok (.data (some old)), .ok .done, .ok (.data (some old))] ∧
    ((startState file made).runCalls [.setVal i (.dict d'), .stream i]).2 = [.ok .done, .ok (.data (some (f.rest.take m)))] := by
  have hm' : ¬ ((m : Int) < 0) := by omega
  simp [LzState.runCalls, LzState.call, LzState.setVal, LzState.stream, LObj.load,
    LObj.loadStr, LObj.loadStr', startState, hi, FileObj.fresh, hv, hs, LzState.set, FileObj.data, FileObj.len, FileObj.size, kLzLength, hn, hm, hm']

/-- **C183, refuted.** An object assigned to itself reads memory it has just given back, whatever string, name, array or dictionary it holds. -/
theorem C183_self_false (s : LzState) (i : Nat) (hl : (s i).loaded = true) (hv : (s i).var.heaped = true) : (s.assign i i).2 = .error .ub := by
  simp [LzState.assign, LObj.load, hl, hv]

/-- **C183, moves.** A move from an object whose stream is there (or that has none to read) gives its value and stream, and leaves the source null without. -/
theorem C183_move_partial (s : LzState) (i j : Nat) (hne : i ≠ j) (hl : (s j).loaded = true) (hs : (s j).strLoaded = true) :
    (s.move i j).2 = .ok .done ∧ ((s.move i j).1 i).var = (s j).var ∧ (((s.move i j).1 i).str.map (·.data)) = (s j).str.map (·.data) ∧
    ((s.move i j).1 j).var = .null ∧ ((s.move i j).1 j).str = none ∧ ((s.move i j).1 i).dirty = true ∧ ∀ k, k ≠ i → k ≠ j → (s.move i j).1 k = s k := by
  refine ⟨?_, ?_, ?_, ?_, ?_, ?_, ?_⟩ <;> simp (config := { contextual := true }) [LzState.move, LObj.load, LObj.loadStr, LObj.loadStr', hl, hs, LzState.set, hne]

/-- **C183, refuted.** A move from any stream of a file nobody has looked at ends the program: the dictionary is taken away before the stream is read. -/
theorem C183_move_false (s : LzState) (i j : Nat) (f : FileObj) (v : Var) (hsrc : (s j).src = some f) (hf : f.hasStream = true) (hv : f.value = .ok v)
    (hl : (s j).strLoaded = false) : (s.move i j).2 = .error .exn := by
  cases h : (s j).loaded <;>
    simp [LzState.move, LObj.load, LObj.loadStr, LObj.loadStr', h, hl, hsrc, hf, hv, FileObj.data, FileObj.len, noexc]

/-- **C183, refuted.** An object constructed by moving from an object of a file nobody has looked at is null, whatever the file says; the source keeps
its value. -/
theorem C183_move_new_false (s : LzState) (i j : Nat) (f : FileObj) (v : Var) (hne : i ≠ j) (hsj : s j = f.fresh) (hf : f.hasStream = false) (hv : f.value = .ok v) :
    (s.moveNew i j).2 = .ok .done ∧ ((s.moveNew i j).1.read i).2 = .ok (.val .null) ∧ ((s.moveNew i j).1.read j).2 = .ok (.val v) := by
  have hji : j ≠ i := fun e => hne e.symm
  simp [LzState.moveNew, LzState.read, LObj.load, LObj.loadStr, LObj.loadStr', hsj, FileObj.fresh, hf, hv, LzState.set, plainObj, hne]

/-- **C183, refuted.** A stream that was moved keeps its old owner: new data set through the new object go to the dictionary of the old one, which is
null by then, and ending the output stream ends the program.  For every stream object and all data. -/
theorem C183_moved_stream_false (s : LzState) (i j : Nat) (b b' : Bytes) (hne : i ≠ j) (hl : (s j).loaded = true) (hs : (s j).strLoaded = true)
    (hst : (s j).str = some ⟨b, j⟩) :
    (((s.move i j).1).setData i b').2 = .error .exn := by
  have hji : j ≠ i := fun e => hne e.symm
  simp [LzState.move, LzState.setData, LzState.putData, LObj.dropFilter, LObj.orCreate, LObj.load, LObj.loadStr, LObj.loadStr', hl, hs, hst, LzState.set, hne, hji]

/-! ### A file of three objects -/

def lzDict : FDict := [(litBytes "Filter", .name (litBytes "X")), (litBytes "Length", .num 2)]
def lzFile : Nat → Option FileObj
  | 0 => some ⟨.ok (.dict lzDict), true, [65, 66, 67], fun _ _ => raise .NoObject⟩
  | 1 => some ⟨.ok (.num 7), false, [], fun _ _ => raise .NoObject⟩
  | _ => none
def lzAt : Spec.LazyObjs
  | 0 => ⟨.dict lzDict, some [65, 66]⟩
  | 1 => ⟨.num 7, none⟩
  | _ => ⟨.null, none⟩

example : (∀ i f, lzFile i = some f → Spec.FileSays f (lzAt i)) ∧ (∀ i, lzFile i = none → lzAt i = ⟨.null, none⟩) ∧
    Spec.LazyFairRun lzFile lzAt lzAt [.read 0, .free 0, .assign 2 0, .stream 2, .toText 1, .outRaw 0 [1], .free 0, .stream 0] := by
  refine ⟨?_, ?_, ?_⟩
  · intro i f h
    match i with
    | 0 => cases h; exact ⟨rfl, .inr ⟨rfl, lzDict, 2, rfl, .inl (by rfl), by rfl⟩⟩
    | 1 => cases h; exact ⟨rfl, .inl ⟨rfl, rfl⟩⟩
    | _ + 2 => cases h
  · intro i h
    match i with
    | 0 => cases h
    | 1 => cases h
    | _ + 2 => rfl
  · refine ⟨trivial, by simp [Spec.LazyFair, lzFile], ⟨by decide, by simp [lzAt, Spec.LazyObjs.call]⟩, trivial, ?_, ?_, ?_, trivial, trivial⟩
    · exact ⟨rfl, fun _ => rfl⟩
    · exact ⟨lzDict, rfl, fun _ => by simp [lzDict, SMap.find?]⟩
    · simp [Spec.LazyFair, lzFile]

end Pdfmm
