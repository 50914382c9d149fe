import Verif.Contents.Operators
import Verif.Fonts.CMapModel
import Verif.Streams.Canvas
set_option autoImplicit false
/-
The reader of content streams, `src/pdfmm/base/PdfContentsReader.cpp`.  Properties C122-C124.
-/
namespace Pdfmm

/-- `PdfContentType`, `src/pdfmm/base/PdfContentsReader.h:21-31`. -/
inductive CType
  | unknown | operator | imageDictionary | imageData | doXObject | endXObjectForm | unexpectedKeyword
  deriving DecidableEq, Repr

/-- `PdfContentWarnings`, a set of flags, `src/pdfmm/base/PdfContentsReader.h:33-42`. -/
structure CWarn where
  invalidOperator : Bool := false
  spuriousStack : Bool := false
  invalidXObject : Bool := false
  recursiveXObject : Bool := false
  invalidImageDict : Bool := false
  missingEndImage : Bool := false
  deriving DecidableEq, Repr

/-- `PdfContent`, `src/pdfmm/base/PdfContentsReader.h:46-57`.  The stack is kept in the order of the pushes; the keyword is a view into
the tokenizer's buffer, here its bytes at the time of the call; the XObject is kept as the identity of its object. -/
structure Content where
  type : CType := .unknown
  warnings : CWarn := {}
  stack : List Var := []
  op : Option PdfOp := none
  keyword : Bytes := []
  imgDict : List (Bytes × Var) := []
  imgData : Bytes := []
  name : Option Bytes := none
  xobj : Option Nat := none

/-- `Input`, `src/pdfmm/base/PdfContentsReader.h:123-128`: the canvas (`none` when the reader was given a device), the identity of its
contents object (`GetContentsObject`, null for a page without contents), and the text the device still has to deliver (for a canvas, C86
shows that it is the joined text of its streams). -/
structure CInput where
  canvas : Option Nat
  contents : Option Nat
  text : Bytes

/-- The document as the reader sees it.  `xobj canvas name` is the object that the resources of the canvas name as an XObject, when all of
`GetResources`, `GetResource` and `PdfXObject::TryCreateFromObject` (`src/pdfmm/base/PdfContentsReader.cpp:325-333`) succeed; `form x` tells
whether it is a form; `body x` is the text of the device made for the form `x`
(`PdfCanvasInputDevice`, which raises when a stream cannot be decoded). -/
structure CEnv where
  xobj : Nat → Bytes → Option Nat
  form : Nat → Bool
  body : Nat → Res Bytes

/-- `PdfContentReaderArgs`, `src/pdfmm/base/PdfContentsReader.h:59-78`.  The handler of inline images gets the dictionary and the device;
it answers whether the data ended before the end of the device, and leaves the device somewhere. -/
structure CArgs where
  throwOnWarnings : Bool := false
  dontFollow : Bool := false
  handler : Option (List (Bytes × Var) → Bytes → Bool × Bytes) := none

/-- `PdfContentsReader`, `src/pdfmm/base/PdfContentsReader.h:131-139`; the last input first.  The tokenizer's queue belongs to the reader,
not to the device.  The buffer shared with the tokenizer keeps its size in the model (in the code a long inline image makes it grow, and
with it the longest token). -/
structure RState where
  inputs : List CInput
  queue : List Tok
  readingImg : Bool

/-- The constructor for a canvas whose contents deliver `text`, `src/pdfmm/base/PdfContentsReader.cpp:19-40`. -/
def RState.ofCanvas (canvas : Nat) (contents : Option Nat) (text : Bytes) : RState := ⟨[⟨some canvas, contents, text⟩], [], false⟩

/-- The constructor for a device, `src/pdfmm/base/PdfContentsReader.cpp:24-40`. -/
def RState.ofDevice (text : Bytes) : RState := ⟨[⟨none, none, text⟩], [], false⟩

/-- `m_tokenizer.TryReadNext(*m_inputs.back().Device, ...)`. -/
def RState.next (st : RState) : Res (Option PsTok × RState) :=
  match st.inputs with
  | [] => .error .ub
  | i :: r =>
    match psNext ⟨st.queue, i.text, 0⟩ with
    | .error e => .error e
    | .ok (t, s) => .ok (t, { st with inputs := { i with text := s.inp } :: r, queue := s.queue })

/-- `m_tokenizer.TryReadNextVariant(*m_inputs.back().Device, ...)`; `none` at the end. -/
def RState.nextVariant (st : RState) : Res (Option Var × RState) :=
  match st.inputs with
  | [] => .error .ub
  | i :: r =>
    match tryReadVariant psCfg ⟨st.queue, i.text, 0⟩ with
    | (.error e, _) => .error e
    | (.ok v, s) => .ok (v, { st with inputs := { i with text := s.inp } :: r, queue := s.queue })

/-- What the tokenizer has still to deliver. -/
def RState.weight (st : RState) : Nat :=
  match st.inputs with
  | [] => 0
  | i :: _ => (⟨st.queue, i.text, 0⟩ : PS).weight

/-- `beforeReadReset`, `src/pdfmm/base/PdfContentsReader.cpp:170-174`. -/
def Content.reset (c : Content) : Content := { c with stack := [], warnings := {} }

/-- `afterReadClear`, `src/pdfmm/base/PdfContentsReader.cpp:176-241`. -/
def Content.clear (c : Content) : Content :=
  match c.type with
  | .operator => { c with imgDict := [], imgData := [], xobj := none, name := none }
  | .imageDictionary => { c with op := none, keyword := [], imgData := [], xobj := none, name := none }
  | .imageData => { c with op := none, keyword := [], imgDict := [], xobj := none, name := none }
  | .doXObject => { c with op := none, keyword := [], imgDict := [], imgData := [] }
  | .unexpectedKeyword => { c with op := none, imgDict := [], imgData := [], xobj := none, name := none }
  | .unknown | .endXObjectForm => { c with op := none, keyword := [], imgDict := [], imgData := [], xobj := none, name := none }

/-- `handleWarnings`, `src/pdfmm/base/PdfContentsReader.cpp:426-430`. -/
def handleWarnings (a : CArgs) : Res Unit := if a.throwOnWarnings then raise .InvalidContentStream else .ok ()

/-- `isCalledRecursively`, `src/pdfmm/base/PdfContentsReader.cpp:432-442`; it is only called when every input has a canvas. -/
def isCalledRecursively (inputs : List CInput) (x : Nat) : Bool := inputs.any fun i => i.contents == some x

/-- The name given to `Do`: the only operand, when it is a name, `src/pdfmm/base/PdfContentsReader.cpp:329-330`. -/
def doName : List Var → Option Bytes
  | [.name n] => some n
  | _ => none

/-- `tryFollowXObject`, `src/pdfmm/base/PdfContentsReader.cpp:322-353`; `canvas` is that of the last input.  `content.Name` is set by the
test even when a later one fails. -/
def tryFollowXObject (env : CEnv) (a : CArgs) (canvas : Nat) (c : Content) (st : RState) : Res (Content × RState) :=
  match doName c.stack with
  | none => .ok ({ c with warnings := { c.warnings with invalidXObject := true } }, st)
  | some n =>
    match env.xobj canvas n with
    | none => .ok ({ c with name := some n, warnings := { c.warnings with invalidXObject := true } }, st)
    | some x =>
      if isCalledRecursively st.inputs x then
        .ok ({ c with name := some n, xobj := some x, type := .doXObject, warnings := { c.warnings with recursiveXObject := true } }, st)
      else if env.form x && !a.dontFollow then
        match env.body x with
        | .error e => .error e
        | .ok b => .ok ({ c with name := some n, xobj := some x, type := .doXObject }, { st with inputs := ⟨some x, some x, b⟩ :: st.inputs })
      else .ok ({ c with name := some n, xobj := some x, type := .doXObject }, st)

/-- `ID`, which ends the dictionary of an inline image. -/
def kwID : Bytes := [73, 68]

/-- `tryReadInlineImgDict`, `src/pdfmm/base/PdfContentsReader.cpp:278-316`; the answer is false at the end of the device. -/
def readImgDict : Nat → Content → RState → Res (Bool × Content × RState)
  | 0, _, _ => .error .diverge
  | f + 1, c, st =>
    match st.next with
    | .error e => .error e
    | .ok (none, st) => .ok (false, c, st)
    | .ok (some (.keyword k), st) =>
      if k = kwID then .ok (true, c, st) else readImgDict f { c with warnings := { c.warnings with invalidImageDict := true } } st
    | .ok (some (.value (.name n)), st) =>
      match st.nextVariant with
      | .error e => .error e
      | .ok (none, st) => .ok (false, c, st)
      | .ok (some v, st) => readImgDict f { c with imgDict := SMap.insert n v c.imgDict } st
    | .ok (some _, st) => readImgDict f { c with warnings := { c.warnings with invalidImageDict := true } } st

/-- The warnings about the number of operands, `src/pdfmm/base/PdfContentsReader.cpp:133-140`. -/
def countWarn (op : PdfOp) (n : Nat) (w : CWarn) : CWarn :=
  if opCount op ≠ -1 ∧ (n : Int) ≠ opCount op then
    if (n : Int) < opCount op then { w with invalidOperator := true } else { w with spuriousStack := true }
  else w

/-- `tryHandleOperator`, `src/pdfmm/base/PdfContentsReader.cpp:241-274`. -/
def tryHandleOperator (env : CEnv) (a : CArgs) (op : PdfOp) (c : Content) (st : RState) : Res (Bool × Content × RState) :=
  if op = .opDo then
    match st.inputs with
    | [] => .error .ub
    | i :: _ =>
      match i.canvas with
      | none => .ok (true, c, st)
      | some cv =>
        match tryFollowXObject env a cv c st with
        | .error e => .error e
        | .ok (c, st) => .ok (true, c, st)
  else if op = .opBI then
    match readImgDict (st.weight + 1) c st with
    | .error e => .error e
    | .ok (false, c, st) => .ok (false, c, st)
    | .ok (true, c, st) => .ok (true, { c with type := .imageDictionary }, { st with readingImg := true })
  else .ok (true, c, st)

/-- The loop of `tryReadNextContent`, `src/pdfmm/base/PdfContentsReader.cpp:115-168`; the answer is false at the end of the device.
`content.Keyword` is set by the tokenizer for keywords; for braces the tokenizer leaves an empty view
(`src/pdfmm/base/PdfPostScriptTokenizer.cpp:41-55`). -/
def readContentLoop (env : CEnv) (a : CArgs) : Nat → Content → RState → Res (Bool × Content × RState)
  | 0, _, _ => .error .diverge
  | f + 1, c, st =>
    match st.next with
    | .error e => .error e
    | .ok (none, st) => .ok (false, { c with type := .unknown }, st)
    | .ok (some (.keyword k), st) =>
      match opOfName k with
      | none => .ok (true, { c with keyword := k, op := none, type := .unexpectedKeyword }, st)
      | some op =>
        tryHandleOperator env a op
          { c with keyword := k, op := some op, type := .operator, warnings := countWarn op c.stack.length c.warnings } st
    | .ok (some (.value v), st) => readContentLoop env a f { c with stack := c.stack ++ [v] } st
    | .ok (some .procEnter, st) => .ok (true, { c with keyword := [], type := .unexpectedKeyword }, st)
    | .ok (some .procExit, st) => .ok (true, { c with keyword := [], type := .unexpectedKeyword }, st)

/-- `tryReadNextContent`, with fuel that suffices. -/
def tryReadNextContent (env : CEnv) (a : CArgs) (c : Content) (st : RState) : Res (Bool × Content × RState) :=
  readContentLoop env a (st.weight + 1) c st

/-- `ReadEIStatus`, `src/pdfmm/base/PdfContentsReader.cpp:364-369`. -/
inductive EISt
  | readE | readI | readWs
  deriving DecidableEq, Repr

/-- The loop of `tryReadInlineImgData`, `src/pdfmm/base/PdfContentsReader.cpp:380-420`: the data and what is left, or `none` at the end of
the device.  `acc` holds the `readCount` bytes stored so far. -/
def eiLoop : EISt → Bytes → Bytes → Option (Bytes × Bytes)
  | _, [], _ => none
  | .readE, c :: r, acc => eiLoop (if c = 69 then .readI else .readE) r (acc ++ [c])
  | .readI, c :: r, acc => eiLoop (if c = 73 then .readWs else .readE) r (acc ++ [c])
  | .readWs, c :: r, acc => if isWhitespace c then some (acc.take (acc.length - 2), r) else eiLoop .readE r (acc ++ [c])

/-- `tryReadInlineImgData`, `src/pdfmm/base/PdfContentsReader.cpp:355-424`. -/
def tryReadImgData : Bytes → Option (Bytes × Bytes)
  | [] => none
  | _ :: r => eiLoop .readE r []

/-- `HandleContent`, `src/pdfmm/base/PdfContentsReader.cpp:86-89`. -/
def handleContent (a : CArgs) (c : Content) (st : RState) : Res (Bool × Content × RState) :=
  match handleWarnings a with
  | .error e => .error e
  | .ok () => .ok (true, c.clear, st)

/-- `PopDevice` and `Eof`, `src/pdfmm/base/PdfContentsReader.cpp:91-107`. -/
def popDevice (a : CArgs) (c : Content) (st : RState) : Res (Bool × Content × RState) :=
  match st.inputs with
  | [] => .error .ub
  | [_] => .ok (false, { c with type := .unknown }.clear, { st with inputs := [] })
  | _ :: i :: r =>
    handleContent a { c with type := .endXObjectForm, warnings := if c.stack.length ≠ 0 then { c.warnings with spuriousStack := true } else c.warnings }
      { st with inputs := i :: r }

/-- The plain case of `TryReadNext`, `src/pdfmm/base/PdfContentsReader.cpp:83-89`. -/
def readPlain (env : CEnv) (a : CArgs) (c : Content) (st : RState) : Res (Bool × Content × RState) :=
  match tryReadNextContent env a c st with
  | .error e => .error e
  | .ok (false, c, st) => popDevice a c st
  | .ok (true, c, st) => handleContent a c st

/-- The inline image handled by the caller, `src/pdfmm/base/PdfContentsReader.cpp:60-80`.  The code looks at `content.Operator` alone, which
keeps its old value when what follows is not an operator (before the first operator, `Unknown`). -/
def readAfterHandler (env : CEnv) (a : CArgs) (h : List (Bytes × Var) → Bytes → Bool × Bytes) (i : CInput) (r : List CInput) (c : Content)
    (st : RState) : Res (Bool × Content × RState) :=
  let res := h c.imgDict i.text
  let st := { st with inputs := { i with text := res.2 } :: r, readingImg := false }
  if res.1 = false then popDevice a { c with warnings := { missingEndImage := true } } st
  else
    match tryReadNextContent env a c st with
    | .error e => .error e
    | .ok (false, c, st) => popDevice a { c with warnings := { missingEndImage := true } } st
    | .ok (true, c, st) =>
      if c.op ≠ some .opEI then handleContent a { c with warnings := { missingEndImage := true } } st
      else readPlain env a c.reset st

/-- `PdfContentsReader::TryReadNext`, `src/pdfmm/base/PdfContentsReader.cpp:42-108`.  The outer `while` never goes round. -/
def tryReadNext (env : CEnv) (a : CArgs) (c : Content) (st : RState) : Res (Bool × Content × RState) :=
  match st.inputs with
  | [] => .ok (false, { c.reset with type := .unknown }.clear, st)
  | i :: r =>
    if st.readingImg then
      match a.handler with
      | none =>
        match tryReadImgData i.text with
        | none => popDevice a c.reset { st with inputs := { i with text := [] } :: r }
        | some (d, t) =>
          .ok (true, { c.reset with imgData := d, type := .imageData }.clear, { st with inputs := { i with text := t } :: r, readingImg := false })
      | some h => readAfterHandler env a h i r c.reset st
    else readPlain env a c.reset st

/-- Calling `TryReadNext` until it answers false: the contents it delivered. -/
def readAllContent (env : CEnv) (a : CArgs) : Nat → Content → RState → Res (List Content)
  | 0, _, _ => .error .diverge
  | f + 1, c, st =>
    match tryReadNext env a c st with
    | .error e => .error e
    | .ok (false, _, _) => .ok []
    | .ok (true, c, st) =>
      match readAllContent env a f c st with
      | .error e => .error e
      | .ok l => .ok (c :: l)

end Pdfmm
