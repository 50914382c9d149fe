import Verif.Base.SMap
import Verif.Syntax.Name
import Verif.Syntax.Strings
import Verif.Syntax.Numbers
/-
The tokenizer: lexing, the token queue, look-ahead for references, and the recursive reader of
values; and the writer of values.
-/
namespace Pdfmm

/-- `enum class PdfTokenType`, `src/pdfmm/base/PdfTokenizer.h:20-35` (`Unknown` is never stored). -/
inductive TokType
  | literal | parenL | parenR | braceL | braceR | angleL | angleR | dAngleL | dAngleR | sqL | sqR
  | slash
  deriving DecidableEq, Repr

/-- A token: `pair<string, PdfTokenType>`, `src/pdfmm/base/PdfTokenizer.h` `TokenizerPair`. -/
structure Tok where
  text : Bytes
  type : TokType
  deriving DecidableEq, Repr

/-- The type set by `IsTokenDelimiter`, `src/pdfmm/base/PdfTokenizer.cpp:706-735`. -/
def tokDelimType (b : Byte) : TokType :=
  if b = 40 then .parenL else if b = 41 then .parenR else if b = 91 then .sqL
  else if b = 93 then .sqR else if b = 123 then .braceL else if b = 125 then .braceR else .slash

/-- `<`, `<<`, `>` and `>>`, `src/pdfmm/base/PdfTokenizer.cpp:104-136`; `c` has been consumed.  At the
end of the input the token type is left at its initial value. -/
def lexAngle (c : Byte) : Bytes → Option (Tok × Bytes)
  | [] => some (⟨[c], .literal⟩, [])
  | c2 :: r2 =>
    if c2 = c then some (⟨[c, c2], if c = 60 then .dAngleL else .dAngleR⟩, r2)
    else some (⟨[c], if c = 60 then .angleL else .angleR⟩, c2 :: r2)

/-- The loop of `PdfTokenizer::TryReadNextToken`, `src/pdfmm/base/PdfTokenizer.cpp:70-176`.
`cap` is `m_buffer->size() - 1`; `acc` is the token read so far (`count` is its length); the first
argument says whether the inner comment loop (86-96) is running.  When a comment ends before any
character was read the code goes round the loop and skips the line break as white space; the model
does both at once.  `none` is `return false`: the input is exhausted. -/
def lexLoop (cap : Nat) : Bool → Bytes → Bytes → Option (Tok × Bytes)
  | _, [], acc => if acc = [] then none else some (⟨acc, .literal⟩, [])
  | true, c :: r, acc =>
    if c = 10 ∨ c = 13 then
      if acc ≠ [] then some (⟨acc, .literal⟩, c :: r) else lexLoop cap false r []
    else lexLoop cap true r acc
  | false, c :: r, acc =>
    if cap ≤ acc.length then some (⟨acc, .literal⟩, c :: r)
    else if acc = [] ∧ isWhitespace c = true then lexLoop cap false r acc
    else if c = 37 then lexLoop cap true r acc
    else if acc = [] ∧ (c = 60 ∨ c = 62) then
      lexAngle c r
    else if acc ≠ [] ∧ (isWhitespace c = true ∨ isDelimiter c = true) then
      some (⟨acc, .literal⟩, c :: r)
    else if isTokenDelimiter c then some (⟨acc ++ [c], tokDelimType c⟩, r)
    else lexLoop cap false r (acc ++ [c])

/-- One token from the device, the queue being empty. -/
def lex (cap : Nat) (inp : Bytes) : Option (Tok × Bytes) := lexLoop cap false inp []

/-- What the reader works on: the queue `m_tokenQueque`, the unread bytes of the device, and the
thread's recursion depth `s_recursionDepth`. -/
structure PS where
  queue : List Tok
  inp : Bytes
  depth : Nat
  deriving DecidableEq, Repr

/-- The parameters: token buffer size minus one (`PdfTokenizer::BufferSize - 1`),
`s_MaxRecursionDepth` (`src/pdfmm/private/PdfDeclarationsPrivate.cpp:40-42`) and
`m_readReferences`. -/
structure Cfg where
  cap : Nat := 4095
  maxDepth : Nat := 256
  readRefs : Bool := true

/-- A call that may raise; the state survives the raise. -/
abbrev P (α : Type) := PS → Res α × PS

/-- `PdfTokenizer::TryReadNextToken`, `src/pdfmm/base/PdfTokenizer.cpp:46-176`. -/
def tryReadToken (cap : Nat) (s : PS) : Option Tok × PS :=
  match s.queue with
  | t :: q => (some ⟨t.text.take cap, t.type⟩, { s with queue := q })
  | [] =>
    match lex cap s.inp with
    | none => (none, { s with inp := [] })
    | some (t, r) => (some t, { s with inp := r })

/-- `PdfTokenizer::EnqueueToken`, `src/pdfmm/base/PdfTokenizer.cpp:651-654`. -/
def enqueue (t : Tok) (s : PS) : PS := { s with queue := s.queue ++ [t] }

/-- Values, `PdfVariant` (`src/pdfmm/base/PdfVariant.h`).  A real is kept as the exact decimal
`± m / 10^s`; a string as its stored bytes and the hex flag; a dictionary as the content of its
`std::map`, ascending by key. -/
inductive Var
  | null
  | bool (b : Bool)
  | num (n : Int)
  | real (neg : Bool) (m s : Nat)
  | str (d : Bytes) (hex : Bool)
  | name (n : Bytes)
  | ref (obj gen : Nat)
  | arr (l : List Var)
  | dict (l : List (Bytes × Var))

/-- Outcome of `DetermineDataType`: a finished value, or what has still to be read. -/
inductive Det
  | val (v : Var)
  | dict | arr | str | hex | name | unknown

/-- `dataType == PdfLiteralDataType::HexString`. -/
def Det.isHex : Det → Bool
  | .hex => true
  | _ => false

/-- The character scan of a literal, `src/pdfmm/base/PdfTokenizer.cpp:268-284`. -/
inductive NumKind
  | number | real | unknown
  deriving DecidableEq, Repr

def scanKind : Bytes → NumKind → NumKind
  | [], k => k
  | c :: r, k =>
    if c = 0 then k
    else if c = 46 then scanKind r .real
    else if isDigitB c ∨ c = 45 ∨ c = 43 then scanKind r k
    else .unknown

/-- Truncation to `uint32_t`/`uint16_t`, as in `src/pdfmm/base/PdfTokenizer.cpp:345`. -/
def truncTo (bits : Nat) (n : Int) : Nat := (n % (2 ^ bits : Nat)).toNat

/-- The look-ahead for a reference, `src/pdfmm/base/PdfTokenizer.cpp:305-354`; `n` is the number
already read. -/
def lookRef (cap : Nat) (n : Int) (s : PS) : Det × PS :=
  match tryReadToken cap s with
  | (none, s) => (.val (.num n), s)
  | (some t2, s) =>
    if t2.type ≠ .literal then (.val (.num n), enqueue t2 s)
    else match fromCharsInt t2.text with
      | none => (.val (.num n), enqueue t2 s)
      | some g =>
        match tryReadToken cap s with
        | (none, s) => (.val (.num n), s)
        | (some t3, s) =>
          if t3.type = .literal ∧ t3.text = [82] then (.val (.ref (truncTo 32 n) (truncTo 16 g)), s)
          else (.val (.num n), enqueue t3 (enqueue t2 s))

/-- `PdfTokenizer::DetermineDataType`, `src/pdfmm/base/PdfTokenizer.cpp:239-371`. -/
def determine (cfg : Cfg) (t : Tok) : P Det := fun s =>
  match t.type with
  | .literal =>
    if t.text = [110, 117, 108, 108] then (.ok (.val .null), s)
    else if t.text = [116, 114, 117, 101] then (.ok (.val (.bool true)), s)
    else if t.text = [102, 97, 108, 115, 101] then (.ok (.val (.bool false)), s)
    else match scanKind t.text .number with
      | .real =>
        match fromCharsFixed t.text with
        | none => (raise .NoNumber, enqueue t s)
        | some (neg, m, sc) => (.ok (.val (.real neg m sc)), s)
      | .number =>
        match fromCharsInt t.text with
        | none => (raise .NoNumber, enqueue t s)
        | some n =>
          if cfg.readRefs then let (d, s) := lookRef cfg.cap n s; (.ok d, s)
          else (.ok (.val (.num n)), s)
      | .unknown => (.ok .unknown, s)
  | .dAngleL => (.ok .dict, s)
  | .sqL => (.ok .arr, s)
  | .parenL => (.ok .str, s)
  | .angleL => (.ok .hex, s)
  | .slash => (.ok .name, s)
  | _ => (raise .InvalidEnumValue, s)

/-- `PdfTokenizer::ReadName`, `src/pdfmm/base/PdfTokenizer.cpp:618-649`. -/
def readName (cap : Nat) (s : PS) : Bytes × PS :=
  match s.inp with
  | [] => ([], s)
  | c :: _ =>
    if isWhitespace c then ([], s)
    else match tryReadToken cap s with
      | (none, s) => ([], s)
      | (some t, s) => if t.type ≠ .literal then ([], enqueue t s) else (unescapeName t.text, s)

/-- Two calls in sequence; an exception in the first skips the second. -/
def P.andThen {α β : Type} (m : P α) (k : α → P β) : P β := fun s =>
  match m s with
  | (.error e, s) => (.error e, s)
  | (.ok a, s) => k a s

/-- `utls::RecursionGuard` around a call,
`src/pdfmm/private/PdfDeclarationsPrivate.cpp:1220-1249`: the constructor increments first and then
checks; when it throws no destructor runs, so the increment stays. -/
def guarded {α : Type} (max : Nat) (m : P α) : P α := fun s =>
  if s.depth + 1 > max then (raise .InvalidXRef, { s with depth := s.depth + 1 })
  else match m { s with depth := s.depth + 1 } with
    | (r, s') => (r, { s' with depth := s'.depth - 1 })

/-- The key `Contents`. -/
def kContents : Bytes := [67, 111, 110, 116, 101, 110, 116, 115]
/-- The key `Type`. -/
def kType : Bytes := [84, 121, 112, 101]

mutual
/-- `PdfTokenizer::tryReadDataType`, `src/pdfmm/base/PdfTokenizer.cpp:373-403`; `none` is
`return false`.  Strings are read without encryption. The first argument is fuel: the number of
nested or repeated reads allowed (`C20_parse_terminates` shows the top-level amount is enough). -/
def readDT (cfg : Cfg) : Nat → Det → P (Option Var)
  | _, .val v => fun s => (.ok (some v), s)
  | _, .unknown => fun s => (.ok none, s)
  | _, .str => fun s => (.ok (some (.str (readString s.inp).1 false)), { s with inp := (readString s.inp).2 })
  | _, .hex => fun s => (.ok (some (.str (readHex s.inp).1 true)), { s with inp := (readHex s.inp).2 })
  | _, .name => fun s => (.ok (some (.name (readName cfg.cap s).1)), (readName cfg.cap s).2)
  | 0, .arr => fun s => (.error .diverge, s)
  | 0, .dict => fun s => (.error .diverge, s)
  | f + 1, .arr => fun s => readArr cfg f [] s
  | f + 1, .dict => fun s => readDict cfg f [] none s

/-- `PdfTokenizer::ReadArray`, `src/pdfmm/base/PdfTokenizer.cpp:468-488`.  Elements go through the
guarded `TryReadNextVariant` (232-237). -/
def readArr (cfg : Cfg) : Nat → List Var → P (Option Var)
  | 0, _ => fun s => (.error .diverge, s)
  | f + 1, acc => fun s =>
    match tryReadToken cfg.cap s with
    | (none, s) => (raise .UnexpectedEOF, s)
    | (some t, s) =>
      if t.type = .sqR then (.ok (some (.arr acc)), s)
      else
        match guarded cfg.maxDepth ((determine cfg t).andThen (fun d => readDT cfg f d)) s with
        | (.error e, s) => (.error e, s)
        | (.ok none, s) => (raise .InvalidDataType, s)
        | (.ok (some v), s) => readArr cfg f (acc ++ [v]) s

/-- `PdfTokenizer::ReadDictionary`, `src/pdfmm/base/PdfTokenizer.cpp:405-466`.  Keys go through the
guarded `ReadNextVariant`; values are read by `DetermineDataType` and `tryReadDataType` directly,
without a guard.  `con` is `contentsHexBuffer`, already decoded. -/
def readDict (cfg : Cfg) : Nat → List (Bytes × Var) → Option Bytes → P (Option Var)
  | 0, _, _ => fun s => (.error .diverge, s)
  | f + 1, acc, con => fun s =>
    match tryReadToken cfg.cap s with
    | (none, s) => (raise .UnexpectedEOF, s)
    | (some t, s) =>
      if t.type = .dAngleR then
        match con with
        | none => (.ok (some (.dict acc)), s)
        | some b => (.ok (some (.dict (SMap.insert kContents (.str b true) acc))), s)
      else
        match guarded cfg.maxDepth ((determine cfg t).andThen (fun d => readDT cfg f d)) s with
        | (.error e, s) => (.error e, s)
        | (.ok (some (.name key)), s) =>
          match tryReadToken cfg.cap s with
          | (none, s) => (raise .UnexpectedEOF, s)
          | (some t, s) =>
            match determine cfg t s with
            | (.error e, s) => (.error e, s)
            | (.ok d, s) =>
              if key = kContents ∧ d.isHex = true then
                readDict cfg f acc (some (readHex s.inp).1) { s with inp := (readHex s.inp).2 }
              else
                match readDT cfg f d s with
                | (.error e, s) => (.error e, s)
                | (.ok none, s) => (raise .InvalidDataType, s)
                | (.ok (some v), s) => readDict cfg f (SMap.insert key v acc) con s
        | (.ok _, s) => (raise .InvalidDataType, s)
end

/-- `PdfTokenizer::TryReadNextVariant(device, token, ...)`, `src/pdfmm/base/PdfTokenizer.cpp:232-237`. -/
def readTok (cfg : Cfg) (f : Nat) (t : Tok) : P (Option Var) :=
  guarded cfg.maxDepth ((determine cfg t).andThen (fun d => readDT cfg f d))

/-- Bytes and queued token bytes still to be read. -/
def PS.weight (s : PS) : Nat := s.inp.length + (s.queue.map (fun t => t.text.length)).sum

/-- `PdfTokenizer::TryReadNextVariant(device, variant, encrypt)`,
`src/pdfmm/base/PdfTokenizer.cpp:216-224`, with fuel that always suffices. -/
def tryReadVariant (cfg : Cfg) : P (Option Var) := fun s =>
  match tryReadToken cfg.cap s with
  | (none, s) => (.ok none, s)
  | (some t, s) => readTok cfg (2 * s.weight + 2) t s

/-- Reading one value from a fresh tokenizer on a fresh thread. -/
def parse (cfg : Cfg) (inp : Bytes) : Res (Option Var) × PS := tryReadVariant cfg ⟨[], inp, 0⟩

/-! ### The writer -/

/-- `PdfWriteFlags`, `src/pdfmm/base/PdfDeclarations.h:119-130` (the two flags that matter here). -/
structure WFlags where
  clean : Bool
  noInline : Bool
  deriving DecidableEq

/-- The space before literals, `src/pdfmm/base/PdfVariant.cpp:152-153`. -/
def WFlags.sp (f : WFlags) : Bytes := if f.noInline then [] else [32]

/-- Text added only in clean mode. -/
def WFlags.cl (f : WFlags) (t : Bytes) : Bytes := if f.clean then t else []

/-- Rounding of `± m / 10^s` to six digits, half to even; `DefaultPrecision` is 6
(`src/pdfmm/base/PdfVariant.cpp:18`).  The C++ rounds the double, the model the decimal. -/
def round6 (m s : Nat) : Nat :=
  if s ≤ 6 then m * 10 ^ (6 - s)
  else
    let q := m / 10 ^ (s - 6)
    let r := m % 10 ^ (s - 6)
    if 2 * r < 10 ^ (s - 6) then q else if 2 * r > 10 ^ (s - 6) then q + 1
    else if q % 2 = 0 then q else q + 1

/-- The text of the entries of a dictionary given the texts of its values,
`src/pdfmm/base/PdfDictionary.cpp:198-224`: `/Type` first, then the others in map order. -/
def dictBody (f : WFlags) (kvs : List (Bytes × Bytes)) : Bytes :=
  (match SMap.find? kType kvs with
    | some t => [47, 84, 121, 112, 101] ++ f.cl [32] ++ t ++ f.cl [10]
    | none => []) ++
  (kvs.filter (fun p => p.1 ≠ kType)).flatMap
    (fun p => 47 :: escapeNameBody p.1 ++ f.cl [32] ++ p.2 ++ f.cl [10])

mutual
/-- The text produced by `PdfVariant::Write`, `src/pdfmm/base/PdfVariant.cpp:145-207`,
`PdfReference::Write` (`src/pdfmm/base/PdfReference.cpp:25-32`), `PdfArray::Write`
(`src/pdfmm/base/PdfArray.cpp:192-217`) and `PdfDictionary::Write`
(`src/pdfmm/base/PdfDictionary.cpp:190-227`), without encryption. -/
def text (f : WFlags) : Var → Bytes
  | .null => f.sp ++ [110, 117, 108, 108]
  | .bool true => f.sp ++ [116, 114, 117, 101]
  | .bool false => f.sp ++ [102, 97, 108, 115, 101]
  | .num n => f.sp ++ fmtInt n
  | .real neg m s => f.sp ++ (match formatReal neg (round6 m s) 6 with | .ok t => t | .error _ => [])
  | .str d hex => writeString d hex
  | .name n => 47 :: escapeNameBody n
  | .ref o g => f.sp ++ (fmtNat o ++ 32 :: (fmtNat g ++ [32, 82]))
  | .arr l => 91 :: (f.cl [32] ++ (textArr f 1 l ++ [93]))
  | .dict l => [60, 60] ++ (f.cl [10] ++ (dictBody f (textKVs f l) ++ [62, 62]))

/-- The loop of `PdfArray::Write`, `src/pdfmm/base/PdfArray.cpp:204-214`. -/
def textArr (f : WFlags) : Nat → List Var → Bytes
  | _, [] => []
  | c, v :: r => text f v ++ (f.cl [if c % 10 = 0 then 10 else 32] ++ textArr f (c + 1) r)

/-- The values of a dictionary, written. -/
def textKVs (f : WFlags) : List (Bytes × Var) → List (Bytes × Bytes)
  | [] => []
  | p :: r => (p.1, text f p.2) :: textKVs f r
end

mutual
/-- Whether some name in the value contains NUL, so that writing raises `InvalidName`
(`src/pdfmm/base/PdfName.cpp:152-155`). -/
def hasNulName : Var → Bool
  | .name n => n.contains 0
  | .arr l => hasNulNameArr l
  | .dict l => hasNulNameKVs l
  | _ => false
def hasNulNameArr : List Var → Bool
  | [] => false
  | v :: r => hasNulName v || hasNulNameArr r
def hasNulNameKVs : List (Bytes × Var) → Bool
  | [] => false
  | p :: r => p.1.contains 0 || hasNulName p.2 || hasNulNameKVs r
end

/-- `PdfVariant::Write`.  A raise abandons the output, so what was written before it is not
modelled. -/
def writeVar (f : WFlags) (v : Var) : Res Bytes :=
  if hasNulName v then raise .InvalidName else .ok (text f v)

end Pdfmm
