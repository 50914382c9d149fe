import Verif.Fonts.CodeSpace
import Verif.Syntax.TokModel
import Verif.Text.TextString
import Verif.Text.NameText
/-
CMaps: reading them from the text of a stream, and writing the `ToUnicode` CMap of a map.
-/
set_option autoImplicit false
namespace Pdfmm

/-- ASCII text as bytes. -/
def asciiB (s : String) : Bytes := s.toList.map fun c => UInt8.ofNat c.toNat

/-! ### The PostScript tokenizer -/

/-- The tokenizer's parameters, `src/pdfmm/base/PdfPostScriptTokenizer.cpp:13-14`: references are not recognised. -/
def psCfg : Cfg := { readRefs := false }

/-- `PdfPostScriptTokenType` with what comes along, `src/pdfmm/base/PdfPostScriptTokenizer.h:23-30`. -/
inductive PsTok
  | keyword (t : Bytes)
  | value (v : Var)
  | procEnter
  | procExit

/-- `PdfPostScriptTokenizer::TryReadNext`, `src/pdfmm/base/PdfPostScriptTokenizer.cpp:30-94`.  After an exception nothing
of the state is used. -/
def psNext (s : PS) : Res (Option PsTok × PS) :=
  match tryReadToken psCfg.cap s with
  | (none, s) => .ok (none, s)
  | (some t, s) =>
    if t.type = .braceL then .ok (some .procEnter, s)
    else if t.type = .braceR then .ok (some .procExit, s)
    else
      match (determine psCfg t).andThen (fun d => readDT psCfg (2 * s.weight + 2) d) s with
      | (.error e, _) => .error e
      | (.ok none, s) => .ok (some (.keyword t.text), s)
      | (.ok (some v), s) => .ok (some (.value v), s)

/-- `PdfPostScriptTokenizer::ReadNextVariant`, `src/pdfmm/base/PdfPostScriptTokenizer.cpp:19-23`. -/
def psVariant (s : PS) : Res (Var × PS) :=
  match tryReadVariant psCfg s with
  | (.error e, _) => .error e
  | (.ok none, _) => raise .UnexpectedEOF
  | (.ok (some v), s) => .ok (v, s)

/-! ### Reading -/

/-- The keywords of a CMap. -/
def kwBeginCodeSpace : Bytes := asciiB "begincodespacerange"
def kwEndCodeSpace : Bytes := asciiB "endcodespacerange"
def kwBeginBfRange : Bytes := asciiB "beginbfrange"
def kwEndBfRange : Bytes := asciiB "endbfrange"
def kwBeginBfChar : Bytes := asciiB "beginbfchar"
def kwEndBfChar : Bytes := asciiB "endbfchar"
def kwBeginCidRange : Bytes := asciiB "begincidrange"
def kwEndCidRange : Bytes := asciiB "endcidrange"
def kwBeginCidChar : Bytes := asciiB "begincidchar"

/-- `readNextVariantSequence`, `src/pdfmm/base/PdfCMapEncoding.cpp:410-442`; `none` is the end of the sequence. -/
def seqNext (endKw : Bytes) (s : PS) : Res (Option Var × PS) :=
  match psNext s with
  | .error e => .error e
  | .ok (none, _) => raise .InvalidStream
  | .ok (some (.keyword t), s) => if t = endKw then .ok (none, s) else raise .InvalidStream
  | .ok (some (.value v), s) => .ok (some v, s)
  | .ok (some .procEnter, _) => raise .InvalidEnumValue
  | .ok (some .procExit, _) => raise .InvalidEnumValue

/-- What is being read: the map and the code sizes seen, `CodeLimits`, `src/pdfmm/base/PdfCMapEncoding.cpp:22-26`. -/
structure CMState where
  map : CodeMap
  mn : Nat
  mx : Nat

/-- The number of bytes of a number, `src/pdfmm/base/PdfCMapEncoding.cpp:333-345`, for a number that is not negative. -/
def numBytes (n : Nat) : Nat :=
  if n < 256 then 1 else if n < 65536 then 2 else if n < 16777216 then 3 else if n < 4294967296 then 4
  else if n < 1099511627776 then 5 else if n < 281474976710656 then 6 else if n < 72057594037927936 then 7 else 8

/-- Bytes as a number, `src/pdfmm/base/PdfCMapEncoding.cpp:350-358`. -/
def beValue (d : Bytes) : Nat := d.foldl (fun a b => a * 256 + b.toNat) 0

/-- `getCodeFromVariant`, `src/pdfmm/base/PdfCMapEncoding.cpp:327-362`: the loop over the bytes of a negative number never
ends, as shifting keeps the sign; a string of more than four bytes is shifted by more bits than an `int` has. -/
def codeOfVar : Var → Res CharCode
  | .num n => if n < 0 then .error .diverge else .ok ⟨n.toNat % 4294967296, numBytes n.toNat⟩
  | .str d _ => if d.length > 4 then .error .ub else .ok ⟨beValue d, d.length⟩
  | _ => raise .InvalidDataType

/-- The update of the limits in `getCodeFromVariant`, `src/pdfmm/base/PdfCMapEncoding.cpp:372-381`. -/
def CMState.code (st : CMState) (v : Var) : Res (CharCode × CMState) :=
  match codeOfVar v with
  | .error e => .error e
  | .ok c => .ok (c, { st with mn := if c.size < st.mn then c.size else st.mn
                               mx := if c.size > st.mx then c.size else st.mx })

/-- `pushMapping`, `src/pdfmm/base/PdfCMapEncoding.cpp:364-370`. -/
def CMState.push (st : CMState) (c : CharCode) (cps : List Nat) : Res CMState :=
  if cps = [] then .ok st
  else
    match st.map.push c cps with
    | .error e => .error e
    | .ok m => .ok { st with map := m }

/-- `handleStringMapping`, `src/pdfmm/base/PdfCMapEncoding.cpp:286-292`, with `handleUtf8String`, `394-403`. -/
def stringPoints (d : Bytes) : Res (List Nat) :=
  match readUtf16 true d with
  | .error e => .error e
  | .ok t =>
    match utf8Decode t with
    | none => .error .exn
    | some cps => .ok cps

/-- `handleNameMapping`, `src/pdfmm/base/PdfCMapEncoding.cpp:389-392`. -/
def namePoints (n : Bytes) : Res (List Nat) :=
  match utf8Decode (PName.ofRaw n).getString with
  | none => .error .exn
  | some cps => .ok cps

/-- What a destination stands for: a string in hexadecimal form or a name. -/
def pointsOf : Var → Res (List Nat)
  | .str d true => stringPoints d
  | .name n => namePoints n
  | _ => raise .InvalidDataType

/-- The loops over the codes of a range: the `i`th code gets what `f` says. -/
def pushRange (lo size : Nat) (f : Nat → Res (List Nat)) : Nat → Nat → CMState → Res CMState
  | _, 0, st => .ok st
  | i, k + 1, st =>
    match f i with
    | .error e => .error e
    | .ok cps =>
      match st.push ⟨(lo + i) % 4294967296, size⟩ cps with
      | .error e => .error e
      | .ok st => pushRange lo size f (i + 1) k st

/-- The destination of the `i`th code of a range in `handleRangeMapping`, `src/pdfmm/base/PdfCMapEncoding.cpp:295-323`.  The
base is meant to lack the last code point but has them all unless there is only one; of no code point the last one
is taken all the same. -/
def rangePoints (dst : List Nat) (i : Nat) : Res (List Nat) :=
  match dst with
  | [] => .error .ub
  | [a] => .ok [(a + i) % 4294967296]
  | a :: b :: r => .ok ((a :: b :: r) ++ [((a :: b :: r).getLastD 0 + i) % 4294967296])

/-- The number of codes of a range, `src/pdfmm/base/PdfCMapEncoding.cpp:152`: unsigned arithmetic. -/
def rangeSize (lo hi : Nat) : Nat := (hi + 4294967296 - lo + 1) % 4294967296

/-- The element of an array, `src/pdfmm/base/PdfCMapEncoding.cpp:157-166`. -/
def arrPoints (l : List Var) (i : Nat) : Res (List Nat) :=
  match l[i]? with
  | none => raise .ValueOutOfRange
  | some v => pointsOf v

/-- One entry of `beginbfrange`, `src/pdfmm/base/PdfCMapEncoding.cpp:148-180`. -/
def bfRange (st : CMState) (lo hi dst : Var) : Res CMState :=
  match st.code lo with
  | .error e => .error e
  | .ok (a, st) =>
    match st.code hi with
    | .error e => .error e
    | .ok (b, st) =>
      match dst with
      | .arr l => pushRange a.code a.size (arrPoints l) 0 (rangeSize a.code b.code) st
      | d =>
        match pointsOf d with
        | .error e => .error e
        | .ok cps => if cps = [] then .error .ub else pushRange a.code a.size (rangePoints cps) 0 (rangeSize a.code b.code) st

/-- One entry of `beginbfchar`, `src/pdfmm/base/PdfCMapEncoding.cpp:194-216`. -/
def bfChar (st : CMState) (src dst : Var) : Res CMState :=
  match st.code src with
  | .error e => .error e
  | .ok (c, st) =>
    match dst with
    | .num n =>
      match st.code (.num n) with
      | .error e => .error e
      | .ok (d, st) => st.push c [d.code]
    | d =>
      match pointsOf d with
      | .error e => .error e
      | .ok cps => st.push c cps

/-- One entry of `begincidrange`, `src/pdfmm/base/PdfCMapEncoding.cpp:227-242`. -/
def cidRange (st : CMState) (lo hi dst : Var) : Res CMState :=
  match st.code lo with
  | .error e => .error e
  | .ok (a, st) =>
    match st.code hi with
    | .error e => .error e
    | .ok (b, st) =>
      match st.code dst with
      | .error e => .error e
      | .ok (d, st) => pushRange a.code a.size (fun i => .ok [(d.code + i) % 4294967296]) 0 (rangeSize a.code b.code) st

/-- One entry of `begincidchar`, `src/pdfmm/base/PdfCMapEncoding.cpp:255-261`. -/
def cidChar (st : CMState) (src dst : Var) : Res CMState :=
  match st.code src with
  | .error e => .error e
  | .ok (c, st) =>
    match st.code dst with
    | .error e => .error e
    | .ok (d, st) => st.push c [d.code]

/-- Sequences of entries of two values, up to their end: `src/pdfmm/base/PdfCMapEncoding.cpp:126-136` and `188-217`. -/
def pairLoop (endKw : Bytes) (step : CMState → Var → Var → Res CMState) : Nat → CMState → PS → Res (CMState × PS)
  | 0, _, _ => .error .diverge
  | n + 1, st, s =>
    match seqNext endKw s with
    | .error e => .error e
    | .ok (none, s) => .ok (st, s)
    | .ok (some a, s) =>
      match psVariant s with
      | .error e => .error e
      | .ok (b, s) =>
        match step st a b with
        | .error e => .error e
        | .ok st => pairLoop endKw step n st s

/-- Sequences of entries of three values: `src/pdfmm/base/PdfCMapEncoding.cpp:142-181` and `221-243`. -/
def tripleLoop (endKw : Bytes) (step : CMState → Var → Var → Var → Res CMState) : Nat → CMState → PS → Res (CMState × PS)
  | 0, _, _ => .error .diverge
  | n + 1, st, s =>
    match seqNext endKw s with
    | .error e => .error e
    | .ok (none, s) => .ok (st, s)
    | .ok (some a, s) =>
      match psVariant s with
      | .error e => .error e
      | .ok (b, s) =>
        match psVariant s with
        | .error e => .error e
        | .ok (c, s) =>
          match step st a b c with
          | .error e => .error e
          | .ok st => tripleLoop endKw step n st s

/-- One entry of `begincodespacerange`, `src/pdfmm/base/PdfCMapEncoding.cpp:132-135`. -/
def codeSpace (st : CMState) (lo hi : Var) : Res CMState :=
  match st.code lo with
  | .error e => .error e
  | .ok (_, st) =>
    match st.code hi with
    | .error e => .error e
    | .ok (_, st) => .ok st

/-- The entries of `begincidchar`, `src/pdfmm/base/PdfCMapEncoding.cpp:252-262`: they are counted, and the first value of each is
read without looking at what was found; `cur` is what the variable holds. -/
def cidCharLoop : Nat → Var → CMState → PS → Res (CMState × PS)
  | 0, _, st, s => .ok (st, s)
  | k + 1, cur, st, s =>
    match psNext s with
    | .error e => .error e
    | .ok (t, s) =>
      match psVariant s with
      | .error e => .error e
      | .ok (b, s) =>
        match cidChar st (match t with | some (.value v) => v | _ => cur) b with
        | .error e => .error e
        | .ok st => cidCharLoop k b st s

/-- The number before `begincidchar`, `src/pdfmm/base/PdfCMapEncoding.cpp:247-250`, truncated to `int`; nothing is read for a
negative one. -/
def cidCount : List Var → Res Nat
  | [.num n] => .ok (if n % 4294967296 < 2147483648 then (n % 4294967296).toNat else 0)
  | [_] => raise .InvalidDataType
  | _ => raise .InvalidStream

/-- What a keyword starts, `src/pdfmm/base/PdfCMapEncoding.cpp:122-267`. -/
def cmapSection (n : Nat) (kw : Bytes) (toks : List Var) (st : CMState) (s : PS) : Res (CMState × PS) :=
  if kw = kwBeginCodeSpace then pairLoop kwEndCodeSpace codeSpace n st s
  else if kw = kwBeginBfRange then tripleLoop kwEndBfRange bfRange n st s
  else if kw = kwBeginBfChar then pairLoop kwEndBfChar bfChar n st s
  else if kw = kwBeginCidRange then tripleLoop kwEndCidRange cidRange n st s
  else if kw = kwBeginCidChar then
    match cidCount toks with
    | .error e => .error e
    | .ok k => cidCharLoop k .null st s
  else .ok (st, s)

/-- `parseCMapObject`, `src/pdfmm/base/PdfCMapEncoding.cpp:104-280`.  The number bounds the tokens read. -/
def cmapLoop : Nat → List Var → CMState → PS → Res CMState
  | 0, _, _, _ => .error .diverge
  | n + 1, toks, st, s =>
    match psNext s with
    | .error e => .error e
    | .ok (none, _) => .ok st
    | .ok (some (.keyword kw), s) =>
      match cmapSection n kw toks st s with
      | .error e => .error e
      | .ok (st, s) => cmapLoop n [] st s
    | .ok (some (.value v), s) => cmapLoop n (v :: toks) st s
    | .ok (some _, _) => raise .InternalLogic

/-- The same for a text. -/
def parseCMap (z : Nat) (text : Bytes) : Res CMState := cmapLoop (text.length + 1) [] ⟨.init z, 255, 0⟩ ⟨[], text, 0⟩

/-- What `CreateFromObject` returns: a CMap encoding or an identity encoding. -/
inductive CMapRead
  | cmap (e : CMapEnc)
  | identity (l : CodeLimits)

/-- The test for an identity, `src/pdfmm/base/PdfCMapEncoding.cpp:65-81`: `prev` is one less than the first code at first. -/
def identLoop : List (CharCode × List Nat) → Nat → Bool
  | [], _ => true
  | (c, cps) :: r, prev =>
    if cps.length > 1 then false
    else if some c.code ≠ cps.head? then false
    else if c.code > (prev + 1) % 4294967296 then false
    else identLoop r c.code

/-- The limits of what was read, `src/pdfmm/base/PdfCMapEncoding.cpp:51-58`. -/
def CMState.limits (st : CMState) : CodeLimits :=
  { st.map.limits with
    minSize := if st.mn < st.map.limits.minSize then st.mn else st.map.limits.minSize
    maxSize := if st.mx > st.map.limits.maxSize then st.mx else st.map.limits.maxSize }

/-- `PdfCMapEncoding::CreateFromObject`, `src/pdfmm/base/PdfCMapEncoding.cpp:47-91`, given the content of the stream. -/
def cmapFromText (z : Nat) (text : Bytes) : Res CMapRead :=
  match parseCMap z text with
  | .error e => .error e
  | .ok st =>
    match st.map.pairs with
    | [] => .ok (.cmap ⟨st.map, st.limits⟩)
    | (c, cps) :: r =>
      if st.limits.minSize = st.limits.maxSize ∧
          identLoop ((c, cps) :: r) ((c.code + 4294967295) % 4294967296) = true then
        .ok (.identity st.limits)
      else .ok (.cmap ⟨st.map, st.limits⟩)

/-- `TryGetCodePoints` of what was read: `src/pdfmm/base/PdfIdentityEncoding.cpp:52-56` for an identity. -/
def CMapRead.codePoints : CMapRead → CharCode → Option (List Nat)
  | .cmap e, c => e.map.codePoints c
  | .identity _, c => some [c.code]

/-- `GetLimits` of what was read. -/
def CMapRead.limits : CMapRead → CodeLimits
  | .cmap e => e.limits
  | .identity l => l

/-! ### Writing -/

/-- `{:0nX}`: a number in upper case hexadecimal digits, at least `n` of them. -/
def hexDigits : Nat → Nat → Bytes
  | 0, _ => []
  | n + 1, v => hexDigits n (v / 16) ++ [hexDigit (UInt8.ofNat (v % 16))]

/-- The number of hexadecimal digits of a 32 bit number, at least `n`. -/
def hexWidth (n v : Nat) : Nat :=
  max n (if v < 16 then 1 else if v < 256 then 2 else if v < 4096 then 3 else if v < 65536 then 4
    else if v < 1048576 then 5 else if v < 16777216 then 6 else if v < 268435456 then 7 else 8)

/-- `PdfCharCode::WriteHexTo`, `src/pdfmm/base/PdfEncodingCommon.cpp:44-90`, with the angle brackets. -/
def hexCode (c : CharCode) : Res Bytes :=
  if 1 ≤ c.size ∧ c.size ≤ 4 then .ok (60 :: (hexDigits (hexWidth (2 * c.size) c.code) c.code ++ [62])) else raise .ValueOutOfRange

/-- One code point of `AppendUTF16CodeTo`, `src/pdfmm/base/PdfEncodingMap.cpp:258-268`, with `WriteUtf16BETo`,
`src/pdfmm/private/PdfDeclarationsPrivate.cpp:906-913`. -/
def utf16Hex (cp : Nat) : Bytes := (be16 (utf16Append cp)).flatMap writeCharHex

/-- The code points separated by spaces, `src/pdfmm/base/PdfEncodingMap.cpp:249-270`. -/
def utf16Seq : List Nat → Bytes
  | [] => []
  | [cp] => utf16Hex cp
  | cp :: d :: r => utf16Hex cp ++ 32 :: utf16Seq (d :: r)

/-- `AppendUTF16CodeTo`, `src/pdfmm/base/PdfEncodingMap.cpp:245-271`. -/
def utf16Text (cps : List Nat) : Bytes := 60 :: (utf16Seq cps ++ [62])

/-- `FormatTo` of an unsigned number, `src/pdfmm/private/PdfDeclarationsPrivate.cpp:71-78`: the buffer has room for nine digits, of
longer numbers the nine characters of the buffer are taken as they are. -/
def fmtU32 (n : Nat) : Res Bytes := if n < 1000000000 then .ok (fmtNat n) else .error .ub

/-- The ranges of `AppendCodeSpaceRange`, `src/pdfmm/base/PdfEncodingMap.cpp:316-334`: the first and last code of each size. -/
def sizeRange (ps : List (CharCode × List Nat)) (size : Nat) : Option (CharCode × CharCode) :=
  match ps.filter (fun p => p.1.size == size) with
  | [] => none
  | p :: r => some (r.foldl (fun a x => (if x.1.code < a.1.code then x.1 else a.1, if x.1.code > a.2.code then x.1 else a.2)) (p.1, p.1))

/-- The text of `AppendCodeSpaceRange`, `src/pdfmm/base/PdfEncodingMap.cpp:336-349`, for the sizes in the order of the hash table. -/
def codeSpaceText (ps : List (CharCode × List Nat)) : List Nat → Res Bytes
  | [] => .ok []
  | size :: r =>
    match sizeRange ps size with
    | none => codeSpaceText ps r
    | some (a, b) =>
      match hexCode a with
      | .error e => .error e
      | .ok ta =>
        match hexCode b with
        | .error e => .error e
        | .ok tb =>
          match codeSpaceText ps r with
          | .error e => .error e
          | .ok t => .ok (ta ++ tb ++ (if t = [] then [] else 10 :: t))

/-- The lines of `PdfEncodingMapBase::AppendToUnicodeEntries`, `src/pdfmm/base/PdfEncodingMap.cpp:360-367`. -/
def bfLines : List (CharCode × List Nat) → Res Bytes
  | [] => .ok []
  | (c, cps) :: r =>
    match hexCode c with
    | .error e => .error e
    | .ok tc =>
      match bfLines r with
      | .error e => .error e
      | .ok t => .ok (tc ++ 32 :: (utf16Text cps ++ 10 :: t))

/-- The beginning of a `ToUnicode` CMap, `src/pdfmm/base/PdfEncoding.cpp:663-674`. -/
def toUnicodeHead : Bytes := asciiB "/CIDInit /ProcSet findresource begin
12 dict begin
begincmap
/CIDSystemInfo <<
   /Registry (Adobe)
   /Ordering (UCS)
   /Supplement 0
>> def
/CMapName /Adobe-Identity-UCS def
/CMapType 2 def
1 begincodespacerange
"

/-- Its end, `src/pdfmm/base/PdfEncoding.cpp:679-683`. -/
def toUnicodeTail : Bytes := asciiB "
endcmap
CMapName currentdict / CMap defineresource pop
end
end"

/-- `writeToUnicodeCMap`, `src/pdfmm/base/PdfEncoding.cpp:653-684`, for a map: `order` is the order of the sizes in the hash table. -/
def toUnicodeText (m : CodeMap) (order : List Nat) : Res Bytes :=
  match codeSpaceText m.pairs order with
  | .error e => .error e
  | .ok cs =>
    match fmtU32 m.pairs.length with
    | .error e => .error e
    | .ok n =>
      match bfLines m.pairs with
      | .error e => .error e
      | .ok ls => .ok (toUnicodeHead ++ cs ++ 10 :: (kwEndCodeSpace ++ 10 :: (n ++ 32 :: (kwBeginBfChar ++ 10 :: (ls ++ kwEndBfChar ++ toUnicodeTail)))))

/-! ### Encodings of one byte -/

/-- The entries of `PdfEncodingMapOneByte::AppendToUnicodeEntries`, `src/pdfmm/base/PdfEncodingMap.cpp:422-429`: from `code` on, `k`
of them. -/
def oneByteLines (look : Nat → Option (List Nat)) : Nat → Nat → Res Bytes
  | _, 0 => .ok []
  | code, k + 1 =>
    match look code with
    | none => raise .InvalidFontFile
    | some cps =>
      match oneByteLines look (code + 1) k with
      | .error e => .error e
      | .ok t => .ok (utf16Text cps ++ 10 :: t)

/-- `PdfEncodingMapOneByte::AppendToUnicodeEntries`, `src/pdfmm/base/PdfEncodingMap.cpp:407-432`: the loop stops before the last
code. -/
def oneByteEntries (l : CodeLimits) (look : Nat → Option (List Nat)) : Res Bytes :=
  match hexCode l.first with
  | .error e => .error e
  | .ok a =>
    match hexCode l.last with
    | .error e => .error e
    | .ok b =>
      match oneByteLines look l.first.code (l.last.code - l.first.code) with
      | .error e => .error e
      | .ok ls => .ok (asciiB "1 beginbfrange
" ++ a ++ 32 :: (b ++ asciiB " [
" ++ ls ++ asciiB "]
" ++ kwEndBfRange))

/-- `writeToUnicodeCMap`, `src/pdfmm/base/PdfEncoding.cpp:653-684`, for an encoding of one byte, with `AppendCodeSpaceRange`,
`src/pdfmm/base/PdfEncodingMap.cpp:273-280`. -/
def oneByteToUnicode (l : CodeLimits) (look : Nat → Option (List Nat)) : Res Bytes :=
  match hexCode l.first with
  | .error e => .error e
  | .ok a =>
    match hexCode l.last with
    | .error e => .error e
    | .ok b =>
      match oneByteEntries l look with
      | .error e => .error e
      | .ok es => .ok (toUnicodeHead ++ (a ++ b) ++ 10 :: (kwEndCodeSpace ++ 10 :: (es ++ toUnicodeTail)))

/-- What is read of a small CMap with a ligature. -/
example :
    (match cmapFromText 1 (asciiB "1 begincodespacerange <01> <03> endcodespacerange 2 beginbfchar <01> <0066> <02> <00660069> endbfchar") with
     | .ok (.cmap e) => e.map.pairs == [(⟨1, 1⟩, [102]), (⟨2, 1⟩, [102, 105])] && e.limits == ⟨1, 1, ⟨1, 1⟩, ⟨2, 1⟩⟩
     | _ => false) = true := by decide +kernel

end Pdfmm
