import Verif.Base.Basic

set_option autoImplicit false

/-! # How shown strings become entries of extracted text

`PdfPage::ExtractTextTo` joins the strings shown on one line into an entry, and with `TokenizeWords` cuts the line into words. Strings are lists of code
points here (the code iterates over their UTF-8 form with `utf8::next`). How far apart two strings are is a parameter. -/

namespace Pdfmm

/-- A string of code points. -/
abbrev Cps := List Nat

/-- `utls::IsWhiteSpace`, `src/pdfmm/private/PdfDeclarationsPrivate.cpp:519-557`. -/
def isWhiteCp (c : Nat) : Bool :=
  [0x20, 0xA0, 0x1680, 0x2000, 0x2001, 0x2002, 0x2003, 0x2004, 0x2005, 0x2006, 0x2007, 0x2008, 0x2009, 0x200A, 0x202F, 0x205F, 0x3000,
    0x2028, 0x2029, 9, 10, 11, 12, 13, 0x85].contains c

/-- `utls::IsStringEmptyOrWhiteSpace`, `src/pdfmm/private/PdfDeclarationsPrivate.cpp:605-617`, kept in `StatefulString::IsWhiteSpace`. -/
def isWhiteStr (s : Cps) : Bool := s.all isWhiteCp

/-- `StatefulString::BeginsWithWhiteSpace`, `src/pdfmm/base/PdfPage_TextExtraction.cpp:773-786`: the loop goes on past the first character. -/
def beginsWhiteStr (s : Cps) : Bool := s.any isWhiteCp

/-- `StatefulString::EndsWithWhiteSpace`, `src/pdfmm/base/PdfPage_TextExtraction.cpp:788-801`. -/
def endsWhiteStr (s : Cps) : Bool := s.foldl (fun _ c => isWhiteCp c) false

/-- The position of the white space at the end, `src/pdfmm/private/PdfDeclarationsPrivate.cpp:621-639`. -/
def firstWhite : Nat → Option Nat → Cps → Option Nat
  | _, w, [] => w
  | i, w, c :: cs => firstWhite (i + 1) (if isWhiteCp c then some (w.getD i) else none) cs

/-- `utls::TrimSpacesEnd`, `src/pdfmm/private/PdfDeclarationsPrivate.cpp:619-645`. -/
def trimEndStr (s : Cps) : Cps :=
  match firstWhite 0 none s with
  | none => s
  | some i => s.take i

/-- `splitStringBySpaces`, `src/pdfmm/base/PdfPage_TextExtraction.cpp:1122-1179`: the text of the pieces. -/
def splitStrGo : Cps → Bool → Cps → List Cps
  | cur, _, [] => if cur = [] then [] else [cur]
  | cur, pw, c :: cs =>
    if cur ≠ [] ∧ isWhiteCp c ≠ pw then cur :: splitStrGo [c] (isWhiteCp c) cs else splitStrGo (cur ++ [c]) (isWhiteCp c) cs

/-- The inner loop of `splitChunkBySpaces`, `src/pdfmm/base/PdfPage_TextExtraction.cpp:1103-1117`. -/
def splitChunkGo : List Cps → Bool → List Cps → List (List Cps)
  | ch, _, [] => if ch = [] then [] else [ch]
  | ch, pw, s :: ss =>
    if ch ≠ [] ∧ isWhiteStr s ≠ pw then ch :: splitChunkGo [s] (isWhiteStr s) ss else splitChunkGo (ch ++ [s]) (isWhiteStr s) ss

/-- `splitChunkBySpaces`, `src/pdfmm/base/PdfPage_TextExtraction.cpp:1092-1119`. -/
def splitChunk (chunk : List Cps) : List (List Cps) := chunk.flatMap fun s => splitChunkGo [] true (splitStrGo [] true s)

/-- `isWhiteSpaceChunk`, `src/pdfmm/base/PdfPage_TextExtraction.cpp:1222-1231`. -/
def isWhiteChunk (ch : List Cps) : Bool := ch.all isWhiteStr

/-- The state of the loop over chunks when words are wanted, `src/pdfmm/base/PdfPage_TextExtraction.cpp:449-452`. -/
structure Batches where
  done : List (List (List Cps))
  whites : List (List Cps)
  cur : List (List Cps)

/-- One chunk without mixed content, `src/pdfmm/base/PdfPage_TextExtraction.cpp:470-489`. -/
def Batches.add (b : Batches) (p : List Cps) : Batches :=
  if isWhiteChunk p then ⟨if b.cur ≠ [] then b.done ++ [b.cur] else b.done, b.whites ++ [p], []⟩
  else ⟨b.done, [], b.cur ++ b.whites ++ [p]⟩

/-- The batches, `src/pdfmm/base/PdfPage_TextExtraction.cpp:446-491`. -/
def batchesOf (chunks : List (List Cps)) : List (List (List Cps)) :=
  let b := (chunks.flatMap splitChunk).foldl Batches.add ⟨[], [], []⟩
  b.done ++ if b.cur ≠ [] then [b.cur] else []

/-- `trimSpacesBegin`, `src/pdfmm/base/PdfPage_TextExtraction.cpp:1181-1200`, with `GetTrimmedBegin`, `:724-771`. -/
def trimChunkFront : List Cps → List Cps
  | [] => []
  | s :: ss => if isWhiteStr s then trimChunkFront ss else s.dropWhile isWhiteCp :: ss

/-- `trimSpacesEnd`, `src/pdfmm/base/PdfPage_TextExtraction.cpp:1202-1220`, on the reversed list. -/
def trimChunkBackR : List Cps → List Cps
  | [] => []
  | s :: ss => if isWhiteStr s then trimChunkBackR ss else trimEndStr s :: ss

/-- Trimming at the beginning, `src/pdfmm/base/PdfPage_TextExtraction.cpp:511-526`; `none` when nothing is left. -/
def trimFront : List (List Cps) → Option (List (List Cps))
  | [] => none
  | c :: cs => if isWhiteChunk c then trimFront cs else some (trimChunkFront c :: cs)

/-- Trimming at the end, `src/pdfmm/base/PdfPage_TextExtraction.cpp:528-540`, on the reversed list: the loop does not look whether the list became empty. -/
def trimBackR : List (List Cps) → Res (List (List Cps))
  | [] => .error .ub
  | c :: cs => if isWhiteChunk c then trimBackR cs else .ok ((trimChunkBackR c.reverse).reverse :: cs)

/-- The text of an entry, `src/pdfmm/base/PdfPage_TextExtraction.cpp:543-559` with `processChunks`, `:1265-1287`, without pattern and clipping. The two assertions
on non-empty lists are not compiled in release builds, where the accesses are undefined. -/
def entryTextOf (chunks : List (List Cps)) : Res (List Cps) :=
  match chunks with
  | [] => .error .ub
  | [] :: _ => .error .ub
  | _ => .ok [chunks.flatten.flatten]

/-- `addEntryChunk`, `src/pdfmm/base/PdfPage_TextExtraction.cpp:506-663`. -/
def addEntryChunk (trim : Bool) (chunks : List (List Cps)) : Res (List Cps) :=
  if trim then
    match trimFront chunks with
    | none => .ok []
    | some cs => (trimBackR cs.reverse).bind fun cs => entryTextOf cs.reverse
  else entryTextOf chunks

/-- The entries of all batches, `src/pdfmm/base/PdfPage_TextExtraction.cpp:493-497`. -/
def addBatches (trim : Bool) : List (List (List Cps)) → Res (List Cps)
  | [] => .ok []
  | b :: bs => (addEntryChunk trim b).bind fun es => (addBatches trim bs).map fun es' => es ++ es'

/-- The flags that matter for the text, `PdfTextExtractFlags`. -/
structure TextFlags where
  tokenizeWords : Bool
  keepWhiteTokens : Bool

/-- `optionsFromFlags`, `src/pdfmm/base/PdfPage_TextExtraction.cpp:1421-1422`. -/
def TextFlags.trim (f : TextFlags) : Bool := !f.keepWhiteTokens || f.tokenizeWords

/-- `addEntry`, `src/pdfmm/base/PdfPage_TextExtraction.cpp:441-504`. -/
def addEntryText (f : TextFlags) (chunks : List (List Cps)) : Res (List Cps) :=
  if f.tokenizeWords then addBatches f.trim (batchesOf chunks) else addEntryChunk f.trim chunks

/-- How a string stands to the one before it, `src/pdfmm/base/PdfPage_TextExtraction.cpp:1038-1076`: on the same line and not spaced, spaced, spaced widely, on another line. -/
inductive TextGap
  | near | soft | hard | line
  deriving DecidableEq

/-- `ExtractionContext` as far as text goes, `src/pdfmm/base/PdfPage_TextExtraction.cpp:152-154`. -/
structure EntryCtx where
  chunk : List Cps
  chunks : List (List Cps)
  entries : List Cps

/-- `TryPushChunk` and `pushChunk`, `src/pdfmm/base/PdfPage_TextExtraction.cpp:1000-1012`. -/
def EntryCtx.flush (c : EntryCtx) : EntryCtx := if c.chunk = [] then c else ⟨[], c.chunks ++ [c.chunk], c.entries⟩

/-- `ExtractionContext::addEntry`, `src/pdfmm/base/PdfPage_TextExtraction.cpp:1028-1031`; the list of chunks is empty afterwards. -/
def EntryCtx.addEntry (c : EntryCtx) (f : TextFlags) : Res EntryCtx :=
  (addEntryText f c.chunks).map fun es => ⟨c.chunk, [], c.entries ++ es⟩

/-- The previous string, `src/pdfmm/base/PdfPage_TextExtraction.cpp:1053-1063`. -/
def EntryCtx.prev (c : EntryCtx) : Res Cps :=
  match c.chunk.getLast? with
  | some s => .ok s
  | none => match c.chunks.getLast? with
    | none => .error .ub
    | some ch => match ch.getLast? with
      | none => .error .ub
      | some s => .ok s

/-- The fake space, `src/pdfmm/base/PdfPage_TextExtraction.cpp:1065-1067`. -/
def EntryCtx.fake (c : EntryCtx) (prev s : Cps) : EntryCtx :=
  if endsWhiteStr prev || beginsWhiteStr s then c else { c with chunk := c.chunk ++ [[32]] }

/-- `tryAddEntry`, `src/pdfmm/base/PdfPage_TextExtraction.cpp:1033-1078`, once there is a previous string. -/
def EntryCtx.separate (c : EntryCtx) (f : TextFlags) (g : TextGap) (s : Cps) : Res EntryCtx :=
  match g with
  | .near => .ok c
  | .soft => if f.tokenizeWords then c.flush.addEntry f else c.prev.map fun p => c.fake p s
  | .hard => c.flush.addEntry f
  | .line => c.flush.addEntry f

/-- The test before `tryAddEntry` acts, `src/pdfmm/base/PdfPage_TextExtraction.cpp:1036`. -/
def EntryCtx.trySeparate (c : EntryCtx) (f : TextFlags) (g : TextGap) (s : Cps) : Res EntryCtx :=
  if c.chunks ≠ [] ∨ c.chunk ≠ [] then c.separate f g s else .ok c

/-- `PushString`, `src/pdfmm/base/PdfPage_TextExtraction.cpp:978-998`; a string without text is not pushed, `:317-318`, `:343-344`. -/
def EntryCtx.push (c : EntryCtx) (f : TextFlags) (last : Bool) (gs : TextGap × Cps) : Res EntryCtx :=
  if gs.2 = [] then .ok c
  else (c.trySeparate f gs.1 gs.2).map fun c => if last then { c with chunk := c.chunk ++ [gs.2] }.flush else { c with chunk := c.chunk ++ [gs.2] }

/-- A text showing operator: one string, or the strings of an array. -/
inductive ShowOp
  | one (gs : TextGap × Cps)
  | many (l : List (TextGap × Cps))

/-- The strings of an array, `src/pdfmm/base/PdfPage_TextExtraction.cpp:337-363`. -/
def EntryCtx.pushAll (c : EntryCtx) (f : TextFlags) : List (TextGap × Cps) → Res EntryCtx
  | [] => .ok c.flush
  | gs :: l => (c.push f false gs).bind fun c => c.pushAll f l

/-- One operator, `src/pdfmm/base/PdfPage_TextExtraction.cpp:303-366`. -/
def EntryCtx.op (c : EntryCtx) (f : TextFlags) : ShowOp → Res EntryCtx
  | .one gs => c.push f true gs
  | .many l => c.pushAll f l

/-- The loop and `TryAddLastEntry`, `src/pdfmm/base/PdfPage_TextExtraction.cpp:1014-1018`. -/
def EntryCtx.run (c : EntryCtx) (f : TextFlags) : List ShowOp → Res (List Cps)
  | [] => if c.chunks ≠ [] then (c.addEntry f).map EntryCtx.entries else .ok c.entries
  | o :: os => (c.op f o).bind fun c => c.run f os

/-- The texts of the entries `PdfPage::ExtractTextTo` gives for the strings shown. -/
def entriesOf (f : TextFlags) (os : List ShowOp) : Res (List Cps) := EntryCtx.run ⟨[], [], []⟩ f os

/-! ## The specification -/

/-- The words of a text: its longest pieces without white space. -/
def Spec.wordsFrom : Cps → Cps → List Cps
  | w, [] => if w = [] then [] else [w]
  | w, c :: cs => if isWhiteCp c then (if w = [] then [] else [w]) ++ Spec.wordsFrom [] cs else Spec.wordsFrom (w ++ [c]) cs
def Spec.wordsOf (s : Cps) : List Cps := Spec.wordsFrom [] s

/-- A text without the white space around it. -/
def Spec.strip (s : Cps) : Cps := ((s.dropWhile isWhiteCp).reverse.dropWhile isWhiteCp).reverse

/-- Does a text begin, or end, with white space? -/
def Spec.startsBlank (s : Cps) : Bool := match s with | [] => false | c :: _ => isWhiteCp c
def Spec.endsBlank (s : Cps) : Bool := match s.getLast? with | none => false | some c => isWhiteCp c

/-- The lines, from the text of the first one so far: another line or a wide gap ends the line, and so does any space when words are wanted; otherwise a space that is not
there already is written. `starts` tells whether a string begins with white space. -/
def Spec.linesFrom (words : Bool) (starts : Cps → Bool) : Cps → List (TextGap × Cps) → List Cps
  | line, [] => [line]
  | line, (.near, s) :: l => Spec.linesFrom words starts (line ++ s) l
  | line, (.soft, s) :: l =>
    if words then line :: Spec.linesFrom words starts s l
    else Spec.linesFrom words starts (line ++ (if Spec.endsBlank line || starts s then [] else [32]) ++ s) l
  | line, (.hard, s) :: l => line :: Spec.linesFrom words starts s l
  | line, (.line, s) :: l => line :: Spec.linesFrom words starts s l

/-- The strings shown, without the empty ones. -/
def Spec.shownStrings (os : List ShowOp) : List (TextGap × Cps) :=
  (os.flatMap fun | .one gs => [gs] | .many l => l).filter fun gs => gs.2 ≠ []

def Spec.linesOf (words : Bool) (starts : Cps → Bool) : List (TextGap × Cps) → List Cps
  | [] => []
  | (_, s) :: l => Spec.linesFrom words starts s l

/-- What a line gives: its words; or itself without the white space around it, if anything is left; or itself. -/
def Spec.entriesOfLine (f : TextFlags) (line : Cps) : List Cps :=
  if f.tokenizeWords then Spec.wordsOf line
  else if f.keepWhiteTokens then [line]
  else if Spec.strip line = [] then [] else [Spec.strip line]

/-- The entries of a page. -/
def Spec.entries (f : TextFlags) (starts : Cps → Bool) (os : List ShowOp) : List Cps :=
  (Spec.linesOf f.tokenizeWords starts (Spec.shownStrings os)).flatMap (Spec.entriesOfLine f)

/-! ## Trimming -/

theorem dropWhile_white_append {p : Nat → Bool} (a b : Cps) (h : a.all p = true) : (a ++ b).dropWhile p = b.dropWhile p := by
  induction a with
  | nil => rfl
  | cons x a ih =>
    rw [List.all_cons, Bool.and_eq_true] at h
    rw [List.cons_append, List.dropWhile_cons, if_pos h.1, ih h.2]

theorem dropWhile_black_append {p : Nat → Bool} (a b : Cps) (h : a.all p = false) : (a ++ b).dropWhile p = a.dropWhile p ++ b := by
  induction a with
  | nil => cases h
  | cons x a ih =>
    rw [List.cons_append, List.dropWhile_cons, List.dropWhile_cons]
    by_cases hx : p x = true
    · rw [if_pos hx, if_pos hx, ih (by rw [List.all_cons, hx, Bool.true_and] at h; exact h)]
    · rw [if_neg hx, if_neg hx]; rfl

theorem dropWhile_white_all {p : Nat → Bool} (a : Cps) (h : a.all p = true) : a.dropWhile p = [] := by
  have := dropWhile_white_append a [] h
  simpa using this

theorem firstWhite_spec : ∀ (s : Cps) (i : Nat) (w : Option Nat), firstWhite i w s =
    if s.all isWhiteCp then (if s = [] then w else some (w.getD i))
    else if (s.reverse.dropWhile isWhiteCp).length = s.length then none else some (i + (s.reverse.dropWhile isWhiteCp).length) := by
  intro s
  induction s with
  | nil => intro i w; cases w <;> rfl
  | cons c s ih =>
    intro i w
    rw [firstWhite, ih]
    have hl : ∀ t : Cps, (t.dropWhile isWhiteCp).length ≤ t.length := fun t => (List.dropWhile_sublist _).length_le
    cases hs : s.all isWhiteCp with
    | true =>
      cases hc : isWhiteCp c with
      | true =>
        simp only [List.all_cons, hc, hs, Bool.and_self, if_true]
        cases s <;> cases w <;> rfl
      | false =>
        simp only [List.all_cons, hc, Bool.false_and, Bool.false_eq_true, if_false, if_true]
        rw [List.reverse_cons, dropWhile_white_append _ _ (by rw [List.all_reverse]; exact hs), List.dropWhile_cons_of_neg (by rw [hc]; decide)]
        cases s with
        | nil => rfl
        | cons y s => simp
    | false =>
      simp only [List.all_cons, hs, Bool.and_false, Bool.false_eq_true, if_false]
      rw [List.reverse_cons, dropWhile_black_append _ _ (by rw [List.all_reverse]; exact hs)]
      simp only [List.length_append, List.length_cons, List.length_nil]
      by_cases he : (s.reverse.dropWhile isWhiteCp).length = s.length
      · rw [if_pos he, if_pos (by omega)]
      · rw [if_neg he, if_neg (by omega)]; congr 1; omega

theorem trimEndStr_eq (s : Cps) : trimEndStr s = (s.reverse.dropWhile isWhiteCp).reverse := by
  have hsuf : (s.reverse.dropWhile isWhiteCp).reverse = s.take (s.reverse.dropWhile isWhiteCp).length := by
    obtain ⟨t, ht⟩ := List.dropWhile_suffix (l := s.reverse) isWhiteCp
    obtain ⟨x, hx⟩ : ∃ x, x = s.reverse.dropWhile isWhiteCp := ⟨_, rfl⟩
    rw [← hx] at ht ⊢
    have : s = x.reverse ++ t.reverse := by rw [← List.reverse_append, ht, List.reverse_reverse]
    rw [this, List.take_left' (by simp)]
  rw [trimEndStr, firstWhite_spec]
  by_cases hs : s.all isWhiteCp = true
  · rw [if_pos hs, dropWhile_white_all _ (by rw [List.all_reverse]; exact hs)]
    cases s <;> simp
  · rw [if_neg hs]
    by_cases he : (s.reverse.dropWhile isWhiteCp).length = s.length
    · rw [if_pos he, hsuf, he]; simp
    · rw [if_neg he, hsuf]; simp

theorem whiteChunk_iff (ch : List Cps) : isWhiteChunk ch = ch.flatten.all isWhiteCp := by
  rw [isWhiteChunk, List.all_flatten]; rfl

theorem trimChunkFront_flatten : ∀ ch : List Cps, (trimChunkFront ch).flatten = ch.flatten.dropWhile isWhiteCp := by
  intro ch
  induction ch with
  | nil => rfl
  | cons s ss ih =>
    rw [trimChunkFront, List.flatten_cons]
    by_cases hs : isWhiteStr s = true
    · rw [if_pos hs, ih, dropWhile_white_append _ _ hs]
    · rw [if_neg hs, List.flatten_cons, dropWhile_black_append _ _ (by simpa [isWhiteStr] using hs)]

/-- Reading a list of strings backwards. -/
def flatR (ch : List Cps) : Cps := (ch.map List.reverse).flatten

theorem flatR_reverse (ch : List Cps) : flatR ch.reverse = ch.flatten.reverse := by
  rw [flatR, List.reverse_flatten, List.map_reverse]

theorem trimChunkBackR_flat : ∀ ch : List Cps, flatR (trimChunkBackR ch) = (flatR ch).dropWhile isWhiteCp := by
  intro ch
  induction ch with
  | nil => rfl
  | cons s ss ih =>
    rw [trimChunkBackR]
    have e : flatR (s :: ss) = s.reverse ++ flatR ss := rfl
    by_cases hs : isWhiteStr s = true
    · rw [if_pos hs, ih, e, dropWhile_white_append _ _ (by rw [List.all_reverse]; exact hs)]
    · rw [if_neg hs, e, dropWhile_black_append _ _ (by rw [List.all_reverse]; simpa [isWhiteStr] using hs)]
      show (trimEndStr s).reverse ++ flatR ss = _
      rw [trimEndStr_eq, List.reverse_reverse]

theorem trimChunkBack_flatten (ch : List Cps) : (trimChunkBackR ch.reverse).reverse.flatten = (ch.flatten.reverse.dropWhile isWhiteCp).reverse := by
  have h := trimChunkBackR_flat ch.reverse
  rw [flatR_reverse] at h
  rw [← h]
  have := flatR_reverse (trimChunkBackR ch.reverse).reverse
  rw [List.reverse_reverse] at this
  rw [this, List.reverse_reverse]

theorem trimFront_spec : ∀ cs : List (List Cps), (trimFront cs = none ∧ cs.flatten.flatten.all isWhiteCp = true) ∨
    (∃ r, trimFront cs = some r ∧ r.flatten.flatten = cs.flatten.flatten.dropWhile isWhiteCp ∧ cs.flatten.flatten.all isWhiteCp = false) := by
  intro cs
  induction cs with
  | nil => exact .inl ⟨rfl, rfl⟩
  | cons c cs ih =>
    rw [trimFront]
    by_cases hc : isWhiteChunk c = true
    · rw [if_pos hc]
      rw [whiteChunk_iff] at hc
      simp only [List.flatten_cons, List.flatten_append, List.all_append, hc, Bool.true_and, dropWhile_white_append _ _ hc]
      exact ih
    · rw [if_neg hc]
      rw [whiteChunk_iff] at hc
      refine .inr ⟨_, rfl, ?_, ?_⟩
      · simp only [List.flatten_cons, List.flatten_append, trimChunkFront_flatten]
        rw [dropWhile_black_append _ _ (by simpa using hc)]
      · simp only [List.flatten_cons, List.flatten_append, List.all_append, Bool.eq_false_iff.2 hc, Bool.false_and]

theorem trimBackR_spec : ∀ cs : List (List Cps), cs.reverse.flatten.flatten.all isWhiteCp = false →
    ∃ r, trimBackR cs = .ok r ∧ r.reverse.flatten.flatten = (cs.reverse.flatten.flatten.reverse.dropWhile isWhiteCp).reverse := by
  intro cs
  induction cs with
  | nil => intro h; cases h
  | cons c cs ih =>
    intro h
    rw [trimBackR]
    simp only [List.reverse_cons, List.flatten_append, List.flatten_cons, List.flatten_nil, List.append_nil] at h ⊢
    by_cases hc : isWhiteChunk c = true
    · rw [if_pos hc]
      rw [whiteChunk_iff] at hc
      obtain ⟨r, h1, h2⟩ := ih (by rw [List.all_append, hc, Bool.and_true] at h; exact h)
      refine ⟨r, h1, ?_⟩
      rw [h2, List.reverse_append, dropWhile_white_append _ _ (by rw [List.all_reverse]; exact hc)]
    · rw [if_neg hc]
      rw [whiteChunk_iff] at hc
      refine ⟨_, rfl, ?_⟩
      simp only [List.reverse_cons, List.flatten_append, List.flatten_cons, List.flatten_nil, List.append_nil, trimChunkBack_flatten]
      rw [List.reverse_append, dropWhile_black_append _ _ (by rw [List.all_reverse]; simpa using hc)]
      simp


theorem trimChunkFront_ne {ch : List Cps} (h : isWhiteChunk ch ≠ true) : trimChunkFront ch ≠ [] := by
  induction ch with
  | nil => exact absurd rfl h
  | cons s ss ih =>
    rw [trimChunkFront]
    by_cases hs : isWhiteStr s = true
    · rw [if_pos hs]; exact ih fun h' => h (by rw [isWhiteChunk, List.all_cons, hs, Bool.true_and]; exact h')
    · rw [if_neg hs]; exact List.cons_ne_nil _ _

theorem trimChunkBackR_ne {ch : List Cps} (h : isWhiteChunk ch ≠ true) : trimChunkBackR ch ≠ [] := by
  induction ch with
  | nil => exact absurd rfl h
  | cons s ss ih =>
    rw [trimChunkBackR]
    by_cases hs : isWhiteStr s = true
    · rw [if_pos hs]; exact ih fun h' => h (by rw [isWhiteChunk, List.all_cons, hs, Bool.true_and]; exact h')
    · rw [if_neg hs]; exact List.cons_ne_nil _ _

theorem trimFront_ne : ∀ {cs r : List (List Cps)}, (∀ c ∈ cs, c ≠ []) → trimFront cs = some r → ∀ c ∈ r, c ≠ [] := by
  intro cs
  induction cs with
  | nil => intro r _ h; cases h
  | cons c cs ih =>
    intro r hn h
    rw [trimFront] at h
    by_cases hc : isWhiteChunk c = true
    · rw [if_pos hc] at h; exact ih (fun c hm => hn c (List.mem_cons_of_mem _ hm)) h
    · rw [if_neg hc] at h; cases h
      intro x hx
      rcases List.mem_cons.1 hx with rfl | hx
      · exact trimChunkFront_ne hc
      · exact hn x (List.mem_cons_of_mem _ hx)

theorem trimBackR_ne : ∀ {cs r : List (List Cps)}, (∀ c ∈ cs, c ≠ []) → trimBackR cs = .ok r → ∀ c ∈ r, c ≠ [] := by
  intro cs
  induction cs with
  | nil => intro r _ h; cases h
  | cons c cs ih =>
    intro r hn h
    rw [trimBackR] at h
    by_cases hc : isWhiteChunk c = true
    · rw [if_pos hc] at h; exact ih (fun c hm => hn c (List.mem_cons_of_mem _ hm)) h
    · rw [if_neg hc] at h; cases h
      intro x hx
      rcases List.mem_cons.1 hx with rfl | hx
      · have : isWhiteChunk c.reverse ≠ true := by rw [isWhiteChunk, List.all_reverse]; exact hc
        simpa using trimChunkBackR_ne this
      · exact hn x (List.mem_cons_of_mem _ hx)

theorem entryTextOf_ok {cs : List (List Cps)} (hn : ∀ c ∈ cs, c ≠ []) (h : cs ≠ []) : entryTextOf cs = .ok [cs.flatten.flatten] := by
  cases cs with
  | nil => exact absurd rfl h
  | cons c cs =>
    cases c with
    | nil => exact absurd rfl (hn [] List.mem_cons_self)
    | cons s ss => rfl

theorem dropWhile_ne_nil {p : Nat → Bool} : ∀ {a : Cps}, a.all p = false → a.dropWhile p ≠ [] ∧ (a.dropWhile p).all p = false := by
  intro a
  induction a with
  | nil => intro h; cases h
  | cons x a ih =>
    intro h
    rw [List.dropWhile_cons]
    by_cases hx : p x = true
    · rw [if_pos hx]; exact ih (by rw [List.all_cons, hx, Bool.true_and] at h; exact h)
    · rw [if_neg hx]; exact ⟨List.cons_ne_nil _ _, h⟩

theorem strip_nil_iff (s : Cps) : Spec.strip s = [] ↔ s.all isWhiteCp = true := by
  rw [Spec.strip, List.reverse_eq_nil_iff]
  constructor
  · intro h
    cases hs : s.all isWhiteCp with
    | true => rfl
    | false =>
      have := (dropWhile_ne_nil (p := isWhiteCp) (a := (s.dropWhile isWhiteCp).reverse) (by rw [List.all_reverse]; exact (dropWhile_ne_nil hs).2)).1
      exact absurd h this
  · intro h; rw [dropWhile_white_all _ h]; rfl

theorem addEntryChunk_trim {cs : List (List Cps)} (hn : ∀ c ∈ cs, c ≠ []) :
    addEntryChunk true cs = .ok (if Spec.strip cs.flatten.flatten = [] then [] else [Spec.strip cs.flatten.flatten]) := by
  rw [addEntryChunk, if_pos rfl]
  rcases trimFront_spec cs with ⟨h1, h2⟩ | ⟨r, h1, h2, h3⟩
  · rw [h1, if_pos ((strip_nil_iff _).2 h2)]
  · rw [h1, if_neg (fun h => by rw [(strip_nil_iff _).1 h] at h3; cases h3)]
    have hr := (dropWhile_ne_nil h3).2
    rw [← h2] at hr
    obtain ⟨r', h4, h5⟩ := trimBackR_spec r.reverse (by rw [List.reverse_reverse]; exact hr)
    rw [List.reverse_reverse] at h5
    have hn1 := trimFront_ne hn h1
    have hn2 := trimBackR_ne (cs := r.reverse) (fun c hm => hn1 c (List.mem_reverse.1 hm)) h4
    simp only [h4, Except.bind]
    rw [entryTextOf_ok (fun c hm => hn2 c (List.mem_reverse.1 hm)) ?_, h5, h2]
    · rfl
    · intro he
      rw [he] at h5
      have := (dropWhile_ne_nil (p := isWhiteCp) (a := r.flatten.flatten.reverse) (by rw [List.all_reverse]; exact hr)).1
      exact this (by simpa using h5.symm)

/-! ## Words -/

/-- A piece of one kind: all white space or none. -/
def Uniform (s : Cps) : Prop := s ≠ [] ∧ (s.all isWhiteCp = true ∨ ∀ c ∈ s, isWhiteCp c = false)

theorem splitStrGo_spec : ∀ (s cur : Cps) (pw : Bool), (∀ c ∈ cur, isWhiteCp c = pw) →
    (splitStrGo cur pw s).flatten = cur ++ s ∧ ∀ p ∈ splitStrGo cur pw s, Uniform p := by
  have hu : ∀ (cur : Cps) (pw : Bool), (∀ c ∈ cur, isWhiteCp c = pw) → cur ≠ [] → Uniform cur := by
    intro cur pw h hne
    refine ⟨hne, ?_⟩
    cases pw with
    | true => exact .inl (List.all_eq_true.2 h)
    | false => exact .inr h
  intro s
  induction s with
  | nil =>
    intro cur pw h
    rw [splitStrGo]
    by_cases hc : cur = []
    · rw [if_pos hc, hc]; exact ⟨rfl, fun p hp => nomatch hp⟩
    · rw [if_neg hc]
      refine ⟨by simp, fun p hp => ?_⟩
      rw [List.mem_singleton.1 hp]; exact hu cur pw h hc
  | cons c s ih =>
    intro cur pw h
    rw [splitStrGo]
    by_cases hc : cur ≠ [] ∧ isWhiteCp c ≠ pw
    · rw [if_pos hc]
      obtain ⟨h1, h2⟩ := ih [c] (isWhiteCp c) (fun x hx => by rw [List.mem_singleton.1 hx])
      refine ⟨by rw [List.flatten_cons, h1]; rfl, fun p hp => ?_⟩
      rcases List.mem_cons.1 hp with rfl | hp
      · exact hu _ pw h hc.1
      · exact h2 p hp
    · rw [if_neg hc]
      have hw : ∀ x ∈ cur ++ [c], isWhiteCp x = isWhiteCp c := by
        intro x hx
        rcases List.mem_append.1 hx with hx | hx
        · have hcn : cur ≠ [] := fun e => by rw [e] at hx; cases hx
          rw [h x hx]
          cases e : decide (isWhiteCp c = pw) with
          | true => exact (of_decide_eq_true e).symm
          | false => exact absurd ⟨hcn, of_decide_eq_false e⟩ hc
        · rw [List.mem_singleton.1 hx]
      obtain ⟨h1, h2⟩ := ih (cur ++ [c]) (isWhiteCp c) hw
      exact ⟨by rw [h1]; simp, h2⟩

/-- A chunk of one kind. -/
def UniformChunk (ch : List Cps) : Prop := ch ≠ [] ∧ Uniform ch.flatten

theorem uniform_white {s : Cps} (h : Uniform s) (b : Bool) (hb : isWhiteStr s = b) : ∀ c ∈ s, isWhiteCp c = b := by
  rcases h with ⟨hn, h | h⟩
  · rw [isWhiteStr, h] at hb; subst hb; exact List.all_eq_true.1 h
  · cases b with
    | false => exact h
    | true =>
      cases s with
      | nil => exact absurd rfl hn
      | cons x s =>
        rw [isWhiteStr, List.all_cons, h x List.mem_cons_self] at hb
        cases hb

theorem splitChunkGo_spec : ∀ (ss : List Cps) (ch : List Cps) (pw : Bool), (∀ s ∈ ss, Uniform s) → (∀ s ∈ ch, s ≠ [] ∧ ∀ c ∈ s, isWhiteCp c = pw) →
    (splitChunkGo ch pw ss).flatten.flatten = ch.flatten ++ ss.flatten ∧ ∀ p ∈ splitChunkGo ch pw ss, UniformChunk p := by
  have hu : ∀ (ch : List Cps) (pw : Bool), (∀ s ∈ ch, s ≠ [] ∧ ∀ c ∈ s, isWhiteCp c = pw) → ch ≠ [] → UniformChunk ch := by
    intro ch pw h hne
    refine ⟨hne, ?_, ?_⟩
    · cases ch with
      | nil => exact absurd rfl hne
      | cons s ch =>
        have := (h s List.mem_cons_self).1
        simp [this]
    · have : ∀ c ∈ ch.flatten, isWhiteCp c = pw := by
        intro c hc
        obtain ⟨s, hs, hc⟩ := List.mem_flatten.1 hc
        exact (h s hs).2 c hc
      cases pw with
      | true => exact .inl (List.all_eq_true.2 this)
      | false => exact .inr this
  intro ss
  induction ss with
  | nil =>
    intro ch pw _ h
    rw [splitChunkGo]
    by_cases hc : ch = []
    · rw [if_pos hc, hc]; exact ⟨rfl, fun p hp => nomatch hp⟩
    · rw [if_neg hc]
      refine ⟨by simp, fun p hp => ?_⟩
      rw [List.mem_singleton.1 hp]; exact hu ch pw h hc
  | cons s ss ih =>
    intro ch pw hss h
    have hs := hss s List.mem_cons_self
    have hss' : ∀ s ∈ ss, Uniform s := fun s hm => hss s (List.mem_cons_of_mem _ hm)
    rw [splitChunkGo]
    by_cases hc : ch ≠ [] ∧ isWhiteStr s ≠ pw
    · rw [if_pos hc]
      obtain ⟨h1, h2⟩ := ih [s] (isWhiteStr s) hss' (fun x hx => by rw [List.mem_singleton.1 hx]; exact ⟨hs.1, uniform_white hs _ rfl⟩)
      refine ⟨by rw [List.flatten_cons, List.flatten_append, h1]; simp, fun p hp => ?_⟩
      rcases List.mem_cons.1 hp with rfl | hp
      · exact hu _ pw h hc.1
      · exact h2 p hp
    · rw [if_neg hc]
      have hw : ∀ x ∈ ch ++ [s], x ≠ [] ∧ ∀ c ∈ x, isWhiteCp c = isWhiteStr s := by
        intro x hx
        rcases List.mem_append.1 hx with hx | hx
        · have hcn : ch ≠ [] := fun e => by rw [e] at hx; cases hx
          refine ⟨(h x hx).1, fun c hcx => ?_⟩
          rw [(h x hx).2 c hcx]
          cases e : decide (isWhiteStr s = pw) with
          | true => exact (of_decide_eq_true e).symm
          | false => exact absurd ⟨hcn, of_decide_eq_false e⟩ hc
        · rw [List.mem_singleton.1 hx]; exact ⟨hs.1, uniform_white hs _ rfl⟩
      obtain ⟨h1, h2⟩ := ih (ch ++ [s]) (isWhiteStr s) hss' hw
      exact ⟨by rw [h1]; simp, h2⟩

theorem splitChunk_spec : ∀ ch : List Cps, (splitChunk ch).flatten.flatten = ch.flatten ∧ ∀ p ∈ splitChunk ch, UniformChunk p := by
  intro ch
  induction ch with
  | nil => exact ⟨rfl, fun p hp => nomatch hp⟩
  | cons s ch ih =>
    obtain ⟨h1, h2⟩ := splitStrGo_spec s [] true (fun c hc => nomatch hc)
    obtain ⟨h3, h4⟩ := splitChunkGo_spec (splitStrGo [] true s) [] true h2 (fun c hc => nomatch hc)
    have e : splitChunk (s :: ch) = splitChunkGo [] true (splitStrGo [] true s) ++ splitChunk ch := rfl
    rw [e]
    refine ⟨by rw [List.flatten_append, List.flatten_append, h3, h1, ih.1]; rfl, fun p hp => ?_⟩
    rcases List.mem_append.1 hp with hp | hp
    · exact h4 p hp
    · exact ih.2 p hp

theorem splitChunks_spec : ∀ cs : List (List Cps), (cs.flatMap splitChunk).flatten.flatten = cs.flatten.flatten ∧ ∀ p ∈ cs.flatMap splitChunk, UniformChunk p := by
  intro cs
  induction cs with
  | nil => exact ⟨rfl, fun p hp => nomatch hp⟩
  | cons c cs ih =>
    rw [List.flatMap_cons]
    refine ⟨by rw [List.flatten_append, List.flatten_append, (splitChunk_spec c).1, ih.1]; simp, fun p hp => ?_⟩
    rcases List.mem_append.1 hp with hp | hp
    · exact (splitChunk_spec c).2 p hp
    · exact ih.2 p hp

theorem wordsFrom_white : ∀ (a : Cps) (w b : Cps), a.all isWhiteCp = true → a ≠ [] → Spec.wordsFrom w (a ++ b) = (if w = [] then [] else [w]) ++ Spec.wordsFrom [] b := by
  intro a
  induction a with
  | nil => intro w b _ h; exact absurd rfl h
  | cons x a ih =>
    intro w b h _
    rw [List.all_cons, Bool.and_eq_true] at h
    rw [List.cons_append, Spec.wordsFrom, if_pos h.1]
    cases a with
    | nil => rfl
    | cons y a => rw [ih [] b h.2 (List.cons_ne_nil _ _)]; rfl

theorem wordsFrom_black : ∀ (a : Cps) (w b : Cps), (∀ c ∈ a, isWhiteCp c = false) → Spec.wordsFrom w (a ++ b) = Spec.wordsFrom (w ++ a) b := by
  intro a
  induction a with
  | nil => intro w b _; simp
  | cons x a ih =>
    intro w b h
    rw [List.cons_append, Spec.wordsFrom, if_neg (by rw [h x List.mem_cons_self]; decide), ih _ _ (fun c hc => h c (List.mem_cons_of_mem _ hc))]
    simp

theorem strip_word (a b : Cps) (ha : a.all isWhiteCp = true) (hbw : ∀ c ∈ b, isWhiteCp c = false) : Spec.strip (a ++ b) = b := by
  have hd : ∀ b : Cps, (∀ c ∈ b, isWhiteCp c = false) → b.dropWhile isWhiteCp = b := by
    intro b hb
    cases b with
    | nil => rfl
    | cons x b => rw [List.dropWhile_cons, if_neg (by rw [hb x List.mem_cons_self]; decide)]
  rw [Spec.strip, dropWhile_white_append _ _ ha, hd b hbw, hd b.reverse (fun c hc => hbw c (List.mem_reverse.1 hc)), List.reverse_reverse]

/-- A batch: chunks of white space followed by chunks of a word. -/
def BatchOf (b : List (List Cps)) (w : Cps) : Prop :=
  (∀ c ∈ b, c ≠ []) ∧ ∃ a, b.flatten.flatten = a ++ w ∧ a.all isWhiteCp = true ∧ w ≠ [] ∧ ∀ c ∈ w, isWhiteCp c = false

theorem batch_entry {b : List (List Cps)} {w : Cps} (h : BatchOf b w) : addEntryChunk true b = .ok [w] := by
  obtain ⟨hn, a, h1, h2, h3, h4⟩ := h
  rw [addEntryChunk_trim hn, h1, strip_word a w h2 h4, if_neg h3]

theorem addBatches_append (x y : List (List (List Cps))) : addBatches true (x ++ y) = (addBatches true x).bind fun es => (addBatches true y).map fun es' => es ++ es' := by
  induction x with
  | nil =>
    show _ = Except.map _ _
    cases h : addBatches true y with
    | error e => rw [List.nil_append, h]; rfl
    | ok v => rw [List.nil_append, h]; rfl
  | cons b x ih =>
    rw [List.cons_append, addBatches, addBatches, ih]
    cases addEntryChunk true b with
    | error e => rfl
    | ok v =>
      cases addBatches true x with
      | error e => rfl
      | ok u =>
        cases addBatches true y with
        | error e => rfl
        | ok t => simp [Except.bind, Except.map]

/-- The state of the loop: the words so far, and the current word, whose batch ends with it. -/
def BatchInv (b : Batches) (done : List Cps) (w : Cps) : Prop :=
  addBatches true b.done = .ok done ∧ (∀ c ∈ b.whites, c ≠ []) ∧ b.whites.flatten.flatten.all isWhiteCp = true ∧
    ((b.cur = [] ∧ w = []) ∨ (b.whites = [] ∧ b.cur ≠ [] ∧ BatchOf b.cur w))

theorem batches_loop : ∀ (ps : List (List Cps)) (b : Batches) (done : List Cps) (w : Cps), (∀ p ∈ ps, UniformChunk p) → BatchInv b done w →
    ∃ done' w', BatchInv (ps.foldl Batches.add b) done' w' ∧ done' ++ (if w' = [] then [] else [w']) = done ++ Spec.wordsFrom w ps.flatten.flatten := by
  intro ps
  induction ps with
  | nil => intro b done w _ h; exact ⟨done, w, h, rfl⟩
  | cons p ps ih =>
    intro b done w hp h
    have hup := hp p List.mem_cons_self
    have hps : ∀ p ∈ ps, UniformChunk p := fun p hm => hp p (List.mem_cons_of_mem _ hm)
    obtain ⟨h1, h2, h3, h4⟩ := h
    rw [List.foldl_cons, List.flatten_cons, List.flatten_append]
    by_cases hw : isWhiteChunk p = true
    · have hwf := hw
      rw [whiteChunk_iff] at hwf
      rw [wordsFrom_white _ _ _ hwf hup.2.1]
      have e : b.add p = ⟨if b.cur ≠ [] then b.done ++ [b.cur] else b.done, b.whites ++ [p], []⟩ := by rw [Batches.add, if_pos hw]
      have hwh : (∀ c ∈ b.whites ++ [p], c ≠ []) := by
        intro c hc
        rcases List.mem_append.1 hc with hc | hc
        · exact h2 c hc
        · rw [List.mem_singleton.1 hc]; exact hup.1
      have hwf' : (b.whites ++ [p]).flatten.flatten.all isWhiteCp = true := by
        simp only [List.flatten_append, List.flatten_cons, List.flatten_nil, List.append_nil, List.all_append, h3, hwf, Bool.and_self]
      rcases h4 with ⟨hc, hw0⟩ | ⟨_, hc, hb⟩
      · obtain ⟨done', w', i1, i2⟩ := ih (b.add p) done [] hps (by
          rw [e]
          refine ⟨?_, hwh, hwf', .inl ⟨rfl, rfl⟩⟩
          simp only [hc, ne_eq, not_true, if_false]; exact h1)
        exact ⟨done', w', i1, by rw [i2, hw0]; rfl⟩
      · obtain ⟨done', w', i1, i2⟩ := ih (b.add p) (done ++ [w]) [] hps (by
          rw [e]
          refine ⟨?_, hwh, hwf', .inl ⟨rfl, rfl⟩⟩
          simp only [hc, ne_eq, not_false_eq_true, if_true]
          rw [addBatches_append, h1]
          simp only [Except.bind, addBatches, batch_entry hb, Except.map]
          rfl)
        obtain ⟨_, a, _, _, hwn, _⟩ := hb
        exact ⟨done', w', i1, by rw [i2, if_neg hwn, List.append_assoc]⟩
    · have hb : ∀ c ∈ p.flatten, isWhiteCp c = false := by
        rcases hup.2.2 with h | h
        · rw [whiteChunk_iff] at hw; exact absurd h hw
        · exact h
      rw [wordsFrom_black _ _ _ hb]
      have e : b.add p = ⟨b.done, [], b.cur ++ b.whites ++ [p]⟩ := by rw [Batches.add, if_neg hw]
      obtain ⟨done', w', i1, i2⟩ := ih (b.add p) done (w ++ p.flatten) hps (by
        rw [e]
        refine ⟨h1, (fun c (hc : c ∈ []) => nomatch hc), rfl, .inr ⟨rfl, by simp, ?_, ?_⟩⟩
        · intro c hc
          rcases List.mem_append.1 hc with hc | hc
          · rcases List.mem_append.1 hc with hc | hc
            · rcases h4 with ⟨h, _⟩ | ⟨_, _, h⟩
              · rw [h] at hc; cases hc
              · exact h.1 c hc
            · exact h2 c hc
          · rw [List.mem_singleton.1 hc]; exact hup.1
        · rcases h4 with ⟨hc, hw0⟩ | ⟨hwn, _, _, a, ha1, ha2, ha3, ha4⟩
          · refine ⟨b.whites.flatten.flatten, by simp [hc, hw0], h3, ?_, ?_⟩
            · rw [hw0]; exact hup.2.1
            · rw [hw0]; exact hb
          · refine ⟨a, by simp [hwn, ha1], ha2, by simp [ha3], ?_⟩
            intro c hc
            rcases List.mem_append.1 hc with hc | hc
            · exact ha4 c hc
            · exact hb c hc)
      exact ⟨done', w', i1, i2⟩

theorem addBatches_words (cs : List (List Cps)) : addBatches true (batchesOf cs) = .ok (Spec.wordsOf cs.flatten.flatten) := by
  obtain ⟨done, w, ⟨h1, _, _, h4⟩, h5⟩ := batches_loop (cs.flatMap splitChunk) ⟨[], [], []⟩ [] [] (splitChunks_spec cs).2
    ⟨rfl, (fun c hc => nomatch hc), rfl, .inl ⟨rfl, rfl⟩⟩
  rw [(splitChunks_spec cs).1, List.nil_append] at h5
  rw [Spec.wordsOf, ← h5, batchesOf, addBatches_append, h1]
  rcases h4 with ⟨hc, hw⟩ | ⟨_, hc, hb⟩
  · simp [hc, hw, addBatches, Except.bind, Except.map]
  · have hwn : w ≠ [] := by obtain ⟨_, a, _, _, h, _⟩ := hb; exact h
    simp [hc, hwn, addBatches, Except.bind, Except.map, batch_entry hb]

/-- What `addEntry` makes of the chunks gathered. -/
theorem addEntryText_spec (f : TextFlags) (cs : List (List Cps)) (hn : ∀ c ∈ cs, c ≠ []) (h : cs ≠ []) :
    addEntryText f cs = .ok (Spec.entriesOfLine f cs.flatten.flatten) := by
  obtain ⟨t, k⟩ := f
  cases t with
  | true => simp only [addEntryText, TextFlags.trim, Bool.or_true, if_true, Spec.entriesOfLine]; exact addBatches_words cs
  | false =>
    cases k with
    | false => simp only [addEntryText, TextFlags.trim, Spec.entriesOfLine]; exact addEntryChunk_trim hn
    | true => simp only [addEntryText, TextFlags.trim, Spec.entriesOfLine]; exact entryTextOf_ok hn h


/-! ## The whole run -/

/-- The text of the line being gathered. -/
def EntryCtx.lineOf (c : EntryCtx) : Cps := (c.chunks.flatten ++ c.chunk).flatten

/-- No empty chunk is kept and no empty string. -/
def EntryCtx.Inv (c : EntryCtx) : Prop := (∀ ch ∈ c.chunks, ch ≠ []) ∧ ∀ s ∈ c.chunks.flatten ++ c.chunk, s ≠ []

/-- What the run will give from here. -/
def EntryCtx.will (c : EntryCtx) (f : TextFlags) (l : List (TextGap × Cps)) : List Cps :=
  c.entries ++ (if c.lineOf = [] then Spec.linesOf f.tokenizeWords beginsWhiteStr l else Spec.linesFrom f.tokenizeWords beginsWhiteStr c.lineOf l).flatMap (Spec.entriesOfLine f)

theorem flatten_ne {l : List Cps} (h : ∀ s ∈ l, s ≠ []) (hl : l ≠ []) : l.flatten ≠ [] := by
  cases l with
  | nil => exact absurd rfl hl
  | cons s l =>
    have := h s List.mem_cons_self
    simp [this]

theorem EntryCtx.Inv.line_nil {c : EntryCtx} (h : c.Inv) : c.lineOf = [] ↔ c.chunks = [] ∧ c.chunk = [] := by
  constructor
  · intro e
    have h0 : c.chunks.flatten ++ c.chunk = [] := by
      cases hd : c.chunks.flatten ++ c.chunk with
      | nil => rfl
      | cons a b => exact absurd e (flatten_ne h.2 (by rw [hd]; exact List.cons_ne_nil _ _))
    have h1 := (List.append_eq_nil_iff.1 h0)
    refine ⟨?_, h1.2⟩
    cases hc : c.chunks with
    | nil => rfl
    | cons x xs =>
      have hx := h.1 x (by rw [hc]; exact List.mem_cons_self)
      rw [hc, List.flatten_cons] at h1
      exact absurd (List.append_eq_nil_iff.1 h1.1).1 hx
  · intro ⟨h1, h2⟩; rw [EntryCtx.lineOf, h1, h2]; rfl

theorem flush_chunk (c : EntryCtx) : c.flush.chunk = [] := by
  rw [EntryCtx.flush]; split
  · assumption
  · rfl

theorem flush_line (c : EntryCtx) : c.flush.lineOf = c.lineOf ∧ c.flush.entries = c.entries := by
  rw [EntryCtx.flush]; split
  · exact ⟨rfl, rfl⟩
  · exact ⟨by simp [EntryCtx.lineOf], rfl⟩

theorem EntryCtx.Inv.flush {c : EntryCtx} (h : c.Inv) : c.flush.Inv := by
  rw [EntryCtx.flush]; split
  · exact h
  · rename_i hc
    refine ⟨?_, ?_⟩
    · intro ch hm
      rcases List.mem_append.1 hm with hm | hm
      · exact h.1 ch hm
      · rw [List.mem_singleton.1 hm]; exact hc
    · intro s hs; exact h.2 s (by simpa using hs)

theorem flush_will (c : EntryCtx) (f : TextFlags) (l : List (TextGap × Cps)) : c.flush.will f l = c.will f l := by
  rw [EntryCtx.will, EntryCtx.will, (flush_line c).1, (flush_line c).2]

theorem addLine_spec {c : EntryCtx} (h : c.Inv) (hc : c.lineOf ≠ []) (f : TextFlags) :
    c.flush.addEntry f = .ok ⟨[], [], c.entries ++ Spec.entriesOfLine f c.lineOf⟩ := by
  have hi := h.flush
  have hl : c.flush.chunks.flatten.flatten = c.lineOf := by
    rw [← (flush_line c).1, EntryCtx.lineOf, flush_chunk, List.append_nil]
  have hn : c.flush.chunks ≠ [] := fun e => hc (by rw [← hl, e]; rfl)
  rw [EntryCtx.addEntry, addEntryText_spec f _ hi.1 hn, hl]
  show Except.ok (EntryCtx.mk c.flush.chunk [] (c.flush.entries ++ _)) = _
  rw [flush_chunk, (flush_line c).2]

theorem foldl_last (s : Cps) : ∀ b : Bool, s.foldl (fun _ c => isWhiteCp c) b = match s.getLast? with | none => b | some c => isWhiteCp c := by
  induction s with
  | nil => intro b; rfl
  | cons x s ih =>
    intro b
    rw [List.foldl_cons, ih]
    cases s with
    | nil => rfl
    | cons y s => rw [List.getLast?_cons_cons]; cases h : (y :: s).getLast? with
      | none => simp at h
      | some z => rfl

theorem endsWhiteStr_eq (s : Cps) : endsWhiteStr s = Spec.endsBlank s := foldl_last s false

theorem endsBlank_append (a b : Cps) (h : b ≠ []) : Spec.endsBlank (a ++ b) = Spec.endsBlank b := by
  cases hb : b.getLast? with
  | none => exact absurd (List.getLast?_eq_none_iff.1 hb) h
  | some x => rw [Spec.endsBlank, Spec.endsBlank, List.getLast?_append, hb]; rfl

theorem endsBlank_flatten {l : List Cps} {p : Cps} (hl : l.getLast? = some p) (hp : p ≠ []) : Spec.endsBlank l.flatten = Spec.endsBlank p := by
  obtain ⟨ys, rfl⟩ := List.getLast?_eq_some_iff.1 hl
  rw [List.flatten_append]
  simpa using endsBlank_append ys.flatten p hp

theorem prev_spec {c : EntryCtx} (h : c.Inv) (hc : c.lineOf ≠ []) : ∃ p, c.prev = .ok p ∧ endsWhiteStr p = Spec.endsBlank c.lineOf := by
  rw [EntryCtx.prev]
  have key : ∀ p, (c.chunks.flatten ++ c.chunk).getLast? = some p → endsWhiteStr p = Spec.endsBlank c.lineOf := by
    intro p hp
    rw [endsWhiteStr_eq, EntryCtx.lineOf, endsBlank_flatten hp (h.2 p (List.mem_of_getLast? hp))]
  cases h1 : c.chunk.getLast? with
  | some p => exact ⟨p, rfl, key p (by rw [List.getLast?_append, h1]; rfl)⟩
  | none =>
    have h1' := List.getLast?_eq_none_iff.1 h1
    cases h2 : c.chunks.getLast? with
    | none => exact absurd (h.line_nil.2 ⟨List.getLast?_eq_none_iff.1 h2, h1'⟩) hc
    | some ch =>
      cases h3 : ch.getLast? with
      | none => exact absurd (List.getLast?_eq_none_iff.1 h3) (h.1 ch (List.mem_of_getLast? h2))
      | some p =>
        refine ⟨p, by simp only [h3], key p ?_⟩
        obtain ⟨ys, e⟩ := List.getLast?_eq_some_iff.1 h2
        rw [h1', List.append_nil, e, List.flatten_append, List.getLast?_append]
        simp [h3]

theorem push_spec {c : EntryCtx} (h : c.Inv) (f : TextFlags) (last : Bool) (g : TextGap) (s : Cps) (hs : s ≠ []) :
    ∃ c', c.push f last (g, s) = .ok c' ∧ c'.Inv ∧ (last = true → c'.chunk = []) ∧ ∀ l, c'.will f l = c.will f ((g, s) :: l) := by
  -- the string joins what `trySeparate` leaves
  have join : ∀ c1 : EntryCtx, c.trySeparate f g s = .ok c1 → c1.Inv →
      (∀ l, c1.entries ++ (Spec.linesFrom f.tokenizeWords beginsWhiteStr (c1.lineOf ++ s) l).flatMap (Spec.entriesOfLine f) = c.will f ((g, s) :: l)) →
      ∃ c', c.push f last (g, s) = .ok c' ∧ c'.Inv ∧ (last = true → c'.chunk = []) ∧ ∀ l, c'.will f l = c.will f ((g, s) :: l) := by
    intro c1 e hi hw
    obtain ⟨c2, hc2⟩ : ∃ c2, c2 = ({ c1 with chunk := c1.chunk ++ [s] } : EntryCtx) := ⟨_, rfl⟩
    have hi2 : c2.Inv := by
      rw [hc2]
      refine ⟨hi.1, fun x hx => ?_⟩
      rw [← List.append_assoc] at hx
      rcases List.mem_append.1 hx with hx | hx
      · exact hi.2 x hx
      · rw [List.mem_singleton.1 hx]; exact hs
    have hl2 : c2.lineOf = c1.lineOf ++ s := by rw [hc2]; simp [EntryCtx.lineOf]
    have hw2 : ∀ l, c2.will f l = c.will f ((g, s) :: l) := by
      intro l
      rw [← hw l, EntryCtx.will, hl2, if_neg (by simp [hs])]
      rw [hc2]
    refine ⟨if last then c2.flush else c2, ?_, ?_, ?_, ?_⟩
    · rw [EntryCtx.push, if_neg hs]
      simp only [e, Except.map, hc2]
    · split
      · exact hi2.flush
      · exact hi2
    · intro hl; rw [if_pos hl]; exact flush_chunk _
    · intro l; split
      · rw [flush_will, hw2]
      · exact hw2 l
  by_cases hc : c.lineOf = []
  · have hn := h.line_nil.1 hc
    refine join c (by rw [EntryCtx.trySeparate, if_neg (by simp [hn.1, hn.2])]) h ?_
    intro l
    rw [EntryCtx.will, if_pos hc, hc]
    rfl
  · have hn : c.chunks ≠ [] ∨ c.chunk ≠ [] := by
      cases h1 : c.chunks with
      | cons a b => exact .inl (List.cons_ne_nil _ _)
      | nil =>
        cases h2 : c.chunk with
        | cons a b => exact .inr (List.cons_ne_nil _ _)
        | nil => exact absurd (h.line_nil.2 ⟨h1, h2⟩) hc
    have hw : ∀ l, c.will f l = c.entries ++ (Spec.linesFrom f.tokenizeWords beginsWhiteStr c.lineOf l).flatMap (Spec.entriesOfLine f) := by
      intro l; rw [EntryCtx.will, if_neg hc]
    have cut : ∀ e : c.trySeparate f g s = c.flush.addEntry f, (∀ l, Spec.linesFrom f.tokenizeWords beginsWhiteStr c.lineOf ((g, s) :: l) =
        c.lineOf :: Spec.linesFrom f.tokenizeWords beginsWhiteStr s l) → ∃ c', c.push f last (g, s) = .ok c' ∧ c'.Inv ∧ (last = true → c'.chunk = []) ∧ ∀ l, c'.will f l = c.will f ((g, s) :: l) := by
      intro e hline
      refine join _ (e.trans (addLine_spec h hc f)) ⟨fun _ hm => (nomatch hm), fun _ hm => (nomatch hm)⟩ ?_
      intro l
      rw [hw, hline, List.flatMap_cons, ← List.append_assoc]
      rfl
    cases g with
    | near =>
      refine join c (by rw [EntryCtx.trySeparate, if_pos hn]; rfl) h ?_
      intro l; rw [hw]; rfl
    | hard => exact cut (by rw [EntryCtx.trySeparate, if_pos hn]; rfl) fun _ => rfl
    | line => exact cut (by rw [EntryCtx.trySeparate, if_pos hn]; rfl) fun _ => rfl
    | soft =>
      by_cases ht : f.tokenizeWords = true
      · refine cut (by rw [EntryCtx.trySeparate, if_pos hn, EntryCtx.separate]; simp only [ht, if_true]) fun l => ?_
        rw [Spec.linesFrom, if_pos ht]
      · obtain ⟨p, hp, hpe⟩ := prev_spec h hc
        have hsep : c.trySeparate f .soft s = .ok (c.fake p s) := by
          rw [EntryCtx.trySeparate, if_pos hn, EntryCtx.separate]
          simp only [if_neg ht, hp]
          rfl
        refine join _ hsep ?_ ?_
        · rw [EntryCtx.fake]; split
          · exact h
          · refine ⟨h.1, fun x hx => ?_⟩
            rw [← List.append_assoc] at hx
            rcases List.mem_append.1 hx with hx | hx
            · exact h.2 x hx
            · rw [List.mem_singleton.1 hx]; exact List.cons_ne_nil _ _
        · intro l
          rw [hw, Spec.linesFrom, if_neg ht, EntryCtx.fake, hpe]
          cases hb : Spec.endsBlank c.lineOf || beginsWhiteStr s with
          | true => simp
          | false => simp [EntryCtx.lineOf]

/-- The strings of one operator that have text. -/
def ShowOp.strings : ShowOp → List (TextGap × Cps)
  | .one gs => [gs].filter fun gs => gs.2 ≠ []
  | .many l => l.filter fun gs => gs.2 ≠ []

theorem pushAll_spec (f : TextFlags) : ∀ (l : List (TextGap × Cps)) {c : EntryCtx}, c.Inv →
    ∃ c', c.pushAll f l = .ok c' ∧ c'.Inv ∧ c'.chunk = [] ∧ ∀ r, c'.will f r = c.will f (l.filter (fun gs => gs.2 ≠ []) ++ r) := by
  intro l
  induction l with
  | nil => intro c h; exact ⟨c.flush, rfl, h.flush, flush_chunk c, fun r => flush_will c f r⟩
  | cons gs l ih =>
    intro c h
    by_cases hs : gs.2 = []
    · obtain ⟨c', h1, h2⟩ := ih h
      refine ⟨c', ?_, ?_⟩
      · rw [EntryCtx.pushAll, EntryCtx.push, if_pos hs]; exact h1
      · rw [List.filter_cons, if_neg (by simp [hs])]; exact h2
    · obtain ⟨c1, h1, h2, _, h4⟩ := push_spec h f false gs.1 gs.2 hs
      obtain ⟨c', h5, h6, h7, h8⟩ := ih h2
      refine ⟨c', ?_, h6, h7, fun r => ?_⟩
      · rw [EntryCtx.pushAll, h1]; exact h5
      · rw [h8, h4, List.filter_cons, if_pos (by simp [hs])]; rfl

theorem op_spec (f : TextFlags) (o : ShowOp) {c : EntryCtx} (h : c.Inv) (hc : c.chunk = []) :
    ∃ c', c.op f o = .ok c' ∧ c'.Inv ∧ c'.chunk = [] ∧ ∀ r, c'.will f r = c.will f (o.strings ++ r) := by
  cases o with
  | many l => exact pushAll_spec f l h
  | one gs =>
    by_cases hs : gs.2 = []
    · refine ⟨c, by rw [EntryCtx.op, EntryCtx.push, if_pos hs], h, hc, fun r => ?_⟩
      rw [ShowOp.strings, List.filter_cons, if_neg (by simp [hs])]; rfl
    · obtain ⟨c1, h1, h2, h3, h4⟩ := push_spec h f true gs.1 gs.2 hs
      refine ⟨c1, h1, h2, h3 rfl, fun r => ?_⟩
      rw [h4, ShowOp.strings, List.filter_cons, if_pos (by simp [hs])]; rfl

theorem run_spec (f : TextFlags) : ∀ (os : List ShowOp) {c : EntryCtx}, c.Inv → c.chunk = [] → c.run f os = .ok (c.will f (os.flatMap ShowOp.strings)) := by
  intro os
  induction os with
  | nil =>
    intro c h hc
    rw [EntryCtx.run, EntryCtx.will]
    have hfl : c.flush = c := by rw [EntryCtx.flush, if_pos hc]
    by_cases hl : c.lineOf = []
    · rw [if_pos hl, if_neg (by simp [(h.line_nil.1 hl).1])]
      simp [Spec.linesOf]
    · have hcs : c.chunks ≠ [] := fun e => hl (h.line_nil.2 ⟨e, hc⟩)
      have := addLine_spec h hl f
      rw [hfl] at this
      rw [if_neg hl, if_pos hcs, this]
      simp [Spec.linesFrom, Except.map]
  | cons o os ih =>
    intro c h hc
    obtain ⟨c', h1, h2, h3, h4⟩ := op_spec f o h hc
    rw [EntryCtx.run, h1, List.flatMap_cons, ← h4]
    exact ih h2 h3

theorem strings_eq (os : List ShowOp) : os.flatMap ShowOp.strings = Spec.shownStrings os := by
  rw [Spec.shownStrings]
  induction os with
  | nil => rfl
  | cons o os ih => rw [List.flatMap_cons, List.flatMap_cons, List.filter_append, ih]; cases o <;> rfl

theorem entriesOf_spec (f : TextFlags) (os : List ShowOp) : entriesOf f os = .ok (Spec.entries f beginsWhiteStr os) := by
  rw [entriesOf, run_spec f os (c := ⟨[], [], []⟩) ⟨fun _ hm => (nomatch hm), fun _ hm => (nomatch hm)⟩ rfl, strings_eq]
  simp [EntryCtx.will, EntryCtx.lineOf, Spec.entries]

theorem linesFrom_congr (words : Bool) (p q : Cps → Bool) : ∀ (l : List (TextGap × Cps)) (line : Cps), (words = false → ∀ s, (TextGap.soft, s) ∈ l → p s = q s) →
    Spec.linesFrom words p line l = Spec.linesFrom words q line l := by
  intro l
  induction l with
  | nil => intro line _; rfl
  | cons gs l ih =>
    intro line h
    have h' : words = false → ∀ s, (TextGap.soft, s) ∈ l → p s = q s := fun hw s hm => h hw s (List.mem_cons_of_mem _ hm)
    obtain ⟨g, s⟩ := gs
    cases g with
    | near => exact ih _ h'
    | hard => exact congrArg _ (ih _ h')
    | line => exact congrArg _ (ih _ h')
    | soft =>
      rw [Spec.linesFrom, Spec.linesFrom]
      cases words with
      | true => rw [if_pos rfl, if_pos rfl, ih _ h']
      | false => rw [h rfl s List.mem_cons_self]; exact ih _ h'

theorem linesOf_congr (words : Bool) (p q : Cps → Bool) (l : List (TextGap × Cps)) (h : words = false → ∀ s, (TextGap.soft, s) ∈ l → p s = q s) :
    Spec.linesOf words p l = Spec.linesOf words q l := by
  cases l with
  | nil => rfl
  | cons gs l => exact linesFrom_congr words p q l gs.2 fun hw s hm => h hw s (List.mem_cons_of_mem _ hm)

/-- With `TokenizeWords`, whatever is shown and however it is cut into strings and operators: the extraction succeeds and the entries are the words of the lines, in order. -/
theorem C158_words (f : TextFlags) (hf : f.tokenizeWords = true) (os : List ShowOp) : entriesOf f os = .ok (Spec.entries f Spec.startsBlank os) := by
  rw [entriesOf_spec, Spec.entries, Spec.entries, linesOf_congr _ beginsWhiteStr Spec.startsBlank _ (by rw [hf]; intro h; cases h)]

/-- Without it, the extraction succeeds and the entries are the lines, stripped unless `KeepWhiteTokens` is given, each space of the layout written once — provided no string that is
spaced from the one before contains white space after its first character only. -/
theorem C158_lines_partial (f : TextFlags) (os : List ShowOp)
    (h : ∀ s, (TextGap.soft, s) ∈ Spec.shownStrings os → Spec.startsBlank s = true ∨ ∀ c ∈ s, isWhiteCp c = false) :
    entriesOf f os = .ok (Spec.entries f Spec.startsBlank os) := by
  rw [entriesOf_spec, Spec.entries, Spec.entries, linesOf_congr _ beginsWhiteStr Spec.startsBlank _ ?_]
  intro _ s hm
  cases s with
  | nil => rfl
  | cons x s =>
    rcases h _ hm with h | h
    · have hx : isWhiteCp x = true := h
      simp [beginsWhiteStr, Spec.startsBlank, hx]
    · have hx := h x List.mem_cons_self
      simp only [beginsWhiteStr, Spec.startsBlank, hx]
      rw [List.any_eq_false]
      intro c hc; rw [h c hc]; decide

/-- Two strings spaced from each other are glued together when the second contains white space further on: the space between them is not written. For any such strings. -/
theorem C158_glued_false (a s : Cps) (ha : Spec.endsBlank a = false) (han : a ≠ []) (hs : Spec.startsBlank s = false) (hw : ∃ c ∈ s, isWhiteCp c = true) (g : TextGap) :
    entriesOf ⟨false, true⟩ [.one (g, a), .one (.soft, s)] = .ok [a ++ s] ∧
      Spec.entries ⟨false, true⟩ Spec.startsBlank [.one (g, a), .one (.soft, s)] = [a ++ [32] ++ s] := by
  obtain ⟨c, hc, hcw⟩ := hw
  have hsn : s ≠ [] := fun e => by rw [e] at hc; cases hc
  have hb : beginsWhiteStr s = true := List.any_eq_true.2 ⟨c, hc, hcw⟩
  constructor
  · rw [entriesOf_spec]
    simp [Spec.entries, Spec.shownStrings, han, hsn, Spec.linesOf, Spec.linesFrom, hb, Spec.entriesOfLine]
  · simp [Spec.entries, Spec.shownStrings, han, hsn, Spec.linesOf, Spec.linesFrom, ha, hs, Spec.entriesOfLine]

/-- The characters that are not white space. -/
def Spec.ink (s : Cps) : Cps := s.filter fun c => !isWhiteCp c

theorem ink_append (a b : Cps) : Spec.ink (a ++ b) = Spec.ink a ++ Spec.ink b := List.filter_append ..

theorem ink_white {a : Cps} (h : a.all isWhiteCp = true) : Spec.ink a = [] :=
  List.filter_eq_nil_iff.2 fun c hc => by rw [List.all_eq_true.1 h c hc]; decide

theorem ink_dropWhile (s : Cps) : Spec.ink (s.dropWhile isWhiteCp) = Spec.ink s := by
  induction s with
  | nil => rfl
  | cons x s ih =>
    rw [List.dropWhile_cons]
    cases hx : isWhiteCp x with
    | true => simp only [if_true]; rw [ih, Spec.ink, Spec.ink, List.filter_cons, hx]; rfl
    | false => simp

theorem ink_reverse (s : Cps) : Spec.ink s.reverse = (Spec.ink s).reverse := List.filter_reverse ..

theorem ink_strip (s : Cps) : Spec.ink (Spec.strip s) = Spec.ink s := by
  rw [Spec.strip, ink_reverse, ink_dropWhile, ink_reverse, List.reverse_reverse, ink_dropWhile]

theorem ink_words : ∀ (s w : Cps), Spec.ink (Spec.wordsFrom w s).flatten = Spec.ink (w ++ s) := by
  intro s
  induction s with
  | nil => intro w; rw [Spec.wordsFrom]; by_cases h : w = [] <;> simp [h]
  | cons x s ih =>
    intro w
    rw [Spec.wordsFrom]
    cases hx : isWhiteCp x with
    | true =>
      simp only [if_true]
      rw [List.flatten_append, ink_append, ih, ink_append w]
      by_cases h : w = [] <;> simp [h, Spec.ink, hx]
    | false =>
      simp only [Bool.false_eq_true, if_false]
      rw [ih]; simp

theorem ink_line (f : TextFlags) (l : Cps) : Spec.ink (Spec.entriesOfLine f l).flatten = Spec.ink l := by
  rw [Spec.entriesOfLine]
  split
  · exact ink_words l []
  · split
    · simp
    · split
      · rename_i h; rw [← ink_strip l, h]; rfl
      · simp [ink_strip]

theorem ink_lines (words : Bool) (p : Cps → Bool) : ∀ (l : List (TextGap × Cps)) (line : Cps),
    Spec.ink (Spec.linesFrom words p line l).flatten = Spec.ink (line ++ (l.map Prod.snd).flatten) := by
  intro l
  induction l with
  | nil => intro line; simp [Spec.linesFrom]
  | cons gs l ih =>
    intro line
    obtain ⟨g, s⟩ := gs
    cases g with
    | near => rw [Spec.linesFrom, ih]; simp
    | hard => rw [Spec.linesFrom, List.flatten_cons, ink_append, ih, ink_append line]; simp
    | line => rw [Spec.linesFrom, List.flatten_cons, ink_append, ih, ink_append line]; simp
    | soft =>
      rw [Spec.linesFrom]
      split
      · rw [List.flatten_cons, ink_append, ih, ink_append line]; simp
      · rw [ih]
        simp only [ink_append, List.map_cons, List.flatten_cons]
        split
        · simp [Spec.ink]
        · rw [ink_white (a := [32]) (by decide)]; simp

theorem ink_flatMap (f : TextFlags) (ls : List Cps) : Spec.ink (ls.flatMap (Spec.entriesOfLine f)).flatten = Spec.ink ls.flatten := by
  induction ls with
  | nil => rfl
  | cons l ls ih => rw [List.flatMap_cons, List.flatten_append, ink_append, ih, ink_line, List.flatten_cons, ink_append]

/-- Nothing is lost, repeated or reordered: for every flags and everything shown, the characters other than white space in the entries, read in order, are exactly those shown. -/
theorem C158_preserved (f : TextFlags) (os : List ShowOp) :
    ∃ es, entriesOf f os = .ok es ∧ Spec.ink es.flatten = Spec.ink ((Spec.shownStrings os).map Prod.snd).flatten := by
  refine ⟨_, entriesOf_spec f os, ?_⟩
  rw [Spec.entries, ink_flatMap]
  cases Spec.shownStrings os with
  | nil => rfl
  | cons gs l => exact ink_lines _ _ l gs.2

/-- With `TokenizeWords` no entry is empty or contains white space. -/
theorem C158_tokens (f : TextFlags) (hf : f.tokenizeWords = true) (os : List ShowOp) :
    ∃ es, entriesOf f os = .ok es ∧ ∀ e ∈ es, e ≠ [] ∧ ∀ c ∈ e, isWhiteCp c = false := by
  refine ⟨_, entriesOf_spec f os, ?_⟩
  have key : ∀ (s w : Cps), (∀ c ∈ w, isWhiteCp c = false) → ∀ e ∈ Spec.wordsFrom w s, e ≠ [] ∧ ∀ c ∈ e, isWhiteCp c = false := by
    intro s
    induction s with
    | nil =>
      intro w hw e he
      rw [Spec.wordsFrom] at he
      split at he
      · cases he
      · rw [List.mem_singleton.1 he]; exact ⟨by assumption, hw⟩
    | cons x s ih =>
      intro w hw e he
      rw [Spec.wordsFrom] at he
      split at he
      · rcases List.mem_append.1 he with he | he
        · split at he
          · cases he
          · rw [List.mem_singleton.1 he]; exact ⟨by assumption, hw⟩
        · exact ih [] (fun c hc => nomatch hc) e he
      · rename_i hx
        refine ih (w ++ [x]) (fun c hc => ?_) e he
        rcases List.mem_append.1 hc with hc | hc
        · exact hw c hc
        · rw [List.mem_singleton.1 hc]; simpa using hx
  intro e he
  obtain ⟨l, _, he⟩ := List.mem_flatMap.1 he
  rw [Spec.entriesOfLine, if_pos hf] at he
  exact key l [] (fun c hc => nomatch hc) e he

example : entriesOf ⟨true, false⟩ [.one (.line, [72, 105, 32]), .many [(.near, [32, 97]), (.near, [98]), (.soft, [99, 32]), (.line, [100])]] =
    .ok [[72, 105], [97, 98], [99], [100]] := by decide
example : entriesOf ⟨false, false⟩ [.one (.line, [32, 72, 105]), .many [(.soft, [97]), (.near, [98]), (.soft, [32, 99, 32]), (.line, [32]), (.hard, [100])]] =
    .ok [[72, 105, 32, 97, 98, 32, 99], [100]] := by decide
example : entriesOf ⟨false, true⟩ [.one (.line, [72]), .one (.soft, [97, 32, 98])] = .ok [[72, 97, 32, 98]] := by decide

end Pdfmm
