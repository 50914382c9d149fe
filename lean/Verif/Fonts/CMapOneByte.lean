import Verif.Fonts.CMapRoundTrip
/-
The `ToUnicode` CMaps of encodings of one byte and of identities are not read back.
-/
set_option autoImplicit false
namespace Pdfmm
open Spec

/-! ### Identities -/

/-- `getLimits`, `src/pdfmm/base/PdfIdentityEncoding.cpp:109-116`: `2` to the bits of the code is converted to `unsigned`. -/
def identityLimits (n : Nat) : Res CodeLimits :=
  if n = 0 ∨ n > 4 then raise .ValueOutOfRange
  else if 2 ^ (n * 8) ≥ 4294967296 then .error .ub
  else .ok ⟨n, n, ⟨0, n⟩, ⟨2 ^ (n * 8), n⟩⟩

/-- `PdfIdentityEncoding::AppendToUnicodeEntries`, `src/pdfmm/base/PdfIdentityEncoding.cpp:78-94`. -/
def identityEntries (l : CodeLimits) : Res Bytes :=
  match hexCode l.first with
  | .error e => .error e
  | .ok a =>
    match hexCode l.last with
    | .error e => .error e
    | .ok b => .ok (asciiB "1 beginbfrange\n" ++ a ++ 32 :: (b ++ 32 :: (utf16Text [l.first.code] ++ 10 :: kwEndBfRange)))

/-- `writeToUnicodeCMap`, `src/pdfmm/base/PdfEncoding.cpp:653-684`, for an identity, with `AppendCodeSpaceRange`,
`src/pdfmm/base/PdfEncodingMap.cpp:273-280`. -/
def identityToUnicode (n : Nat) : Res Bytes :=
  match identityLimits n with
  | .error e => .error e
  | .ok l =>
    match hexCode l.first with
    | .error e => .error e
    | .ok a =>
      match hexCode l.last with
      | .error e => .error e
      | .ok b =>
        match identityEntries l with
        | .error e => .error e
        | .ok es => .ok (toUnicodeHead ++ (a ++ b) ++ 10 :: (kwEndCodeSpace ++ 10 :: (es ++ toUnicodeTail)))

/-! ### The beginning of such a text -/

/-- Digits which are read as some bytes. -/
structure HexText (body d : Bytes) : Prop where
  head : ∃ c r, body = c :: r ∧ c ≠ 60
  read : ∀ X, readHex (body ++ 62 :: X) = (d, X)

theorem HexText.of_code {d : Bytes} (hd : d ≠ []) : HexText (d.flatMap writeCharHex) d := by
  refine ⟨?_, fun X => readHex_write d X⟩
  obtain ⟨c, r, h, hc⟩ := hexBody_head hd []
  exact ⟨c, r, by simpa using h, hc⟩

theorem HexText.seq {e body d : Bytes} (h : HexText body d) (X : Bytes) (k : Nat) :
    seqNext e ⟨[], 60 :: (body ++ 62 :: X), k⟩ = .ok (some (.str d true), ⟨[], X, k⟩) := by
  have hr := h.read X
  obtain ⟨c, r, rfl, hc⟩ := h.head
  exact seqNext_hex hc hr k

theorem HexText.variant {body d : Bytes} (h : HexText body d) (X : Bytes) (k : Nat) (hk : k + 1 ≤ 256) :
    psVariant ⟨[], 60 :: (body ++ 62 :: X), k⟩ = .ok (.str d true, ⟨[], X, k⟩) := by
  have hr := h.read X
  obtain ⟨c, r, rfl, hc⟩ := h.head
  exact psVariant_hex hc hr k hk

theorem tripleLoop_ws {c : Byte} (h : isWhitespace c = true) (e : Bytes) (step : CMState → Var → Var → Var → Res CMState) (n : Nat) (st : CMState)
    (r : Bytes) (d : Nat) : tripleLoop e step n st ⟨[], c :: r, d⟩ = tripleLoop e step n st ⟨[], r, d⟩ := by
  cases n with
  | zero => rfl
  | succ n => rw [tripleLoop, tripleLoop, seqNext_ws h]

theorem pairLoop_ws {c : Byte} (h : isWhitespace c = true) (e : Bytes) (step : CMState → Var → Var → Res CMState) (n : Nat) (st : CMState)
    (r : Bytes) (d : Nat) : pairLoop e step n st ⟨[], c :: r, d⟩ = pairLoop e step n st ⟨[], r, d⟩ := by
  cases n with
  | zero => rfl
  | succ n => rw [pairLoop, pairLoop, seqNext_ws h]

theorem tripleLoop_step {e : Bytes} {step : CMState → Var → Var → Var → Res CMState} {st : CMState} {s s1 s2 s3 : PS} {a b c : Var}
    (h1 : seqNext e s = .ok (some a, s1)) (h2 : psVariant s1 = .ok (b, s2)) (h3 : psVariant s2 = .ok (c, s3)) (n : Nat) :
    tripleLoop e step (n + 1) st s = match step st a b c with
      | .error x => .error x
      | .ok st => tripleLoop e step n st s3 := by
  rw [tripleLoop, h1]
  simp only
  rw [h2]
  simp only
  rw [h3]
  simp only
  cases step st a b c <;> rfl

/-- A text with one range: what is read is what the range says. -/
theorem range_text (z : Nat) {A da B db : Bytes} (ha : HexText A da) (hb : HexText B db) (hla : da.length ≤ 4) (hlb : db.length ≤ 4) (X : Bytes) :
    ∃ n st, X.length ≤ n ∧ 20 ≤ n ∧ st.map = .init z ∧ st.mn ≤ da.length ∧ db.length ≤ st.mx ∧
      parseCMap z (toUnicodeHead ++ ((60 :: (A ++ [62])) ++ (60 :: (B ++ [62]))) ++ 10 :: (kwEndCodeSpace ++ 10 :: (asciiB "1 beginbfrange\n" ++ X))) =
        match tripleLoop kwEndBfRange bfRange n st ⟨[], X, 0⟩ with
        | .error e => .error e
        | .ok (st, s) => cmapLoop n [] st s := by
  have hh : 60 ≤ toUnicodeHead.length := by decide +kernel
  generalize hN : (toUnicodeHead ++ ((60 :: (A ++ [62])) ++ (60 :: (B ++ [62]))) ++ 10 :: (kwEndCodeSpace ++ 10 :: (asciiB "1 beginbfrange\n" ++ X))).length + 1 = N
  obtain ⟨n, hn⟩ : ∃ n, N = (n + 2) + 19 := ⟨N - 21, by simp only [List.length_append, List.length_cons] at hN; omega⟩
  have hXn : X.length ≤ n ∧ 20 ≤ n := by simp only [List.length_append, List.length_cons] at hN; omega
  refine ⟨n, { map := .init z
               mn := if db.length < (if da.length < 255 then da.length else 255) then db.length else (if da.length < 255 then da.length else 255)
               mx := if db.length > (if da.length > 0 then da.length else 0) then db.length else (if da.length > 0 then da.length else 0) },
    hXn.1, hXn.2, rfl, by dsimp only; split <;> (split <;> omega), by dsimp only; split <;> (try split) <;> omega, ?_⟩
  rw [parseCMap_start z N _ hN, hn, List.append_assoc, cmapLoop_head (n + 2) _ _ (st2 := ⟨.init z,
        if db.length < (if da.length < 255 then da.length else 255) then db.length else (if da.length < 255 then da.length else 255),
        if db.length > (if da.length > 0 then da.length else 0) then db.length else (if da.length > 0 then da.length else 0)⟩)
      (s2 := ⟨[], 10 :: (asciiB "1 beginbfrange\n" ++ X), 0⟩)]
  · have e : asciiB "1 beginbfrange\n" ++ X = fmtNat 1 ++ 32 :: (kwBeginBfRange ++ 10 :: X) := by
      have : asciiB "1 beginbfrange\n" = fmtNat 1 ++ 32 :: (kwBeginBfRange ++ [10]) := by decide +kernel
      rw [this]; simp
    rw [cmapLoop_ws (by decide), e, cmapLoop_value (psNext_num (by decide) (StartsOk.cons_ws (by decide)) 0), cmapLoop_ws (by decide)]
    rw [cmapLoop, psNext_word (by decide +kernel) (StartsOk.cons_ws (by decide)) 0]
    simp only
    rw [cmapSection, if_neg (by decide +kernel), if_pos rfl, tripleLoop_ws (by decide)]
    generalize tripleLoop kwEndBfRange bfRange n _ _ = x
    cases x with
    | error e => rfl
    | ok p => rfl
  · simp only [List.cons_append, List.append_assoc, List.nil_append]
    rw [pairLoop_ws (by decide), pairLoop, ha.seq]
    simp only
    rw [hb.variant _ 0 (by decide)]
    simp only
    rw [codeSpace, code_str _ _ true hla]
    simp only
    rw [code_str _ _ true hlb]
    simp only
    rw [pairLoop_ws (by decide), pairLoop, seqNext_end (by decide +kernel) (StartsOk.cons_ws (by decide))]

/-! ### Arrays -/

/-- The lines of `oneByteLines` for some texts. -/
def textLines (l : List (List Nat)) : Bytes := l.flatMap fun cps => utf16Text cps ++ [10]

theorem oneByteLines_ok (look : Nat → Option (List Nat)) (g : Nat → List Nat) :
    ∀ (k code : Nat), (∀ j, code ≤ j → j < code + k → look j = some (g j)) →
      oneByteLines look code k = .ok (textLines ((List.range' code k).map g)) := by
  intro k
  induction k with
  | zero => intro code _; rfl
  | succ k ih =>
    intro code h
    rw [oneByteLines, h code (Nat.le_refl _) (by omega), ih (code + 1) (fun j h1 h2 => h j (by omega) (by omega)),
      List.range'_succ, List.map_cons, textLines, textLines, List.flatMap_cons]
    simp

theorem readArr_ws {c : Byte} (h : isWhitespace c = true) (f : Nat) (acc : List Var) (r : Bytes) (d : Nat) :
    readArr psCfg (f + 1) acc ⟨[], c :: r, d⟩ = readArr psCfg (f + 1) acc ⟨[], r, d⟩ := by
  simp only [readArr]; rw [tok_ws h]

theorem readArr_end (f : Nat) (acc : List Var) (r : Bytes) (d : Nat) :
    readArr psCfg (f + 1) acc ⟨[], 93 :: r, d⟩ = (.ok (some (.arr acc)), ⟨[], r, d⟩) := by
  simp only [readArr]
  rw [tok_of_lex d (lex_delim (c := 93) (by decide) (by decide))]
  have e : tokDelimType 93 = .sqR := by decide
  simp only [e, if_true]

theorem readArr_texts (l : List (List Nat)) (hl : ∀ cps ∈ l, cps ≠ []) (X : Bytes) (d : Nat) (hd : d + 1 ≤ 256) :
    ∀ (f : Nat) (acc : List Var), l.length < f →
      readArr psCfg f acc ⟨[], textLines l ++ 93 :: X, d⟩ =
        (.ok (some (.arr (acc ++ l.map fun cps => .str (be16 (cps.flatMap utf16Append)) true))), ⟨[], X, d⟩) := by
  induction l with
  | nil =>
    intro f acc hf
    obtain ⟨f, rfl⟩ : ∃ m, f = m + 1 := ⟨f - 1, by simp at hf; omega⟩
    rw [textLines, List.flatMap_nil, List.nil_append, readArr_end]; simp
  | cons cps r ih =>
    intro f acc hf
    obtain ⟨f, rfl⟩ : ∃ m, f = m + 1 := ⟨f - 1, by simp at hf; omega⟩
    have hne := hl cps List.mem_cons_self
    have hr := readHex_seq cps (10 :: (textLines r ++ 93 :: X))
    obtain ⟨c, t, he, hc⟩ := utf16Seq_head hne (62 :: 10 :: (textLines r ++ 93 :: X))
    have e : textLines (cps :: r) ++ 93 :: X = 60 :: c :: t := by
      rw [← he, textLines, List.flatMap_cons, utf16Text]
      simp only [List.append_assoc, List.cons_append, List.nil_append, textLines]
    rw [he] at hr
    rw [e]
    simp only [readArr]
    rw [tok_of_lex d (lex_angle (by decide) (Or.inl rfl) hc)]
    simp only [reduceCtorEq, if_false, if_true]
    have hk := readTok_hex hr d f hd
    rw [readTok] at hk
    rw [hk]
    simp only
    obtain ⟨f, rfl⟩ : ∃ m, f = m + 1 := ⟨f - 1, by simp at hf; omega⟩
    rw [readArr_ws (by decide), ih (fun x hx => hl x (List.mem_cons_of_mem _ hx)) _ _ (by simp at hf; omega)]
    simp

/-- Reading an array of texts. -/
theorem psVariant_arr (l : List (List Nat)) (hl : ∀ cps ∈ l, cps ≠ []) (X : Bytes) :
    psVariant ⟨[], 91 :: 10 :: (textLines l ++ 93 :: X), 0⟩ =
      .ok (.arr (l.map fun cps => .str (be16 (cps.flatMap utf16Append)) true), ⟨[], X, 0⟩) := by
  have hlen : l.length ≤ (textLines l).length := by
    induction l with
    | nil => simp
    | cons a r ih =>
      have := ih (fun x hx => hl x (List.mem_cons_of_mem _ hx))
      rw [textLines] at this ⊢
      rw [List.flatMap_cons, List.length_append, List.length_append, List.length_cons, List.length_cons]; omega
  rw [psVariant, tryReadVariant, tok_of_lex 0 (lex_delim (c := 91) (by decide) (by decide))]
  have e : tokDelimType 91 = .sqL := by decide
  simp only [e]
  generalize hf : 2 * PS.weight _ + 2 = f
  obtain ⟨g, rfl⟩ : ∃ g, f = g + 2 := ⟨f - 2, by omega⟩
  have hg : l.length < g + 1 := by
    simp only [PS.weight, List.length_cons, List.length_append, List.map_nil, List.sum_nil] at hf
    omega
  rw [readTok, guarded_ok (s' := ⟨[], X, 1⟩) (r := .ok (some (.arr (l.map fun cps => .str (be16 (cps.flatMap utf16Append)) true)))) (Nat.le_of_ble_eq_true rfl)]
  · rfl
  simp only [P.andThen, determine, readDT]
  rw [readArr_ws (by decide), readArr_texts l hl X 1 (by decide) (g + 1) [] hg]
  simp

/-! ### Encodings of one byte -/

theorem pushRange_error (lo size : Nat) (f : Nat → Res (List Nat)) (g : Nat → List Nat) (hs : size ≠ 0) (e : Fault) :
    ∀ (k i : Nat) (st : CMState), (∀ j, i ≤ j → j < i + k → f j = .ok (g j)) → f (i + k) = .error e →
      pushRange lo size f i (k + 1) st = .error e := by
  intro k
  induction k with
  | zero => intro i st _ he; rw [pushRange, show f i = _ from he]
  | succ k ih =>
    intro i st h he
    rw [pushRange, h i (Nat.le_refl _) (by omega)]
    simp only
    have hp : ∃ st', st.push ⟨(lo + i) % 4294967296, size⟩ (g i) = .ok st' := by
      by_cases hg : g i = []
      · exact ⟨st, by rw [CMState.push, if_pos hg]⟩
      · exact ⟨_, CMState.push_ok st hs hg⟩
    obtain ⟨st', hp⟩ := hp
    rw [hp]
    exact ih (i + 1) st' (fun j h1 h2 => h j (by omega) (by omega)) (by rw [show i + 1 + k = i + (k + 1) by omega]; exact he)

/-- A range whose array lacks its last element. -/
theorem bfRange_short (st : CMState) (a b : Nat) (hab : a ≤ b) (hb : b < 256) (ls : List (List Nat))
    (hls : ∀ cps ∈ ls, cps ≠ [] ∧ ∀ x ∈ cps, IsScalar x) (hlen : ls.length = b - a) :
    bfRange st (.str (codeBytes a 1) true) (.str (codeBytes b 1) true) (.arr (ls.map fun cps => .str (be16 (cps.flatMap utf16Append)) true)) =
      .error (.error .ValueOutOfRange) := by
  have va : valueOf (codeBytes a 1) = a := by rw [valueOf_codeBytes]; omega
  have vb : valueOf (codeBytes b 1) = b := by rw [valueOf_codeBytes]; omega
  have la : ∀ c, (codeBytes c 1).length ≤ 4 := fun c => by rw [codeBytes_length]; decide
  have ne : ∀ c, (codeBytes c 1).length ≠ 0 := fun c => by rw [codeBytes_length]; decide
  rw [bfRange, code_str _ _ true (la a)]
  simp only
  rw [code_str _ _ true (la b)]
  simp only
  rw [va, vb, rangeSize_eq hab (by omega)]
  refine pushRange_error a _ _ (fun j => ls[j]?.getD []) (ne a) (.error .ValueOutOfRange) (b - a) 0 _ ?_ ?_
  · intro j _ hj
    have hj : j < ls.length := by omega
    rw [arrPoints, List.getElem?_map, List.getElem?_eq_getElem hj]
    simp only [Option.map_some, pointsOf, Option.getD_some]
    have := hls _ (List.getElem_mem hj)
    exact stringPoints_of (readUtf16_be16 _ this.2) (utf8_decode_encode _ this.2)
  · rw [arrPoints, List.getElem?_eq_none (by simp; omega)]

theorem oneByteEntries_ok (a b : Nat) (ha : a < 256) (hb : b < 256) (mn mx : Nat) (look : Nat → Option (List Nat)) (ls : List (List Nat))
    (hlines : oneByteLines look a (b - a) = .ok (textLines ls)) :
    oneByteEntries ⟨mn, mx, ⟨a, 1⟩, ⟨b, 1⟩⟩ look = .ok (asciiB "1 beginbfrange\n" ++
      (60 :: ((codeBytes a 1).flatMap writeCharHex ++ 62 :: 32 :: 60 :: ((codeBytes b 1).flatMap writeCharHex ++ 62 :: 32 :: 91 :: 10 ::
        (textLines ls ++ 93 :: 10 :: kwEndBfRange))))) := by
  have e1 : asciiB " [\n" = [32, 91, 10] := by decide +kernel
  have e2 : asciiB "]\n" = [93, 10] := by decide +kernel
  rw [oneByteEntries, hexCode_ok (c := ⟨a, 1⟩) (Nat.le_refl 1) (show 1 ≤ 4 by decide) (by show a < 256 ^ 1; omega),
    hexCode_ok (c := ⟨b, 1⟩) (Nat.le_refl 1) (show 1 ≤ 4 by decide) (by show b < 256 ^ 1; omega)]
  simp only
  rw [hlines]
  generalize asciiB "1 beginbfrange\n" = B
  simp only [e1, e2, List.append_assoc, List.cons_append, List.nil_append]

theorem oneByte_text (a b : Nat) (ha : a < 256) (hb : b < 256) (mn mx : Nat) (look : Nat → Option (List Nat)) (ls : List (List Nat))
    (hlines : oneByteLines look a (b - a) = .ok (textLines ls)) :
    oneByteToUnicode ⟨mn, mx, ⟨a, 1⟩, ⟨b, 1⟩⟩ look = .ok (toUnicodeHead ++ ((60 :: ((codeBytes a 1).flatMap writeCharHex ++ [62])) ++
      (60 :: ((codeBytes b 1).flatMap writeCharHex ++ [62]))) ++ 10 :: (kwEndCodeSpace ++ 10 :: (asciiB "1 beginbfrange\n" ++
      (60 :: ((codeBytes a 1).flatMap writeCharHex ++ 62 :: 32 :: 60 :: ((codeBytes b 1).flatMap writeCharHex ++ 62 :: 32 :: 91 :: 10 ::
        (textLines ls ++ 93 :: 10 :: (kwEndBfRange ++ toUnicodeTail)))))))) := by
  rw [oneByteToUnicode, hexCode_ok (c := ⟨a, 1⟩) (Nat.le_refl 1) (show 1 ≤ 4 by decide) (by show a < 256 ^ 1; omega),
    hexCode_ok (c := ⟨b, 1⟩) (Nat.le_refl 1) (show 1 ≤ 4 by decide) (by show b < 256 ^ 1; omega), oneByteEntries_ok a b ha hb mn mx look ls hlines]
  generalize asciiB "1 beginbfrange\n" = B
  generalize toUnicodeHead = H
  generalize toUnicodeTail = T
  generalize kwEndCodeSpace = E
  generalize kwEndBfRange = F
  simp only [List.append_assoc, List.cons_append, List.nil_append]

/-- **C102** is false of every encoding of one byte: the `ToUnicode` CMap written for it lists a text for every code but the last one, and
reading it back raises an error. -/
theorem C102_one_byte_false (z a b : Nat) (hab : a ≤ b) (hb : b < 256) (mn mx : Nat) (look : Nat → Option (List Nat))
    (hlook : ∀ c, a ≤ c → c ≤ b → ∃ cps, look c = some cps ∧ cps ≠ [] ∧ ∀ x ∈ cps, IsScalar x) :
    ∃ text, oneByteToUnicode ⟨mn, mx, ⟨a, 1⟩, ⟨b, 1⟩⟩ look = .ok text ∧ cmapFromText z text = raise .ValueOutOfRange := by
  have hg : ∀ c, a ≤ c → c < a + (b - a) → look c = some ((look c).getD []) := by
    intro c h1 h2
    obtain ⟨cps, h, _⟩ := hlook c h1 (by omega)
    rw [h]; rfl
  have hlines := oneByteLines_ok look (fun c => (look c).getD []) (b - a) a hg
  have hn : ∀ c, codeBytes c 1 ≠ [] := fun c => by simp [codeBytes]
  have la : ∀ c, (codeBytes c 1).length ≤ 4 := fun c => by rw [codeBytes_length]; decide
  generalize hls : (List.range' a (b - a)).map (fun c => (look c).getD []) = ls at hlines
  have hlsne : ∀ cps ∈ ls, cps ≠ [] ∧ ∀ x ∈ cps, IsScalar x := by
    intro cps hc
    rw [← hls] at hc
    obtain ⟨c, hc1, rfl⟩ := List.mem_map.1 hc
    rw [List.mem_range'_1] at hc1
    obtain ⟨cps, h, h2⟩ := hlook c hc1.1 (by omega)
    rw [h]; exact h2
  have hlen : ls.length = b - a := by rw [← hls]; simp
  refine ⟨_, oneByte_text a b (by omega) hb mn mx look ls hlines, ?_⟩
  obtain ⟨n, st, _, hn20, _, _, _, hp⟩ := range_text z (HexText.of_code (hn a)) (HexText.of_code (hn b)) (la a) (la b)
    (60 :: ((codeBytes a 1).flatMap writeCharHex ++ 62 :: 32 :: 60 :: ((codeBytes b 1).flatMap writeCharHex ++ 62 :: 32 :: 91 :: 10 ::
        (textLines ls ++ 93 :: 10 :: (kwEndBfRange ++ toUnicodeTail)))))
  have ht : tripleLoop kwEndBfRange bfRange n st ⟨[], 60 :: ((codeBytes a 1).flatMap writeCharHex ++ 62 :: 32 :: 60 ::
      ((codeBytes b 1).flatMap writeCharHex ++ 62 :: 32 :: 91 :: 10 :: (textLines ls ++ 93 :: 10 :: (kwEndBfRange ++ toUnicodeTail)))), 0⟩ =
      .error (.error .ValueOutOfRange) := by
    obtain ⟨n, rfl⟩ : ∃ m, n = m + 1 := ⟨n - 1, by omega⟩
    rw [tripleLoop_step ((HexText.of_code (hn a)).seq _ 0) ((psVariant_ws (c := 32) rfl _ 0).trans ((HexText.of_code (hn b)).variant _ 0 (by decide)))
      ((psVariant_ws (c := 32) rfl _ 0).trans (psVariant_arr ls (fun c hc => (hlsne c hc).1) _)), bfRange_short st a b hab hb ls hlsne hlen]
  rw [ht] at hp
  rw [cmapFromText, hp]

/-- Of codes from 0 to 255 which stand for themselves. -/
example : ∃ text, oneByteToUnicode ⟨1, 1, ⟨0, 1⟩, ⟨255, 1⟩⟩ (fun c => some [c]) = .ok text ∧ cmapFromText 0 text = raise .ValueOutOfRange :=
  C102_one_byte_false 0 0 255 (by decide) (by decide) 1 1 (fun c => some [c]) (fun c _ h => ⟨[c], rfl, by simp, fun x hx => by
    rw [List.mem_singleton] at hx
    exact Or.inl (by omega)⟩)

/-! ### Identities are not read back -/

theorem hexText_00 (n : Nat) (h : 1 ≤ n) : HexText ((codeBytes 0 n).flatMap writeCharHex) (codeBytes 0 n) :=
  HexText.of_code (by intro e; have := congrArg List.length e; rw [codeBytes_length] at this; simp at this; omega)

/-- The digits written for the last code, and what is read. -/
theorem hexText_last (n : Nat) (h : 1 ≤ n ∧ n ≤ 3) :
    ∃ body, hexCode ⟨2 ^ (n * 8), n⟩ = .ok (60 :: (body ++ [62])) ∧ HexText body (16 :: List.replicate n 0) := by
  have hr : ∀ body d : Bytes, readHexLoop (body ++ [62]) [] = (body, []) → (if body.length % 2 = 1 then body ++ [48] else body) = d.flatMap writeCharHex →
      (∀ X acc, readHexLoop (body ++ 62 :: X) acc = (acc ++ body, X)) → ∀ X, readHex (body ++ 62 :: X) = (d, X) := by
    intro body d _ h2 h3 X
    simp only [readHex, readHexString, h3, List.nil_append]
    rw [h2]
    simp only [fromHexData, fromHexLoop_digits, List.nil_append]
  have : n = 1 ∨ n = 2 ∨ n = 3 := by omega
  rcases this with rfl | rfl | rfl
  · exact ⟨[49, 48, 48], by decide +kernel, ⟨49, _, rfl, by decide⟩, hr _ _ (by decide) (by decide) (fun X acc => by simp [readHexLoop, isHexDigitChar])⟩
  · exact ⟨[49, 48, 48, 48, 48], by decide +kernel, ⟨49, _, rfl, by decide⟩, hr _ _ (by decide) (by decide) (fun X acc => by simp [readHexLoop, isHexDigitChar])⟩
  · exact ⟨[49, 48, 48, 48, 48, 48, 48], by decide +kernel, ⟨49, _, rfl, by decide⟩, hr _ _ (by decide) (by decide) (fun X acc => by simp [readHexLoop, isHexDigitChar])⟩

theorem valueOf_zeros (n : Nat) : valueOf (List.replicate n 0) = 0 := by
  induction n with
  | zero => rfl
  | succ n ih => rw [List.replicate_succ, valueOf, ih]; simp

theorem valueOf_last (n : Nat) : valueOf (16 :: List.replicate n 0) = 16 * 256 ^ n := by
  rw [valueOf, valueOf_zeros, List.length_replicate]; rfl

theorem identity_text (n : Nat) (h : 1 ≤ n ∧ n ≤ 3) {body : Bytes} (hb : hexCode ⟨2 ^ (n * 8), n⟩ = .ok (60 :: (body ++ [62]))) :
    identityToUnicode n = .ok (toUnicodeHead ++ ((60 :: ((codeBytes 0 n).flatMap writeCharHex ++ [62])) ++
      (60 :: (body ++ [62]))) ++ 10 :: (kwEndCodeSpace ++ 10 :: (asciiB "1 beginbfrange\n" ++
      (60 :: ((codeBytes 0 n).flatMap writeCharHex ++ 62 :: 32 :: 60 :: (body ++ 62 :: 32 :: (utf16Text [0] ++ 10 :: (kwEndBfRange ++ toUnicodeTail)))))))) := by
  have hp : 2 ^ (n * 8) < 4294967296 := by
    have : n = 1 ∨ n = 2 ∨ n = 3 := by omega
    rcases this with rfl | rfl | rfl <;> decide
  have hl : identityLimits n = .ok ⟨n, n, ⟨0, n⟩, ⟨2 ^ (n * 8), n⟩⟩ := by
    rw [identityLimits, if_neg (by omega), if_neg (by omega)]
  have hz : hexCode ⟨0, n⟩ = .ok (60 :: ((codeBytes 0 n).flatMap writeCharHex ++ [62])) :=
    hexCode_ok h.1 (show n ≤ 4 by omega) (Nat.pow_pos (by decide))
  rw [identityToUnicode, hl]
  simp only
  rw [identityEntries, hz, hb]
  generalize asciiB "1 beginbfrange\n" = B
  generalize toUnicodeHead = H
  generalize toUnicodeTail = T
  generalize kwEndCodeSpace = E
  generalize kwEndBfRange = F
  simp only [List.append_assoc, List.cons_append, List.nil_append]

/-- **C103** is false of the identities of one, two and three bytes: the last code of the range is one too large for its size, the CMap read back
has longer codes, and codes that do not fit in the bytes. -/
theorem C103_identity_false (z n : Nat) (h : 1 ≤ n ∧ n ≤ 3) :
    ∃ text r, identityToUnicode n = .ok text ∧ cmapFromText z text = .ok r ∧ n < r.limits.maxSize ∧
      ∀ c, c.code < 16 * 256 ^ n → r.codePoints c = some [c.code] := by
  obtain ⟨body, hb, hbt⟩ := hexText_last n h
  have h0 := hexText_00 n h.1
  have hz0 : valueOf (codeBytes 0 n) = 0 := by rw [valueOf_codeBytes]; exact Nat.zero_mod _
  have hv := valueOf_last n
  have hpow : 256 ^ n ≤ 16777216 := by
    have := Nat.pow_le_pow_right (n := 256) (by decide) h.2
    simpa using this
  have hl0 : (codeBytes 0 n).length = n := codeBytes_length 0 n
  have hl1 : (16 :: List.replicate n 0 : Bytes).length = n + 1 := by simp
  generalize hA : codeBytes 0 n = A at *
  generalize hB : (16 :: List.replicate n 0 : Bytes) = B at *
  obtain ⟨k, st, _, hk, hm, hmn, hmx, hp⟩ := range_text z h0 hbt (by omega) (by omega)
    (60 :: (A.flatMap writeCharHex ++ 62 :: 32 :: 60 :: (body ++ 62 :: 32 :: (utf16Text [0] ++ 10 :: (kwEndBfRange ++ toUnicodeTail)))))
  obtain ⟨st2, e1, e2⟩ := C97_range_partial st A B true true 0 (by simp [IsScalar]) (by omega) (by omega) (by omega) (by omega)
  have hsz := C98_bfrange_partial _ _ _ _ _ _ _ e1
  have hbe : be16 ([0].flatMap utf16Append) = utf16BE [0] := by decide
  have ht : tripleLoop kwEndBfRange bfRange k st ⟨[], 60 :: (A.flatMap writeCharHex ++ 62 :: 32 :: 60 :: (body ++ 62 :: 32 ::
      (utf16Text [0] ++ 10 :: (kwEndBfRange ++ toUnicodeTail)))), 0⟩ = .ok (st2, ⟨[], toUnicodeTail, 0⟩) := by
    obtain ⟨k, rfl⟩ : ∃ m, k = m + 2 := ⟨k - 2, by omega⟩
    rw [tripleLoop_step (h0.seq _ 0) ((psVariant_ws (c := 32) rfl _ 0).trans (hbt.variant _ 0 (by decide)))
      ((psVariant_ws (c := 32) rfl _ 0).trans (psVariant_points (cps := [0]) (by simp) _ 0 (by decide))), hbe, e1]
    simp only
    rw [tripleLoop_ws (by decide), tripleLoop, seqNext_end (by decide +kernel) (by rw [toUnicodeTail_eq]; exact StartsOk.cons_ws (by decide))]
  rw [ht] at hp
  simp only at hp
  rw [cmapLoop_tail k (by omega)] at hp
  obtain ⟨r, hr⟩ := cmapFromText_ok hp
  have htext := identity_text n h hb
  rw [hA] at htext
  refine ⟨_, r, htext, hr, ?_, ?_⟩
  · rw [cmapFromText_limits hp hr]
    simp only [CMState.limits]
    split <;> omega
  · intro c hc
    refine C100_listed_partial z _ st2 r hp hr c [c.code] ?_
    rw [e2, if_pos (by omega), hz0]
    simp [bumpLast]

/-- **C103** is false of the identity of four bytes: making it is undefined behaviour. -/
theorem C103_four_bytes_false : identityLimits 4 = .error .ub := by decide

end Pdfmm
