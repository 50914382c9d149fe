import Verif.Fonts.CMapEntries
import Verif.Syntax.RoundTrip
/-
The tokens of a CMap: what the PostScript tokenizer returns on words, numbers, names and hexadecimal strings.
-/
set_option autoImplicit false
namespace Pdfmm
open Spec

theorem tok_ws {c : Byte} (h : isWhitespace c = true) (r : Bytes) (d : Nat) :
    tryReadToken psCfg.cap ⟨[], c :: r, d⟩ = tryReadToken psCfg.cap ⟨[], r, d⟩ := by
  simp only [tryReadToken]
  rw [lex_ws (by decide) h]

theorem psNext_ws {c : Byte} (h : isWhitespace c = true) (r : Bytes) (d : Nat) :
    psNext ⟨[], c :: r, d⟩ = psNext ⟨[], r, d⟩ := by
  rw [psNext, psNext, tok_ws h]

theorem psVariant_ws {c : Byte} (h : isWhitespace c = true) (r : Bytes) (d : Nat) :
    psVariant ⟨[], c :: r, d⟩ = psVariant ⟨[], r, d⟩ := by
  rw [psVariant, psVariant, tryReadVariant, tryReadVariant, tok_ws h]

theorem seqNext_ws {c : Byte} (h : isWhitespace c = true) (e r : Bytes) (d : Nat) :
    seqNext e ⟨[], c :: r, d⟩ = seqNext e ⟨[], r, d⟩ := by
  rw [seqNext, seqNext, psNext_ws h]

theorem tok_of_lex {inp r : Bytes} {t : Tok} (d : Nat) (h : lex psCfg.cap inp = some (t, r)) :
    tryReadToken psCfg.cap ⟨[], inp, d⟩ = (some t, ⟨[], r, d⟩) := by
  simp only [tryReadToken]
  rw [h]

/-- A word that is neither a number nor a reserved one. -/
def IsWord (w : Bytes) : Prop :=
  (∀ c ∈ w, litChar c = true) ∧ w ≠ [] ∧ w.length ≤ 4095 ∧ w ≠ [110, 117, 108, 108] ∧ w ≠ [116, 114, 117, 101] ∧
    w ≠ [102, 97, 108, 115, 101] ∧ scanKind w .number = .unknown

instance (w : Bytes) : Decidable (IsWord w) := by unfold IsWord; infer_instance

theorem psNext_word {w rest : Bytes} (hw : IsWord w) (hr : StartsOk rest) (d : Nat) :
    psNext ⟨[], w ++ rest, d⟩ = .ok (some (.keyword w), ⟨[], rest, d⟩) := by
  obtain ⟨h1, h2, h3, h4, h5, h6, h7⟩ := hw
  rw [psNext, tok_of_lex d (lex_literal h1 h2 h3 hr)]
  simp only [reduceCtorEq, if_false, P.andThen, determine]
  rw [if_neg h4, if_neg h5, if_neg h6, h7]
  simp only [readDT]

theorem determine_fmt (n : Nat) (h : n < 9223372036854775808) (s : PS) :
    determine psCfg ⟨fmtNat n, .literal⟩ s = (.ok (.val (.num n)), s) := by
  rw [fmtNat_fmtInt]
  obtain ⟨a, b, c, _⟩ := fmtInt_not_word (n : Int)
  simp only [determine]
  rw [if_neg a, if_neg b, if_neg c, fmtInt_scan]
  simp only
  rw [fromChars_exact (n : Int) (by omega) (by omega)]
  simp [psCfg]

theorem lex_fmt {n : Nat} (h : n < 9223372036854775808) {rest : Bytes} (hr : StartsOk rest) :
    lex psCfg.cap (fmtNat n ++ rest) = some (⟨fmtNat n, .literal⟩, rest) := by
  refine lex_literal (fmtNat_lit n) ?_ ?_ hr
  · rw [fmtNat_fmtInt]; exact fmtInt_ne_nil _
  · rw [fmtNat_fmtInt]
    have := fmtInt_length (n := (n : Int)) (by omega) (by omega)
    have e : psCfg.cap = 4095 := rfl
    omega

theorem psNext_num {n : Nat} (h : n < 9223372036854775808) {rest : Bytes} (hr : StartsOk rest) (d : Nat) :
    psNext ⟨[], fmtNat n ++ rest, d⟩ = .ok (some (.value (.num n)), ⟨[], rest, d⟩) := by
  rw [psNext, tok_of_lex d (lex_fmt h hr)]
  simp only [reduceCtorEq, if_false, P.andThen]
  rw [determine_fmt n h]
  simp only [readDT]

theorem readName_word {w rest : Bytes} (hw : ∀ c ∈ w, litChar c = true) (hl : w.length ≤ 4095) (hr : StartsOk rest) (hne : w ≠ []) (d : Nat) :
    readName psCfg.cap ⟨[], w ++ rest, d⟩ = (unescapeName w, ⟨[], rest, d⟩) := by
  have ht := tok_of_lex d (lex_literal (cap := psCfg.cap) hw hne hl hr)
  match w, hne with
  | c :: w', _ =>
    have hc := (litChar_facts (hw c List.mem_cons_self)).1
    rw [readName]
    simp only [List.cons_append]
    rw [if_neg (by simp [hc])]
    rw [List.cons_append] at ht
    rw [ht]
    simp

theorem readName_empty {c : Byte} (h : isWhitespace c = true) (r : Bytes) (d : Nat) :
    readName psCfg.cap ⟨[], c :: r, d⟩ = ([], ⟨[], c :: r, d⟩) := by
  rw [readName]
  simp only
  rw [if_pos h]

theorem psNext_slash (inp : Bytes) (d : Nat) :
    psNext ⟨[], 47 :: inp, d⟩ = .ok (some (.value (.name (readName psCfg.cap ⟨[], inp, d⟩).1)), (readName psCfg.cap ⟨[], inp, d⟩).2) := by
  rw [psNext, tok_of_lex d (lex_delim (c := 47) (r := inp) (by decide) (by decide))]
  have e : tokDelimType 47 = .slash := by decide
  simp only [e, reduceCtorEq, if_false, P.andThen, determine, readDT]

theorem psNext_hex {c : Byte} {r d rest : Bytes} (hc : c ≠ 60) (h : readHex (c :: r) = (d, rest)) (k : Nat) :
    psNext ⟨[], 60 :: c :: r, k⟩ = .ok (some (.value (.str d true)), ⟨[], rest, k⟩) := by
  rw [psNext, tok_of_lex k (lex_angle (by decide) (Or.inl rfl) hc)]
  simp only [reduceCtorEq, if_true, if_false, P.andThen, determine, readDT]
  rw [h]

theorem readTok_hex {c : Byte} {r d rest : Bytes} (h : readHex (c :: r) = (d, rest)) (k f : Nat) (hk : k + 1 ≤ 256) :
    readTok psCfg f ⟨[60], .angleL⟩ ⟨[], c :: r, k⟩ = (.ok (some (.str d true)), ⟨[], rest, k⟩) := by
  rw [readTok, guarded_ok (s' := ⟨[], rest, k + 1⟩) (r := .ok (some (.str d true))) hk]
  · rfl
  · simp only [P.andThen, determine, readDT]
    rw [h]

theorem psVariant_hex {c : Byte} {r d rest : Bytes} (hc : c ≠ 60) (h : readHex (c :: r) = (d, rest)) (k : Nat) (hk : k + 1 ≤ 256) :
    psVariant ⟨[], 60 :: c :: r, k⟩ = .ok (.str d true, ⟨[], rest, k⟩) := by
  rw [psVariant, tryReadVariant, tok_of_lex k (lex_angle (by decide) (Or.inl rfl) hc)]
  simp only [if_true]
  rw [readTok_hex h k _ hk]

theorem psVariant_num {n : Nat} (h : n < 9223372036854775808) {rest : Bytes} (hr : StartsOk rest) (d : Nat) (hk : d + 1 ≤ 256) :
    psVariant ⟨[], fmtNat n ++ rest, d⟩ = .ok (.num n, ⟨[], rest, d⟩) := by
  rw [psVariant, tryReadVariant, tok_of_lex d (lex_fmt h hr)]
  simp only
  rw [readTok, guarded_ok (s' := ⟨[], rest, d + 1⟩) (r := .ok (some (.num n))) hk]
  · rfl
  · simp only [P.andThen]
    rw [determine_fmt n h]
    simp only [readDT]

theorem seqNext_end {e rest : Bytes} (he : IsWord e) (hr : StartsOk rest) (d : Nat) :
    seqNext e ⟨[], e ++ rest, d⟩ = .ok (none, ⟨[], rest, d⟩) := by
  rw [seqNext, psNext_word he hr]
  simp

theorem seqNext_hex {c : Byte} {e r d rest : Bytes} (hc : c ≠ 60) (h : readHex (c :: r) = (d, rest)) (k : Nat) :
    seqNext e ⟨[], 60 :: c :: r, k⟩ = .ok (some (.str d true), ⟨[], rest, k⟩) := by
  rw [seqNext, psNext_hex hc h]

/-! ### Steps of the reader -/

theorem cmapLoop_ws {c : Byte} (h : isWhitespace c = true) (n : Nat) (toks : List Var) (st : CMState) (r : Bytes) (d : Nat) :
    cmapLoop n toks st ⟨[], c :: r, d⟩ = cmapLoop n toks st ⟨[], r, d⟩ := by
  cases n with
  | zero => rfl
  | succ n => rw [cmapLoop, cmapLoop, psNext_ws h]

theorem cmapLoop_value {s s' : PS} {v : Var} (h : psNext s = .ok (some (.value v), s')) (n : Nat) (toks : List Var) (st : CMState) :
    cmapLoop (n + 1) toks st s = cmapLoop n (v :: toks) st s' := by
  rw [cmapLoop, h]

theorem cmapLoop_keyword {s s' : PS} {kw : Bytes} (h : psNext s = .ok (some (.keyword kw), s')) (n : Nat) (toks : List Var) (st : CMState)
    {st2 : CMState} {s2 : PS} (h2 : cmapSection n kw toks st s' = .ok (st2, s2)) :
    cmapLoop (n + 1) toks st s = cmapLoop n [] st2 s2 := by
  rw [cmapLoop, h]
  simp only
  rw [h2]

theorem cmapLoop_end {s s' : PS} (h : psNext s = .ok (none, s')) (n : Nat) (toks : List Var) (st : CMState) :
    cmapLoop (n + 1) toks st s = .ok st := by
  rw [cmapLoop, h]

/-- Parts of a CMap which the reader passes over: words, names and numbers. -/
inductive CItem
  | word (w : Bytes)
  | name (w : Bytes)
  | num (n : Nat)

/-- Their text. -/
def CItem.text : CItem → Bytes
  | .word w => w
  | .name w => 47 :: w
  | .num n => fmtNat n

/-- What makes them such parts. -/
def CItem.Ok : CItem → Prop
  | .word w => IsWord w ∧ w ≠ kwBeginCodeSpace ∧ w ≠ kwBeginBfRange ∧ w ≠ kwBeginBfChar ∧ w ≠ kwBeginCidRange ∧ w ≠ kwBeginCidChar
  | .name w => (∀ c ∈ w, litChar c = true) ∧ w.length ≤ 4095
  | .num n => n < 9223372036854775808

instance (i : CItem) : Decidable i.Ok := by
  cases i <;> (unfold CItem.Ok; infer_instance)

/-- The tokens kept after them. -/
def CItem.keep : CItem → List Var → List Var
  | .word _, _ => []
  | .name w, l => .name (unescapeName w) :: l
  | .num n, l => .num n :: l

theorem cmapLoop_item (i : CItem) (h : i.Ok) {c : Byte} (hc : isWhitespace c = true) (n : Nat) (toks : List Var) (st : CMState) (r : Bytes) (d : Nat) :
    cmapLoop (n + 1) toks st ⟨[], i.text ++ c :: r, d⟩ = cmapLoop n (i.keep toks) st ⟨[], r, d⟩ := by
  have hr : StartsOk (c :: r) := StartsOk.cons_ws hc
  cases i with
  | word w =>
    obtain ⟨h0, h1, h2, h3, h4, h5⟩ := h
    rw [CItem.text, cmapLoop_keyword (psNext_word h0 hr d) n toks st (st2 := st) (s2 := ⟨[], c :: r, d⟩), cmapLoop_ws hc]
    · rfl
    · rw [cmapSection, if_neg h1, if_neg h2, if_neg h3, if_neg h4, if_neg h5]
  | name w =>
    obtain ⟨h1, h2⟩ := h
    rw [CItem.text, List.cons_append, cmapLoop_value (psNext_slash _ d)]
    by_cases hw : w = []
    · subst hw
      rw [List.nil_append, readName_empty hc, cmapLoop_ws hc]
      rfl
    · rw [readName_word h1 h2 hr hw, cmapLoop_ws hc]
      rfl
  | num k =>
    rw [CItem.text, cmapLoop_value (psNext_num h hr d), cmapLoop_ws hc]
    rfl

/-- Several of them, with the white space after each. -/
def itemsText : List (CItem × Byte) → Bytes
  | [] => []
  | (i, c) :: r => i.text ++ c :: itemsText r

/-- The tokens kept after all of them. -/
def itemsKeep : List (CItem × Byte) → List Var → List Var
  | [], l => l
  | (i, _) :: r, l => itemsKeep r (i.keep l)

theorem cmapLoop_items (l : List (CItem × Byte)) (h : ∀ p ∈ l, p.1.Ok ∧ isWhitespace p.2 = true) (n : Nat) (toks : List Var) (st : CMState)
    (r : Bytes) (d : Nat) :
    cmapLoop (n + l.length) toks st ⟨[], itemsText l ++ r, d⟩ = cmapLoop n (itemsKeep l toks) st ⟨[], r, d⟩ := by
  induction l generalizing toks with
  | nil => rfl
  | cons p l ih =>
    obtain ⟨i, c⟩ := p
    have hp := h (i, c) List.mem_cons_self
    rw [itemsText, List.append_assoc, List.cons_append, List.length_cons, ← Nat.add_assoc, cmapLoop_item i hp.1 hp.2,
      ih (fun q hq => h q (List.mem_cons_of_mem _ hq))]
    rfl

/-! ### Dictionaries -/

theorem readDT_name (f : Nat) {w rest : Bytes} (hw : ∀ c ∈ w, litChar c = true) (hl : w.length ≤ 4095) (hr : StartsOk rest) (hne : w ≠ [])
    (d : Nat) (hk : d + 1 ≤ 256) :
    guarded psCfg.maxDepth ((determine psCfg ⟨[47], .slash⟩).andThen fun x => readDT psCfg f x) ⟨[], w ++ rest, d⟩ =
      (.ok (some (.name (unescapeName w))), ⟨[], rest, d⟩) := by
  rw [guarded_ok (s' := ⟨[], rest, d + 1⟩) (r := .ok (some (.name (unescapeName w)))) hk]
  · rfl
  · simp only [P.andThen, determine, readDT]
    rw [readName_word hw hl hr hne]

theorem readDict_ws {c : Byte} (h : isWhitespace c = true) (f : Nat) (acc : List (Bytes × Var)) (r : Bytes) (d : Nat) :
    readDict psCfg f acc none ⟨[], c :: r, d⟩ = readDict psCfg f acc none ⟨[], r, d⟩ ∨ f = 0 := by
  cases f with
  | zero => exact Or.inr rfl
  | succ f => left; simp only [readDict]; rw [tok_ws h]

theorem readDict_skip (ws : Bytes) (h : ∀ c ∈ ws, isWhitespace c = true) (f : Nat) (acc : List (Bytes × Var)) (r : Bytes) (d : Nat) :
    readDict psCfg (f + 1) acc none ⟨[], ws ++ r, d⟩ = readDict psCfg (f + 1) acc none ⟨[], r, d⟩ := by
  induction ws with
  | nil => rfl
  | cons c ws ih =>
    rw [List.cons_append]
    rcases readDict_ws (h c List.mem_cons_self) (f + 1) acc (ws ++ r) d with e | e
    · rw [e, ih (fun x hx => h x (List.mem_cons_of_mem _ hx))]
    · omega

theorem readDict_end (f : Nat) (acc : List (Bytes × Var)) (r : Bytes) (d : Nat) :
    readDict psCfg (f + 1) acc none ⟨[], 62 :: 62 :: r, d⟩ = (.ok (some (.dict acc)), ⟨[], r, d⟩) := by
  simp only [readDict]
  rw [tok_of_lex d (lex_dangle (by decide) (Or.inr rfl))]
  have e : (if (62 : Byte) = 60 then TokType.dAngleL else TokType.dAngleR) = .dAngleR := by decide
  simp only [e, if_true]

/-- An entry whose value is a literal string. -/
theorem readDict_str (f : Nat) (acc : List (Bytes × Var)) {w body s rest : Bytes} (hw : ∀ c ∈ w, litChar c = true) (hl : w.length ≤ 4095)
    (hne : w ≠ []) (hk : unescapeName w ≠ kContents) (hs : readString body = (s, rest)) (d : Nat) (hd : d + 1 ≤ 256) :
    readDict psCfg (f + 1) acc none ⟨[], 47 :: (w ++ 32 :: 40 :: body), d⟩ =
      readDict psCfg f (SMap.insert (unescapeName w) (.str s false) acc) none ⟨[], rest, d⟩ := by
  simp only [readDict]
  rw [tok_of_lex d (lex_delim (c := 47) (by decide) (by decide))]
  have e : tokDelimType 47 = .slash := by decide
  have e2 : tokDelimType 40 = .parenL := by decide
  simp only [e, reduceCtorEq, if_false]
  rw [readDT_name f hw hl (StartsOk.cons_ws (by decide)) hne d hd]
  simp only
  rw [tok_ws (by decide), tok_of_lex d (lex_delim (c := 40) (by decide) (by decide))]
  simp only [e2, determine]
  rw [if_neg (by intro h; exact hk h.1)]
  simp only [readDT]
  rw [hs]

/-- An entry whose value is a number. -/
theorem readDict_num (f : Nat) (acc : List (Bytes × Var)) {w rest : Bytes} {n : Nat} (hw : ∀ c ∈ w, litChar c = true) (hl : w.length ≤ 4095)
    (hne : w ≠ []) (hk : unescapeName w ≠ kContents) (hn : n < 9223372036854775808) (hr : StartsOk rest) (d : Nat) (hd : d + 1 ≤ 256) :
    readDict psCfg (f + 1) acc none ⟨[], 47 :: (w ++ 32 :: (fmtNat n ++ rest)), d⟩ =
      readDict psCfg f (SMap.insert (unescapeName w) (.num n) acc) none ⟨[], rest, d⟩ := by
  simp only [readDict]
  rw [tok_of_lex d (lex_delim (c := 47) (by decide) (by decide))]
  have e : tokDelimType 47 = .slash := by decide
  simp only [e, reduceCtorEq, if_false]
  rw [readDT_name f hw hl (StartsOk.cons_ws (by decide)) hne d hd]
  simp only
  rw [tok_ws (by decide), tok_of_lex d (lex_fmt hn hr)]
  simp only
  rw [determine_fmt n hn]
  simp only
  rw [if_neg (by intro h; exact hk h.1)]
  simp only [readDT]

/-- The dictionary at the beginning of the CMaps that are written. -/
theorem psNext_info (ordering rest : Bytes) (os r2 : Bytes) (hs : ∀ X : Bytes, readString (ordering ++ X) = (os, X)) (hr2 : rest = 32 :: r2) :
    ∃ v, psNext ⟨[], asciiB "<<\n   /Registry (Adobe)\n   /Ordering (" ++ (ordering ++ (asciiB "\n   /Supplement 0\n>>" ++ rest)), 0⟩ =
      .ok (some (.value v), ⟨[], rest, 0⟩) := by
  have e1 : asciiB "<<\n   /Registry (Adobe)\n   /Ordering (" =
      60 :: 60 :: ([10, 32, 32, 32] ++ 47 :: (asciiB "Registry" ++ 32 :: 40 :: (asciiB "Adobe)" ++ ([10, 32, 32, 32] ++ 47 :: (asciiB "Ordering" ++ [32, 40]))))) := by
    decide +kernel
  have e2 : asciiB "\n   /Supplement 0\n>>" = [10, 32, 32, 32] ++ 47 :: (asciiB "Supplement" ++ 32 :: (fmtNat 0 ++ [10, 62, 62])) := by decide +kernel
  have e3 : ∀ X : Bytes, readString (asciiB "Adobe)" ++ X) = (asciiB "Adobe", X) := by
    intro X
    have e : asciiB "Adobe)" ++ X = (asciiB "Adobe").flatMap wrLitByte ++ 41 :: X := by
      have : (asciiB "Adobe").flatMap wrLitByte = asciiB "Adobe" := by decide +kernel
      rw [this]
      have : asciiB "Adobe)" = asciiB "Adobe" ++ [41] := by decide +kernel
      rw [this, List.append_assoc]; rfl
    rw [e, readString, readString_lit]; rfl
  rw [e1, e2]
  simp only [List.cons_append, List.append_assoc, List.nil_append]
  rw [psNext, tok_of_lex 0 (lex_dangle (by decide) (Or.inl rfl))]
  simp only [if_true, reduceCtorEq, if_false, P.andThen, determine]
  generalize hf : 2 * PS.weight _ + 2 = f
  obtain ⟨g, hg⟩ : ∃ g, f = g + 1 + 1 + 1 + 1 + 1 := ⟨f - 5, by
    simp only [PS.weight, List.length_cons, List.map_nil, List.sum_nil] at hf
    omega⟩
  rw [hg]
  simp only [readDT]
  have sk : ∀ c ∈ ([10, 32, 32, 32] : Bytes), isWhitespace c = true := by decide
  have sk' : ∀ (f : Nat) (acc : List (Bytes × Var)) (r : Bytes),
      readDict psCfg (f + 1) acc none ⟨[], 10 :: 32 :: 32 :: 32 :: r, 0⟩ = readDict psCfg (f + 1) acc none ⟨[], r, 0⟩ :=
    fun f acc r => readDict_skip [10, 32, 32, 32] sk f acc r 0
  rw [sk', readDict_str _ _ (w := asciiB "Registry") (by decide) (by decide) (by decide) (by decide) (e3 _) 0 (by decide),
    sk', readDict_str _ _ (w := asciiB "Ordering") (by decide) (by decide) (by decide) (by decide) (hs _) 0 (by decide),
    sk', readDict_num _ _ (w := asciiB "Supplement") (by decide) (by decide) (by decide) (by decide) (by decide) (StartsOk.cons_ws (by decide)) 0 (by decide)]
  rw [show (10 :: 62 :: 62 :: rest : Bytes) = [10] ++ 62 :: 62 :: rest from rfl, readDict_skip [10] (by decide), readDict_end]
  exact ⟨_, rfl⟩

end Pdfmm
