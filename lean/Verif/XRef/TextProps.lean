import Verif.XRef.TableProps
import Verif.Syntax.RoundTrip
/-
The text of a classic cross-reference table: the width of its entries, and reading it back.
-/
set_option autoImplicit false
namespace Pdfmm
open Spec

/-! ### The entry line -/

theorem decVal_zeros (k : Nat) (ds : Bytes) : decVal (List.replicate k 48 ++ ds) = decVal ds := by
  induction k with
  | zero => simp
  | succ k ih =>
    rw [List.replicate_succ, List.cons_append]
    have : decVal (48 :: (List.replicate k 48 ++ ds)) = decVal (List.replicate k 48 ++ ds) := by
      simp [decVal]
    rw [this, ih]

theorem decVal_fmtPad (w n : Nat) : decVal (fmtPad w n) = n := by
  rw [fmtPad, decVal_zeros, decVal_fmtNat]

theorem fmtPad_digits (w n : Nat) : ∀ c ∈ fmtPad w n, isDigitB c = true := by
  intro c hc
  rcases List.mem_append.1 hc with hc | hc
  · rw [List.eq_of_mem_replicate hc]; decide
  · exact fmtNat_digits n c hc

theorem fmtPad_length {w n : Nat} (h : n < 10 ^ (w + 1)) : (fmtPad (w + 1) n).length = w + 1 := by
  have := fmtNat_length n w h
  simp only [fmtPad, List.length_append, List.length_replicate]
  omega

theorem natDigitsAux_length_ge (f n k : Nat) (h : 10 ^ k ≤ n) (hf : n ≤ f) :
    k + 1 ≤ (natDigitsAux f n).length := by
  induction f generalizing n k with
  | zero =>
    have : 0 < 10 ^ k := Nat.pow_pos (by omega)
    omega
  | succ f ih =>
    simp only [natDigitsAux]
    split
    · cases k with
      | zero => simp
      | succ k =>
        have : 0 < 10 ^ k := Nat.pow_pos (by omega)
        rw [Nat.pow_succ] at h; omega
    · cases k with
      | zero => simp
      | succ k =>
        have : 10 ^ k ≤ n / 10 := by
          rw [Nat.le_div_iff_mul_le (by omega), ← Nat.pow_succ]; exact h
        have := ih (n / 10) k this (by omega)
        simp; omega

theorem fmtPad_length_ge {w k n : Nat} (h : 10 ^ k ≤ n) : k + 1 ≤ (fmtPad w n).length := by
  have := natDigitsAux_length_ge n n k h (Nat.le_refl _)
  simp only [fmtPad, List.length_append, fmtNat]
  omega

/-- **C36.** An entry with an offset (or next free number) of at most ten digits and a generation of at most
five is a line of 20 bytes: ten digits, a blank, five digits, a blank, `n` or `f`, a blank and a line feed. -/
theorem C36_entry_width_partial {e : XEntry} (ht : e.type ≠ .compressed) (hv : e.variant < 10000000000)
    (hg : e.gen < 100000) :
    ∃ a b : Bytes, entryText e = .ok (a ++ [32] ++ b ++ [32, if e.type = .free then 102 else 110, 32, 10]) ∧
      a.length = 10 ∧ b.length = 5 ∧ (∀ c ∈ a, isDigitB c = true) ∧ (∀ c ∈ b, isDigitB c = true) ∧
      decVal a = e.variant ∧ decVal b = e.gen := by
  refine ⟨fmtPad 10 e.variant, fmtPad 5 e.gen, ?_, fmtPad_length (w := 9) hv, fmtPad_length (w := 4) hg,
    fmtPad_digits _ _, fmtPad_digits _ _, decVal_fmtPad _ _, decVal_fmtPad _ _⟩
  unfold entryText
  cases h : e.type with
  | free => simp
  | inUse => simp
  | compressed => exact absurd h ht

/-- The line of an object that starts at ten thousand million or later is longer than 20 bytes. -/
theorem C36_entry_width_false {e : XEntry} (ht : e.type ≠ .compressed) (hv : 10000000000 ≤ e.variant) :
    ∃ b, entryText e = .ok b ∧ 20 < b.length := by
  have h1 : 11 ≤ (fmtPad 10 e.variant).length := fmtPad_length_ge (k := 10) hv
  have h2 : 5 ≤ (fmtPad 5 e.gen).length := by
    simp only [fmtPad, List.length_append, List.length_replicate]; omega
  unfold entryText
  cases h : e.type with
  | free => exact ⟨_, rfl, by simp; omega⟩
  | inUse => exact ⟨_, rfl, by simp; omega⟩
  | compressed => exact absurd h ht

example : entryText ⟨.inUse, 1234, 7⟩ = .ok "0000001234 00007 n \n".toUTF8.toList := by decide +kernel
example : entryText ⟨.free, 0, 65535⟩ = .ok "0000000000 65535 f \n".toUTF8.toList := by decide +kernel
example : entryText ⟨.inUse, 12345678901, 0⟩ = .ok "12345678901 00000 n \n".toUTF8.toList := by decide +kernel

/-! ### Reading an entry -/

theorem digit_facts {c : Byte} (h : isDigitB c = true) : cIsSpace c = false ∧ c ≠ 45 ∧ c ≠ 43 ∧ c ≠ 0 ∧
    isWhitespace c = false := by
  revert h
  exact forall_byte (P := fun c => isDigitB c = true → cIsSpace c = false ∧ c ≠ 45 ∧ c ≠ 43 ∧ c ≠ 0 ∧
    isWhitespace c = false) (by decide +kernel) c

theorem scanNum_digits {w m : Nat} {ds : Bytes} (hd : ∀ c ∈ ds, isDigitB c = true) (hw : ds.length = w)
    (h0 : ds ≠ []) (hm : decVal ds < m) (rest : Bytes) : scanNum w m (ds ++ rest) = some (decVal ds, rest) := by
  cases ds with
  | nil => exact absurd rfl h0
  | cons c t =>
    obtain ⟨f1, f2, f3, _⟩ := digit_facts (hd c (by simp))
    have hdrop : ((c :: t) ++ rest).dropWhile cIsSpace = (c :: t) ++ rest := by
      simp [f1]
    have hhead : ((c :: t) ++ rest).head? = some c := rfl
    have htake : (((c :: t) ++ rest).take w).takeWhile isDigitB = c :: t := by
      rw [List.take_append_of_le_length (by omega), List.take_of_length_le (by omega)]
      have := takeWhile_all hd [] (by simp)
      simpa using this
    unfold scanNum
    simp only [hdrop, hhead, Option.some.injEq, f2, f3, or_self, if_false]
    rw [htake, if_neg (by simp), List.drop_left' rfl]
    simp [Nat.mod_eq_of_lt hm]

theorem scanNum_space (w m : Nat) (s : Bytes) : scanNum w m (32 :: s) = scanNum w m s := by
  have : (32 :: s : Bytes).dropWhile cIsSpace = s.dropWhile cIsSpace := by
    rw [List.dropWhile_cons, if_pos (by decide)]
  unfold scanNum
  simp only [this]

/-- What the reader makes of a written entry: the offset of an object in use is counted from the header. -/
def shiftEntry (magic : Nat) (e : XEntry) : XEntry :=
  match e.type with
  | .inUse => { e with variant := e.variant + magic }
  | _ => e

/-- The entries whose text is read back. -/
structure EntryOk (magic : Nat) (e : XEntry) : Prop where
  type : e.type ≠ .compressed
  variant : e.variant < 10000000000
  gen : e.gen < 100000

theorem parseEntry_text {magic : Nat} (hm : magic < 9000000000000000000) {e : XEntry} (h : EntryOk magic e) :
    ∃ b, entryText e = .ok b ∧ b.length = 20 ∧ (∃ c t, b = c :: t ∧ isWhitespace c = false) ∧
      parseEntry magic b = .ok (shiftEntry magic e) := by
  obtain ⟨a, g, he, hal, hgl, had, hgd, hav, hgv⟩ := C36_entry_width_partial h.type h.variant h.gen
  refine ⟨_, he, by simp [hal, hgl], ?_, ?_⟩
  · cases a with
    | nil => simp at hal
    | cons c t => exact ⟨c, _, rfl, (digit_facts (had c (by simp))).2.2.2.2⟩
  · have hz : ∀ c ∈ a ++ [32] ++ g ++ [32, if e.type = XType.free then 102 else 110, 32, 10], (c ≠ 0) := by
      intro c hc
      simp only [List.mem_append, List.mem_cons, List.not_mem_nil, or_false] at hc
      rcases hc with ((hc | rfl) | hc) | rfl | hc | rfl | rfl
      · exact (digit_facts (had c hc)).2.2.2.1
      · decide
      · exact (digit_facts (hgd c hc)).2.2.2.1
      · decide
      · rw [hc]; split <;> decide
      · decide
      · decide
    have htw : (a ++ [32] ++ g ++ [32, if e.type = XType.free then 102 else 110, 32, 10]).takeWhile (· ≠ 0) =
        a ++ ([32] ++ (g ++ [32, if e.type = XType.free then 102 else 110, 32, 10])) := by
      have := takeWhile_all (p := fun c => decide (c ≠ 0)) (a := a ++ [32] ++ g ++
        [32, if e.type = XType.free then 102 else 110, 32, 10]) (fun c hc => by simp [hz c hc]) [] (by simp)
      simp only [List.append_nil] at this
      rw [this]; simp
    have hv := h.variant
    have hg := h.gen
    unfold parseEntry
    rw [htw, scanNum_digits had hal (by intro h; simp [h] at hal) (by rw [hav]; omega)]
    dsimp only
    rw [List.cons_append, List.nil_append, scanNum_space,
      scanNum_digits hgd hgl (by intro h; simp [h] at hgl) (by rw [hgv]; omega)]
    dsimp only
    rw [hav, hgv]
    cases ht : e.type with
    | compressed => exact absurd ht h.type
    | free =>
      have : (32 :: [if XType.free = XType.free then (102 : Byte) else 110, 32, 10]).dropWhile cIsSpace = [102, 32, 10] := by
        decide
      rw [this]
      cases e; simp_all [shiftEntry, checkEOL]
    | inUse =>
      have : (32 :: [if XType.inUse = XType.free then (102 : Byte) else 110, 32, 10]).dropWhile cIsSpace = [110, 32, 10] := by
        decide
      rw [this]
      have h1 : ¬ (e.variant + magic) % 18446744073709551616 > 9223372036854775807 := by omega
      have h2 : (e.variant + magic) % 18446744073709551616 = e.variant + magic := by omega
      dsimp only
      rw [if_neg (by simp), if_neg (by decide), if_neg (by decide), if_neg h1, h2]
      cases e; simp_all [shiftEntry]

/-! ### Reading a subsection -/
namespace Spec

/-- The entry of a number in what has been read. -/
def known (es : XEntries) (n : Nat) : Option XEntry := (es[n]?).join

/-- The entry of a number among written ones. -/
def entryAt (xs : List (Ref × XEntry)) (n : Nat) : Option XEntry :=
  (xs.find? (fun x => decide (x.1.num = n))).map (·.2)

end Spec

/-- What an entry that is not yet known becomes. -/
def mergeKnown (magic : Nat) (es : XEntries) (xs : List (Ref × XEntry)) (n : Nat) : Option XEntry :=
  (known es n).or ((entryAt xs n).map (shiftEntry magic))

theorem entryAt_none {xs : List (Ref × XEntry)} {n : Nat} (h : ∀ x ∈ xs, x.1.num ≠ n) : entryAt xs n = none := by
  unfold entryAt
  rw [List.find?_eq_none.2 (by simpa using h)]; rfl

theorem readEntries_text {magic : Nat} (hm : magic < 9000000000000000000) : ∀ (xs : List (Ref × XEntry)) (i : Nat) (es : XEntries),
    xs.map (·.1.num) = List.range' i xs.length → (∀ x ∈ xs, EntryOk magic x.2) → i + xs.length ≤ es.length →
    ∃ b, entriesText xs = .ok b ∧ (xs ≠ [] → ∃ c t, b = c :: t ∧ isWhitespace c = false) ∧
      ∀ rest, ∃ es', readEntries magic xs.length i es (b ++ rest) = (.ok (), es', rest) ∧
        es'.length = es.length ∧ ∀ n, known es' n = mergeKnown magic es xs n
  | [], i, es, _, _, _ => by
    refine ⟨[], rfl, by simp, fun rest => ⟨es, rfl, rfl, fun n => ?_⟩⟩
    simp [mergeKnown, entryAt]
  | x :: xs, i, es, hn, hok, hl => by
    simp only [List.map_cons, List.length_cons, List.range'_succ, List.cons.injEq] at hn
    obtain ⟨b1, hb1, hb1l, hb1c, hp⟩ := parseEntry_text hm (hok x (by simp))
    have hlt : i < es.length := by simp at hl; omega
    -- the state after this entry
    let es1 : XEntries := if es[i] = none then es.set i (some (shiftEntry magic x.2)) else es
    have hes1 : es1.length = es.length := by simp only [es1]; split <;> simp
    obtain ⟨b2, hb2, _, hr⟩ := readEntries_text hm xs (i + 1) es1 hn.2 (fun y hy => hok y (by simp [hy]))
      (by simp at hl; omega)
    refine ⟨b1 ++ b2, by simp [entriesText, hb1, hb2], fun _ => ?_, fun rest => ?_⟩
    · obtain ⟨c, t, h1, h2⟩ := hb1c
      exact ⟨c, t ++ b2, by rw [h1]; rfl, h2⟩
    · obtain ⟨es', h1, h2, h3⟩ := hr rest
      refine ⟨es', ?_, by omega, fun n => ?_⟩
      · rw [← h1, List.length_cons, readEntries, if_neg (by simp [hb1l]), List.append_assoc,
          List.take_left' hb1l, List.drop_left' hb1l, hp]
        rw [List.getElem?_eq_getElem hlt]
        simp only [es1]
        cases h : es[i] with
        | none => simp
        | some y => simp
      · rw [h3 n]
        unfold mergeKnown
        have hnot : n = i → entryAt xs n = none := by
          intro e
          refine entryAt_none fun y hy e' => ?_
          have : y.1.num ∈ xs.map (·.1.num) := List.mem_map.2 ⟨y, hy, rfl⟩
          rw [hn.2, List.mem_range'_1] at this
          omega
        have hcons : entryAt (x :: xs) n = if n = i then some x.2 else entryAt xs n := by
          unfold entryAt
          rw [List.find?_cons, hn.1]
          by_cases h : n = i
          · simp [h]
          · simp [h, Ne.symm h]
        have hkn : known es1 n = if n = i ∧ es[i] = none then some (shiftEntry magic x.2) else known es n := by
          simp only [es1, known]
          by_cases h : n = i
          · subst h
            by_cases h' : es[n] = none
            · simp [h', hlt]
            · simp [h']
          · by_cases h' : es[i] = none
            · simp [h', h, List.getElem?_set_ne (Ne.symm h)]
            · simp [h']
        rw [hcons, hkn]
        by_cases h : n = i
        · subst h
          rw [hnot rfl]
          by_cases h' : es[n] = none
          · simp [h', known, hlt]
          · simp only [h', and_false, if_false, if_true]
            cases h2 : es[n] with
            | none => exact absurd h2 h'
            | some y => simp [known, hlt, h2]
        · simp [h]

/-! ### Reading the subsections -/

/-- A subsection that is read back. -/
structure SectionOk (magic max : Nat) (s : XSection) : Prop where
  nums : s.entries.map (·.1.num) = List.range' s.first s.count
  pos : 0 < s.count
  fits : s.first + s.count ≤ max
  entries : ∀ x ∈ s.entries, EntryOk magic x.2

theorem known_append_none (es : XEntries) (k n : Nat) : known (es ++ List.replicate k none) n = known es n := by
  unfold known
  rw [List.getElem?_append]
  split
  · rfl
  · rename_i h
    rw [List.getElem?_eq_none (l := es) (by omega), List.getElem?_replicate]
    split <;> rfl

theorem lex_num {cap n : Nat} (hcap : 20 ≤ cap) (hn : n < 9223372036854775808) {c : Byte} (hc : isWhitespace c = true)
    (rest : Bytes) : lex cap (fmtNat n ++ c :: rest) = some (⟨fmtNat n, .literal⟩, c :: rest) := by
  refine lex_literal (fmtNat_lit n) (fmtNat_ne_nil n) ?_ (.cons_ws hc)
  have := fmtNat_length n 18 (Nat.lt_of_lt_of_le hn (by decide))
  omega

theorem fromChars_nat {n : Nat} (hn : n < 9223372036854775808) : fromCharsInt (fmtNat n) = some (n : Int) := by
  have := fromChars_exact (n : Int) (by omega) (by omega)
  rw [fmtInt, if_neg (by omega)] at this
  simpa using this

theorem fmtNat_ne_trailer (n : Nat) : fmtNat n ≠ kTrailer := by
  intro h
  have := fmtNat_digits n 116 (by rw [h]; decide)
  exact absurd this (by decide)

theorem readSection_text {cap magic max : Nat} (hcap : 20 ≤ cap) (hm : magic < 9000000000000000000)
    (hmax : max < 9223372036854775808) {s : XSection} (h : SectionOk magic max s) (es : XEntries) :
    ∃ b, sectionText s = .ok b ∧ ∀ rest d, ∃ es', readSection cap magic max es ⟨[], b ++ rest, d⟩ =
      (.ok true, es', ⟨[], rest, d⟩) ∧ ∀ n, known es' n = mergeKnown magic es s.entries n := by
  have hlen : s.entries.length = s.count := by
    have := congrArg List.length h.nums; simpa using this
  have hf := h.fits
  have hp := h.pos
  let es1 : XEntries := es ++ List.replicate (s.first + s.count - es.length) none
  obtain ⟨b, hb, hbc, hr⟩ := readEntries_text hm s.entries s.first es1 (by rw [hlen]; exact h.nums) h.entries
    (by simp only [es1, List.length_append, List.length_replicate]; omega)
  obtain ⟨c, t, hct, hcw⟩ := hbc (by intro h; simp [h] at hlen; omega)
  refine ⟨_, by rw [sectionText, hb], fun rest d => ?_⟩
  obtain ⟨es', h1, _, h3⟩ := hr rest
  refine ⟨es', ?_, fun n => ?_⟩
  · have e1 : (fmtNat s.first ++ 32 :: fmtNat s.count ++ 10 :: b) ++ rest =
        fmtNat s.first ++ 32 :: (fmtNat s.count ++ 10 :: (b ++ rest)) := by simp
    have l1 := lex_num hcap (n := s.first) (by omega) (c := 32) (by decide) (fmtNat s.count ++ 10 :: (b ++ rest))
    have l2 : lex cap (32 :: (fmtNat s.count ++ 10 :: (b ++ rest))) = some (⟨fmtNat s.count, .literal⟩, 10 :: (b ++ rest)) := by
      rw [lex_ws (by omega) (by decide)]
      exact lex_num hcap (by omega) (by decide) _
    have t1 : tryReadToken cap ⟨[], fmtNat s.first ++ 32 :: (fmtNat s.count ++ 10 :: (b ++ rest)), d⟩ =
        (some ⟨fmtNat s.first, .literal⟩, ⟨[], 32 :: (fmtNat s.count ++ 10 :: (b ++ rest)), d⟩) := by
      simp [tryReadToken, l1]
    have r1 : readNextNumber cap ⟨[⟨fmtNat s.first, .literal⟩], 32 :: (fmtNat s.count ++ 10 :: (b ++ rest)), d⟩ =
        (.ok (s.first : Int), ⟨[], 32 :: (fmtNat s.count ++ 10 :: (b ++ rest)), d⟩) := by
      have hcut : (fmtNat s.first).take cap = fmtNat s.first := by
        refine List.take_of_length_le ?_
        have := fmtNat_length s.first 18 (Nat.lt_of_lt_of_le (m := 9223372036854775808) (by omega) (by decide))
        omega
      simp only [readNextNumber, tryReadToken, hcut, fromChars_nat (n := s.first) (by omega)]
    have r2 : readNextNumber cap ⟨[], 32 :: (fmtNat s.count ++ 10 :: (b ++ rest)), d⟩ =
        (.ok (s.count : Int), ⟨[], 10 :: (b ++ rest), d⟩) := by
      simp only [readNextNumber, tryReadToken, l2, fromChars_nat (n := s.count) (by omega)]
    have hen : enlarge max es ((s.first : Int) + (s.count : Int)) = .ok es1 := by
      unfold enlarge
      rw [if_neg (by omega), if_neg (by omega), if_neg (by omega)]
      have : ((s.first : Int) + (s.count : Int)).toNat = s.first + s.count := by omega
      rw [this]
    have hsub : readSubsection magic max (s.first : Int) (s.count : Int) es (10 :: (b ++ rest)) = (.ok (), es', rest) := by
      have hdw : (10 :: (b ++ rest)).dropWhile isWhitespace = b ++ rest := by
        rw [List.dropWhile_cons, if_pos (by decide), hct, List.cons_append, List.dropWhile_cons, if_neg (by simp [hcw])]
      unfold readSubsection
      rw [if_neg (by omega), if_neg (by omega), hen]
      dsimp only
      rw [hdw, ← h1, hlen]; rfl
    rw [e1]
    unfold readSection
    simp only [t1, Option.map_some, Option.some.injEq, fmtNat_ne_trailer, if_false, enqueue, List.nil_append]
    rw [r1]
    dsimp only
    rw [r2]
    dsimp only
    rw [hsub]
  · rw [h3 n]
    unfold mergeKnown
    rw [show known es1 n = known es n from known_append_none _ _ _]

theorem entryAt_append (xs ys : List (Ref × XEntry)) (n : Nat) :
    entryAt (xs ++ ys) n = (entryAt xs n).or (entryAt ys n) := by
  unfold entryAt
  rw [List.find?_append]
  cases List.find? (fun x => decide (x.1.num = n)) xs <;> rfl

theorem readSections_text {cap magic max : Nat} (hcap : 20 ≤ cap) (hm : magic < 9000000000000000000)
    (hmax : max < 9223372036854775808) : ∀ (ss : List XSection) (left : Nat) (es : XEntries),
    (∀ s ∈ ss, SectionOk magic max s) → ss.length ≤ left →
    ∃ b, sectionsText ss = .ok b ∧ ∀ rest d, ∃ es', readSections cap magic max left es ⟨[], b ++ rest, d⟩ =
      readSections cap magic max (left - ss.length) es' ⟨[], rest, d⟩ ∧
      ∀ n, known es' n = mergeKnown magic es (allEntries ss) n
  | [], left, es, _, _ => by
    refine ⟨[], rfl, fun rest d => ⟨es, rfl, fun n => ?_⟩⟩
    simp [mergeKnown, entryAt, allEntries]
  | s :: ss, left, es, hok, hl => by
    cases left with
    | zero => simp at hl
    | succ left =>
      obtain ⟨b1, hb1, hr1⟩ := readSection_text hcap hm hmax (hok s (by simp)) es
      have hgen : ∃ b2, sectionsText ss = .ok b2 ∧ ∀ es rest d, ∃ es', readSections cap magic max left es ⟨[], b2 ++ rest, d⟩ =
          readSections cap magic max (left - ss.length) es' ⟨[], rest, d⟩ ∧
          ∀ n, known es' n = mergeKnown magic es (allEntries ss) n := by
        obtain ⟨b2, hb2, _⟩ := readSections_text hcap hm hmax ss left [] (fun y hy => hok y (by simp [hy])) (by simpa using hl)
        refine ⟨b2, hb2, fun es => ?_⟩
        obtain ⟨b2', hb2', h⟩ := readSections_text hcap hm hmax ss left es (fun y hy => hok y (by simp [hy])) (by simpa using hl)
        rw [hb2] at hb2'
        rw [Except.ok.inj hb2']; exact h
      obtain ⟨b2, hb2, hr2⟩ := hgen
      refine ⟨b1 ++ b2, by simp [sectionsText, hb1, hb2], fun rest d => ?_⟩
      obtain ⟨es1, h1, h1k⟩ := hr1 (b2 ++ rest) d
      obtain ⟨es2, h2, h2k⟩ := hr2 es1 rest d
      refine ⟨es2, ?_, fun n => ?_⟩
      · rw [List.append_assoc, readSections, h1]
        dsimp only
        rw [h2]; simp
      · rw [h2k n]
        have : allEntries (s :: ss) = s.entries ++ allEntries ss := by simp [allEntries]
        rw [this]
        unfold mergeKnown
        rw [h1k n, entryAt_append]
        unfold mergeKnown
        cases known es n <;> cases entryAt s.entries n <;> simp

/-! ### The theorems -/
namespace Spec

/-- What the text of a table and the reader can hold: offsets of at most ten digits, generations of at most
five, and no more numbers than the reader accepts. -/
structure Fits (max : Nat) (adds : List XAdd) : Prop where
  valid : Adds adds
  offset : ∀ r off, XAdd.inUse r off ∈ adds → off < 10000000000
  gen : ∀ a ∈ adds, a.ref.gen < 100000
  num : ∀ a ∈ adds, a.ref.num < max

end Spec

theorem written_ref {a : XAdd} {r : Ref} (h : a.written = some r) : a.ref = r := by
  cases a <;> simp_all [XAdd.written, XAdd.ref]

theorem fits_sections {max : Nat} (magic : Nat) {adds : List XAdd} (h : Spec.Fits max adds) (hmax : 1 ≤ max)
    {ss : List XSection} (ht : Spec.IsTable adds ss) : ∀ s ∈ ss, 0 < s.count → SectionOk magic max s := by
  intro s hs hpos
  have hmem : ∀ x ∈ s.entries, x ∈ allEntries ss := fun x hx => List.mem_flatMap.2 ⟨s, hs, hx⟩
  have hnum : ∀ x ∈ s.entries, x.1.num < max := by
    rintro ⟨r, e⟩ hx
    rcases (ht.only r e (hmem _ hx)).2.1 with ⟨h1, _⟩ | ⟨a, ha, hw⟩
    · rw [h1]; exact hmax
    · rw [← written_ref hw]; exact h.num a ha
  refine ⟨ht.consecutive s hs, hpos, ?_, ?_⟩
  · have : s.first + s.count - 1 ∈ s.entries.map (·.1.num) := by
      rw [ht.consecutive s hs, List.mem_range'_1]; omega
    obtain ⟨x, hx, e⟩ := List.mem_map.1 this
    have := hnum x hx
    omega
  · rintro ⟨r, e⟩ hx
    obtain ⟨h1, h2, h3⟩ := ht.only r e (hmem _ hx)
    refine ⟨?_, ?_, ?_⟩
    · rcases h3 with h3 | h3 <;> simp [h3]
    · rcases h3 with h3 | ⟨_, h3 | ⟨f, hf, h3⟩⟩
      · have he : e = ⟨.inUse, e.variant, r.gen⟩ := by cases e; simp_all
        have := hmem _ hx
        rw [he] at this
        exact h.offset r _ ((ht.inUse r e.variant).2 this)
      · dsimp only; omega
      · have := (h.valid.range _ hf).2
        simp only [XAdd.ref] at this
        dsimp only; omega
    · dsimp only
      rw [h1]
      rcases h2 with ⟨h2, _⟩ | ⟨a, ha, hw⟩
      · rw [h2]; decide
      · rw [← written_ref hw]; exact h.gen a ha

theorem table_count_pos {adds : List XAdd} (h : Spec.Adds adds) (inc : Bool)
    (hne : inc = true ∨ ∃ a ∈ adds, a.written ≠ none) {ss : List XSection} (hw : writeSections inc adds = .ok ss) :
    ∀ s ∈ ss, 0 < s.count := by
  obtain ⟨bs, hm, h1, h2, hrest⟩ := written_blocks h inc hne
  clear hrest
  rw [writeSections, hm] at hw
  replace hw := Except.ok.inj hw
  subst hw
  clear hm
  induction bs with
  | nil => simp [sectionsOf]
  | cons b bs ih =>
    intro s hs
    rw [sectionsOf] at hs
    rcases List.mem_cons.1 hs with rfl | hs
    · obtain ⟨g1, g2, g3⟩ := sectionOf_spec (h2 b (by simp)) bs
      have := (h2 b (by simp)).pos
      have hh : b.first = 1 ∨ b.first ≠ 1 := by omega
      simp only [XBlock.stop] at g3
      rcases hh with hh | hh
      · rw [if_pos hh] at g2; omega
      · rw [if_neg hh] at g2; omega
    · exact ih (List.pairwise_cons.1 h1).2 (fun c hc => h2 c (by simp [hc])) s hs

/-- **C37.** A written table of at most 511 subsections, followed by the keyword `trailer`, is read back: every
number that is not known yet gets the entry written for it, offsets being counted from the header, and no other
number gets one. The reader stops in front of the keyword. -/
theorem C37_table_round_trip_partial {cap magic max : Nat} (hcap : 20 ≤ cap) (hm : magic < 9000000000000000000)
    (hmax : max < 9223372036854775808) (hmax1 : 1 ≤ max) {adds : List XAdd} (h : Spec.Fits max adds) (inc : Bool)
    (hne : inc = true ∨ ∃ a ∈ adds, a.written ≠ none) :
    ∃ ss txt, writeSections inc adds = .ok ss ∧ Spec.IsTable adds ss ∧ sectionsText ss = .ok txt ∧
      (ss.length < maxSections → ∀ (es : XEntries) rest d, StartsOk rest →
        ∃ es', readSections cap magic max maxSections es ⟨[], txt ++ (kTrailer ++ rest), d⟩ =
            (.ok (), es', ⟨[⟨kTrailer, .literal⟩], rest, d⟩) ∧
          ∀ n, Spec.known es' n = match Spec.known es n, Spec.entryAt (Spec.allEntries ss) n with
            | some e, _ => some e
            | none, some e => some (if e.type = .inUse then { e with variant := e.variant + magic } else e)
            | none, none => none) := by
  obtain ⟨ss, hw, ht⟩ := C34_table h.valid inc hne
  have hpos := table_count_pos h.valid inc hne hw
  have hok : ∀ s ∈ ss, SectionOk magic max s := fun s hs => fits_sections magic h hmax1 ht s hs (hpos s hs)
  obtain ⟨txt, htxt, _⟩ := readSections_text hcap hm hmax ss ss.length [] hok (Nat.le_refl _)
  refine ⟨ss, txt, hw, ht, htxt, fun hlen es rest d hr => ?_⟩
  obtain ⟨txt', htxt', hrd⟩ := readSections_text hcap hm hmax ss maxSections es hok (by omega)
  rw [htxt] at htxt'
  rw [← Except.ok.inj htxt'] at hrd
  obtain ⟨es', h1, h2⟩ := hrd (kTrailer ++ rest) d
  refine ⟨es', ?_, fun n => ?_⟩
  · rw [h1]
    obtain ⟨k, hk⟩ : ∃ k, maxSections - ss.length = k + 1 := ⟨maxSections - ss.length - 1, by omega⟩
    have hl : lex cap (kTrailer ++ rest) = some (⟨kTrailer, .literal⟩, rest) :=
      lex_literal (by decide) (by decide) (by simp [kTrailer]; omega) hr
    rw [hk, readSections, readSection]
    simp [tryReadToken, hl, enqueue]
  · rw [h2 n, mergeKnown]
    cases Spec.known es n with
    | some e => simp
    | none =>
      cases Spec.entryAt (Spec.allEntries ss) n with
      | none => simp
      | some e =>
        simp only [Option.map_some, Option.none_or, shiftEntry]
        cases ht : e.type <;> simp

theorem length_le_of_subset {α : Type} [DecidableEq α] : ∀ {l₁ l₂ : List α}, l₁.Nodup → (∀ x ∈ l₁, x ∈ l₂) →
    l₁.length ≤ l₂.length
  | [], _, _, _ => by simp
  | a :: l₁, l₂, hn, hs => by
    have hn' := List.nodup_cons.1 hn
    have ha := hs a (by simp)
    have := length_le_of_subset (l₂ := l₂.erase a) hn'.2 (fun x hx => by
      have hne : x ≠ a := fun e => hn'.1 (e ▸ hx)
      exact (List.mem_erase_of_ne hne).2 (hs x (by simp [hx])))
    rw [List.length_erase_of_mem ha] at this
    have : 0 < l₂.length := List.length_pos_of_mem ha
    simp; omega

/-- A save of 512 objects or more of which no two have neighbouring numbers writes a table that the reader
refuses. -/
theorem C37_many_sections_false {cap magic max : Nat} (hcap : 20 ≤ cap) (hm : magic < 9000000000000000000)
    (hmax : max < 9223372036854775808) (hmax1 : 1 ≤ max) {adds : List XAdd} (h : Spec.Fits max adds)
    (hall : ∀ a ∈ adds, ∃ r off, a = XAdd.inUse r off ∧ 2 ≤ r.num)
    (hgap : ∀ a ∈ adds, ∀ b ∈ adds, b.ref.num ≠ a.ref.num + 1) (hlen : 512 ≤ adds.length) :
    ∃ ss txt, writeSections false adds = .ok ss ∧ sectionsText ss = .ok txt ∧ ∀ rest d,
      (readSections cap magic max maxSections [] ⟨[], txt ++ rest, d⟩).1 = raise .NoEOFToken := by
  have hne : ∃ a ∈ adds, a.written ≠ none := by
    cases adds with
    | nil => simp at hlen
    | cons a t =>
      obtain ⟨r, off, e, _⟩ := hall a (by simp)
      exact ⟨a, by simp, by rw [e]; simp [XAdd.written]⟩
  obtain ⟨ss, hw, ht⟩ := C34_table h.valid false (.inr hne)
  have hpos := table_count_pos h.valid false (.inr hne) hw
  have hok : ∀ s ∈ ss, SectionOk magic max s := fun s hs => fits_sections magic h hmax1 ht s hs (hpos s hs)
  -- entry 0 is missing: the blocks start at 2 or later
  obtain ⟨ss', hw', hz⟩ := C35_no_head_false h.valid hne (by
    intro a ha r hr
    obtain ⟨r', off, e, h2⟩ := hall a ha
    rw [e] at hr
    simp only [XAdd.written, Option.some.injEq] at hr
    rw [← hr]; omega)
  rw [hw] at hw'
  rw [← Except.ok.inj hw'] at hz
  have hmem : ∀ s ∈ ss, ∀ x ∈ s.entries, ∃ a ∈ adds, a.ref = x.1 := by
    rintro s hs ⟨r, e⟩ hx
    have hx' : (r, e) ∈ allEntries ss := List.mem_flatMap.2 ⟨s, hs, hx⟩
    rcases (ht.only r e hx').2.1 with ⟨h1, _⟩ | ⟨a, ha, hwr⟩
    · exact absurd (by rw [h1]) (hz _ hx')
    · exact ⟨a, ha, written_ref hwr⟩
  have hone : ∀ s ∈ ss, s.entries.length = 1 := by
    intro s hs
    have hl : s.entries.length = s.count := by
      have := congrArg List.length (ht.consecutive s hs); simpa using this
    have hp := hpos s hs
    rcases Nat.lt_or_ge s.count 2 with h2 | h2
    · omega
    exfalso
    have m1 : s.first ∈ s.entries.map (·.1.num) := by rw [ht.consecutive s hs, List.mem_range'_1]; omega
    have m2 : s.first + 1 ∈ s.entries.map (·.1.num) := by rw [ht.consecutive s hs, List.mem_range'_1]; omega
    obtain ⟨x, hx, ex⟩ := List.mem_map.1 m1
    obtain ⟨y, hy, ey⟩ := List.mem_map.1 m2
    obtain ⟨a, ha, ea⟩ := hmem s hs x hx
    obtain ⟨b, hb, eb⟩ := hmem s hs y hy
    refine hgap a ha b hb ?_
    rw [ea, eb]
    omega
  have hcount : ∀ l : List XSection, (∀ s ∈ l, s.entries.length = 1) → (allEntries l).length = l.length := by
    intro l
    induction l with
    | nil => simp [allEntries]
    | cons s l ih =>
      intro hl
      have h1 := ih (fun t ht => hl t (by simp [ht]))
      have h2 := hl s (by simp)
      simp only [allEntries, List.flatMap_cons, List.length_append, List.length_cons] at h1 ⊢
      omega
  have hbig : 512 ≤ ss.length := by
    rw [← hcount ss hone]
    have hd : (adds.map (·.ref.num)).Nodup := by
      have hd := h.valid.distinct
      have e : ∀ l : List XAdd, (∀ a ∈ l, ∃ r off, a = XAdd.inUse r off ∧ 2 ≤ r.num) →
          (l.filterMap XAdd.written).map Ref.num = l.map (·.ref.num) := by
        intro l
        induction l with
        | nil => simp
        | cons a l ih =>
          intro hl
          obtain ⟨r, off, e, _⟩ := hl a (by simp)
          rw [List.filterMap_cons, e]
          simp only [XAdd.written, List.map_cons, XAdd.ref, ih (fun b hb => hl b (by simp [hb]))]
      rw [← e adds hall]; exact hd
    have := length_le_of_subset (l₂ := (allEntries ss).map (·.1.num)) hd (by
      intro n hn
      obtain ⟨a, ha, e⟩ := List.mem_map.1 hn
      obtain ⟨r, off, e', _⟩ := hall a ha
      subst e'
      exact List.mem_map.2 ⟨_, (ht.inUse r off).1 ha, e⟩)
    simp only [List.length_map] at this
    omega
  obtain ⟨txt, htxt, _⟩ := readSections_text hcap hm hmax ss ss.length [] hok (Nat.le_refl _)
  refine ⟨ss, txt, hw, htxt, fun rest d => ?_⟩
  -- the first 512 subsections use up the rounds
  obtain ⟨b1, hb1, hr1⟩ := readSections_text hcap hm hmax (ss.take 512) 512 []
    (fun s hs => hok s (List.mem_of_mem_take hs)) (by simp; omega)
  obtain ⟨b2, hb2, _⟩ := readSections_text hcap hm hmax (ss.drop 512) ss.length []
    (fun s hs => hok s (List.mem_of_mem_drop hs)) (by simp)
  have happ : ∀ (l1 l2 : List XSection) (c1 c2 : Bytes), sectionsText l1 = .ok c1 → sectionsText l2 = .ok c2 →
      sectionsText (l1 ++ l2) = .ok (c1 ++ c2) := by
    intro l1
    induction l1 with
    | nil => intro l2 c1 c2 h1 h2; simp only [sectionsText] at h1; rw [← Except.ok.inj h1]; exact h2
    | cons s l1 ih =>
      intro l2 c1 c2 h1 h2
      simp only [sectionsText] at h1
      split at h1
      · rename_i a b ha hb
        rw [← Except.ok.inj h1]
        simp [sectionsText, ha, ih l2 b c2 hb h2]
      · cases h1
      · cases h1
  have := happ _ _ _ _ hb1 hb2
  rw [List.take_append_drop, htxt] at this
  rw [Except.ok.inj this, List.append_assoc]
  obtain ⟨es', h1, _⟩ := hr1 (b2 ++ rest) d
  have hl : (ss.take 512).length = 512 := by simp; omega
  rw [hl] at h1
  rw [show maxSections = 512 from rfl, h1, readSections]

/-! Concrete cases. -/
example : Spec.Fits 8388607 [.inUse ⟨4, 0⟩ 100, .inUse ⟨1, 0⟩ 15, .free ⟨2, 3⟩, .inUse ⟨7, 1⟩ 9999999999, .old ⟨9, 0⟩] := by
  refine ⟨⟨by decide, by decide⟩, ?_, by decide, by decide⟩
  intro r off h
  simp at h
  omega

example : ∃ adds, Spec.Fits 8388607 adds ∧ (∀ a ∈ adds, ∃ r off, a = XAdd.inUse r off ∧ 2 ≤ r.num) ∧
    (∀ a ∈ adds, ∀ b ∈ adds, b.ref.num ≠ a.ref.num + 1) ∧ 512 ≤ adds.length := by
  obtain ⟨N, hN⟩ : ∃ N, N = 600 := ⟨_, rfl⟩
  refine ⟨(List.range N).map (fun i => .inUse ⟨2 * i + 2, 0⟩ (20 * i)), ⟨⟨?_, ?_⟩, ?_, ?_, ?_⟩, ?_, ?_, by simp; omega⟩
  · intro a ha
    obtain ⟨i, hi, rfl⟩ := List.mem_map.1 ha
    have := List.mem_range.1 hi
    simp only [XAdd.ref]; omega
  · have e : ((List.range N).map (fun i => XAdd.inUse ⟨2 * i + 2, 0⟩ (20 * i))).filterMap XAdd.written =
        (List.range N).map (fun i => ⟨2 * i + 2, 0⟩) := by
      rw [List.filterMap_map]
      exact congrFun (List.filterMap_eq_map (f := fun i => (⟨2 * i + 2, 0⟩ : Ref))) _
    rw [e, List.map_map, List.Nodup, List.pairwise_map]
    refine List.pairwise_lt_range.imp ?_
    intro a b h
    simp only [Function.comp]; omega
  · intro r off h
    obtain ⟨i, hi, e⟩ := List.mem_map.1 h
    have := List.mem_range.1 hi
    simp only [XAdd.inUse.injEq] at e
    omega
  · intro a ha
    obtain ⟨i, hi, rfl⟩ := List.mem_map.1 ha
    simp [XAdd.ref]
  · intro a ha
    obtain ⟨i, hi, rfl⟩ := List.mem_map.1 ha
    have := List.mem_range.1 hi
    simp only [XAdd.ref]; omega
  · intro a ha
    obtain ⟨i, hi, rfl⟩ := List.mem_map.1 ha
    exact ⟨_, _, rfl, by simp⟩
  · intro a ha b hb
    obtain ⟨i, hi, rfl⟩ := List.mem_map.1 ha
    obtain ⟨j, hj, rfl⟩ := List.mem_map.1 hb
    simp only [XAdd.ref]; omega

end Pdfmm
