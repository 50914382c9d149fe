import Verif.Syntax.LitSpec
import Verif.Syntax.TokModel
import Verif.Filters.Spec
/-
Reading text that pdfmm did not write itself: literal and hexadecimal strings, names, separators and
references as ISO 32000-1 defines them.
-/
set_option linter.unusedVariables false
namespace Pdfmm
open Spec

theorem octVal_isOctal {a : Byte} {x : Nat} (h : octVal a = some x) :
    isOctal a = true ∧ (a - 48) &&& 7 = UInt8.ofNat x ∧ x < 8 := by
  have := forall_byte (P := fun a => (octVal a).all (fun x =>
    decide (isOctal a = true ∧ (a - 48) &&& 7 = UInt8.ofNat x ∧ x < 8)) = true) (by decide +kernel) a
  rw [h] at this; simpa only [Option.all_some, decide_eq_true_eq] using this

theorem octVal_not {a : Byte} (h : octVal a = none) : isOctal a = false :=
  forall_byte (P := fun a => octVal a = none → isOctal a = false) (by decide +kernel) a h

theorem escapeOf_rd {c v : Byte} (h : escapeOf c = some v) :
    isOctal c = false ∧ c ≠ 10 ∧ c ≠ 13 ∧ rdEscaped c = v ∧ v ≠ 0 := by
  have := forall_byte (P := fun c => (escapeOf c).all (fun v =>
    decide (isOctal c = false ∧ c ≠ 10 ∧ c ≠ 13 ∧ rdEscaped c = v ∧ v ≠ 0)) = true) (by decide +kernel) c
  rw [h] at this; simpa only [Option.all_some, decide_eq_true_eq] using this

theorem oct_value2 {x y : Nat} (hx : x < 8) (hy : y < 8) :
    (UInt8.ofNat x <<< 3) ||| UInt8.ofNat y = UInt8.ofNat (8 * x + y) := by
  have : ∀ x y : Fin 8, (UInt8.ofNat x.val <<< 3) ||| UInt8.ofNat y.val = UInt8.ofNat (8 * x.val + y.val) := by
    decide +kernel
  exact this ⟨x, hx⟩ ⟨y, hy⟩

theorem oct_value3 {x y z : Nat} (hx : x < 8) (hy : y < 8) (hz : z < 8) :
    (UInt8.ofNat (8 * x + y) <<< 3) ||| UInt8.ofNat z = UInt8.ofNat (64 * x + 8 * y + z) := by
  have : ∀ x y z : Fin 8, (UInt8.ofNat (8 * x.val + y.val) <<< 3) ||| UInt8.ofNat z.val =
      UInt8.ofNat (64 * x.val + 8 * y.val + z.val) := by
    decide +kernel
  exact this ⟨x, hx⟩ ⟨y, hy⟩ ⟨z, hz⟩

/-- A short octal escape ended by a character that is no parenthesis. -/
theorem oct_end {t : Bytes} (h : PlainHead t) (k : Nat) (v : Byte) (bal : Int) (buf r : Bytes) :
    readStringLoop (t ++ r) { escape := true, octEscape := true, octCount := k, octValue := v, balance := bal, buf := buf } =
      readStringLoop (t ++ r) { balance := bal, buf := buf ++ [v] } := by
  obtain ⟨c, t', e, h1, h2, h3⟩ := h
  have h3' := octVal_not h3
  subst e
  by_cases h92 : c = 92
  · subst h92
    simp [readStringLoop, h3']
  · simp [readStringLoop, h3', h1, h2, h92]

theorem core_read {top : Bool} {t d : Bytes} (h : CoreString top t d) :
    ∀ (bal : Int) (buf : Bytes), 0 ≤ bal →
      (top = false → ∀ r, readStringLoop (t ++ r) { balance := bal, buf := buf } =
        readStringLoop r { balance := bal, buf := buf ++ d }) ∧
      (top = true → bal = 0 → ∀ r, readStringLoop (t ++ 41 :: r) { balance := bal, buf := buf } =
        (buf ++ d, r)) := by
  induction h with
  | nil =>
    intro bal buf hb
    refine ⟨fun _ r => by simp, fun _ h0 r => by subst h0; simp [readStringLoop, StrSt.finish]⟩
  | char c h _ ih =>
    intro bal buf hb
    obtain ⟨h1, h2, h3, h4⟩ := h
    obtain ⟨i1, i2⟩ := ih bal (buf ++ [c]) hb
    refine ⟨fun ht r => ?_, fun ht h0 r => ?_⟩
    · simp [readStringLoop, h1, h2, h3, i1 ht]
    · simp only [List.cons_append, readStringLoop, h1, h2, h3]
      simpa using i2 ht h0 r
  | nested hb' ht' ih1 ih2 =>
    rename_i b e t d
    intro bal buf hb
    have s1 : ∀ r, readStringLoop (40 :: r) { balance := bal, buf := buf } =
        readStringLoop r { balance := bal + 1, buf := buf ++ [40] } := by
      intro r; simp [readStringLoop]
    have s2 : ∀ r buf, readStringLoop (41 :: r) { balance := bal + 1, buf := buf } =
        readStringLoop r { balance := bal, buf := buf ++ [41] } := by
      intro r buf
      have : bal + 1 ≠ 0 := by omega
      have e : bal + 1 - 1 = bal := by omega
      simp [readStringLoop, this, e]
    obtain ⟨i1, i2⟩ := ih2 bal (buf ++ [40] ++ e ++ [41]) hb
    refine ⟨fun ht r => ?_, fun ht h0 r => ?_⟩
    · rw [List.cons_append, List.append_assoc, List.cons_append, s1,
        (ih1 (bal + 1) _ (by omega)).1 rfl, s2, i1 ht]
      simp
    · rw [List.cons_append, List.append_assoc, List.cons_append, s1,
        (ih1 (bal + 1) _ (by omega)).1 rfl, s2, i2 ht h0]
      simp
  | esc c v h _ ih =>
    intro bal buf hb
    obtain ⟨h1, h2, h3, h4, h5⟩ := escapeOf_rd h
    obtain ⟨i1, i2⟩ := ih bal (buf ++ [v]) hb
    refine ⟨fun ht r => ?_, fun ht h0 r => ?_⟩
    · simp [readStringLoop, h1, h2, h3, h4, h5, i1 ht]
    · simp [readStringLoop, h1, h2, h3, h4, h5, i2 ht h0]
  | oct3 a b c x y z ha hb hc _ ih =>
    intro bal buf hbal
    obtain ⟨a1, a2, a3⟩ := octVal_isOctal ha
    obtain ⟨b1, b2, b3⟩ := octVal_isOctal hb
    obtain ⟨c1, c2, c3⟩ := octVal_isOctal hc
    obtain ⟨i1, i2⟩ := ih bal (buf ++ [UInt8.ofNat (64 * x + 8 * y + z)]) hbal
    refine ⟨fun ht r => ?_, fun ht h0 r => ?_⟩
    · simp [-UInt8.ofNat_add, -UInt8.ofNat_mul, readStringLoop, a1, b1, c1, a2, b2, c2, oct_value2 a3 b3, oct_value3 a3 b3 c3, i1 ht]
    · simp [-UInt8.ofNat_add, -UInt8.ofNat_mul, readStringLoop, a1, b1, c1, a2, b2, c2, oct_value2 a3 b3, oct_value3 a3 b3 c3, i2 ht h0]
  | oct2 a b x y ha hb hn _ ih =>
    intro bal buf hbal
    obtain ⟨a1, a2, a3⟩ := octVal_isOctal ha
    obtain ⟨b1, b2, b3⟩ := octVal_isOctal hb
    obtain ⟨i1, i2⟩ := ih bal (buf ++ [UInt8.ofNat (8 * x + y)]) hbal
    refine ⟨fun ht r => ?_, fun ht h0 r => ?_⟩
    · simp [-UInt8.ofNat_add, -UInt8.ofNat_mul, readStringLoop, a1, b1, a2, b2, oct_value2 a3 b3, oct_end hn, i1 ht]
    · simp [-UInt8.ofNat_add, -UInt8.ofNat_mul, readStringLoop, a1, b1, a2, b2, oct_value2 a3 b3, oct_end hn, i2 ht h0]
  | oct1 a x ha hn _ ih =>
    intro bal buf hbal
    obtain ⟨a1, a2, a3⟩ := octVal_isOctal ha
    obtain ⟨i1, i2⟩ := ih bal (buf ++ [UInt8.ofNat x]) hbal
    refine ⟨fun ht r => ?_, fun ht h0 r => ?_⟩
    · simp [-UInt8.ofNat_add, -UInt8.ofNat_mul, readStringLoop, a1, a2, oct_end hn, i1 ht]
    · simp [-UInt8.ofNat_add, -UInt8.ofNat_mul, readStringLoop, a1, a2, oct_end hn, i2 ht h0]
  | oct2end a b x y ha hb =>
    intro bal buf hbal
    obtain ⟨a1, a2, a3⟩ := octVal_isOctal ha
    obtain ⟨b1, b2, b3⟩ := octVal_isOctal hb
    have h41 : isOctal 41 = false := by decide
    refine ⟨fun ht => (by cases ht), fun ht h0 r => ?_⟩
    simp [-UInt8.ofNat_add, -UInt8.ofNat_mul, readStringLoop, a1, b1, a2, b2, oct_value2 a3 b3, StrSt.finish, h41]
  | oct1end a x ha =>
    intro bal buf hbal
    obtain ⟨a1, a2, a3⟩ := octVal_isOctal ha
    have h41 : isOctal 41 = false := by decide
    refine ⟨fun ht => (by cases ht), fun ht h0 r => ?_⟩
    simp [-UInt8.ofNat_add, -UInt8.ofNat_mul, readStringLoop, a1, a2, StrSt.finish, h41]
  | contLf _ ih =>
    intro bal buf hb
    obtain ⟨i1, i2⟩ := ih bal buf hb
    have h10 : isOctal 10 = false := by decide
    refine ⟨fun ht r => ?_, fun ht h0 r => ?_⟩
    · simp [readStringLoop, h10, i1 ht]
    · simp [readStringLoop, h10, i2 ht h0]
  | contCr h _ ih =>
    intro bal buf hb
    obtain ⟨i1, i2⟩ := ih bal buf hb
    have h13 : isOctal 13 = false := by decide
    refine ⟨fun ht r => ?_, fun ht h0 r => ?_⟩
    · simp [readStringLoop, h13, i1 ht]
    · simp [readStringLoop, h13, i2 ht h0]

/-- C68 fails: a backslash before an ordinary character swallows the character. -/
theorem C68_other_escape_false :
    LitString [0x5C, 0x71] [0x71] ∧ readString [0x5C, 0x71, 41] = ([], []) :=
  ⟨.other 0x71 (by decide) (by decide) (by decide) .nil, by decide +kernel⟩

/-- C68 fails: an unescaped carriage return is kept (the standard reads it as a line feed), and of
`\` CR LF only the carriage return is skipped. -/
theorem C68_eol_false :
    (LitString [0x0D] [0x0A] ∧ readString [0x0D, 41] = ([0x0D], [])) ∧
    (LitString [0x5C, 0x0D, 0x0A] [] ∧ readString [0x5C, 0x0D, 0x0A, 41] = ([0x0A], [])) :=
  ⟨⟨.cr (by intro r h; cases h) .nil, by decide +kernel⟩, ⟨.contCrLf .nil, by decide +kernel⟩⟩

/-- C68 fails: a short octal escape before a closing parenthesis inside the string ends the string,
`((\5)b)` reads as `(` and 5 with `b)` left over; before an opening one the nesting is lost. -/
theorem C68_octal_paren_false :
    (LitString [0x28, 0x5C, 0x35, 0x29, 0x62] [0x28, 5, 0x29, 0x62] ∧
      readString [0x28, 0x5C, 0x35, 0x29, 0x62, 41] = ([0x28, 5], [0x62, 41])) ∧
    (LitString [0x5C, 0x35, 0x28, 0x29] [5, 0x28, 0x29] ∧
      readString [0x5C, 0x35, 0x28, 0x29, 41] = ([5, 0x28], [41])) := by
  refine ⟨⟨?_, by decide +kernel⟩, ⟨?_, by decide +kernel⟩⟩
  · exact .nested (b := [0x5C, 0x35]) (e := [5]) (t := [0x62]) (d := [0x62])
      (.oct1 0x35 5 (by decide) (by intro c r h; cases h) .nil) (.char 0x62 (by decide) .nil)
  · exact .oct1 0x35 5 (by decide) (by intro c r h; cases h; decide)
      (.nested (b := []) (e := []) (t := []) (d := []) .nil .nil)

/-- C68, the part that holds: every literal string avoiding those cases is read as the standard says, and
reading stops right after its closing parenthesis.  Missing: the cases refuted above. -/
theorem C68_literal_string_partial {t d : Bytes} (h : CoreString true t d) (rest : Bytes) :
    readString (t ++ 41 :: rest) = (d, rest) := by
  have := (core_read h 0 [] (by omega)).2 rfl rfl rest
  simpa [readString] using this

/-- Non-vacuity: `a(b\051\n)\7 \0` over two lines. -/
example : CoreString true [0x61, 0x28, 0x62, 0x5C, 0x30, 0x35, 0x31, 0x5C, 0x6E, 0x29, 0x5C, 0x37, 0x20, 0x5C, 0x0A, 0x5C, 0x30]
    [0x61, 0x28, 0x62, 0x29, 0x0A, 0x29, 7, 0x20, 0] :=
  .char 0x61 (by decide) (.nested (b := [0x62, 0x5C, 0x30, 0x35, 0x31, 0x5C, 0x6E]) (e := [0x62, 0x29, 0x0A])
    (.char 0x62 (by decide) (.oct3 0x30 0x35 0x31 0 5 1 (by decide) (by decide) (by decide)
      (.esc 0x6E 0x0A (by decide) .nil)))
    (.oct1 0x37 7 (by decide) ⟨0x20, _, rfl, by decide, by decide, by decide⟩ (.char 0x20 (by decide)
      (.contLf (.oct1end 0x30 0 (by decide))))))

/-! ### Hexadecimal strings -/

theorem hexVal_facts {b : Byte} {x : Nat} (h : hexVal b = some x) :
    b ≠ 62 ∧ isHexDigitChar b = true ∧ isWhitespace b = false ∧ hexValueOrZero b = UInt8.ofNat x ∧ x < 16 := by
  have := forall_byte (P := fun b => (hexVal b).all (fun x =>
      decide (b ≠ 62 ∧ isHexDigitChar b = true ∧ isWhitespace b = false ∧
          hexValueOrZero b = UInt8.ofNat x ∧ x < 16)) = true) (by decide +kernel) b
  rw [h] at this; simpa only [Option.all_some, decide_eq_true_eq] using this

/-- The characters of a text that are hexadecimal digits. -/
theorem readHexLoop_spec (t rest acc : Bytes) (ds : List Nat) (hno : ∀ b ∈ t, b ≠ 62)
    (h : hexDigitsOf t = some ds) :
    ∃ k, readHexLoop (t ++ 62 :: rest) acc = (acc ++ k, rest) ∧ k.map hexVal = ds.map some := by
  induction t generalizing acc ds with
  | nil =>
    simp only [hexDigitsOf, Option.some.injEq] at h; subst h
    exact ⟨[], by simp [readHexLoop], rfl⟩
  | cons b t ih =>
    have hb : b ≠ 62 := hno b (by simp)
    have hb' : ¬ b.toNat = 62 := fun e => hb (UInt8.toNat_inj.1 (by simpa using e))
    simp only [hexDigitsOf, hb', if_false] at h
    split at h
    · rename_i hw
      have hn : isHexDigitChar b = false :=
        forall_byte (P := fun b => IsWhite b → isHexDigitChar b = false) (by decide +kernel) b hw
      obtain ⟨k, h1, h2⟩ := ih acc ds (fun c hc => hno c (by simp [hc])) h
      exact ⟨k, by simp [readHexLoop, hb, hn, h1], h2⟩
    · split at h
      · rename_i v r hv hr
        simp only [Option.some.injEq] at h; subst h
        obtain ⟨f1, f2, f3, f4, f5⟩ := hexVal_facts hv
        obtain ⟨k, h1, h2⟩ := ih (acc ++ [b]) r (fun c hc => hno c (by simp [hc])) hr
        refine ⟨b :: k, by simp [readHexLoop, hb, f2, h1], by simp [hv, h2]⟩
      · simp at h

theorem hex_pair {x y : Nat} (hx : x < 16) (hy : y < 16) :
    ((UInt8.ofNat x &&& 0x0F) <<< 4) ||| UInt8.ofNat y = UInt8.ofNat (16 * x + y) := by
  have : ∀ x y : Fin 16, ((UInt8.ofNat x.val &&& 0x0F) <<< 4) ||| UInt8.ofNat y.val =
      UInt8.ofNat (16 * x.val + y.val) := by decide +kernel
  exact this ⟨x, hx⟩ ⟨y, hy⟩

/-- Pairing the digit characters of a text, padded to even length. -/
theorem fromHexLoop_spec : ∀ (k : Bytes) (ds : List Nat), k.map hexVal = ds.map some → ∀ acc,
    fromHexLoop (if k.length % 2 = 1 then k ++ [48] else k) none acc = acc ++ pairUp ds
  | [], ds, h, acc => by
    have : ds = [] := by simpa using h.symm
    subst this; simp [fromHexLoop, pairUp]
  | [a], ds, h, acc => by
    cases ds with
    | nil => simp at h
    | cons x xs =>
      cases xs with
      | cons _ _ => simp at h
      | nil =>
        simp only [List.map_cons, List.map_nil, List.cons.injEq, and_true] at h
        obtain ⟨f1, f2, f3, f4, f5⟩ := hexVal_facts h
        have h48 : isWhitespace 48 = false ∧ hexValueOrZero 48 = UInt8.ofNat 0 := by decide
        simp [-UInt8.ofNat_add, -UInt8.ofNat_mul, fromHexLoop, f3, f4, h48, pairUp]
        have := hex_pair f5 (show 0 < 16 by decide)
        simpa using this
  | a :: b :: k, ds, h, acc => by
    match ds, h with
    | x :: y :: ds, h =>
      simp only [List.map_cons, List.cons.injEq] at h
      obtain ⟨ha, hb, h⟩ := h
      obtain ⟨f1, f2, f3, f4, f5⟩ := hexVal_facts ha
      obtain ⟨g1, g2, g3, g4, g5⟩ := hexVal_facts hb
      have ih := fromHexLoop_spec k ds h (acc ++ [UInt8.ofNat (16 * x + y)])
      have hl : (a :: b :: k).length % 2 = k.length % 2 := by simp only [List.length_cons]; omega
      rw [hl]
      have step : ∀ k' : Bytes, fromHexLoop (a :: b :: k') none acc =
          fromHexLoop k' none (acc ++ [UInt8.ofNat (16 * x + y)]) := by
        intro k'
        simp [-UInt8.ofNat_add, -UInt8.ofNat_mul, fromHexLoop, f3, f4, g3, g4, hex_pair f5 g5]
      split
      · rename_i h1; rw [if_pos h1] at ih
        rw [List.cons_append, List.cons_append, step, ih]; simp [pairUp]
      · rename_i h1; rw [if_neg h1] at ih
        rw [step, ih]; simp [pairUp]
    | [], h => simp at h
    | [_], h => simp at h

/-- C69. A hexadecimal string made of digits in either case and white space is read as the standard says
(an odd last digit counts as followed by 0), and reading stops right after `>`. -/
theorem C69_hex_string_reading (t rest data : Bytes) (hno : ∀ b ∈ t, b ≠ 62)
    (h : asciiHexDecode t = some data) : readHex (t ++ 62 :: rest) = (data, rest) := by
  unfold asciiHexDecode at h
  cases hd : hexDigitsOf t with
  | none => rw [hd] at h; simp at h
  | some ds =>
    rw [hd] at h; simp only [Option.map_some, Option.some.injEq] at h
    obtain ⟨k, h1, h2⟩ := readHexLoop_spec t rest [] ds hno hd
    have h3 := fromHexLoop_spec k ds h2 []
    simp only [readHex, readHexString, h1, List.nil_append, fromHexData]
    rw [h3]; simp [h]

example : asciiHexDecode [0x34, 0x20, 0x61, 0x46] = some [0x4A, 0xF0] ∧
    readHex [0x34, 0x20, 0x61, 0x46, 62, 7] = ([0x4A, 0xF0], [7]) := by decide +kernel

/-! ### Names -/

/-- C71. The text of a name is read as the standard says: `#` and two hexadecimal digits in either case
stand for a byte, everything else for itself. -/
theorem C71_name_reading {t n : Bytes} (h : NameText hexVal t n) : unescapeName t = n := by
  induction h with
  | nil => rfl
  | char c hc _ ih =>
    rename_i t n ht
    rw [unescapeName.eq_def]
    split
    · rename_i heq; cases heq; exact absurd rfl hc
    · rename_i heq; cases heq; rw [ih]
    · rename_i heq; cases heq
  | code a b x y ha hb _ ih =>
    have key : ((unescapeDigit a <<< 4) ||| (unescapeDigit b &&& 0x0F)) = UInt8.ofNat (16 * x + y) := by
      have hi := forall_byte (P := fun a => (hexVal a).all (fun x => decide
        (unescapeDigit a <<< 4 = UInt8.ofNat (16 * x) ∧ unescapeDigit a &&& 0x0F = UInt8.ofNat x ∧ x < 16)) = true)
        (by decide +kernel)
      have h1 := hi a; rw [ha] at h1
      have h2 := hi b; rw [hb] at h2
      simp only [Option.all_some, decide_eq_true_eq] at h1 h2
      rw [h1.1, h2.2.1]
      have : ∀ x y : Fin 16, UInt8.ofNat (16 * x.val) ||| UInt8.ofNat y.val = UInt8.ofNat (16 * x.val + y.val) := by
        decide +kernel
      exact this ⟨x, h1.2.2⟩ ⟨y, h2.2.2⟩
    simp only [unescapeName, key, ih]

example : NameText hexVal [0x41, 0x23, 0x34, 0x66] [0x41, 0x4F] :=
  .char 0x41 (by decide) (.code 0x34 0x66 4 15 (by decide) (by decide) .nil)

/-! ### White space and comments -/

theorem lexLoop_comment (cap : Nat) (text : Bytes) (eol : Byte) (rest : Bytes)
    (h : ∀ c ∈ text, c ≠ 10 ∧ c ≠ 13) (he : eol = 10 ∨ eol = 13) :
    lexLoop cap true (text ++ eol :: rest) [] = lexLoop cap false rest [] := by
  induction text with
  | nil => simp [lexLoop, he]
  | cons c t ih =>
    obtain ⟨h1, h2⟩ := h c (by simp)
    simp [lexLoop, h1, h2]
    exact ih (fun c hc => h c (by simp [hc]))

/-- C70. White space and comments before a token make no difference to what is read (a token buffer of
at least one character). -/
theorem C70_separators_ignored (cap : Nat) (hcap : 0 < cap) (pre rest : Bytes)
    (h : Separator (fun b => IsWhite b) pre) : lex cap (pre ++ rest) = lex cap rest := by
  unfold lex
  induction h with
  | nil => rfl
  | space c hc _ ih =>
    have hw : isWhitespace c = true :=
      forall_byte (P := fun c => IsWhite c → isWhitespace c = true) (by decide +kernel) c hc
    have : ¬ cap = 0 := by omega
    simp [lexLoop, hw, this, ih]
  | comment text eol htext he _ ih =>
    rename_i t ht
    have hw : isWhitespace 37 = false := by decide
    have : ¬ cap = 0 := by omega
    have e : 37 :: (text ++ eol :: t) ++ rest = 37 :: (text ++ eol :: (t ++ rest)) := by simp
    have e2 : (0x25 : UInt8) = 37 := rfl
    rw [e2, e]
    simp only [lexLoop, hw, List.length_nil, Nat.le_zero, this, if_false, Bool.false_eq_true,
      and_false, if_true]
    rw [lexLoop_comment cap text eol _ htext he, ih]

/-- Non-vacuity: a blank, a comment with a parenthesis, a carriage return. -/
example : Separator (fun b => IsWhite b) [0x20, 0x25, 0x28, 0x0D, 0x0A] :=
  .space 0x20 (by decide) (.comment [0x28] 0x0D (by decide) (Or.inr rfl) (.space 0x0A (by decide) .nil))

end Pdfmm
