import Verif.Base.Chars
/-
Decimal integers: `fmt`'s `"{}"` and `std::from_chars`; fixed-point reals and the removal of
trailing zeroes.
-/
namespace Pdfmm

/-- `isdigit` in the "C" locale.  (The code passes a possibly negative `char`; the model takes the
defined behaviour of the platform, "not a digit".) -/
def isDigitB (b : Byte) : Bool := 48 ≤ b && b ≤ 57

/-- The digit character of `d < 10`. -/
def digitChar (d : Nat) : Byte := UInt8.ofNat (48 + d)

/-- Decimal digits, most significant first, no leading zero; `fuel ≥ n` suffices. -/
def natDigitsAux : Nat → Nat → Bytes
  | 0, n => [digitChar (n % 10)]
  | f + 1, n => if n < 10 then [digitChar n] else natDigitsAux f (n / 10) ++ [digitChar (n % 10)]

/-- `fmt::format("{}", n)` for an unsigned value, used by `PdfReference::Write`
(`src/pdfmm/base/PdfReference.cpp:30`) and `PdfVariant::Write`
(`src/pdfmm/base/PdfVariant.cpp:166`).  The formatting library is part of the trusted base: it is
modelled by what its documentation says, decimal digits without leading zeroes. -/
def fmtNat (n : Nat) : Bytes := natDigitsAux n n

/-- `fmt::format("{}", n)` for a signed value. -/
def fmtInt (n : Int) : Bytes := if n < 0 then 45 :: fmtNat n.natAbs else fmtNat n.natAbs

/-- Value of a string of digit characters. -/
def decVal (ds : Bytes) : Nat := ds.foldl (fun a c => 10 * a + (c.toNat - 48)) 0

/-- `std::from_chars(first, last, int64_t&)`: an optional minus sign, at least one digit, the
longest run of digits; out of range is an error; what follows the digits is ignored.
(Library function, modelled by its standard.) -/
def fromCharsInt (t : Bytes) : Option Int :=
  match t with
  | 45 :: r =>
    let d := r.takeWhile isDigitB
    if d = [] then none else if decVal d ≤ 9223372036854775808 then some (-(decVal d : Int)) else none
  | t =>
    let d := t.takeWhile isDigitB
    if d = [] then none else if decVal d < 9223372036854775808 then some (decVal d : Int) else none

theorem digitChar_isDigit {d : Nat} (h : d < 10) : isDigitB (digitChar d) = true := by
  have : ∀ d : Fin 10, isDigitB (digitChar d.val) = true := by decide +kernel
  exact this ⟨d, h⟩

theorem digitChar_val {d : Nat} (h : d < 10) : (digitChar d).toNat - 48 = d := by
  have : ∀ d : Fin 10, (digitChar d.val).toNat - 48 = d.val := by decide +kernel
  exact this ⟨d, h⟩

theorem natDigitsAux_digits (f n : Nat) : ∀ c ∈ natDigitsAux f n, isDigitB c = true := by
  induction f generalizing n with
  | zero =>
    intro c hc; simp [natDigitsAux] at hc; subst hc
    exact digitChar_isDigit (Nat.mod_lt _ (by omega))
  | succ f ih =>
    intro c hc
    simp only [natDigitsAux] at hc
    split at hc
    · rename_i h; simp at hc; subst hc; exact digitChar_isDigit h
    · rcases List.mem_append.1 hc with hc | hc
      · exact ih _ _ hc
      · simp at hc; subst hc; exact digitChar_isDigit (Nat.mod_lt _ (by omega))

theorem natDigitsAux_ne_nil (f n : Nat) : natDigitsAux f n ≠ [] := by
  cases f <;> simp [natDigitsAux]
  split <;> simp

theorem decVal_append (a : Bytes) (c : Byte) : decVal (a ++ [c]) = 10 * decVal a + (c.toNat - 48) := by
  simp [decVal, List.foldl_append]

theorem natDigitsAux_val (f n : Nat) (h : n ≤ f) : decVal (natDigitsAux f n) = n := by
  induction f generalizing n with
  | zero => have : n = 0 := by omega
            subst this; decide
  | succ f ih =>
    simp only [natDigitsAux]
    split
    · rename_i h; simp [decVal, digitChar_val h]
    · rw [decVal_append, ih _ (by omega), digitChar_val (Nat.mod_lt _ (by omega))]; omega

theorem fmtNat_digits (n : Nat) : ∀ c ∈ fmtNat n, isDigitB c = true := natDigitsAux_digits n n
theorem fmtNat_ne_nil (n : Nat) : fmtNat n ≠ [] := natDigitsAux_ne_nil n n
theorem decVal_fmtNat (n : Nat) : decVal (fmtNat n) = n := natDigitsAux_val n n (Nat.le_refl _)

theorem natDigitsAux_length (f n k : Nat) (h : n < 10 ^ (k + 1)) (hf : n ≤ f) :
    (natDigitsAux f n).length ≤ k + 1 := by
  induction f generalizing n k with
  | zero => simp [natDigitsAux]
  | succ f ih =>
    simp only [natDigitsAux]
    split
    · simp
    · cases k with
      | zero => simp at h; omega
      | succ k =>
        have : n / 10 < 10 ^ (k + 1) := by
          rw [Nat.div_lt_iff_lt_mul (by omega)]; rw [← Nat.pow_succ]; exact h
        have := ih (n / 10) k this (by omega)
        simp; omega

theorem fmtNat_length (n k : Nat) (h : n < 10 ^ (k + 1)) : (fmtNat n).length ≤ k + 1 :=
  natDigitsAux_length n n k h (Nat.le_refl _)

theorem takeWhile_all {p : Byte → Bool} {a : Bytes} (h : ∀ c ∈ a, p c = true) (r : Bytes)
    (hr : ∀ c t, r = c :: t → p c = false) : (a ++ r).takeWhile p = a := by
  induction a with
  | nil => cases r with
    | nil => rfl
    | cons c t => simp [hr c t rfl]
  | cons x xs ih =>
    have := h x List.mem_cons_self
    simp [this]
    exact ih (fun c hc => h c (List.mem_cons_of_mem _ hc))

theorem fmtNat_cons (n : Nat) : ∃ c r, fmtNat n = c :: r ∧ isDigitB c = true := by
  have h1 := fmtNat_ne_nil n
  have h2 := fmtNat_digits n
  cases h : fmtNat n with
  | nil => exact absurd h h1
  | cons c r => exact ⟨c, r, rfl, h2 c (by rw [h]; exact List.mem_cons_self)⟩

theorem digit_ne {c : Byte} (h : isDigitB c = true) :
    c ≠ 45 ∧ c ≠ 46 ∧ c ≠ 82 ∧ c ≠ 37 ∧ isWhitespace c = false ∧ isDelimiter c = false := by
  revert h
  exact forall_byte (P := fun c => isDigitB c = true → c ≠ 45 ∧ c ≠ 46 ∧ c ≠ 82 ∧ c ≠ 37 ∧
    isWhitespace c = false ∧ isDelimiter c = false) (by decide +kernel) c

theorem fromChars_fmtInt (n : Int) (h1 : -9223372036854775808 ≤ n) (h2 : n < 9223372036854775808)
    (r : Bytes) (hr : ∀ c t, r = c :: t → isDigitB c = false) :
    fromCharsInt (fmtInt n ++ r) = some n := by
  have hd := fmtNat_digits n.natAbs
  have hv := decVal_fmtNat n.natAbs
  have hne := fmtNat_ne_nil n.natAbs
  by_cases hn : n < 0
  · simp only [fmtInt, hn, if_true, List.cons_append, fromCharsInt]
    rw [takeWhile_all hd r hr]
    simp only [hne, if_false, hv]
    rw [if_pos (by omega)]
    congr 1; omega
  · obtain ⟨c, t, hc, hcd⟩ := fmtNat_cons n.natAbs
    have h45 := (digit_ne hcd).1
    simp only [fmtInt, hn, if_false]
    rw [fromCharsInt.eq_def]
    split
    · rename_i heq
      rw [hc] at heq; simp at heq; exact absurd heq.1 h45
    · rw [takeWhile_all hd r hr]
      simp only [hne, if_false, hv]
      rw [if_pos (by omega)]
      congr 1; omega

theorem fromChars_fmtNat (n : Nat) (h2 : n < 9223372036854775808)
    (r : Bytes) (hr : ∀ c t, r = c :: t → isDigitB c = false) :
    fromCharsInt (fmtNat n ++ r) = some (n : Int) := by
  have := fromChars_fmtInt (n : Int) (by omega) (by omega) r hr
  have h : ¬ ((n : Int) < 0) := by omega
  simpa [fmtInt, h] using this

/-! ### Reals -/

/-- `std::from_chars(first, last, double&, chars_format::fixed)`: optional minus, digits with an
optional point, at least one digit.  The model keeps the decimal exactly: sign, all digits as one
number, and how many of them stand after the point.  (Rounding to the nearest double and the range
error above 1.8e308 are not modelled.) -/
def fromCharsFixed (t : Bytes) : Option (Bool × Nat × Nat) :=
  match t with
  | 45 :: r => fixedBody true r
  | t => fixedBody false t
where
  /-- The part after the sign. -/
  fixedBody (neg : Bool) (t : Bytes) : Option (Bool × Nat × Nat) :=
    match t.dropWhile isDigitB with
    | 46 :: f =>
      if t.takeWhile isDigitB = [] ∧ f.takeWhile isDigitB = [] then none
      else some (neg, decVal (t.takeWhile isDigitB ++ f.takeWhile isDigitB),
        (f.takeWhile isDigitB).length)
    | _ =>
      if t.takeWhile isDigitB = [] then none else some (neg, decVal (t.takeWhile isDigitB), 0)

/-- `removeTrailingZeroes`, `src/pdfmm/private/PdfDeclarationsPrivate.cpp:1198-1218`.  The first loop
reads `cursor[len - 1]` without checking `len`; reaching `len = 0` is an out-of-bounds read, hence
`ub`.  `len` counts down, the text is a prefix of `s`. -/
def stripLoop (s : Bytes) : Nat → Res Nat
  | 0 => .error .ub
  | len + 1 => if s[len]? = some 48 then stripLoop s len else .ok (len + 1)

def removeTrailingZeroes (s : Bytes) : Res Bytes :=
  match stripLoop s s.length with
  | .error f => .error f
  | .ok len =>
    let len := if s[len - 1]? = some 46 then len - 1 else len
    if len = 0 then .ok [48] else .ok (s.take len)

/-- Exactly `prec` digits of `n`, padded with zeroes on the left. -/
def fixedDigits : Nat → Nat → Bytes
  | 0, _ => []
  | p + 1, n => fixedDigits p (n / 10) ++ [digitChar (n % 10)]

/-- `fmt::format("{:.{}f}", value, prec)` for the value `± n / 10^prec` (the value already rounded to
`prec` digits; the rounding itself belongs to the formatting library). -/
def fmtFixed (neg : Bool) (n prec : Nat) : Bytes :=
  (if neg then [45] else []) ++ fmtNat (n / 10 ^ prec) ++
    (if prec = 0 then [] else 46 :: fixedDigits prec (n % 10 ^ prec))

/-- `utls::FormatTo(string&, double, unsigned short)`,
`src/pdfmm/private/PdfDeclarationsPrivate.cpp:983-987`. -/
def formatReal (neg : Bool) (n prec : Nat) : Res Bytes := removeTrailingZeroes (fmtFixed neg n prec)

end Pdfmm
