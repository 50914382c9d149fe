import Verif.Syntax.ObjectProps
set_option autoImplicit false
/-
C120: reals written by the library and read back.
-/
namespace Pdfmm
open Spec

/-- What the formatter writes for an integral value: no point. -/
theorem formatReal_integral (neg : Bool) (n : Nat) : formatReal neg (n * 10 ^ 6) 6 = .ok ((if neg then [45] else []) ++ fmtNat n) := by
  have hr := removeTrailingZeroes_spec ((if neg then [45] else []) ++ fmtNat n) 46 6 (by decide)
  have hne : (if neg then [45] else []) ++ fmtNat n ≠ [] := by simp [fmtNat_ne_nil]
  rw [if_pos rfl, if_neg hne] at hr
  unfold formatReal fmtFixed
  rw [if_neg (show ¬ (6 = 0) by decide), Nat.mul_div_cancel _ (by decide), Nat.mul_mod_left]
  have : fixedDigits 6 0 = List.replicate 6 48 := by decide
  rw [this, ← hr]; simp

theorem text_integral (f : WFlags) (neg : Bool) (n s : Nat) (h6 : s ≤ 6) :
    text f (.real neg (n * 10 ^ s) s) = f.sp ++ ((if neg then [45] else []) ++ fmtNat n) := by
  have : round6 (n * 10 ^ s) s = n * 10 ^ 6 := by
    simp only [round6, if_pos h6]
    rw [Nat.mul_assoc, ← Nat.pow_add]
    congr 2; omega
  rw [text, this, formatReal_integral]

/-- The parser on one literal token. -/
theorem parse_literal (f : WFlags) (w : Bytes) (hw : ∀ c ∈ w, litChar c = true) (hne : w ≠ []) (hl : w.length ≤ 4095) :
    parse {} (f.sp ++ w) = readTok {} (2 * (⟨[], [], 0⟩ : PS).weight + 2) ⟨w, .literal⟩ ⟨[], [], 0⟩ := by
  unfold parse tryReadVariant
  have hlex := lex_literal (cap := 4095) (rest := []) hw hne hl (Or.inl rfl)
  rw [List.append_nil] at hlex
  have : tryReadToken ({} : Cfg).cap ⟨[], f.sp ++ w, 0⟩ = (some ⟨w, .literal⟩, ⟨[], [], 0⟩) := by
    simp only [tryReadToken]
    rw [lex_sp (by decide) f, hlex]
  rw [this]

/-- C120, exact values. A real with one to six digits after the point, the last of them not zero, and at most fifteen digits is read
back with the same sign and the same decimal. -/
theorem C120_real_exact (f : WFlags) (hf : f.clean = true ∨ f.noInline = false) (neg : Bool) (m s : Nat) (h1 : 1 ≤ s) (h6 : s ≤ 6)
    (h0 : m % 10 ≠ 0) (hm : m < 10 ^ 15) :
    ∃ t s', writeVar f (.real neg m s) = .ok t ∧ parse {} t = (.ok (some (.real neg m s)), s') := by
  obtain ⟨t, s', a, b, _⟩ := C19_write_parse f hf (.real neg m s) (.real neg m s h1 h6 h0 hm) (by simp [nest])
  exact ⟨t, s', a, b⟩

/-- Non-vacuity: -12.34 in compact mode. -/
example : writeVar ⟨false, false⟩ (.real true 1234 2) = .ok [32, 45, 49, 50, 46, 51, 52] := by decide +kernel

/-- C120 fails for every real whose value is an integer: it comes back as an integer object, so a caller that asks for a real object
(`IsReal`, equality of the two objects) gets a different answer after a save and a load. -/
theorem C120_integral_real_false (f : WFlags) (neg : Bool) (n s : Nat) (h6 : s ≤ 6) (hn : n < 9223372036854775808) (hz : neg = true → n ≠ 0) :
    ∃ t s', writeVar f (.real neg (n * 10 ^ s) s) = .ok t ∧ parse {} t = (.ok (some (.num (if neg then -(n : Int) else n))), s') := by
  have hnul : hasNulName (.real neg (n * 10 ^ s) s) = false := by rw [hasNulName] <;> simp
  have hint : (if neg then [45] else []) ++ fmtNat n = fmtInt (if neg then -(n : Int) else n) := by
    cases neg with
    | true =>
      have := hz rfl
      have h2 : -(n : Int) < 0 := by omega
      simp [fmtInt, h2]
      omega
    | false =>
      have h2 : ¬ ((n : Int) < 0) := by omega
      simp [fmtInt, h2]
  have hb : -9223372036854775808 ≤ (if neg then -(n : Int) else n) ∧ (if neg then -(n : Int) else n) < 9223372036854775808 := by
    split <;> omega
  refine ⟨text f (.real neg (n * 10 ^ s) s), ⟨[], [], 0⟩, by simp [writeVar, hnul], ?_⟩
  rw [text_integral f neg n s h6, hint]
  generalize (if neg then -(n : Int) else n) = z at hb
  rw [parse_literal f _ (fmtInt_lit z) (fmtInt_ne_nil z) (by have := fmtInt_length hb.1 hb.2; omega)]
  obtain ⟨w1, w2, w3, _⟩ := fmtInt_not_word z
  unfold readTok
  have hd : determine {} ⟨fmtInt z, .literal⟩ ⟨[], [], 1⟩ = (.ok (.val (.num z)), ⟨[], [], 1⟩) := by
    unfold determine
    simp only [if_neg w1, if_neg w2, if_neg w3, fmtInt_scan, fromChars_exact z hb.1 hb.2]
    simp [lookRef, tryReadToken, lex, lexLoop]
  exact guarded_ok (s' := ⟨[], [], 1⟩) (by decide) (by
    unfold P.andThen
    dsimp only
    rw [hd]; simp only [readDT])

/-- Non-vacuity: 5.0 is written as `5`. -/
example : writeVar ⟨false, false⟩ (.real false 50 1) = .ok [32, 53] := by decide +kernel

theorem fromChars_big (n : Nat) (h : 9223372036854775808 ≤ n) : fromCharsInt (fmtNat n) = none := by
  have hd := fmtNat_digits n
  have hv := decVal_fmtNat n
  have hne := fmtNat_ne_nil n
  obtain ⟨c, t, hc, hcd⟩ := fmtNat_cons n
  have h45 := (digit_ne hcd).1
  have ht := takeWhile_all hd [] (by simp)
  rw [List.append_nil] at ht
  rw [fromCharsInt.eq_def]
  split
  · rename_i heq
    rw [hc] at heq; simp at heq; exact absurd heq.1 h45
  · rw [ht]
    simp only [hne, if_false, hv]
    rw [if_neg (by omega)]

/-- C120 fails for every integral real of 2^63 or more: it is written without a point, and the text cannot be read at all. -/
theorem C120_large_real_false (f : WFlags) (n s : Nat) (h6 : s ≤ 6) (hn : 9223372036854775808 ≤ n) (hl : (fmtNat n).length ≤ 4095) :
    ∃ t s', writeVar f (.real false (n * 10 ^ s) s) = .ok t ∧ parse {} t = (raise .NoNumber, s') := by
  have hnul : hasNulName (.real false (n * 10 ^ s) s) = false := by rw [hasNulName] <;> simp
  refine ⟨text f (.real false (n * 10 ^ s) s), ⟨[⟨fmtNat n, .literal⟩], [], 0⟩, by simp [writeVar, hnul], ?_⟩
  rw [text_integral f false n s h6]
  simp only [Bool.false_eq_true, if_false, List.nil_append]
  rw [parse_literal f _ (fmtNat_lit n) (fmtNat_ne_nil n) hl]
  have hint : fmtNat n = fmtInt (n : Int) := fmtNat_fmtInt n
  obtain ⟨w1, w2, w3, _⟩ := fmtInt_not_word (n : Int)
  have hsc := fmtInt_scan (n : Int)
  rw [← hint] at w1 w2 w3 hsc
  have hd : determine {} ⟨fmtNat n, .literal⟩ ⟨[], [], 1⟩ = (raise .NoNumber, ⟨[⟨fmtNat n, .literal⟩], [], 1⟩) := by
    unfold determine
    simp only [if_neg w1, if_neg w2, if_neg w3, hsc, fromChars_big n hn]
    rfl
  unfold readTok
  exact guarded_ok (s' := ⟨[⟨fmtNat n, .literal⟩], [], 1⟩) (by decide) (by
    unfold P.andThen
    dsimp only
    rw [hd])

/-- Non-vacuity: 10^19, the next power of ten above 2^63. -/
example : (9223372036854775808 : Nat) ≤ 10 ^ 19 ∧ (fmtNat (10 ^ 19)).length ≤ 4095 := by decide +kernel

/-! ### Rounding -/

theorem round6_close (m s : Nat) : 2 * (round6 m s * 10 ^ s) ≤ 2 * (m * 10 ^ 6) + 10 ^ s ∧ 2 * (m * 10 ^ 6) ≤ 2 * (round6 m s * 10 ^ s) + 10 ^ s := by
  unfold round6
  split
  · rename_i h
    have : m * 10 ^ (6 - s) * 10 ^ s = m * 10 ^ 6 := by
      rw [Nat.mul_assoc, ← Nat.pow_add]; congr 2; omega
    rw [this]; generalize 10 ^ s = Y; omega
  · rename_i h
    obtain ⟨k, hk⟩ : ∃ k, s = 6 + k := ⟨s - 6, by omega⟩
    subst hk
    rw [show 6 + k - 6 = k by omega]
    have hdm := Nat.div_add_mod m (10 ^ k)
    have hlt := Nat.mod_lt m (Nat.pow_pos (n := k) (by omega : 0 < 10))
    generalize hq : m / 10 ^ k = q at *
    generalize hr : m % 10 ^ k = r at *
    rw [Nat.pow_add]
    generalize hp : 10 ^ k = p at *
    have h6 : (10 : Nat) ^ 6 = 1000000 := by decide
    rw [h6]
    subst hdm
    have e1 : q * (1000000 * p) = 1000000 * (p * q) := by rw [Nat.mul_comm q, Nat.mul_assoc]
    have e2 : (q + 1) * (1000000 * p) = 1000000 * (p * q) + 1000000 * p := by rw [Nat.add_mul, e1, Nat.one_mul]
    generalize hX : p * q = X at *
    dsimp only
    split
    · rw [e1]; omega
    · split
      · rw [e2]; omega
      · split
        · rw [e1]; omega
        · rw [e2]; omega

/-- The value `m / 10^s` lies within half a unit of the sixth decimal of `m' / 10^s'` (both sides multiplied out). -/
def Spec.WithinHalfMicro (m s m' s' : Nat) : Prop :=
  2 * 10 ^ 6 * (m' * 10 ^ s) ≤ 2 * 10 ^ 6 * (m * 10 ^ s') + 10 ^ s * 10 ^ s' ∧
  2 * 10 ^ 6 * (m * 10 ^ s') ≤ 2 * 10 ^ 6 * (m' * 10 ^ s) + 10 ^ s * 10 ^ s'

/-- C120, the value in general: whatever real is written, the text denotes a decimal with the same sign within half a unit of the sixth
decimal, and the number reader returns exactly that decimal. -/
theorem C120_real_close (f : WFlags) (neg : Bool) (m s : Nat) :
    ∃ w m' s', writeVar f (.real neg m s) = .ok (f.sp ++ w) ∧ Spec.RealText w neg m' s' ∧ s' ≤ 6 ∧
      fromCharsFixed w = some (neg, m', s') ∧ Spec.WithinHalfMicro m s m' s' := by
  obtain ⟨w, m', s', h1, _, h3, h4, h5, h6⟩ := C23_real_text_partial neg (round6 m s) 6 (by decide)
  have hnul : hasNulName (.real neg m s) = false := by rw [hasNulName] <;> simp
  refine ⟨w, m', s', by simp [writeVar, hnul, text, h1], h3, h4, h6, ?_⟩
  obtain ⟨c1, c2⟩ := round6_close m s
  rw [← h5] at c1 c2
  have e : m' * 10 ^ (6 - s') * 10 ^ s * 10 ^ s' = m' * 10 ^ s * 10 ^ 6 := by
    have : (10 : Nat) ^ (6 - s') * 10 ^ s' = 10 ^ 6 := by rw [← Nat.pow_add]; congr 1; omega
    rw [Nat.mul_assoc, Nat.mul_comm (10 ^ s), ← Nat.mul_assoc, Nat.mul_assoc m', this, Nat.mul_assoc, Nat.mul_comm (10 ^ 6), ← Nat.mul_assoc]
  have d1 := Nat.mul_le_mul_right (10 ^ s') c1
  have d2 := Nat.mul_le_mul_right (10 ^ s') c2
  rw [Nat.add_mul, Nat.mul_assoc 2, Nat.mul_assoc 2, e] at d1 d2
  have h10 : (10 : Nat) ^ 6 = 1000000 := by decide
  unfold Spec.WithinHalfMicro
  have e2 : m * 10 ^ 6 * 10 ^ s' = 10 ^ 6 * (m * 10 ^ s') := by
    rw [Nat.mul_comm m, Nat.mul_assoc]
  rw [e2] at d1 d2
  rw [h10] at *
  generalize m' * 10 ^ s = A at *
  generalize m * 10 ^ s' = B at *
  generalize 10 ^ s * 10 ^ s' = D at *
  omega

/-- Non-vacuity: 0.1234567 is written 0.123457. -/
example : writeVar ⟨false, false⟩ (.real false 1234567 7) = .ok [32, 48, 46, 49, 50, 51, 52, 53, 55] := by decide +kernel

end Pdfmm
