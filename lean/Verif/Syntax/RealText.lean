import Verif.Syntax.Reals
import Verif.Syntax.TokLex
/-
The exact text of reals, and its way back through the tokenizer.
-/
set_option autoImplicit false
namespace Pdfmm

/-! ### Reals read back exactly -/

/-- The text of the value `± m / 10^s`, `s` digits after the point. -/
def realText (neg : Bool) (m s : Nat) : Bytes :=
  (if neg then [45] else []) ++ fmtNat (m / 10 ^ s) ++ 46 :: fixedDigits s (m % 10 ^ s)

theorem fixedDigits_mod (p n : Nat) : fixedDigits p (n % 10 ^ p) = fixedDigits p n := by
  induction p generalizing n with
  | zero => rfl
  | succ p ih =>
    have h1 : n % 10 ^ (p + 1) % 10 = n % 10 := by
      rw [Nat.pow_succ]; exact Nat.mod_mul_left_mod n (10 ^ p) 10
    have h2 : n % 10 ^ (p + 1) / 10 = n / 10 % 10 ^ p := by
      rw [Nat.pow_succ, Nat.mul_comm]; exact Nat.mod_mul_right_div_self n 10 (10 ^ p)
    rw [fixedDigits, fixedDigits, h1, h2, ih]

theorem fixedDigits_mul (p k n : Nat) : fixedDigits (p + k) (n * 10 ^ k) = fixedDigits p n ++ List.replicate k 48 := by
  induction k with
  | zero => simp
  | succ k ih =>
    rw [← Nat.add_assoc, fixedDigits]
    have h1 : n * 10 ^ (k + 1) / 10 = n * 10 ^ k := by rw [Nat.pow_succ, ← Nat.mul_assoc]; exact Nat.mul_div_cancel _ (by omega)
    have h2 : n * 10 ^ (k + 1) % 10 = 0 := by rw [Nat.pow_succ, ← Nat.mul_assoc]; exact Nat.mul_mod_left _ _
    rw [h1, h2, ih, List.replicate_succ', List.append_assoc]; rfl

theorem digitChar_ne_zero {d : Nat} (h : d < 10) (h0 : d ≠ 0) : digitChar d ≠ 48 := by
  intro e
  have := digitChar_val h
  rw [e] at this
  simp at this; omega

/-- What the formatter writes for a value with at most six digits after the point, the last of them not zero. -/
theorem formatReal_exact (neg : Bool) (m s : Nat) (h1 : 1 ≤ s) (h6 : s ≤ 6) (hm : m % 10 ≠ 0) :
    formatReal neg (m * 10 ^ (6 - s)) 6 = .ok (realText neg m s) := by
  obtain ⟨s, rfl⟩ : ∃ k, s = k + 1 := ⟨s - 1, by omega⟩
  obtain ⟨k, hk⟩ : ∃ k, 6 = (s + 1) + k := ⟨6 - (s + 1), by omega⟩
  have hk' : 6 - (s + 1) = k := by omega
  have hdiv : m * 10 ^ k / 10 ^ 6 = m / 10 ^ (s + 1) := by
    rw [hk, Nat.pow_add, Nat.mul_div_mul_right _ _ (Nat.pow_pos (by omega))]
  have hfix : fixedDigits 6 (m * 10 ^ k % 10 ^ 6) = fixedDigits (s + 1) (m % 10 ^ (s + 1)) ++ List.replicate k 48 := by
    rw [fixedDigits_mod, fixedDigits_mod]
    rw [← fixedDigits_mul, ← hk]
  have hlast : fixedDigits (s + 1) (m % 10 ^ (s + 1)) = fixedDigits s (m / 10) ++ [digitChar (m % 10)] := by
    rw [fixedDigits_mod, fixedDigits]
  have hc := digitChar_ne_zero (Nat.mod_lt m (by omega : 10 > 0)) hm
  have hc46 : digitChar (m % 10) ≠ 46 := (digit_ne (digitChar_isDigit (Nat.mod_lt m (by omega : 10 > 0)))).2.1
  have hr := removeTrailingZeroes_spec
    ((if neg then [45] else []) ++ fmtNat (m / 10 ^ (s + 1)) ++ 46 :: fixedDigits s (m / 10)) (digitChar (m % 10)) k hc
  rw [if_neg hc46] at hr
  unfold formatReal fmtFixed
  rw [if_neg (show ¬ (6 = 0) by decide), hk', hdiv, hfix, hlast]
  rw [show ((if neg then [45] else []) ++ fmtNat (m / 10 ^ (s + 1)) ++ 46 :: (fixedDigits s (m / 10) ++ [digitChar (m % 10)] ++ List.replicate k 48))
    = ((if neg then [45] else []) ++ fmtNat (m / 10 ^ (s + 1)) ++ 46 :: fixedDigits s (m / 10) ++ [digitChar (m % 10)]) ++ List.replicate k 48 by simp]
  rw [hr, realText, hlast]; simp

theorem fixedDigits_ne (s n : Nat) (h : 1 ≤ s) : fixedDigits s n ≠ [] := by
  intro e
  have := fixedDigits_length s n
  rw [e] at this; simp at this; omega

theorem fromCharsFixed_realText (neg : Bool) (m s : Nat) (h1 : 1 ≤ s) :
    fromCharsFixed (realText neg m s) = some (neg, m, s) := by
  have hfp := fixedDigits_digits s (m % 10 ^ s)
  have hne := fixedDigits_ne s (m % 10 ^ s) h1
  have hl := fixedDigits_length s (m % 10 ^ s)
  have hipd := fmtNat_digits (m / 10 ^ s)
  have hval : decVal (fmtNat (m / 10 ^ s) ++ fixedDigits s (m % 10 ^ s)) = m := by
    rw [decVal_append_list, decVal_fmtNat, decVal_fixedDigits _ _ (Nat.mod_lt _ (Nat.pow_pos (by omega))), hl, Nat.mul_comm]
    exact Nat.div_add_mod m (10 ^ s)
  have hr : ∀ c u, (46 :: fixedDigits s (m % 10 ^ s) : Bytes) = c :: u → isDigitB c = false := by
    intro c u h; cases h; rfl
  have e3 : (fixedDigits s (m % 10 ^ s)).takeWhile isDigitB = fixedDigits s (m % 10 ^ s) := by
    have := takeWhile_all hfp [] (by simp); simpa using this
  have main : ∀ neg, fromCharsFixed.fixedBody neg (fmtNat (m / 10 ^ s) ++ 46 :: fixedDigits s (m % 10 ^ s)) = some (neg, m, s) := by
    intro neg
    unfold fromCharsFixed.fixedBody
    rw [takeWhile_all hipd _ hr, dropWhile_all hipd _ hr]
    simp only
    rw [e3, if_neg (by simp [hne]), hval, hl]
  unfold realText
  cases neg with
  | true => exact main true
  | false =>
    obtain ⟨c, u, hc, hcd⟩ := fmtNat_cons (m / 10 ^ s)
    have h45 := (digit_ne hcd).1
    have hm := main false
    simp only [Bool.false_eq_true, if_false, List.nil_append]
    rw [hc] at hm ⊢
    rw [fromCharsFixed.eq_def]
    split
    · rename_i heq; simp at heq; exact absurd heq.1 h45
    · exact hm

theorem realText_lit (neg : Bool) (m s : Nat) : ∀ c ∈ realText neg m s, litChar c = true := by
  have hd : ∀ c, isDigitB c = true → litChar c = true := by
    intro c h
    obtain ⟨_, _, _, _, h1, h2⟩ := digit_ne h
    simp [litChar, h1, h2]
  intro c hc
  unfold realText at hc
  rcases List.mem_append.1 hc with h | h
  · rcases List.mem_append.1 h with h | h
    · cases neg with
      | true => simp at h; subst h; decide
      | false => simp at h
    · exact hd c (fmtNat_digits _ c h)
  · rcases List.mem_cons.1 h with h | h
    · subst h; decide
    · exact hd c (fixedDigits_digits _ _ c h)

theorem realText_ne (neg : Bool) (m s : Nat) : realText neg m s ≠ [] := by simp [realText]

theorem realText_length (neg : Bool) (m s : Nat) (h6 : s ≤ 6) (hm : m < 10 ^ 15) : (realText neg m s).length ≤ 20 := by
  have h : (fmtNat (m / 10 ^ s)).length + s ≤ 16 := by
    have key : ∀ k, s + (k + 1) = 16 → (fmtNat (m / 10 ^ s)).length ≤ k + 1 := by
      intro k hk
      refine fmtNat_length _ k ?_
      refine Nat.lt_of_le_of_lt (Nat.le_refl _) ((Nat.div_lt_iff_lt_mul (Nat.pow_pos (by omega))).2 ?_)
      rw [← Nat.pow_add]
      exact Nat.lt_of_lt_of_le hm (Nat.pow_le_pow_right (by omega) (by omega))
    have := key (15 - s) (by omega)
    omega
  unfold realText
  simp only [List.length_append, List.length_cons, fixedDigits_length]
  cases neg <;> simp <;> omega

theorem scanKind_point (a b : Bytes) (ha : ∀ c ∈ a, isDigitB c = true ∨ c = 45) (hb : ∀ c ∈ b, isDigitB c = true) (k : NumKind) :
    scanKind (a ++ 46 :: b) k = .real := by
  have h0 : ∀ c : Byte, isDigitB c = true → c ≠ 0 := by
    intro c h e; subst e; simp [isDigitB] at h
  have hb' : scanKind b .real = .real := by
    induction b with
    | nil => rfl
    | cons c b ih =>
      have hc := hb c List.mem_cons_self
      rw [scanKind, if_neg (h0 c hc), if_neg (digit_ne hc).2.1, if_pos (Or.inl hc)]
      exact ih (fun c h => hb c (List.mem_cons_of_mem _ h))
  induction a with
  | nil => rw [List.nil_append, scanKind, if_neg (by decide), if_pos rfl]; exact hb'
  | cons c a ih =>
    have hc := ha c List.mem_cons_self
    have h1 : c ≠ 0 ∧ c ≠ 46 := by
      rcases hc with hc | hc
      · exact ⟨h0 c hc, (digit_ne hc).2.1⟩
      · subst hc; decide
    rw [List.cons_append, scanKind, if_neg h1.1, if_neg h1.2]
    rw [if_pos (by rcases hc with hc | hc; exact Or.inl hc; exact Or.inr (Or.inl hc))]
    exact ih (fun c h => ha c (List.mem_cons_of_mem _ h))

theorem realText_scan (neg : Bool) (m s : Nat) : scanKind (realText neg m s) .number = .real := by
  unfold realText
  refine scanKind_point _ _ ?_ (fixedDigits_digits _ _) _
  intro c hc
  rcases List.mem_append.1 hc with h | h
  · cases neg with
    | true => simp at h; exact Or.inr h
    | false => simp at h
  · exact Or.inl (fmtNat_digits _ c h)

theorem realText_not_word (neg : Bool) (m s : Nat) : realText neg m s ≠ [110, 117, 108, 108] ∧
    realText neg m s ≠ [116, 114, 117, 101] ∧ realText neg m s ≠ [102, 97, 108, 115, 101] ∧ realText neg m s ≠ [82] := by
  have h : (46 : Byte) ∈ realText neg m s := by simp [realText]
  refine ⟨?_, ?_, ?_, ?_⟩ <;> intro e <;> rw [e] at h <;> revert h <;> decide

theorem determine_real (cfg : Cfg) (neg : Bool) (m s : Nat) (h1 : 1 ≤ s) (st : PS) :
    determine cfg ⟨realText neg m s, .literal⟩ st = (.ok (.val (.real neg m s)), st) := by
  obtain ⟨w1, w2, w3, _⟩ := realText_not_word neg m s
  unfold determine
  simp only [if_neg w1, if_neg w2, if_neg w3, realText_scan, fromCharsFixed_realText neg m s h1]

/-- The text of a real with one to six digits after the point, the last of them not zero. -/
theorem text_real (f : WFlags) (neg : Bool) (m s : Nat) (h1 : 1 ≤ s) (h6 : s ≤ 6) (hm : m % 10 ≠ 0) :
    text f (.real neg m s) = f.sp ++ realText neg m s := by
  have : round6 m s = m * 10 ^ (6 - s) := by simp [round6, h6]
  rw [text, this, formatReal_exact neg m s h1 h6 hm]

end Pdfmm
