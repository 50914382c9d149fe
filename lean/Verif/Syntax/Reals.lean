import Verif.Syntax.Numbers
/-
C23: fixed-point reals.
-/
namespace Pdfmm

theorem exists_strip (l : Bytes) : ∃ a k, l = a ++ List.replicate k 48 ∧ (∀ b c, a = b ++ [c] → c ≠ 48) := by
  suffices h : ∀ m : Bytes, ∃ a k, m.reverse = a ++ List.replicate k 48 ∧
      (∀ b c, a = b ++ [c] → c ≠ 48) by
    have := h l.reverse; rwa [List.reverse_reverse] at this
  intro m
  induction m with
  | nil => exact ⟨[], 0, rfl, by simp⟩
  | cons x xs ih =>
    by_cases hx : x = 48
    · obtain ⟨a, k, h1, h2⟩ := ih
      refine ⟨a, k + 1, ?_, h2⟩
      rw [List.reverse_cons, h1, hx, List.append_assoc, ← List.replicate_succ']
    · refine ⟨xs.reverse ++ [x], 0, by simp, ?_⟩
      intro b c h
      have := List.append_inj_right' h rfl
      simp at this; rw [← this]; exact hx

theorem stripLoop_spec (a : Bytes) (c : Byte) (k : Nat) (hc : c ≠ 48) (s : Bytes)
    (hs : s = (a ++ [c]) ++ List.replicate k 48) (j : Nat) (hj : j ≤ k) :
    stripLoop s ((a ++ [c]).length + j) = .ok (a ++ [c]).length := by
  induction j with
  | zero =>
    have : (a ++ [c]).length + 0 = a.length + 1 := by simp
    rw [this, stripLoop]
    have : s[a.length]? = some c := by rw [hs]; simp
    rw [this]
    simp [hc]
  | succ j ih =>
    rw [← Nat.add_assoc, stripLoop]
    have : s[(a ++ [c]).length + j]? = some 48 := by
      rw [hs, List.getElem?_append_right (by omega)]
      simp [List.getElem?_replicate]; omega
    rw [this]; simp only [if_true]
    exact ih (by omega)

/-- What `removeTrailingZeroes` does to a text whose last non-zero character is `c`. -/
theorem removeTrailingZeroes_spec (a : Bytes) (c : Byte) (k : Nat) (hc : c ≠ 48) :
    removeTrailingZeroes ((a ++ [c]) ++ List.replicate k 48) =
      .ok (if c = 46 then (if a = [] then [48] else a) else a ++ [c]) := by
  have h := stripLoop_spec a c k hc _ rfl k (Nat.le_refl _)
  have hlen : ((a ++ [c]) ++ List.replicate k 48).length = (a ++ [c]).length + k := by simp; omega
  unfold removeTrailingZeroes
  rw [hlen, h]
  have hg : ((a ++ [c]) ++ List.replicate k 48)[(a ++ [c]).length - 1]? = some c := by simp
  simp only [hg]
  by_cases h46 : c = 46
  · subst h46
    cases a with
    | nil => simp
    | cons x xs => simp
  · simp only [Option.some.injEq, h46, if_false]
    rw [if_neg (by simp), List.take_left']; rfl

theorem fixedDigits_length (p n : Nat) : (fixedDigits p n).length = p := by
  induction p generalizing n with
  | zero => rfl
  | succ p ih => simp [fixedDigits, ih]

theorem fixedDigits_digits (p n : Nat) : ∀ c ∈ fixedDigits p n, isDigitB c = true := by
  induction p generalizing n with
  | zero => simp [fixedDigits]
  | succ p ih =>
    intro c hc
    rcases List.mem_append.1 hc with hc | hc
    · exact ih _ c hc
    · simp at hc; subst hc; exact digitChar_isDigit (Nat.mod_lt _ (by omega))

theorem decVal_append_list (a b : Bytes) : decVal (a ++ b) = decVal a * 10 ^ b.length + decVal b := by
  suffices h : ∀ m : Bytes, decVal (a ++ m.reverse) = decVal a * 10 ^ m.length + decVal m.reverse by
    have := h b.reverse; simpa using this
  intro m
  induction m with
  | nil => simp [decVal]
  | cons x xs ih =>
    rw [List.reverse_cons, ← List.append_assoc, decVal_append, decVal_append, ih,
      List.length_cons, Nat.pow_succ]
    rw [Nat.mul_add, Nat.mul_left_comm, Nat.mul_comm 10 (10 ^ _)]
    omega

theorem decVal_fixedDigits (p n : Nat) (h : n < 10 ^ p) : decVal (fixedDigits p n) = n := by
  induction p generalizing n with
  | zero => have : n = 0 := by simpa using h
            subst this; rfl
  | succ p ih =>
    rw [fixedDigits, decVal_append, ih, digitChar_val (Nat.mod_lt _ (by omega))]
    · omega
    · rw [Nat.div_lt_iff_lt_mul (by omega), ← Nat.pow_succ]; exact h

theorem decVal_replicate_zero (k : Nat) : decVal (List.replicate k 48) = 0 := by
  induction k with
  | zero => rfl
  | succ k ih => rw [List.replicate_succ', decVal_append, ih]; decide

theorem dropWhile_all {p : Byte → Bool} {a : Bytes} (h : ∀ c ∈ a, p c = true) (r : Bytes)
    (hr : ∀ c t, r = c :: t → p c = false) : (a ++ r).dropWhile p = r := by
  induction a with
  | nil => cases r with
    | nil => rfl
    | cons c t => simp [hr c t rfl]
  | cons x xs ih =>
    have := h x List.mem_cons_self
    simp [this]
    exact ih (fun c hc => h c (List.mem_cons_of_mem _ hc))

namespace Spec

/-- A legal PDF number text (ISO 32000-1, 7.3.3) denoting `± m / 10^s`: an optional minus sign, at
least one digit, and, when there is a fractional part, a point followed by `s` digits. -/
def RealText (t : Bytes) (neg : Bool) (m s : Nat) : Prop :=
  ∃ ip fp : Bytes, ip ≠ [] ∧ (∀ c ∈ ip, isDigitB c = true) ∧ (∀ c ∈ fp, isDigitB c = true) ∧
    t = (if neg then [45] else []) ++ ip ++ (if fp = [] then [] else 46 :: fp) ∧
    m = decVal (ip ++ fp) ∧ s = fp.length

end Spec

/-- The shape of a formatted real, at any precision above zero. -/
theorem formatReal_shape (neg : Bool) (n prec : Nat) (hp : prec ≠ 0) :
    ∃ fp k, fixedDigits prec (n % 10 ^ prec) = fp ++ List.replicate k 48 ∧
      formatReal neg n prec = .ok ((if neg then [45] else []) ++ fmtNat (n / 10 ^ prec) ++
        (if fp = [] then [] else 46 :: fp)) := by
  obtain ⟨fp, k, h1, h2⟩ := exists_strip (fixedDigits prec (n % 10 ^ prec))
  refine ⟨fp, k, h1, ?_⟩
  unfold formatReal fmtFixed
  rw [if_neg hp, h1]
  by_cases hf : fp = []
  · subst hf
    have := removeTrailingZeroes_spec ((if neg then [45] else []) ++ fmtNat (n / 10 ^ prec)) 46 k
      (by decide)
    simp only [List.nil_append, if_true, List.append_assoc] at this ⊢
    rw [show (46 :: List.replicate k 48 : Bytes) = [46] ++ List.replicate k 48 from rfl, this]
    have hne : (if neg then [45] else []) ++ fmtNat (n / 10 ^ prec) ≠ [] := by
      simp [fmtNat_ne_nil]
    simp [hne]
  · obtain ⟨b, c, hbc⟩ : ∃ b c, fp = b ++ [c] := by
      rcases List.eq_nil_or_concat fp with h | ⟨b, c, h⟩
      · exact absurd h hf
      · exact ⟨b, c, by simpa using h⟩
    have hc := h2 b c hbc
    have hc46 : c ≠ 46 := by
      have : c ∈ fixedDigits prec (n % 10 ^ prec) := by rw [h1, hbc]; simp
      exact (digit_ne (fixedDigits_digits _ _ c this)).2.1
    have := removeTrailingZeroes_spec
      ((if neg then [45] else []) ++ fmtNat (n / 10 ^ prec) ++ 46 :: b) c k hc
    rw [if_neg hc46] at this
    subst hbc
    simp only [hf, if_false]
    rw [show ((if neg then [45] else []) ++ fmtNat (n / 10 ^ prec) ++
        46 :: (b ++ [c] ++ List.replicate k 48)) =
      ((if neg then [45] else []) ++ fmtNat (n / 10 ^ prec) ++ 46 :: b ++ [c]) ++
        List.replicate k 48 by simp]
    rw [this]; simp

/-- C23 (precision at least one digit, as `PdfVariant::Write` always uses). The text written for
the value `± n / 10^prec` is a legal, non-empty PDF number, denotes exactly that value, does not end
in a superfluous zero digit after the point, and the number reader gives the same value back. -/
theorem C23_real_text_partial (neg : Bool) (n prec : Nat) (hp : prec ≠ 0) :
    ∃ t m s, formatReal neg n prec = .ok t ∧ t ≠ [] ∧ Spec.RealText t neg m s ∧ s ≤ prec ∧
      m * 10 ^ (prec - s) = n ∧ fromCharsFixed t = some (neg, m, s) := by
  obtain ⟨fp, k, h1, h2⟩ := formatReal_shape neg n prec hp
  have hfd := fixedDigits_digits prec (n % 10 ^ prec)
  have hlen := fixedDigits_length prec (n % 10 ^ prec)
  rw [h1] at hlen hfd
  simp at hlen
  have hfpd : ∀ c ∈ fp, isDigitB c = true := fun c hc => hfd c (List.mem_append_left _ hc)
  have hipd := fmtNat_digits (n / 10 ^ prec)
  have hne := fmtNat_ne_nil (n / 10 ^ prec)
  refine ⟨_, decVal (fmtNat (n / 10 ^ prec) ++ fp), fp.length, h2, ?_, ?_, by omega, ?_, ?_⟩
  · simp [hne]
  · exact ⟨_, fp, hne, hipd, hfpd, rfl, rfl, rfl⟩
  · have hk : prec - fp.length = k := by omega
    have hval : decVal (fmtNat (n / 10 ^ prec) ++ (fp ++ List.replicate k 48)) = n := by
      rw [decVal_append_list, decVal_fmtNat, ← h1,
        decVal_fixedDigits _ _ (Nat.mod_lt _ (Nat.pow_pos (by omega))), fixedDigits_length]
      rw [Nat.mul_comm]; exact Nat.div_add_mod n (10 ^ prec)
    rw [← List.append_assoc, decVal_append_list, decVal_replicate_zero] at hval
    simp at hval
    rw [hk]; exact hval
  · have hr : ∀ c u, (if fp = [] then [] else 46 :: fp : Bytes) = c :: u → isDigitB c = false := by
      intro c u h
      split at h
      · cases h
      · cases h; rfl
    have main : ∀ neg, fromCharsFixed.fixedBody neg
        (fmtNat (n / 10 ^ prec) ++ (if fp = [] then [] else 46 :: fp)) =
          some (neg, decVal (fmtNat (n / 10 ^ prec) ++ fp), fp.length) := by
      intro neg
      unfold fromCharsFixed.fixedBody
      rw [takeWhile_all hipd _ hr, dropWhile_all hipd _ hr]
      by_cases hf : fp = []
      · subst hf; simp [hne]
      · have e3 : fp.takeWhile isDigitB = fp := by
          have := takeWhile_all hfpd [] (by simp); simpa using this
        simp [hf, e3]
    cases neg with
    | true => exact main true
    | false =>
      obtain ⟨c, u, hc, hcd⟩ := fmtNat_cons (n / 10 ^ prec)
      have h45 := (digit_ne hcd).1
      have hm := main false
      simp only [Bool.false_eq_true, if_false, List.nil_append]
      rw [hc] at hm ⊢
      rw [fromCharsFixed.eq_def]
      split
      · rename_i heq; simp at heq; exact absurd heq.1 h45
      · exact hm

/-- Non-vacuity: `-12.340000` is written `-12.34`; `0.000000` as `0`; `100.000000` as `100`. -/
example : formatReal true 12340000 6 = .ok [45, 49, 50, 46, 51, 52] ∧
    formatReal false 0 6 = .ok [48] ∧ formatReal false 100000000 6 = .ok [49, 48, 48] := by
  decide +kernel

/-- C23 fails at precision 0, which `PdfPainter::SetPrecision` accepts: 100 is written as `1`,
and for 0 the loop reads before the start of the text. -/
theorem C23_precision_zero_false :
    formatReal false 100 0 = .ok [49] ∧ formatReal false 0 0 = .error .ub := by
  decide +kernel

end Pdfmm
