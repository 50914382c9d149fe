import Verif.Base.Basic
/-
The calendar algorithms of the bundled date library, and the Gregorian calendar.
-/
set_option autoImplicit false
namespace Pdfmm

/-! ### Model -/

/-- `year_month_day::to_days`, `3rdparty/date/date.h:2970-2987`.  The unsigned arithmetic wraps where the difference
is negative and the conversion to `int` undoes that: the model uses integers. -/
def toDays (y : Int) (m d : Nat) : Int :=
  let y := y - (if m ≤ 2 then 1 else 0)
  let era := (if y ≥ 0 then y else y - 399).tdiv 400
  let yoe := y - era * 400
  let doy : Int := (((153 * (if m > 2 then m - 3 else m + 9) + 2) / 5 : Nat) : Int) + d - 1
  let doe := yoe * 365 + yoe / 4 - yoe / 100 + doy
  era * 146097 + doe - 719468

/-- `year_month_day::from_days`, `3rdparty/date/date.h:3084-3103`. -/
def fromDays (dp : Int) : Int × Nat × Nat :=
  let z := dp + 719468
  let era := (if z ≥ 0 then z else z - 146096).tdiv 146097
  let doe := (z - era * 146097).toNat
  let yoe := (doe - doe / 1460 + doe / 36524 - doe / 146096) / 365
  let y : Int := yoe + era * 400
  let doy := doe - (365 * yoe + yoe / 4 - yoe / 100)
  let mp := (5 * doy + 2) / 153
  let d := doy - (153 * mp + 2) / 5 + 1
  let m := if mp < 10 then mp + 3 else mp - 9
  (y + (if m ≤ 2 then 1 else 0), m, d)

/-! ### Specification -/

namespace Spec

/-- The leap years of the Gregorian calendar. -/
def isLeap (y : Nat) : Bool := y % 4 = 0 && (y % 100 ≠ 0 || y % 400 = 0)

/-- The lengths of the months. -/
def monthLength (y : Nat) : Nat → Nat
  | 1 => 31 | 2 => if isLeap y then 29 else 28 | 3 => 31 | 4 => 30 | 5 => 31 | 6 => 30
  | 7 => 31 | 8 => 31 | 9 => 30 | 10 => 31 | 11 => 30 | 12 => 31 | _ => 0

/-- The days from the first day of the year 0 to the first day of the year `y`. -/
def daysBeforeYear : Nat → Nat
  | 0 => 0
  | y + 1 => daysBeforeYear y + if isLeap y then 366 else 365

/-- The days from the first day of the year to the first of the month. -/
def daysBeforeMonth (y : Nat) : Nat → Nat
  | 0 => 0
  | m + 1 => daysBeforeMonth y m + monthLength y m

/-- A date of the calendar. -/
def IsDay (y m d : Nat) : Prop := 1 ≤ m ∧ m ≤ 12 ∧ 1 ≤ d ∧ d ≤ monthLength y m

/-- The number of the day, counted from the first of January 1970. -/
def dayNumber (y m d : Nat) : Int := (daysBeforeYear y + daysBeforeMonth y m + (d - 1) : Nat) - 719528

end Spec

open Spec

/-! ### Proofs -/

theorem daysBeforeYear_eq (y : Nat) : daysBeforeYear y = 365 * y + (y + 3) / 4 - (y + 99) / 100 + (y + 399) / 400 := by
  induction y with
  | zero => rfl
  | succ y ih =>
    rw [daysBeforeYear, ih]
    simp only [isLeap, Bool.and_eq_true, Bool.or_eq_true, decide_eq_true_eq]
    split <;> omega

theorem tdiv_floor (y k : Int) (hk : 0 < k) : (if y ≥ 0 then y else y - (k - 1)).tdiv k = y / k := by
  split
  · rename_i h
    exact Int.tdiv_eq_ediv_of_nonneg h
  · rename_i h
    have h1 : (y - (k - 1)).tdiv k = -((k - 1 - y).tdiv k) := by
      rw [← Int.neg_tdiv]; congr 1; omega
    rw [h1, Int.tdiv_eq_ediv_of_nonneg (by omega)]
    have e1 := Int.emod_add_mul_ediv y k
    have e2 := Int.emod_nonneg y (show k ≠ 0 by omega)
    have e3 := Int.emod_lt_of_pos y hk
    have : (k - 1 - y) / k = -(y / k) := by
      have : k - 1 - y = (k - 1 - y % k) + k * (-(y / k)) := by
        rw [Int.mul_neg]; omega
      rw [this, Int.add_mul_ediv_left _ _ (by omega), Int.ediv_eq_zero_of_lt (by omega) (by omega)]
      omega
    rw [this]; omega

theorem toDays_eq (y : Int) (m d : Nat) : toDays y m d =
    ((y - (if m ≤ 2 then 1 else 0)) / 400) * 146097 + (((y - (if m ≤ 2 then 1 else 0)) % 400) * 365 +
      ((y - (if m ≤ 2 then 1 else 0)) % 400) / 4 - ((y - (if m ≤ 2 then 1 else 0)) % 400) / 100 +
      ((((153 * (if m > 2 then m - 3 else m + 9) + 2) / 5 : Nat) : Int) + d - 1)) - 719468 := by
  simp only [toDays]
  have := tdiv_floor (y - (if m ≤ 2 then 1 else 0)) 400 (by omega)
  simp only [show (400 : Int) - 1 = 399 from rfl] at this
  rw [this]
  have h : (y - (if m ≤ 2 then 1 else 0)) - (y - (if m ≤ 2 then 1 else 0)) / 400 * 400 = (y - (if m ≤ 2 then 1 else 0)) % 400 := by
    omega
  rw [h]

/-- The months one by one. -/
theorem month_cases {m : Nat} (h1 : 1 ≤ m) (h2 : m ≤ 12) :
    m = 1 ∨ m = 2 ∨ m = 3 ∨ m = 4 ∨ m = 5 ∨ m = 6 ∨ m = 7 ∨ m = 8 ∨ m = 9 ∨ m = 10 ∨ m = 11 ∨ m = 12 := by omega

theorem toDays_dayNumber {y m d : Nat} (h : IsDay y m d) : toDays y m d = dayNumber y m d := by
  obtain ⟨h1, h2, h3, h4⟩ := h
  rw [toDays_eq, dayNumber, daysBeforeYear_eq]
  have hd : ((d - 1 : Nat) : Int) = d - 1 := by omega
  rcases month_cases h1 h2 with e | e | e | e | e | e | e | e | e | e | e | e <;> subst e <;>
    simp [daysBeforeMonth, monthLength, isLeap] <;> (try split) <;> omega

/-- The year of the era from the day of the era. -/
theorem yoe_eq {doe c q r doy : Nat} (hc : c ≤ 3) (hq : q ≤ 24) (hr : r ≤ 3)
    (hd : doy ≤ 364 ∨ doy = 365 ∧ r = 3 ∧ (q ≠ 24 ∨ c = 3)) (e : doe = 36524 * c + 1461 * q + 365 * r + doy) :
    (doe - doe / 1460 + doe / 36524 - doe / 146096) / 365 = 100 * c + 4 * q + r := by
  have h1 : doe ≤ 146096 := by omega
  have hb : doe / 146096 = 0 ∨ doe = 146096 := by omega
  rcases hb with hb | hb
  · have h36 : doe / 36524 = c := by omega
    rw [hb, h36]
    have ha : doe / 1460 ≤ 25 * c + q + (if 24 * c + q + 365 * r + doy ≥ 1460 then 1 else 0) := by
      split <;> omega
    have ha2 : 25 * c + q ≤ doe / 1460 := by omega
    split at ha <;> omega
  · have : doe / 146096 = 1 := by omega
    rw [this]
    have h36 : doe / 36524 = 4 := by omega
    have h14 : doe / 1460 = 100 := by omega
    rw [h36, h14]; omega

theorem fromDays_eq (dp : Int) : ∀ (era : Int) (doe : Nat), dp + 719468 = era * 146097 + doe → doe < 146097 →
    ∀ yoe doy mp d m : Nat, yoe = (doe - doe / 1460 + doe / 36524 - doe / 146096) / 365 →
      doy = doe - (365 * yoe + yoe / 4 - yoe / 100) → mp = (5 * doy + 2) / 153 → d = doy - (153 * mp + 2) / 5 + 1 →
      m = (if mp < 10 then mp + 3 else mp - 9) →
      fromDays dp = (yoe + era * 400 + (if m ≤ 2 then 1 else 0), m, d) := by
  intro era doe h1 h2 yoe doy mp d m hy hdoy hmp hd hm
  have ht := tdiv_floor (dp + 719468) 146097 (by omega)
  have he : (dp + 719468) / 146097 = era := by omega
  have hdoe : (dp + 719468 - era * 146097).toNat = doe := by omega
  have key : (if dp + 719468 ≥ 0 then dp + 719468 else dp + 719468 - 146096).tdiv 146097 = era := by
    rw [← he, ← ht]; rfl
  subst hm hd hmp hdoy hy
  simp only [fromDays]
  rw [key, hdoe]

/-- The month and the day from the day of the year that begins in March. -/
theorem month_day : ∀ (m : Fin 13) (d : Fin 32), 1 ≤ m.val → 1 ≤ d.val → d.val ≤ monthLength 2000 m.val →
    let doy := (153 * (if m.val > 2 then m.val - 3 else m.val + 9) + 2) / 5 + d.val - 1
    (if (5 * doy + 2) / 153 < 10 then (5 * doy + 2) / 153 + 3 else (5 * doy + 2) / 153 - 9) = m.val ∧
      doy - (153 * ((5 * doy + 2) / 153) + 2) / 5 + 1 = d.val := by
  decide +kernel

theorem monthLength_le (y m : Nat) : monthLength y m ≤ monthLength 2000 m ∧ monthLength y m ≤ 31 := by
  unfold monthLength
  split <;> simp [isLeap] <;> split <;> omega

theorem fromDays_toDays {y m d : Nat} (h : IsDay y m d) : fromDays (toDays y m d) = ((y : Int), m, d) := by
  obtain ⟨h1, h2, h3, h4⟩ := h
  -- the year that begins in March
  obtain ⟨era, c, q, r, hc, hq, hr, hy⟩ : ∃ (era : Int) (c q r : Nat), c ≤ 3 ∧ q ≤ 24 ∧ r ≤ 3 ∧
      (y : Int) - (if m ≤ 2 then 1 else 0) = 400 * era + (100 * c + 4 * q + r : Nat) := by
    generalize (y : Int) - (if m ≤ 2 then 1 else 0) = Y
    refine ⟨Y / 400, ((Y % 400) / 100).toNat, ((Y % 100) / 4).toNat, (Y % 4).toNat, ?_, ?_, ?_, ?_⟩ <;> omega
  have hmod : ((y : Int) - (if m ≤ 2 then 1 else 0)) % 400 = (100 * c + 4 * q + r : Nat) := by omega
  have hdiv : ((y : Int) - (if m ≤ 2 then 1 else 0)) / 400 = era := by omega
  have hdoy : ∃ doy : Nat, ((((153 * (if m > 2 then m - 3 else m + 9) + 2) / 5 : Nat) : Int) + d - 1) = doy ∧
      (doy ≤ 364 ∨ doy = 365 ∧ r = 3 ∧ (q ≠ 24 ∨ c = 3)) ∧
      (if (5 * doy + 2) / 153 < 10 then (5 * doy + 2) / 153 + 3 else (5 * doy + 2) / 153 - 9) = m ∧
      doy - (153 * ((5 * doy + 2) / 153) + 2) / 5 + 1 = d := by
    have hl := monthLength_le y m
    have hmd := month_day ⟨m, by omega⟩ ⟨d, by omega⟩ h1 h3 (Nat.le_trans h4 hl.1)
    refine ⟨(153 * (if m > 2 then m - 3 else m + 9) + 2) / 5 + d - 1, ?_, ?_, hmd.1, hmd.2⟩
    · omega
    clear hmd hl
    rcases month_cases h1 h2 with e | e | e | e | e | e | e | e | e | e | e | e <;> subst e <;>
      simp [monthLength, isLeap] at h4 ⊢ <;> (try (simp at hy; split at h4)) <;> omega
  obtain ⟨doy, e1, e2, e3, e4⟩ := hdoy
  have hdoe : toDays y m d + 719468 = era * 146097 + (36524 * c + 1461 * q + 365 * r + doy : Nat) := by
    rw [toDays_eq, hmod, hdiv, e1]; omega
  have hyoe := yoe_eq hc hq hr e2 rfl
  rw [fromDays_eq _ era _ hdoe (by omega) (100 * c + 4 * q + r) doy _ d m hyoe.symm (by omega) rfl e4.symm e3.symm]
  congr 1
  omega

/-- Every day from the year 0 on has a date. -/
theorem exists_day (n : Nat) : ∃ y m d, IsDay y m d ∧ daysBeforeYear y + daysBeforeMonth y m + (d - 1) = n := by
  have hyear : ∃ y k, daysBeforeYear y + k = n ∧ k < (if isLeap y then 366 else 365) := by
    induction n with
    | zero => exact ⟨0, 0, rfl, by decide⟩
    | succ n ih =>
      obtain ⟨y, k, e, h⟩ := ih
      by_cases hk : k + 1 < (if isLeap y then 366 else 365)
      · exact ⟨y, k + 1, by omega, hk⟩
      · refine ⟨y + 1, 0, ?_, by split <;> omega⟩
        rw [daysBeforeYear]; omega
  obtain ⟨y, k, e, h⟩ := hyear
  have hfind : ∀ M, k < daysBeforeMonth y M → ∃ m, m < M ∧ daysBeforeMonth y m ≤ k ∧ k < daysBeforeMonth y (m + 1) := by
    intro M
    induction M with
    | zero => intro hk; simp [daysBeforeMonth] at hk
    | succ M ih =>
      intro hk
      by_cases hM : k < daysBeforeMonth y M
      · obtain ⟨m, a, b, c⟩ := ih hM
        exact ⟨m, by omega, b, c⟩
      · exact ⟨M, by omega, by omega, hk⟩
  have h13 : daysBeforeMonth y 13 = if isLeap y then 366 else 365 := by
    simp only [daysBeforeMonth, monthLength]; split <;> omega
  have hmonth : ∃ m d, IsDay y m d ∧ daysBeforeMonth y m + (d - 1) = k := by
    obtain ⟨m, a, b, c⟩ := hfind 13 (by rw [h13]; exact h)
    rw [daysBeforeMonth] at c
    refine ⟨m, k - daysBeforeMonth y m + 1, ⟨?_, by omega, by omega, by omega⟩, by omega⟩
    cases m with
    | zero => simp [daysBeforeMonth, monthLength] at c
    | succ m => omega
  obtain ⟨m, d, hd, e2⟩ := hmonth
  exact ⟨y, m, d, hd, by omega⟩

/-- The days of the calendar are numbered one after the other and the library finds their numbers and, from the number,
the date. -/
theorem calendar_exact {y m d : Nat} (h : IsDay y m d) :
    toDays y m d = dayNumber y m d ∧ fromDays (dayNumber y m d) = ((y : Int), m, d) :=
  ⟨toDays_dayNumber h, by rw [← toDays_dayNumber h]; exact fromDays_toDays h⟩

example : IsDay 2000 2 29 ∧ ¬ IsDay 1900 2 29 ∧ dayNumber 1970 1 1 = 0 ∧ dayNumber 2000 3 1 = 11017 := by
  refine ⟨by simp [IsDay, monthLength, isLeap], by simp [IsDay, monthLength, isLeap], by decide +kernel, by decide +kernel⟩

end Pdfmm
