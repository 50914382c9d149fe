import Verif.Document.Dates
/-
Which texts are taken for dates.
-/
set_option autoImplicit false
namespace Pdfmm
open Spec

/-! ### Specification -/

namespace Spec

/-- The zone of a date, ISO 32000-1 7.9.4: nothing, `Z`, or a sign, hours, an apostrophe and minutes.  The apostrophe
after the minutes belongs to the older form of PDF 1.7. -/
inductive IsoZone : Bytes → Option Int → Prop
  | none : IsoZone [] none
  | utc : IsoZone [90] (some 0)
  | hours {c : Byte} {z : Int} {t : Bytes} {h : Nat} : (c = 43 ∧ z = 1 ∨ c = 45 ∧ z = -1) → Digits 2 h t → h < 24 →
      IsoZone (c :: (t ++ [39])) (some (z * (60 * h : Nat)))
  | full {c : Byte} {z : Int} {t u : Bytes} {h m : Nat} : (c = 43 ∧ z = 1 ∨ c = 45 ∧ z = -1) → Digits 2 h t → h < 24 →
      Digits 2 m u → m < 60 → IsoZone (c :: (t ++ 39 :: u)) (some (z * (60 * h + m : Nat)))
  | old {c : Byte} {z : Int} {t u : Bytes} {h m : Nat} : (c = 43 ∧ z = 1 ∨ c = 45 ∧ z = -1) → Digits 2 h t → h < 24 →
      Digits 2 m u → m < 60 → IsoZone (c :: (t ++ 39 :: (u ++ [39]))) (some (z * (60 * h + m : Nat)))

/-- The time of day in a date, which may end early: the hours, minutes and seconds, zero when they are not there. -/
inductive IsoTime : Bytes → Nat → Nat → Nat → Option Int → Prop
  | none : IsoTime [] 0 0 0 none
  | hour {t : Bytes} {h : Nat} : Digits 2 h t → h < 24 → IsoTime t h 0 0 none
  | minute {t u : Bytes} {h M : Nat} : Digits 2 h t → h < 24 → Digits 2 M u → M < 60 → IsoTime (t ++ u) h M 0 none
  | second {t u v w : Bytes} {h M s : Nat} {zone : Option Int} : Digits 2 h t → h < 24 → Digits 2 M u → M < 60 →
      Digits 2 s v → s < 60 → IsoZone w zone → IsoTime (t ++ (u ++ (v ++ w))) h M s zone

/-- The date of ISO 32000-1 7.9.4: the prefix, the year, the month, the day and the time of day; the month and the day
are 1 when they are not there. -/
inductive IsoDate : Bytes → PDate → Prop
  | year {t : Bytes} {y : Nat} : Digits 4 y t → IsoDate (68 :: 58 :: t) ⟨86400 * dayNumber y 1 1, none⟩
  | month {t u : Bytes} {y m : Nat} : Digits 4 y t → Digits 2 m u → 1 ≤ m → m ≤ 12 →
      IsoDate (68 :: 58 :: (t ++ u)) ⟨86400 * dayNumber y m 1, none⟩
  | day {t u v w : Bytes} {y m d h M s : Nat} {zone : Option Int} : Digits 4 y t → Digits 2 m u → Digits 2 d v →
      IsDay y m d → IsoTime w h M s zone →
      IsoDate (68 :: 58 :: (t ++ (u ++ (v ++ w))))
        ⟨86400 * dayNumber y m d + (3600 * h + 60 * M + s : Nat) - 60 * zone.getD 0, zone⟩

/-- The numbers at the beginning of a text: each has at most as many digits as its field and at least one, and one of
full length is in the range of its field. -/
def FieldsOK : List (Nat × Nat × Nat) → List Bytes → Prop
  | _, [] => True
  | [], _ :: _ => False
  | c :: cs, g :: gs => (g ≠ [] ∧ g.length ≤ c.1 ∧ (∀ x ∈ g, isDigitB x = true) ∧
      (g.length = c.1 → c.2.1 ≤ decVal g ∧ decVal g ≤ c.2.2)) ∧ FieldsOK cs gs

end Spec

/-! ### Proofs: the dates of the standard -/

theorem digits_le {k n : Nat} {t : Bytes} (h : Digits k n t) : n < 10 ^ k := by
  obtain ⟨rfl, h2, rfl⟩ := h
  have key : ∀ (t : Bytes) (a : Nat), (∀ c ∈ t, isDigitB c = true) →
      t.foldl (fun a c => 10 * a + (c.toNat - 48)) a + 1 ≤ (a + 1) * 10 ^ t.length := by
    intro t
    induction t with
    | nil => intro a _; simp
    | cons c t ih =>
      intro a h
      have h9 : c.toNat - 48 ≤ 9 := by
        have := h c (by simp)
        simp only [isDigitB, Bool.and_eq_true, decide_eq_true_eq, UInt8.le_iff_toNat_le] at this
        have h57 : (57 : UInt8).toNat = 57 := rfl
        omega
      rw [List.foldl_cons, List.length_cons, Nat.pow_succ]
      refine Nat.le_trans (ih _ (fun c hc => h c (by simp [hc]))) ?_
      rw [Nat.mul_comm (10 ^ t.length) 10, ← Nat.mul_assoc]
      exact Nat.mul_le_mul_right _ (by omega)
  have := key t 0 h2
  rw [decVal]; omega

theorem zone_iso {w : Bytes} {zone : Option Int} (h : IsoZone w zone) (f : List Nat) :
    (match pdfFields [] w f with
      | .fail => none
      | .stop f => some (inferTime f none)
      | .zone f z r => pdfZone f z r) = some (inferTime f zone) := by
  have hsh : ∀ (c : Byte) (z : Int) (r : Bytes), (c = 43 ∧ z = 1 ∨ c = 45 ∧ z = -1) →
      pdfFields [] (c :: r) f = .zone f z r := by
    rintro c z r (⟨rfl, rfl⟩ | ⟨rfl, rfl⟩) <;> rfl
  have hz0 : ∀ (c : Byte) (z : Int), (c = 43 ∧ z = 1 ∨ c = 45 ∧ z = -1) → z ≠ 0 := by
    intro c z h; omega
  cases h with
  | none => rfl
  | utc => rfl
  | hours hc ht hh =>
    rw [hsh _ _ _ hc]
    simp only
    have hs := startsDigit_head (startsDigit_digits [39] ht (by omega))
    rw [pdfZone, if_neg hs.1, parseFix_digits _ ht (by omega) (by omega)]
    simp only [head0_cons, if_true, List.tail_cons, pdfZoneMin, head0_nil, zoneEnd, hz0 _ _ hc, false_and, if_false,
      ne_eq, not_true_eq_false, Nat.add_zero]
  | full hc ht hh hu hm =>
    rw [hsh _ _ _ hc]
    simp only
    rename_i u _ _
    have hs := startsDigit_head (startsDigit_digits (39 :: u) ht (by omega))
    have hs2 := startsDigit_head (startsDigit_digits [] hu (by omega))
    have hp := parseFix_digits [] hu (show 0 ≤ _ by omega) (show _ ≤ 59 by omega)
    rw [List.append_nil] at hs2 hp
    rw [pdfZone, if_neg hs.1, parseFix_digits _ ht (by omega) (by omega)]
    simp only [head0_cons, if_true, List.tail_cons]
    rw [pdfZoneMin, if_neg hs2.1, hp]
    simp only [head0_nil, zoneEnd, hz0 _ _ hc, false_and, if_false,
      ne_eq, not_true_eq_false, show ¬ ((0 : Byte) = 39) by decide]
  | old hc ht hh hu hm =>
    rw [hsh _ _ _ hc]
    simp only
    rename_i u _ _
    have hs := startsDigit_head (startsDigit_digits (39 :: (u ++ [39])) ht (by omega))
    have hs2 := startsDigit_head (startsDigit_digits [39] hu (by omega))
    rw [pdfZone, if_neg hs.1, parseFix_digits _ ht (by omega) (by omega)]
    simp only [head0_cons, if_true, List.tail_cons]
    rw [pdfZoneMin, if_neg hs2.1, parseFix_digits _ hu (by omega) (by omega)]
    simp only [head0_cons, if_true, List.tail_cons, head0_nil, zoneEnd, hz0 _ _ hc, false_and, if_false,
      ne_eq, not_true_eq_false]

theorem pdfFields_end (cs : List (Nat × Nat × Nat)) (acc : List Nat) : pdfFields cs [] acc = .stop acc := by
  cases cs <;> rfl

/-- The last number at the end of the text. -/
theorem pdfFields_last {k lo hi n : Nat} {t : Bytes} (cs : List (Nat × Nat × Nat)) (acc : List Nat)
    (h : Digits k n t) (hk : 0 < k) (h1 : lo ≤ n) (h2 : n ≤ hi) :
    pdfFields ((k, lo, hi) :: cs) t acc = .stop (acc ++ [n]) := by
  have := pdfFields_step cs [] acc h hk h1 h2
  rw [List.append_nil] at this
  rw [this, pdfFields_end]

theorem inferTime_day {y m d : Nat} (h : IsDay y m d) (a b c : Nat) (zone : Option Int) (f : List Nat)
    (hf : f.getD 0 0 = y ∧ f.getD 1 0 = m ∧ f.getD 2 0 = d ∧ f.getD 3 0 = a ∧ f.getD 4 0 = b ∧ f.getD 5 0 = c) :
    inferTime f zone = ⟨86400 * dayNumber y m d + (3600 * a + 60 * b + c : Nat) - 60 * zone.getD 0, zone⟩ := by
  obtain ⟨e0, e1, e2, e3, e4, e5⟩ := hf
  rw [inferTime, e0, e1, e2, e3, e4, e5, (calendar_exact h).1]
  simp only [PDate.mk.injEq, and_true]
  omega

/-- C60, the dates of the standard that have at least a day are read as what they say: the text `t` is followed in
memory by a zero. -/
theorem C60_standard_dates_read_partial {t u v w : Bytes} {y m d h M s : Nat} {zone : Option Int} (hy : Digits 4 y t)
    (hm : Digits 2 m u) (hd : Digits 2 d v) (hday : IsDay y m d) (ht : IsoTime w h M s zone) :
    tryParseDate (68 :: 58 :: (t ++ (u ++ (v ++ w)))) =
      some ⟨86400 * dayNumber y m d + (3600 * h + 60 * M + s : Nat) - 60 * zone.getD 0, zone⟩ := by
  have hday' := hday
  obtain ⟨h1, h2, h3, h4⟩ := hday'
  have hl := (monthLength_le y m).2
  have hy9 : y ≤ 9999 := by have := digits_le hy; omega
  have hpre : ∀ r, datePrefix (68 :: 58 :: r) = some r := fun r => rfl
  rw [tryParseDate, hpre]
  simp only
  rw [dateFields, pdfFields_step _ _ _ hy (by omega) (by omega) hy9, pdfFields_step _ _ _ hm (by omega) h1 h2,
    pdfFields_step _ _ _ hd (by omega) h3 (by omega)]
  cases ht with
  | none =>
    rw [pdfFields_end]
    simp only
    rw [inferTime_day hday 0 0 0 none _ ⟨rfl, rfl, rfl, rfl, rfl, rfl⟩]
  | hour ha hb =>
    rw [pdfFields_last _ _ ha (by omega) (by omega) (by omega)]
    simp only
    rw [inferTime_day hday h 0 0 none _ ⟨rfl, rfl, rfl, rfl, rfl, rfl⟩]
  | minute ha hb hc hd =>
    rw [pdfFields_step _ _ _ ha (by omega) (by omega) (by omega), pdfFields_last _ _ hc (by omega) (by omega) (by omega)]
    simp only
    rw [inferTime_day hday h M 0 none _ ⟨rfl, rfl, rfl, rfl, rfl, rfl⟩]
  | second ha hb hc hd he hf hz =>
    rw [pdfFields_step _ _ _ ha (by omega) (by omega) (by omega), pdfFields_step _ _ _ hc (by omega) (by omega) (by omega),
      pdfFields_step _ _ _ he (by omega) (by omega) (by omega)]
    rw [← inferTime_day hday h M s zone ([] ++ [y] ++ [m] ++ [d] ++ [h] ++ [M] ++ [s]) ⟨rfl, rfl, rfl, rfl, rfl, rfl⟩]
    exact zone_iso hz _

/-- "D:2024022923" and "D:20240229235959+05'30" are such dates. -/
example : tryParseDate [68, 58, 50, 48, 50, 52, 48, 50, 50, 57, 50, 51] = some ⟨1709247600, none⟩ ∧
    tryParseDate [68, 58, 50, 48, 50, 52, 48, 50, 50, 57, 50, 51, 53, 57, 53, 57, 43, 48, 53, 39, 51, 48] =
      some ⟨1709231399, some 330⟩ ∧ IsDay 2024 2 29 ∧ IsoZone [43, 48, 53, 39, 51, 48] (some (1 * (60 * 5 + 30 : Nat))) := by
  refine ⟨by decide +kernel, by decide +kernel, by simp [IsDay, monthLength, isLeap], ?_⟩
  exact IsoZone.full (t := [48, 53]) (u := [51, 48]) (.inl ⟨rfl, rfl⟩) ⟨rfl, by decide, rfl⟩ (by decide)
    ⟨rfl, by decide, rfl⟩ (by decide)

/-- C60 is false of dates that end with the year or the month: the year alone denotes the
30th of November before it, the month alone the last day of the month before it, always. -/
theorem C60_truncated_false {t u : Bytes} {y m : Nat} (hy : Digits 4 y t) (hm : Digits 2 m u) (h1 : 1 ≤ m) (h2 : m ≤ 12) :
    tryParseDate (68 :: 58 :: t) = some ⟨86400 * (dayNumber y 1 1 - 32), none⟩ ∧
    tryParseDate (68 :: 58 :: (t ++ u)) = some ⟨86400 * (dayNumber y m 1 - 1), none⟩ := by
  have hy9 : y ≤ 9999 := by have := digits_le hy; omega
  have hpre : ∀ r, datePrefix (68 :: 58 :: r) = some r := fun r => rfl
  have hday : IsDay y 1 1 := by simp [IsDay, monthLength]
  have hday2 : IsDay y m 1 := by
    refine ⟨h1, h2, by omega, ?_⟩
    rcases month_cases h1 h2 with e | e | e | e | e | e | e | e | e | e | e | e <;> subst e <;>
      simp [monthLength] <;> split <;> omega
  constructor
  · rw [tryParseDate, hpre]
    simp only
    rw [dateFields, pdfFields_last _ _ hy (by omega) (by omega) hy9]
    simp only [inferTime, List.nil_append, List.getD_cons_zero, List.getD_cons_succ, List.getD_nil, Option.some.injEq,
      PDate.mk.injEq, and_true, Option.getD_none]
    have e1 := (calendar_exact hday).1
    have e2 : toDays (y : Int) 0 0 = toDays (y : Int) 1 1 - 32 := by
      rw [toDays_eq, toDays_eq]
      simp
      omega
    rw [← e1, e2]
    omega
  · rw [tryParseDate, hpre]
    simp only
    rw [dateFields, pdfFields_step _ _ _ hy (by omega) (by omega) hy9, pdfFields_last _ _ hm (by omega) h1 h2]
    simp only [inferTime, List.nil_append, List.cons_append, List.getD_cons_zero, List.getD_cons_succ, List.getD_nil,
      Option.some.injEq, PDate.mk.injEq, and_true, Option.getD_none]
    have e1 := (calendar_exact hday2).1
    have e2 : toDays (y : Int) m 0 = toDays (y : Int) m 1 - 1 := by
      rw [toDays_eq, toDays_eq]; omega
    rw [← e1, e2]
    omega

example : tryParseDate [68, 58, 50, 48, 50, 48] = some ⟨86400 * (18262 - 32), none⟩ ∧ dayNumber 2020 1 1 = 18262 := by
  refine ⟨by decide +kernel, by decide +kernel⟩

/-- C60 is false of texts that go on after the seconds: any text that begins with a character other than a digit, a sign,
`Z` and zero may follow, and makes an offset of zero. -/
theorem C60_trailing_garbage_false {t u v a b e : Bytes} {y m d h M s : Nat} (hy : Digits 4 y t)
    (hm : Digits 2 m u) (hd : Digits 2 d v) (hday : IsDay y m d) (ha : Digits 2 h a) (hh : h < 24) (hb : Digits 2 M b)
    (hM : M < 60) (he : Digits 2 s e) (hs : s < 60) (c : Byte) (g : Bytes) (hc : isDigitB c = false)
    (hc2 : c ≠ 0 ∧ c ≠ 43 ∧ c ≠ 45 ∧ c ≠ 90) :
    tryParseDate (68 :: 58 :: (t ++ (u ++ (v ++ (a ++ (b ++ (e ++ c :: g))))))) =
      some ⟨86400 * dayNumber y m d + (3600 * h + 60 * M + s : Nat), some 0⟩ := by
  have hday' := hday
  obtain ⟨h1, h2, h3, h4⟩ := hday'
  have hl := (monthLength_le y m).2
  have hy9 : y ≤ 9999 := by have := digits_le hy; omega
  have hpre : ∀ r, datePrefix (68 :: 58 :: r) = some r := fun r => rfl
  rw [tryParseDate, hpre]
  simp only
  rw [dateFields, pdfFields_step _ _ _ hy (by omega) (by omega) hy9, pdfFields_step _ _ _ hm (by omega) h1 h2,
    pdfFields_step _ _ _ hd (by omega) h3 (by omega), pdfFields_step _ _ _ ha (by omega) (by omega) (by omega),
    pdfFields_step _ _ _ hb (by omega) (by omega) (by omega), pdfFields_step _ _ _ he (by omega) (by omega) (by omega)]
  have hr : readShift (c :: g) = none := by simp [readShift, head0, hc2]
  rw [pdfFields, if_neg (by rw [head0_cons]; exact hc2.1), hr]
  simp only
  have hp : parseFix 2 0 59 (c :: g) = (false, 0, c :: g) := by
    simp [parseFix, fixLoop, head0, hc]
  rw [pdfZone, if_neg (by rw [head0_cons]; exact hc2.1), hp]
  simp only
  rw [inferTime_day hday h M s _ _ ⟨rfl, rfl, rfl, rfl, rfl, rfl⟩]
  simp

/-- "D:20200101000000 and so on". -/
example : tryParseDate ([68, 58, 50, 48, 50, 48, 48, 49, 48, 49, 48, 48, 48, 48, 48, 48] ++ [32, 97, 110, 100]) =
    some ⟨1577836800, some 0⟩ := by decide +kernel

/-- C60 is false of days that the month does not have: all days up to the 31st are taken. -/
theorem C60_no_such_day_false {t u v : Bytes} {y m d : Nat} (hy : Digits 4 y t) (hm : Digits 2 m u) (hd : Digits 2 d v)
    (h1 : 1 ≤ m) (h2 : m ≤ 12) (h3 : 1 ≤ d) (h4 : d ≤ 31) :
    (tryParseDate (68 :: 58 :: (t ++ (u ++ v)))).isSome = true := by
  have hy9 : y ≤ 9999 := by have := digits_le hy; omega
  have hpre : ∀ r, datePrefix (68 :: 58 :: r) = some r := fun r => rfl
  rw [tryParseDate, hpre]
  simp only
  rw [dateFields, pdfFields_step _ _ _ hy (by omega) (by omega) hy9, pdfFields_step _ _ _ hm (by omega) h1 h2,
    pdfFields_last _ _ hd (by omega) h3 h4]
  rfl

/-- "D:20230230" is the second of March. -/
example : tryParseDate [68, 58, 50, 48, 50, 51, 48, 50, 51, 48] = some ⟨86400 * dayNumber 2023 3 2, none⟩ ∧
    ¬ IsDay 2023 2 30 := ⟨by decide +kernel, by simp [IsDay, monthLength, isLeap]⟩

/-- C60 is false of numbers with too few digits: one to three digits are taken as a year. -/
theorem C60_short_number_false (t : Bytes) (h0 : t ≠ []) (h3 : t.length ≤ 3) (hd : ∀ x ∈ t, isDigitB x = true) :
    (tryParseDate (68 :: 58 :: t)).isSome = true := by
  have hz : isDigitB (head0 []) = false := by decide
  have hnz : ∀ x, isDigitB x = true → x ≠ 0 := by intro x hx h; subst h; exact absurd hx (by decide)
  have hsh : ∀ x r, isDigitB x = true → readShift (x :: r) = none := by
    intro x r hx
    have e : ∀ y : Byte, isDigitB y = false → x ≠ y := by intro y hy h; subst h; rw [hy] at hx; cases hx
    rw [readShift, head0_cons, if_neg (e _ (by decide)), if_neg (e _ (by decide)), if_neg (e _ (by decide))]
  have hpre : ∀ r, datePrefix (68 :: 58 :: r) = some r := fun r => rfl
  have key : ∃ n, parseFix 4 0 9999 t = (true, n, []) := by
    have hz' : isDigitB (head0 []) ≠ true := by rw [hz]; decide
    match t, h0, h3, hd with
    | [a], _, _, hd =>
      have ha : isDigitB (head0 [a]) = true := hd a (by simp)
      exact ⟨_, by rw [parseFix, fixLoop, if_pos ha, List.tail_cons, fixLoop, if_neg hz']⟩
    | [a, b], _, _, hd =>
      have ha : isDigitB (head0 [a, b]) = true := hd a (by simp)
      have hb : isDigitB (head0 [b]) = true := hd b (by simp)
      exact ⟨_, by rw [parseFix, fixLoop, if_pos ha, List.tail_cons, fixLoop, if_pos hb, List.tail_cons, fixLoop, if_neg hz']⟩
    | [a, b, c], _, _, hd =>
      have ha : isDigitB (head0 [a, b, c]) = true := hd a (by simp)
      have hb : isDigitB (head0 [b, c]) = true := hd b (by simp)
      have hc : isDigitB (head0 [c]) = true := hd c (by simp)
      exact ⟨_, by rw [parseFix, fixLoop, if_pos ha, List.tail_cons, fixLoop, if_pos hb, List.tail_cons, fixLoop, if_pos hc, List.tail_cons, fixLoop, if_neg hz']⟩
  obtain ⟨n, hn⟩ := key
  rw [tryParseDate, hpre]
  simp only
  have hf : pdfFields dateFields t [] = .stop [n] := by
    cases t with
    | nil => exact absurd rfl h0
    | cons x r =>
      have hx := hd x (by simp)
      rw [dateFields, pdfFields, if_neg (by rw [head0_cons]; exact hnz x hx), hsh x r hx]
      simp only [hn, if_true]
      rw [pdfFields, if_pos (by rfl)]
      rfl
  rw [hf]
  rfl

example : (tryParseDate [68, 58, 50]).isSome = true := C60_short_number_false [50] (by decide) (by decide) (by decide)

/-- C60: the result depends on what lies in memory behind the text that was given. -/
theorem C60_reads_behind_the_view_false : ∃ text a b, tryParseView text a ≠ tryParseView text b :=
  ⟨[68, 58, 50, 48, 50, 48, 48, 49, 48, 49], [0], [48, 53, 0], by decide +kernel⟩

/-! ### Proofs: what is refused -/

theorem fixLoop_inv {lo hi : Nat} : ∀ (k : Nat) (any : Bool) (ret n : Nat) (bs r : Bytes),
    fixLoop lo hi k any ret bs = (true, n, r) →
    ∃ g, bs = g ++ r ∧ g.length ≤ k ∧ (∀ x ∈ g, isDigitB x = true) ∧
      n = g.foldl (fun a c => 10 * a + (c.toNat - 48)) ret ∧ (g.length = k → lo ≤ n ∧ n ≤ hi) ∧
      (g = [] → k = 0 ∨ any = true)
  | 0, any, ret, n, bs, r, h => by
    simp only [fixLoop, Prod.mk.injEq, decide_eq_true_eq] at h
    obtain ⟨h1, rfl, rfl⟩ := h
    exact ⟨[], rfl, by simp, by simp, rfl, fun _ => h1, fun _ => .inl rfl⟩
  | k + 1, any, ret, n, bs, r, h => by
    rw [fixLoop] at h
    split at h
    · rename_i hd
      cases bs with
      | nil => exact absurd hd (by decide)
      | cons c bs =>
        obtain ⟨g, e1, e2, e3, e4, e5, e6⟩ := fixLoop_inv k _ _ _ _ _ h
        simp only [head0_cons] at hd e4
        refine ⟨c :: g, ?_, by simp; omega, ?_, ?_, ?_, by simp⟩
        · simp only [List.tail_cons] at e1; rw [e1]; rfl
        · intro x hx
          rcases List.mem_cons.1 hx with rfl | hx
          · exact hd
          · exact e3 x hx
        · rw [List.foldl_cons, Nat.mul_comm 10 ret]; exact e4
        · intro hl; exact e5 (by simpa using hl)
    · simp only [Prod.mk.injEq] at h
      obtain ⟨h1, rfl, rfl⟩ := h
      exact ⟨[], rfl, by simp, by simp, rfl, by simp, fun _ => .inr h1⟩

theorem parseFix_inv {k lo hi n : Nat} {bs r : Bytes} (hk : 0 < k) (h : parseFix k lo hi bs = (true, n, r)) :
    ∃ g, bs = g ++ r ∧ n = decVal g ∧ (g ≠ [] ∧ g.length ≤ k ∧ (∀ x ∈ g, isDigitB x = true) ∧
      (g.length = k → lo ≤ decVal g ∧ decVal g ≤ hi)) := by
  obtain ⟨g, e1, e2, e3, e4, e5, e6⟩ := fixLoop_inv k false 0 n bs r h
  refine ⟨g, e1, e4, ?_, e2, e3, by rw [decVal, ← e4]; exact e5⟩
  intro hg
  rcases e6 hg with h | h
  · omega
  · cases h

theorem pdfFields_inv (cs : List (Nat × Nat × Nat)) (hcs : ∀ c ∈ cs, 0 < c.1) : ∀ (bs : Bytes) (acc : List Nat),
    (∀ f, pdfFields cs bs acc = .stop f → ∃ gs rest, bs = gs.flatten ++ rest ∧ head0 rest = 0 ∧ FieldsOK cs gs ∧
      f = acc ++ gs.map decVal) ∧
    (∀ f z r, pdfFields cs bs acc = .zone f z r → ∃ gs rest, bs = gs.flatten ++ rest ∧ FieldsOK cs gs ∧
      f = acc ++ gs.map decVal ∧ (readShift rest = some (z, r) ∨ gs.length = cs.length ∧ z = 0 ∧ rest = r)) := by
  induction cs with
  | nil =>
    intro bs acc
    constructor
    · intro f h
      rw [pdfFields] at h
      split at h
      · rename_i h0
        cases h
        exact ⟨[], bs, rfl, h0, trivial, by simp⟩
      · split at h <;> cases h
    · intro f z r h
      rw [pdfFields] at h
      split at h
      · cases h
      · split at h
        · rename_i z' r' e
          cases h
          exact ⟨[], bs, rfl, trivial, by simp, .inl e⟩
        · cases h
          exact ⟨[], _, rfl, trivial, by simp, .inr ⟨rfl, rfl, rfl⟩⟩
  | cons c cs ih =>
    intro bs acc
    have hrec : ∀ {n : Nat} {r : Bytes}, parseFix c.1 c.2.1 c.2.2 bs = (true, n, r) → ∃ g, bs = g ++ r ∧ n = decVal g ∧
        (g ≠ [] ∧ g.length ≤ c.1 ∧ (∀ x ∈ g, isDigitB x = true) ∧ (g.length = c.1 → c.2.1 ≤ decVal g ∧ decVal g ≤ c.2.2)) :=
      fun h => parseFix_inv (hcs c (by simp)) h
    obtain ⟨⟨ok, n, r⟩, hp⟩ : ∃ p, parseFix c.1 c.2.1 c.2.2 bs = p := ⟨_, rfl⟩
    have ih' := ih (fun c hc => hcs c (by simp [hc])) r (acc ++ [n])
    constructor
    · intro f h
      rw [pdfFields] at h
      split at h
      · rename_i h0
        cases h
        exact ⟨[], bs, rfl, h0, by simp [FieldsOK], by simp⟩
      · split at h
        · cases h
        · rw [hp] at h
          simp only at h
          split at h
          · rename_i hok
            subst hok
            obtain ⟨gs, rest, e1, e2, e3, e4⟩ := ih'.1 f h
            obtain ⟨g, a1, a2, a3⟩ := hrec hp
            exact ⟨g :: gs, rest, by rw [a1, e1]; simp, e2, ⟨a3, e3⟩, by rw [e4, a2]; simp⟩
          · cases h
    · intro f z r' h
      rw [pdfFields] at h
      split at h
      · cases h
      · split at h
        · rename_i z' r'' e
          cases h
          exact ⟨[], bs, rfl, by simp [FieldsOK], by simp, .inl e⟩
        · rw [hp] at h
          simp only at h
          split at h
          · rename_i hok
            subst hok
            obtain ⟨gs, rest, e1, e2, e3, e4⟩ := ih'.2 f z r' h
            obtain ⟨g, a1, a2, a3⟩ := hrec hp
            refine ⟨g :: gs, rest, by rw [a1, e1]; simp, ⟨a3, e2⟩, by rw [e3, a2]; simp, ?_⟩
            rcases e4 with e4 | ⟨e4, e5, e6⟩
            · exact .inl e4
            · exact .inr ⟨by simp [e4], e5, e6⟩
          · cases h

theorem datePrefix_inv {bs r : Bytes} (h : datePrefix bs = some r) : bs = r ∨ bs = 68 :: 58 :: r := by
  rw [datePrefix] at h
  split at h
  · rename_i h1
    split at h
    · rename_i h2
      cases h
      cases bs with
      | nil => exact absurd h1 (by decide)
      | cons a bs => cases bs with
        | nil => exact absurd (show (0 : Byte) = 58 from h2) (by decide)
        | cons b bs =>
          simp only [head0_cons, List.tail_cons] at h1 h2
          subst h1 h2; exact .inr rfl
    · cases h
  · cases h; exact .inl rfl

/-- C60, what is refused: a text that is taken begins with the prefix or not, then up to six numbers follow; a number that
has all its digits is in the range of its field; after the numbers the text ends or a zone begins, unless all six are
there. -/
theorem C60_accepted_partial {bs : Bytes} {dt : PDate} (h : tryParseDate bs = some dt) :
    ∃ pre gs rest, bs = pre ++ (gs.flatten ++ rest) ∧ (pre = [] ∨ pre = [68, 58]) ∧ FieldsOK dateFields gs ∧
      (head0 rest = 0 ∨ head0 rest = 43 ∨ head0 rest = 45 ∨ head0 rest = 90 ∨ gs.length = 6) := by
  rw [tryParseDate] at h
  split at h
  · cases h
  · rename_i r hp
    have hpre : ∃ pre, bs = pre ++ r ∧ (pre = [] ∨ pre = [68, 58]) := by
      rcases datePrefix_inv hp with e | e
      · exact ⟨[], e, .inl rfl⟩
      · exact ⟨[68, 58], e, .inr rfl⟩
    obtain ⟨pre, e, hpre⟩ := hpre
    have hinv := pdfFields_inv dateFields (by decide) r []
    split at h
    · cases h
    · rename_i f hf
      obtain ⟨gs, rest, e1, e2, e3, -⟩ := hinv.1 f hf
      exact ⟨pre, gs, rest, by rw [e, e1], hpre, e3, .inl e2⟩
    · rename_i f z r' hf
      obtain ⟨gs, rest, e1, e2, -, e4⟩ := hinv.2 f z r' hf
      refine ⟨pre, gs, rest, by rw [e, e1], hpre, e2, ?_⟩
      rcases e4 with e4 | ⟨e4, -, -⟩
      · rw [readShift] at e4
        split at e4
        · rename_i h43; exact .inr (.inl h43)
        · split at e4
          · rename_i h45; exact .inr (.inr (.inl h45))
          · split at e4
            · rename_i h90; exact .inr (.inr (.inr (.inl h90)))
            · cases e4
      · exact .inr (.inr (.inr (.inr e4)))

/-- So "D-20200101", "D:2020130100", "2020/01/01" and "yesterday" are refused. -/
example : tryParseDate [68, 45, 50, 48, 50, 48] = none ∧ tryParseDate [68, 58, 50, 48, 50, 48, 49, 51, 48, 49] = none ∧
    tryParseDate [50, 48, 50, 48, 47, 48, 49] = none ∧ tryParseDate [121, 101, 115] = none := by decide +kernel

end Pdfmm
