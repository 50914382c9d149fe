import Verif.Document.Calendar
import Verif.Syntax.Numbers
/-
Dates: the texts written for them and the two parsers.
-/
set_option autoImplicit false
namespace Pdfmm
open Spec

/-! ### Model -/

/-- `PdfDate`, `src/pdfmm/base/PdfDate.h`: the seconds since 1970 and the offset from UTC in minutes. -/
structure PDate where
  secs : Int
  off : Option Int
deriving DecidableEq, Repr

/-- `{:0w}` of the formatting library for a number that is not negative. -/
def padNat (w n : Nat) : Bytes := List.replicate (w - (fmtNat n).length) 48 ++ fmtNat n

/-- `{:0w}` of the formatting library: the sign counts for the width. -/
def padInt (w : Nat) (v : Int) : Bytes := if v < 0 then 45 :: padNat (w - 1) v.natAbs else padNat w v.natAbs

/-- The offset, `src/pdfmm/base/PdfDate.cpp:130-151`. -/
def offsetText (w3c : Bool) : Option Int → Bytes
  | none => []
  | some o =>
    if o = 0 then [90]
    else (if o > 0 then 43 else 45) :: (padNat 2 (o.natAbs / 60) ++ (if w3c then 58 else 39) :: padNat 2 (o.natAbs % 60) ++
      (if w3c then [] else [39]))

/-- `createStringRepresentation`, `src/pdfmm/base/PdfDate.cpp:128-178`.  The year is an `int` here and a `short`
there: the model is that of the code for years from -32767 to 32767. -/
def PDate.text (dt : PDate) (w3c : Bool) : Bytes :=
  let loc := dt.secs + 60 * dt.off.getD 0
  let dp := loc / 86400
  let ymd := fromDays dp
  let t := (loc - dp * 86400).toNat
  let y := ymd.1
  let m := ymd.2.1
  let d := ymd.2.2
  let h := t / 3600
  let M := t % 3600 / 60
  let s := t % 60
  if w3c then
    padInt 4 y ++ 45 :: (padNat 2 m ++ 45 :: (padNat 2 d ++ 84 :: (padNat 2 h ++ 58 :: (padNat 2 M ++ 58 ::
      (padNat 2 s ++ offsetText true dt.off)))))
  else
    68 :: 58 :: (padInt 4 y ++ (padNat 2 m ++ (padNat 2 d ++ (padNat 2 h ++ (padNat 2 M ++
      (padNat 2 s ++ offsetText false dt.off))))))

/-- `*cursor`; the end of the list stands for the terminating zero. -/
def head0 (bs : Bytes) : Byte := bs.headD 0

/-- `parseFixLenNumber`, `src/pdfmm/base/PdfDate.cpp:439-454`, with `k` rounds to go; `any` is whether a digit has
been read.  The result is the returned value, the number and the cursor. -/
def fixLoop (lo hi : Nat) : Nat → Bool → Nat → Bytes → Bool × Nat × Bytes
  | 0, _, ret, bs => (decide (lo ≤ ret ∧ ret ≤ hi), ret, bs)
  | k + 1, any, ret, bs =>
    if isDigitB (head0 bs) then fixLoop lo hi k true (ret * 10 + ((head0 bs).toNat - 48)) bs.tail
    else (any, ret, bs)

/-- `parseFixLenNumber`, `src/pdfmm/base/PdfDate.cpp:439-454`. -/
def parseFix (maxLength lo hi : Nat) (bs : Bytes) : Bool × Nat × Bytes := fixLoop lo hi maxLength false 0 bs

/-- `tryReadShiftChar`, `src/pdfmm/base/PdfDate.cpp:418-437`. -/
def readShift (bs : Bytes) : Option (Int × Bytes) :=
  if head0 bs = 43 then some (1, bs.tail)
  else if head0 bs = 45 then some (-1, bs.tail)
  else if head0 bs = 90 then some (0, bs.tail)
  else none

/-- Where the reading of the six numbers ends: at the label `End`, at the label `ParseShift`, or with false. -/
inductive DFields where
  | fail
  | stop (fields : List Nat)
  | zone (fields : List Nat) (shift : Int) (cursor : Bytes)
deriving DecidableEq, Repr

/-- The six numbers of `tryParse`, `src/pdfmm/base/PdfDate.cpp:225-257`, written as a loop: before each number and
after the last one the macro `PEEK_DATE_CHAR`, lines 25-33. -/
def pdfFields : List (Nat × Nat × Nat) → Bytes → List Nat → DFields
  | [], bs, acc =>
    if head0 bs = 0 then .stop acc
    else match readShift bs with
      | some (z, r) => .zone acc z r
      | none => .zone acc 0 bs
  | c :: cs, bs, acc =>
    if head0 bs = 0 then .stop acc
    else match readShift bs with
      | some (z, r) => .zone acc z r
      | none =>
        if (parseFix c.1 c.2.1 c.2.2 bs).1 then
          pdfFields cs (parseFix c.1 c.2.1 c.2.2 bs).2.2 (acc ++ [(parseFix c.1 c.2.1 c.2.2 bs).2.1])
        else .fail

/-- `inferTimeComponents`, `src/pdfmm/base/PdfDate.cpp:376-395`, with the numbers that were not read left zero. -/
def inferTime (f : List Nat) (zone : Option Int) : PDate :=
  { secs := toDays (f.getD 0 0 : Nat) (f.getD 1 0) (f.getD 2 0) * 86400 + 3600 * (f.getD 3 0 : Nat) + 60 * (f.getD 4 0 : Nat) +
      (f.getD 5 0 : Nat) - 60 * zone.getD 0,
    off := zone }

/-- The end of the zone, `src/pdfmm/base/PdfDate.cpp:278-282` and `:361-365`. -/
def zoneEnd (f : List Nat) (shift : Int) (zh zm : Nat) (bs : Bytes) : Option PDate :=
  if shift = 0 ∧ (zh ≠ 0 ∨ zm ≠ 0) then none
  else if head0 bs ≠ 0 then none
  else some (inferTime f (some (shift * (60 * zh + zm : Nat))))

/-- The minutes of the zone in a PDF date, `src/pdfmm/base/PdfDate.cpp:269-276`, after the apostrophe. -/
def pdfZoneMin (f : List Nat) (shift : Int) (zh : Nat) (bs : Bytes) : Option PDate :=
  if head0 bs = 0 then zoneEnd f shift zh 0 bs
  else match parseFix 2 0 59 bs with
    | (true, zm, r) => zoneEnd f shift zh zm (if head0 r = 39 then r.tail else r)
    | (false, _, _) => none

/-- From the label `ParseShift` on, `src/pdfmm/base/PdfDate.cpp:259-289`. -/
def pdfZone (f : List Nat) (shift : Int) (bs : Bytes) : Option PDate :=
  if head0 bs = 0 then some (inferTime f (some (shift * (60 * 0 + 0 : Nat))))
  else match parseFix 2 0 59 bs with
    | (true, zh, r) => if head0 r = 39 then pdfZoneMin f shift zh r.tail else zoneEnd f shift zh 0 r
    | (false, zh, _) => some (inferTime f (some (shift * (60 * zh + 0 : Nat))))

/-- The lengths and bounds of the numbers, `src/pdfmm/base/PdfDate.cpp:227-254`. -/
def dateFields : List (Nat × Nat × Nat) := [(4, 0, 9999), (2, 1, 12), (2, 1, 31), (2, 0, 23), (2, 0, 59), (2, 0, 59)]

/-- The prefix of a date, `src/pdfmm/base/PdfDate.cpp:218-223`. -/
def datePrefix (bs : Bytes) : Option Bytes :=
  if head0 bs = 68 then (if head0 bs.tail = 58 then some bs.tail.tail else none) else some bs

/-- `tryParse`, `src/pdfmm/base/PdfDate.cpp:200-290`, and with it `TryParse`, `:78-91`, which answers with the date or
with false.  The function takes the pointer of the view and reads up to a zero byte: `bs` are the bytes in memory from
there on.  The view without a pointer, which is refused, is not modelled. -/
def tryParseDate (bs : Bytes) : Option PDate :=
  match datePrefix bs with
  | none => none
  | some bs => match pdfFields dateFields bs [] with
    | .fail => none
    | .stop f => some (inferTime f none)
    | .zone f z r => pdfZone f z r

/-- `TryParse` called with a view of `text` where the memory goes on with `after`. -/
def tryParseView (text after : Bytes) : Option PDate := tryParseDate (text ++ after)

/-- The numbers of `tryParseW3C` after the year, `src/pdfmm/base/PdfDate.cpp:314-343`, written as a loop: each has a
separator, checked with `PEEK_DATE_CHAR_W3C`, lines 35-47; before the seconds and after them a zone may come. -/
def w3cFields : List (Bool × Byte × Nat × Nat) → Bytes → List Nat → DFields
  | [], bs, acc => match readShift bs with
    | some (z, r) => .zone acc z r
    | none => .stop acc
  | c :: cs, bs, acc => match (if c.1 then readShift bs else none) with
    | some (z, r) => .zone acc z r
    | none =>
      if head0 bs = 0 then .stop acc
      else if head0 bs ≠ c.2.1 then .fail
      else if (parseFix 2 c.2.2.1 c.2.2.2 bs.tail).1 then
        w3cFields cs (parseFix 2 c.2.2.1 c.2.2.2 bs.tail).2.2 (acc ++ [(parseFix 2 c.2.2.1 c.2.2.2 bs.tail).2.1])
      else .fail

/-- The separators and bounds, `src/pdfmm/base/PdfDate.cpp:314-341`. -/
def w3cComponents : List (Bool × Byte × Nat × Nat) :=
  [(false, 45, 1, 12), (false, 45, 1, 31), (false, 84, 0, 23), (false, 58, 0, 59), (true, 58, 0, 59)]

/-- The minutes of the zone, `src/pdfmm/base/PdfDate.cpp:354-358`, after the colon. -/
def w3cZoneMin (f : List Nat) (shift : Int) (zh : Nat) (bs : Bytes) : Option PDate :=
  if head0 bs = 0 then zoneEnd f shift zh 0 bs
  else match parseFix 2 0 59 bs with
    | (true, zm, r) => zoneEnd f shift zh zm r
    | (false, _, _) => none

/-- From the label `ParseShift` on, `src/pdfmm/base/PdfDate.cpp:345-373`. -/
def w3cZone (f : List Nat) (shift : Int) (bs : Bytes) : Option PDate :=
  if head0 bs = 0 then some (inferTime f (some (shift * (60 * 0 + 0 : Nat))))
  else match parseFix 2 0 59 bs with
    | (true, zh, r) => if head0 r = 58 then w3cZoneMin f shift zh r.tail else zoneEnd f shift zh 0 r
    | (false, zh, _) => some (inferTime f (some (shift * (60 * zh + 0 : Nat))))

/-- `tryParseW3C`, `src/pdfmm/base/PdfDate.cpp:292-374`, and with it `TryParseW3C`, `:102-115`. -/
def tryParseW3C (bs : Bytes) : Option PDate :=
  if head0 bs = 0 then none
  else if (parseFix 4 0 9999 bs).1 then
    match w3cFields w3cComponents (parseFix 4 0 9999 bs).2.2 [(parseFix 4 0 9999 bs).2.1] with
    | .fail => none
    | .stop f => some (inferTime f none)
    | .zone f z r => w3cZone f z r
  else none

/-! ### Specification -/

namespace Spec

/-- The date and time of day that a clock shows, `loc` being the seconds since 1970 on that clock. -/
def Shows (loc : Int) (y m d h M s : Nat) : Prop :=
  IsDay y m d ∧ h < 24 ∧ M < 60 ∧ s < 60 ∧ loc = 86400 * dayNumber y m d + (3600 * h + 60 * M + s : Nat)

/-- `k` decimal digits for the number `n`. -/
def Digits (k n : Nat) (t : Bytes) : Prop := t.length = k ∧ (∀ c ∈ t, isDigitB c = true) ∧ decVal t = n

end Spec

/-! ### Proofs -/

theorem head0_cons (c : Byte) (r : Bytes) : head0 (c :: r) = c := rfl
theorem head0_nil : head0 [] = 0 := rfl

theorem decVal_zeros (k : Nat) (t : Bytes) : decVal (List.replicate k 48 ++ t) = decVal t := by
  induction k with
  | zero => rfl
  | succ k ih =>
    rw [List.replicate_succ, List.cons_append, ← ih]
    rfl

theorem padNat_digits {w n : Nat} (h : n < 10 ^ w) (hw : 0 < w) : Digits w n (padNat w n) := by
  obtain ⟨k, rfl⟩ : ∃ k, w = k + 1 := ⟨w - 1, by omega⟩
  have hl := fmtNat_length n k h
  refine ⟨by simp [padNat]; omega, ?_, ?_⟩
  · intro c hc
    rw [padNat, List.mem_append] at hc
    rcases hc with hc | hc
    · rw [List.eq_of_mem_replicate hc]; rfl
    · exact fmtNat_digits n c hc
  · rw [padNat, decVal_zeros, decVal_fmtNat]

theorem fixLoop_digits (lo hi : Nat) (t r : Bytes) (any : Bool) (ret : Nat) (hd : ∀ c ∈ t, isDigitB c = true) :
    fixLoop lo hi t.length any ret (t ++ r) =
      (decide (lo ≤ t.foldl (fun a c => 10 * a + (c.toNat - 48)) ret ∧ t.foldl (fun a c => 10 * a + (c.toNat - 48)) ret ≤ hi),
        t.foldl (fun a c => 10 * a + (c.toNat - 48)) ret, r) := by
  induction t generalizing any ret with
  | nil => rfl
  | cons c t ih =>
    rw [List.length_cons, fixLoop, List.cons_append]
    have hc : isDigitB c = true := hd c (by simp)
    simp only [head0, List.headD_cons, hc, if_true, List.tail_cons, List.foldl_cons]
    rw [Nat.mul_comm ret 10]
    exact ih _ _ (fun c hc => hd c (by simp [hc]))

theorem parseFix_digits {k n lo hi : Nat} {t : Bytes} (r : Bytes) (h : Digits k n t) (h1 : lo ≤ n) (h2 : n ≤ hi) :
    parseFix k lo hi (t ++ r) = (true, n, r) := by
  obtain ⟨e1, e2, e3⟩ := h
  subst e1 e3
  rw [parseFix, fixLoop_digits _ _ _ _ _ _ e2]
  simp only [decVal] at h1 h2 ⊢
  rw [decide_eq_true ⟨h1, h2⟩]

/-- A text that begins with a digit. -/
def StartsDigit (t : Bytes) : Prop := ∃ c r, t = c :: r ∧ isDigitB c = true

theorem startsDigit_digits {k n : Nat} {t : Bytes} (r : Bytes) (h : Digits k n t) (hk : 0 < k) : StartsDigit (t ++ r) := by
  obtain ⟨e1, e2, -⟩ := h
  cases t with
  | nil => simp at e1; omega
  | cons c t => exact ⟨c, t ++ r, rfl, e2 c (by simp)⟩

theorem startsDigit_head {t : Bytes} (h : StartsDigit t) : head0 t ≠ 0 ∧ readShift t = none ∧ head0 t ≠ 68 := by
  obtain ⟨c, r, rfl, hc⟩ := h
  have : ∀ c : UInt8, isDigitB c = true → c ≠ 0 ∧ c ≠ 43 ∧ c ≠ 45 ∧ c ≠ 90 ∧ c ≠ 68 := by
    intro c
    exact forall_byte (P := fun c => isDigitB c = true → c ≠ 0 ∧ c ≠ 43 ∧ c ≠ 45 ∧ c ≠ 90 ∧ c ≠ 68) (by decide +kernel) c
  obtain ⟨a1, a2, a3, a4, a5⟩ := this c hc
  exact ⟨a1, by simp [readShift, head0, a2, a3, a4], a5⟩

theorem pdfFields_step {k lo hi n : Nat} {t : Bytes} (cs : List (Nat × Nat × Nat)) (r : Bytes) (acc : List Nat)
    (h : Digits k n t) (hk : 0 < k) (h1 : lo ≤ n) (h2 : n ≤ hi) :
    pdfFields ((k, lo, hi) :: cs) (t ++ r) acc = pdfFields cs r (acc ++ [n]) := by
  obtain ⟨a1, a2, -⟩ := startsDigit_head (startsDigit_digits r h hk)
  rw [pdfFields, if_neg a1, a2]
  simp only [parseFix_digits r h h1 h2, if_true]

theorem w3cFields_step {b : Bool} {s : Byte} {lo hi n : Nat} {t : Bytes} (cs : List (Bool × Byte × Nat × Nat)) (r : Bytes)
    (acc : List Nat) (h : Digits 2 n t) (h1 : lo ≤ n) (h2 : n ≤ hi) (hs : s ≠ 0) (hb : b = true → s = 58) :
    w3cFields ((b, s, lo, hi) :: cs) (s :: (t ++ r)) acc = w3cFields cs r (acc ++ [n]) := by
  rw [w3cFields]
  have : (if b = true then readShift (s :: (t ++ r)) else none) = none := by
    cases b with
    | false => rfl
    | true => rw [hb rfl]; rfl
  simp only [this, head0, List.headD_cons, if_neg hs, List.tail_cons, parseFix_digits r h h1 h2, if_true, ne_eq,
    not_true_eq_false, if_false]

/-- A date that shows a time of the years 0 to 9999 as text. -/
theorem text_eq {dt : PDate} {y m d h M s : Nat} (hs : Shows (dt.secs + 60 * dt.off.getD 0) y m d h M s) (w3c : Bool) :
    dt.text w3c = if w3c then
      padNat 4 y ++ 45 :: (padNat 2 m ++ 45 :: (padNat 2 d ++ 84 :: (padNat 2 h ++ 58 :: (padNat 2 M ++ 58 ::
        (padNat 2 s ++ offsetText true dt.off)))))
    else
      68 :: 58 :: (padNat 4 y ++ (padNat 2 m ++ (padNat 2 d ++ (padNat 2 h ++ (padNat 2 M ++
        (padNat 2 s ++ offsetText false dt.off)))))) := by
  obtain ⟨h1, h2, h3, h4, h5⟩ := hs
  have e1 : (dt.secs + 60 * dt.off.getD 0) / 86400 = dayNumber y m d := by omega
  have e2 : (dt.secs + 60 * dt.off.getD 0 - dayNumber y m d * 86400).toNat = 3600 * h + 60 * M + s := by omega
  have e3 : (3600 * h + 60 * M + s) / 3600 = h := by omega
  have e4 : (3600 * h + 60 * M + s) % 3600 / 60 = M := by omega
  have e5 : (3600 * h + 60 * M + s) % 60 = s := by omega
  have e6 : padInt 4 (y : Int) = padNat 4 y := by
    rw [padInt, if_neg (by omega)]; rfl
  simp only [PDate.text, e1, e2, e3, e4, e5, (calendar_exact h1).2, e6]

theorem inferTime_eq {dt : PDate} {y m d h M s : Nat} (hs : Shows (dt.secs + 60 * dt.off.getD 0) y m d h M s) :
    inferTime [y, m, d, h, M, s] dt.off = dt := by
  obtain ⟨h1, h2, h3, h4, h5⟩ := hs
  have e := (calendar_exact h1).1
  cases dt with
  | mk secs off =>
    simp only [inferTime, PDate.mk.injEq]
    refine ⟨?_, trivial⟩
    simp only [List.getD_cons_zero, List.getD_cons_succ, e]
    simp only at h5
    omega

/-- The offset is read back from its text. -/
theorem zone_read (w3c : Bool) (f : List Nat) (o : Int) (ho : o.natAbs < 3600) :
    ∃ c r, offsetText w3c (some o) = c :: r ∧
      ∃ z, readShift (c :: r) = some (z, r) ∧
        (if w3c then w3cZone f z r else pdfZone f z r) = some (inferTime f (some o)) := by
  by_cases h0 : o = 0
  · subst h0
    refine ⟨90, [], rfl, 0, rfl, ?_⟩
    cases w3c <;> rfl
  · obtain ⟨z, hz⟩ : ∃ z : Int, z = if o > 0 then 1 else -1 := ⟨_, rfl⟩
    have hz0 : z ≠ 0 := by split at hz <;> omega
    refine ⟨_, _, by rw [offsetText, if_neg h0], z, ?_, ?_⟩
    · split at hz <;> rename_i hp <;> simp [readShift, head0, hp, hz]
    · have d1 : Digits 2 (o.natAbs / 60) (padNat 2 (o.natAbs / 60)) := padNat_digits (by omega) (by omega)
      have d2 : Digits 2 (o.natAbs % 60) (padNat 2 (o.natAbs % 60)) := padNat_digits (by omega) (by omega)
      have hval : z * (60 * (o.natAbs / 60) + o.natAbs % 60 : Nat) = o := by
        have : 60 * (o.natAbs / 60) + o.natAbs % 60 = o.natAbs := by omega
        rw [this]; split at hz <;> subst hz <;> omega
      cases w3c with
      | false =>
        have hs := startsDigit_head (startsDigit_digits (39 :: padNat 2 (o.natAbs % 60) ++ [39]) d1 (by omega))
        have hs2 := startsDigit_head (startsDigit_digits [39] d2 (by omega))
        simp only [Bool.false_eq_true, if_false, List.append_assoc]
        rw [List.cons_append] at hs ⊢
        rw [pdfZone, if_neg hs.1, parseFix_digits _ d1 (by omega) (by omega)]
        simp only [if_true, head0_cons, List.tail_cons]
        rw [pdfZoneMin, if_neg hs2.1, parseFix_digits _ d2 (by omega) (by omega)]
        simp only [if_true, head0_cons, List.tail_cons, zoneEnd, hz0, false_and, if_false, head0_nil,
          ne_eq, not_true_eq_false, hval]
      | true =>
        have hs := startsDigit_head (startsDigit_digits (58 :: padNat 2 (o.natAbs % 60) ++ []) d1 (by omega))
        have hs2 := startsDigit_head (startsDigit_digits [] d2 (by omega))
        simp only [if_true, List.append_assoc]
        rw [List.cons_append] at hs ⊢
        rw [w3cZone, if_neg hs.1, parseFix_digits _ d1 (by omega) (by omega)]
        simp only [if_true, head0_cons, List.tail_cons]
        rw [w3cZoneMin, if_neg hs2.1, parseFix_digits _ d2 (by omega) (by omega)]
        simp only [zoneEnd, hz0, false_and, if_false, head0_nil, ne_eq, not_true_eq_false, hval]

/-- C59.  A date that shows a time of the years 0 to 9999, with an offset below 60 hours or none, is the same instant
with the same offset after it has been written as PDF date and parsed. -/
theorem C59_pdf_date_roundtrip {dt : PDate} {y m d h M s : Nat} (hs : Shows (dt.secs + 60 * dt.off.getD 0) y m d h M s)
    (hy : y ≤ 9999) (ho : ∀ o, dt.off = some o → o.natAbs < 3600) : tryParseDate (dt.text false) = some dt := by
  have hs' := hs
  obtain ⟨⟨h1, h2, h3, h4⟩, h5, h6, h7, -⟩ := hs'
  have hm := (monthLength_le y m).2
  rw [text_eq hs]
  simp only [Bool.false_eq_true, if_false]
  have hfields : ∀ r, pdfFields dateFields (padNat 4 y ++ (padNat 2 m ++ (padNat 2 d ++ (padNat 2 h ++ (padNat 2 M ++
        (padNat 2 s ++ r)))))) [] = pdfFields [] r [y, m, d, h, M, s] := by
    intro r
    rw [dateFields, pdfFields_step _ _ _ (padNat_digits (by omega) (by omega)) (by decide) (by omega) hy,
      pdfFields_step _ _ _ (padNat_digits (by omega) (by omega)) (by decide) h1 h2,
      pdfFields_step _ _ _ (padNat_digits (by omega) (by omega)) (by decide) h3 (Nat.le_trans h4 hm),
      pdfFields_step _ _ _ (padNat_digits (by omega) (by omega)) (by decide) (by omega) (by omega),
      pdfFields_step _ _ _ (padNat_digits (by omega) (by omega)) (by decide) (by omega) (by omega),
      pdfFields_step _ _ _ (padNat_digits (by omega) (by omega)) (by decide) (by omega) (by omega)]
    rfl
  have hpre : ∀ r, datePrefix (68 :: 58 :: r) = some r := fun r => rfl
  rw [tryParseDate, hpre]
  simp only [hfields]
  cases hoff : dt.off with
  | none =>
    have : pdfFields [] (offsetText false none) [y, m, d, h, M, s] = .stop [y, m, d, h, M, s] := rfl
    rw [this]
    simp only
    rw [← hoff, inferTime_eq hs]
  | some o =>
    obtain ⟨c, r, e, z, hz, hr⟩ := zone_read false [y, m, d, h, M, s] o (ho o hoff)
    have hc : head0 (c :: r) ≠ 0 := by
      intro h0
      simp only [head0, List.headD_cons] at h0
      subst h0
      simp [readShift, head0] at hz
    rw [e, pdfFields, if_neg hc, hz]
    simp only at hr ⊢
    rw [if_neg (by simp)] at hr
    rw [hr, ← hoff, inferTime_eq hs]

/-- C59.  The same for the W3C form. -/
theorem C59_w3c_date_roundtrip {dt : PDate} {y m d h M s : Nat} (hs : Shows (dt.secs + 60 * dt.off.getD 0) y m d h M s)
    (hy : y ≤ 9999) (ho : ∀ o, dt.off = some o → o.natAbs < 3600) : tryParseW3C (dt.text true) = some dt := by
  have hs' := hs
  obtain ⟨⟨h1, h2, h3, h4⟩, h5, h6, h7, -⟩ := hs'
  have hm := (monthLength_le y m).2
  rw [text_eq hs]
  simp only [if_true]
  have d4 : Digits 4 y (padNat 4 y) := padNat_digits (by omega) (by omega)
  have hfields : ∀ r, w3cFields w3cComponents (45 :: (padNat 2 m ++ 45 :: (padNat 2 d ++ 84 :: (padNat 2 h ++ 58 :: (padNat 2 M ++ 58 ::
        (padNat 2 s ++ r)))))) [y] = w3cFields [] r [y, m, d, h, M, s] := by
    intro r
    rw [w3cComponents, w3cFields_step _ _ _ (padNat_digits (by omega) (by omega)) h1 h2 (by decide) (by decide),
      w3cFields_step _ _ _ (padNat_digits (by omega) (by omega)) h3 (Nat.le_trans h4 hm) (by decide) (by decide),
      w3cFields_step _ _ _ (padNat_digits (by omega) (by omega)) (by omega) (by omega) (by decide) (by decide),
      w3cFields_step _ _ _ (padNat_digits (by omega) (by omega)) (by omega) (by omega) (by decide) (by decide),
      w3cFields_step _ _ _ (padNat_digits (by omega) (by omega)) (by omega) (by omega) (by decide) (by decide)]
    rfl
  rw [tryParseW3C, if_neg (startsDigit_head (startsDigit_digits _ d4 (by omega))).1]
  have hp : ∀ r, parseFix 4 0 9999 (padNat 4 y ++ r) = (true, y, r) := fun r => parseFix_digits r d4 (by omega) hy
  simp only [hp, if_true, hfields]
  cases hoff : dt.off with
  | none =>
    have : w3cFields [] (offsetText true none) [y, m, d, h, M, s] = .stop [y, m, d, h, M, s] := rfl
    rw [this]
    simp only
    rw [← hoff, inferTime_eq hs]
  | some o =>
    obtain ⟨c, r, e, z, hz, hr⟩ := zone_read true [y, m, d, h, M, s] o (ho o hoff)
    rw [e, w3cFields, hz]
    simp only [if_true] at hr ⊢
    rw [hr, ← hoff, inferTime_eq hs]

/-- Every instant from the year 0 to the year 9999 is shown as some date and time. -/
theorem shows_total (loc : Int) (h1 : -62167219200 ≤ loc) (h2 : loc < 253402300800) :
    ∃ y m d h M s, Shows loc y m d h M s ∧ y ≤ 9999 := by
  obtain ⟨y, m, d, hd, e⟩ := exists_day (loc / 86400 + 719528).toNat
  have hm : loc % 86400 < 86400 := by omega
  refine ⟨y, m, d, (loc % 86400).toNat / 3600, (loc % 86400).toNat % 3600 / 60, (loc % 86400).toNat % 60,
    ⟨hd, by omega, by omega, by omega, ?_⟩, ?_⟩
  · rw [dayNumber, e]; omega
  · by_cases hy : y ≤ 9999
    · exact hy
    · have : daysBeforeYear 10000 ≤ daysBeforeYear y := by
        rw [daysBeforeYear_eq, daysBeforeYear_eq]; omega
      rw [daysBeforeYear_eq 10000] at this
      omega

/-- C59.  The same in one statement and without the calendar: the seconds on the clock of the date lie in the years 0 to
9999. -/
theorem C59_date_roundtrip (dt : PDate) (h1 : -62167219200 ≤ dt.secs + 60 * dt.off.getD 0)
    (h2 : dt.secs + 60 * dt.off.getD 0 < 253402300800) (ho : ∀ o, dt.off = some o → -3600 < o ∧ o < 3600) :
    tryParseDate (dt.text false) = some dt ∧ tryParseW3C (dt.text true) = some dt := by
  obtain ⟨y, m, d, h, M, s, hs, hy⟩ := shows_total _ h1 h2
  have ho' : ∀ o, dt.off = some o → o.natAbs < 3600 := by
    intro o e; have := ho o e; omega
  exact ⟨C59_pdf_date_roundtrip hs hy ho', C59_w3c_date_roundtrip hs hy ho'⟩

/-- C59.  The PDF text shows the date and the time of the clock: the digits are those of the calendar. -/
theorem C59_text_shows_the_clock {dt : PDate} {y m d h M s : Nat} (hs : Shows (dt.secs + 60 * dt.off.getD 0) y m d h M s)
    (hy : y ≤ 9999) : ∃ a b c e f g, dt.text false = 68 :: 58 :: (a ++ b ++ c ++ e ++ f ++ g ++ offsetText false dt.off) ∧
      Digits 4 y a ∧ Digits 2 m b ∧ Digits 2 d c ∧ Digits 2 h e ∧ Digits 2 M f ∧ Digits 2 s g := by
  have hs' := hs
  obtain ⟨⟨h1, h2, h3, h4⟩, h5, h6, h7, -⟩ := hs'
  have hm := (monthLength_le y m).2
  refine ⟨padNat 4 y, padNat 2 m, padNat 2 d, padNat 2 h, padNat 2 M, padNat 2 s,
    by rw [text_eq hs]; simp only [Bool.false_eq_true, if_false, List.append_assoc], ?_⟩
  exact ⟨padNat_digits (by omega) (by omega), padNat_digits (by omega) (by omega), padNat_digits (by omega) (by omega),
    padNat_digits (by omega) (by omega), padNat_digits (by omega) (by omega), padNat_digits (by omega) (by omega)⟩

/-- The bounds are sharp: from the year 10000 on and with an offset of 60 hours the text is not read back. -/
theorem C59_outside_false :
    tryParseDate ((⟨253402300800, none⟩ : PDate).text false) ≠ some ⟨253402300800, none⟩ ∧
    tryParseDate ((⟨0, some 6000⟩ : PDate).text false) ≠ some ⟨0, some 6000⟩ := by
  constructor <;> decide +kernel

/-- "D:19981223195207-08'00'" is 1998-12-24 03:52:07 UTC. -/
example : (⟨914471527, some (-480)⟩ : PDate).text false =
    [68, 58, 49, 57, 57, 56, 49, 50, 50, 51, 49, 57, 53, 50, 48, 55, 45, 48, 56, 39, 48, 48, 39] ∧
    Shows (914471527 + 60 * (-480)) 1998 12 23 19 52 7 := by
  refine ⟨by decide +kernel, ⟨by simp [IsDay, monthLength], by decide, by decide, by decide, by decide +kernel⟩⟩

end Pdfmm
