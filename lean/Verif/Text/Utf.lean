import Verif.Util.Numeric
/-
UTF-8 and UTF-16: the functions of the bundled library which the code uses for all its texts.
-/
set_option autoImplicit false
namespace Pdfmm

/-! ### Model -/

/-- `is_code_point_valid`, `3rdparty/utfcpp/utf8/core.h:108-112`. -/
def cpValid (cp : Nat) : Bool := cp ≤ 0x10ffff && !(0xd800 ≤ cp && cp ≤ 0xdfff)

/-- `sequence_length`, `3rdparty/utfcpp/utf8/core.h:114-129`. -/
def seqLength (lead : Nat) : Nat :=
  if lead < 0x80 then 1
  else if lead >>> 5 = 0x6 then 2
  else if lead >>> 4 = 0xe then 3
  else if lead >>> 3 = 0x1e then 4
  else 0

/-- `is_overlong_sequence`, `3rdparty/utfcpp/utf8/core.h:131-148`. -/
def overlong (cp length : Nat) : Bool :=
  if cp < 0x80 then length ≠ 1
  else if cp < 0x800 then length ≠ 2
  else if cp < 0x10000 then length ≠ 3
  else false

/-- `is_trail`, `3rdparty/utfcpp/utf8/core.h:84-88`. -/
def isTrail (b : Byte) : Bool := b.toNat >>> 6 = 0x2

/-- The checks at the end of `validate_next`, `3rdparty/utfcpp/utf8/core.h:270-287`. -/
def cpChecked (cp length : Nat) (r : Bytes) : Option (Nat × Bytes) :=
  if cpValid cp then if overlong cp length then none else some (cp, r) else none

/-- `get_sequence_2`, `3rdparty/utfcpp/utf8/core.h:178-191`, after the first byte. -/
def utf8Seq2 (b0 : Byte) : Bytes → Option (Nat × Bytes)
  | b1 :: r =>
    if isTrail b1 then cpChecked (((b0.toNat <<< 6) &&& 0x7ff) + (b1.toNat &&& 0x3f)) 2 r else none
  | _ => none

/-- `get_sequence_3`, `3rdparty/utfcpp/utf8/core.h:193-210`. -/
def utf8Seq3 (b0 : Byte) : Bytes → Option (Nat × Bytes)
  | b1 :: b2 :: r =>
    if isTrail b1 && isTrail b2 then
      cpChecked (((b0.toNat <<< 12) &&& 0xffff) + ((b1.toNat <<< 6) &&& 0xfff) + (b2.toNat &&& 0x3f)) 3 r
    else none
  | _ => none

/-- `get_sequence_4`, `3rdparty/utfcpp/utf8/core.h:212-233`. -/
def utf8Seq4 (b0 : Byte) : Bytes → Option (Nat × Bytes)
  | b1 :: b2 :: b3 :: r =>
    if isTrail b1 && isTrail b2 && isTrail b3 then
      cpChecked (((b0.toNat <<< 18) &&& 0x1fffff) + ((b1.toNat <<< 12) &&& 0x3ffff) + ((b2.toNat <<< 6) &&& 0xfff) +
        (b3.toNat &&& 0x3f)) 4 r
    else none
  | _ => none

/-- `next`, `3rdparty/utfcpp/utf8/checked.h:133-151` with `validate_next`, `3rdparty/utfcpp/utf8/core.h:238-291`:
the code point and the rest, `none` for any of the exceptions. -/
def utf8Next : Bytes → Option (Nat × Bytes)
  | [] => none
  | b0 :: r =>
    if seqLength b0.toNat = 1 then cpChecked b0.toNat 1 r
    else if seqLength b0.toNat = 2 then utf8Seq2 b0 r
    else if seqLength b0.toNat = 3 then utf8Seq3 b0 r
    else if seqLength b0.toNat = 4 then utf8Seq4 b0 r
    else none

/-- `append`, `3rdparty/utfcpp/utf8/checked.h:66-91`, for a valid code point. -/
def utf8Append (cp : Nat) : Bytes :=
  if cp < 0x80 then [UInt8.ofNat cp]
  else if cp < 0x800 then [UInt8.ofNat ((cp >>> 6) ||| 0xc0), UInt8.ofNat ((cp &&& 0x3f) ||| 0x80)]
  else if cp < 0x10000 then
    [UInt8.ofNat ((cp >>> 12) ||| 0xe0), UInt8.ofNat (((cp >>> 6) &&& 0x3f) ||| 0x80), UInt8.ofNat ((cp &&& 0x3f) ||| 0x80)]
  else
    [UInt8.ofNat ((cp >>> 18) ||| 0xf0), UInt8.ofNat (((cp >>> 12) &&& 0x3f) ||| 0x80),
     UInt8.ofNat (((cp >>> 6) &&& 0x3f) ||| 0x80), UInt8.ofNat ((cp &&& 0x3f) ||| 0x80)]

/-- A loop over a text with `next`, such as `3rdparty/utfcpp/utf8/checked.h:240-247`, with the number of rounds
it may take. -/
def utf8Loop : Nat → Bytes → Option (List Nat)
  | _, [] => some []
  | 0, _ => none
  | f + 1, bs => match utf8Next bs with
    | none => none
    | some (cp, r) => (utf8Loop f r).map (cp :: ·)

/-- All code points of a text; each round takes at least one byte. -/
def utf8Decode (bs : Bytes) : Option (List Nat) := utf8Loop bs.length bs

/-- The code points appended one after the other. -/
def utf8Encode (cps : List Nat) : Bytes := cps.flatMap utf8Append

/-- What `utf8to16` writes for a code point, `3rdparty/utfcpp/utf8/checked.h:220-233`. -/
def utf16Append (cp : Nat) : List Nat :=
  if cp > 0xffff then [((cp >>> 10) + 0xd7c0) % 65536, ((cp &&& 0x3ff) + 0xdc00) % 65536] else [cp % 65536]

/-- `utf8to16`, `3rdparty/utfcpp/utf8/checked.h:220-233`. -/
def utf8To16 (bs : Bytes) : Option (List Nat) := (utf8Decode bs).map (·.flatMap utf16Append)

/-- `utf16to8` with the code points kept apart, `3rdparty/utfcpp/utf8/checked.h:194-218`: the offset makes the
sum wrap at 2^32.  `append` raises for what is no code point. -/
def utf16Decode : List Nat → Option (List Nat)
  | [] => some []
  | u :: r =>
    if 0xd800 ≤ u ∧ u ≤ 0xdbff then
      match r with
      | [] => none
      | t :: r =>
        if 0xdc00 ≤ t ∧ t ≤ 0xdfff then
          let cp := ((u <<< 10) + t + 0xfca02400) % 4294967296
          if cpValid cp then (utf16Decode r).map (cp :: ·) else none
        else none
    else if 0xdc00 ≤ u ∧ u ≤ 0xdfff then none
    else if cpValid u then (utf16Decode r).map (u :: ·) else none

/-- `utf16to8`, `3rdparty/utfcpp/utf8/checked.h:194-218`. -/
def utf16To8 (us : List Nat) : Option Bytes := (utf16Decode us).map utf8Encode

/-! ### Specification -/

namespace Spec

/-- A Unicode scalar value. -/
def IsScalar (cp : Nat) : Prop := cp < 0xD800 ∨ (0xDFFF < cp ∧ cp ≤ 0x10FFFF)

/-- The UTF-8 form of a scalar value, RFC 3629 section 3. -/
def utf8Of (cp : Nat) : List Nat :=
  if cp ≤ 0x7F then [cp]
  else if cp ≤ 0x7FF then [0xC0 + cp / 64, 0x80 + cp % 64]
  else if cp ≤ 0xFFFF then [0xE0 + cp / 4096, 0x80 + cp / 64 % 64, 0x80 + cp % 64]
  else [0xF0 + cp / 262144, 0x80 + cp / 4096 % 64, 0x80 + cp / 64 % 64, 0x80 + cp % 64]

/-- The UTF-16 form of a scalar value, RFC 2781 section 2.1. -/
def utf16Of (cp : Nat) : List Nat :=
  if cp < 0x10000 then [cp] else [0xD800 + (cp - 0x10000) / 1024, 0xDC00 + (cp - 0x10000) % 1024]

end Spec
open Spec

/-! ### Proofs -/

theorem cpValid_iff (cp : Nat) : cpValid cp = true ↔ IsScalar cp := by
  simp only [cpValid, IsScalar, Bool.and_eq_true, Bool.not_eq_true', decide_eq_true_eq, Bool.and_eq_false_iff, decide_eq_false_iff_not]
  omega

theorem or_c0 (x : Nat) (h : x < 32) : x ||| 0xc0 = 192 + x := by
  rw [Nat.or_comm, show (0xc0 : Nat) = 6 <<< 5 from rfl, or_shift _ _ 5 (by omega)]
  all_goals rfl
theorem or_80 (x : Nat) (h : x < 64) : x ||| 0x80 = 128 + x := by
  rw [Nat.or_comm, show (0x80 : Nat) = 2 <<< 6 from rfl, or_shift _ _ 6 (by omega)]
  all_goals rfl
theorem or_e0 (x : Nat) (h : x < 16) : x ||| 0xe0 = 224 + x := by
  rw [Nat.or_comm, show (0xe0 : Nat) = 14 <<< 4 from rfl, or_shift _ _ 4 (by omega)]
  all_goals rfl
theorem or_f0 (x : Nat) (h : x < 8) : x ||| 0xf0 = 240 + x := by
  rw [Nat.or_comm, show (0xf0 : Nat) = 30 <<< 3 from rfl, or_shift _ _ 3 (by omega)]
  all_goals rfl
theorem and_3f (n : Nat) : n &&& 0x3f = n % 64 := Nat.and_two_pow_sub_one_eq_mod n 6
theorem and_3ff (n : Nat) : n &&& 0x3ff = n % 1024 := Nat.and_two_pow_sub_one_eq_mod n 10
theorem and_7ff (n : Nat) : n &&& 0x7ff = n % 2048 := Nat.and_two_pow_sub_one_eq_mod n 11
theorem and_fff (n : Nat) : n &&& 0xfff = n % 4096 := Nat.and_two_pow_sub_one_eq_mod n 12
theorem and_ffff (n : Nat) : n &&& 0xffff = n % 65536 := Nat.and_two_pow_sub_one_eq_mod n 16
theorem and_3ffff (n : Nat) : n &&& 0x3ffff = n % 262144 := Nat.and_two_pow_sub_one_eq_mod n 18
theorem and_1fffff (n : Nat) : n &&& 0x1fffff = n % 2097152 := Nat.and_two_pow_sub_one_eq_mod n 21

theorem toNat_ofNat_lt {n : Nat} (h : n < 256) : (UInt8.ofNat n).toNat = n := by
  rw [UInt8.toNat_ofNat']; omega

/-- The bytes written are those of the standard. -/
theorem utf8Append_spec (cp : Nat) (h : cp ≤ 0x10FFFF) : (utf8Append cp).map UInt8.toNat = utf8Of cp := by
  simp only [utf8Append, utf8Of, and_3f, Nat.shiftRight_eq_div_pow, Nat.reducePow]
  by_cases h1 : cp < 0x80
  · rw [if_pos h1, if_pos (show cp ≤ 0x7F by omega)]
    simp only [List.map_cons, List.map_nil]
    rw [toNat_ofNat_lt (by omega)]
  · rw [if_neg h1, if_neg (show ¬ cp ≤ 0x7F by omega)]
    by_cases h2 : cp < 0x800
    · rw [if_pos h2, if_pos (show cp ≤ 0x7FF by omega)]
      simp only [List.map_cons, List.map_nil]
      rw [or_c0 _ (by omega), or_80 _ (by omega), toNat_ofNat_lt (by omega), toNat_ofNat_lt (by omega)]
    · rw [if_neg h2, if_neg (show ¬ cp ≤ 0x7FF by omega)]
      by_cases h3 : cp < 0x10000
      · rw [if_pos h3, if_pos (show cp ≤ 0xFFFF by omega)]
        simp only [List.map_cons, List.map_nil]
        rw [or_e0 _ (by omega), or_80 _ (by omega), or_80 _ (by omega), toNat_ofNat_lt (by omega),
          toNat_ofNat_lt (by omega), toNat_ofNat_lt (by omega)]
      · rw [if_neg h3, if_neg (show ¬ cp ≤ 0xFFFF by omega)]
        simp only [List.map_cons, List.map_nil]
        rw [or_f0 _ (by omega), or_80 _ (by omega), or_80 _ (by omega), or_80 _ (by omega), toNat_ofNat_lt (by omega),
          toNat_ofNat_lt (by omega), toNat_ofNat_lt (by omega), toNat_ofNat_lt (by omega)]

theorem isTrail_iff (b : Byte) : isTrail b = true ↔ 128 ≤ b.toNat ∧ b.toNat < 192 := by
  simp only [isTrail, Nat.shiftRight_eq_div_pow, decide_eq_true_eq]; omega

theorem seqLength_1 {n : Nat} (h : n < 128) : seqLength n = 1 := by simp [seqLength, h]
theorem seqLength_2 {n : Nat} (h1 : 192 ≤ n) (h2 : n < 224) : seqLength n = 2 := by
  simp only [seqLength, Nat.shiftRight_eq_div_pow, Nat.reducePow]
  rw [if_neg (by omega), if_pos (by omega)]
theorem seqLength_3 {n : Nat} (h1 : 224 ≤ n) (h2 : n < 240) : seqLength n = 3 := by
  simp only [seqLength, Nat.shiftRight_eq_div_pow, Nat.reducePow]
  rw [if_neg (by omega), if_neg (by omega), if_pos (by omega)]
theorem seqLength_4 {n : Nat} (h1 : 240 ≤ n) (h2 : n < 248) : seqLength n = 4 := by
  simp only [seqLength, Nat.shiftRight_eq_div_pow, Nat.reducePow]
  rw [if_neg (by omega), if_neg (by omega), if_neg (by omega), if_pos (by omega)]

theorem cpChecked_ok {cp n : Nat} {r : Bytes} (h : IsScalar cp) (ho : overlong cp n = false) :
    cpChecked cp n r = some (cp, r) := by
  rw [cpChecked, if_pos ((cpValid_iff cp).2 h), if_neg (by simp [ho])]

theorem next_1 {b0 : Byte} (h : b0.toNat < 128) (r : Bytes) : utf8Next (b0 :: r) = cpChecked b0.toNat 1 r := by
  rw [utf8Next, if_pos (seqLength_1 h)]
theorem next_2 {b0 : Byte} (h1 : 192 ≤ b0.toNat) (h2 : b0.toNat < 224) (r : Bytes) : utf8Next (b0 :: r) = utf8Seq2 b0 r := by
  rw [utf8Next, seqLength_2 h1 h2]; rfl
theorem next_3 {b0 : Byte} (h1 : 224 ≤ b0.toNat) (h2 : b0.toNat < 240) (r : Bytes) : utf8Next (b0 :: r) = utf8Seq3 b0 r := by
  rw [utf8Next, seqLength_3 h1 h2]; rfl
theorem next_4 {b0 : Byte} (h1 : 240 ≤ b0.toNat) (h2 : b0.toNat < 248) (r : Bytes) : utf8Next (b0 :: r) = utf8Seq4 b0 r := by
  rw [utf8Next, seqLength_4 h1 h2]; rfl

theorem overlong_1 {cp : Nat} (h : cp < 0x80) : overlong cp 1 = false := by simp [overlong, h]
theorem overlong_2 {cp : Nat} (h1 : 0x80 ≤ cp) (h2 : cp < 0x800) : overlong cp 2 = false := by
  rw [overlong, if_neg (show ¬ cp < 0x80 by omega), if_pos h2]; rfl
theorem overlong_3 {cp : Nat} (h1 : 0x800 ≤ cp) (h2 : cp < 0x10000) : overlong cp 3 = false := by
  rw [overlong, if_neg (show ¬ cp < 0x80 by omega), if_neg (show ¬ cp < 0x800 by omega), if_pos h2]; rfl
theorem overlong_4 {cp : Nat} (h1 : 0x10000 ≤ cp) : overlong cp 4 = false := by
  rw [overlong, if_neg (show ¬ cp < 0x80 by omega), if_neg (show ¬ cp < 0x800 by omega), if_neg (by omega)]

/-- Bytes with the values of the UTF-8 form of a scalar value are read as this value. -/
theorem utf8Next_of {cp : Nat} (h : IsScalar cp) {bs r : Bytes} (hb : bs.map UInt8.toNat = utf8Of cp) :
    utf8Next (bs ++ r) = some (cp, r) := by
  have hle : cp ≤ 0x10FFFF := by rcases h with h | h <;> omega
  by_cases h1 : cp ≤ 0x7F
  · rw [utf8Of, if_pos h1] at hb
    obtain ⟨b0, _, rfl, e0, hb⟩ := List.map_eq_cons_iff.1 hb
    cases List.map_eq_nil_iff.1 hb
    rw [List.cons_append, List.nil_append, next_1 (by omega), e0]
    exact cpChecked_ok h (overlong_1 (by omega))
  · rw [utf8Of, if_neg h1] at hb
    by_cases h2 : cp ≤ 0x7FF
    · rw [if_pos h2] at hb
      obtain ⟨b0, _, rfl, e0, hb⟩ := List.map_eq_cons_iff.1 hb
      obtain ⟨b1, _, rfl, e1, hb⟩ := List.map_eq_cons_iff.1 hb
      cases List.map_eq_nil_iff.1 hb
      rw [List.cons_append, List.cons_append, List.nil_append, next_2 (by omega) (by omega), utf8Seq2,
        if_pos ((isTrail_iff b1).2 (by omega)), and_7ff, and_3f, Nat.shiftLeft_eq]
      rw [show (b0.toNat * 2 ^ 6) % 2048 + b1.toNat % 64 = cp by omega]
      exact cpChecked_ok h (overlong_2 (by omega) (by omega))
    · rw [if_neg h2] at hb
      by_cases h3 : cp ≤ 0xFFFF
      · rw [if_pos h3] at hb
        obtain ⟨b0, _, rfl, e0, hb⟩ := List.map_eq_cons_iff.1 hb
        obtain ⟨b1, _, rfl, e1, hb⟩ := List.map_eq_cons_iff.1 hb
        obtain ⟨b2, _, rfl, e2, hb⟩ := List.map_eq_cons_iff.1 hb
        cases List.map_eq_nil_iff.1 hb
        rw [List.cons_append, List.cons_append, List.cons_append, List.nil_append, next_3 (by omega) (by omega),
          utf8Seq3, (isTrail_iff b1).2 (by omega), (isTrail_iff b2).2 (by omega)]
        simp only [Bool.and_self, if_true]
        rw [and_ffff, and_fff, and_3f, Nat.shiftLeft_eq, Nat.shiftLeft_eq]
        rw [show (b0.toNat * 2 ^ 12) % 65536 + (b1.toNat * 2 ^ 6) % 4096 + b2.toNat % 64 = cp by omega]
        exact cpChecked_ok h (overlong_3 (by omega) (by omega))
      · rw [if_neg h3] at hb
        obtain ⟨b0, _, rfl, e0, hb⟩ := List.map_eq_cons_iff.1 hb
        obtain ⟨b1, _, rfl, e1, hb⟩ := List.map_eq_cons_iff.1 hb
        obtain ⟨b2, _, rfl, e2, hb⟩ := List.map_eq_cons_iff.1 hb
        obtain ⟨b3, _, rfl, e3, hb⟩ := List.map_eq_cons_iff.1 hb
        cases List.map_eq_nil_iff.1 hb
        rw [List.cons_append, List.cons_append, List.cons_append, List.cons_append, List.nil_append,
          next_4 (by omega) (by omega), utf8Seq4, (isTrail_iff b1).2 (by omega), (isTrail_iff b2).2 (by omega),
          (isTrail_iff b3).2 (by omega)]
        simp only [Bool.and_self, if_true]
        rw [and_1fffff, and_3ffff, and_fff, and_3f, Nat.shiftLeft_eq, Nat.shiftLeft_eq, Nat.shiftLeft_eq]
        rw [show (b0.toNat * 2 ^ 18) % 2097152 + (b1.toNat * 2 ^ 12) % 262144 + (b2.toNat * 2 ^ 6) % 4096 +
          b3.toNat % 64 = cp by omega]
        exact cpChecked_ok h (overlong_4 (by omega))

theorem cpChecked_inv {cp n : Nat} {r : Bytes} {x : Nat × Bytes} (h : cpChecked cp n r = some x) :
    x = (cp, r) ∧ IsScalar cp ∧ overlong cp n = false := by
  rw [cpChecked] at h
  split at h
  · rename_i hv
    split at h
    · exact absurd h (by simp)
    · rename_i ho
      exact ⟨(Option.some.inj h).symm, (cpValid_iff cp).1 hv, by simpa using ho⟩
  · exact absurd h (by simp)

/-- What is read as a code point is its UTF-8 form: other sequences are refused. -/
theorem utf8Next_inv {bs r : Bytes} {cp : Nat} (h : utf8Next bs = some (cp, r)) :
    IsScalar cp ∧ ∃ p, bs = p ++ r ∧ p.map UInt8.toNat = utf8Of cp := by
  cases bs with
  | nil => simp [utf8Next] at h
  | cons b0 t =>
    have hb0 := b0.toNat_lt
    by_cases c1 : b0.toNat < 128
    · rw [next_1 c1] at h
      obtain ⟨e, hs, ho⟩ := cpChecked_inv h
      obtain ⟨rfl, rfl⟩ := Prod.mk.inj e
      exact ⟨hs, [b0], rfl, by rw [utf8Of, if_pos (by omega)]; rfl⟩
    · by_cases c2 : 192 ≤ b0.toNat ∧ b0.toNat < 224
      · rw [next_2 c2.1 c2.2, utf8Seq2.eq_def] at h
        split at h
        · rename_i b1 t
          split at h
          · rename_i t1
            rw [isTrail_iff] at t1
            obtain ⟨e, hs, ho⟩ := cpChecked_inv h
            obtain ⟨rfl, rfl⟩ := Prod.mk.inj e
            rw [and_7ff, and_3f, Nat.shiftLeft_eq] at ho hs ⊢
            have ev : (b0.toNat * 2 ^ 6) % 2048 + b1.toNat % 64 = 64 * (b0.toNat - 192) + (b1.toNat - 128) := by omega
            rw [ev] at ho hs ⊢
            refine ⟨hs, [b0, b1], rfl, ?_⟩
            simp only [overlong] at ho
            split at ho
            · simp at ho
            · rw [utf8Of, if_neg (by omega), if_pos (by omega)]
              simp only [List.map_cons, List.map_nil, List.cons.injEq, and_true]
              omega
          · exact absurd h (by simp)
        · exact absurd h (by simp)
      · by_cases c3 : 224 ≤ b0.toNat ∧ b0.toNat < 240
        · rw [next_3 c3.1 c3.2, utf8Seq3.eq_def] at h
          split at h
          · rename_i b1 b2 t
            split at h
            · rename_i t1
              rw [Bool.and_eq_true, isTrail_iff, isTrail_iff] at t1
              obtain ⟨e, hs, ho⟩ := cpChecked_inv h
              obtain ⟨rfl, rfl⟩ := Prod.mk.inj e
              rw [and_ffff, and_fff, and_3f, Nat.shiftLeft_eq, Nat.shiftLeft_eq] at ho hs ⊢
              have ev : (b0.toNat * 2 ^ 12) % 65536 + (b1.toNat * 2 ^ 6) % 4096 + b2.toNat % 64 =
                4096 * (b0.toNat - 224) + 64 * (b1.toNat - 128) + (b2.toNat - 128) := by omega
              rw [ev] at ho hs ⊢
              refine ⟨hs, [b0, b1, b2], rfl, ?_⟩
              simp only [overlong] at ho
              split at ho
              · simp at ho
              · split at ho
                · simp at ho
                · rw [utf8Of, if_neg (by omega), if_neg (by omega), if_pos (by omega)]
                  simp only [List.map_cons, List.map_nil, List.cons.injEq, and_true]
                  omega
            · exact absurd h (by simp)
          · exact absurd h (by simp)
        · by_cases c4 : 240 ≤ b0.toNat ∧ b0.toNat < 248
          · rw [next_4 c4.1 c4.2, utf8Seq4.eq_def] at h
            split at h
            · rename_i b1 b2 b3 t
              split at h
              · rename_i t1
                rw [Bool.and_eq_true, Bool.and_eq_true, isTrail_iff, isTrail_iff, isTrail_iff] at t1
                obtain ⟨e, hs, ho⟩ := cpChecked_inv h
                obtain ⟨rfl, rfl⟩ := Prod.mk.inj e
                rw [and_1fffff, and_3ffff, and_fff, and_3f, Nat.shiftLeft_eq, Nat.shiftLeft_eq, Nat.shiftLeft_eq] at ho hs ⊢
                have ev : (b0.toNat * 2 ^ 18) % 2097152 + (b1.toNat * 2 ^ 12) % 262144 + (b2.toNat * 2 ^ 6) % 4096 +
                  b3.toNat % 64 = 262144 * (b0.toNat - 240) + 4096 * (b1.toNat - 128) + 64 * (b2.toNat - 128) +
                  (b3.toNat - 128) := by omega
                rw [ev] at ho hs ⊢
                refine ⟨hs, [b0, b1, b2, b3], rfl, ?_⟩
                simp only [overlong] at ho
                split at ho
                · simp at ho
                · split at ho
                  · simp at ho
                  · split at ho
                    · simp at ho
                    · rw [utf8Of, if_neg (by omega), if_neg (by omega), if_neg (by omega)]
                      simp only [List.map_cons, List.map_nil, List.cons.injEq, and_true]
                      omega
              · exact absurd h (by simp)
            · exact absurd h (by simp)
          · exfalso
            have : seqLength b0.toNat = 0 := by
              simp only [seqLength, Nat.shiftRight_eq_div_pow, Nat.reducePow]
              rw [if_neg c1, if_neg (by omega), if_neg (by omega), if_neg (by omega)]
            rw [utf8Next, this] at h
            simp at h

theorem map_toNat_inj {a b : Bytes} (h : a.map UInt8.toNat = b.map UInt8.toNat) : a = b := by
  induction a generalizing b with
  | nil => cases b with
    | nil => rfl
    | cons => simp at h
  | cons x a ih => cases b with
    | nil => simp at h
    | cons y b =>
      simp only [List.map_cons, List.cons.injEq] at h
      rw [UInt8.toNat_inj.1 h.1, ih h.2]

theorem scalar_le {cp : Nat} (h : IsScalar cp) : cp ≤ 0x10FFFF := by rcases h with h | h <;> omega

theorem utf8Next_append {cp : Nat} (h : IsScalar cp) (r : Bytes) : utf8Next (utf8Append cp ++ r) = some (cp, r) :=
  utf8Next_of h (utf8Append_spec cp (scalar_le h))

theorem utf8Append_length (cp : Nat) : 0 < (utf8Append cp).length := by
  simp only [utf8Append]; repeat' split
  all_goals simp

theorem utf8Loop_encode : ∀ (cps : List Nat) (f : Nat), (∀ c ∈ cps, IsScalar c) → (utf8Encode cps).length ≤ f →
    utf8Loop f (utf8Encode cps) = some cps
  | [], f, _, _ => by cases f <;> rfl
  | c :: cps, f, hs, hf => by
    have hl := utf8Append_length c
    have e : utf8Encode (c :: cps) = utf8Append c ++ utf8Encode cps := by simp [utf8Encode]
    rw [e, List.length_append] at hf
    cases f with
    | zero => omega
    | succ f =>
      rw [e]
      have hn := utf8Next_append (hs c (by simp)) (utf8Encode cps)
      cases ha : utf8Append c ++ utf8Encode cps with
      | nil => rw [ha] at hn; simp [utf8Next] at hn
      | cons x xs =>
        rw [ha] at hn
        rw [utf8Loop, hn]
        · simp only
          rw [utf8Loop_encode cps f (fun c hc => hs c (by simp [hc])) (by omega)]; rfl
        · simp

/-- A text made of scalar values is read back. -/
theorem utf8_decode_encode (cps : List Nat) (h : ∀ c ∈ cps, IsScalar c) : utf8Decode (utf8Encode cps) = some cps :=
  utf8Loop_encode cps _ h (Nat.le_refl _)

theorem utf8Loop_inv : ∀ (f : Nat) (bs : Bytes) (cps : List Nat), utf8Loop f bs = some cps →
    (∀ c ∈ cps, IsScalar c) ∧ bs = utf8Encode cps
  | f, [], cps, h => by
    have : cps = [] := by cases f <;> (rw [utf8Loop] at h; simpa using h.symm)
    subst this
    exact ⟨by simp, rfl⟩
  | 0, b :: bs, cps, h => by simp [utf8Loop] at h
  | f + 1, b :: bs, cps, h => by
    rw [utf8Loop] at h
    · cases hn : utf8Next (b :: bs) with
      | none => rw [hn] at h; simp at h
      | some x =>
        obtain ⟨cp, r⟩ := x
        rw [hn] at h
        simp only at h
        cases hl : utf8Loop f r with
        | none => rw [hl] at h; simp at h
        | some cs =>
          rw [hl] at h
          simp only [Option.map_some, Option.some.injEq] at h
          subst h
          obtain ⟨g1, g2⟩ := utf8Loop_inv f r cs hl
          obtain ⟨s1, p, s2, s3⟩ := utf8Next_inv hn
          refine ⟨?_, ?_⟩
          · intro c hc
            rw [List.mem_cons] at hc
            rcases hc with rfl | hc
            · exact s1
            · exact g1 c hc
          · rw [s2, g2]
            have : p = utf8Append cp := map_toNat_inj (by rw [s3, utf8Append_spec cp (scalar_le s1)])
            simp [utf8Encode, this]
    · simp

/-- A text that is read is the UTF-8 form of what was read, and this is made of scalar values. -/
theorem utf8_encode_decode {bs : Bytes} {cps : List Nat} (h : utf8Decode bs = some cps) :
    (∀ c ∈ cps, IsScalar c) ∧ bs = utf8Encode cps := utf8Loop_inv _ bs cps h

theorem utf8Encode_append (a b : List Nat) : utf8Encode (a ++ b) = utf8Encode a ++ utf8Encode b := by
  simp [utf8Encode]

theorem utf16Append_spec (cp : Nat) (h : cp ≤ 0x10FFFF) : utf16Append cp = utf16Of cp := by
  simp only [utf16Append, utf16Of, and_3ff, Nat.shiftRight_eq_div_pow, Nat.reducePow]
  by_cases h1 : cp < 0x10000
  · rw [if_neg (by omega), if_pos h1]; simp only [List.cons.injEq, and_true]; omega
  · rw [if_pos (by omega), if_neg h1]; simp only [List.cons.injEq, and_true]; omega

theorem utf16Decode_of {cp : Nat} (h : IsScalar cp) (r : List Nat) :
    utf16Decode (utf16Of cp ++ r) = (utf16Decode r).map (cp :: ·) := by
  have hle := scalar_le h
  rw [utf16Of]
  split
  · rename_i h1
    rw [List.cons_append, List.nil_append, utf16Decode.eq_def]
    simp only
    rw [if_neg (by rcases h with h | h <;> omega), if_neg (by rcases h with h | h <;> omega), if_pos ((cpValid_iff cp).2 h)]
  · rename_i h1
    rw [List.cons_append, List.cons_append, List.nil_append, utf16Decode.eq_def]
    simp only
    have e : ((0xD800 + (cp - 0x10000) / 1024) <<< 10 + (0xDC00 + (cp - 0x10000) % 1024) + 0xfca02400) % 4294967296 = cp := by
      rw [Nat.shiftLeft_eq]; omega
    rw [if_pos (by omega), if_pos (by omega), e, if_pos ((cpValid_iff cp).2 h)]

/-- A text of scalar values is read back from UTF-16. -/
theorem utf16_decode_encode : ∀ (cps : List Nat), (∀ c ∈ cps, IsScalar c) →
    utf16Decode (cps.flatMap utf16Append) = some cps
  | [], _ => by simp [utf16Decode]
  | c :: cps, h => by
    have hc := h c (by simp)
    rw [List.flatMap_cons, utf16Append_spec c (scalar_le hc), utf16Decode_of hc,
      utf16_decode_encode cps (fun c hc => h c (by simp [hc]))]
    rfl

example : utf8Encode [0x41, 0xE9, 0x20AC, 0x1F600] = [0x41, 0xC3, 0xA9, 0xE2, 0x82, 0xAC, 0xF0, 0x9F, 0x98, 0x80] ∧
    utf8Decode [0x41, 0xC3, 0xA9, 0xE2, 0x82, 0xAC, 0xF0, 0x9F, 0x98, 0x80] = some [0x41, 0xE9, 0x20AC, 0x1F600] ∧
    utf8Decode [0xC0, 0x80] = none ∧ utf8Decode [0xED, 0xA0, 0x80] = none ∧ utf8Decode [0xE2, 0x82] = none ∧
    utf16Append 0x1F600 = [0xD83D, 0xDE00] ∧ utf16Decode [0xD83D, 0xDE00] = some [0x1F600] := by decide +kernel

end Pdfmm
