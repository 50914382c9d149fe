import Verif.Base.Basic
/-
Integers in big-endian byte order, the multiplication check and the number of bytes of a character code.
-/
set_option autoImplicit false
namespace Pdfmm

/-! ### Model -/

/-- `__builtin_bswap16`, used by `src/pdfmm/private/PdfDeclarationsPrivate.h:467-470`. -/
def byteSwap16 (n : Nat) : Nat := (n &&& 0xFF) <<< 8 ||| ((n >>> 8) &&& 0xFF)

/-- `__builtin_bswap32`, used by `src/pdfmm/private/PdfDeclarationsPrivate.h:472-475`. -/
def byteSwap32 (n : Nat) : Nat :=
  (n &&& 0xFF) <<< 24 ||| (((n >>> 8) &&& 0xFF) <<< 16 ||| (((n >>> 16) &&& 0xFF) <<< 8 ||| ((n >>> 24) &&& 0xFF)))

/-- `AS_BIG_ENDIAN`, `src/pdfmm/private/PdfDeclarationsPrivate.h:54-60`, for the byte order the code is compiled
for. -/
def asBigEndian16 (littleEndian : Bool) (n : Nat) : Nat := if littleEndian then byteSwap16 n else n

/-- `AS_BIG_ENDIAN` of 32 bits, `src/pdfmm/private/PdfDeclarationsPrivate.h:54-60`. -/
def asBigEndian32 (littleEndian : Bool) (n : Nat) : Nat := if littleEndian then byteSwap32 n else n

/-- `static_cast<char>((value >> k) & 0xFF)`. -/
def byteOf (n k : Nat) : Byte := UInt8.ofNat ((n >>> k) &&& 0xFF)

/-- `WriteUInt32BE(char*, uint32_t)`, `src/pdfmm/private/PdfDeclarationsPrivate.cpp:1102-1109`; an `int32_t`
(lines 1111-1118) is written as its 32 bits. -/
def writeU32BE (le : Bool) (value : Nat) : Bytes :=
  let v := asBigEndian32 le value
  [byteOf v 0, byteOf v 8, byteOf v 16, byteOf v 24]

/-- `WriteUInt16BE(char*, uint16_t)`, `src/pdfmm/private/PdfDeclarationsPrivate.cpp:1120-1125`. -/
def writeU16BE (le : Bool) (value : Nat) : Bytes :=
  let v := asBigEndian16 le value
  [byteOf v 0, byteOf v 8]

/-- `ReadUInt32BE(const char*, uint32_t&)`, `src/pdfmm/private/PdfDeclarationsPrivate.cpp:1162-1170`. -/
def readU32BE (le : Bool) (b0 b1 b2 b3 : Byte) : Nat :=
  asBigEndian32 le (b0.toNat <<< 0 ||| (b1.toNat <<< 8 ||| (b2.toNat <<< 16 ||| b3.toNat <<< 24)))

/-- `ReadUInt16BE(const char*, uint16_t&)`, `src/pdfmm/private/PdfDeclarationsPrivate.cpp:1182-1188`. -/
def readU16BE (le : Bool) (b0 b1 : Byte) : Nat :=
  asBigEndian16 le (b0.toNat <<< 0 ||| b1.toNat <<< 8)

/-- Conversion to an unsigned type of `n` bits. -/
def toUnsigned (n : Nat) (v : Int) : Nat := (v % (2 ^ n : Nat)).toNat

/-- Conversion to a signed type of `n` bits (two's complement). -/
def toSigned (n : Nat) (v : Nat) : Int := if v < 2 ^ (n - 1) then v else (v : Int) - (2 ^ n : Nat)

/-- `WriteInt32BE`, `src/pdfmm/private/PdfDeclarationsPrivate.cpp:1111-1118`. -/
def writeI32BE (le : Bool) (v : Int) : Bytes := writeU32BE le (toUnsigned 32 v)

/-- `WriteInt16BE`, `src/pdfmm/private/PdfDeclarationsPrivate.cpp:1127-1132`. -/
def writeI16BE (le : Bool) (v : Int) : Bytes := writeU16BE le (toUnsigned 16 v)

/-- `ReadInt32BE`, `src/pdfmm/private/PdfDeclarationsPrivate.cpp:1172-1180`. -/
def readI32BE (le : Bool) (b0 b1 b2 b3 : Byte) : Int := toSigned 32 (readU32BE le b0 b1 b2 b3)

/-- `ReadInt16BE`, `src/pdfmm/private/PdfDeclarationsPrivate.cpp:1190-1196`. -/
def readI16BE (le : Bool) (b0 b1 : Byte) : Int := toSigned 16 (readU16BE le b0 b1)

/-- `DoesMultiplicationOverflow`, `src/pdfmm/private/PdfDeclarationsPrivate.cpp:1011-1035`, for `size_t` of
`2 * h` bits (`h` is 32 or 16). -/
def multOverflow (h op1 op2 : Nat) : Bool :=
  (op1 ≥ 1 <<< h || op2 ≥ 1 <<< h) && op1 > 0 && (2 ^ (2 * h) - 1) / op1 < op2

/-! ### Specification -/

/-- What a sequence of bytes stands for in big-endian order. -/
def Spec.bigEndian (bs : Bytes) : Nat := bs.foldl (fun a b => 256 * a + b.toNat) 0

open Spec

/-! ### Proofs -/

theorem or_shift (a b k : Nat) (hb : b < 2 ^ k) : a <<< k ||| b = 2 ^ k * a + b := by
  rw [← Nat.shiftLeft_add_eq_or_of_lt hb, Nat.shiftLeft_eq, Nat.mul_comm]

theorem and_255 (n : Nat) : n &&& 0xFF = n % 256 := Nat.and_two_pow_sub_one_eq_mod n 8

theorem byteSwap16_eq (n : Nat) : byteSwap16 n = 256 * (n % 256) + n / 256 % 256 := by
  simp only [byteSwap16, and_255, Nat.shiftRight_eq_div_pow, Nat.reducePow]
  rw [or_shift _ _ 8 (by omega)]

theorem byteSwap32_eq (n : Nat) : byteSwap32 n = 16777216 * (n % 256) + 65536 * (n / 256 % 256) +
    256 * (n / 65536 % 256) + n / 16777216 % 256 := by
  simp only [byteSwap32, and_255, Nat.shiftRight_eq_div_pow, Nat.reducePow]
  rw [or_shift _ _ 8 (by omega), or_shift _ _ 16 (by omega), or_shift _ _ 24 (by omega)]
  omega

theorem byteOf_toNat (n k : Nat) : (byteOf n k).toNat = n / 2 ^ k % 256 := by
  simp only [byteOf, and_255, Nat.shiftRight_eq_div_pow, UInt8.toNat_ofNat']
  omega

theorem joined16 (b0 b1 : Byte) : (b0.toNat <<< 0 ||| b1.toNat <<< 8) = b0.toNat + 256 * b1.toNat := by
  have h0 := b0.toNat_lt
  rw [Nat.or_comm, or_shift _ _ 8 (by simpa using h0)]
  simp; omega

theorem joined32 (b0 b1 b2 b3 : Byte) :
    (b0.toNat <<< 0 ||| (b1.toNat <<< 8 ||| (b2.toNat <<< 16 ||| b3.toNat <<< 24))) =
      b0.toNat + 256 * b1.toNat + 65536 * b2.toNat + 16777216 * b3.toNat := by
  have h0 := b0.toNat_lt
  have h1 := b1.toNat_lt
  have h2 := b2.toNat_lt
  have e2 : b2.toNat <<< 16 = 65536 * b2.toNat := by rw [Nat.shiftLeft_eq]; omega
  have e1 : b1.toNat <<< 8 = 256 * b1.toNat := by rw [Nat.shiftLeft_eq]; omega
  rw [Nat.or_comm (b2.toNat <<< 16), or_shift _ _ 24 (by rw [e2]; omega), e2, Nat.or_comm (b1.toNat <<< 8),
    show (2 ^ 24 * b3.toNat + 65536 * b2.toNat) = (256 * b3.toNat + b2.toNat) <<< 16 by rw [Nat.shiftLeft_eq]; omega,
    or_shift _ _ 16 (by rw [e1]; omega), e1, Nat.or_comm,
    show (2 ^ 16 * (256 * b3.toNat + b2.toNat) + 256 * b1.toNat) =
      (65536 * b3.toNat + 256 * b2.toNat + b1.toNat) <<< 8 by rw [Nat.shiftLeft_eq]; omega,
    or_shift _ _ 8 (by rw [Nat.shiftLeft_zero]; omega)]
  rw [Nat.shiftLeft_zero]; omega

theorem bigEndian4 (b0 b1 b2 b3 : Byte) : bigEndian [b0, b1, b2, b3] =
    16777216 * b0.toNat + 65536 * b1.toNat + 256 * b2.toNat + b3.toNat := by
  simp only [bigEndian, List.foldl_cons, List.foldl_nil]; omega

theorem bigEndian2 (b0 b1 : Byte) : bigEndian [b0, b1] = 256 * b0.toNat + b1.toNat := by
  simp only [bigEndian, List.foldl_cons, List.foldl_nil]; omega

theorem digits4 (v : Nat) (hv : v < 4294967296) : ∃ a b c d, a < 256 ∧ b < 256 ∧ c < 256 ∧ d < 256 ∧
    v = a + 256 * b + 65536 * c + 16777216 * d :=
  ⟨v % 256, v / 256 % 256, v / 65536 % 256, v / 16777216 % 256, by omega, by omega, by omega, by omega, by omega⟩

theorem split4 {a b c d : Nat} (ha : a < 256) (hb : b < 256) (hc : c < 256) (hd : d < 256) :
    (a + 256 * b + 65536 * c + 16777216 * d) % 256 = a ∧
    (a + 256 * b + 65536 * c + 16777216 * d) / 256 % 256 = b ∧
    (a + 256 * b + 65536 * c + 16777216 * d) / 65536 % 256 = c ∧
    (a + 256 * b + 65536 * c + 16777216 * d) / 16777216 % 256 = d := by omega

theorem swap4 {a b c d : Nat} (ha : a < 256) (hb : b < 256) (hc : c < 256) (hd : d < 256) :
    byteSwap32 (a + 256 * b + 65536 * c + 16777216 * d) = d + 256 * c + 65536 * b + 16777216 * a := by
  obtain ⟨e1, e2, e3, e4⟩ := split4 ha hb hc hd
  rw [byteSwap32_eq, e1, e2, e3, e4]; omega

theorem digits2 (v : Nat) (hv : v < 65536) : ∃ a b, a < 256 ∧ b < 256 ∧ v = a + 256 * b :=
  ⟨v % 256, v / 256, by omega, by omega, by omega⟩

theorem split2 {a b : Nat} (ha : a < 256) (hb : b < 256) :
    (a + 256 * b) % 256 = a ∧ (a + 256 * b) / 256 % 256 = b := by omega

theorem swap2 {a b : Nat} (ha : a < 256) (hb : b < 256) : byteSwap16 (a + 256 * b) = b + 256 * a := by
  obtain ⟨e1, e2⟩ := split2 ha hb
  rw [byteSwap16_eq, e1, e2]; omega

/-- Reading on a machine of little-endian order. -/
theorem C65_read_unsigned (b0 b1 b2 b3 : Byte) :
    readU32BE true b0 b1 b2 b3 = bigEndian [b0, b1, b2, b3] ∧ readU16BE true b0 b1 = bigEndian [b0, b1] := by
  have h0 := b0.toNat_lt
  have h1 := b1.toNat_lt
  have h2 := b2.toNat_lt
  have h3 := b3.toNat_lt
  constructor
  · simp only [readU32BE, asBigEndian32, if_true, joined32, swap4 h0 h1 h2 h3, bigEndian4]; omega
  · simp only [readU16BE, asBigEndian16, if_true, joined16, swap2 h0 h1, bigEndian2]; omega

/-- Writing on a machine of little-endian order. -/
theorem C65_write_unsigned (v : Nat) :
    (v < 4294967296 → (writeU32BE true v).length = 4 ∧ bigEndian (writeU32BE true v) = v) ∧
    (v < 65536 → (writeU16BE true v).length = 2 ∧ bigEndian (writeU16BE true v) = v) := by
  constructor
  · intro hv
    refine ⟨rfl, ?_⟩
    obtain ⟨a, b, c, d, ha, hb, hc, hd, rfl⟩ := digits4 v hv
    simp only [writeU32BE, bigEndian4, byteOf_toNat, asBigEndian32, if_true, swap4 ha hb hc hd, Nat.reducePow,
      Nat.div_one]
    obtain ⟨e1, e2, e3, e4⟩ := split4 hd hc hb ha
    rw [e1, e2, e3, e4]; omega
  · intro hv
    refine ⟨rfl, ?_⟩
    obtain ⟨a, b, ha, hb, rfl⟩ := digits2 v hv
    simp only [writeU16BE, bigEndian2, byteOf_toNat, asBigEndian16, if_true, swap2 ha hb, Nat.reducePow, Nat.div_one]
    obtain ⟨e1, e2⟩ := split2 hb ha
    rw [e1, e2]; omega

theorem toSigned_toUnsigned (n : Nat) (hn : 0 < n) (v : Int) (h1 : -(2 ^ (n - 1) : Nat) ≤ v) (h2 : v < (2 ^ (n - 1) : Nat)) :
    toSigned n (toUnsigned n v) = v ∧ toUnsigned n v < 2 ^ n := by
  have e : 2 ^ n = 2 * 2 ^ (n - 1) := by
    conv => lhs; rw [show n = n - 1 + 1 by omega]
    rw [Nat.pow_succ]; omega
  simp only [toSigned, toUnsigned, e]
  generalize 2 ^ (n - 1) = m at *
  by_cases hv : 0 ≤ v
  · rw [Int.emod_eq_of_lt hv (by omega)]
    rw [if_pos (by omega)]; omega
  · have : v % ((2 * m : Nat) : Int) = v + (2 * m : Nat) := by
      rw [← Int.add_emod_right, Int.emod_eq_of_lt (by omega) (by omega)]
    rw [this, if_neg (by omega)]; omega

theorem readU32_writeU32 (le : Bool) (v : Nat) (hv : v < 4294967296) : ∃ b0 b1 b2 b3,
    writeU32BE le v = [b0, b1, b2, b3] ∧ readU32BE le b0 b1 b2 b3 = v := by
  refine ⟨_, _, _, _, rfl, ?_⟩
  rw [readU32BE, joined32]
  simp only [byteOf_toNat, Nat.reducePow, Nat.div_one]
  obtain ⟨a, b, c, d, ha, hb, hc, hd, rfl⟩ := digits4 v hv
  cases le
  · simp only [asBigEndian32, Bool.false_eq_true, if_false]
    obtain ⟨e1, e2, e3, e4⟩ := split4 ha hb hc hd
    rw [e1, e2, e3, e4]
  · simp only [asBigEndian32, if_true, swap4 ha hb hc hd]
    obtain ⟨e1, e2, e3, e4⟩ := split4 hd hc hb ha
    rw [e1, e2, e3, e4, swap4 hd hc hb ha]

theorem readU16_writeU16 (le : Bool) (v : Nat) (hv : v < 65536) : ∃ b0 b1,
    writeU16BE le v = [b0, b1] ∧ readU16BE le b0 b1 = v := by
  refine ⟨_, _, rfl, ?_⟩
  rw [readU16BE, joined16]
  simp only [byteOf_toNat, Nat.reducePow, Nat.div_one]
  obtain ⟨a, b, ha, hb, rfl⟩ := digits2 v hv
  cases le
  · simp only [asBigEndian16, Bool.false_eq_true, if_false]
    obtain ⟨e1, e2⟩ := split2 ha hb
    rw [e1, e2]
  · simp only [asBigEndian16, if_true, swap2 ha hb]
    obtain ⟨e1, e2⟩ := split2 hb ha
    rw [e1, e2, swap2 hb ha]

theorem byte_eq {a b : Byte} (h : a.toNat = b.toNat) : a = b := UInt8.toNat_inj.1 h

theorem writeU32_readU32 (le : Bool) (b0 b1 b2 b3 : Byte) :
    writeU32BE le (readU32BE le b0 b1 b2 b3) = [b0, b1, b2, b3] := by
  have h0 := b0.toNat_lt
  have h1 := b1.toNat_lt
  have h2 := b2.toNat_lt
  have h3 := b3.toNat_lt
  have key : ∀ (m : Nat), m = b0.toNat + 256 * b1.toNat + 65536 * b2.toNat + 16777216 * b3.toNat →
      [byteOf m 0, byteOf m 8, byteOf m 16, byteOf m 24] = [b0, b1, b2, b3] := by
    intro m hm
    rw [byte_eq (a := byteOf m 0) (b := b0) (by rw [byteOf_toNat]; simp only [Nat.reducePow]; omega),
      byte_eq (a := byteOf m 8) (b := b1) (by rw [byteOf_toNat]; simp only [Nat.reducePow]; omega),
      byte_eq (a := byteOf m 16) (b := b2) (by rw [byteOf_toNat]; simp only [Nat.reducePow]; omega),
      byte_eq (a := byteOf m 24) (b := b3) (by rw [byteOf_toNat]; simp only [Nat.reducePow]; omega)]
  simp only [writeU32BE, readU32BE, joined32]
  apply key
  cases le
  · simp only [asBigEndian32, Bool.false_eq_true, if_false]
  · simp only [asBigEndian32, if_true, swap4 h0 h1 h2 h3, swap4 h3 h2 h1 h0]

theorem writeU16_readU16 (le : Bool) (b0 b1 : Byte) : writeU16BE le (readU16BE le b0 b1) = [b0, b1] := by
  have h0 := b0.toNat_lt
  have h1 := b1.toNat_lt
  have key : ∀ (m : Nat), m = b0.toNat + 256 * b1.toNat → [byteOf m 0, byteOf m 8] = [b0, b1] := by
    intro m hm
    rw [byte_eq (a := byteOf m 0) (b := b0) (by rw [byteOf_toNat]; simp only [Nat.reducePow]; omega),
      byte_eq (a := byteOf m 8) (b := b1) (by rw [byteOf_toNat]; simp only [Nat.reducePow]; omega)]
  simp only [writeU16BE, readU16BE, joined16]
  apply key
  cases le
  · simp only [asBigEndian16, Bool.false_eq_true, if_false]
  · simp only [asBigEndian16, if_true, swap2 h0 h1, swap2 h1 h0]

/-- **C65.** Integers written are read back, and bytes read are written back, signed or unsigned, of 16 or 32
bits, whatever the byte order of the machine. -/
theorem C65_round_trip (le : Bool) :
    (∀ v, v < 4294967296 → ∃ b0 b1 b2 b3, writeU32BE le v = [b0, b1, b2, b3] ∧ readU32BE le b0 b1 b2 b3 = v) ∧
    (∀ v, v < 65536 → ∃ b0 b1, writeU16BE le v = [b0, b1] ∧ readU16BE le b0 b1 = v) ∧
    (∀ v : Int, -2147483648 ≤ v → v < 2147483648 →
      ∃ b0 b1 b2 b3, writeI32BE le v = [b0, b1, b2, b3] ∧ readI32BE le b0 b1 b2 b3 = v) ∧
    (∀ v : Int, -32768 ≤ v → v < 32768 → ∃ b0 b1, writeI16BE le v = [b0, b1] ∧ readI16BE le b0 b1 = v) ∧
    (∀ b0 b1 b2 b3, writeU32BE le (readU32BE le b0 b1 b2 b3) = [b0, b1, b2, b3]) ∧
    (∀ b0 b1, writeU16BE le (readU16BE le b0 b1) = [b0, b1]) := by
  refine ⟨readU32_writeU32 le, readU16_writeU16 le, ?_, ?_, writeU32_readU32 le, writeU16_readU16 le⟩
  · intro v h1 h2
    obtain ⟨g1, g2⟩ := toSigned_toUnsigned 32 (by omega) v h1 h2
    obtain ⟨b0, b1, b2, b3, e1, e2⟩ := readU32_writeU32 le _ g2
    exact ⟨b0, b1, b2, b3, e1, by rw [readI32BE, e2, g1]⟩
  · intro v h1 h2
    obtain ⟨g1, g2⟩ := toSigned_toUnsigned 16 (by omega) v h1 h2
    obtain ⟨b0, b1, e1, e2⟩ := readU16_writeU16 le _ g2
    exact ⟨b0, b1, e1, by rw [readI16BE, e2, g1]⟩

/-- On a machine of big-endian order the bytes are in little-endian order: nothing is swapped there although
bytes are taken from the value by shifts, which do not depend on the machine. -/
theorem C65_big_endian_host_false (b0 b1 b2 b3 : Byte) :
    readU32BE false b0 b1 b2 b3 = bigEndian [b3, b2, b1, b0] ∧ readU16BE false b0 b1 = bigEndian [b1, b0] := by
  constructor
  · simp only [readU32BE, asBigEndian32, Bool.false_eq_true, if_false, joined32, bigEndian4]; omega
  · simp only [readU16BE, asBigEndian16, Bool.false_eq_true, if_false, joined16, bigEndian2]; omega

example : writeU32BE true 0x01020304 = [1, 2, 3, 4] ∧ writeI16BE true (-2) = [0xFF, 0xFE] ∧
    readI32BE true 0xFF 0xFF 0xFF 0x00 = -256 ∧ writeU32BE false 0x01020304 = [4, 3, 2, 1] := by decide +kernel

/-- **C66.** The check is exact, for `size_t` of 64 and of 32 bits. -/
theorem C66_exact (h a b : Nat) (ha : a < 2 ^ (2 * h)) (hb : b < 2 ^ (2 * h)) :
    multOverflow h a b = true ↔ 2 ^ (2 * h) ≤ a * b := by
  have hp : 0 < 2 ^ h := Nat.two_pow_pos h
  have e : 2 ^ (2 * h) = 2 ^ h * 2 ^ h := by rw [Nat.two_mul, Nat.pow_add]
  have hs : 1 <<< h = 2 ^ h := by rw [Nat.shiftLeft_eq]; omega
  simp only [multOverflow, hs, Bool.and_eq_true, Bool.or_eq_true, decide_eq_true_eq]
  constructor
  · rintro ⟨⟨-, h2⟩, h3⟩
    rw [Nat.div_lt_iff_lt_mul h2] at h3
    have := Nat.mul_comm a b
    omega
  · intro hm
    have h2 : 0 < a := by
      rcases Nat.eq_zero_or_pos a with h0 | h0
      · subst h0; rw [Nat.zero_mul] at hm; have := Nat.two_pow_pos (2 * h); omega
      · exact h0
    refine ⟨⟨?_, h2⟩, ?_⟩
    · by_cases h3 : 2 ^ h ≤ a
      · exact Or.inl h3
      · right
        by_cases h4 : 2 ^ h ≤ b
        · exact h4
        · exfalso
          have : a * b < 2 ^ h * 2 ^ h := Nat.mul_lt_mul'' (by omega) (by omega)
          omega
    · rw [Nat.div_lt_iff_lt_mul h2, Nat.mul_comm b a]
      have := Nat.two_pow_pos (2 * h)
      omega

example : multOverflow 32 4294967296 4294967296 = true ∧ multOverflow 32 4294967296 4294967295 = false ∧
    multOverflow 32 0 18446744073709551615 = false := by decide +kernel

end Pdfmm
