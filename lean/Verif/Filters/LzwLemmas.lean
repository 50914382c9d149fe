import Verif.Filters.LzwModel
import Verif.Filters.Spec
/- Helper lemmas for the LZW filter. -/
namespace Pdfmm
open Codec Spec

/-! ### Bits -/

theorem natBits_length (w c : Nat) : (natBits w c).length = w := by
  induction w with
  | zero => rfl
  | succ w ih => simp [natBits, ih]

theorem natBits_add (w r c : Nat) : natBits (w + r) c = natBits w (c >>> r) ++ natBits r c := by
  induction w with
  | zero => simp [natBits]
  | succ w ih =>
    have : w + 1 + r = (w + r) + 1 := by omega
    rw [this]
    simp only [natBits, List.cons_append, ih, Nat.testBit_shiftRight]
    rw [Nat.add_comm r w]

theorem natBits_congr (w a b : Nat) (h : a % 2 ^ w = b % 2 ^ w) : natBits w a = natBits w b := by
  induction w with
  | zero => rfl
  | succ w ih =>
    simp only [natBits]
    have h1 : a.testBit w = b.testBit w := by
      have ha := Nat.testBit_mod_two_pow a (w + 1) w
      have hb := Nat.testBit_mod_two_pow b (w + 1) w
      rw [h] at ha
      rw [ha] at hb
      simpa using hb
    have h2 : a % 2 ^ w = b % 2 ^ w := by
      have ha : a % 2 ^ (w + 1) % 2 ^ w = a % 2 ^ w := Nat.mod_mod_of_dvd _ (Nat.pow_dvd_pow 2 (by omega))
      have hb : b % 2 ^ (w + 1) % 2 ^ w = b % 2 ^ w := Nat.mod_mod_of_dvd _ (Nat.pow_dvd_pow 2 (by omega))
      rw [← ha, ← hb, h]
    rw [h1, ih h2]

/-- Value of a bit list, most significant first. -/
def bitsVal : List Bool → Nat
  | [] => 0
  | b :: bs => b.toNat * 2 ^ bs.length + bitsVal bs

theorem bitsVal_natBits (w c : Nat) : bitsVal (natBits w c) = c % 2 ^ w := by
  induction w with
  | zero => simp [natBits, bitsVal, Nat.mod_one]
  | succ w ih =>
    simp only [natBits, bitsVal, natBits_length, ih]
    have h := Nat.mod_pow_succ (x := c) (b := 2) (k := w)
    rw [h, Nat.add_comm, Nat.mul_comm]
    congr 2
    rw [Nat.testBit_eq_decide_div_mod_eq]
    rcases Nat.mod_two_eq_zero_or_one (c / 2 ^ w) with h0 | h0 <;> rw [h0] <;> rfl

theorem mask_eq (k m : Nat) (h : lzwMasks[k]? = some m) : m = 2 ^ (9 + k) - 1 := by
  match k with
  | 0 => simp [lzwMasks] at h; omega
  | 1 => simp [lzwMasks] at h; omega
  | 2 => simp [lzwMasks] at h; omega
  | 3 => simp [lzwMasks] at h; omega
  | n + 4 => simp [lzwMasks] at h

/-! ### Invariant -/

/-- Table well-formedness. -/
structure LzwInv (st : LzwState) : Prop where
  base : ∀ i, i < 256 → st.table[i]? = some [UInt8.ofNat i]
  len : 257 ≤ st.table.length
  nonempty : ∀ i d, i ≠ 256 → st.table[i]? = some d → d ≠ []
  maskLe : st.mask = (if 511 ≤ st.table.length then 1 else 0) + (if 1023 ≤ st.table.length then 1 else 0)
    + (if 2047 ≤ st.table.length then 1 else 0)
  codeLen : st.codeLen = 9 + st.mask

theorem LzwInv.mask3 {st : LzwState} (h : LzwInv st) : st.mask ≤ 3 := by
  rw [h.maskLe]; split <;> split <;> split <;> omega

theorem lzwInitTable_length : lzwInitTable.length = 257 := by simp [lzwInitTable]

theorem lzwInitTable_get (i : Nat) (h : i < 256) : lzwInitTable[i]? = some [UInt8.ofNat i] := by
  simp [lzwInitTable, List.getElem?_append, h]

theorem lzwInv_init (c : Byte) (f : Bool) : LzwInv ⟨lzwInitTable, 0, 9, c, f⟩ where
  base := lzwInitTable_get
  len := by simp [lzwInitTable_length]
  nonempty := by
    intro i d hi hd
    have hlt : i < 257 := by
      have := (List.getElem?_eq_some_iff.mp hd).1
      simpa [lzwInitTable_length] using this
    have : i < 256 := by omega
    simp only at hd
    rw [lzwInitTable_get i this] at hd
    cases hd; simp
  maskLe := by simp [lzwInitTable_length]
  codeLen := rfl

/-- Pushing a non-empty entry with the matching width update keeps the invariant. -/
theorem lzwInv_push (st : LzwState) (e : Bytes) (c : Byte) (h : LzwInv st) (he : e ≠ []) :
    LzwInv { st with
      table := st.table ++ [e]
      character := c
      codeLen := if (st.table ++ [e]).length = 511 ∨ (st.table ++ [e]).length = 1023 ∨
        (st.table ++ [e]).length = 2047 then st.codeLen + 1 else st.codeLen
      mask := if (st.table ++ [e]).length = 511 ∨ (st.table ++ [e]).length = 1023 ∨
        (st.table ++ [e]).length = 2047 then st.mask + 1 else st.mask } where
  base := by
    intro i hi
    have hl := h.len
    show (st.table ++ [e])[i]? = _
    rw [List.getElem?_append_left (by omega)]
    exact h.base i hi
  len := by
    have hl := h.len
    simp; omega
  nonempty := by
    intro i d hi hd
    have hd' : (st.table ++ [e])[i]? = some d := hd
    rw [List.getElem?_append] at hd'
    split at hd'
    · exact h.nonempty i d hi hd'
    · rcases Nat.eq_zero_or_pos (i - st.table.length) with h0 | h0
      · rw [h0] at hd'; simp at hd'; exact hd' ▸ he
      · obtain ⟨k, hk⟩ : ∃ k, i - st.table.length = k + 1 := ⟨i - st.table.length - 1, by omega⟩
        rw [hk] at hd'; simp at hd'
  maskLe := by
    have hm := h.maskLe
    have hl := h.len
    simp only [List.length_append, List.length_cons, List.length_nil]
    generalize st.table.length = n at *
    rw [hm]
    split <;> split <;> split <;> split <;> split <;> split <;> split <;> omega
  codeLen := by
    have hc := h.codeLen
    simp only
    split <;> omega

/-- One code: from an invariant state (and `old` not the clear code) the outcome is a defined state that
again satisfies the invariant, end of data, or `ValueOutOfRange`. -/
theorem lzwCode_cases (st : LzwState) (old code : Nat) (h : LzwInv st) (ho : old ≠ 256) :
    lzwCode st old code = raise .ValueOutOfRange ∨ lzwCode st old code = .ok none ∨
    ∃ st' old' o, lzwCode st old code = .ok (some (st', old', o)) ∧ LzwInv st' ∧ old' ≠ 256 ∧
      st'.first = st.first := by
  unfold lzwCode
  split
  · exact Or.inr (Or.inr ⟨_, _, _, rfl, lzwInv_init st.character st.first, ho, rfl⟩)
  · next hc =>
    split
    · exact Or.inr (Or.inl rfl)
    · next hc' =>
      cases hd : st.table[code]? with
      | some d =>
        simp only
        have hne := h.nonempty code d hc hd
        cases d with
        | nil => exact absurd rfl hne
        | cons c ds =>
          refine Or.inr (Or.inr ⟨_, _, _, rfl, ?_, hc, rfl⟩)
          exact lzwInv_push st _ c h (by simp)
      | none =>
        simp only
        cases hd' : st.table[old]? with
        | none => exact Or.inl rfl
        | some d =>
          simp only
          have hne := h.nonempty old d ho hd'
          cases d with
          | nil => exact absurd rfl hne
          | cons c ds =>
            refine Or.inr (Or.inr ⟨_, _, _, rfl, ?_, hc, rfl⟩)
            exact lzwInv_push st _ c h (by simp)

/-! ### The decoder as a machine on bits -/

/-- Code-by-code decoding of a bit list. -/
def lzwMachine (st : LzwState) (old : Nat) (bits : List Bool) : Res (LzwState × List Bytes) :=
  if h : 0 < st.codeLen ∧ st.codeLen ≤ bits.length then
    match lzwCode st old (bitsVal (bits.take st.codeLen)) with
    | .error e => .error e
    | .ok none => .ok (st, [])
    | .ok (some (st', old', o)) =>
      match lzwMachine st' old' (bits.drop st.codeLen) with
      | .error e => .error e
      | .ok (st'', o') => .ok (st'', o ++ o')
  else .ok (st, [])
termination_by bits.length
decreasing_by simp; omega

theorem lzwMachine_short (st : LzwState) (old : Nat) (bits : List Bool) (h : bits.length < st.codeLen) :
    lzwMachine st old bits = .ok (st, []) := by
  rw [lzwMachine, dif_neg (by omega)]

theorem lzwMachine_code (st : LzwState) (old w c : Nat) (rest : List Bool)
    (h0 : 0 < st.codeLen) (hw : w = st.codeLen) (hc : c < 2 ^ w) :
    lzwMachine st old (natBits w c ++ rest) =
      match lzwCode st old c with
      | .error e => .error e
      | .ok none => .ok (st, [])
      | .ok (some (st', old', o)) =>
        match lzwMachine st' old' rest with
        | .error e => .error e
        | .ok (st'', o') => .ok (st'', o ++ o') := by
  subst hw
  rw [lzwMachine, dif_pos ⟨h0, by simp [natBits_length]⟩]
  have ht : (natBits st.codeLen c ++ rest).take st.codeLen = natBits st.codeLen c := by
    rw [List.take_append_of_le_length (by rw [natBits_length]; exact Nat.le_refl _),
      List.take_of_length_le (by rw [natBits_length]; exact Nat.le_refl _)]
  have hd : (natBits st.codeLen c ++ rest).drop st.codeLen = rest := by
    have := List.drop_left (l₁ := natBits st.codeLen c) (l₂ := rest)
    rwa [natBits_length] at this
  rw [ht, hd, bitsVal_natBits, Nat.mod_eq_of_lt hc]

/-- Draining the bit buffer = running the machine on its bits, leaving fewer bits than a code. -/
theorem lzwDrain_machine (fuel : Nat) (st : LzwState) (old size buff : Nat) (rest : List Bool)
    (h : LzwInv st) (ho : old ≠ 256) (hf : size < fuel) :
    (∃ e, lzwDrain fuel st old size buff = .error e ∧
      lzwMachine st old (natBits size buff ++ rest) = .error e ∧ e = .error .ValueOutOfRange) ∨
    (∃ st' old' size' o, lzwDrain fuel st old size buff = .ok (st', old', size', true, o) ∧
      lzwMachine st old (natBits size buff ++ rest) = .ok (st', o) ∧ LzwInv st' ∧ st'.first = st.first) ∨
    (∃ st' old' size' o, lzwDrain fuel st old size buff = .ok (st', old', size', false, o) ∧
      LzwInv st' ∧ old' ≠ 256 ∧ size' ≤ size ∧ size' < st'.codeLen ∧ st'.first = st.first ∧
      lzwMachine st old (natBits size buff ++ rest) =
        match lzwMachine st' old' (natBits size' buff ++ rest) with
        | .error e => .error e
        | .ok (st'', o') => .ok (st'', o ++ o')) := by
  induction fuel generalizing st old size with
  | zero => omega
  | succ fuel ih =>
    have hcl := h.codeLen
    have hm3 := h.mask3
    unfold lzwDrain
    by_cases hs : size < st.codeLen
    · rw [if_pos hs]
      refine Or.inr (Or.inr ⟨st, old, size, [], rfl, h, ho, Nat.le_refl _, hs, rfl, ?_⟩)
      cases lzwMachine st old (natBits size buff ++ rest) with
      | error e => rfl
      | ok p => rfl
    · rw [if_neg hs]
      have hmk : ∃ m, lzwMasks[st.mask]? = some m :=
        ⟨_, List.getElem?_eq_getElem (by simp [lzwMasks]; omega)⟩
      obtain ⟨m, hm⟩ := hmk
      have hmv := mask_eq _ _ hm
      rw [hm]
      simp only
      have hcode : (buff >>> (size - st.codeLen)) &&& m
          = (buff >>> (size - st.codeLen)) % 2 ^ st.codeLen := by
        rw [hmv, Nat.and_two_pow_sub_one_eq_mod, hcl]
      rw [hcode]
      have hsplit : natBits size buff ++ rest
          = natBits st.codeLen ((buff >>> (size - st.codeLen)) % 2 ^ st.codeLen)
            ++ (natBits (size - st.codeLen) buff ++ rest) := by
        have e : size = st.codeLen + (size - st.codeLen) := by omega
        conv => lhs; rw [e, natBits_add]
        rw [List.append_assoc, natBits_congr st.codeLen (buff >>> (size - st.codeLen))
          ((buff >>> (size - st.codeLen)) % 2 ^ st.codeLen) (by rw [Nat.mod_mod])]
      have hmach := lzwMachine_code st old st.codeLen
        ((buff >>> (size - st.codeLen)) % 2 ^ st.codeLen)
        (natBits (size - st.codeLen) buff ++ rest) (by omega) rfl
        (Nat.mod_lt _ (Nat.two_pow_pos _))
      rw [hsplit, hmach]
      generalize (buff >>> (size - st.codeLen)) % 2 ^ st.codeLen = code
      rcases lzwCode_cases st old code h ho with hc | hc | ⟨st1, old1, o1, hc, hi, ho1, hf1⟩
      · rw [hc]; exact Or.inl ⟨_, rfl, rfl, rfl⟩
      · rw [hc]
        exact Or.inr (Or.inl ⟨_, _, _, _, rfl, rfl, h, rfl⟩)
      · rw [hc]
        simp only
        rcases ih st1 old1 (size - st.codeLen) hi ho1 (by omega) with
          ⟨e, h1, h2, h3⟩ | ⟨st2, old2, size2, o2, h1, h2, h3, h4⟩ |
          ⟨st2, old2, size2, o2, h1, h2, h3, h4, h5, h6, h7⟩
        · rw [h1, h2]; exact Or.inl ⟨_, rfl, rfl, h3⟩
        · rw [h1, h2]; exact Or.inr (Or.inl ⟨_, _, _, _, rfl, rfl, h3, by rw [h4, hf1]⟩)
        · rw [h1, h7]
          refine Or.inr (Or.inr ⟨_, _, _, _, rfl, h2, h3, by omega, h5, by rw [h6, hf1], ?_⟩)
          cases lzwMachine st2 old2 (natBits size2 buff ++ rest) with
          | error e => rfl
          | ok p => obtain ⟨a, b⟩ := p; simp

/-- Filling the buffer does not change the bits. -/
theorem lzwFill_bits (bs : Bytes) (size buff : Nat) (h : size ≤ 24) :
    ∀ bs' size' buff', lzwFill bs size buff = (bs', size', buff') →
      natBits size' buff' ++ bytesBits bs' = natBits size buff ++ bytesBits bs ∧ size' ≤ 24 ∧
      (size ≤ 16 → bs ≠ [] → bs'.length < bs.length) ∧ bs'.length ≤ bs.length := by
  induction bs generalizing size buff with
  | nil =>
    intro bs' size' buff' he
    simp only [lzwFill, Prod.mk.injEq] at he
    obtain ⟨rfl, rfl, rfl⟩ := he
    exact ⟨rfl, h, by simp, Nat.le_refl _⟩
  | cons b bs ih =>
    intro bs' size' buff' he
    unfold lzwFill at he
    split at he
    · next hs =>
      obtain ⟨h1, h2, h3, h4⟩ := ih (size + 8) _ (by omega) bs' size' buff' he
      refine ⟨?_, h2, ?_, ?_⟩
      · rw [h1]
        have hb : b.toNat < 2 ^ 8 := b.toNat_lt
        have hx : ((buff <<< 8) % 2 ^ 32 ||| b.toNat) % 2 ^ (size + 8)
            = (buff * 2 ^ 8 + b.toNat) % 2 ^ (size + 8) := by
          have e1 : (buff <<< 8) % 2 ^ 32 = (buff % 2 ^ 24) <<< 8 := by
            rw [Nat.shiftLeft_eq, Nat.shiftLeft_eq]
            omega
          rw [e1, ← Nat.shiftLeft_add_eq_or_of_lt hb, Nat.shiftLeft_eq]
          have e2 : 2 ^ 32 ∣ (buff * 2 ^ 8 + b.toNat) - ((buff % 2 ^ 24) * 2 ^ 8 + b.toNat) := by
            have : (buff * 2 ^ 8 + b.toNat) - ((buff % 2 ^ 24) * 2 ^ 8 + b.toNat)
                = (buff / 2 ^ 24) * 2 ^ 32 := by omega
            rw [this]
            exact Nat.dvd_mul_left _ _
          have e3 : 2 ^ (size + 8) ∣ 2 ^ 32 := Nat.pow_dvd_pow 2 (by omega)
          have e4 : (buff * 2 ^ 8 + b.toNat) = ((buff % 2 ^ 24) * 2 ^ 8 + b.toNat) +
              ((buff * 2 ^ 8 + b.toNat) - ((buff % 2 ^ 24) * 2 ^ 8 + b.toNat)) := by omega
          obtain ⟨k, hk⟩ := Nat.dvd_trans e3 e2
          rw [e4, hk, Nat.add_mul_mod_self_left]
        rw [natBits_congr _ _ _ hx, natBits_add]
        have e5 : (buff * 2 ^ 8 + b.toNat) >>> 8 = buff := by
          rw [Nat.shiftRight_eq_div_pow]; omega
        have e6 : natBits 8 (buff * 2 ^ 8 + b.toNat) = natBits 8 b.toNat :=
          natBits_congr _ _ _ (by omega)
        rw [e5, e6]
        simp [bytesBits]
      · intro _ _; simp; omega
      · simp; omega
    · simp only [Prod.mk.injEq] at he
      obtain ⟨rfl, rfl, rfl⟩ := he
      exact ⟨rfl, h, by omega, Nat.le_refl _⟩

/-- The byte loop = the bit machine. -/
theorem lzwOuter_machine (fuel : Nat) (st : LzwState) (old size buff : Nat) (bs : Bytes)
    (h : LzwInv st) (ho : old ≠ 256) (hsz : size < st.codeLen) (hf : bs.length < fuel) :
    lzwOuter fuel st old size buff bs = lzwMachine st old (natBits size buff ++ bytesBits bs) ∧
    (lzwOuter fuel st old size buff bs = raise .ValueOutOfRange ∨
      ∃ st' o, lzwOuter fuel st old size buff bs = .ok (st', o) ∧ LzwInv st' ∧ st'.first = st.first) := by
  induction fuel generalizing st old size buff bs with
  | zero => omega
  | succ fuel ih =>
    cases bs with
    | nil =>
      have e : lzwOuter (fuel + 1) st old size buff [] = .ok (st, []) := rfl
      rw [e, lzwMachine_short _ _ _ (by simp [natBits_length, bytesBits]; exact hsz)]
      exact ⟨rfl, Or.inr ⟨_, _, rfl, h, rfl⟩⟩
    | cons b bs =>
      have hcl := h.codeLen
      have hm3 := h.mask3
      unfold lzwOuter
      cases hfill : lzwFill (b :: bs) size buff with
      | mk bs' p =>
        obtain ⟨size', buff'⟩ := p
        obtain ⟨f1, f2, f3, f4⟩ := lzwFill_bits (b :: bs) size buff (by omega) _ _ _ hfill
        have f5 := f3 (by omega) (by simp)
        simp only
        rw [← f1]
        rcases lzwDrain_machine (size' + 1) st old size' buff' (bytesBits bs') h ho (by omega) with
          ⟨e, h1, h2, h3⟩ | ⟨st2, old2, size2, o2, h1, h2, h3, h4⟩ |
          ⟨st2, old2, size2, o2, h1, h2, h3, h4, h5, h6, h7⟩
        · rw [h1, h2]; subst h3; exact ⟨rfl, Or.inl rfl⟩
        · rw [h1, h2]; exact ⟨rfl, Or.inr ⟨_, _, rfl, h3, h4⟩⟩
        · rw [h1, h7]
          simp only [Bool.false_eq_true, if_false]
          obtain ⟨i1, i2⟩ := ih st2 old2 size2 buff' bs' h2 h3 h5 (by simp at hf f5; omega)
          rw [i1] at i2 ⊢
          refine ⟨rfl, ?_⟩
          rcases i2 with i2 | ⟨st3, o3, i2, i3, i4⟩
          · rw [i2]; exact Or.inl rfl
          · rw [i2]; exact Or.inr ⟨_, _, rfl, i3, by rw [i4, h6]⟩

end Pdfmm
