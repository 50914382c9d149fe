import Verif.Crypt.AesModel
/-
AES in chained blocks: decryption in pieces gives back what was encrypted.
-/
set_option autoImplicit false
namespace Pdfmm

namespace Spec

/-- All that is used of AES: a block of 16 bytes becomes a block of 16 bytes and back. -/
structure IsAes (A : BlockAes) : Prop where
  length : ∀ k b, b.length = 16 → (A.enc k b).length = 16
  back : ∀ k b, b.length = 16 → A.dec k (A.enc k b) = b

end Spec
open Spec

theorem xorBytes_length (a b : Bytes) : (xorBytes a b).length = min a.length b.length := by
  rw [xorBytes, List.length_zipWith]

theorem xorBytes_twice : ∀ (a b : Bytes), a.length = b.length → xorBytes (xorBytes a b) b = a
  | [], b, _ => rfl
  | x :: a, [], h => by cases h
  | x :: a, y :: b, h => by
    have ih := xorBytes_twice a b (by simpa using h)
    rw [xorBytes, xorBytes] at ih
    rw [xorBytes, xorBytes, List.zipWith_cons_cons, List.zipWith_cons_cons, ih, UInt8.xor_assoc, UInt8.xor_self, UInt8.xor_zero]

section
variable {E D : Bytes → Bytes} (hlen : ∀ b, b.length = 16 → (E b).length = 16) (hback : ∀ b, b.length = 16 → D (E b) = b)
include hlen

theorem cbcEnc_length : ∀ (k : Nat) (prev d : Bytes), prev.length = 16 → d.length = 16 * k → (cbcEnc E k prev d).length = 16 * k
  | 0, _, _, _, _ => rfl
  | k + 1, prev, d, hp, hd => by
    have h1 : (E (xorBytes (d.take 16) prev)).length = 16 := hlen _ (by rw [xorBytes_length, List.length_take]; omega)
    rw [cbcEnc, List.length_append, h1, cbcEnc_length k _ _ h1 (by rw [List.length_drop]; omega)]
    omega

include hback

theorem cbcDec_cbcEnc : ∀ (j k : Nat) (prev d : Bytes), j ≤ k → prev.length = 16 → d.length = 16 * k → cbcDec D j prev (cbcEnc E k prev d) = d.take (16 * j)
  | 0, k, prev, d, _, _, _ => by rw [cbcDec]; rfl
  | j + 1, 0, prev, d, hj, _, _ => by omega
  | j + 1, k + 1, prev, d, hj, hp, hd => by
    have hx : (xorBytes (d.take 16) prev).length = 16 := by rw [xorBytes_length, List.length_take]; omega
    have h1 : (E (xorBytes (d.take 16) prev)).length = 16 := hlen _ hx
    rw [cbcEnc, cbcDec, List.take_append_of_le_length (by omega), List.take_of_length_le (by omega), List.drop_append_of_le_length (by omega),
      List.drop_of_length_le (by omega), List.nil_append, hback _ hx, xorBytes_twice _ _ (by rw [List.length_take]; omega),
      cbcDec_cbcEnc j k _ _ (by omega) h1 (by rw [List.length_drop]; omega)]
    rw [show 16 * (j + 1) = 16 + 16 * j by omega, List.take_add]

omit hlen hback in
theorem cbcDec_take : ∀ (j : Nat) (prev d : Bytes) (m : Nat), 16 * j ≤ m → cbcDec D j prev (d.take m) = cbcDec D j prev d
  | 0, _, _, _, _ => rfl
  | j + 1, prev, d, m, h => by
    rw [cbcDec, cbcDec, List.take_take, Nat.min_eq_left (by omega), List.drop_take, cbcDec_take j _ _ (m - 16) (by omega)]

/-- The block before the `i`-th, in the encrypted data. -/
def prevAt (iv ct : Bytes) (i : Nat) : Bytes := if i = 0 then iv else (ct.take (16 * i)).drop (16 * i - 16)

omit hback in
theorem cbcEnc_drop : ∀ (i k : Nat) (prev d : Bytes), i ≤ k → prev.length = 16 → d.length = 16 * k →
    (cbcEnc E k prev d).drop (16 * i) = cbcEnc E (k - i) (prevAt prev (cbcEnc E k prev d) i) (d.drop (16 * i)) ∧ (prevAt prev (cbcEnc E k prev d) i).length = 16
  | 0, k, prev, d, _, hp, _ => by
    rw [prevAt, if_pos rfl, Nat.mul_zero, List.drop_zero, List.drop_zero, Nat.sub_zero]
    exact ⟨rfl, hp⟩
  | i + 1, 0, prev, d, h, _, _ => by omega
  | i + 1, k + 1, prev, d, h, hp, hd => by
    have hx : (xorBytes (d.take 16) prev).length = 16 := by rw [xorBytes_length, List.length_take]; omega
    have h1 : (E (xorBytes (d.take 16) prev)).length = 16 := hlen _ hx
    have ih := cbcEnc_drop i k (E (xorBytes (d.take 16) prev)) (d.drop 16) (by omega) h1 (by rw [List.length_drop]; omega)
    have hprev : prevAt prev (cbcEnc E (k + 1) prev d) (i + 1) = prevAt (E (xorBytes (d.take 16) prev)) (cbcEnc E k (E (xorBytes (d.take 16) prev)) (d.drop 16)) i := by
      rw [prevAt, if_neg (by omega), prevAt, cbcEnc]
      by_cases hi : i = 0
      · subst hi
        rw [if_pos rfl, List.take_append_of_le_length (by omega), List.take_of_length_le (by omega)]
        rfl
      · rw [if_neg hi, show 16 * (i + 1) = (E (xorBytes (d.take 16) prev)).length + 16 * i by omega, List.take_length_add_append,
          List.drop_append, List.drop_of_length_le (by omega), List.nil_append]
        congr 1
        omega
    rw [hprev]
    refine ⟨?_, ih.2⟩
    rw [cbcEnc, show 16 * (i + 1) = 16 * i + 16 by omega, List.drop_append, List.drop_of_length_le (by omega), List.nil_append, h1, Nat.add_sub_cancel, ih.1,
      List.drop_drop, show k + 1 - (i + 1) = k - i by omega, Nat.add_comm 16]

/-- The state of the decryption after the first `m` bytes of the encrypted data. -/
structure AtByte (iv ct : Bytes) (m : Nat) (c : DecCtx) : Prop where
  pending : c.pending = (ct.take m).drop (heldBack m)
  prev : c.prev = prevAt iv ct (heldBack m / 16)

omit hlen hback in
theorem atByte_start (iv ct : Bytes) : AtByte iv ct 0 ⟨iv, []⟩ := ⟨by simp, by rw [prevAt, if_pos (by rfl)]⟩

/-- Decrypting the next `r` bytes. -/
theorem decUpdate_at {iv d : Bytes} {k m r : Nat} {c : DecCtx} (hiv : iv.length = 16) (hd : d.length = 16 * k) (hc : AtByte iv (cbcEnc E k iv d) m c) (hmr : m + r ≤ 16 * k) :
    ∃ c', decUpdate D c (((cbcEnc E k iv d).drop m).take r) = ((d.take (heldBack (m + r))).drop (heldBack m), c') ∧ AtByte iv (cbcEnc E k iv d) (m + r) c' := by
  have hcl := cbcEnc_length hlen k iv d hiv hd
  obtain ⟨ct, hct⟩ : ∃ ct, ct = cbcEnc E k iv d := ⟨_, rfl⟩
  rw [← hct] at hc hcl ⊢
  have hn : heldBack m ≤ m ∧ heldBack m % 16 = 0 := by rw [heldBack]; omega
  have ht : c.pending ++ (ct.drop m).take r = (ct.take (m + r)).drop (heldBack m) := by
    rw [hc.pending, List.take_add, List.drop_append_of_le_length (by rw [List.length_take]; omega)]
  have htl : ((ct.take (m + r)).drop (heldBack m)).length = m + r - heldBack m := by
    rw [List.length_drop, List.length_take]; omega
  have hh : heldBack (m + r - heldBack m) = heldBack (m + r) - heldBack m := by
    rw [heldBack, heldBack, heldBack]; omega
  have hh2 : heldBack m ≤ heldBack (m + r) ∧ heldBack (m + r) ≤ m + r ∧ heldBack (m + r) % 16 = 0 := by rw [heldBack, heldBack]; omega
  obtain ⟨n, hnn⟩ : ∃ n, n = heldBack m := ⟨_, rfl⟩
  obtain ⟨n', hnn'⟩ : ∃ n', n' = heldBack (m + r) := ⟨_, rfl⟩
  rw [← hnn] at hn ht htl hh hh2
  rw [← hnn'] at hh hh2
  have hdec : cbcDec D ((n' - n) / 16) c.prev (((ct.take (m + r)).drop n).take (n' - n)) = (d.take n').drop n := by
    have hs := cbcEnc_drop hlen (n / 16) k iv d (by omega) hiv hd
    rw [← hct, show 16 * (n / 16) = n by omega] at hs
    rw [cbcDec_take _ _ _ _ (by omega), hc.prev, ← hnn, List.drop_take, cbcDec_take _ _ _ _ (by omega), hs.1,
      cbcDec_cbcEnc hlen hback _ _ _ _ (by omega) hs.2 (by rw [List.length_drop]; omega), List.drop_take]
    congr 1
    omega
  refine ⟨_, by rw [decUpdate, ht, htl, hh, hdec, ← hnn, ← hnn'], ?_, ?_⟩
  · show (((ct.take (m + r)).drop n).drop (n' - n)) = _
    rw [List.drop_drop, ← hnn']
    congr 1
    omega
  · show (if n' - n = 0 then c.prev else (((ct.take (m + r)).drop n).take (n' - n)).drop (n' - n - 16)) = _
    by_cases h0 : n' - n = 0
    · rw [if_pos h0, hc.prev, ← hnn, ← hnn', show n = n' by omega]
    · rw [if_neg h0, prevAt, ← hnn', if_neg (by omega), show 16 * (n' / 16) = n' by omega]
      have e1 : n' - n - (n' - n - 16) = 16 := by omega
      have e2 : n + (n' - n - 16) = n' - 16 := by omega
      have e3 : min 16 (m + r - (n' - 16)) = n' - (n' - 16) := by omega
      rw [List.drop_take, List.drop_drop, e1, e2, List.drop_take, List.take_take, e3, List.drop_take]

/-- The last block. -/
theorem decFinal_at {iv d : Bytes} {k : Nat} {c : DecCtx} (hiv : iv.length = 16) (hd : d.length = 16 * k) (hk : 0 < k) (hc : AtByte iv (cbcEnc E k iv d) (16 * k) c) :
    decFinal D c = unpad (d.drop (16 * (k - 1))) := by
  have hcl := cbcEnc_length hlen k iv d hiv hd
  have hh : heldBack (16 * k) = 16 * (k - 1) := by rw [heldBack]; omega
  have hs := cbcEnc_drop hlen (k - 1) k iv d (by omega) hiv hd
  have hp : c.pending = cbcEnc E 1 c.prev (d.drop (16 * (k - 1))) := by
    rw [hc.pending, hh, List.take_of_length_le (by omega), hs.1, hc.prev, hh, show k - (k - 1) = 1 by omega, show 16 * (k - 1) / 16 = k - 1 by omega]
  have hpl : c.prev.length = 16 := by
    rw [hc.prev, hh, show 16 * (k - 1) / 16 = k - 1 by omega]; exact hs.2
  have hdl : (d.drop (16 * (k - 1))).length = 16 * 1 := by rw [List.length_drop]; omega
  have h1 := cbcDec_cbcEnc hlen hback 1 1 c.prev (d.drop (16 * (k - 1))) (by omega) hpl hdl
  have h2 := cbcEnc_length hlen 1 c.prev (d.drop (16 * (k - 1))) hpl hdl
  rw [← hp] at h1 h2
  rw [cbcDec, cbcDec, List.append_nil, List.take_of_length_le (by omega), List.take_of_length_le (by omega)] at h1
  rw [decFinal, if_neg (by omega), h1]

end

/-! ### Padding -/

theorem pkcsPad_length (n : Nat) : (pkcsPad n).length = 16 - n % 16 := by rw [pkcsPad, List.length_replicate]

theorem padded_length (data : Bytes) : (data ++ pkcsPad data.length).length = 16 * (data.length / 16 + 1) := by
  rw [List.length_append, pkcsPad_length]; omega

theorem unpad_padded (data : Bytes) : unpad ((data ++ pkcsPad data.length).drop (16 * (data.length / 16))) = some (data.drop (16 * (data.length / 16))) := by
  rw [List.drop_append_of_le_length (by omega)]
  obtain ⟨x, hx⟩ : ∃ x, x = data.drop (16 * (data.length / 16)) := ⟨_, rfl⟩
  have hxl : x.length = data.length % 16 := by rw [hx, List.length_drop]; omega
  rw [← hx]
  obtain ⟨p, hp⟩ : ∃ p, p = 16 - data.length % 16 := ⟨_, rfl⟩
  have hp1 : 0 < p ∧ p ≤ 16 := by omega
  have hpad : pkcsPad data.length = List.replicate p (UInt8.ofNat p) := by rw [pkcsPad, hp]
  have hlast : (x ++ pkcsPad data.length).getLastD 0 = UInt8.ofNat p := by
    rw [hpad]
    obtain ⟨q, hq⟩ : ∃ q, p = q + 1 := ⟨p - 1, by omega⟩
    rw [hq, List.replicate_succ', ← List.append_assoc, List.getLastD_concat]
  have hpn : (UInt8.ofNat p).toNat = p := by
    rw [UInt8.toNat_ofNat']
    exact Nat.mod_eq_of_lt (by omega)
  rw [unpad, hlast, hpn, if_neg (by omega), List.drop_append, List.drop_of_length_le (by omega), List.nil_append, show 16 - p - x.length = 0 by omega, List.drop_zero,
    if_pos hpad, List.take_append_of_le_length (by omega), List.take_of_length_le (by omega)]

/-! ### Whole buffers -/

/-- Decrypting what was encrypted. -/
theorem baseDecrypt_baseEncrypt {A : BlockAes} (hA : IsAes A) (key iv data : Bytes) (hk : key.length = 16) (hiv : iv.length = 16) :
    ∃ c, baseEncrypt A key iv data = .ok c ∧ c.length = 16 * (data.length / 16 + 1) ∧ baseDecrypt A key iv c = .ok data := by
  have hlen := hA.length key
  have hback := hA.back key
  have hpl := padded_length data
  have hcl := cbcEnc_length (E := A.enc key) hlen _ iv _ hiv hpl
  refine ⟨cbcEnc (A.enc key) (data.length / 16 + 1) iv (data ++ pkcsPad data.length), by rw [baseEncrypt, if_neg (by omega)], hcl, ?_⟩
  obtain ⟨c', h1, h2⟩ := decUpdate_at (E := A.enc key) (D := A.dec key) hlen hback (m := 0) (r := 16 * (data.length / 16 + 1)) hiv hpl (atByte_start iv _) (by omega)
  rw [List.drop_zero, List.take_of_length_le (by omega)] at h1
  rw [baseDecrypt, if_neg (by omega), if_neg (by omega), h1]
  dsimp only
  rw [Nat.zero_add] at h2
  rw [decFinal_at (E := A.enc key) hlen hback hiv hpl (by omega) h2, Nat.add_sub_cancel, unpad_padded]
  dsimp only
  have : heldBack 0 = 0 := rfl
  rw [this, List.drop_zero, Nat.zero_add, show heldBack (16 * (data.length / 16 + 1)) = 16 * (data.length / 16) by rw [heldBack]; omega,
    List.take_append_of_le_length (by omega), List.take_append_drop]

end Pdfmm
