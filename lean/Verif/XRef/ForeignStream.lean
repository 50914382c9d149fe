import Verif.XRef.StreamProps
/-
Entries of cross-reference streams of any producer are read as ISO 32000 defines them (C75).
-/
set_option autoImplicit false
namespace Pdfmm

namespace Spec

/-- The number a field of bytes stands for: high-order byte first (ISO 32000-1, 7.5.8.3). -/
def fieldValue : Bytes → Nat
  | [] => 0
  | b :: r => b.toNat * 256 ^ r.length + fieldValue r

/-- The type of an entry: 1 if the field is absent. -/
def fieldType (f : Bytes) : Nat := if f = [] then 1 else fieldValue f

/-- The entry three fields stand for (ISO 32000-1, table 18); other types are references to null. -/
def fieldEntry (f0 f1 f2 : Bytes) : Option XEntry :=
  match fieldType f0 with
  | 0 => some ⟨.free, fieldValue f1, fieldValue f2⟩
  | 1 => some ⟨.inUse, fieldValue f1, fieldValue f2⟩
  | 2 => some ⟨.compressed, fieldValue f1, fieldValue f2⟩
  | _ => none

end Spec

theorem fieldValue_lt (b : Bytes) : Spec.fieldValue b < 256 ^ b.length := by
  induction b with
  | nil => simp [Spec.fieldValue]
  | cons c r ih =>
    rw [Spec.fieldValue, List.length_cons, Nat.pow_succ]
    have : c.toNat * 256 ^ r.length ≤ 255 * 256 ^ r.length := Nat.mul_le_mul_right _ (by have := c.toNat_lt; omega)
    omega

theorem foldl_fieldValue (b : Bytes) (acc : Nat) (h : acc * 256 ^ b.length + Spec.fieldValue b < 18446744073709551616) :
    b.foldl (fun a x => (a * 256 + x.toNat) % 18446744073709551616) acc = acc * 256 ^ b.length + Spec.fieldValue b := by
  induction b generalizing acc with
  | nil => simp [Spec.fieldValue]
  | cons c r ih =>
    rw [Spec.fieldValue, List.length_cons, Nat.pow_succ] at h
    rw [List.foldl_cons, Spec.fieldValue, List.length_cons, Nat.pow_succ]
    have e : acc * (256 ^ r.length * 256) + (c.toNat * 256 ^ r.length + Spec.fieldValue r) =
        (acc * 256 + c.toNat) * 256 ^ r.length + Spec.fieldValue r := by
      rw [Nat.add_mul, Nat.mul_assoc, Nat.mul_comm 256 (256 ^ r.length)]; omega
    have hp : 1 ≤ 256 ^ r.length := Nat.pow_pos (by omega)
    have hle : (acc * 256 + c.toNat) * 1 ≤ (acc * 256 + c.toNat) * 256 ^ r.length := Nat.mul_le_mul_left _ hp
    rw [Nat.mod_eq_of_lt (by omega), ih _ (by omega), e]

theorem readBE_field (b pre post : Bytes) (h : b.length ≤ 4) :
    readBE (pre ++ (b ++ post)) pre.length b.length 0 = .ok (Spec.fieldValue b) := by
  have h1 := fieldValue_lt b
  have h2 : 256 ^ b.length ≤ 256 ^ 4 := Nat.pow_le_pow_right (by omega) h
  have h3 : (256 : Nat) ^ 4 = 4294967296 := rfl
  rw [readBE_spec, foldl_fieldValue _ _ (by omega)]
  simp

/-- C75: an entry whose fields have at most four bytes is read as the standard defines.  Missing: longer fields and
other types, see `C75_wide_false` and `C75_type_false`. -/
theorem C75_entry_partial (pre f0 f1 f2 post : Bytes) (h0 : f0.length ≤ 4) (h1 : f1.length ≤ 4) (h2 : f2.length ≤ 4)
    (e : XEntry) (he : Spec.fieldEntry f0 f1 f2 = some e) :
    readStreamEntry (pre ++ (f0 ++ (f1 ++ (f2 ++ post)))) pre.length f0.length f1.length f2.length = .ok e := by
  have r0 := readBE_field f0 pre (f1 ++ (f2 ++ post)) h0
  have r1 := readBE_field f1 (pre ++ f0) (f2 ++ post) h1
  have r2 := readBE_field f2 (pre ++ f0 ++ f1) post h2
  simp only [List.append_assoc, List.length_append] at r1 r2
  rw [← Nat.add_assoc] at r2
  have hu : u32 (Spec.fieldValue f2) = Spec.fieldValue f2 := by
    have h1 := fieldValue_lt f2
    have h2 : 256 ^ f2.length ≤ 256 ^ 4 := Nat.pow_le_pow_right (by omega) h2
    have h3 : (256 : Nat) ^ 4 = 4294967296 := rfl
    exact Nat.mod_eq_of_lt (by omega)
  have ht : (if f0.length = 0 then 1 else Spec.fieldValue f0) = Spec.fieldType f0 := by
    unfold Spec.fieldType
    cases f0 <;> simp
  unfold readStreamEntry
  rw [if_neg (by omega), r0]
  dsimp only
  rw [if_neg (by omega), r1]
  dsimp only
  rw [if_neg (by omega), r2]
  dsimp only
  rw [ht, hu]
  unfold Spec.fieldEntry at he
  split at he
  · rename_i h; rw [if_pos h]; cases he; rfl
  · rename_i h; rw [if_neg (by omega), if_pos h]; cases he; rfl
  · rename_i h; rw [if_neg (by omega), if_neg (by omega), if_pos h]; cases he; rfl
  · cases he

/-- C75 is false for fields of more than four bytes, which files above four gigabytes need: every entry is refused. -/
theorem C75_wide_false (data : Bytes) (pos w0 w2 : Nat) (w1 : Nat) (h : 4 < w1) (h0 : w0 ≤ 4)
    (hd : pos + w0 ≤ data.length) : readStreamEntry data pos w0 w1 w2 = raise .InvalidXRefStream := by
  have hr : ∀ k p acc, p + k ≤ data.length → ∃ v, readBE data p k acc = .ok v := by
    intro k
    induction k with
    | zero => intro p acc _; exact ⟨acc, rfl⟩
    | succ k ih =>
      intro p acc hp
      rw [readBE, List.getElem?_eq_getElem (by omega)]
      exact ih _ _ (by omega)
  obtain ⟨v, hv⟩ := hr w0 pos 0 hd
  unfold readStreamEntry
  rw [if_neg (by omega), hv]
  dsimp only
  rw [if_pos h]

/-- C75 is false for other types: the standard makes such an entry a reference to the null object, the reader gives
up. -/
theorem C75_type_false (pre f0 f1 f2 post : Bytes) (h0 : f0.length ≤ 4) (h1 : f1.length ≤ 4) (h2 : f2.length ≤ 4)
    (he : Spec.fieldEntry f0 f1 f2 = none) :
    readStreamEntry (pre ++ (f0 ++ (f1 ++ (f2 ++ post)))) pre.length f0.length f1.length f2.length =
      raise .InvalidXRefType := by
  have r0 := readBE_field f0 pre (f1 ++ (f2 ++ post)) h0
  have r1 := readBE_field f1 (pre ++ f0) (f2 ++ post) h1
  have r2 := readBE_field f2 (pre ++ f0 ++ f1) post h2
  simp only [List.append_assoc, List.length_append] at r1 r2
  rw [← Nat.add_assoc] at r2
  have ht : (if f0.length = 0 then 1 else Spec.fieldValue f0) = Spec.fieldType f0 := by
    unfold Spec.fieldType
    cases f0 <;> simp
  unfold readStreamEntry
  rw [if_neg (by omega), r0]
  dsimp only
  rw [if_neg (by omega), r1]
  dsimp only
  rw [if_neg (by omega), r2]
  dsimp only
  rw [ht]
  unfold Spec.fieldEntry at he
  split at he
  · cases he
  · cases he
  · cases he
  · rename_i a b c; rw [if_neg a, if_neg b, if_neg c]

example : Spec.fieldEntry [1] [0, 1, 0] [0] = some ⟨.inUse, 256, 0⟩ ∧ Spec.fieldEntry [] [2, 3] [] = some ⟨.inUse, 515, 0⟩ ∧
    Spec.fieldEntry [2] [9] [0, 4] = some ⟨.compressed, 9, 4⟩ ∧ Spec.fieldEntry [3] [9] [0, 4] = none := by decide

example : readStreamEntry [9, 2, 3, 9] 1 0 2 0 = .ok ⟨.inUse, 515, 0⟩ :=
  C75_entry_partial [9] [] [2, 3] [] [9] (by decide) (by decide) (by decide) _ (by decide)

end Pdfmm
