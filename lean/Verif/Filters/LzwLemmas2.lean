import Verif.Filters.LzwLemmas
/- The LZW decoder simulates the encoder's dictionary. -/
namespace Pdfmm
open Codec Spec

theorem lzwBase_length : lzwBase.length = 258 := by simp [lzwBase]

theorem lzwBase_get (i : Nat) (h : i < 256) : lzwBase[i]? = some [UInt8.ofNat i] := by
  unfold lzwBase
  rw [List.getElem?_append_left (by simpa using h)]
  simp [h]

theorem lzwBase_256 : lzwBase[256]? = some [] := by
  unfold lzwBase
  rw [List.getElem?_append_right (by simp)]
  simp

theorem lzwBase_257 : lzwBase[257]? = some [] := by
  unfold lzwBase
  rw [List.getElem?_append_right (by simp)]
  simp

/-- Relation between decoder state and encoder state after `n` string codes since the last clear. -/
structure LzwSim (st : LzwState) (old n : Nat) (dict : List Bytes) (prev : Option Bytes) : Prop where
  inv : LzwInv st
  ho : old ≠ 256
  hlen : st.table.length = 257 + n
  h256 : dict[256]? = some []
  h257 : dict[257]? = some []
  hnone : prev = none → n = 0 ∧ dict = lzwBase
  hsome : ∀ p, prev = some p → dict.length = 257 + n ∧ 1 ≤ n ∧
    (∀ j, j ≠ 256 → j ≠ 257 → st.table[j]? = dict[j]?) ∧ st.table[old]? = some p ∧
    ∃ ps, p = st.character :: ps

theorem LzwSim.width {st : LzwState} {old n : Nat} {dict : List Bytes} {prev : Option Bytes}
    (h : LzwSim st old n dict prev) : st.codeLen = lzwWidth n := by
  have h1 := h.inv.codeLen
  have h2 := h.inv.maskLe
  have h3 := h.hlen
  unfold lzwWidth
  rw [h1, h2, h3]
  split <;> split <;> split <;> (repeat' split) <;> omega

theorem lzwWidth_ge (n : Nat) : 9 ≤ lzwWidth n := by
  unfold lzwWidth; (repeat' split) <;> omega

theorem lzwWidth_bound (n c : Nat) (h : c < 258 + n) (h' : c < 4096) : c < 2 ^ lzwWidth n := by
  unfold lzwWidth
  split
  · omega
  · split
    · omega
    · split <;> omega

theorem lt_of_get {α : Type} {l : List α} {i : Nat} {a : α} (h : l[i]? = some a) : i < l.length :=
  (List.getElem?_eq_some_iff.mp h).1

theorem lzw_sim_run (codes : List Nat) (data : Bytes) (dict : List Bytes) (prev : Option Bytes)
    (hc : LzwCodes dict prev codes data) :
    ∀ (st : LzwState) (old n : Nat) (rest : List Bool), LzwSim st old n dict prev →
      ∃ st' o, lzwMachine st old (lzwBits n codes ++ rest) = .ok (st', o) ∧ o.flatten = data := by
  induction hc with
  | eod =>
    intro st old n rest hs
    have hw := hs.width
    have hg := lzwWidth_ge n
    have h257 : (257 : Nat) < 2 ^ lzwWidth n := lzwWidth_bound n 257 (by omega) (by omega)
    simp only [lzwBits, List.append_nil]
    rw [lzwMachine_code st old _ 257 _ (by omega) hw.symm h257]
    have : lzwCode st old 257 = .ok none := rfl
    rw [this]
    exact ⟨_, _, rfl, rfl⟩
  | clear h ih =>
    intro st old n rest hs
    have hw := hs.width
    have hg := lzwWidth_ge n
    have h256 : (256 : Nat) < 2 ^ lzwWidth n := lzwWidth_bound n 256 (by omega) (by omega)
    simp only [lzwBits, List.append_assoc]
    rw [lzwMachine_code st old _ 256 _ (by omega) hw.symm h256]
    have hcode : lzwCode st old 256 = .ok (some (⟨lzwInitTable, 0, 9, st.character, st.first⟩, old, [])) := rfl
    rw [hcode]
    have hsim : LzwSim ⟨lzwInitTable, 0, 9, st.character, st.first⟩ old 0 lzwBase none :=
      { inv := lzwInv_init _ _, ho := hs.ho, hlen := by simp [lzwInitTable_length]
        h256 := lzwBase_256, h257 := lzwBase_257
        hnone := fun _ => ⟨rfl, rfl⟩, hsome := by intro p hp; cases hp }
    obtain ⟨st', o, h1, h2⟩ := ih _ old 0 rest hsim
    simp only [if_true]
    rw [h1]
    exact ⟨_, _, rfl, by simpa using h2⟩
  | @first dict c x w cs d hc h ih =>
    intro st old n rest hs
    obtain ⟨rfl, rfl⟩ := hs.hnone rfl
    have hw := hs.width
    have hlt := lt_of_get hc
    rw [lzwBase_length] at hlt
    have h256 : c ≠ 256 := by intro e; rw [e, lzwBase_256] at hc; cases hc
    have h257 : c ≠ 257 := by intro e; rw [e, lzwBase_257] at hc; cases hc
    have hlt' : c < 256 := by omega
    rw [lzwBase_get c hlt'] at hc
    have htab := hs.inv.base c hlt'
    rw [hc] at htab
    simp only [lzwBits, List.append_assoc]
    rw [lzwMachine_code st old _ c _ (by rw [hw]; have := lzwWidth_ge 0; omega) hw.symm
      (lzwWidth_bound 0 c (by omega) (by omega))]
    obtain ⟨st1, he, hsim⟩ : ∃ st1, lzwCode st old c = .ok (some (st1, c, [x :: w])) ∧
        LzwSim st1 c 1 lzwBase (some (x :: w)) := by
      unfold lzwCode
      rw [if_neg (by omega), if_neg (by omega), htab]
      simp only
      refine ⟨_, rfl, ?_⟩
      have hl := hs.hlen
      refine { inv := lzwInv_push st _ x hs.inv (by simp), ho := h256, hlen := by simp [hl],
               h256 := lzwBase_256, h257 := lzwBase_257, hnone := by simp, hsome := ?_ }
      intro p hp
      cases hp
      refine ⟨by simp [lzwBase_length], Nat.le_refl _, ?_, ?_, w, rfl⟩
      · intro j h1 h2
        by_cases hj : j < 256
        · simp only
          rw [lzwBase_get j hj, List.getElem?_append_left (by omega)]
          exact hs.inv.base j hj
        · rw [List.getElem?_eq_none (l := lzwBase) (by rw [lzwBase_length]; omega)]
          apply List.getElem?_eq_none
          show (st.table ++ [_]).length ≤ j
          simp only [List.length_append, List.length_cons, List.length_nil, hl]
          omega
      · simp only
        rw [List.getElem?_append_left (by omega)]
        exact htab
    rw [he]
    obtain ⟨st', o, h1, h2⟩ := ih st1 c 1 rest hsim
    simp only [if_neg h256, Nat.zero_add]
    rw [h1]
    exact ⟨_, _, rfl, by simp [h2]⟩
  | @next dict p c x w cs d hlen hc h ih =>
    intro st old n rest hs
    obtain ⟨hdl, hn1, htab, hold, ps, hps⟩ := hs.hsome p rfl
    have hw := hs.width
    have hl := hs.hlen
    have hlt := lt_of_get hc
    simp only [List.length_append, List.length_cons, List.length_nil] at hlt
    have h256 : c ≠ 256 := by
      intro e; rw [e, List.getElem?_append_left (by omega), hs.h256] at hc; cases hc
    have h257 : c ≠ 257 := by
      intro e
      rw [e, List.getElem?_append_left (lt_of_get hs.h257), hs.h257] at hc; cases hc
    simp only [lzwBits, List.append_assoc]
    rw [lzwMachine_code st old _ c _ (by rw [hw]; have := lzwWidth_ge n; omega) hw.symm
      (lzwWidth_bound n c (by omega) (by omega))]
    have hpush : ∀ st1 : LzwState, LzwInv st1 → st1.table = st.table ++ [p ++ [x]] →
        st1.character = x → LzwSim st1 c (n + 1) (dict ++ [p ++ [x]]) (some (x :: w)) := by
      intro st1 hi ht hch
      have hT : ∀ j, j ≠ 256 → j ≠ 257 → st1.table[j]? = (dict ++ [p ++ [x]])[j]? := by
        intro j h1 h2
        rw [ht, List.getElem?_append, List.getElem?_append, hl, hdl, htab j h1 h2]
      refine { inv := hi, ho := h256, hlen := ?_, h256 := ?_, h257 := ?_, hnone := by simp, hsome := ?_ }
      · rw [ht]; simp only [List.length_append, List.length_cons, List.length_nil, hl]; omega
      · rw [List.getElem?_append_left (lt_of_get hs.h256)]; exact hs.h256
      · rw [List.getElem?_append_left (lt_of_get hs.h257)]; exact hs.h257
      · intro q hq
        cases hq
        refine ⟨?_, by omega, hT, ?_, w, by rw [hch]⟩
        · simp only [List.length_append, List.length_cons, List.length_nil, hdl]; omega
        · rw [hT c h256 h257]; exact hc
    obtain ⟨st1, he, hsim⟩ : ∃ st1, lzwCode st old c = .ok (some (st1, c, [x :: w])) ∧
        LzwSim st1 c (n + 1) (dict ++ [p ++ [x]]) (some (x :: w)) := by
      by_cases hcl : c < dict.length
      · rw [List.getElem?_append_left hcl, ← htab c h256 h257] at hc
        unfold lzwCode
        rw [if_neg (by omega), if_neg (by omega), hc]
        simp only [hold]
        exact ⟨_, rfl, hpush _ (lzwInv_push st _ x hs.inv (by simp)) rfl rfl⟩
      · have hce : c = dict.length := by omega
        have hcn : st.table[c]? = none := List.getElem?_eq_none (by omega)
        rw [hce, List.getElem?_append_right (Nat.le_refl _)] at hc
        simp only [Nat.sub_self, List.getElem?_cons_zero, Option.some.injEq] at hc
        rw [hps, List.cons_append, List.cons.injEq] at hc
        obtain ⟨hx, hwv⟩ := hc
        unfold lzwCode
        rw [if_neg (by omega), if_neg (by omega), hcn]
        simp only [hold]
        subst hps
        simp only [List.cons_append]
        rw [hwv.symm, ← hx]
        refine ⟨_, rfl, ?_⟩
        rw [← hx, ← hwv, ← hx] at hpush
        exact hpush _ (lzwInv_push st _ st.character hs.inv (by simp)) rfl rfl
    rw [he]
    obtain ⟨st', o, h1, h2⟩ := ih st1 c (n + 1) rest hsim
    simp only [if_neg h256]
    rw [h1]
    exact ⟨_, _, rfl, by simp [h2]⟩

end Pdfmm
