import Verif.Filters.LzwLemmas2
/-
Property theorems for the LZWDecode and RunLengthDecode filters (C05 – C07, and their part of C08).
`lzwDec`/`rleDec` are the modelled filters; `run bs` is BeginDecode, one DecodeBlock call per element of
`bs`, EndDecode; `oneShot b = run [b]` is `PdfFilter::DecodeTo`.
-/
namespace Pdfmm
open Codec

/-! ### RunLengthDecode -/

/-- C05 is false of the code: `00 41 80` encodes the single byte `41`, the filter returns `80`. -/
theorem C05_rle_false :
    ¬ ∀ e d, Spec.RunLength e d → rleDec.oneShot e = .ok d := by
  intro h
  have h1 : Spec.RunLength [0, 65, 128] [65] :=
    .literal (e := [128]) (d := []) [65] (by decide) (by decide) .eod
  exact absurd (h _ _ h1) (by decide +kernel)

/-- Repeated runs are wrong too: `FF 41 80` encodes `41 41`, the filter returns `41 80`. -/
theorem C05_rle_repeat_false :
    Spec.RunLength [255, 65, 128] [65, 65] ∧ rleDec.oneShot [255, 65, 128] = .ok [65, 128] :=
  ⟨.repeated (e := [128]) (d := []) 65 2 (by decide) (by decide) .eod, by decide +kernel⟩

private theorem rleBlock_total (bs : Bytes) (s : Int) (k : Nat) (h : -128 - (k : Int) ≤ s)
    (h2 : s ≤ 127) (hk : k + bs.length ≤ 2147483519) :
    ∃ s' o, rleBlock s bs = .ok (s', o) ∧ -128 - ((k + bs.length : Nat) : Int) ≤ s' ∧ s' ≤ 127 ∧
      o.flatten.length ≤ bs.length := by
  induction bs generalizing s k with
  | nil => exact ⟨s, [], rfl, by simpa using h, h2, by simp⟩
  | cons b bs ih =>
    simp only [List.length_cons] at hk ⊢
    have hs : -128 ≤ schar b ∧ schar b ≤ 127 := by
      have := b.toNat_lt
      unfold schar
      split <;> omega
    by_cases h0 : s = 0
    · subst h0
      obtain ⟨s', o, h1, h4, h5, h6⟩ := ih (schar b) (k + 1) (by omega) hs.2 (by omega)
      have hstep : rleStep 0 b = .ok (some (schar b, [])) := rfl
      simp only [rleBlock, hstep, h1]
      exact ⟨_, _, rfl, by omega, h5, by simp only [List.nil_append]; omega⟩
    · have hstep : rleStep s b = .ok (some (s - 1, [[b]])) := by
        unfold rleStep
        rw [if_neg h0, if_neg (by omega), if_pos h2, if_neg (by omega)]
      obtain ⟨s', o, h1, h4, h5, h6⟩ := ih (s - 1) (k + 1) (by omega) (by omega) (by omega)
      simp only [rleBlock, hstep, h1]
      refine ⟨_, _, rfl, by omega, h5, ?_⟩
      simp only [List.cons_append, List.nil_append, List.flatten_cons, List.length_cons,
        List.length_append]
      omega

private theorem rle_blocks_total (bs : List Bytes) (s : Int) (k : Nat) (h : -128 - (k : Int) ≤ s)
    (h2 : s ≤ 127) (hk : k + bs.flatten.length ≤ 2147483519) :
    ∃ s' o, rleDec.blocks s bs = .ok (s', o) ∧ o.flatten.length ≤ bs.flatten.length := by
  induction bs generalizing s k with
  | nil => exact ⟨s, [], rfl, by simp⟩
  | cons b bs ih =>
    simp only [List.flatten_cons, List.length_append] at hk ⊢
    obtain ⟨s1, o1, h3, h4, h5, h6⟩ := rleBlock_total b s k h h2 (by omega)
    obtain ⟨s2, o2, h7, h8⟩ := ih s1 (k + b.length) h4 h5 (by omega)
    have hb : rleDec.block s b = .ok (s1, o1) := h3
    refine ⟨s2, o1 ++ o2, by simp only [blocks, hb, h7], ?_⟩
    rw [List.flatten_append, List.length_append]
    omega

/-- C05, the part that holds: on any input of fewer than 2^31 - 128 bytes, however cut, the filter
terminates without error or undefined behaviour and returns no more bytes than it was given.
Missing: the decoded value (refuted above). -/
theorem C05_rle_total_partial (bs : List Bytes) (h : bs.flatten.length ≤ 2147483519) :
    ∃ d, rleDec.run bs = .ok d ∧ d.length ≤ bs.flatten.length := by
  obtain ⟨s, o, h1, h2⟩ := rle_blocks_total bs 0 0 (by decide) (by decide) (by omega)
  have hb : rleDec.blocks rleDec.start bs = .ok (s, o) := h1
  have hf : rleDec.finish s = .ok [] := rfl
  exact ⟨(o ++ []).flatten, by simp only [run, writes, hb, hf], by simpa using h2⟩

example : rleDec.run [[2, 65], [66, 0]] = .ok [65, 66] := by decide +kernel

/-! ### LZWDecode -/

private theorem lzwBlock_safe (st : LzwState) (b : Bytes) (h : LzwInv st) (hf : st.first = true → b ≠ []) :
    lzwDec.block st b = raise .ValueOutOfRange ∨
    ∃ st' o, lzwDec.block st b = .ok (st', o) ∧ LzwInv st' ∧ st'.first = false := by
  show lzwBlock st b = _ ∨ ∃ st' o, lzwBlock st b = _ ∧ _
  unfold lzwBlock
  have hcl := h.codeLen
  cases hst : st.first with
  | true =>
    cases b with
    | nil => exact absurd rfl (hf hst)
    | cons x xs =>
      have hi : LzwInv { st with character := x, first := false } :=
        ⟨h.base, h.len, h.nonempty, h.maskLe, h.codeLen⟩
      rw [if_pos rfl]
      simp only
      rcases (lzwOuter_machine ((x :: xs).length + 1) { st with character := x, first := false } 0 0 0
        (x :: xs) hi (by decide) (by show 0 < st.codeLen; omega) (by omega)).2 with hx | ⟨st', o, h1, h2, h3⟩
      · exact Or.inl hx
      · exact Or.inr ⟨st', o, h1, h2, h3⟩
  | false =>
    rw [if_neg (by decide)]
    rcases (lzwOuter_machine (b.length + 1) st 0 0 0 b h (by decide) (by omega) (by omega)).2 with
      hx | ⟨st', o, h1, h2, h3⟩
    · exact Or.inl hx
    · exact Or.inr ⟨st', o, h1, h2, by rw [h3, hst]⟩

private theorem lzw_blocks_safe (bs : List Bytes) (st : LzwState) (h : LzwInv st)
    (hf : st.first = true → bs.head? ≠ some []) :
    lzwDec.blocks st bs = raise .ValueOutOfRange ∨ ∃ r, lzwDec.blocks st bs = .ok r := by
  induction bs generalizing st with
  | nil => exact Or.inr ⟨_, rfl⟩
  | cons b bs ih =>
    rcases lzwBlock_safe st b h (by intro h1 h2; exact hf h1 (by rw [h2]; rfl)) with h1 | ⟨st', o, h1, h2, h3⟩
    · exact Or.inl (by simp only [blocks, h1, raise])
    · rcases ih st' h2 (by rw [h3]; intro hh; cases hh) with h4 | ⟨r, h4⟩
      · exact Or.inl (by simp only [blocks, h1, h4, raise])
      · exact Or.inr ⟨_, by simp only [blocks, h1, h4]; rfl⟩

/-- C06. LZW decoding of any byte blocks, well-formed or not, as long as the first block is not empty:
the outcome is a value or `ValueOutOfRange`; no out-of-range access, no endless loop. -/
theorem C06_lzw_safe_partial (bs : List Bytes) (h : bs.head? ≠ some []) :
    (∃ d, lzwDec.run bs = .ok d) ∨ lzwDec.run bs = raise .ValueOutOfRange := by
  have hs : LzwInv lzwDec.start := lzwInv_init 0 true
  rcases lzw_blocks_safe bs lzwDec.start hs (fun _ => h) with h1 | ⟨⟨st, o⟩, h1⟩
  · exact Or.inr (by simp only [run, writes, h1, raise])
  · have hf : lzwDec.finish st = .ok [] := rfl
    exact Or.inl ⟨_, by simp only [run, writes, h1, hf]; rfl⟩

/-- The missing case of C06: decoding an empty buffer (an LZW stream of length 0) reads the byte at its
start. -/
theorem C06_lzw_empty_ub : lzwDec.oneShot [] = .error .ub := by decide +kernel

/- a malformed stream reaching the error (codes 300, 300), and a fine one -/
example : lzwDec.run [[0x96, 0x4B, 0x00]] = raise .ValueOutOfRange := by decide +kernel
example : lzwDec.run [[0x80, 0x10, 0x60, 0x20]] = .ok [65] := by decide +kernel

/-- C07. For every code sequence a conforming LZW encoder (ISO 32000-1 7.4.4, EarlyChange 1) may emit
for `data`, packed into bytes with any padding (or garbage) after it, decoding returns `data`. -/
theorem C07_lzw_decodes (codes : List Nat) (data bytes : Bytes) (pad : List Bool)
    (hc : Spec.LzwCodes Spec.lzwBase none codes data)
    (hb : Spec.bytesBits bytes = Spec.lzwBits 0 codes ++ pad) :
    lzwDec.oneShot bytes = .ok data := by
  cases bytes with
  | nil =>
    exfalso
    have hlen := congrArg List.length hb
    cases codes with
    | nil => cases hc
    | cons c cs =>
      simp only [Spec.lzwBits, List.length_append, natBits_length] at hlen
      have := lzwWidth_ge 0
      simp [Spec.bytesBits] at hlen
      omega
  | cons x xs =>
    have hi : LzwInv ⟨lzwInitTable, 0, 9, x, false⟩ := lzwInv_init x false
    have hm := (lzwOuter_machine ((x :: xs).length + 1) ⟨lzwInitTable, 0, 9, x, false⟩ 0 0 0 (x :: xs) hi
      (by decide) (Nat.zero_lt_succ 8) (by omega)).1
    have hsim : LzwSim ⟨lzwInitTable, 0, 9, x, false⟩ 0 0 Spec.lzwBase none :=
      { inv := hi, ho := by decide, hlen := lzwInitTable_length
        h256 := lzwBase_256, h257 := lzwBase_257
        hnone := fun _ => ⟨rfl, rfl⟩, hsome := by intro p hp; cases hp }
    obtain ⟨st', o, h1, h2⟩ := lzw_sim_run codes data _ _ hc _ 0 0 pad hsim
    have e0 : Spec.natBits 0 0 = [] := rfl
    rw [hb, e0, List.nil_append, h1] at hm
    have hblk : lzwDec.block lzwDec.start (x :: xs) = .ok (st', o) := hm
    have hf : lzwDec.finish st' = .ok [] := rfl
    simp only [oneShot, run, writes, blocks, hblk, hf, List.append_nil, h2]

/-- Three codes (clear, 'A', 'A', then the string "AA" defined by the code just being read — the case
where the decoder does not have the entry yet —, end of data). -/
example : Spec.LzwCodes Spec.lzwBase none [256, 65, 258, 257] [65, 65, 65] :=
  .clear (.first (x := 65) (w := []) (by decide +kernel)
    (.next (x := 65) (w := [65]) (by decide +kernel) (by decide +kernel) .eod))

example : Spec.bytesBits [0x80, 0x10, 0x60, 0x50, 0x10] = Spec.lzwBits 0 [256, 65, 258, 257] ++
    [false, false, false, false] := by decide +kernel

example : lzwDec.oneShot [0x80, 0x10, 0x60, 0x50, 0x10] = .ok [65, 65, 65] := by decide +kernel

/-- C08 is false for LZW: the same stream cut after its second byte decodes to something else, since
the bits left over at the end of a block and the previous code are forgotten. -/
theorem C08_lzw_block_independent_false :
    ¬ ∀ bs bs' : List Bytes, bs.flatten = bs'.flatten → lzwDec.run bs = lzwDec.run bs' := by
  intro h
  have := h [[0x80, 0x10, 0x60, 0x50, 0x10]] [[0x80, 0x10], [0x60, 0x50, 0x10]] rfl
  exact absurd this (by decide +kernel)

private theorem rleBlock_append (xs ys : Bytes) (s : Int) (k : Nat) (h : -128 - (k : Int) ≤ s)
    (h2 : s ≤ 127) (hk : k + xs.length ≤ 2147483519) :
    rleBlock s (xs ++ ys) =
      match rleBlock s xs with
      | .error e => .error e
      | .ok (s', o) =>
        match rleBlock s' ys with
        | .error e => .error e
        | .ok (s'', o') => .ok (s'', o ++ o') := by
  induction xs generalizing s k with
  | nil =>
    simp only [List.nil_append, rleBlock]
    cases rleBlock s ys with
    | error e => rfl
    | ok p => obtain ⟨a, b⟩ := p; rfl
  | cons b xs ih =>
    simp only [List.length_cons] at hk
    have hs : -128 ≤ schar b ∧ schar b ≤ 127 := by
      have := b.toNat_lt
      unfold schar
      split <;> omega
    have hstep : ∃ s1 o1, rleStep s b = .ok (some (s1, o1)) ∧ -128 - ((k + 1 : Nat) : Int) ≤ s1 ∧ s1 ≤ 127 := by
      by_cases h0 : s = 0
      · subst h0; exact ⟨_, _, rfl, by omega, hs.2⟩
      · refine ⟨s - 1, [[b]], ?_, by omega, by omega⟩
        unfold rleStep
        rw [if_neg h0, if_neg (by omega), if_pos h2, if_neg (by omega)]
    obtain ⟨s1, o1, hst, h3, h4⟩ := hstep
    simp only [List.cons_append, rleBlock, hst, ih s1 (k + 1) h3 h4 (by omega)]
    cases rleBlock s1 xs with
    | error e => rfl
    | ok p =>
      obtain ⟨a, c⟩ := p
      simp only
      cases rleBlock a ys with
      | error e => rfl
      | ok q => obtain ⟨a', c'⟩ := q; simp

private theorem rle_blocks_flatten (bs : List Bytes) (s : Int) (k : Nat) (h : -128 - (k : Int) ≤ s)
    (h2 : s ≤ 127) (hk : k + bs.flatten.length ≤ 2147483519) :
    rleDec.blocks s bs = rleBlock s bs.flatten := by
  induction bs generalizing s k with
  | nil => rfl
  | cons b bs ih =>
    simp only [List.flatten_cons, List.length_append] at hk ⊢
    rw [rleBlock_append b _ s k h h2 (by omega)]
    obtain ⟨s1, o1, h3, h4, h5, h6⟩ := rleBlock_total b s k h h2 (by omega)
    have hb : rleDec.block s b = .ok (s1, o1) := h3
    simp only [blocks, hb, h3, ih s1 _ h4 h5 (by omega)]
    cases rleBlock s1 bs.flatten <;> rfl

/-- C08 for RunLengthDecode: the result depends on the blocks only through their concatenation. -/
theorem C08_rle_block_independent (bs bs' : List Bytes) (h : bs.flatten = bs'.flatten)
    (hl : bs.flatten.length ≤ 2147483519) : rleDec.run bs = rleDec.run bs' := by
  have e1 : rleDec.blocks rleDec.start bs = rleBlock 0 bs.flatten :=
    rle_blocks_flatten bs 0 0 (by decide) (by decide) (by omega)
  have e2 : rleDec.blocks rleDec.start bs' = rleBlock 0 bs'.flatten :=
    rle_blocks_flatten bs' 0 0 (by decide) (by decide) (by rw [← h]; omega)
  simp only [run, writes, e1, e2, h]

end Pdfmm
