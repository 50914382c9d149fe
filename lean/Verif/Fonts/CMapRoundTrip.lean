import Verif.Fonts.CMapTokens
/-
A `ToUnicode` CMap that is written is read back; those of encodings of one byte and of identities are not.
-/
set_option autoImplicit false
namespace Pdfmm
open Spec

/-! ### Specification -/

namespace Spec

/-- A pair that can be written: a code of one to four bytes, and some Unicode characters. -/
def PairOK (p : CharCode × List Nat) : Prop :=
  1 ≤ p.1.size ∧ p.1.size ≤ 4 ∧ p.1.code < 256 ^ p.1.size ∧ p.2 ≠ [] ∧ ∀ c ∈ p.2, IsScalar c

end Spec

/-! ### Hexadecimal codes -/

theorem hexDigit_pair (b : Byte) :
    hexDigit ((b &&& 0xF0) >>> 4) = hexDigit (UInt8.ofNat (b.toNat / 16)) ∧ hexDigit (b &&& 0x0F) = hexDigit (UInt8.ofNat (b.toNat % 16)) := by
  revert b
  exact forall_byte (P := fun b => hexDigit ((b &&& 0xF0) >>> 4) = hexDigit (UInt8.ofNat (b.toNat / 16)) ∧
    hexDigit (b &&& 0x0F) = hexDigit (UInt8.ofNat (b.toNat % 16))) (by decide +kernel)

theorem codeBytes_snoc (code n : Nat) : codeBytes code (n + 1) = codeBytes (code / 256) n ++ [UInt8.ofNat (code % 256)] := by
  induction n with
  | zero => simp [codeBytes]
  | succ n ih =>
    rw [codeBytes, ih, codeBytes, List.cons_append, Nat.div_div_eq_div_mul]
    congr 3
    rw [Nat.pow_succ, Nat.mul_comm]

theorem hexDigits_codeBytes (code n : Nat) : hexDigits (2 * n) code = (codeBytes code n).flatMap writeCharHex := by
  induction n generalizing code with
  | zero => rfl
  | succ n ih =>
    rw [codeBytes_snoc, List.flatMap_append, ← ih, Nat.mul_succ, hexDigits, hexDigits, Nat.div_div_eq_div_mul, List.append_assoc]
    congr 1
    simp only [List.flatMap_cons, List.flatMap_nil, List.append_nil, writeCharHex]
    rw [(hexDigit_pair _).1, (hexDigit_pair _).2]
    have e : (UInt8.ofNat (code % 256)).toNat = code % 256 := toNat_ofNat_lt (by omega)
    rw [e]
    have e1 : code / 16 % 16 = code % 256 / 16 := by omega
    have e2 : code % 16 = code % 256 % 16 := by omega
    rw [e1, ← e2]
    rfl

theorem valueOf_codeBytes (code n : Nat) : valueOf (codeBytes code n) = code % 256 ^ n := by
  induction n with
  | zero => simp [codeBytes, valueOf, Nat.mod_one]
  | succ n ih =>
    rw [codeBytes, valueOf, ih, codeBytes_length, toNat_ofNat_lt (by omega), Nat.pow_succ, Nat.mod_mul, Nat.add_comm, Nat.mul_comm]

theorem hexWidth_le {size code : Nat} (h1 : 1 ≤ size) (h2 : size ≤ 4) (h : code < 256 ^ size) : hexWidth (2 * size) code = 2 * size := by
  have : size = 1 ∨ size = 2 ∨ size = 3 ∨ size = 4 := by omega
  rw [hexWidth]
  rcases this with e | e | e | e <;> subst e <;> simp only [Nat.reducePow] at h <;> (repeat' split) <;> omega

theorem hexCode_ok {c : CharCode} (h1 : 1 ≤ c.size) (h2 : c.size ≤ 4) (h : c.code < 256 ^ c.size) :
    hexCode c = .ok (60 :: ((codeBytes c.code c.size).flatMap writeCharHex ++ [62])) := by
  rw [hexCode, if_pos ⟨h1, h2⟩, hexWidth_le h1 h2 h, hexDigits_codeBytes]

theorem hexBody_head {d : Bytes} (hd : d ≠ []) (X : Bytes) :
    ∃ c r, d.flatMap writeCharHex ++ X = c :: r ∧ c ≠ 60 := by
  match d, hd with
  | b :: d', _ =>
    refine ⟨hexDigit ((b &&& 0xF0) >>> 4), _, by simp only [List.flatMap_cons, writeCharHex, List.cons_append]; rfl, ?_⟩
    exact forall_byte (P := fun b => hexDigit ((b &&& 0xF0) >>> 4) ≠ 60) (by decide +kernel) b

theorem seqNext_code {e : Bytes} {d : Bytes} (hd : d ≠ []) (rest : Bytes) (k : Nat) :
    seqNext e ⟨[], 60 :: (d.flatMap writeCharHex ++ [62]) ++ rest, k⟩ = .ok (some (.str d true), ⟨[], rest, k⟩) := by
  have hr := readHex_write d rest
  obtain ⟨c, r, he, hc⟩ := hexBody_head hd (62 :: rest)
  rw [he] at hr
  rw [List.cons_append, List.append_assoc, List.singleton_append, he]
  exact seqNext_hex hc hr k

theorem psVariant_code {d : Bytes} (hd : d ≠ []) (rest : Bytes) (k : Nat) (hk : k + 1 ≤ 256) :
    psVariant ⟨[], 60 :: (d.flatMap writeCharHex ++ [62]) ++ rest, k⟩ = .ok (.str d true, ⟨[], rest, k⟩) := by
  have hr := readHex_write d rest
  obtain ⟨c, r, he, hc⟩ := hexBody_head hd (62 :: rest)
  rw [he] at hr
  rw [List.cons_append, List.append_assoc, List.singleton_append, he]
  exact psVariant_hex hc hr k hk

/-! ### Code points -/

theorem readHexLoop_through (d X acc : Bytes) :
    readHexLoop (d.flatMap writeCharHex ++ X) acc = readHexLoop X (acc ++ d.flatMap writeCharHex) := by
  induction d generalizing acc with
  | nil => simp
  | cons b d ih =>
    have h : ∀ b : Byte, hexDigit ((b &&& 0xF0) >>> 4) ≠ 62 ∧ hexDigit (b &&& 0x0F) ≠ 62 ∧
        isHexDigitChar (hexDigit ((b &&& 0xF0) >>> 4)) = true ∧ isHexDigitChar (hexDigit (b &&& 0x0F)) = true :=
      forall_byte (P := fun b => hexDigit ((b &&& 0xF0) >>> 4) ≠ 62 ∧ hexDigit (b &&& 0x0F) ≠ 62 ∧
        isHexDigitChar (hexDigit ((b &&& 0xF0) >>> 4)) = true ∧ isHexDigitChar (hexDigit (b &&& 0x0F)) = true) (by decide +kernel)
    obtain ⟨h1, h2, h3, h4⟩ := h b
    simp only [List.flatMap_cons, writeCharHex, List.cons_append, List.nil_append]
    simp only [readHexLoop, h1, h2, h3, h4, if_true, if_false]
    rw [ih]; simp [writeCharHex]

theorem be16_append (a b : List Nat) : be16 (a ++ b) = be16 a ++ be16 b := by simp [be16]

theorem readHexLoop_seq (cps : List Nat) (rest acc : Bytes) :
    readHexLoop (utf16Seq cps ++ 62 :: rest) acc = (acc ++ (be16 (cps.flatMap utf16Append)).flatMap writeCharHex, rest) := by
  induction cps generalizing acc with
  | nil => simp [utf16Seq, readHexLoop, be16]
  | cons c r ih =>
    cases r with
    | nil =>
      rw [utf16Seq, utf16Hex, readHexLoop_digits]
      simp only [List.flatMap_cons, List.flatMap_nil, List.append_nil]
    | cons d r =>
      rw [utf16Seq, utf16Hex, List.append_assoc, readHexLoop_through, List.cons_append, readHexLoop, if_neg (by decide), if_neg (by decide), ih,
        List.flatMap_cons (x := c), be16_append, List.flatMap_append, List.append_assoc]

theorem be16_ne {cps : List Nat} (h : cps ≠ []) : be16 (cps.flatMap utf16Append) ≠ [] := by
  match cps, h with
  | c :: r, _ =>
    simp only [List.flatMap_cons, be16_append, utf16Append]
    split <;> simp [be16]

theorem readHex_seq (cps : List Nat) (rest : Bytes) : readHex (utf16Seq cps ++ 62 :: rest) = (be16 (cps.flatMap utf16Append), rest) := by
  have hl : ((be16 (cps.flatMap utf16Append)).flatMap writeCharHex).length % 2 ≠ 1 := by rw [flatMap_hex_length]; omega
  simp only [readHex, readHexString, readHexLoop_seq, List.nil_append, hl, if_false, fromHexData, fromHexLoop_digits]

theorem utf16Seq_head {cps : List Nat} (h : cps ≠ []) (X : Bytes) : ∃ c r, utf16Seq cps ++ X = c :: r ∧ c ≠ 60 := by
  have one : ∀ (c : Nat) (Y : Bytes), ∃ b r, utf16Hex c ++ Y = b :: r ∧ b ≠ 60 := by
    intro c Y
    rw [utf16Hex]
    refine hexBody_head ?_ Y
    have := be16_ne (cps := [c]) (by simp)
    simpa using this
  match cps, h with
  | [c], _ => exact one c X
  | c :: d :: r, _ => rw [utf16Seq, List.append_assoc]; exact one c _

theorem psVariant_points {cps : List Nat} (h : cps ≠ []) (rest : Bytes) (k : Nat) (hk : k + 1 ≤ 256) :
    psVariant ⟨[], utf16Text cps ++ rest, k⟩ = .ok (.str (be16 (cps.flatMap utf16Append)) true, ⟨[], rest, k⟩) := by
  have hr := readHex_seq cps rest
  obtain ⟨c, r, he, hc⟩ := utf16Seq_head h (62 :: rest)
  rw [he] at hr
  rw [utf16Text, List.cons_append, List.append_assoc, List.singleton_append, he]
  exact psVariant_hex hc hr k hk

/-! ### The lines -/

/-- The line of a pair. -/
def bfLine (p : CharCode × List Nat) : Bytes :=
  60 :: ((codeBytes p.1.code p.1.size).flatMap writeCharHex ++ [62]) ++ 32 :: (utf16Text p.2 ++ [10])

theorem bfLine_append (p : CharCode × List Nat) (X : Bytes) :
    bfLine p ++ X = 60 :: ((codeBytes p.1.code p.1.size).flatMap writeCharHex ++ [62]) ++ 32 :: (utf16Text p.2 ++ 10 :: X) := by
  simp [bfLine]

theorem bfLines_ok (ps : List (CharCode × List Nat)) (h : ∀ p ∈ ps, PairOK p) :
    bfLines ps = .ok (ps.flatMap bfLine) := by
  induction ps with
  | nil => rfl
  | cons p r ih =>
    obtain ⟨c, cps⟩ := p
    obtain ⟨h1, h2, h3, _, _⟩ := h (c, cps) List.mem_cons_self
    rw [bfLines, hexCode_ok h1 h2 h3, ih (fun q hq => h q (List.mem_cons_of_mem _ hq))]
    simp [bfLine]

theorem setUnit_last (us : List (Nat × (Nat × List Nat))) (c : CharCode) (cps : List Nat) (h : ∀ p ∈ us, p.1 < c.code) :
    setUnit us c cps = us ++ [(c.code, (c.size, cps))] := by
  have hf : SMap.find? c.code us = none := by
    cases hf : SMap.find? c.code us with
    | none => rfl
    | some v =>
      have := h _ (SMap.find_mem hf)
      simp at this
  rw [setUnit, hf]
  exact SMap.insert_last _ _ _ (fun p hp => by simpa [StrictOrd.lt] using h p hp)

/-- The limits and sizes after the codes of some pairs. -/
def sizesAfter (st : CMState) (ps : List (CharCode × List Nat)) : CMState :=
  ps.foldl (fun s p => { s with mn := if p.1.size < s.mn then p.1.size else s.mn
                                mx := if p.1.size > s.mx then p.1.size else s.mx }) st

theorem bfChar_pair (st : CMState) (p : CharCode × List Nat) (h : PairOK p) :
    bfChar st (.str (codeBytes p.1.code p.1.size) true) (.str (be16 (p.2.flatMap utf16Append)) true) =
      .ok { map := { st.map with units := setUnit st.map.units p.1 p.2, limits := st.map.limits.push p.1, dirty := true }
            mn := if p.1.size < st.mn then p.1.size else st.mn
            mx := if p.1.size > st.mx then p.1.size else st.mx } := by
  obtain ⟨⟨code, size⟩, cps⟩ := p
  obtain ⟨h1, h2, h3, h4, h5⟩ := h
  dsimp only at *
  rw [bfChar, code_str st _ true (by rw [codeBytes_length]; exact h2), valueOf_codeBytes, Nat.mod_eq_of_lt h3, codeBytes_length]
  simp only [pointsOf]
  have hp : stringPoints (be16 (cps.flatMap utf16Append)) = .ok cps :=
    stringPoints_of (readUtf16_be16 cps h5) (utf8_decode_encode cps h5)
  rw [hp]
  simp only
  rw [CMState.push_ok _ (by show size ≠ 0; omega) h4]

/-- What is known of the state after the lines of some pairs. -/
structure AfterLines (ps : List (CharCode × List Nat)) (st : CMState) : Prop where
  mn_le : ∀ p ∈ ps, st.mn ≤ p.1.size ∧ p.1.size ≤ st.mx
  lim_le : ∀ p ∈ ps, st.map.limits.minSize ≤ p.1.size ∧ p.1.size ≤ st.map.limits.maxSize

/-- What is known of the sizes at all times: they are those of codes of the map. -/
structure SizesFrom (ps : List (CharCode × List Nat)) (st : CMState) : Prop where
  mn : st.mn = 255 ∨ ∃ p ∈ ps, p.1.size = st.mn
  mx : st.mx = 0 ∨ ∃ p ∈ ps, p.1.size = st.mx
  lmn : st.map.limits.minSize = 255 ∨ ∃ p ∈ ps, p.1.size = st.map.limits.minSize
  lmx : st.map.limits.maxSize = 0 ∨ ∃ p ∈ ps, p.1.size = st.map.limits.maxSize

theorem lines_loop (all : List (CharCode × List Nat)) (b : List (CharCode × List Nat)) (hb : ∀ p ∈ b, PairOK p ∧ p ∈ all) (rest : Bytes) (d : Nat) (hd : d + 1 ≤ 256)
    (hrest : StartsOk rest) :
    ∀ (n : Nat) (a : List (CharCode × List Nat)) (st : CMState), b.length < n →
      st.map.units = a.map (fun p => (p.1.code, (p.1.size, p.2))) →
      (a ++ b).Pairwise (fun x y => x.1.code < y.1.code) → AfterLines a st → SizesFrom all st →
      ∃ st', pairLoop kwEndBfChar bfChar n st
          ⟨[], (b.flatMap bfLine) ++ (kwEndBfChar ++ rest), d⟩ =
          .ok (st', ⟨[], rest, d⟩) ∧
        st'.map.units = (a ++ b).map (fun p => (p.1.code, (p.1.size, p.2))) ∧ AfterLines (a ++ b) st' ∧ SizesFrom all st' := by
  induction b with
  | nil =>
    intro n a st hn hu _ hl hf
    obtain ⟨n, rfl⟩ : ∃ m, n = m + 1 := ⟨n - 1, by simp at hn; omega⟩
    refine ⟨st, ?_, by simpa using hu, by simpa using hl, hf⟩
    rw [List.flatMap_nil, List.nil_append, pairLoop, seqNext_end (by decide +kernel) hrest]
  | cons p r ih =>
    intro n a st hn hu hs hl hf
    obtain ⟨n, rfl⟩ : ∃ m, n = m + 1 := ⟨n - 1, by simp at hn; omega⟩
    obtain ⟨hp, hall⟩ := hb p List.mem_cons_self
    obtain ⟨h1, h2, h3, h4, h5⟩ := hp
    have hlast : ∀ q ∈ st.map.units, q.1 < p.1.code := by
      intro q hq
      rw [hu] at hq
      obtain ⟨x, hx, rfl⟩ := List.mem_map.1 hq
      exact (List.pairwise_append.1 hs).2.2 x hx p List.mem_cons_self
    obtain ⟨st', e1, e2, e3, e4⟩ := ih (fun q hq => hb q (List.mem_cons_of_mem _ hq)) n (a ++ [p])
      { map := { st.map with units := setUnit st.map.units p.1 p.2, limits := st.map.limits.push p.1, dirty := true }
        mn := if p.1.size < st.mn then p.1.size else st.mn
        mx := if p.1.size > st.mx then p.1.size else st.mx }
      (by simp at hn; omega)
      (by dsimp only; rw [setUnit_last _ _ _ hlast, hu, List.map_append]; rfl)
      (by rw [List.append_assoc]; exact hs)
      (by
        constructor
        · intro q hq
          dsimp only
          rcases List.mem_append.1 hq with hq | hq
          · have := hl.mn_le q hq
            constructor <;> split <;> omega
          · rw [List.mem_singleton] at hq
            subst hq
            constructor <;> split <;> omega
        · intro q hq
          simp only [CodeLimits.push]
          rcases List.mem_append.1 hq with hq | hq
          · have := hl.lim_le q hq
            constructor <;> split <;> omega
          · rw [List.mem_singleton] at hq
            subst hq
            constructor <;> split <;> omega)
      (by
        constructor
        · dsimp only; split
          · exact Or.inr ⟨p, hall, rfl⟩
          · exact hf.mn
        · dsimp only; split
          · exact Or.inr ⟨p, hall, rfl⟩
          · exact hf.mx
        · simp only [CodeLimits.push]; split
          · exact Or.inr ⟨p, hall, rfl⟩
          · exact hf.lmn
        · simp only [CodeLimits.push]; split
          · exact Or.inr ⟨p, hall, rfl⟩
          · exact hf.lmx)
    refine ⟨st', ?_, by rw [e2]; simp, by simpa using e3, e4⟩
    rw [List.flatMap_cons, pairLoop]
    have hne : codeBytes p.1.code p.1.size ≠ [] := by
      intro e
      have := congrArg List.length e
      rw [codeBytes_length] at this
      simp at this; omega
    rw [List.append_assoc, bfLine_append, seqNext_code hne]
    simp only
    rw [psVariant_ws (by decide), psVariant_points h4 _ d hd]
    simp only
    rw [bfChar_pair st p ⟨h1, h2, h3, h4, h5⟩]
    simp only
    rw [← e1]
    cases n with
    | zero => rfl
    | succ n => rw [pairLoop, pairLoop, seqNext_ws (by decide)]

/-! ### The code space -/

theorem foldl_range_mem (r : List (CharCode × List Nat)) (a : CharCode × CharCode) (l : List (CharCode × List Nat))
    (ha : (∃ p ∈ l, p.1 = a.1) ∧ ∃ p ∈ l, p.1 = a.2) (hr : ∀ x ∈ r, x ∈ l) :
    (∃ p ∈ l, p.1 = (r.foldl (fun a x => (if x.1.code < a.1.code then x.1 else a.1, if x.1.code > a.2.code then x.1 else a.2)) a).1) ∧
    (∃ p ∈ l, p.1 = (r.foldl (fun a x => (if x.1.code < a.1.code then x.1 else a.1, if x.1.code > a.2.code then x.1 else a.2)) a).2) := by
  induction r generalizing a with
  | nil => exact ha
  | cons x r ih =>
    refine ih _ ⟨?_, ?_⟩ (fun y hy => hr y (List.mem_cons_of_mem _ hy))
    · dsimp only; split
      · exact ⟨x, hr x List.mem_cons_self, rfl⟩
      · exact ha.1
    · dsimp only; split
      · exact ⟨x, hr x List.mem_cons_self, rfl⟩
      · exact ha.2

theorem sizeRange_mem {ps : List (CharCode × List Nat)} {size : Nat} {a b : CharCode} (h : sizeRange ps size = some (a, b)) :
    (∃ p ∈ ps, p.1 = a) ∧ ∃ p ∈ ps, p.1 = b := by
  rw [sizeRange] at h
  split at h
  · simp at h
  · rename_i p r hp
    simp only [Option.some.injEq] at h
    have hm : ∀ x ∈ p :: r, x ∈ ps := by
      intro x hx
      rw [← hp] at hx
      exact (List.mem_filter.1 hx).1
    have := foldl_range_mem r (p.1, p.1) ps ⟨⟨p, hm p List.mem_cons_self, rfl⟩, ⟨p, hm p List.mem_cons_self, rfl⟩⟩
      (fun x hx => hm x (List.mem_cons_of_mem _ hx))
    rw [h] at this
    exact this

theorem sizesFrom_code {all : List (CharCode × List Nat)} {st : CMState} {c : CharCode} (h : SizesFrom all st) (hc : ∃ p ∈ all, p.1 = c) :
    SizesFrom all { st with mn := if c.size < st.mn then c.size else st.mn
                            mx := if c.size > st.mx then c.size else st.mx } := by
  obtain ⟨p, hp, rfl⟩ := hc
  constructor
  · dsimp only; split
    · exact Or.inr ⟨p, hp, rfl⟩
    · exact h.mn
  · dsimp only; split
    · exact Or.inr ⟨p, hp, rfl⟩
    · exact h.mx
  · exact h.lmn
  · exact h.lmx

theorem codeSpace_pair (st : CMState) (a b : CharCode) (ha : a.code < 256 ^ a.size ∧ a.size ≤ 4) (hb : b.code < 256 ^ b.size ∧ b.size ≤ 4) :
    codeSpace st (.str (codeBytes a.code a.size) true) (.str (codeBytes b.code b.size) true) =
      .ok { map := st.map
            mn := if b.size < (if a.size < st.mn then a.size else st.mn) then b.size else (if a.size < st.mn then a.size else st.mn)
            mx := if b.size > (if a.size > st.mx then a.size else st.mx) then b.size else (if a.size > st.mx then a.size else st.mx) } := by
  rw [codeSpace, code_str st _ true (by rw [codeBytes_length]; exact ha.2)]
  simp only
  rw [code_str _ _ true (by rw [codeBytes_length]; exact hb.2)]
  simp only [codeBytes_length]

theorem codeSpace_loop (all : List (CharCode × List Nat)) (hall : ∀ p ∈ all, PairOK p) (rest : Bytes) (d : Nat) (hd : d + 1 ≤ 256) (hrest : StartsOk rest)
    (order : List Nat) :
    ∃ t, codeSpaceText all order = .ok t ∧ ∀ (n : Nat) (st : CMState), t.length < n → SizesFrom all st →
      ∃ st', pairLoop kwEndCodeSpace codeSpace n st ⟨[], t ++ 10 :: (kwEndCodeSpace ++ rest), d⟩ = .ok (st', ⟨[], rest, d⟩) ∧
        st'.map = st.map ∧ SizesFrom all st' := by
  induction order with
  | nil =>
    refine ⟨[], rfl, fun n st hn hf => ⟨st, ?_, rfl, hf⟩⟩
    obtain ⟨n, rfl⟩ : ∃ m, n = m + 1 := ⟨n - 1, by simp at hn; omega⟩
    rw [List.nil_append, pairLoop, seqNext_ws (by decide), seqNext_end (by decide +kernel) hrest]
  | cons size r ih =>
    obtain ⟨t, ht, hl⟩ := ih
    rw [codeSpaceText]
    cases hs : sizeRange all size with
    | none =>
      simp only
      exact ⟨t, ht, fun n st hn hf => hl n st hn hf⟩
    | some ab =>
      obtain ⟨a, b⟩ := ab
      obtain ⟨⟨pa, hpa, ea⟩, ⟨pb, hpb, eb⟩⟩ := sizeRange_mem hs
      obtain ⟨a1, a2, a3, _, _⟩ := hall pa hpa
      obtain ⟨b1, b2, b3, _, _⟩ := hall pb hpb
      rw [ea] at a1 a2 a3
      rw [eb] at b1 b2 b3
      simp only
      rw [hexCode_ok a1 a2 a3, hexCode_ok b1 b2 b3, ht]
      refine ⟨_, rfl, fun n st hn hf => ?_⟩
      obtain ⟨n, rfl⟩ : ∃ m, n = m + 1 := ⟨n - 1, by simp at hn; omega⟩
      obtain ⟨st', e1, e2, e3⟩ := hl n
        { map := st.map
          mn := if b.size < (if a.size < st.mn then a.size else st.mn) then b.size else (if a.size < st.mn then a.size else st.mn)
          mx := if b.size > (if a.size > st.mx then a.size else st.mx) then b.size else (if a.size > st.mx then a.size else st.mx) }
        (by
          simp only [List.length_append, List.length_cons] at hn
          by_cases e : t = []
          · rw [e]; simp only [List.length_nil]; omega
          · rw [if_neg e] at hn; simp only [List.length_cons] at hn; omega) (sizesFrom_code (sizesFrom_code hf ⟨pa, hpa, ea⟩) ⟨pb, hpb, eb⟩)
      refine ⟨st', ?_, e2, e3⟩
      have hna : codeBytes a.code a.size ≠ [] := by
        intro e
        have := congrArg List.length e
        rw [codeBytes_length] at this
        simp at this; omega
      have hnb : codeBytes b.code b.size ≠ [] := by
        intro e
        have := congrArg List.length e
        rw [codeBytes_length] at this
        simp at this; omega
      rw [pairLoop, List.append_assoc, List.append_assoc, seqNext_code hna]
      simp only
      rw [psVariant_code hnb _ d hd]
      simp only
      rw [codeSpace_pair st a b ⟨a3, a2⟩ ⟨b3, b2⟩]
      simp only
      rw [← e1]
      by_cases e : t = []
      · rw [if_pos e, e]
      · rw [if_neg e, List.cons_append]
        cases n with
        | zero => rfl
        | succ n => rw [pairLoop, pairLoop, seqNext_ws (by decide)]

/-! ### The whole text -/

/-- The beginning of the text before the dictionary. -/
def headItems1 : List (CItem × Byte) :=
  [(.name (asciiB "CIDInit"), 32), (.name (asciiB "ProcSet"), 32), (.word (asciiB "findresource"), 32), (.word (asciiB "begin"), 10),
    (.num 12, 32), (.word (asciiB "dict"), 32), (.word (asciiB "begin"), 10), (.word (asciiB "begincmap"), 10), (.name (asciiB "CIDSystemInfo"), 32)]

/-- And after it. -/
def headItems2 : List (CItem × Byte) :=
  [(.word (asciiB "def"), 10), (.name (asciiB "CMapName"), 32), (.name (asciiB "Adobe-Identity-UCS"), 32), (.word (asciiB "def"), 10),
    (.name (asciiB "CMapType"), 32), (.num 2, 32), (.word (asciiB "def"), 10), (.num 1, 32)]

/-- The end of the text. -/
def tailItems : List (CItem × Byte) :=
  [(.word (asciiB "endcmap"), 10), (.word (asciiB "CMapName"), 32), (.word (asciiB "currentdict"), 32), (.name [], 32), (.word (asciiB "CMap"), 32),
    (.word (asciiB "defineresource"), 32), (.word (asciiB "pop"), 10), (.word (asciiB "end"), 10)]

theorem toUnicodeHead_eq : toUnicodeHead = itemsText headItems1 ++ (asciiB "<<\n   /Registry (Adobe)\n   /Ordering (" ++ (asciiB "UCS)" ++
    (asciiB "\n   /Supplement 0\n>>" ++ 32 :: (itemsText headItems2 ++ (kwBeginCodeSpace ++ [10]))))) := by decide +kernel

theorem toUnicodeTail_eq : toUnicodeTail = 10 :: (itemsText tailItems ++ asciiB "end") := by decide +kernel

instance (l : List (CItem × Byte)) : Decidable (∀ p ∈ l, p.1.Ok ∧ isWhitespace p.2 = true) :=
  inferInstanceAs (Decidable (∀ p ∈ l, p.1.Ok ∧ isWhitespace p.2 = true))

theorem readString_ucs (X : Bytes) : readString (asciiB "UCS)" ++ X) = (asciiB "UCS", X) := by
  have e : asciiB "UCS)" ++ X = (asciiB "UCS").flatMap wrLitByte ++ 41 :: X := by
    have : (asciiB "UCS").flatMap wrLitByte = asciiB "UCS" := by decide +kernel
    rw [this]
    have : asciiB "UCS)" = asciiB "UCS" ++ [41] := by decide +kernel
    rw [this, List.append_assoc]; rfl
  rw [e, readString, readString_lit]; rfl

/-- Reading the beginning: what follows is read as a code space. -/
theorem cmapLoop_head (n : Nat) (st : CMState) (X : Bytes) {st2 : CMState} {s2 : PS} (h : pairLoop kwEndCodeSpace codeSpace n st ⟨[], 10 :: X, 0⟩ = .ok (st2, s2)) :
    cmapLoop (n + 19) [] st ⟨[], toUnicodeHead ++ X, 0⟩ = cmapLoop n [] st2 s2 := by
  rw [toUnicodeHead_eq]
  simp only [List.append_assoc, List.cons_append, List.nil_append]
  rw [show n + 19 = (n + 10) + headItems1.length from rfl, cmapLoop_items headItems1 (by decide +kernel)]
  obtain ⟨v, hv⟩ := psNext_info (asciiB "UCS)") (32 :: (itemsText headItems2 ++ (kwBeginCodeSpace ++ 10 :: X))) (asciiB "UCS")
    (itemsText headItems2 ++ (kwBeginCodeSpace ++ 10 :: X)) readString_ucs rfl
  rw [cmapLoop_value hv, cmapLoop_ws (by decide), show n + 9 = (n + 1) + headItems2.length from rfl, cmapLoop_items headItems2 (by decide +kernel)]
  refine cmapLoop_keyword (psNext_word (by decide +kernel) (StartsOk.cons_ws (by decide)) 0) n _ st ?_
  rw [cmapSection, if_pos rfl]
  exact h

/-- Reading the end. -/
theorem cmapLoop_tail (n : Nat) (hn : 10 ≤ n) (toks : List Var) (st : CMState) :
    cmapLoop n toks st ⟨[], toUnicodeTail, 0⟩ = .ok st := by
  obtain ⟨n, rfl⟩ : ∃ m, n = (m + 2) + tailItems.length := ⟨n - 10, by simp only [tailItems, List.length_cons, List.length_nil]; omega⟩
  rw [toUnicodeTail_eq, cmapLoop_ws (by decide), cmapLoop_items tailItems (by decide +kernel)]
  have h := psNext_word (w := asciiB "end") (rest := []) (by decide +kernel) (Or.inl rfl) 0
  rw [List.append_nil] at h
  rw [cmapLoop_keyword h (n + 1) _ st (st2 := st) (s2 := ⟨[], [], 0⟩)]
  · refine cmapLoop_end (s' := ⟨[], [], 0⟩) ?_ n _ st
    rw [psNext]
    rfl
  · rw [cmapSection, if_neg (by decide +kernel), if_neg (by decide +kernel), if_neg (by decide +kernel), if_neg (by decide +kernel), if_neg (by decide +kernel)]

theorem parseCMap_start (z n : Nat) (text : Bytes) (h : text.length + 1 = n) : parseCMap z text = cmapLoop n [] ⟨.init z, 255, 0⟩ ⟨[], text, 0⟩ := by
  rw [← h]; rfl

theorem units_pairs (m : CodeMap) : m.pairs.map (fun p => (p.1.code, (p.1.size, p.2))) = m.units := by
  simp [CodeMap.pairs, Function.comp_def]

theorem pairs_pairwise (m : CodeMap) (h : SMap.Sorted m.units) : m.pairs.Pairwise (fun x y => x.1.code < y.1.code) := by
  rw [CodeMap.pairs, List.pairwise_map]
  generalize m.units = us at h
  induction us with
  | nil => exact List.Pairwise.nil
  | cons p r ih => exact List.Pairwise.cons (fun q hq => by simpa [StrictOrd.lt] using h.1 q hq) (ih h.2)

/-- Writing the CMap of a map succeeds, and reading it gives the pairs and the sizes of the codes. -/
theorem toUnicode_read (z : Nat) (m : CodeMap) (order : List Nat) (hp : ∀ p ∈ m.pairs, PairOK p)
    (hs : SMap.Sorted m.units) (hn : m.pairs.length < 1000000000) :
    ∃ text st, toUnicodeText m order = .ok text ∧ parseCMap z text = .ok st ∧ st.map.units = m.units ∧
      AfterLines m.pairs st ∧ SizesFrom m.pairs st := by
  obtain ⟨cs, hcs, hl⟩ := codeSpace_loop m.pairs hp
    (10 :: (fmtNat m.pairs.length ++ 32 :: (kwBeginBfChar ++ 10 :: (m.pairs.flatMap bfLine ++ kwEndBfChar ++ toUnicodeTail))))
    0 (by decide) (StartsOk.cons_ws (by decide)) order
  have ht : toUnicodeText m order = .ok (toUnicodeHead ++ (cs ++ 10 :: (kwEndCodeSpace ++
      10 :: (fmtNat m.pairs.length ++ 32 :: (kwBeginBfChar ++ 10 :: (m.pairs.flatMap bfLine ++ kwEndBfChar ++ toUnicodeTail)))))) := by
    rw [toUnicodeText, hcs, fmtU32, if_pos hn, bfLines_ok _ hp]
    simp only [List.append_assoc]
  have hlen : ∀ ps : List (CharCode × List Nat), ps.length ≤ (ps.flatMap bfLine).length := by
    intro ps
    induction ps with
    | nil => simp
    | cons p r ih =>
      have : 1 ≤ (bfLine p).length := by simp [bfLine]
      rw [List.flatMap_cons, List.length_append, List.length_cons]; omega
  have hlen := hlen m.pairs
  obtain ⟨st1, e1, e2, e3⟩ := hl ((toUnicodeHead.length - 18) + (cs ++ 10 :: (kwEndCodeSpace ++
      10 :: (fmtNat m.pairs.length ++ 32 :: (kwBeginBfChar ++ 10 :: (m.pairs.flatMap bfLine ++ kwEndBfChar ++ toUnicodeTail))))).length)
    ⟨.init z, 255, 0⟩ (by rw [List.length_append]; have : 20 ≤ toUnicodeHead.length := by decide +kernel
                          omega) ⟨Or.inl rfl, Or.inl rfl, Or.inl rfl, Or.inl rfl⟩
  have hh : 20 ≤ toUnicodeHead.length := by decide +kernel
  have htl : 12 ≤ toUnicodeTail.length := by decide +kernel
  obtain ⟨k, hk⟩ : ∃ k, (toUnicodeHead.length - 18) + (cs ++ 10 :: (kwEndCodeSpace ++
      10 :: (fmtNat m.pairs.length ++ 32 :: (kwBeginBfChar ++ 10 :: (m.pairs.flatMap bfLine ++ kwEndBfChar ++ toUnicodeTail))))).length = k + 2 := ⟨_, (Nat.sub_add_cancel (by omega)).symm⟩
  have hkm : m.pairs.length < k ∧ 10 ≤ k := by
    simp only [List.length_append, List.length_cons] at hk
    omega
  obtain ⟨st2, f1, f2, f3, f4⟩ := lines_loop m.pairs m.pairs (fun p h => ⟨hp p h, h⟩) toUnicodeTail 0 (by decide)
    (by rw [toUnicodeTail_eq]; exact StartsOk.cons_ws (by decide)) k [] st1 hkm.1 (by rw [e2]; rfl) (by simpa using pairs_pairwise m hs)
    ⟨by simp, by simp⟩ e3
  refine ⟨_, st2, ht, ?_, ?_, by simpa using f3, f4⟩
  · rw [parseCMap_start z ((k + 2) + 19) _ (by rw [List.length_append]; omega)]
    rw [cmapLoop_head (st2 := st1) (s2 := ⟨[], 10 :: (fmtNat m.pairs.length ++ 32 :: (kwBeginBfChar ++ 10 :: (m.pairs.flatMap bfLine ++ kwEndBfChar ++ toUnicodeTail))), 0⟩)]
    · rw [cmapLoop_ws (by decide), cmapLoop_value (psNext_num (by omega) (StartsOk.cons_ws (by decide)) 0), cmapLoop_ws (by decide),
        cmapLoop_keyword (psNext_word (by decide +kernel) (StartsOk.cons_ws (by decide)) 0) k _ st1 (st2 := st2) (s2 := ⟨[], toUnicodeTail, 0⟩),
        cmapLoop_tail k hkm.2]
      rw [cmapSection, if_neg (by decide +kernel), if_neg (by decide +kernel), if_pos rfl, ← f1]
      cases k with
      | zero => rfl
      | succ k => rw [pairLoop, pairLoop, seqNext_ws (by decide), List.append_assoc]
    · rw [← e1, ← hk]
      have : ∃ j, (toUnicodeHead.length - 18) + (cs ++ 10 :: (kwEndCodeSpace ++
      10 :: (fmtNat m.pairs.length ++ 32 :: (kwBeginBfChar ++ 10 :: (m.pairs.flatMap bfLine ++ kwEndBfChar ++ toUnicodeTail))))).length = j + 1 := ⟨k + 1, hk⟩
      obtain ⟨j, hj⟩ := this
      rw [hj, pairLoop, pairLoop, seqNext_ws (by decide)]
  · rw [f2, List.nil_append, units_pairs]

theorem insert_length (us : List (Nat × (Nat × List Nat))) (k : Nat) (v : Nat × List Nat) : (SMap.insert k v us).length ≤ us.length + 1 := by
  induction us with
  | nil => simp [SMap.insert]
  | cons p r ih =>
    obtain ⟨k', v'⟩ := p
    rw [SMap.insert]
    split
    · simp
    · split
      · simp
      · simp only [List.length_cons]; omega

theorem reach_length {z : Nat} {ps : List (CharCode × List Nat)} {m : CodeMap} (h : CodeMap.Reach z ps m) : m.units.length ≤ ps.length := by
  induction h with
  | init => exact Nat.le_refl _
  | @push ps m m' c cps _ hp ih =>
    rw [CodeMap.push] at hp
    split at hp
    · simp [raise] at hp
    · split at hp
      · simp [raise] at hp
      · simp only [Except.ok.injEq] at hp
        subst hp
        simp only [setUnit, List.length_append, List.length_cons, List.length_nil]
        split
        · exact Nat.le_trans (insert_length _ _ _) (by omega)
        · exact Nat.le_trans (insert_length _ _ _) (by omega)
  | @lookup ps m order _ _ ih =>
    rw [CodeMap.revise]; split <;> exact ih

theorem cmapFromText_limits {z : Nat} {text : Bytes} {st : CMState} {r : CMapRead} (h1 : parseCMap z text = .ok st)
    (h2 : cmapFromText z text = .ok r) : r.limits = st.limits := by
  rw [cmapFromText, h1] at h2
  simp only at h2
  split at h2
  · simp only [Except.ok.injEq] at h2; subst h2; rfl
  · split at h2 <;> (simp only [Except.ok.injEq] at h2; subst h2; rfl)

theorem cmapFromText_ok {z : Nat} {text : Bytes} {st : CMState} (h1 : parseCMap z text = .ok st) : ∃ r, cmapFromText z text = .ok r := by
  rw [cmapFromText, h1]
  simp only
  split
  · exact ⟨_, rfl⟩
  · split <;> exact ⟨_, rfl⟩

/-- **C101**: the `ToUnicode` CMap written for a character code map is written without an error, and reading it gives an encoding that maps
every code of the map to the same characters, with the same smallest and largest sizes of codes. -/
theorem C101_read_back {z : Nat} {ps : List (CharCode × List Nat)} {m : CodeMap} (h : CodeMap.Reach z ps m) (h1 : OneSize ps)
    (hp : ∀ p ∈ ps, PairOK p) (hne : ps ≠ []) (hn : ps.length < 1000000000) (order : List Nat) :
    ∃ text r, toUnicodeText m order = .ok text ∧ cmapFromText z text = .ok r ∧
      (∀ c cps, Maps ps c cps → r.codePoints c = some cps) ∧
      (∃ p ∈ ps, p.1.size = r.limits.minSize) ∧ (∀ p ∈ ps, r.limits.minSize ≤ p.1.size) ∧
      (∃ p ∈ ps, p.1.size = r.limits.maxSize) ∧ (∀ p ∈ ps, p.1.size ≤ r.limits.maxSize) := by
  have inv := CodeMap.reach_inv h
  have hpairs : ∀ p ∈ m.pairs, p ∈ ps := by
    rintro ⟨c, cps⟩ hx
    obtain ⟨a, b, e, _⟩ := (inv.maps h1 c cps).1 hx
    rw [e]; simp
  have hseen : ∀ p ∈ ps, ∃ q ∈ m.pairs, q.1 = p.1 := by
    intro p hpm
    have := inv.seen p hpm
    cases hf : SMap.find? p.1.code m.units with
    | none => rw [hf] at this; simp at this
    | some v =>
      obtain ⟨x, hx, he⟩ := inv.from_ps _ v.1 v.2 hf
      have := h1 x hx p hpm (by rw [he])
      refine ⟨(p.1, v.2), (mem_pairs inv.sorted _ _).2 ?_, rfl⟩
      rw [← this, he, hf]
  have hlen : m.pairs.length ≤ ps.length := by rw [CodeMap.pairs, List.length_map]; exact reach_length h
  obtain ⟨text, st, e1, e2, e3, e4, e5⟩ := toUnicode_read z m order (fun p hx => hp p (hpairs p hx)) inv.sorted (by omega)
  obtain ⟨r, hr⟩ := cmapFromText_ok e2
  have hmin : ∀ p ∈ ps, st.mn ≤ p.1.size ∧ p.1.size ≤ st.mx ∧ st.map.limits.minSize ≤ p.1.size ∧ p.1.size ≤ st.map.limits.maxSize := by
    intro p hpm
    obtain ⟨q, hq, he⟩ := hseen p hpm
    rw [← he]
    exact ⟨(e4.mn_le q hq).1, (e4.mn_le q hq).2, (e4.lim_le q hq).1, (e4.lim_le q hq).2⟩
  obtain ⟨p0, hp0⟩ : ∃ p, p ∈ ps := by
    cases ps with
    | nil => exact absurd rfl hne
    | cons a b => exact ⟨a, List.mem_cons_self⟩
  have h0 := hmin p0 hp0
  have h4 := hp p0 hp0
  have lift : ∀ n, (∃ p ∈ m.pairs, p.1.size = n) → ∃ p ∈ ps, p.1.size = n := by
    rintro n ⟨p, hpm, he⟩
    exact ⟨p, hpairs p hpm, he⟩
  refine ⟨text, r, e1, hr, ?_, ?_, ?_, ?_, ?_⟩
  · intro c cps hm
    refine C100_listed_partial z text st r e2 hr c cps ?_
    rw [CodeMap.codePoints, e3, (mem_pairs inv.sorted c cps).1 ((inv.maps h1 c cps).2 hm)]
    rfl
  · rw [cmapFromText_limits e2 hr]
    simp only [CMState.limits]
    obtain ⟨a, b, _⟩ := h4
    split
    · rcases e5.mn with h | h
      · omega
      · exact lift _ h
    · rcases e5.lmn with h | h
      · omega
      · exact lift _ h
  · intro p hpm
    rw [cmapFromText_limits e2 hr]
    simp only [CMState.limits]
    have := hmin p hpm
    split <;> omega
  · rw [cmapFromText_limits e2 hr]
    simp only [CMState.limits]
    obtain ⟨a, b, _⟩ := h4
    split
    · rcases e5.mx with h | h
      · omega
      · exact lift _ h
    · rcases e5.lmx with h | h
      · omega
      · exact lift _ h
  · intro p hpm
    rw [cmapFromText_limits e2 hr]
    simp only [CMState.limits]
    have := hmin p hpm
    split <;> omega

example : ∃ m, CodeMap.Reach 0 [(⟨1, 1⟩, [102, 105]), (⟨258, 2⟩, [0x1F600])] m ∧
    ∀ p ∈ [((⟨1, 1⟩ : CharCode), [102, 105]), (⟨258, 2⟩, [0x1F600])], PairOK p := by
  refine ⟨_, .push (ps := [(⟨1, 1⟩, [102, 105])]) (.push (ps := []) .init rfl) rfl, ?_⟩
  intro p hp
  simp only [List.mem_cons, List.not_mem_nil, or_false] at hp
  rcases hp with rfl | rfl <;> simp [PairOK, IsScalar]

end Pdfmm
