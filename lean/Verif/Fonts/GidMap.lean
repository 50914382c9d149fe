import Verif.Base.Basic
import Verif.Base.SMap
import Verif.Syntax.TokModel
set_option autoImplicit false
/-
The numbering of glyphs in subset fonts, the `/CIDToGIDMap` stream, the `/CIDSet` stream, the tags of subset fonts and the length of strings:
`src/pdfmm/base/PdfFont.cpp`, `src/pdfmm/base/PdfCIDToGIDMap.cpp`, `src/pdfmm/base/PdfFontCIDTrueType.cpp`, `src/pdfmm/base/PdfFontManager.cpp`.
Properties C129 to C133.
-/
namespace Pdfmm

/-! ### C129: the stream of a `/CIDToGIDMap` -/

/-- `utls::WriteUInt16BE((uint16_t)gid)`. -/
def gidBytes (g : Nat) : Bytes := [UInt8.ofNat (g / 256 % 256), UInt8.ofNat (g % 256)]

/-- The loop of `ExportTo`, `src/pdfmm/base/PdfCIDToGIDMap.cpp:47-67`, over the pairs in order of the CIDs: `prev` is `previousCid`. -/
def exportGidMap : Nat → List (Nat × Nat) → Bytes
  | _, [] => []
  | prev, (c, g) :: l => (List.replicate (c - prev) 0).flatMap gidBytes ++ gidBytes g ++ exportGidMap (max prev c) l

/-- A `char` converted to `unsigned`. -/
def charToU32 (b : Byte) : Nat := truncTo 32 (schar b)

/-- The glyph index of two bytes as `Create` computes it, `src/pdfmm/base/PdfCIDToGIDMap.cpp:28`: the bytes of the buffer are `char`s. -/
def readGid (h l : Byte) : Nat := (charToU32 h * 256) % 4294967296 ||| charToU32 l

/-- `Create`, `src/pdfmm/base/PdfCIDToGIDMap.cpp:18-33`, for the decoded data of the stream, from CID `i` on. -/
def createGidMap : Nat → Bytes → List (Nat × Nat)
  | i, h :: l :: r => (i, readGid h l) :: createGidMap (i + 1) r
  | _, _ => []

namespace Spec

/-- The glyph of a CID in the stream (PDF 32000-1, table 117): the two bytes at `2 * cid`, the first one high. -/
def storedGid (data : Bytes) (cid : Nat) : Option Nat :=
  match data[2 * cid]?, data[2 * cid + 1]? with
  | some h, some l => some (256 * h.toNat + l.toNat)
  | _, _ => none

end Spec

open Spec

/-- The entries that `ExportTo` writes. -/
def exportGids : Nat → List (Nat × Nat) → List Nat
  | _, [] => []
  | prev, (c, g) :: l => List.replicate (c - prev) 0 ++ g :: exportGids (max prev c) l

theorem exportGidMap_eq (prev : Nat) (m : List (Nat × Nat)) : exportGidMap prev m = (exportGids prev m).flatMap gidBytes := by
  induction m generalizing prev with
  | nil => rfl
  | cons p m ih => simp [exportGidMap, exportGids, ih]

theorem storedGid_flat (l : List Nat) (i : Nat) : storedGid (l.flatMap gidBytes) i = (l[i]?).map (· % 65536) := by
  induction l generalizing i with
  | nil => simp [storedGid]
  | cons g l ih =>
    cases i with
    | zero =>
      simp only [storedGid, List.flatMap_cons, gidBytes, List.cons_append, List.nil_append, Nat.mul_zero, Nat.zero_add,
        List.getElem?_cons_zero, List.getElem?_cons_succ, Option.map_some, Option.some.injEq, UInt8.toNat_ofNat']
      omega
    | succ i =>
      have := ih i
      simp only [storedGid, List.flatMap_cons, gidBytes, List.cons_append, List.nil_append] at this ⊢
      rw [show 2 * (i + 1) = 2 * i + 1 + 1 by omega]
      simp only [List.getElem?_cons_succ]
      exact this

theorem readGid_small {h l : Byte} (h1 : h.toNat < 128) (h2 : l.toNat < 128) : readGid h l = 256 * h.toNat + l.toNat := by
  have e : ∀ b : Byte, b.toNat < 128 → charToU32 b = b.toNat := by
    intro b hb
    rw [charToU32, schar, if_pos hb, truncTo]
    have : ((2 ^ 32 : Nat) : Int) = 4294967296 := by decide
    rw [this]; omega
  rw [readGid, e h h1, e l h2, Nat.mod_eq_of_lt (by omega)]
  have := Nat.shiftLeft_add_eq_or_of_lt (i := 8) (show l.toNat < 2 ^ 8 by omega) h.toNat
  rw [Nat.shiftLeft_eq, show (2 : Nat) ^ 8 = 256 from rfl] at this
  omega

theorem readGid_large {h l : Byte} (hb : 128 ≤ h.toNat ∨ 128 ≤ l.toNat) : 65535 < readGid h l := by
  have e : ∀ b : Byte, 128 ≤ b.toNat → charToU32 b = 4294967040 + b.toNat := by
    intro b hb
    have := b.toNat_lt
    rw [charToU32, schar, if_neg (by omega), truncTo]
    have : ((2 ^ 32 : Nat) : Int) = 4294967296 := by decide
    rw [this]; omega
  rw [readGid]
  rcases hb with hb | hb
  · refine Nat.lt_of_lt_of_le ?_ Nat.left_le_or
    rw [e h hb]
    have := h.toNat_lt
    omega
  · refine Nat.lt_of_lt_of_le ?_ Nat.right_le_or
    rw [e l hb]; omega

/-- C129, reading.  From a stream whose bytes are all below 128, every CID gets the glyph that the stream states. -/
theorem C129_read_partial (data : Bytes) (h : ∀ b ∈ data, b.toNat < 128) (cid : Nat) :
    (createGidMap 0 data).lookup cid = storedGid data cid := by
  have key : ∀ (n : Nat) (data : Bytes), data.length ≤ n → (∀ b ∈ data, b.toNat < 128) → ∀ i cid, i ≤ cid →
      (createGidMap i data).lookup cid = storedGid data (cid - i) := by
    intro n
    induction n with
    | zero =>
      intro data hn _ i cid _
      have : data = [] := List.length_eq_zero_iff.1 (by omega)
      subst this; rfl
    | succ n ih =>
      intro data hn hb i cid hi
      match data, hn, hb with
      | [], _, _ => rfl
      | [a], _, _ =>
        simp only [createGidMap, List.lookup_nil, storedGid]
        rw [List.getElem?_eq_none (by simp : [a].length ≤ 2 * (cid - i) + 1)]
        split <;> simp_all
      | a :: b :: r, hn, hb =>
        rw [createGidMap, List.lookup_cons]
        by_cases hc : cid = i
        · subst hc
          simp only [beq_self_eq_true, Nat.sub_self, storedGid, Nat.mul_zero, Nat.zero_add, List.getElem?_cons_zero, List.getElem?_cons_succ,
            Option.some.injEq]
          exact readGid_small (hb a (by simp)) (hb b (by simp))
        · have : (cid == i) = false := by simpa using hc
          rw [this]
          show (createGidMap (i + 1) r).lookup cid = _
          rw [ih r (by simp only [List.length_cons] at hn; omega) (fun x hx => hb x (by simp [hx])) (i + 1) cid (by omega)]
          simp only [storedGid]
          rw [show 2 * (cid - i) = 2 * (cid - (i + 1)) + 1 + 1 by omega]
          simp only [List.getElem?_cons_succ]
  simpa using key data.length data (Nat.le_refl _) h 0 cid (Nat.zero_le _)

example : (createGidMap 0 [0, 5, 1, 2]).lookup 1 = some 258 := by decide

/-- C129 is false for every entry with a byte of 128 or more: the glyph that is read is none that the stream can state. -/
theorem C129_read_false (h l : Byte) (hb : 128 ≤ h.toNat ∨ 128 ≤ l.toNat) (r : Bytes) :
    (createGidMap 0 (h :: l :: r)).lookup 0 ≠ storedGid (h :: l :: r) 0 := by
  simp only [createGidMap, List.lookup_cons, beq_self_eq_true, storedGid, Nat.mul_zero, Nat.zero_add, List.getElem?_cons_zero,
    List.getElem?_cons_succ, ne_eq, Option.some.injEq]
  have := readGid_large hb
  have := h.toNat_lt
  have := l.toNat_lt
  omega

/-- C129, writing.  A map with one CID is written so that the CID has its glyph and every smaller one glyph 0. -/
theorem C129_write_partial (c g : Nat) (cid : Nat) :
    storedGid (exportGidMap 0 [(c, g)]) cid = if cid = c then some (g % 65536) else if cid < c then some 0 else none := by
  rw [exportGidMap_eq, storedGid_flat]
  simp only [exportGids, Nat.sub_zero]
  by_cases h : cid < c
  · rw [List.getElem?_append_left (by simpa using h), List.getElem?_replicate, if_neg (show cid ≠ c by omega)]; simp only [if_pos h]; rfl
  · rw [List.getElem?_append_right (by simp; omega), List.length_replicate]
    by_cases e : cid = c
    · subst e; simp
    · rw [if_neg e, if_neg h, List.getElem?_eq_none (by simp; omega)]; rfl

example : storedGid (exportGidMap 0 [(3, 260)]) 3 = some 260 := by decide

/-- C129 is false for every map of two or more CIDs: after the first one, a CID is not counted when the next gap is filled, and so the second
CID gets glyph 0. -/
theorem C129_write_false (c0 g0 c1 g1 : Nat) (m : List (Nat × Nat)) (h : c0 < c1) :
    storedGid (exportGidMap 0 ((c0, g0) :: (c1, g1) :: m)) c1 = some 0 := by
  rw [exportGidMap_eq, storedGid_flat]
  simp only [exportGids, Nat.sub_zero, Nat.zero_max]
  rw [List.getElem?_append_right (by simp; omega), List.length_replicate]
  obtain ⟨d, hd⟩ : ∃ d, c1 = c0 + (d + 1) := ⟨c1 - c0 - 1, by omega⟩
  subst hd
  rw [show c0 + (d + 1) - c0 = d + 1 by omega, List.getElem?_cons_succ, List.getElem?_append_left (by simp), List.getElem?_replicate,
    if_pos (by omega)]
  rfl

/-! ### C130: the `/CIDSet` stream -/

/-- The table of masks, `src/pdfmm/base/PdfFontCIDTrueType.cpp:53`. -/
def cidBits : List Byte := [0x80, 0x40, 0x20, 0x10, 0x08, 0x04, 0x02, 0x01]

/-- The body of the loop, `src/pdfmm/base/PdfFontCIDTrueType.cpp:54-59`. -/
def cidSetAdd (data : Bytes) (cid : Nat) : Bytes :=
  let grown := data ++ List.replicate (cid / 8 + 1 - data.length) 0
  grown.set (cid / 8) (grown.getD (cid / 8) 0 ||| cidBits.getD (cid % 8) 0)

/-- The data of `/CIDSet`, `src/pdfmm/base/PdfFontCIDTrueType.cpp:43-60`, for the CIDs in use. -/
def cidSet (cids : List Nat) : Bytes := cids.foldl cidSetAdd []

namespace Spec

/-- A CID is in the set (PDF 32000-1, table 124): the bits are stored with the high-order bit first; bits after the end are not set. -/
def inCidSet (data : Bytes) (cid : Nat) : Bool := (data.getD (cid / 8) 0).toNat.testBit (7 - cid % 8)

end Spec

theorem cidBits_bit : ∀ i j : Fin 8, ((cidBits.getD i.1 0).toNat.testBit (7 - j.1)) = decide (i = j) := by decide

theorem cidSetAdd_in (data : Bytes) (c cid : Nat) : inCidSet (cidSetAdd data c) cid = (inCidSet data cid || decide (cid = c)) := by
  have hg : ∀ i, (data ++ List.replicate (c / 8 + 1 - data.length) 0).getD i 0 = data.getD i 0 := by
    intro i
    simp only [List.getD_eq_getElem?_getD]
    by_cases h : i < data.length
    · rw [List.getElem?_append_left h]
    · rw [List.getElem?_append_right (by omega), List.getElem?_eq_none (by omega : data.length ≤ i), List.getElem?_replicate]
      split <;> rfl
  have hl : c / 8 < (data ++ List.replicate (c / 8 + 1 - data.length) (0 : Byte)).length := by
    simp only [List.length_append, List.length_replicate]; omega
  simp only [inCidSet, cidSetAdd]
  by_cases h : cid / 8 = c / 8
  · rw [h, List.getD_eq_getElem?_getD, List.getElem?_set_self hl, Option.getD_some, hg, UInt8.toNat_or, Nat.testBit_or]
    have := cidBits_bit ⟨c % 8, by omega⟩ ⟨cid % 8, by omega⟩
    simp only [Fin.mk.injEq] at this
    rw [this]
    congr 1
    apply decide_eq_decide.2
    omega
  · rw [List.getD_eq_getElem?_getD, List.getElem?_set_ne (fun e => h e.symm), ← List.getD_eq_getElem?_getD, hg,
      decide_eq_false (by intro e; exact h (by rw [e])), Bool.or_false]

/-- C130.  The `/CIDSet` of a subset font has exactly the CIDs in use. -/
theorem C130_cid_set (cids : List Nat) (cid : Nat) : inCidSet (cidSet cids) cid = true ↔ cid ∈ cids := by
  have key : ∀ (cids : List Nat) (data : Bytes), inCidSet (cids.foldl cidSetAdd data) cid = (inCidSet data cid || decide (cid ∈ cids)) := by
    intro cids
    induction cids with
    | nil => intro data; simp
    | cons c cids ih =>
      intro data
      rw [List.foldl_cons, ih, cidSetAdd_in]
      by_cases h : cid = c <;> simp [h]
  rw [cidSet, key]
  simp [inCidSet]

example : cidSet [3, 9, 1] = [0x50, 0x40] := by decide

/-- C130, length.  The stream ends with the byte of the largest CID. -/
theorem C130_length (cids : List Nat) (hne : cids ≠ []) :
    (∀ c ∈ cids, c / 8 < (cidSet cids).length) ∧ ∃ c ∈ cids, (cidSet cids).length = c / 8 + 1 := by
  have hl : ∀ (data : Bytes) c, (cidSetAdd data c).length = max data.length (c / 8 + 1) := by
    intro data c
    simp only [cidSetAdd, List.length_set, List.length_append, List.length_replicate]; omega
  have key : ∀ (cids : List Nat) (data : Bytes),
      data.length ≤ (cids.foldl cidSetAdd data).length ∧ (∀ c ∈ cids, c / 8 < (cids.foldl cidSetAdd data).length) ∧
      ((cids.foldl cidSetAdd data).length = data.length ∨ ∃ c ∈ cids, (cids.foldl cidSetAdd data).length = c / 8 + 1) := by
    intro cids
    induction cids with
    | nil => intro data; simp
    | cons c cids ih =>
      intro data
      obtain ⟨h1, h2, h3⟩ := ih (cidSetAdd data c)
      rw [hl] at h1 h3
      rw [List.foldl_cons]
      refine ⟨by omega, ?_, ?_⟩
      · intro d hd
        rcases List.mem_cons.1 hd with rfl | hd
        · omega
        · exact h2 d hd
      · rcases h3 with h3 | ⟨d, hd, h3⟩
        · by_cases hm : data.length ≤ c / 8 + 1
          · exact Or.inr ⟨c, by simp, by rw [h3]; omega⟩
          · exact Or.inl (by rw [h3]; omega)
        · exact Or.inr ⟨d, by simp [hd], h3⟩
  obtain ⟨_, h2, h3⟩ := key cids []
  refine ⟨h2, ?_⟩
  rcases h3 with h3 | h3
  · exfalso
    cases cids with
    | nil => exact hne rfl
    | cons c cids => have := h2 c (by simp); rw [h3] at this; simp at this
  · exact h3

/-! ### C131: numbering the glyphs in use -/

/-- `AddSubsetGIDSafe` over `tryAddSubsetGID`, `src/pdfmm/base/PdfFont.cpp:656-671` and `766-798`: the new state of `m_SubsetGIDs` and the CID.
The mappings pushed for dynamic encodings are the subject of C193; the failure of fixed encodings for characters they lack is not modelled. -/
def addSubsetGid (m : List (Nat × Nat)) (gid : Nat) : List (Nat × Nat) × Nat :=
  match SMap.find? gid m with
  | some c => (m, c)
  | none => (SMap.insert gid (m.length + 1) m, m.length + 1)

/-- The state after a history of uses of glyphs. -/
def usedGids (gids : List Nat) : List (Nat × Nat) := gids.foldl (fun m g => (addSubsetGid m g).1) []

/-- `getCIDToGIDMapSubset`, `src/pdfmm/base/PdfFontCID.cpp:142-153`. -/
def subsetCidMap (used : List (Nat × Nat)) : List (Nat × Nat) :=
  used.foldl (fun m p => if (SMap.find? p.2 m).isSome then m else SMap.insert p.2 p.1 m) []

namespace Spec

/-- The different glyphs of a history in the order of their first use. -/
def firstUses (gids : List Nat) : List Nat := gids.foldl (fun l g => if g ∈ l then l else l ++ [g]) []

/-- Numbered from 1 on. -/
def fromOne : Nat → List Nat → List (Nat × Nat)
  | _, [] => []
  | i, g :: l => (i, g) :: fromOne (i + 1) l

end Spec

theorem fromOne_append (i : Nat) (l r : List Nat) : fromOne i (l ++ r) = fromOne i l ++ fromOne (i + l.length) r := by
  induction l generalizing i with
  | nil => simp [fromOne]
  | cons g l ih =>
    simp only [List.cons_append, fromOne, ih, List.length_cons, List.cons.injEq, true_and]
    rw [show i + 1 + l.length = i + (l.length + 1) by omega]

theorem fromOne_mem {i : Nat} {l : List Nat} {p : Nat × Nat} : p ∈ fromOne i l ↔ i ≤ p.1 ∧ l[p.1 - i]? = some p.2 := by
  induction l generalizing i with
  | nil => simp [fromOne]
  | cons g l ih =>
    obtain ⟨c, q⟩ := p
    simp only [fromOne, List.mem_cons, ih, Prod.mk.injEq]
    constructor
    · rintro (⟨rfl, rfl⟩ | ⟨h1, h2⟩)
      · simp
      · refine ⟨by omega, ?_⟩
        rw [show c - i = (c - (i + 1)) + 1 by omega]; simpa using h2
    · rintro ⟨h1, h2⟩
      by_cases e : c = i
      · subst e; left; simp at h2; exact ⟨rfl, h2.symm⟩
      · right
        refine ⟨by omega, ?_⟩
        rw [show c - i = (c - (i + 1)) + 1 by omega] at h2; simpa using h2

theorem fromOne_sorted (i : Nat) (l : List Nat) : SMap.Sorted (fromOne i l) := by
  induction l generalizing i with
  | nil => trivial
  | cons g l ih =>
    refine ⟨?_, ih _⟩
    intro p hp
    have := (fromOne_mem.1 hp).1
    simp only [StrictOrd.lt, decide_eq_true_eq]; omega

/-- What holds of `m_SubsetGIDs` when `l` are the glyphs used so far. -/
structure UsedInv (m : List (Nat × Nat)) (l : List Nat) : Prop where
  sorted : SMap.Sorted m
  nodup : l.Nodup
  length : m.length = l.length
  find : ∀ g c, SMap.find? g m = some c ↔ 1 ≤ c ∧ l[c - 1]? = some g

theorem insert_length_new {V : Type} (k : Nat) (v : V) (m : List (Nat × V)) (h : SMap.find? k m = none) : (SMap.insert k v m).length = m.length + 1 := by
  induction m with
  | nil => rfl
  | cons p m ih =>
    obtain ⟨k', v'⟩ := p
    rw [SMap.find?] at h
    split at h
    · cases h
    · rename_i hk
      rw [SMap.insert, if_neg hk]
      split
      · simp
      · simp [ih h]

theorem UsedInv.none_iff {m : List (Nat × Nat)} {l : List Nat} (i : UsedInv m l) (g : Nat) : SMap.find? g m = none ↔ g ∉ l := by
  constructor
  · intro h hm
    obtain ⟨k, hk, hg⟩ := List.getElem_of_mem hm
    have := (i.find g (k + 1)).2 ⟨by omega, by simp [List.getElem?_eq_getElem hk, hg]⟩
    rw [h] at this; cases this
  · intro h
    cases hf : SMap.find? g m with
    | none => rfl
    | some c => exact absurd (List.mem_of_getElem? ((i.find g c).1 hf).2) h

theorem UsedInv.add {m : List (Nat × Nat)} {l : List Nat} (i : UsedInv m l) (g : Nat) :
    UsedInv (addSubsetGid m g).1 (if g ∈ l then l else l ++ [g]) := by
  rw [addSubsetGid]
  cases hf : SMap.find? g m with
  | some c =>
    have : g ∈ l := List.mem_of_getElem? ((i.find g c).1 hf).2
    rw [if_pos this]; exact i
  | none =>
    have hn := (i.none_iff g).1 hf
    rw [if_neg hn]
    refine ⟨SMap.sorted_insert _ _ _ i.sorted, ?_, ?_, ?_⟩
    · rw [List.nodup_append]
      exact ⟨i.nodup, by simp, fun a ha b hb => by rw [List.mem_singleton.1 hb]; intro e; subst e; exact hn ha⟩
    · rw [insert_length_new _ _ _ hf, i.length]; simp
    · intro g' c
      by_cases e : g' = g
      · subst e
        rw [SMap.find_insert_self, i.length]
        constructor
        · intro h; cases h; exact ⟨by omega, by simp⟩
        · rintro ⟨h1, h2⟩
          by_cases hc : c - 1 < l.length
          · rw [List.getElem?_append_left hc] at h2
            exact absurd (List.mem_of_getElem? h2) hn
          · have := (List.getElem?_eq_some_iff.1 h2).1
            simp only [List.length_append, List.length_singleton] at this
            congr 1; omega
      · rw [SMap.find_insert_ne _ _ e, i.find]
        constructor
        · rintro ⟨h1, h2⟩
          exact ⟨h1, by rw [List.getElem?_append_left (List.getElem?_eq_some_iff.1 h2).1]; exact h2⟩
        · rintro ⟨h1, h2⟩
          refine ⟨h1, ?_⟩
          by_cases hc : c - 1 < l.length
          · rw [List.getElem?_append_left hc] at h2; exact h2
          · rw [List.getElem?_append_right (by omega)] at h2
            have := List.mem_of_getElem? h2
            exact absurd (List.mem_singleton.1 this) e

theorem usedGids_inv (gids : List Nat) : UsedInv (usedGids gids) (firstUses gids) := by
  have key : ∀ (gids : List Nat) m l, UsedInv m l →
      UsedInv (gids.foldl (fun m g => (addSubsetGid m g).1) m) (gids.foldl (fun l g => if g ∈ l then l else l ++ [g]) l) := by
    intro gids
    induction gids with
    | nil => intro m l i; exact i
    | cons g gids ih => intro m l i; exact ih _ _ (i.add g)
  refine key gids [] [] ⟨trivial, List.nodup_nil, rfl, ?_⟩
  intro g c; simp [SMap.find?]

/-- C131.  The CIDs of a subset font are 1, 2, 3 and so on in the order of the first use of the glyphs, each glyph in use has exactly one of them,
and the map handed to the font writer is this numbering. -/
theorem C131_numbering (gids : List Nat) : subsetCidMap (usedGids gids) = fromOne 1 (firstUses gids) := by
  have i := usedGids_inv gids
  obtain ⟨m, hm⟩ : ∃ m, m = usedGids gids := ⟨_, rfl⟩
  obtain ⟨l, hl⟩ : ∃ l, l = firstUses gids := ⟨_, rfl⟩
  rw [← hm, ← hl] at i ⊢
  have key : ∀ (m : List (Nat × Nat)) (acc : List (Nat × Nat)), SMap.Sorted acc →
      (∀ p ∈ m, ∀ q ∈ m, p.2 = q.2 → p.1 = q.1) → (∀ p ∈ m, ∀ g, SMap.find? p.2 acc = some g → g = p.1) →
      SMap.Sorted (m.foldl (fun m p => if (SMap.find? p.2 m).isSome then m else SMap.insert p.2 p.1 m) acc) ∧
      ∀ c g, SMap.find? c (m.foldl (fun m p => if (SMap.find? p.2 m).isSome then m else SMap.insert p.2 p.1 m) acc) = some g ↔
        SMap.find? c acc = some g ∨ (g, c) ∈ m := by
    intro m
    induction m with
    | nil => intro acc hs _ _; exact ⟨hs, by simp⟩
    | cons p m ih =>
      intro acc hs hinj hacc
      rw [List.foldl_cons]
      by_cases hp : (SMap.find? p.2 acc).isSome
      · rw [if_pos hp]
        obtain ⟨g0, hg0⟩ := Option.isSome_iff_exists.1 hp
        have hg1 := hacc p (by simp) g0 hg0
        obtain ⟨r1, r2⟩ := ih acc hs (fun a ha b hb => hinj a (by simp [ha]) b (by simp [hb])) (fun a ha => hacc a (by simp [ha]))
        refine ⟨r1, fun c g => ?_⟩
        rw [r2, List.mem_cons]
        constructor
        · rintro (h | h)
          · exact Or.inl h
          · exact Or.inr (Or.inr h)
        · rintro (h | h | h)
          · exact Or.inl h
          · subst h; subst hg1; exact Or.inl hg0
          · exact Or.inr h
      · rw [if_neg hp]
        have hp' : SMap.find? p.2 acc = none := by
          cases h : SMap.find? p.2 acc with
          | none => rfl
          | some g => rw [h] at hp; exact absurd rfl hp
        obtain ⟨r1, r2⟩ := ih (SMap.insert p.2 p.1 acc) (SMap.sorted_insert _ _ _ hs) (fun a ha b hb => hinj a (by simp [ha]) b (by simp [hb])) (by
          intro q hq g hg
          by_cases e : q.2 = p.2
          · rw [e, SMap.find_insert_self] at hg
            cases hg
            exact hinj p (by simp) q (by simp [hq]) e.symm
          · rw [SMap.find_insert_ne _ _ e] at hg
            exact hacc q (by simp [hq]) g hg)
        refine ⟨r1, fun c g => ?_⟩
        rw [r2, List.mem_cons]
        by_cases e : c = p.2
        · subst e
          rw [SMap.find_insert_self, hp']
          constructor
          · rintro (h | h)
            · cases h; exact Or.inr (Or.inl rfl)
            · exact Or.inr (Or.inr h)
          · rintro (h | h | h)
            · cases h
            · rw [← h]; exact Or.inl rfl
            · exact Or.inr h
        · rw [SMap.find_insert_ne _ _ e]
          constructor
          · rintro (h | h)
            · exact Or.inl h
            · exact Or.inr (Or.inr h)
          · rintro (h | h | h)
            · exact Or.inl h
            · rw [← h] at e; exact absurd rfl e
            · exact Or.inr h
  have hmem : ∀ g c, (g, c) ∈ m ↔ 1 ≤ c ∧ l[c - 1]? = some g := by
    intro g c
    rw [← i.find]
    exact ⟨fun h => SMap.mem_find i.sorted h, fun h => SMap.find_mem h⟩
  obtain ⟨k1, k2⟩ := key m [] trivial (by
    intro p hp q hq e
    have h1 := ((hmem p.1 p.2).1 hp).2
    have h2 := ((hmem q.1 q.2).1 hq).2
    rw [e, h2] at h1
    exact (Option.some.inj h1).symm) (by intro p _ g hg; cases hg)
  refine SMap.ext k1 (fromOne_sorted 1 l) (fun c => ?_)
  cases hf : SMap.find? c (fromOne 1 l) with
  | some g =>
    have := fromOne_mem.1 (SMap.find_mem hf)
    exact (k2 c g).2 (Or.inr ((hmem g c).2 this))
  | none =>
    cases hg : SMap.find? c (subsetCidMap m) with
    | none => rfl
    | some g =>
      rcases (k2 c g).1 hg with h | h
      · cases h
      · have := SMap.mem_find (fromOne_sorted 1 l) (fromOne_mem.2 ((hmem g c).1 h))
        rw [hf] at this; cases this

example : subsetCidMap (usedGids [7, 3, 7, 9, 3]) = [(1, 7), (2, 3), (3, 9)] := by decide

/-- C131, stability.  A glyph that is used again gets the CID it got before, whatever was used in between, and two glyphs never share a CID. -/
theorem C131_stable (gids more : List Nat) (g g' : Nat) (hg : g ∈ gids) :
    (addSubsetGid (usedGids (gids ++ more)) g).2 = (addSubsetGid (usedGids gids) g).2 ∧
    ((addSubsetGid (usedGids (gids ++ more)) g).2 = (addSubsetGid (usedGids (gids ++ more)) g').2 → g = g') := by
  have hmono : ∀ (more l : List Nat), ∃ r, more.foldl (fun l g => if g ∈ l then l else l ++ [g]) l = l ++ r := by
    intro more
    induction more with
    | nil => intro l; exact ⟨[], by simp⟩
    | cons a more ih =>
      intro l
      rw [List.foldl_cons]
      by_cases h : a ∈ l
      · rw [if_pos h]; exact ih l
      · rw [if_neg h]
        obtain ⟨r, hr⟩ := ih (l ++ [a])
        exact ⟨a :: r, by rw [hr]; simp⟩
  have hin : ∀ (gids l : List Nat), (∀ a, a ∈ l ∨ a ∈ gids → a ∈ gids.foldl (fun l g => if g ∈ l then l else l ++ [g]) l) := by
    intro gids
    induction gids with
    | nil => intro l a h; simpa using h
    | cons b gids ih =>
      intro l a h
      rw [List.foldl_cons]
      refine ih _ a ?_
      by_cases hb : b ∈ l
      · rw [if_pos hb]
        rcases h with h | h
        · exact Or.inl h
        · rcases List.mem_cons.1 h with rfl | h
          · exact Or.inl hb
          · exact Or.inr h
      · rw [if_neg hb]
        rcases h with h | h
        · exact Or.inl (by simp [h])
        · rcases List.mem_cons.1 h with rfl | h
          · exact Or.inl (by simp)
          · exact Or.inr h
  have i1 := usedGids_inv gids
  have i2 := usedGids_inv (gids ++ more)
  obtain ⟨r, hr⟩ := hmono more (firstUses gids)
  have e2 : firstUses (gids ++ more) = firstUses gids ++ r := by rw [firstUses, List.foldl_append]; exact hr
  have hg1 : g ∈ firstUses gids := hin gids [] g (Or.inr hg)
  obtain ⟨k, hk, hkg⟩ := List.getElem_of_mem hg1
  have f1 : SMap.find? g (usedGids gids) = some (k + 1) := (i1.find g (k + 1)).2 ⟨by omega, by simp [List.getElem?_eq_getElem hk, hkg]⟩
  have f2 : SMap.find? g (usedGids (gids ++ more)) = some (k + 1) :=
    (i2.find g (k + 1)).2 ⟨by omega, by rw [e2, Nat.add_sub_cancel, List.getElem?_append_left hk, List.getElem?_eq_getElem hk, hkg]⟩
  have a1 : (addSubsetGid (usedGids gids) g).2 = k + 1 := by rw [addSubsetGid, f1]
  have a2 : (addSubsetGid (usedGids (gids ++ more)) g).2 = k + 1 := by rw [addSubsetGid, f2]
  refine ⟨by rw [a1, a2], fun h => ?_⟩
  rw [a2] at h
  rw [addSubsetGid] at h
  cases hf : SMap.find? g' (usedGids (gids ++ more)) with
  | some c =>
    rw [hf] at h
    have hc : k + 1 = c := h
    subst hc
    have h1 := ((i2.find g _).1 f2).2
    have h2 := ((i2.find g' _).1 hf).2
    rw [h1] at h2; cases h2; rfl
  | none =>
    rw [hf] at h
    have hc : k + 1 = (usedGids (gids ++ more)).length + 1 := h
    rw [i2.length, e2, List.length_append] at hc
    omega

example : (addSubsetGid (usedGids ([7, 3] ++ [9, 8])) 3).2 = 2 := by decide

/-! ### C132: the length of a string -/

/-- What the length of a string depends on: whether the font is loaded from a file or has no Unicode mapping, the three lookups from
characters to glyphs of such a font, the lookup of the metrics otherwise, the widths and the default width. -/
structure LenFont where
  mapped : Bool
  codeOf : Nat → Option Nat
  cidOf : Nat → Option Nat
  gidOf : Nat → Option Nat
  faceGid : Nat → Option Nat
  width : Nat → Int
  default : Int

/-- The text state: font size, character spacing and scale.  Real numbers are modelled as integers. -/
structure LenState where
  size : Int
  spacing : Int
  scale : Int

/-- `getGlyphLength` with character spacing, `src/pdfmm/base/PdfFont.cpp:1008-1014`. -/
def LenState.glyph (st : LenState) (w : Int) : Int := (w * st.size + st.spacing) * st.scale

/-- The glyph of a character in a loaded font, `src/pdfmm/base/PdfFont.cpp:707-731`, and whether it was found. -/
def LenFont.mapGid (f : LenFont) (cp : Nat) : Nat × Bool :=
  match f.codeOf cp with
  | none => (cp, false)
  | some code =>
    match f.cidOf code with
    | none => (code, false)
    | some cid =>
      match f.gidOf cid with
      | none => (cid, false)
      | some gid => (gid, true)

/-- `tryConvertToGIDs`, `src/pdfmm/base/PdfFont.cpp:693-764`, for the code points of the string.  In the second branch a local variable of
the same name takes the glyphs, and the result of the caller stays empty. -/
def LenFont.toGids (f : LenFont) (cps : List Nat) : List Nat × Bool :=
  if f.mapped then (cps.map (fun cp => (f.mapGid cp).1), cps.all (fun cp => (f.mapGid cp).2))
  else ([], cps.all (fun cp => (f.faceGid cp).isSome))

/-- `TryGetStringLength`, `src/pdfmm/base/PdfFont.cpp:291-300`. -/
def LenFont.stringLength (f : LenFont) (st : LenState) (cps : List Nat) : Int × Bool :=
  (((f.toGids cps).1.map (fun g => st.glyph (f.width g))).foldl (· + ·) 0, (f.toGids cps).2)

/-- `TryGetCharLength` over `TryGetGID`, `src/pdfmm/base/PdfFont.cpp:260-280` and `369-385`. -/
def LenFont.charLength (f : LenFont) (st : LenState) (cp : Nat) : Int × Bool :=
  if f.mapped then
    match f.codeOf cp with
    | none => (st.glyph f.default, false)
    | some code =>
      match f.cidOf code with
      | none => (st.glyph f.default, false)
      | some cid =>
        match f.gidOf cid with
        | none => (st.glyph f.default, false)
        | some gid => (st.glyph (f.width gid), true)
  else
    match f.faceGid cp with
    | none => (st.glyph f.default, false)
    | some gid => (st.glyph (f.width gid), true)

theorem foldl_sum (l : List Int) (a : Int) : l.foldl (· + ·) a = a + l.sum := by
  induction l generalizing a with
  | nil => simp
  | cons b l ih => simp [ih, Int.add_assoc]

/-- C132.  For a loaded font that has all the characters, the length of a string is the sum of the lengths of its characters. -/
theorem C132_length_partial (f : LenFont) (hm : f.mapped = true) (st : LenState) (cps : List Nat) (h : ∀ cp ∈ cps, (f.charLength st cp).2 = true) :
    f.stringLength st cps = ((cps.map (fun cp => (f.charLength st cp).1)).sum, true) := by
  have key : ∀ cp, (f.charLength st cp).2 = true → (f.mapGid cp).2 = true ∧ st.glyph (f.width (f.mapGid cp).1) = (f.charLength st cp).1 := by
    intro cp hc
    rw [LenFont.charLength, if_pos hm] at hc ⊢
    rw [LenFont.mapGid]
    cases h1 : f.codeOf cp with
    | none => rw [h1] at hc; cases hc
    | some code =>
      rw [h1] at hc
      dsimp only at hc ⊢
      cases h2 : f.cidOf code with
      | none => rw [h2] at hc; cases hc
      | some cid =>
        rw [h2] at hc
        dsimp only at hc ⊢
        cases h3 : f.gidOf cid with
        | none => rw [h3] at hc; cases hc
        | some gid => exact ⟨rfl, rfl⟩
  rw [LenFont.stringLength, LenFont.toGids, if_pos hm]
  simp only [foldl_sum, Int.zero_add, List.map_map, Prod.mk.injEq, List.all_eq_true]
  refine ⟨?_, fun cp hc => (key cp (h cp hc)).1⟩
  congr 1
  apply List.map_congr_left
  intro cp hc
  exact (key cp (h cp hc)).2

/-- A font with the letter 65. -/
def lenSample (m : Bool) : LenFont := ⟨m, fun c => if c = 65 then some 1 else none, some, some, fun c => if c = 65 then some 1 else none, fun _ => 500, 0⟩

example : (lenSample true).stringLength ⟨12, 1, 1⟩ [65, 65] = (12002, true) := by decide

/-- C132 is false for every imported font with a Unicode mapping: the length of any string is 0, and it is reported as found. -/
theorem C132_length_false (f : LenFont) (hm : f.mapped = false) (st : LenState) (cps : List Nat) (h : ∀ cp ∈ cps, (f.charLength st cp).2 = true) :
    f.stringLength st cps = (0, true) := by
  rw [LenFont.stringLength, LenFont.toGids, hm]
  simp only [Bool.false_eq_true, if_false, List.map_nil, List.foldl_nil, Prod.mk.injEq, true_and, List.all_eq_true]
  intro cp hc
  have := h cp hc
  rw [LenFont.charLength, hm] at this
  cases h1 : f.faceGid cp with
  | none => rw [h1] at this; cases this
  | some g => rfl

example : (lenSample false).stringLength ⟨12, 1, 1⟩ [65, 65] = (0, true) ∧ ((lenSample false).charLength ⟨12, 1, 1⟩ 65) = (6001, true) := by decide

/-! ### C133: the tags of subset fonts -/

/-- The loop of `GenerateSubsetPrefix`, `src/pdfmm/base/PdfFontManager.cpp:78-85`, over the letters still to be looked at. -/
def nextPrefix : Bytes → Bytes
  | [] => []
  | c :: r => if c + 1 ≤ 90 then (c + 1) :: r else 65 :: nextPrefix r

/-- The six letters after `n` calls; the constructor sets them to `A` (`src/pdfmm/base/PdfFontManager.cpp:53`).  The `+` after them is not part of
the state. -/
def prefixAfter : Nat → Bytes
  | 0 => [65, 65, 65, 65, 65, 65]
  | n + 1 => nextPrefix (prefixAfter n)

/-- The number that the letters stand for, the first one lowest. -/
def prefixValue : Bytes → Nat
  | [] => 0
  | c :: r => (c.toNat - 65) + 26 * prefixValue r

theorem prefix_step (l : Bytes) (hl : ∀ c ∈ l, 65 ≤ c.toNat ∧ c.toNat ≤ 90) :
    (∀ c ∈ nextPrefix l, 65 ≤ c.toNat ∧ c.toNat ≤ 90) ∧ (nextPrefix l).length = l.length ∧
      prefixValue (nextPrefix l) = (prefixValue l + 1) % 26 ^ l.length ∧ prefixValue l < 26 ^ l.length := by
  induction l with
  | nil => exact ⟨hl, rfl, by simp [prefixValue, nextPrefix, Nat.mod_one], by simp [prefixValue]⟩
  | cons c r ih =>
    obtain ⟨i1, i2, i3, i4⟩ := ih (fun b hb => hl b (by simp [hb]))
    have hc := hl c (by simp)
    have hadd : (c + 1).toNat = c.toNat + 1 := by
      rw [UInt8.toNat_add]; simp; omega
    have hp : 26 ^ (c :: r).length = 26 * 26 ^ r.length := by rw [List.length_cons, Nat.pow_succ, Nat.mul_comm]
    generalize hP : 26 ^ r.length = P at *
    rw [hp]
    by_cases h : c + 1 ≤ 90
    · have h' : c.toNat + 1 ≤ 90 := by rw [← hadd]; exact h
      rw [nextPrefix, if_pos h]
      refine ⟨?_, rfl, ?_, ?_⟩
      · intro b hb
        rcases List.mem_cons.1 hb with rfl | hb
        · omega
        · exact hl b (by simp [hb])
      · rw [prefixValue, prefixValue, hadd]
        rw [Nat.mod_eq_of_lt (by omega)]; omega
      · rw [prefixValue]; omega
    · have h' : ¬ c.toNat + 1 ≤ 90 := by rw [← hadd]; exact h
      have hcv : c.toNat = 90 := by omega
      rw [nextPrefix, if_neg h]
      refine ⟨?_, by simp [i2], ?_, ?_⟩
      · intro b hb
        rcases List.mem_cons.1 hb with rfl | hb
        · decide
        · exact i1 b hb
      · rw [prefixValue, prefixValue, i3, hcv]
        have : (90 - 65 + 26 * prefixValue r + 1) = 26 * (prefixValue r + 1) := by omega
        rw [this, Nat.mul_mod_mul_left]
        simp
      · rw [prefixValue]; omega

theorem prefixAfter_spec (n : Nat) : (∀ c ∈ prefixAfter n, 65 ≤ c.toNat ∧ c.toNat ≤ 90) ∧ (prefixAfter n).length = 6 ∧
    prefixValue (prefixAfter n) = n % 308915776 := by
  induction n with
  | zero => exact ⟨by decide, rfl, by decide⟩
  | succ n ih =>
    obtain ⟨h1, h2, h3⟩ := ih
    obtain ⟨s1, s2, s3, _⟩ := prefix_step (prefixAfter n) h1
    refine ⟨s1, by rw [prefixAfter, s2, h2], ?_⟩
    rw [prefixAfter, s3, h2, h3, show (26 : Nat) ^ 6 = 308915776 from rfl]
    omega

/-- The tags given to the `n` subset fonts of a session, from opening or creating the document to closing it. -/
def sessionTags (n : Nat) : List Bytes := (List.range n).map (fun i => prefixAfter (i + 1))

/-- C133.  Each tag is six upper case letters, and the tags of up to 26^6 subset fonts of one session all differ. -/
theorem C133_tags_partial (n : Nat) : (∀ t ∈ sessionTags n, t.length = 6 ∧ ∀ c ∈ t, ch 'A' ≤ c ∧ c ≤ ch 'Z') ∧
    (n ≤ 26 ^ 6 → (sessionTags n).Nodup) := by
  refine ⟨?_, fun hn => ?_⟩
  · intro t ht
    obtain ⟨i, _, rfl⟩ := List.mem_map.1 ht
    obtain ⟨h1, h2, _⟩ := prefixAfter_spec (i + 1)
    exact ⟨h2, h1⟩
  · rw [sessionTags, List.nodup_iff_pairwise_ne, List.pairwise_map]
    refine List.Pairwise.imp_of_mem ?_ (List.nodup_iff_pairwise_ne.1 List.nodup_range)
    intro a b ha hb hab e
    have h1 := (prefixAfter_spec (a + 1)).2.2
    have h2 := (prefixAfter_spec (b + 1)).2.2
    rw [e, h2] at h1
    rw [show (26 : Nat) ^ 6 = 308915776 from rfl] at hn
    have := List.mem_range.1 ha
    have := List.mem_range.1 hb
    omega

example : sessionTags 27 = [[66, 65, 65, 65, 65, 65]] ++ (sessionTags 27).drop 1 ∧ [66, 66, 65, 65, 65, 65] ∈ sessionTags 27 := by decide

/-- C133 is false across sessions: any two sessions that add subset fonts to a document give two of them the same tag. -/
theorem C133_reopened_false (a b : Nat) (ha : 1 ≤ a) (hb : 1 ≤ b) : ∃ t, t ∈ sessionTags a ∧ t ∈ sessionTags b :=
  ⟨prefixAfter 1, List.mem_map.2 ⟨0, List.mem_range.2 ha, rfl⟩, List.mem_map.2 ⟨0, List.mem_range.2 hb, rfl⟩⟩

end Pdfmm
