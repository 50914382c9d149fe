import Verif.Sign.SignModel
import Verif.XRef.TextProps
/-
C115: a signature covers the whole file except itself.
-/
set_option autoImplicit false
namespace Pdfmm
open Spec

/-! ### Specification -/

/-- The bytes a list of ranges names, each by its start and its length, as someone checking a signature takes them from the file. -/
def Spec.rangesOf (file : Bytes) : List Int → Bytes
  | a :: n :: r => (file.drop a.toNat).take n.toNat ++ Spec.rangesOf file r
  | _ => []

/-- At a position of the file there is something that is read as the value, and a key is written before it. -/
def Spec.ValueAt (file : Bytes) (pos : Nat) (key : Bytes) (v : Var) : Prop :=
  (∃ before sep, file.take pos = before ++ (47 :: (key ++ sep)) ∧ (sep = [] ∨ sep = [32])) ∧
    ∃ s, tryReadVariant {} ⟨[], file.drop pos, 0⟩ = (.ok (some v), s)

/-! ### The device -/

theorem call_seek (d : MemDev) (h : Inside d) (p : Nat) (hp : p ≤ d.data.length) :
    d.call (.seek p .begin) = .ok (.unit, { d with pos := p }) := by
  have := h.2
  rw [MemDev.call, MemDev.step, seekPosition, if_neg (by omega)]
  have e : toSize (p : Int) = p := by
    have := toSize_of_nonneg (n := (p : Int)) (by omega) (by omega)
    omega
  rw [e, if_neg (by omega)]

theorem call_write (d : MemDev) (h : Inside d) (hw : d.canWrite = true) (b : Bytes) (hb : d.pos + b.length ≤ d.data.length) :
    d.call (.write b) = .ok (.unit, { d with data := overwrite d.data d.pos b, pos := d.pos + b.length }) := by
  obtain ⟨h1, h2⟩ := h
  rw [MemDev.call]
  by_cases hl : d.data.length + b.length < 9223372036854775808
  · rw [step_write d ⟨h1, h2⟩ hw b hl, if_pos (Or.inr (by omega))]
  · -- the buffer is long, but what is written fits
    obtain ⟨data, pos, cr, cw, g⟩ := d
    simp only at hw hb h1 h2 hl
    subst hw
    have hz : ¬ b.length = 0 := by omega
    simp only [MemDev.step, hz, if_false, Bool.not_true, Bool.false_eq_true, MemDev.writeBuffer]
    rw [Nat.mod_eq_of_lt (by omega)]
    cases g with
    | true =>
      simp only [if_true]
      rw [if_neg (by omega)]
      rfl
    | false =>
      simp only [Bool.false_eq_true, if_false]
      rw [if_neg (by omega)]
      rfl

theorem take_eq (d : MemDev) (h : Inside d) (hr : d.canRead = true) (n : Nat) (hn : d.pos + n ≤ d.data.length) :
    d.take n = .ok ((d.data.drop d.pos).take n, { d with pos := d.pos + n }) := by
  obtain ⟨h1, h2⟩ := step_readExact d h hr n
  have hl := unread_length d
  rw [if_pos (by omega)] at h1
  have e : d.step (.readExact n) = (.ok (.bytes ((unread d).take n) (decide ((unread d).length ≤ n))), { d with pos := d.pos + ((unread d).take n).length }) :=
    Prod.ext h1 h2
  rw [MemDev.take, MemDev.call, e]
  dsimp only
  rw [List.length_take, hl, Nat.min_eq_left (by omega)]
  rfl

/-! ### The blocks given to the signer -/

/-- What is still to be given to the signer. -/
def remaining (data : Bytes) (c s pos : Nat) : Bytes :=
  if pos ≤ c then (data.drop pos).take (c - pos) ++ data.drop (c + s) else data.drop pos

theorem remaining_front (data : Bytes) (c s pos m : Nat) (h : pos + m ≤ c) :
    remaining data c s pos = (data.drop pos).take m ++ remaining data c s (pos + m) := by
  rw [remaining, remaining, if_pos (by omega), if_pos (by omega), ← List.append_assoc]
  congr 1
  rw [← List.drop_drop, show c - pos = m + (c - (pos + m)) from by omega]
  generalize data.drop pos = l
  rw [List.take_add]

theorem remaining_behind (data : Bytes) (c s pos : Nat) (hs : 0 < s) (h : c + s ≤ pos) : remaining data c s pos = data.drop pos := by
  rw [remaining, if_neg (by omega)]

theorem remaining_jump (data : Bytes) (c s : Nat) (hs : 0 < s) : remaining data c s c = remaining data c s (c + s) := by
  rw [remaining, if_pos (Nat.le_refl _), remaining_behind data c s _ hs (Nat.le_refl _)]
  simp

/-- What the reading does once the position is behind the signature. -/
theorem read_rest (d : MemDev) (h : Inside d) (hr : d.canRead = true) (c s room : Nat) (got : Bytes) (hroom : 0 < room) (hs : 0 < s) (hc : c + s ≤ d.pos) :
    ∃ b p, readLeft room got d = .ok (got ++ b, { d with pos := p }) ∧
      c + s ≤ p ∧ p ≤ d.data.length ∧ remaining d.data c s d.pos = b ++ remaining d.data c s p ∧ (b = [] → remaining d.data c s d.pos = []) := by
  obtain ⟨h1, h2⟩ := h
  have e : toSize ((d.data.length : Int) - d.pos) = d.data.length - d.pos := by
    have := toSize_of_nonneg (n := (d.data.length : Int) - d.pos) (by omega) (by omega)
    omega
  rw [readLeft, e]
  by_cases hz : min room (d.data.length - d.pos) = 0
  · refine ⟨[], d.pos, ?_, hc, h1, rfl, fun _ => ?_⟩
    · rw [if_pos hz, List.append_nil]
    · rw [remaining_behind _ _ _ _ hs hc]
      exact List.drop_eq_nil_of_le (by omega)
  · refine ⟨(d.data.drop d.pos).take (min room (d.data.length - d.pos)), d.pos + min room (d.data.length - d.pos), ?_, by omega, by omega, ?_, fun hb => ?_⟩
    · rw [if_neg hz, take_eq d ⟨h1, h2⟩ hr _ (by omega)]
    · rw [remaining_behind _ _ _ _ hs hc, remaining_behind _ _ _ _ hs (by omega), ← List.drop_drop, List.take_append_drop]
    · have := congrArg List.length hb
      simp only [List.length_take, List.length_drop, List.length_nil] at this
      omega

theorem readForSignature_step (d : MemDev) (h : Inside d) (hr : d.canRead = true) (c s room : Nat) (hroom : 0 < room) (hs : 0 < s)
    (hcs : c + s ≤ d.data.length) (hp : d.pos ≤ c ∨ c + s ≤ d.pos) :
    ∃ b p, readForSignature c s room d = .ok (b, { d with pos := p }) ∧ (p ≤ c ∨ c + s ≤ p) ∧ p ≤ d.data.length ∧
      remaining d.data c s d.pos = b ++ remaining d.data c s p ∧ (b = [] → remaining d.data c s d.pos = []) := by
  obtain ⟨h1, h2⟩ := h
  rw [readForSignature]
  by_cases he : d.pos = d.data.length
  · rw [if_pos he]
    refine ⟨[], d.pos, rfl, hp, h1, rfl, fun _ => ?_⟩
    rw [remaining_behind _ _ _ _ hs (by omega)]
    exact List.drop_eq_nil_of_le (by omega)
  · rw [if_neg he]
    by_cases hf : d.pos < c
    · obtain ⟨m, hm⟩ : ∃ m, m = min room (c - d.pos) := ⟨_, rfl⟩
      rw [← hm, if_pos ⟨hf, by omega⟩, take_eq d ⟨h1, h2⟩ hr m (by omega)]
      dsimp only
      have hne : (d.data.drop d.pos).take m = [] → False := by
        intro hb
        have := congrArg List.length hb
        simp only [List.length_take, List.length_drop, List.length_nil] at this
        omega
      by_cases hfull : room - m = 0
      · rw [if_pos hfull]
        exact ⟨_, d.pos + m, rfl, Or.inl (by omega), by omega, remaining_front _ _ _ _ _ (by omega), fun hb => (hne hb).elim⟩
      · rw [if_neg hfull, readBehind]
        have hl : ((d.data.drop d.pos).take m).length = m := by
          rw [List.length_take, List.length_drop]
          omega
        rw [hl, if_pos ⟨by omega, by omega⟩, call_seek { d with pos := d.pos + m } ⟨by dsimp only; omega, h2⟩ _ hcs]
        dsimp only
        obtain ⟨b, p, k1, k2, k3, k4, k5⟩ := read_rest { d with pos := c + s } ⟨hcs, h2⟩ hr c s (room - m) ((d.data.drop d.pos).take m) (by omega) hs (Nat.le_refl _)
        refine ⟨(d.data.drop d.pos).take m ++ b, p, k1, Or.inr k2, k3, ?_, fun hb => (hne (List.append_eq_nil_iff.1 hb).1).elim⟩
        dsimp only at k4
        have hmc : d.pos + m = c := by omega
        rw [remaining_front _ _ _ _ m (by omega), hmc, remaining_jump _ _ _ hs, k4, List.append_assoc]
    · rw [if_neg (fun x => hf x.1), readBehind]
      by_cases hj : d.pos < c + s
      · have hpc : d.pos = c := by omega
        rw [if_pos ⟨by simp; omega, hj⟩, call_seek _ ⟨h1, h2⟩ _ hcs]
        dsimp only
        obtain ⟨b, p, k1, k2, k3, k4, k5⟩ := read_rest { d with pos := c + s } ⟨hcs, h2⟩ hr c s room [] hroom hs (Nat.le_refl _)
        dsimp only at k4 k5
        refine ⟨b, p, k1, Or.inr k2, k3, ?_, fun hb => ?_⟩
        · rw [hpc, remaining_jump _ _ _ hs, k4]
        · rw [hpc, remaining_jump _ _ _ hs, k5 hb]
      · rw [if_neg (fun x => hj x.2)]
        dsimp only
        obtain ⟨b, p, k1, k2, k3, k4, k5⟩ := read_rest d ⟨h1, h2⟩ hr c s room [] hroom hs (by omega)
        exact ⟨b, p, k1, Or.inr k2, k3, k4, k5⟩

theorem signedBlocks_eq (c s room : Nat) (hroom : 0 < room) (hs : 0 < s) (f : Nat) (d : MemDev) (acc : List Bytes) (h : Inside d) (hr : d.canRead = true)
    (hcs : c + s ≤ d.data.length) (hp : d.pos ≤ c ∨ c + s ≤ d.pos) (hf : (remaining d.data c s d.pos).length < f) :
    ∃ blocks p, signedBlocks c s room f d acc = .ok (acc ++ blocks, { d with pos := p }) ∧ p ≤ d.data.length ∧ blocks.flatten = remaining d.data c s d.pos := by
  induction f generalizing d acc with
  | zero => omega
  | succ f ih =>
    obtain ⟨b, p, k1, k2, k3, k4, k5⟩ := readForSignature_step d h hr c s room hroom hs hcs hp
    rw [signedBlocks, k1]
    cases b with
    | nil =>
      refine ⟨[], p, by simp, k3, ?_⟩
      rw [k5 rfl]
      rfl
    | cons x r =>
      dsimp only
      rw [k4] at hf
      obtain ⟨bl, p', j1, j2, j3⟩ := ih { d with pos := p } (acc ++ [x :: r]) ⟨k3, h.2⟩ hr hcs k2 (by
        dsimp only
        rw [List.length_append, List.length_cons] at hf
        omega)
      refine ⟨(x :: r) :: bl, p', ?_, j2, ?_⟩
      · rw [j1, List.append_assoc]
        rfl
      · rw [List.flatten_cons, j3, k4]

/-! ### The places that were reserved -/

theorem overwrite_at (a b b' c : Bytes) (h : b'.length ≤ b.length) :
    overwrite (a ++ (b ++ c)) a.length b' = a ++ (b' ++ (b.drop b'.length ++ c)) := by
  rw [overwrite, List.take_left, List.append_assoc]
  congr 2
  rw [List.drop_append, List.drop_eq_nil_of_le (by omega), List.nil_append, show a.length + b'.length - a.length = b'.length from by omega,
    List.drop_append_of_le_length h]

/-- The text of /ByteRange. -/
def rangeText (c s len : Nat) : Bytes := text ⟨false, false⟩ (.arr [.num 0, .num c, .num (c + s : Nat), .num ((len : Int) - (c + s : Nat))])

theorem rangeText_length (c s len : Nat) (h : c + s ≤ len) (hl : len < 10000000000) : (rangeText c s len).length ≤ 37 := by
  have e1 : (len : Int) - (c + s : Nat) = ((len - (c + s) : Nat) : Int) := by omega
  have fi : ∀ n : Nat, fmtInt (n : Int) = fmtNat n := by
    intro n
    rw [fmtInt, if_neg (by omega), Int.natAbs_natCast]
  have h0 : fmtInt 0 = [48] := by decide
  rw [rangeText, e1]
  simp only [text, textArr, WFlags.sp, WFlags.cl, fi, h0, Bool.false_eq_true, if_false, List.nil_append, List.length_append, List.length_cons, List.length_nil]
  have a := fmtNat_length c 9 (by omega)
  have b := fmtNat_length (c + s) 9 (by omega)
  have d := fmtNat_length (len - (c + s)) 9 (by omega)
  omega

theorem hexText_length (sig : Bytes) : (writeString sig true).length = 2 * sig.length + 2 := by
  rw [writeString]
  simp only [if_true, wrStringBody, List.length_cons, List.length_append, List.length_nil]
  have := flatMap_hex_length sig
  omega

/-- What signing does to a file with two reserved places. -/
theorem signSaved_eq (sg : Signer) (room : Nat) (hroom : 0 < room) (pre mid post : Bytes) (d : MemDev) (hr : d.canRead = true) (hw : d.canWrite = true)
    (hd : d.data = pre ++ (List.replicate 37 32 ++ (mid ++ (List.replicate (2 * sg.size + 2) 32 ++ post)))) (hpos : d.pos ≤ d.data.length)
    (hl : d.data.length < 10000000000) (hs : ∀ l, (sg.sign l).length ≤ sg.size) :
    ∃ blocks d' br, signSaved sg room ⟨pre.length, pre.length + 37 + mid.length⟩ d = .ok (blocks, d') ∧
      br = rangeText (pre.length + 37 + mid.length) (2 * sg.size + 2) d.data.length ++
        List.replicate (37 - (rangeText (pre.length + 37 + mid.length) (2 * sg.size + 2) d.data.length).length) 32 ∧ br.length = 37 ∧
      d'.data = pre ++ (br ++ (mid ++ (writeString (sg.sign blocks ++ List.replicate (sg.size - (sg.sign blocks).length) 0) true ++ post))) ∧
      blocks.flatten = pre ++ (br ++ (mid ++ post)) := by
  have hlen : d.data.length = pre.length + 37 + mid.length + (2 * sg.size + 2) + post.length := by
    rw [hd]
    simp only [List.length_append, List.length_replicate]
    omega
  obtain ⟨c, hc⟩ : ∃ c, c = pre.length + 37 + mid.length := ⟨_, rfl⟩
  obtain ⟨s, hsz⟩ : ∃ s, s = 2 * sg.size + 2 := ⟨_, rfl⟩
  obtain ⟨rt, hrt⟩ : ∃ rt, rt = rangeText c s d.data.length := ⟨_, rfl⟩
  have hrl : rt.length ≤ 37 := by
    rw [hrt]
    exact rangeText_length c s _ (by omega) hl
  rw [← hc, ← hsz, ← hrt]
  obtain ⟨br, hbr⟩ : ∃ br, br = rt ++ List.replicate (37 - rt.length) 32 := ⟨_, rfl⟩
  have hbl : br.length = 37 := by
    rw [hbr, List.length_append, List.length_replicate]
    omega
  have hin : Inside d := ⟨hpos, by omega⟩
  rw [signSaved, adjustByteRange, ← hsz]
  dsimp only
  rw [call_seek d hin _ (by omega)]
  dsimp only
  have hrw : text ⟨false, false⟩ (.arr [.num 0, .num c, .num (c + s : Nat), .num ((d.data.length : Int) - (c + s : Nat))]) = rt := hrt.symm
  rw [hrw, call_write { d with pos := pre.length } ⟨by dsimp only; omega, hin.2⟩ hw rt (by dsimp only; omega)]
  dsimp only
  have hd1 : overwrite d.data pre.length rt = pre ++ (br ++ (mid ++ (List.replicate s 32 ++ post))) := by
    rw [hd, overwrite_at _ _ _ _ (by rw [List.length_replicate]; omega), hbr, List.drop_replicate, List.append_assoc, hsz]
  rw [hd1]
  obtain ⟨D, hD⟩ : ∃ D, D = pre ++ (br ++ (mid ++ (List.replicate s 32 ++ post))) := ⟨_, rfl⟩
  rw [← hD]
  have hDl : D.length = d.data.length := by
    rw [hD, hlen]
    simp only [List.length_append, List.length_replicate, hbl]
    omega
  have hz0 : (0 : Int) = ((0 : Nat) : Int) := rfl
  rw [hz0, call_seek ⟨D, pre.length + rt.length, d.canRead, d.canWrite, d.grows⟩ ⟨by dsimp only; omega, by dsimp only; omega⟩ 0 (by dsimp only; omega)]
  dsimp only
  obtain ⟨blocks, p, k1, k2, k3⟩ := signedBlocks_eq c s room hroom (by omega) (D.length + 2) ⟨D, 0, d.canRead, d.canWrite, d.grows⟩ [] ⟨by dsimp only; omega, by dsimp only; omega⟩ hr
    (by dsimp only; omega) (Or.inl (by dsimp only; omega)) (by
      dsimp only
      rw [remaining, if_pos (by omega), List.length_append, List.length_take, List.length_drop, List.length_drop]
      omega)
  rw [k1]
  dsimp only at k2 k3 ⊢
  rw [List.nil_append, if_neg (by have := hs blocks; omega), setSignature, call_seek ⟨D, p, d.canRead, d.canWrite, d.grows⟩ ⟨k2, by dsimp only; omega⟩ c (by dsimp only; omega)]
  dsimp only
  obtain ⟨sig, hsig⟩ : ∃ sig, sig = sg.sign blocks ++ List.replicate (sg.size - (sg.sign blocks).length) 0 := ⟨_, rfl⟩
  have hsl : (writeString sig true).length = s := by
    have := hs blocks
    rw [hexText_length, hsig, List.length_append, List.length_replicate, hsz]
    omega
  rw [← hsig, call_write ⟨D, c, d.canRead, d.canWrite, d.grows⟩ ⟨by dsimp only; omega, by dsimp only; omega⟩ hw (writeString sig true) (by dsimp only; omega)]
  dsimp only
  refine ⟨blocks, ⟨overwrite D c (writeString sig true), c + (writeString sig true).length, d.canRead, d.canWrite, d.grows⟩, br, rfl, hbr, hbl, ?_, ?_⟩
  · rw [← hsig]
    dsimp only
    have e1 : D = (pre ++ (br ++ mid)) ++ (List.replicate s 32 ++ post) := by rw [hD]; simp only [List.append_assoc]
    have e2 : c = (pre ++ (br ++ mid)).length := by
      simp only [List.length_append, hbl]
      omega
    rw [e1, e2, overwrite_at _ _ _ _ (by rw [List.length_replicate]; omega), List.drop_eq_nil_of_le (by rw [List.length_replicate]; omega)]
    simp only [List.append_assoc, List.nil_append]
  · rw [k3, remaining, if_pos (by omega), List.drop_zero, Nat.sub_zero]
    have e1 : D = (pre ++ (br ++ mid)) ++ (List.replicate s 32 ++ post) := by rw [hD]; simp only [List.append_assoc]
    have e2 : c = (pre ++ (br ++ mid)).length := by
      simp only [List.length_append, hbl]
      omega
    rw [e1, e2, List.take_left, ← List.drop_drop, List.drop_left]
    have : (List.replicate s (32 : Byte) ++ post).drop s = post := by
      conv => lhs; arg 1; rw [← List.length_replicate (n := s) (a := (32 : Byte))]
      exact List.drop_left
    rw [this]
    simp only [List.append_assoc]

/-! ### The signature dictionary -/

theorem sigEntries_append (f : WFlags) (l r : List (Bytes × SVal)) (pos : Nat) (b : Beacons) :
    sigEntries f pos b (l ++ r) = ((sigEntries f pos b l).1 ++ (sigEntries f (pos + (sigEntries f pos b l).1.length) (sigEntries f pos b l).2 r).1,
      (sigEntries f (pos + (sigEntries f pos b l).1.length) (sigEntries f pos b l).2 r).2) := by
  induction l generalizing pos b with
  | nil => simp [sigEntries]
  | cons p l ih =>
    obtain ⟨k, v⟩ := p
    rw [List.cons_append, sigEntries, ih]
    simp only [sigEntries, List.length_append, List.append_assoc, Nat.add_assoc]

theorem sigEntries_vars (f : WFlags) (l : List (Bytes × SVal)) (h : ∀ p ∈ l, ∃ v, p.2 = .var v) (pos : Nat) (b : Beacons) : (sigEntries f pos b l).2 = b := by
  induction l generalizing pos b with
  | nil => rfl
  | cons p l ih =>
    obtain ⟨k, v⟩ := p
    obtain ⟨w, hw⟩ := h (k, v) List.mem_cons_self
    dsimp only at hw
    subst hw
    rw [sigEntries]
    exact ih (fun q hq => h q (List.mem_cons_of_mem _ hq)) _ _

/-- The text of entries begins with a slash. -/
theorem sigEntries_head (f : WFlags) (l : List (Bytes × SVal)) (pos : Nat) (b : Beacons) : (sigEntries f pos b l).1 = [] ∨ ∃ t, (sigEntries f pos b l).1 = 47 :: t := by
  cases l with
  | nil => exact Or.inl rfl
  | cons p l => exact Or.inr ⟨_, rfl⟩

theorem sorted_split2 {V : Type} {l : List (Bytes × V)} (hs : SMap.Sorted l) {k1 k2 : Bytes} {v1 v2 : V} (h1 : SMap.find? k1 l = some v1)
    (h2 : SMap.find? k2 l = some v2) (hlt : bytesLt k1 k2 = true) :
    ∃ a b c, l = a ++ ((k1, v1) :: (b ++ ((k2, v2) :: c))) ∧ ∀ p, p ∈ a ∨ p ∈ b ∨ p ∈ c → p.1 ≠ k1 ∧ p.1 ≠ k2 := by
  obtain ⟨a, r, hl⟩ := List.append_of_mem (SMap.find_mem h1)
  subst hl
  have hm := SMap.find_mem h2
  have hs' := (SMap.sorted_append.1 hs)
  have hne : k2 ≠ k1 := fun e => SMap.lt_ne (K := Bytes) hlt e.symm
  have hr : (k2, v2) ∈ r := by
    rcases List.mem_append.1 hm with h | h
    · have := hs'.2.2 _ h (k1, v1) List.mem_cons_self
      have h3 := SMap.lt_asymm (K := Bytes) hlt
      exact absurd this (by rw [h3]; simp)
    · rcases List.mem_cons.1 h with h | h
      · exact absurd (congrArg Prod.fst h) hne
      · exact h
  obtain ⟨b, c, hbc⟩ := List.append_of_mem hr
  subst hbc
  refine ⟨a, b, c, rfl, ?_⟩
  have h3 := hs'.2.1
  rw [SMap.Sorted] at h3
  have h4 := SMap.sorted_append.1 h3.2
  have h5 := h4.2.1
  rw [SMap.Sorted] at h5
  intro p hp
  rcases hp with hp | hp | hp
  · have i1 := hs'.2.2 p hp (k1, v1) List.mem_cons_self
    have i2 := hs'.2.2 p hp (k2, v2) (by simp)
    exact ⟨SMap.lt_ne (K := Bytes) i1, SMap.lt_ne (K := Bytes) i2⟩
  · have i1 := h3.1 p (by simp [hp])
    have i2 := h4.2.2 p hp (k2, v2) List.mem_cons_self
    exact ⟨fun e => SMap.lt_ne (K := Bytes) i1 e.symm, SMap.lt_ne (K := Bytes) i2⟩
  · have i1 := h3.1 p (by simp [hp])
    have i2 := h5.1 p hp
    exact ⟨fun e => SMap.lt_ne (K := Bytes) i1 e.symm, fun e => SMap.lt_ne (K := Bytes) i2 e.symm⟩

theorem prepared_sorted (filter subFilter type : Bytes) (n : Nat) (d : List (Bytes × SVal)) (h : SMap.Sorted d) : SMap.Sorted (prepareForSigning filter subFilter type n d) := by
  unfold prepareForSigning
  iterate 5 apply SMap.sorted_insert
  exact h

theorem prepared_vars (filter subFilter type : Bytes) (n : Nat) (d : List (Bytes × SVal)) (h : ∀ p ∈ d, p.1 ≠ kByteRange → p.1 ≠ kContentsSig → ∃ v, p.2 = .var v)
    (p : Bytes × SVal) (hp : p ∈ prepareForSigning filter subFilter type n d) (h1 : p.1 ≠ kByteRange) (h2 : p.1 ≠ kContentsSig) : ∃ v, p.2 = .var v := by
  unfold prepareForSigning at hp
  rcases SMap.mem_insert hp with e | hp
  · exact absurd (congrArg Prod.fst e) h1
  rcases SMap.mem_insert hp with e | hp
  · exact absurd (congrArg Prod.fst e) h2
  rcases SMap.mem_insert hp with e | hp
  · exact ⟨_, congrArg Prod.snd e⟩
  rcases SMap.mem_insert hp with e | hp
  · exact ⟨_, congrArg Prod.snd e⟩
  rcases SMap.mem_insert hp with e | hp
  · exact ⟨_, congrArg Prod.snd e⟩
  exact h p hp h1 h2

/-- The order in which the entries of a prepared dictionary are written. -/
theorem prepared_order (filter subFilter type : Bytes) (n : Nat) (d : List (Bytes × SVal)) (hs : SMap.Sorted d)
    (h : ∀ p ∈ d, p.1 ≠ kByteRange → p.1 ≠ kContentsSig → ∃ v, p.2 = .var v) :
    ∃ a b c, sigOrder (prepareForSigning filter subFilter type n d) = a ++ ((kByteRange, .room 37 false) :: (b ++ ((kContentsSig, .room (2 * n + 2) true) :: c))) ∧
      ∀ p, p ∈ a ∨ p ∈ b ∨ p ∈ c → ∃ v, p.2 = .var v := by
  have f1 : SMap.find? kByteRange (prepareForSigning filter subFilter type n d) = some (.room 37 false) := SMap.find_insert_self _ _ _
  have f2 : SMap.find? kContentsSig (prepareForSigning filter subFilter type n d) = some (.room (2 * n + 2) true) := by
    unfold prepareForSigning
    rw [SMap.find_insert_ne _ _ (by decide), SMap.find_insert_self]
  have f3 : SMap.find? kType (prepareForSigning filter subFilter type n d) = some (.var (.name type)) := by
    unfold prepareForSigning
    rw [SMap.find_insert_ne _ _ (by decide), SMap.find_insert_ne _ _ (by decide), SMap.find_insert_self]
  have hv := prepared_vars filter subFilter type n d h
  obtain ⟨a, b, c, e, hk⟩ := sorted_split2 (prepared_sorted filter subFilter type n d hs) f1 f2 (by decide)
  refine ⟨(kType, .var (.name type)) :: a.filter (fun p => p.1 ≠ kType), b.filter (fun p => p.1 ≠ kType), c.filter (fun p => p.1 ≠ kType), ?_, ?_⟩
  · rw [sigOrder, f3, e]
    have g1 : decide (kByteRange ≠ kType) = true := by decide
    have g2 : decide (kContentsSig ≠ kType) = true := by decide
    simp only [List.filter_append, List.filter_cons, g1, g2, if_true, List.cons_append, List.nil_append]
  · intro p hp
    have key : ∀ q, q ∈ a ∨ q ∈ b ∨ q ∈ c → ∃ v, q.2 = .var v := by
      intro q hq
      refine hv q ?_ (hk q hq).1 (hk q hq).2
      rw [e]
      simp only [List.mem_append, List.mem_cons]
      rcases hq with hq | hq | hq
      · exact Or.inl hq
      · exact Or.inr (Or.inr (Or.inl hq))
      · exact Or.inr (Or.inr (Or.inr (Or.inr hq)))
    rcases hp with hp | hp | hp
    · rcases List.mem_cons.1 hp with rfl | hp
      · exact ⟨_, rfl⟩
      · exact key p (Or.inl (List.mem_filter.1 hp).1)
    · exact key p (Or.inr (Or.inl (List.mem_filter.1 hp).1))
    · exact key p (Or.inr (Or.inr (List.mem_filter.1 hp).1))

/-- The text of a prepared dictionary: where the reserved places are, and that these positions are noted. -/
theorem sigDict_split (f : WFlags) (pos : Nat) (b0 : Beacons) (filter subFilter type : Bytes) (n : Nat) (d : List (Bytes × SVal)) (hs : SMap.Sorted d)
    (h : ∀ p ∈ d, p.1 ≠ kByteRange → p.1 ≠ kContentsSig → ∃ v, p.2 = .var v) :
    ∃ A M Z, (M = [] ∨ ∃ t, M = 47 :: t) ∧ (Z = [62, 62] ∨ ∃ t, Z = 47 :: t) ∧
      sigDictText f pos b0 (prepareForSigning filter subFilter type n d) =
        (A ++ (sigLead f kByteRange ++ (List.replicate 37 32 ++ (f.cl [10] ++ (M ++ (sigLead f kContentsSig ++ (List.replicate (2 * n + 2) 32 ++ (f.cl [10] ++ Z))))))),
         ⟨pos + (A ++ sigLead f kByteRange).length, pos + (A ++ sigLead f kByteRange).length + 37 + (f.cl [10] ++ (M ++ sigLead f kContentsSig)).length⟩) := by
  obtain ⟨a, b, c, e, hv⟩ := prepared_order filter subFilter type n d hs h
  rw [sigDictText, e]
  obtain ⟨p0, hp0⟩ : ∃ p0, p0 = pos + (60 :: 60 :: f.cl [10]).length := ⟨_, rfl⟩
  rw [← hp0, sigEntries_append, sigEntries_vars f a (fun p hp => hv p (Or.inl hp)), sigEntries]
  obtain ⟨p1, hp1⟩ : ∃ p1, p1 = p0 + (sigEntries f p0 b0 a).1.length := ⟨_, rfl⟩
  rw [← hp1]
  obtain ⟨t1, ht1⟩ : ∃ t1, t1 = sigLead f kByteRange ++ (SVal.text f (.room 37 false) ++ f.cl [10]) := ⟨_, rfl⟩
  rw [← ht1, sigEntries_append, sigEntries_vars f b (fun p hp => hv p (Or.inr (Or.inl hp))), sigEntries]
  dsimp only
  obtain ⟨B1, hB1⟩ : ∃ B, B = Beacons.note b0 (p1 + (sigLead f kByteRange).length) (.room 37 false) := ⟨_, rfl⟩
  rw [← hB1]
  obtain ⟨M, hM⟩ : ∃ M, M = (sigEntries f (p1 + t1.length) B1 b).1 := ⟨_, rfl⟩
  rw [← hM, sigEntries_vars f c (fun p hp => hv p (Or.inr (Or.inr hp)))]
  have hZ := sigEntries_head f c (p1 + t1.length + M.length + (sigLead f kContentsSig ++ (SVal.text f (.room (2 * n + 2) true) ++ f.cl [10])).length)
        (B1.note (p1 + t1.length + M.length + (sigLead f kContentsSig).length) (.room (2 * n + 2) true))
  obtain ⟨Z, hZe⟩ : ∃ Z, Z = (sigEntries f (p1 + t1.length + M.length + (sigLead f kContentsSig ++ (SVal.text f (.room (2 * n + 2) true) ++ f.cl [10])).length)
        (B1.note (p1 + t1.length + M.length + (sigLead f kContentsSig).length) (.room (2 * n + 2) true)) c).1 := ⟨_, rfl⟩
  rw [← hZe] at hZ ⊢
  refine ⟨[60, 60] ++ (f.cl [10] ++ (sigEntries f p0 b0 a).1), M, Z ++ [62, 62], ?_, ?_, Prod.ext ?_ ?_⟩
  · rw [hM]
    exact sigEntries_head _ _ _ _
  · rcases hZ with hz | ⟨t, hz⟩
    · exact Or.inl (by rw [hz]; rfl)
    · exact Or.inr ⟨t ++ [62, 62], by rw [hz]; rfl⟩
  · rw [ht1]
    dsimp only
    simp only [SVal.text, List.append_assoc]
  · rw [hB1]
    simp only [Beacons.note]
    rw [ht1, hp1, hp0]
    simp only [SVal.text, List.length_append, List.length_cons, List.length_replicate, List.length_nil]
    congr 1 <;> omega

/-! ### What is read where the places were -/

theorem lex_spaces {cap : Nat} (hcap : 2 ≤ cap) (n : Nat) (r : Bytes) : lex cap (List.replicate n 32 ++ r) = lex cap r := by
  induction n with
  | zero => rfl
  | succ n ih => rw [List.replicate_succ, List.cons_append, lex_ws hcap (by decide), ih]

/-- What follows a value in the dictionary. -/
def AfterValue (f : WFlags) (r : Bytes) : Prop := ∃ n t, r = List.replicate n 32 ++ (f.cl [10] ++ t) ∧ ((∃ x, t = 47 :: x) ∨ ∃ x, t = 62 :: 62 :: x)

theorem AfterValue.ends {f : WFlags} {r : Bytes} (h : AfterValue f r) : EndsToken r := by
  obtain ⟨n, t, rfl, ht⟩ := h
  right
  cases n with
  | succ n => exact ⟨32, _, rfl, Or.inl (by decide)⟩
  | zero =>
    rw [WFlags.cl]
    split
    · exact ⟨10, _, rfl, Or.inl (by decide)⟩
    · rcases ht with ⟨x, rfl⟩ | ⟨x, rfl⟩
      · exact ⟨47, x, rfl, by simp⟩
      · exact ⟨62, 62 :: x, rfl, by simp⟩

theorem AfterValue.noRef {f : WFlags} {r : Bytes} (h : AfterValue f r) : NoRef 4095 r := by
  obtain ⟨n, t, rfl, ht⟩ := h
  intro a t1 ha hty
  exfalso
  rw [lex_spaces (by omega), lex_cl (by omega) f 10 (by decide)] at ha
  rcases ht with ⟨x, rfl⟩ | ⟨x, rfl⟩
  · rw [lex_delim (by omega) (by decide)] at ha
    simp at ha
    rw [← ha.1] at hty
    simp [tokDelimType] at hty
  · rw [lex_dangle (by omega) (Or.inr rfl)] at ha
    simp at ha
    rw [← ha.1] at hty
    simp at hty

theorem reads_after (f g : WFlags) (hg : g.Sep) (v : Var) (hv : Writable 4095 v) (hn : gnest v < 256) (r : Bytes) (h : AfterValue f r) :
    ∃ s, tryReadVariant {} ⟨[], text g v ++ r, 0⟩ = (.ok (some v), s) := by
  obtain ⟨t, s, h1, h2, _⟩ := C19_write_parse_context {} (by decide) rfl g hg v hv r h.ends h.noRef 0 (by simpa using hn)
  have : t = text g v := by
    rw [writeVar, writable_noNul hv] at h1
    simp at h1
    exact h1.symm
  rw [this] at h2
  exact ⟨s, h2⟩

/-! ### C115 -/

/-- C115, partly.  A document is saved with a signature dictionary that was prepared for signing, wherever the dictionary is in the file and whatever
else it contains, and is then signed by a signer whose signatures are not longer than it announced, the file being read through a buffer of any size.
Then signing succeeds, the file has the length it had and differs from the saved file only where room was reserved, its /ByteRange is read as four numbers,
its /Contents as the signature followed by zeros, the bytes the signer was given are exactly those /ByteRange names in the finished
file, and they are the whole file without the /Contents string.  The file is shorter than 10^10 bytes: the room reserved for /ByteRange is only sure to be
enough up to this size. -/
theorem C115_signed_partial (f : WFlags) (b0 : Beacons) (filter subFilter type : Bytes) (sg : Signer) (entries : List (Bytes × SVal)) (front back : Bytes) (room : Nat)
    (d : MemDev) (hsort : SMap.Sorted entries) (hvars : ∀ p ∈ entries, p.1 ≠ kByteRange → p.1 ≠ kContentsSig → ∃ v, p.2 = .var v)
    (hdata : d.data = front ++ ((sigDictText f front.length b0 (prepareForSigning filter subFilter type sg.size entries)).1 ++ back))
    (hr : d.canRead = true) (hw : d.canWrite = true) (hpos : d.pos ≤ d.data.length) (hlen : d.data.length < 10000000000) (hroom : 0 < room)
    (hs : ∀ l, (sg.sign l).length ≤ sg.size) :
    ∃ blocks d' ranges A R M T B, signSaved sg room (sigDictText f front.length b0 (prepareForSigning filter subFilter type sg.size entries)).2 d = .ok (blocks, d') ∧
      d.data = A ++ (List.replicate 37 32 ++ (M ++ (List.replicate (2 * sg.size + 2) 32 ++ B))) ∧
      d'.data = A ++ (R ++ (M ++ (T ++ B))) ∧ R.length = 37 ∧ T.length = 2 * sg.size + 2 ∧
      ValueAt d'.data A.length kByteRange (.arr (ranges.map .num)) ∧
      ValueAt d'.data (A ++ (R ++ M)).length kContentsSig (.str (sg.sign blocks ++ List.replicate (sg.size - (sg.sign blocks).length) 0) true) ∧
      T = writeString (sg.sign blocks ++ List.replicate (sg.size - (sg.sign blocks).length) 0) true ∧
      blocks.flatten = rangesOf d'.data ranges ∧ rangesOf d'.data ranges = A ++ (R ++ (M ++ B)) := by
  obtain ⟨A0, M0, Z, hM0, hZ, he⟩ := sigDict_split f front.length b0 filter subFilter type sg.size entries hsort hvars
  rw [he] at hdata ⊢
  obtain ⟨A, hA⟩ : ∃ A, A = front ++ (A0 ++ sigLead f kByteRange) := ⟨_, rfl⟩
  obtain ⟨M, hM⟩ : ∃ M, M = f.cl [10] ++ (M0 ++ sigLead f kContentsSig) := ⟨_, rfl⟩
  obtain ⟨B, hB⟩ : ∃ B, B = f.cl [10] ++ (Z ++ back) := ⟨_, rfl⟩
  have hd : d.data = A ++ (List.replicate 37 32 ++ (M ++ (List.replicate (2 * sg.size + 2) 32 ++ B))) := by
    rw [hdata, hA, hM, hB]
    simp only [List.append_assoc]
  have hAl : front.length + (A0 ++ sigLead f kByteRange).length = A.length := by rw [hA, List.length_append (as := front)]
  dsimp only
  rw [hAl, ← hM]
  obtain ⟨blocks, d', R, k1, k2, k3, k4, k5⟩ := signSaved_eq sg room hroom A M B d hr hw hd hpos hlen hs
  obtain ⟨sig, hsig⟩ : ∃ sig, sig = sg.sign blocks ++ List.replicate (sg.size - (sg.sign blocks).length) 0 := ⟨_, rfl⟩
  obtain ⟨T, hT⟩ : ∃ T, T = writeString sig true := ⟨_, rfl⟩
  have hTl : T.length = 2 * sg.size + 2 := by
    have := hs blocks
    rw [hT, hexText_length, hsig, List.length_append, List.length_replicate]
    omega
  rw [← hsig, ← hT] at k4
  have hc : (A ++ (R ++ M)).length = A.length + 37 + M.length := by
    simp only [List.length_append, k3]
    omega
  have hl : d.data.length = A.length + 37 + M.length + (2 * sg.size + 2) + B.length := by
    rw [hd]
    simp only [List.length_append, List.length_replicate]
    omega
  obtain ⟨ranges, hrg⟩ : ∃ l : List Int, l = [0, ((A.length + 37 + M.length : Nat) : Int), ((A.length + 37 + M.length + (2 * sg.size + 2) : Nat) : Int),
    (d.data.length : Int) - ((A.length + 37 + M.length + (2 * sg.size + 2) : Nat) : Int)] := ⟨_, rfl⟩
  have hro : rangesOf d'.data ranges = A ++ (R ++ (M ++ B)) := by
    rw [hrg]
    simp only [rangesOf, List.append_nil]
    have e0 : (0 : Int).toNat = 0 := rfl
    rw [e0, List.drop_zero, Int.toNat_natCast, Int.toNat_natCast, ← hc]
    have e1 : d'.data = (A ++ (R ++ M)) ++ (T ++ B) := by
      rw [k4]
      simp only [List.append_assoc]
    rw [e1, List.take_left, ← List.drop_drop, List.drop_left, ← hTl, List.drop_left, List.take_of_length_le (by omega)]
    simp only [List.append_assoc]
  have hesc : escapeNameBody kByteRange = kByteRange ∧ escapeNameBody kContentsSig = kContentsSig := by decide
  have hcl : f.cl [32] = [] ∨ f.cl [32] = [32] := by
    rw [WFlags.cl]
    split
    · exact Or.inr rfl
    · exact Or.inl rfl
  refine ⟨blocks, d', ranges, A, R, M, T, B, k1, hd, k4, k3, hTl, ⟨⟨front ++ A0, f.cl [32], ?_, hcl⟩, ?_⟩, ⟨⟨A ++ (R ++ (f.cl [10] ++ M0)), f.cl [32], ?_, hcl⟩, ?_⟩,
    ?_, ?_, hro⟩
  · rw [k4, List.take_left, hA, sigLead, hesc.1]
    simp only [List.append_assoc]
  · rw [k4, List.drop_left, k2, List.append_assoc]
    have hrt : rangeText (A.length + 37 + M.length) (2 * sg.size + 2) d.data.length = text ⟨false, false⟩ (.arr (ranges.map .num)) := by
      rw [hrg]
      rfl
    rw [hrt]
    refine reads_after f _ (Or.inr rfl) _ (.arr _ ?_) ?_ _ ⟨37 - (text ⟨false, false⟩ (.arr (ranges.map .num))).length, M0 ++ (sigLead f kContentsSig ++ (T ++ B)), ?_, ?_⟩
    · intro v hv
      rw [hrg] at hv
      simp only [List.map_cons, List.map_nil, List.mem_cons, List.not_mem_nil, or_false] at hv
      rcases hv with rfl | rfl | rfl | rfl <;> exact .num _ (by omega) (by omega)
    · rw [hrg]
      simp [gnest, gnestArr]
    · rw [hM]
      simp only [List.append_assoc]
    · left
      rcases hM0 with h | ⟨t, h⟩
      · rw [h]
        exact ⟨_, rfl⟩
      · rw [h]
        exact ⟨_, rfl⟩
  · have e1 : d'.data = (A ++ (R ++ M)) ++ (T ++ B) := by
      rw [k4]
      simp only [List.append_assoc]
    rw [e1, List.take_left, hM, sigLead, hesc.2]
    simp only [List.append_assoc]
  · have e1 : d'.data = (A ++ (R ++ M)) ++ (T ++ B) := by
      rw [k4]
      simp only [List.append_assoc]
    rw [e1, List.drop_left, ← hsig]
    have hrt : T = text ⟨false, false⟩ (.str sig true) := by
      rw [hT, text]
    rw [hrt]
    refine reads_after f _ (Or.inr rfl) _ (.str _ _) (by simp [gnest]) _ ⟨0, Z ++ back, ?_, ?_⟩
    · rw [hB]
      rfl
    · rcases hZ with h | ⟨t, h⟩
      · rw [h]
        exact Or.inr ⟨_, rfl⟩
      · rw [h]
        exact Or.inl ⟨_, rfl⟩
  · rw [hT, hsig]
  · rw [k5, hro]

theorem rangeText_chars (c s len : Nat) (h : c + s ≤ len) : ∀ x ∈ rangeText c s len, isDigitB x = true ∨ x = 32 ∨ x = 91 ∨ x = 93 := by
  have e1 : (len : Int) - (c + s : Nat) = ((len - (c + s) : Nat) : Int) := by omega
  have fi : ∀ n : Nat, fmtInt (n : Int) = fmtNat n := fun n => (fmtNat_fmtInt n).symm
  have h0 : fmtInt 0 = [48] := by decide
  rw [rangeText, e1]
  intro x hx
  simp only [text, textArr, WFlags.sp, WFlags.cl, fi, h0, Bool.false_eq_true, if_false, List.nil_append, List.mem_append, List.mem_cons, List.not_mem_nil, or_false] at hx
  rcases hx with rfl | hx | rfl
  · simp
  · rcases hx with (rfl | rfl) | (rfl | hx) | (rfl | hx) | (rfl | hx)
    all_goals first | simp; done | (left; decide) | exact Or.inl (fmtNat_digits _ _ hx)
  · simp

theorem fmtNat_length_ge {k n : Nat} (h : 10 ^ k ≤ n) : k + 1 ≤ (fmtNat n).length := by
  have := fmtPad_length_ge (w := 0) h
  simpa [fmtPad] using this

theorem rangeText_length_ge (c s len : Nat) (h1 : 10000000000 ≤ c) (h2 : c + s + 10000000000 ≤ len) : 40 ≤ (rangeText c s len).length := by
  have e1 : (len : Int) - (c + s : Nat) = ((len - (c + s) : Nat) : Int) := by omega
  have fi : ∀ n : Nat, fmtInt (n : Int) = fmtNat n := fun n => (fmtNat_fmtInt n).symm
  have h0 : fmtInt 0 = [48] := by decide
  rw [rangeText, e1]
  simp only [text, textArr, WFlags.sp, WFlags.cl, fi, h0, Bool.false_eq_true, if_false, List.nil_append, List.length_append, List.length_cons, List.length_nil]
  have a := fmtNat_length_ge (k := 10) (n := c) (by omega)
  have b := fmtNat_length_ge (k := 10) (n := c + s) (by omega)
  have d := fmtNat_length_ge (k := 10) (n := len - (c + s)) (by omega)
  omega

/-- C115 is false of a file with 10^10 bytes before the signature and as many behind it: the text of /ByteRange is longer than the room that was
reserved for it, and the byte behind the room, a line feed or the slash of the next key, is overwritten. -/
theorem C115_huge_file_false (A M : Bytes) (m : Byte) (s : Nat) (B : Bytes) (d : MemDev) (hr : d.canWrite = true)
    (hd : d.data = A ++ (List.replicate 37 32 ++ ((m :: M) ++ (List.replicate s 32 ++ B)))) (hm : m = 10 ∨ m = 47)
    (hA : 10000000000 ≤ A.length) (hB : 10000000000 ≤ B.length) (hin : Inside d) :
    ∃ d', adjustByteRange d A.length (A.length + 37 + (m :: M).length) s = .ok d' ∧ d.data[A.length + 37]? = some m ∧ d'.data[A.length + 37]? ≠ some m := by
  obtain ⟨c, hc⟩ : ∃ c, c = A.length + 37 + (m :: M).length := ⟨_, rfl⟩
  obtain ⟨h1, h2⟩ := hin
  have hlen : d.data.length = c + s + B.length := by
    rw [hd, hc]
    simp only [List.length_append, List.length_replicate]
    omega
  obtain ⟨rt, hrt⟩ : ∃ rt, rt = rangeText c s d.data.length := ⟨_, rfl⟩
  have hge : 40 ≤ rt.length := by
    rw [hrt]
    exact rangeText_length_ge _ _ _ (by omega) (by omega)
  have hle : rt.length ≤ 64 := by
    rw [hrt]
    have e1 : (d.data.length : Int) - (c + s : Nat) = ((d.data.length - (c + s) : Nat) : Int) := by omega
    have fi : ∀ n : Nat, fmtInt (n : Int) = fmtNat n := fun n => (fmtNat_fmtInt n).symm
    have h0 : fmtInt 0 = [48] := by decide
    rw [rangeText, e1]
    simp only [text, textArr, WFlags.sp, WFlags.cl, fi, h0, Bool.false_eq_true, if_false, List.nil_append, List.length_append, List.length_cons, List.length_nil]
    have a := fmtNat_length c 18 (by omega)
    have b := fmtNat_length (c + s) 18 (by omega)
    have e := fmtNat_length (d.data.length - (c + s)) 18 (by omega)
    omega
  rw [← hc, adjustByteRange, call_seek d ⟨h1, h2⟩ _ (by omega)]
  dsimp only
  have hrw : text ⟨false, false⟩ (.arr [.num 0, .num c, .num (c + s : Nat), .num ((d.data.length : Int) - (c + s : Nat))]) = rt := hrt.symm
  rw [hrw, call_write { d with pos := A.length } ⟨by dsimp only; omega, h2⟩ hr rt (by dsimp only; omega)]
  refine ⟨_, rfl, ?_, ?_⟩
  · rw [hd, List.getElem?_append_right (by omega), List.getElem?_append_right (by simp)]
    simp
  · dsimp only
    rw [overwrite, List.append_assoc, List.getElem?_append_right (by rw [List.length_take]; omega), List.length_take, Nat.min_eq_left (by omega),
      show A.length + 37 - A.length = 37 from by omega, List.getElem?_append_left (by omega)]
    intro he
    have hx := rangeText_chars c s d.data.length (by omega) m (by rw [← hrt]; exact List.mem_of_getElem? he)
    rcases hm with rfl | rfl <;> exact absurd hx (by decide)

/-- Such a file exists. -/
example : ∃ A M B : Bytes, ∃ d : MemDev, d.canWrite = true ∧ d.data = A ++ (List.replicate 37 32 ++ ((10 :: M) ++ (List.replicate 8 32 ++ B))) ∧
    10000000000 ≤ A.length ∧ 10000000000 ≤ B.length ∧ Inside d := by
  obtain ⟨n, hn, hn'⟩ : ∃ n : Nat, 10000000000 ≤ n ∧ n < 10000000001 := ⟨_, Nat.le_refl _, by omega⟩
  refine ⟨List.replicate n 0, [47, 67, 32], List.replicate n 0, ⟨_, 0, true, true, true⟩, rfl, rfl, ?_, ?_, Nat.zero_le _, ?_⟩
  · rw [List.length_replicate]
    exact hn
  · rw [List.length_replicate]
    exact hn
  · simp only [List.length_append, List.length_replicate, List.length_cons, List.length_nil]
    omega

/-- The text of a small file with a prepared signature dictionary meets the hypotheses. -/
example : ∃ d : MemDev, ∃ sg : Signer, sg.size = 3 ∧
    d.data = [37, 80, 68, 70] ++ ((sigDictText ⟨true, false⟩ 4 ⟨0, 0⟩ (prepareForSigning [65] [66] [83, 105, 103] sg.size [([77], .var (.num 5))])).1 ++ [10]) ∧
    d.canRead = true ∧ d.canWrite = true ∧ d.pos ≤ d.data.length ∧ d.data.length < 10000000000 ∧ ∀ l, (sg.sign l).length ≤ sg.size :=
  ⟨⟨[37, 80, 68, 70] ++ ((sigDictText ⟨true, false⟩ 4 ⟨0, 0⟩ (prepareForSigning [65] [66] [83, 105, 103] 3 [([77], .var (.num 5))])).1 ++ [10]), 0, true, true, true⟩,
    ⟨3, fun l => [l.length.toUInt8]⟩, rfl, rfl, rfl, rfl, Nat.zero_le _, by decide +kernel, fun _ => by simp⟩

end Pdfmm
