import Verif.Syntax.TokLex
import Verif.Syntax.RealText
/-
C15, C18, C19: what the writer writes, the reader reads back.
-/
namespace Pdfmm

namespace Spec

/-- The values C19 speaks of: null, booleans, 64-bit integers, reals, strings, names, references, and
arrays and dictionaries of such values.  A real is `± m / 10^s` with one to six digits after the
point, the last of them not zero, and at most fifteen digits in all (so that a double holds it: its
nearest double is printed as the same six-digit decimal).  Names contain no NUL and fit the token
buffer; a dictionary is a map, so its keys ascend strictly. -/
inductive Writable (cap : Nat) : Var → Prop
  | null : Writable cap .null
  | bool (b : Bool) : Writable cap (.bool b)
  | num (n : Int) : -9223372036854775808 ≤ n → n < 9223372036854775808 → Writable cap (.num n)
  | real (neg : Bool) (m s : Nat) : 1 ≤ s → s ≤ 6 → m % 10 ≠ 0 → m < 10 ^ 15 → Writable cap (.real neg m s)
  | str (d : Bytes) (hex : Bool) : Writable cap (.str d hex)
  | name (n : Bytes) : 0 ∉ n → (escapeNameBody n).length ≤ cap → Writable cap (.name n)
  | ref (o g : Nat) : o < 4294967296 → g < 65536 → Writable cap (.ref o g)
  | arr (l : List Var) : (∀ v ∈ l, Writable cap v) → Writable cap (.arr l)
  | dict (l : List (Bytes × Var)) : SMap.Sorted l →
      (∀ p ∈ l, 0 ∉ p.1 ∧ (escapeNameBody p.1).length ≤ cap) → (∀ p ∈ l, Writable cap p.2) →
      Writable cap (.dict l)

mutual
/-- Nesting depth of arrays and dictionaries. -/
def nest : Var → Nat
  | .arr l => 1 + nestArr l
  | .dict l => 1 + nestKVs l
  | _ => 0
def nestArr : List Var → Nat
  | [] => 0
  | v :: r => Nat.max (nest v) (nestArr r)
def nestKVs : List (Bytes × Var) → Nat
  | [] => 0
  | p :: r => Nat.max (nest p.2) (nestKVs r)
end

end Spec

open Spec

mutual
/-- Recursion guards needed to read a value: one per array level, and one for the keys of a
dictionary; dictionary values take none. -/
def gnest : Var → Nat
  | .arr l => 1 + gnestArr l
  | .dict l => Nat.max 1 (gnestKVs l)
  | _ => 0
def gnestArr : List Var → Nat
  | [] => 0
  | v :: r => Nat.max (gnest v) (gnestArr r)
def gnestKVs : List (Bytes × Var) → Nat
  | [] => 0
  | p :: r => Nat.max (gnest p.2) (gnestKVs r)
end

mutual
theorem gnest_le : (v : Var) → gnest v ≤ nest v
  | .arr l => by rw [gnest, nest]; have := gnestArr_le l; omega
  | .dict l => by
    rw [gnest, nest]; have := gnestKVs_le l
    exact Nat.max_le.2 ⟨by omega, by omega⟩
  | .null => by simp [gnest]
  | .bool _ => by simp [gnest]
  | .num _ => by simp [gnest]
  | .real _ _ _ => by simp [gnest]
  | .str _ _ => by simp [gnest]
  | .name _ => by simp [gnest]
  | .ref _ _ => by simp [gnest]
theorem gnestArr_le : (l : List Var) → gnestArr l ≤ nestArr l
  | [] => by simp [gnestArr]
  | v :: r => by
    rw [gnestArr, nestArr]
    have := gnest_le v; have := gnestArr_le r
    exact Nat.max_le.2 ⟨Nat.le_trans ‹gnest v ≤ nest v› (Nat.le_max_left _ _),
      Nat.le_trans ‹gnestArr r ≤ nestArr r› (Nat.le_max_right _ _)⟩
theorem gnestKVs_le : (l : List (Bytes × Var)) → gnestKVs l ≤ nestKVs l
  | [] => by simp [gnestKVs]
  | (k, v) :: r => by
    rw [gnestKVs, nestKVs]
    have := gnest_le v; have := gnestKVs_le r
    exact Nat.max_le.2 ⟨Nat.le_trans ‹gnest v ≤ nest v› (Nat.le_max_left _ _),
      Nat.le_trans ‹gnestKVs r ≤ nestKVs r› (Nat.le_max_right _ _)⟩
end

theorem gnest_mem_arr {l : List Var} {v : Var} (h : v ∈ l) : gnest v ≤ gnestArr l := by
  induction l with
  | nil => cases h
  | cons x xs ih =>
    rw [gnestArr]
    rcases List.mem_cons.1 h with h | h
    · subst h; exact Nat.le_max_left _ _
    · exact Nat.le_trans (ih h) (Nat.le_max_right _ _)

theorem gnest_mem_kvs {l : List (Bytes × Var)} {p : Bytes × Var} (h : p ∈ l) :
    gnest p.2 ≤ gnestKVs l := by
  induction l with
  | nil => cases h
  | cons x xs ih =>
    rw [gnestKVs]
    rcases List.mem_cons.1 h with h | h
    · subst h; exact Nat.le_max_left _ _
    · exact Nat.le_trans (ih h) (Nat.le_max_right _ _)

/-! ### Literal texts -/

theorem digit_lit {c : Byte} (h : isDigitB c = true) : litChar c = true := by
  obtain ⟨_, _, _, _, h1, h2⟩ := digit_ne h
  simp [litChar, h1, h2]

theorem fmtNat_lit (n : Nat) : ∀ c ∈ fmtNat n, litChar c = true :=
  fun c hc => digit_lit (fmtNat_digits n c hc)

theorem fmtInt_lit (n : Int) : ∀ c ∈ fmtInt n, litChar c = true := by
  intro c hc
  unfold fmtInt at hc
  split at hc
  · rcases List.mem_cons.1 hc with h | h
    · subst h; decide
    · exact fmtNat_lit _ c h
  · exact fmtNat_lit _ c hc

theorem fmtInt_ne_nil (n : Int) : fmtInt n ≠ [] := by
  unfold fmtInt; split
  · simp
  · exact fmtNat_ne_nil _

theorem fmtInt_length {n : Int} (h1 : -9223372036854775808 ≤ n) (h2 : n < 9223372036854775808) :
    (fmtInt n).length ≤ 20 := by
  have : (fmtNat n.natAbs).length ≤ 18 + 1 := fmtNat_length _ 18 (by
    have : n.natAbs ≤ 9223372036854775808 := by omega
    exact Nat.lt_of_le_of_lt this (by decide))
  unfold fmtInt; split
  · simp; omega
  · omega

theorem scanKind_digits (w : Bytes) (k : NumKind) (h : ∀ c ∈ w, isDigitB c = true ∨ c = 45) :
    scanKind w k = k := by
  induction w with
  | nil => rfl
  | cons c r ih =>
    have hc := h c List.mem_cons_self
    have h0 : c ≠ 0 ∧ c ≠ 46 := by
      rcases hc with hc | hc
      · exact ⟨by intro e; subst e; simp [isDigitB] at hc, (digit_ne hc).2.1⟩
      · subst hc; decide
    have : (isDigitB c = true ∨ c = 45 ∨ c = 43) := by
      rcases hc with hc | hc
      · exact Or.inl hc
      · exact Or.inr (Or.inl hc)
    rw [scanKind, if_neg h0.1, if_neg h0.2, if_pos this]
    exact ih (fun c hc => h c (List.mem_cons_of_mem _ hc))

theorem fmtInt_scan (n : Int) : scanKind (fmtInt n) .number = .number := by
  apply scanKind_digits
  intro c hc
  unfold fmtInt at hc
  split at hc
  · rcases List.mem_cons.1 hc with h | h
    · exact Or.inr h
    · exact Or.inl (fmtNat_digits _ c h)
  · exact Or.inl (fmtNat_digits _ c hc)

/-- An integer text is none of `null`, `true`, `false`, `R`. -/
theorem fmtInt_head (n : Int) : ∃ c r, fmtInt n = c :: r ∧ (isDigitB c = true ∨ c = 45) := by
  unfold fmtInt; split
  · exact ⟨45, _, rfl, Or.inr rfl⟩
  · obtain ⟨c, r, h1, h2⟩ := fmtNat_cons n.natAbs
    exact ⟨c, r, h1, Or.inl h2⟩

theorem fmtInt_not_word (n : Int) : fmtInt n ≠ [110, 117, 108, 108] ∧
    fmtInt n ≠ [116, 114, 117, 101] ∧ fmtInt n ≠ [102, 97, 108, 115, 101] ∧ fmtInt n ≠ [82] := by
  obtain ⟨c, r, h, hc⟩ := fmtInt_head n
  refine ⟨?_, ?_, ?_, ?_⟩ <;> intro e <;> rw [h] at e <;> cases e <;> simp [isDigitB] at hc

theorem fmtNat_fmtInt (n : Nat) : fmtNat n = fmtInt (n : Int) := by
  have : ¬ ((n : Int) < 0) := by omega
  simp [fmtInt, this]

theorem fromChars_exact (n : Int) (h1 : -9223372036854775808 ≤ n) (h2 : n < 9223372036854775808) :
    fromCharsInt (fmtInt n) = some n := by
  have := fromChars_fmtInt n h1 h2 [] (by simp)
  simpa using this

theorem truncTo_of_lt {bits n : Nat} (h : n < 2 ^ bits) : truncTo bits (n : Int) = n := by
  unfold truncTo
  have : ((n : Int) % ((2 ^ bits : Nat) : Int)) = ((n % 2 ^ bits : Nat) : Int) := by
    exact (Int.natCast_emod n (2 ^ bits)).symm
  rw [this, Nat.mod_eq_of_lt h]; rfl

theorem escape_lit (n : Bytes) : ∀ c ∈ escapeNameBody n, litChar c = true := by
  intro c hc
  have := (escapeName_chars n c hc).1
  simpa [isRegular, litChar] using this

theorem escape_nil {n : Bytes} : escapeNameBody n = [] ↔ n = [] := by
  constructor
  · intro h
    have := unescape_escape n
    rw [h] at this; exact this.symm
  · intro h; subst h; rfl

/-! ### Reading the pieces -/

/-- Reading a token after white space the writer put in front. -/
theorem lex_sp {cap : Nat} (hcap : 2 ≤ cap) (f : WFlags) (t : Bytes) :
    lex cap (f.sp ++ t) = lex cap t := by
  unfold WFlags.sp
  split
  · rfl
  · exact lex_ws hcap (by decide)

theorem lex_cl {cap : Nat} (hcap : 2 ≤ cap) (f : WFlags) (c : Byte) (hc : isWhitespace c = true)
    (t : Bytes) : lex cap (f.cl [c] ++ t) = lex cap t := by
  unfold WFlags.cl
  split
  · exact lex_ws hcap hc
  · rfl

/-- `determine` on an integer token. -/
theorem determine_num {cfg : Cfg} (hcap : 2 ≤ cfg.cap) {s : PS} {t : Bytes} {n : Int}
    (h1 : -9223372036854775808 ≤ n) (h2 : n < 9223372036854775808)
    (h : Rep1 cfg.cap s t) (hn : cfg.readRefs = true → NoRef cfg.cap t) :
    ∃ s', determine cfg ⟨fmtInt n, .literal⟩ s = (.ok (.val (.num n)), s') ∧ s'.depth = s.depth ∧
      Rep2 cfg.cap s' t := by
  obtain ⟨w1, w2, w3, _⟩ := fmtInt_not_word n
  unfold determine
  simp only [if_neg w1, if_neg w2, if_neg w3, fmtInt_scan, fromChars_exact n h1 h2]
  split
  · rename_i hr
    obtain ⟨s', k1, k2, k3⟩ := lookRef_num hcap n h (hn hr)
    rw [k1]; exact ⟨s', rfl, k2, k3⟩
  · exact ⟨s, rfl, rfl, Or.inl h⟩

/-- `determine` on the first token of a reference. -/
theorem determine_ref {cfg : Cfg} (hcap : 20 ≤ cfg.cap) (hr : cfg.readRefs = true) {s : PS}
    {o g : Nat} {rest : Bytes} (ho : o < 4294967296) (hg : g < 65536) (hrest : StartsOk rest)
    (h : Rep1 cfg.cap s (32 :: (fmtNat g ++ [32, 82] ++ rest))) :
    ∃ s', determine cfg ⟨fmtNat o, .literal⟩ s = (.ok (.val (.ref o g)), s') ∧ s'.depth = s.depth ∧
      Rep2 cfg.cap s' rest := by
  have hcap2 : 2 ≤ cfg.cap := by omega
  rw [fmtNat_fmtInt o]
  obtain ⟨w1, w2, w3, _⟩ := fmtInt_not_word (o : Int)
  have ho' := fromChars_exact (o : Int) (by omega) (by omega)
  have hg' := fromChars_exact (g : Int) (by omega) (by omega)
  unfold determine
  simp only [if_neg w1, if_neg w2, if_neg w3, fmtInt_scan, ho', hr, if_true]
  have l1 : lex cfg.cap (32 :: (fmtNat g ++ [32, 82] ++ rest)) =
      some (⟨fmtNat g, .literal⟩, [32, 82] ++ rest) := by
    rw [lex_ws hcap2 (by decide), List.append_assoc]
    apply lex_literal (fmtNat_lit g) (fmtNat_ne_nil g)
    · have := fmtNat_length g 4 (Nat.lt_of_lt_of_le hg (by decide)); omega
    · exact StartsOk.cons_ws (by decide)
  have l2 : lex cfg.cap ([32, 82] ++ rest) = some (⟨[82], .literal⟩, rest) := by
    have e : ([32, 82] ++ rest : Bytes) = 32 :: ([82] ++ rest) := rfl
    rw [e, lex_ws hcap2 (by decide)]
    exact lex_literal (by decide) (by decide) (by simp; omega) hrest
  obtain ⟨s', k1, k2, k3⟩ := lookRef_ref hcap2 (o : Int) (g : Int) h l1 rfl
    (by rw [fmtNat_fmtInt]; exact hg') l2
  rw [k1]
  rw [truncTo_of_lt (by simpa using ho), truncTo_of_lt (by simpa using hg)]
  exact ⟨s', rfl, k2, k3⟩

/-- Reading a name just after its slash. -/
theorem readName_spec {cap : Nat} (hcap : 2 ≤ cap) {s : PS} {n rest : Bytes}
    (hlen : (escapeNameBody n).length ≤ cap) (hr : StartsOk rest)
    (h : Rep0 s (escapeNameBody n ++ rest)) :
    (readName cap s).1 = n ∧ (readName cap s).2.depth = s.depth ∧
      Rep2 cap (readName cap s).2 rest := by
  unfold readName
  by_cases hn : n = []
  · subst hn
    have hi : s.inp = rest := h.2
    cases rest with
    | nil => rw [hi]; exact ⟨rfl, rfl, Or.inl (Or.inl ⟨h.1, hi⟩)⟩
    | cons c t =>
      rw [hi]
      simp only
      split
      · exact ⟨rfl, rfl, Or.inl (Or.inl ⟨h.1, hi⟩)⟩
      · rename_i hws
        rcases hr with hr | ⟨c', t', hr, hc⟩
        · cases hr
        · cases hr
          have hrep : Rep1 cap s (c :: t) := Or.inl ⟨h.1, hi⟩
          have key : ∃ a t1, lex cap (c :: t) = some (a, t1) ∧ a.type ≠ .literal := by
            rcases hc with hc | hc | ⟨hc, hne⟩
            · exact absurd hc hws
            · refine ⟨_, _, lex_delim hcap hc, ?_⟩
              simp only [tokDelimType]; repeat' split
              all_goals simp
            · cases t with
              | nil => exact absurd rfl hne
              | cons d t =>
                by_cases hd : d = c
                · subst hd
                  refine ⟨_, _, lex_dangle hcap hc, ?_⟩
                  simp only; split <;> simp
                · refine ⟨_, _, lex_angle hcap hc hd, ?_⟩
                  simp only; split <;> simp
          obtain ⟨a, t1, hl, hty⟩ := key
          obtain ⟨s1, k1, k2, k3⟩ := tryReadToken_rep1 hcap hrep hl
          rw [k1]
          simp only
          rw [if_pos hty]
          exact ⟨rfl, k2, enqueue_rep1 k3 hl⟩
  · have hne : escapeNameBody n ≠ [] := fun e => hn (escape_nil.1 e)
    have hl := lex_literal (escape_lit n) hne hlen hr
    obtain ⟨s1, k1, k2, k3⟩ := tryReadToken_rep1 hcap (Or.inl h) hl
    cases he : escapeNameBody n with
    | nil => exact absurd he hne
    | cons c t =>
      have hi : s.inp = c :: (t ++ rest) := by rw [h.2, he]; rfl
      have hc := litChar_facts (escape_lit n c (by rw [he]; exact List.mem_cons_self))
      rw [hi]
      simp only [hc.1, Bool.false_eq_true, if_false]
      rw [k1]
      simp only [ne_eq, not_true, if_false]
      exact ⟨unescape_escape n, k2, k3.toRep2⟩

/-! ### The main induction -/

/-- What may follow a written value. -/
def Follow (cap : Nat) (r : Bytes) : Prop := StartsOk r ∧ NoRef cap r

/-- What may follow the value `v`: only after a number, and when references are read, is there a look-ahead. -/
def FollowC (cfg : Cfg) (v : Var) (r : Bytes) : Prop := StartsOk r ∧ (cfg.readRefs = true → (∃ n, v = .num n) → NoRef cfg.cap r)

theorem Follow.toC {cfg : Cfg} {v : Var} {r : Bytes} (h : Follow cfg.cap r) : FollowC cfg v r := ⟨h.1, fun _ _ => h.2⟩

/-- Fuel enough to read `v` back. -/
def fuelFor (f : WFlags) : Var → Nat
  | .arr l => 2 * (text f (.arr l)).length - 2
  | .dict l => 2 * (text f (.dict l)).length - 2
  | _ => 0

theorem fuelFor_le (f : WFlags) (v : Var) : fuelFor f v ≤ 2 * (text f v).length - 2 := by
  unfold fuelFor; split <;> omega

/-- The value `v`, written with flags `f` and followed by a suitable text, is read back. -/
def ReadsBack (cfg : Cfg) (f : WFlags) (v : Var) : Prop :=
  ∀ (s : PS) (T rest : Bytes), FollowC cfg v rest →
    lex cfg.cap T = lex cfg.cap (text f v ++ rest) → Rep2 cfg.cap s T →
    ∃ t s1, tryReadToken cfg.cap s = (some t, s1) ∧ s1.depth = s.depth ∧ t.type ≠ .sqR ∧
      t.type ≠ .dAngleR ∧ 
      ∀ e fuel, e + gnest v ≤ cfg.maxDepth → fuelFor f v ≤ fuel →
        ∃ d s2 s3, determine cfg t { s1 with depth := e } = (.ok d, s2) ∧
          readDT cfg fuel d s2 = (.ok (some v), s3) ∧ s3.depth = e ∧ Rep2 cfg.cap s3 rest

theorem readsBack_word {cfg : Cfg} (hcap : 20 ≤ cfg.cap) (f : WFlags) (w : Bytes) (v : Var)
    (ht : text f v = f.sp ++ w) (hw : ∀ c ∈ w, litChar c = true) (hne : w ≠ [])
    (hlen : w.length ≤ 20)
    (hd : ∀ s, determine cfg ⟨w, .literal⟩ s = (.ok (.val v), s)) : ReadsBack cfg f v := by
  intro s T rest hf hT h
  rw [ht, List.append_assoc] at hT
  have hl := lex_literal hw hne (by omega : w.length ≤ cfg.cap) hf.1
  obtain ⟨s1, k1, k2, k3, _⟩ := tryReadToken_rep (by omega) h
    (hT.trans ((lex_sp (by omega) f (w ++ rest)).trans hl))
  refine ⟨_, s1, k1, k2, by simp, by simp, ?_⟩
  intro e fuel _ _
  exact ⟨.val v, { s1 with depth := e }, { s1 with depth := e }, hd _, by rw [readDT], rfl,
    Or.inl k3⟩

theorem readsBack_num {cfg : Cfg} (hcap : 20 ≤ cfg.cap) (f : WFlags) {n : Int}
    (h1 : -9223372036854775808 ≤ n) (h2 : n < 9223372036854775808) : ReadsBack cfg f (.num n) := by
  intro s T rest hf hT h
  rw [text, List.append_assoc] at hT
  have hl := lex_literal (fmtInt_lit n) (fmtInt_ne_nil n)
    (Nat.le_trans (fmtInt_length h1 h2) hcap) hf.1
  obtain ⟨s1, k1, k2, k3, _⟩ := tryReadToken_rep (by omega) h
    (hT.trans ((lex_sp (by omega) f (fmtInt n ++ rest)).trans hl))
  refine ⟨_, s1, k1, k2, by simp, by simp, ?_⟩
  intro e fuel _ _
  obtain ⟨s2, m1, m2, m3⟩ := determine_num (by omega) h1 h2 (k3.depth e) (fun hc => hf.2 hc ⟨_, rfl⟩)
  exact ⟨_, s2, s2, m1, by rw [readDT], m2, m3⟩

theorem readsBack_ref {cfg : Cfg} (hcap : 20 ≤ cfg.cap) (hr : cfg.readRefs = true) (f : WFlags)
    {o g : Nat} (ho : o < 4294967296) (hg : g < 65536) : ReadsBack cfg f (.ref o g) := by
  intro s T rest hf hT h
  have e : text f (.ref o g) ++ rest =
      f.sp ++ (fmtNat o ++ (32 :: (fmtNat g ++ [32, 82] ++ rest))) := by
    rw [text]; simp
  rw [e] at hT
  have hl := lex_literal (cap := cfg.cap) (rest := 32 :: (fmtNat g ++ [32, 82] ++ rest))
    (fmtNat_lit o) (fmtNat_ne_nil o)
    (by have := fmtNat_length o 9 (Nat.lt_of_lt_of_le ho (by decide)); omega)
    (StartsOk.cons_ws (by decide))
  obtain ⟨s1, k1, k2, k3, _⟩ := tryReadToken_rep (by omega) h
    (hT.trans ((lex_sp (by omega) f _).trans hl))
  refine ⟨_, s1, k1, k2, by simp, by simp, ?_⟩
  intro e fuel _ _
  obtain ⟨s2, m1, m2, m3⟩ := determine_ref hcap hr ho hg hf.1 (k3.depth e)
  exact ⟨_, s2, s2, m1, by rw [readDT], m2, m3⟩

theorem readsBack_name {cfg : Cfg} (hcap : 20 ≤ cfg.cap) (f : WFlags) {n : Bytes}
    (hlen : (escapeNameBody n).length ≤ cfg.cap) (s : PS) (T rest : Bytes)
    (hf : StartsOk rest) (hT : lex cfg.cap T = lex cfg.cap (text f (.name n) ++ rest))
    (h : Rep2 cfg.cap s T) :
    ∃ t s1, tryReadToken cfg.cap s = (some t, s1) ∧ s1.depth = s.depth ∧ t.type ≠ .sqR ∧
      t.type ≠ .dAngleR ∧ 
      ∀ e fuel, ∃ d s2 s3, determine cfg t { s1 with depth := e } = (.ok d, s2) ∧
          readDT cfg fuel d s2 = (.ok (some (.name n)), s3) ∧ s3.depth = e ∧ Rep2 cfg.cap s3 rest := by
  have e : text f (.name n) ++ rest = 47 :: (escapeNameBody n ++ rest) := by rw [text]; simp
  rw [e] at hT
  obtain ⟨s1, k1, k2, _, k3⟩ := tryReadToken_rep (by omega) h
    (hT.trans (lex_delim (by omega) (by decide)))
  refine ⟨_, s1, k1, k2, by decide, by decide, ?_⟩
  intro e fuel
  have h0 : Rep0 { s1 with depth := e } (escapeNameBody n ++ rest) := k3 (by decide)
  obtain ⟨m1, m2, m3⟩ := readName_spec (by omega : 2 ≤ cfg.cap) hlen hf h0
  refine ⟨.name, { s1 with depth := e }, (readName cfg.cap { s1 with depth := e }).2, ?_, ?_, m2, m3⟩
  · rfl
  · rw [readDT]; dsimp only; rw [m1]

theorem readsBack_str {cfg : Cfg} (hcap : 20 ≤ cfg.cap) (f : WFlags) (d : Bytes) (hex : Bool) :
    ReadsBack cfg f (.str d hex) := by
  intro s T rest hf hT h
  cases hex with
  | false =>
    have e : text f (.str d false) ++ rest = 40 :: (d.flatMap wrLitByte ++ 41 :: rest) := by
      rw [text]; simp [writeString, wrStringBody]
    rw [e] at hT
    obtain ⟨s1, k1, k2, _, k3⟩ := tryReadToken_rep (by omega) h
      (hT.trans (lex_delim (by omega) (by decide)))
    refine ⟨_, s1, k1, k2, by decide, by decide, ?_⟩
    intro e fuel _ _
    have h0 := k3 (by decide)
    have hs := readString_lit d rest []
    simp only [List.nil_append] at hs
    have hs' : readString s1.inp = (d, rest) := by rw [h0.2]; exact hs
    refine ⟨.str, { s1 with depth := e }, { s1 with depth := e, inp := rest }, rfl, ?_, rfl, ?_⟩
    · rw [readDT]; simp [hs']
    · exact Or.inl (Or.inl ⟨h0.1, rfl⟩)
  | true =>
    have e : text f (.str d true) ++ rest = 60 :: (d.flatMap writeCharHex ++ 62 :: rest) := by
      rw [text]; simp [writeString, wrStringBody]
    rw [e] at hT
    obtain ⟨c, r, hcr, hc60⟩ : ∃ c r, d.flatMap writeCharHex ++ 62 :: rest = c :: r ∧ c ≠ 60 := by
      cases d with
      | nil => exact ⟨62, rest, rfl, by decide⟩
      | cons b d =>
        refine ⟨hexDigit ((b &&& 0xF0) >>> 4), _, rfl, ?_⟩
        exact forall_byte (P := fun b => hexDigit ((b &&& 0xF0) >>> 4) ≠ 60) (by decide +kernel) b
    have hl : lex cfg.cap (60 :: (d.flatMap writeCharHex ++ 62 :: rest)) =
        some (⟨[60], .angleL⟩, d.flatMap writeCharHex ++ 62 :: rest) := by
      rw [hcr]; exact lex_angle (by omega) (Or.inl rfl) hc60
    obtain ⟨s1, k1, k2, _, k3⟩ := tryReadToken_rep (by omega) h (hT.trans hl)
    refine ⟨_, s1, k1, k2, by decide, by decide, ?_⟩
    intro e fuel _ _
    have h0 := k3 (by decide)
    have hs' : readHex s1.inp = (d, rest) := by rw [h0.2]; exact readHex_write d rest
    refine ⟨.hex, { s1 with depth := e }, { s1 with depth := e, inp := rest }, rfl, ?_, rfl, ?_⟩
    · rw [readDT]; simp [hs']
    · exact Or.inl (Or.inl ⟨h0.1, rfl⟩)

/-- Every written value has at least one character, and its first token is not `R`. -/
theorem text_first {cfg : Cfg} (hcap : 20 ≤ cfg.cap) (f : WFlags) (v : Var)
    (hv : Writable cfg.cap v) (rest : Bytes) (hr : StartsOk rest) :
    ∃ a t1, lex cfg.cap (text f v ++ rest) = some (a, t1) ∧ ¬ (a.type = .literal ∧ a.text = [82]) := by
  have hcap2 : 2 ≤ cfg.cap := by omega
  have word : ∀ w : Bytes, (∀ c ∈ w, litChar c = true) → w ≠ [] → w.length ≤ 20 → w ≠ [82] →
      ∀ r, StartsOk r → ∃ a t1, lex cfg.cap (f.sp ++ (w ++ r)) = some (a, t1) ∧
        ¬ (a.type = .literal ∧ a.text = [82]) := by
    intro w h1 h2 h3 h4 r hr
    exact ⟨_, _, (lex_sp hcap2 f _).trans (lex_literal h1 h2 (by omega) hr), by simp [h4]⟩
  cases hv with
  | null =>
    rw [text, List.append_assoc]; exact word _ (by decide) (by decide) (by decide) (by decide) _ hr
  | bool b =>
    cases b <;> rw [text, List.append_assoc] <;>
      exact word _ (by decide) (by decide) (by decide) (by decide) _ hr
  | num n h1 h2 =>
    rw [text, List.append_assoc]
    exact word _ (fmtInt_lit n) (fmtInt_ne_nil n) (fmtInt_length h1 h2) (fmtInt_not_word n).2.2.2 _ hr
  | real neg m sc h1 h6 h0 hm =>
    rw [text_real f neg m sc h1 h6 h0, List.append_assoc]
    exact word _ (realText_lit _ _ _) (realText_ne _ _ _) (realText_length _ _ _ h6 hm) (realText_not_word _ _ _).2.2.2 _ hr
  | str d hex =>
    cases hex with
    | false =>
      rw [text]
      exact ⟨_, _, lex_delim hcap2 (by decide), by simp⟩
    | true =>
      rw [text]
      have e : writeString d true ++ rest = 60 :: (d.flatMap writeCharHex ++ 62 :: rest) := by
        simp [writeString, wrStringBody]
      rw [e]
      cases hd : d.flatMap writeCharHex ++ 62 :: rest with
      | nil => simp at hd
      | cons c r =>
        by_cases hc : c = 60
        · subst hc; exact ⟨_, _, lex_dangle hcap2 (Or.inl rfl), by simp⟩
        · exact ⟨_, _, lex_angle hcap2 (Or.inl rfl) hc, by simp⟩
  | name n _ _ => rw [text]; exact ⟨_, _, lex_delim hcap2 (by decide), by simp⟩
  | ref o g ho hg =>
    have e : text f (.ref o g) ++ rest = f.sp ++ (fmtNat o ++ (32 :: (fmtNat g ++ [32, 82] ++ rest))) := by
      rw [text]; simp
    rw [e]
    refine word _ (fmtNat_lit o) (fmtNat_ne_nil o) ?_ ?_ _ (StartsOk.cons_ws (by decide))
    · have := fmtNat_length o 9 (Nat.lt_of_lt_of_le ho (by decide)); omega
    · rw [fmtNat_fmtInt]; exact (fmtInt_not_word _).2.2.2
  | arr l _ => rw [text]; exact ⟨_, _, lex_delim hcap2 (by decide), by simp⟩
  | dict l _ _ _ =>
    rw [text]
    exact ⟨_, _, lex_dangle hcap2 (Or.inl rfl), by simp⟩

theorem text_length_pos (f : WFlags) (v : Var) (cap : Nat) (hv : Writable cap v) :
    0 < (text f v).length := by
  cases hv with
  | null => rw [text]; simp
  | bool b => cases b <;> rw [text] <;> simp
  | num n _ _ =>
    rw [text]; have := length_pos_of_ne (fmtInt_ne_nil n); simp; omega
  | real neg m sc h1 h6 h0 hm =>
    rw [text_real f neg m sc h1 h6 h0]; have := length_pos_of_ne (realText_ne neg m sc); simp; omega
  | str d hex => rw [text]; simp [writeString]
  | name n _ _ => rw [text]; simp
  | ref o g _ _ => rw [text]; simp; omega
  | arr l _ => rw [text]; simp
  | dict l _ _ _ => rw [text]; simp

/-- Separators suffice: clean mode writes them everywhere, otherwise literals bring a space. -/
def WFlags.Sep (f : WFlags) : Prop := f.clean = true ∨ f.noInline = false

theorem startsOk_text {cap : Nat} (f : WFlags) (hf : f.Sep) (v : Var) (hv : Writable cap v)
    (c : Byte) (hc : isWhitespace c = true) (rest : Bytes) :
    StartsOk (f.cl [c] ++ (text f v ++ rest)) := by
  unfold WFlags.cl
  split
  · exact StartsOk.cons_ws hc
  · rename_i hcl
    have hni : f.noInline = false := by
      rcases hf with h | h
      · exact absurd h hcl
      · exact h
    have hsp : f.sp = [32] := by simp [WFlags.sp, hni]
    simp only [List.nil_append]
    cases hv with
    | null => rw [text, hsp]; exact StartsOk.cons_ws (by decide)
    | bool b => cases b <;> rw [text, hsp] <;> exact StartsOk.cons_ws (by decide)
    | num n _ _ => rw [text, hsp]; exact StartsOk.cons_ws (by decide)
    | real neg m sc h1 h6 h0 hm => rw [text, hsp]; exact StartsOk.cons_ws (by decide)
    | str d hex =>
      cases hex with
      | false => rw [text]; exact StartsOk.cons_delim (by decide)
      | true =>
        rw [text]
        have e : writeString d true ++ rest = 60 :: (d.flatMap writeCharHex ++ 62 :: rest) := by
          simp [writeString, wrStringBody]
        rw [e]
        cases hd : d.flatMap writeCharHex ++ 62 :: rest with
        | nil => simp at hd
        | cons c r => exact StartsOk.cons_angle (Or.inl rfl)
    | name n _ _ => rw [text]; exact StartsOk.cons_delim (by decide)
    | ref o g _ _ => rw [text, hsp]; exact StartsOk.cons_ws (by decide)
    | arr l _ => rw [text]; exact StartsOk.cons_delim (by decide)
    | dict l _ _ _ => rw [text]; exact StartsOk.cons_angle (Or.inl rfl)

theorem sep_ws (c : Nat) : isWhitespace (if c % 10 = 0 then 10 else 32) = true := by
  split <;> decide

/-- What follows an array element up to the closing bracket. -/
theorem startsOk_textArr {cap : Nat} (f : WFlags) (hf : f.Sep) (l : List Var) (c : Byte)
    (hc : isWhitespace c = true) (k : Nat) (hl : ∀ v ∈ l, Writable cap v) (rest : Bytes) :
    StartsOk (f.cl [c] ++ (textArr f k l ++ 93 :: rest)) := by
  cases l with
  | nil =>
    rw [textArr]
    unfold WFlags.cl
    split
    · exact StartsOk.cons_ws hc
    · exact StartsOk.cons_delim (by decide)
  | cons v l =>
    rw [textArr, List.append_assoc]
    exact startsOk_text f hf v (hl v List.mem_cons_self) c hc _

theorem noRef_textArr {cfg : Cfg} (hcap : 20 ≤ cfg.cap) (f : WFlags) (hf : f.Sep) (l : List Var)
    (c : Byte) (hc : isWhitespace c = true) (k : Nat) (hl : ∀ v ∈ l, Writable cfg.cap v)
    (rest : Bytes) : NoRef cfg.cap (f.cl [c] ++ (textArr f k l ++ 93 :: rest)) := by
  have hcap2 : 2 ≤ cfg.cap := by omega
  intro a t1 ha hty g hg
  rw [lex_cl hcap2 f c hc] at ha
  cases l with
  | nil =>
    rw [textArr, List.nil_append, lex_delim hcap2 (by decide)] at ha
    simp at ha; rw [← ha.1] at hty; simp [tokDelimType] at hty
  | cons v l =>
    have hv := hl v List.mem_cons_self
    have hl' : ∀ v ∈ l, Writable cfg.cap v := fun v h => hl v (List.mem_cons_of_mem _ h)
    -- the text after `v`
    have hnext : ∀ (m : Nat), ∃ b t2,
        lex cfg.cap (f.cl [if k % 10 = 0 then 10 else 32] ++ (textArr f m l ++ 93 :: rest)) = some (b, t2) ∧
          ¬ (b.type = .literal ∧ b.text = [82]) := by
      intro m
      rw [lex_cl hcap2 f _ (sep_ws k)]
      cases l with
      | nil =>
        rw [textArr, List.nil_append]
        exact ⟨_, _, lex_delim hcap2 (by decide), by simp⟩
      | cons w l =>
        rw [textArr, List.append_assoc]
        refine text_first hcap f w (hl' w List.mem_cons_self) _ ?_
        rw [List.append_assoc]
        exact startsOk_textArr f hf l _ (sep_ws m) (m + 1)
          (fun v h => hl' v (List.mem_cons_of_mem _ h)) rest
    have hstart := startsOk_textArr f hf l (if k % 10 = 0 then 10 else 32) (sep_ws k) (k + 1) hl' rest
    rw [textArr, List.append_assoc, List.append_assoc] at ha
    have word : ∀ w : Bytes, (∀ c ∈ w, litChar c = true) → w ≠ [] → w.length ≤ 20 →
        fromCharsInt w = none → lex cfg.cap (f.sp ++ (w ++ (f.cl [if k % 10 = 0 then 10 else 32] ++
          (textArr f (k + 1) l ++ 93 :: rest)))) = some (a, t1) → False := by
      intro w h1 h2 h3 h4 h5
      rw [lex_sp hcap2, lex_literal h1 h2 (by omega) hstart] at h5
      simp at h5
      rw [← h5.1] at hg; simp [h4] at hg
    cases hv with
    | null =>
      rw [text, List.append_assoc] at ha
      exact absurd ha (fun h => word _ (by decide) (by decide) (by decide) (by decide) h)
    | bool b =>
      cases b <;> (rw [text, List.append_assoc] at ha; exact absurd ha (fun h => word _ (by decide) (by decide) (by decide) (by decide) h))
    | num n h1 h2 =>
      rw [text, List.append_assoc, lex_sp hcap2,
        lex_literal (fmtInt_lit n) (fmtInt_ne_nil n) (Nat.le_trans (fmtInt_length h1 h2) hcap) hstart] at ha
      simp at ha
      rw [← ha.2]
      exact hnext (k + 1)
    | real neg m sc h1 h6 h0 hm =>
      rw [text_real f neg m sc h1 h6 h0, List.append_assoc, lex_sp hcap2,
        lex_literal (realText_lit _ _ _) (realText_ne _ _ _) (Nat.le_trans (realText_length _ _ _ h6 hm) hcap) hstart] at ha
      simp at ha
      rw [← ha.2]
      exact hnext (k + 1)
    | str d hex =>
      exfalso
      cases hex with
      | false =>
        rw [text] at ha
        have e : ∀ r, writeString d false ++ r = 40 :: (d.flatMap wrLitByte ++ 41 :: r) := by
          intro r; simp [writeString, wrStringBody]
        rw [e, lex_delim hcap2 (by decide)] at ha
        simp at ha; rw [← ha.1] at hty; simp [tokDelimType] at hty
      | true =>
        rw [text] at ha
        have e : ∀ r, writeString d true ++ r = 60 :: (d.flatMap writeCharHex ++ 62 :: r) := by
          intro r; simp [writeString, wrStringBody]
        rw [e] at ha
        generalize hX : d.flatMap writeCharHex ++ 62 :: _ = X at ha
        cases X with
        | nil => simp at hX
        | cons c' r =>
          by_cases hc' : c' = 60
          · subst hc'
            rw [lex_dangle hcap2 (Or.inl rfl)] at ha
            simp at ha; rw [← ha.1] at hty; simp at hty
          · rw [lex_angle hcap2 (Or.inl rfl) hc'] at ha
            simp at ha; rw [← ha.1] at hty; simp at hty
    | name n _ _ =>
      rw [text, List.cons_append, lex_delim hcap2 (by decide)] at ha
      simp at ha; rw [← ha.1] at hty; simp [tokDelimType] at hty
    | ref o gg ho hgg =>
      have e : ∀ r, text f (.ref o gg) ++ r = f.sp ++ (fmtNat o ++ (32 :: (fmtNat gg ++ ([32, 82] ++ r)))) := by
        intro r; rw [text]; simp
      have hso : StartsOk (32 :: (fmtNat gg ++ ([32, 82] ++ (f.cl [if k % 10 = 0 then 10 else 32] ++
          (textArr f (k + 1) l ++ 93 :: rest))))) := StartsOk.cons_ws (by decide)
      rw [e, lex_sp hcap2, lex_literal (fmtNat_lit o) (fmtNat_ne_nil o)
        (by have := fmtNat_length o 9 (Nat.lt_of_lt_of_le ho (by decide)); omega) hso] at ha
      simp at ha
      rw [← ha.2]
      refine ⟨⟨fmtNat gg, .literal⟩, 32 :: 82 :: (f.cl [if k % 10 = 0 then 10 else 32] ++
        (textArr f (k + 1) l ++ 93 :: rest)), ?_, ?_⟩
      · rw [lex_ws hcap2 (by decide)]
        exact lex_literal (fmtNat_lit gg) (fmtNat_ne_nil gg)
          (by have := fmtNat_length gg 4 (Nat.lt_of_lt_of_le hgg (by decide)); omega)
          (StartsOk.cons_ws (by decide))
      · rw [fmtNat_fmtInt]; simp [(fmtInt_not_word _).2.2.2]
    | arr l' _ =>
      rw [text, List.cons_append, lex_delim hcap2 (by decide)] at ha
      simp at ha; rw [← ha.1] at hty; simp [tokDelimType] at hty
    | dict l' _ _ _ =>
      rw [text] at ha
      simp only [List.cons_append, List.nil_append] at ha
      rw [lex_dangle hcap2 (Or.inl rfl)] at ha
      simp at ha; rw [← ha.1] at hty; simp at hty


theorem guarded_ok {α : Type} {max : Nat} {m : P α} {s s' : PS} {r : Res α}
    (hd : s.depth + 1 ≤ max) (h : m { s with depth := s.depth + 1 } = (r, s')) :
    guarded max m s = (r, { s' with depth := s'.depth - 1 }) := by
  unfold guarded
  rw [if_neg (by omega), h]

/-- Reading the elements of an array. -/
theorem readArr_spec {cfg : Cfg} (hcap : 20 ≤ cfg.cap) (f : WFlags) (hf : f.Sep) (l : List Var)
    (hl : ∀ v ∈ l, Writable cfg.cap v ∧ ReadsBack cfg f v) (acc : List Var) (k : Nat) (s : PS)
    (T rest : Bytes) (fuel : Nat) (hT : lex cfg.cap T = lex cfg.cap (textArr f k l ++ 93 :: rest))
    (h : Rep2 cfg.cap s T) (hd : s.depth + 1 + gnestArr l ≤ cfg.maxDepth)
    (hfuel : 2 * (textArr f k l).length + 1 ≤ fuel) :
    ∃ s', readArr cfg fuel acc s = (.ok (some (.arr (acc ++ l))), s') ∧ s'.depth = s.depth ∧
      Rep2 cfg.cap s' rest := by
  induction l generalizing acc k s T fuel with
  | nil =>
    obtain ⟨fuel, rfl⟩ : ∃ n, fuel = n + 1 := ⟨fuel - 1, by omega⟩
    rw [textArr, List.nil_append] at hT
    obtain ⟨s1, k1, k2, _, k3⟩ := tryReadToken_rep (by omega) h
      (hT.trans (lex_delim (by omega) (by decide)))
    refine ⟨s1, ?_, k2, (k3 (by decide)).toRep2⟩
    rw [readArr]; dsimp only
    rw [k1]; simp [tokDelimType]
  | cons v l ih =>
    obtain ⟨hw, hb⟩ := hl v List.mem_cons_self
    have hl' : ∀ v ∈ l, Writable cfg.cap v ∧ ReadsBack cfg f v :=
      fun v h => hl v (List.mem_cons_of_mem _ h)
    have hlw : ∀ v ∈ l, Writable cfg.cap v := fun v h => (hl' v h).1
    have hpos := text_length_pos f v cfg.cap hw
    rw [textArr] at hfuel
    simp only [List.length_append] at hfuel
    obtain ⟨fuel, rfl⟩ : ∃ n, fuel = n + 1 := ⟨fuel - 1, by omega⟩
    rw [textArr, List.append_assoc, List.append_assoc] at hT
    have hnest1 : gnest v ≤ gnestArr (v :: l) := gnest_mem_arr List.mem_cons_self
    have hnest2 : gnestArr l ≤ gnestArr (v :: l) := by rw [gnestArr]; exact Nat.le_max_right _ _
    obtain ⟨t, s1, k1, k2, k3, _, k4⟩ := hb s T _
      ⟨startsOk_textArr f hf l _ (sep_ws k) (k + 1) hlw rest,
        fun _ _ => noRef_textArr hcap f hf l _ (sep_ws k) (k + 1) hlw rest⟩ hT h
    obtain ⟨d, s2, s3, m1, m2, m3, m4⟩ := k4 (s.depth + 1) fuel (by omega)
      (by have := fuelFor_le f v; omega)
    have hg : guarded cfg.maxDepth ((determine cfg t).andThen (fun d => readDT cfg fuel d)) s1
        = (.ok (some v), { s3 with depth := s3.depth - 1 }) := by
      apply guarded_ok (by omega)
      unfold P.andThen
      rw [k2, m1]; dsimp only; rw [m2]
    have hd3 : ({ s3 with depth := s3.depth - 1 } : PS).depth = s.depth := by
      show s3.depth - 1 = s.depth; omega
    obtain ⟨s', n1, n2, n3⟩ := ih hl' (acc ++ [v]) (k + 1) { s3 with depth := s3.depth - 1 }
      (f.cl [if k % 10 = 0 then 10 else 32] ++ (textArr f (k + 1) l ++ 93 :: rest)) fuel
      (lex_cl (by omega) f _ (sep_ws k) _) (m4.depth _) (by rw [hd3]; omega) (by omega)
    refine ⟨s', ?_, by rw [n2, hd3], n3⟩
    rw [readArr]; dsimp only
    rw [k1]; dsimp only
    rw [if_neg k3, hg]; dsimp only
    rw [n1]; simp

theorem readsBack_arr {cfg : Cfg} (hcap : 20 ≤ cfg.cap) (f : WFlags) (hf : f.Sep) (l : List Var)
    (hl : ∀ v ∈ l, Writable cfg.cap v ∧ ReadsBack cfg f v) : ReadsBack cfg f (.arr l) := by
  intro s T rest hfo hT h
  have e : text f (.arr l) ++ rest = 91 :: (f.cl [32] ++ (textArr f 1 l ++ 93 :: rest)) := by
    rw [text]; simp
  rw [e] at hT
  obtain ⟨s1, k1, k2, _, k3⟩ := tryReadToken_rep (by omega) h
    (hT.trans (lex_delim (by omega) (by decide)))
  refine ⟨_, s1, k1, k2, by decide, by decide, ?_⟩
  intro e fuel hn hfu
  rw [gnest] at hn
  rw [fuelFor, text] at hfu
  simp only [List.length_cons, List.length_append, List.length_nil] at hfu
  obtain ⟨fuel, rfl⟩ : ∃ n, fuel = n + 1 := ⟨fuel - 1, by omega⟩
  obtain ⟨s', n1, n2, n3⟩ := readArr_spec hcap f hf l hl [] 1 { s1 with depth := e } _ rest fuel
    (lex_cl (by omega) f 32 (by decide) _) ((k3 (by decide)).toRep2.depth e)
    (by show e + 1 + _ ≤ _; omega) (by omega)
  refine ⟨.arr, { s1 with depth := e }, s', rfl, ?_, n2, n3⟩
  rw [readDT]; exact n1

/-! ### Dictionaries -/

/-- The entries of a dictionary in the given order. -/
def entries (f : WFlags) (l : List (Bytes × Var)) : Bytes :=
  l.flatMap (fun p => 47 :: escapeNameBody p.1 ++ f.cl [32] ++ text f p.2 ++ f.cl [10])

/-- The order in which a dictionary's entries are written. -/
def ordered (l : List (Bytes × Var)) : List (Bytes × Var) :=
  (match SMap.find? kType l with | some v => [(kType, v)] | none => []) ++
    l.filter (fun p => p.1 ≠ kType)

theorem textKVs_map (f : WFlags) (l : List (Bytes × Var)) :
    textKVs f l = l.map (fun p => (p.1, text f p.2)) := by
  induction l with
  | nil => rw [textKVs]; rfl
  | cons p l ih => rw [textKVs, ih]; rfl

theorem find_textKVs (f : WFlags) (k : Bytes) (l : List (Bytes × Var)) :
    SMap.find? k (textKVs f l) = (SMap.find? k l).map (text f) := by
  induction l with
  | nil => rw [textKVs]; rfl
  | cons p l ih =>
    rw [textKVs, SMap.find?, SMap.find?]
    split
    · rfl
    · exact ih

theorem filter_textKVs (f : WFlags) (l : List (Bytes × Var)) :
    (textKVs f l).filter (fun p => p.1 ≠ kType) = textKVs f (l.filter (fun p => p.1 ≠ kType)) := by
  rw [textKVs_map, textKVs_map, List.filter_map]; rfl

theorem dictBody_entries (f : WFlags) (l : List (Bytes × Var)) :
    dictBody f (textKVs f l) = entries f (ordered l) := by
  unfold dictBody entries ordered
  rw [find_textKVs, filter_textKVs, textKVs_map, List.flatMap_append]
  congr 1
  · cases SMap.find? kType l with
    | none => rfl
    | some v =>
      have : escapeNameBody kType = [84, 121, 112, 101] := by decide
      simp [this]
  · rw [List.flatMap_map]

theorem find_filter {V : Type} (k k0 : Bytes) (l : List (Bytes × V)) :
    SMap.find? k (l.filter (fun p => p.1 ≠ k0)) = if k = k0 then none else SMap.find? k l := by
  induction l with
  | nil => simp [SMap.find?]
  | cons p l ih =>
    obtain ⟨a, b⟩ := p
    by_cases ha : a = k0
    · subst ha
      rw [List.filter_cons_of_neg (by simp), ih, SMap.find?]
      by_cases hk : k = a <;> simp [hk]
    · rw [List.filter_cons_of_pos (by simp [ha]), SMap.find?, ih, SMap.find?]
      by_cases hk : k = a
      · subst hk; simp [ha]
      · simp [hk]

theorem find_ordered (k : Bytes) (l : List (Bytes × Var)) :
    SMap.find? k (ordered l) = SMap.find? k l := by
  unfold ordered
  rw [SMap.find_append, find_filter]
  by_cases hk : k = kType
  · subst hk
    cases h : SMap.find? kType l <;> simp [SMap.find?]
  · cases h : SMap.find? kType l <;> simp [SMap.find?, hk]

theorem mem_ordered {l : List (Bytes × Var)} {p : Bytes × Var} (h : p ∈ ordered l) : p ∈ l := by
  unfold ordered at h
  rcases List.mem_append.1 h with h | h
  · cases hf : SMap.find? kType l with
    | none => rw [hf] at h; simp at h
    | some v =>
      rw [hf] at h; simp at h; subst h
      exact SMap.find_mem hf
  · exact (List.mem_filter.1 h).1

theorem keys_nodup {V : Type} {l : List (Bytes × V)} (h : SMap.Sorted l) : (l.map (·.1)).Nodup := by
  induction l with
  | nil => exact List.nodup_nil
  | cons p l ih =>
    obtain ⟨k, v⟩ := p
    rw [List.map_cons, List.nodup_cons]
    refine ⟨?_, ih h.2⟩
    intro hm
    obtain ⟨q, hq, he⟩ := List.mem_map.1 hm
    have := h.1 q hq
    exact SMap.lt_ne this he.symm

theorem ordered_nodup {l : List (Bytes × Var)} (h : SMap.Sorted l) :
    ((ordered l).map (·.1)).Nodup := by
  have h1 : ((l.filter (fun p => p.1 ≠ kType)).map (·.1)).Nodup :=
    (keys_nodup h).sublist (List.Sublist.map _ List.filter_sublist)
  unfold ordered
  cases SMap.find? kType l with
  | none => simpa using h1
  | some v =>
    rw [List.cons_append, List.nil_append, List.map_cons, List.nodup_cons]
    refine ⟨?_, h1⟩
    intro hm
    obtain ⟨q, hq, he⟩ := List.mem_map.1 hm
    have := (List.mem_filter.1 hq).2
    simp at this
    exact this he

/-- What `ReadDictionary` returns given its map and the pending `/Contents`. -/
def dictFin (acc : List (Bytes × Var)) : Option Bytes → List (Bytes × Var)
  | none => acc
  | some b => SMap.insert kContents (.str b true) acc

theorem dictFin_sorted {acc : List (Bytes × Var)} (h : SMap.Sorted acc) (con : Option Bytes) :
    SMap.Sorted (dictFin acc con) := by
  cases con with
  | none => exact h
  | some b => exact SMap.sorted_insert _ _ _ h

theorem find_dictFin_insert (acc : List (Bytes × Var)) (con : Option Bytes) (key k : Bytes) (v : Var)
    (h : con ≠ none → key ≠ kContents) :
    SMap.find? k (dictFin (SMap.insert key v acc) con) =
      if k = key then some v else SMap.find? k (dictFin acc con) := by
  cases con with
  | none => exact SMap.find_insert _ _ _ _
  | some b =>
    have hk := h (by simp)
    simp only [dictFin, SMap.find_insert]
    by_cases h1 : k = kContents
    · have : k ≠ key := by rw [h1]; exact fun e => hk e.symm
      simp [h1, Ne.symm hk]
    · simp [h1]

/-- After a dictionary value comes white space, a key or the end marker. -/
theorem follow_entries {cfg : Cfg} (hcap : 20 ≤ cfg.cap) (f : WFlags) (l : List (Bytes × Var))
    (rest : Bytes) : Follow cfg.cap (f.cl [10] ++ (entries f l ++ 62 :: 62 :: rest)) := by
  have hcap2 : 2 ≤ cfg.cap := by omega
  constructor
  · unfold WFlags.cl; split
    · exact StartsOk.cons_ws (by decide)
    · cases l with
      | nil => exact StartsOk.cons_angle (Or.inr rfl)
      | cons p l => exact StartsOk.cons_delim (by decide)
  · intro a t1 ha hty
    exfalso
    rw [lex_cl hcap2 f 10 (by decide)] at ha
    cases l with
    | nil =>
      have e : entries f [] ++ 62 :: 62 :: rest = 62 :: 62 :: rest := rfl
      rw [e, lex_dangle hcap2 (Or.inr rfl)] at ha
      simp at ha; rw [← ha.1] at hty; simp at hty
    | cons p l =>
      have e : entries f (p :: l) ++ 62 :: 62 :: rest = 47 :: (escapeNameBody p.1 ++ (f.cl [32] ++
          (text f p.2 ++ (f.cl [10] ++ (entries f l ++ 62 :: 62 :: rest))))) := by
        simp [entries]
      rw [e, lex_delim hcap2 (by decide)] at ha
      simp at ha; rw [← ha.1] at hty; simp [tokDelimType] at hty

theorem readDT_hex {cfg : Cfg} {fuel : Nat} {d : Det} {s s3 : PS} {v : Var} (hd : d.isHex = true)
    (h : readDT cfg fuel d s = (.ok (some v), s3)) :
    v = .str (readHex s.inp).1 true ∧ s3 = { s with inp := (readHex s.inp).2 } := by
  cases d <;> simp [Det.isHex] at hd
  rw [readDT] at h
  simp at h
  exact ⟨h.1.symm, h.2.symm⟩

theorem readDict_spec {cfg : Cfg} (hcap : 20 ≤ cfg.cap) (f : WFlags) (hf : f.Sep)
    (l : List (Bytes × Var))
    (hl : ∀ p ∈ l, (escapeNameBody p.1).length ≤ cfg.cap ∧ Writable cfg.cap p.2 ∧ ReadsBack cfg f p.2)
    (hnd : (l.map (·.1)).Nodup) (acc : List (Bytes × Var)) (hacc : SMap.Sorted acc)
    (con : Option Bytes) (hcon : con ≠ none → kContents ∉ l.map (·.1)) (s : PS)
    (T rest : Bytes) (fuel N : Nat) (hT : lex cfg.cap T = lex cfg.cap (entries f l ++ 62 :: 62 :: rest))
    (h : Rep2 cfg.cap s T) (hd : s.depth + 1 ≤ cfg.maxDepth) (hN : ∀ p ∈ l, gnest p.2 ≤ N)
    (hd' : s.depth + N ≤ cfg.maxDepth)
    (hfuel : 2 * (entries f l).length + 1 ≤ fuel) :
    ∃ r s', readDict cfg fuel acc con s = (.ok (some (.dict r)), s') ∧ s'.depth = s.depth ∧
      Rep0 s' rest ∧ SMap.Sorted r ∧
      ∀ k, SMap.find? k r = match SMap.find? k l with
        | some v => some v
        | none => SMap.find? k (dictFin acc con) := by
  have hcap2 : 2 ≤ cfg.cap := by omega
  induction l generalizing acc con s T fuel with
  | nil =>
    obtain ⟨fuel, rfl⟩ : ∃ n, fuel = n + 1 := ⟨fuel - 1, by omega⟩
    have e : entries f [] ++ 62 :: 62 :: rest = 62 :: 62 :: rest := rfl
    rw [e] at hT
    obtain ⟨s1, k1, k2, _, k3⟩ := tryReadToken_rep hcap2 h
      (hT.trans (lex_dangle hcap2 (Or.inr rfl)))
    refine ⟨dictFin acc con, s1, ?_, k2, k3 (by simp), dictFin_sorted hacc con,
      fun k => rfl⟩
    rw [readDict]; dsimp only
    rw [k1]
    cases con <;> rfl
  | cons p l ih =>
    obtain ⟨key, v⟩ := p
    obtain ⟨hkl, hw, hb⟩ := hl (key, v) List.mem_cons_self
    dsimp only at hkl hw hb
    have e : entries f ((key, v) :: l) ++ 62 :: 62 :: rest = text f (.name key) ++ (f.cl [32] ++
          (text f v ++ (f.cl [10] ++ (entries f l ++ 62 :: 62 :: rest)))) := by
        simp [entries, text]
    have hlen : (entries f ((key, v) :: l)).length ≥ 1 + (text f v).length + (entries f l).length := by
      simp only [entries, List.flatMap_cons, List.length_append, List.length_cons]; omega
    rw [e] at hT
    have hpos := text_length_pos f v cfg.cap hw
    obtain ⟨fuel, rfl⟩ : ∃ n, fuel = n + 1 := ⟨fuel - 1, by omega⟩
    obtain ⟨t, s1, k1, k2, _, k3, k4⟩ := readsBack_name hcap f hkl s T _
      (startsOk_text f hf v hw 32 (by decide) _) hT h
    obtain ⟨d, s2, s3, m1, m2, m3, m4⟩ := k4 (s.depth + 1) fuel
    have hg : guarded cfg.maxDepth ((determine cfg t).andThen (fun d => readDT cfg fuel d)) s1
        = (.ok (some (.name key)), { s3 with depth := s3.depth - 1 }) := by
      apply guarded_ok (by omega)
      unfold P.andThen
      rw [k2, m1]; dsimp only; rw [m2]
    have hd3 : s3.depth - 1 = s.depth := by omega
    rw [hd3] at hg
    obtain ⟨t', s4, n1, n2, _, _, n4⟩ := hb { s3 with depth := s.depth } _ _
      (follow_entries hcap f l rest).toC (lex_cl hcap2 f 32 (by decide) _) (m4.depth _)
    have n2' : s4.depth = s.depth := n2
    obtain ⟨d', s5, s6, o1, o2, o3, o4⟩ := n4 s.depth fuel
      (by have := hN (key, v) List.mem_cons_self; dsimp only at this; omega)
      (by have := fuelFor_le f v; omega)
    have hs4 : ({ s4 with depth := s.depth } : PS) = s4 := by rw [← n2']
    rw [hs4] at o1
    rw [List.map_cons, List.nodup_cons] at hnd
    have step : ∀ acc' con', SMap.Sorted acc' → (con' ≠ none → kContents ∉ l.map (·.1)) →
        (∀ k, SMap.find? k (dictFin acc' con') =
          if k = key then some v else SMap.find? k (dictFin acc con)) →
        ∃ r s', readDict cfg fuel acc' con' s6 = (.ok (some (.dict r)), s') ∧ s'.depth = s.depth ∧
          Rep0 s' rest ∧ SMap.Sorted r ∧
          ∀ k, SMap.find? k r = match SMap.find? k ((key, v) :: l) with
            | some v => some v
            | none => SMap.find? k (dictFin acc con) := by
      intro acc' con' ha hc hfin
      obtain ⟨r, s', q1, q2, q3, q4, q5⟩ := ih (fun p h => hl p (List.mem_cons_of_mem _ h)) hnd.2
        acc' ha con' hc s6 (f.cl [10] ++ (entries f l ++ 62 :: 62 :: rest)) fuel
        (lex_cl hcap2 f 10 (by decide) _) o4 (by omega)
        (fun p h => hN p (List.mem_cons_of_mem _ h)) (by omega) (by omega)
      refine ⟨r, s', q1, by omega, q3, q4, ?_⟩
      intro k
      rw [q5 k, hfin k, SMap.find?]
      by_cases hk : k = key
      · subst hk
        have : SMap.find? k l = none := by
          cases hfk : SMap.find? k l with
          | none => rfl
          | some w =>
            exact absurd (List.mem_map.2 ⟨(k, w), SMap.find_mem hfk, rfl⟩) hnd.1
        simp [this]
      · simp [hk]
    have hcon' : con ≠ none → key ≠ kContents := by
      intro hc e
      exact hcon hc (by rw [List.map_cons, e]; exact List.mem_cons_self)
    rw [readDict]; dsimp only
    rw [k1]; dsimp only
    rw [if_neg k3, hg]; dsimp only
    rw [n1]; dsimp only
    rw [o1]; dsimp only
    by_cases hch : key = kContents ∧ d'.isHex = true
    · rw [if_pos hch]
      obtain ⟨hv, hs6⟩ := readDT_hex hch.2 o2
      have hcn : con = none := by
        cases con with
        | none => rfl
        | some b => exact absurd hch.1 (hcon' (by simp))
      rw [← hs6]
      apply step
      · exact hacc
      · intro _; rw [← hch.1]; exact hnd.1
      · intro k
        rw [hcn, hch.1, hv]
        exact SMap.find_insert _ _ _ _
    · rw [if_neg hch, o2]; dsimp only
      apply step
      · exact SMap.sorted_insert _ _ _ hacc
      · intro hc hm
        exact hcon hc (by rw [List.map_cons]; exact List.mem_cons_of_mem _ hm)
      · intro k; exact find_dictFin_insert acc con key k v hcon'

theorem readsBack_dict {cfg : Cfg} (hcap : 20 ≤ cfg.cap) (f : WFlags) (hf : f.Sep)
    (l : List (Bytes × Var)) (hs : SMap.Sorted l)
    (hl : ∀ p ∈ l, (escapeNameBody p.1).length ≤ cfg.cap ∧ Writable cfg.cap p.2 ∧ ReadsBack cfg f p.2) :
    ReadsBack cfg f (.dict l) := by
  intro s T rest hfo hT h
  have hcap2 : 2 ≤ cfg.cap := by omega
  have e : text f (.dict l) ++ rest =
      60 :: 60 :: (f.cl [10] ++ (entries f (ordered l) ++ 62 :: 62 :: rest)) := by
    rw [text, dictBody_entries]; simp
  rw [e] at hT
  obtain ⟨s1, k1, k2, _, k3⟩ := tryReadToken_rep hcap2 h
    (hT.trans (lex_dangle hcap2 (Or.inl rfl)))
  refine ⟨_, s1, k1, k2, by simp, by simp, ?_⟩
  intro e fuel hn hfu
  rw [gnest] at hn
  have hn1 : 1 ≤ Nat.max 1 (gnestKVs l) := Nat.le_max_left _ _
  have hn2 : gnestKVs l ≤ Nat.max 1 (gnestKVs l) := Nat.le_max_right _ _
  rw [fuelFor, text, dictBody_entries] at hfu
  simp only [List.length_cons, List.length_append, List.length_nil] at hfu
  obtain ⟨fuel, rfl⟩ : ∃ n, fuel = n + 1 := ⟨fuel - 1, by omega⟩
  obtain ⟨r, s', n1, n2, n3, n4, n5⟩ := readDict_spec hcap f hf (ordered l)
    (fun p hp => hl p (mem_ordered hp)) (ordered_nodup hs) [] trivial none (by simp)
    { s1 with depth := e } _ rest fuel (gnestKVs l)
    (lex_cl hcap2 f 10 (by decide) _) ((k3 (by simp)).toRep2.depth e)
    (by show e + 1 ≤ _; omega) (fun p hp => gnest_mem_kvs (mem_ordered hp))
    (by show e + _ ≤ _; omega) (by omega)
  have hr : r = l := by
    apply SMap.ext n4 hs
    intro k
    rw [n5 k, find_ordered]
    cases SMap.find? k l <;> rfl
  rw [hr] at n1
  refine ⟨.dict, { s1 with depth := e }, s', rfl, ?_, n2, n3.toRep2⟩
  rw [readDT]; exact n1

theorem readsBack_all {cfg : Cfg} (hcap : 20 ≤ cfg.cap) (hr : cfg.readRefs = true) (f : WFlags)
    (hf : f.Sep) (v : Var) (hv : Writable cfg.cap v) : ReadsBack cfg f v := by
  induction hv with
  | null => exact readsBack_word hcap f _ _ (by rw [text]) (by decide) (by decide) (by decide) (fun _ => rfl)
  | bool b =>
    cases b with
    | true => exact readsBack_word hcap f _ _ (by rw [text]) (by decide) (by decide) (by decide) (fun _ => rfl)
    | false => exact readsBack_word hcap f _ _ (by rw [text]) (by decide) (by decide) (by decide) (fun _ => rfl)
  | num n h1 h2 => exact readsBack_num hcap f h1 h2
  | real neg m sc h1 h6 h0 hm =>
    exact readsBack_word hcap f _ _ (text_real f neg m sc h1 h6 h0) (realText_lit _ _ _) (realText_ne _ _ _)
      (realText_length _ _ _ h6 hm) (determine_real cfg neg m sc h1)
  | str d hex => exact readsBack_str hcap f d hex
  | name n _ h =>
    intro s T rest hfo hT h'
    obtain ⟨t, s1, k1, k2, k3, k4, k5⟩ := readsBack_name hcap f h s T rest hfo.1 hT h'
    exact ⟨t, s1, k1, k2, k3, k4, fun e fuel _ _ => k5 e fuel⟩
  | ref o g ho hg => exact readsBack_ref hcap hr f ho hg
  | arr l h ih => exact readsBack_arr hcap f hf l (fun v hv => ⟨h v hv, ih v hv⟩)
  | dict l hs hk h ih =>
    exact readsBack_dict hcap f hf l hs (fun p hp => ⟨(hk p hp).2, h p hp, ih p hp⟩)

end Pdfmm
