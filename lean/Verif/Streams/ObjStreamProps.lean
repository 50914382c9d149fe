import Verif.Streams.ObjStreamModel
import Verif.XRef.TextProps
set_option autoImplicit false
/-!
# Stream objects: reading back what was written

Properties C62 and C91.
-/
namespace Pdfmm
open Codec
open Spec (Writable nest nestKVs nestArr)

/-! ## Specification -/

/-- The dictionary says which filters the data went through: no /Filter, one name, or an array of
names (ISO 32000-1, table 5). -/
def Spec.FilterEntry (d : List (Bytes × Var)) (fs : List FilterName) : Prop :=
  ∃ names : List String, fs.map filterToName = names.map .ok ∧
    match names with
    | [] => SMap.find? kFilter d = none
    | [n] => SMap.find? kFilter d = some (.name (litBytes n)) ∨
        SMap.find? kFilter d = some (.arr [.name (litBytes n)])
    | _ => SMap.find? kFilter d = some (.arr (names.map (fun n => .name (litBytes n))))

/-- A stream object that can be saved: names, numbers and nesting are within what a file can hold, and
the dictionary agrees with the data. -/
structure Spec.Saveable (o : StObj) : Prop where
  writable : Writable 4095 (.dict o.dict)
  depth : nest (.dict o.dict) < 256
  filters : Spec.FilterEntry o.dict o.filters
  size : o.buf.length < 9223372036854775808

/-- A valid object identifier. -/
def Spec.IsRef (r : Ref) : Prop := r.num < 4294967296 ∧ r.gen < 65536

/-! ## Tokens -/

theorem lexLoop_end {cap : Nat} (cm : Bool) (inp acc : Bytes) (t : Tok) (r : Bytes)
    (h : lexLoop cap cm inp acc = some (t, r)) (ht : t.type ≠ .literal) :
    ∃ c, t.text.getLast? = some c ∧ (isTokenDelimiter c = true ∨ c = 60 ∨ c = 62) := by
  induction inp generalizing cm acc with
  | nil =>
    cases cm <;> simp only [lexLoop] at h <;> split at h
    all_goals first | (cases h; done) | (cases h; exact absurd rfl ht)
  | cons c inp ih =>
    cases cm with
    | true =>
      simp only [lexLoop] at h
      split at h
      · split at h
        · cases h; exact absurd rfl ht
        · exact ih _ _ h
      · exact ih _ _ h
    | false =>
      simp only [lexLoop] at h
      split at h
      · cases h; exact absurd rfl ht
      split at h
      · exact ih _ _ h
      split at h
      · exact ih _ _ h
      split at h
      · rename_i hc
        cases inp with
        | nil => simp only [lexAngle] at h; cases h; exact absurd rfl ht
        | cons c2 r2 =>
          simp only [lexAngle] at h
          split at h
          · rename_i e; subst e; cases h; exact ⟨_, rfl, Or.inr hc.2⟩
          · cases h; exact ⟨_, rfl, Or.inr hc.2⟩
      split at h
      · cases h; exact absurd rfl ht
      split at h
      · rename_i hd; cases h; exact ⟨c, by simp, Or.inl hd⟩
      · exact ih _ _ h

theorem tok_not_endobj {cfg : Cfg} {inp r : Bytes} {t : Tok} (h : lex cfg.cap inp = some (t, r))
    {s s2 s3 : PS} {d : Det} {v : Var} {fuel : Nat} (h1 : determine cfg t s = (.ok d, s2))
    (h2 : readDT cfg fuel d s2 = (.ok (some v), s3)) : t.text ≠ kEndobj := by
  intro e
  by_cases ht : t.type = .literal
  · obtain ⟨tx, ty⟩ := t
    simp only at e ht
    subst e; subst ht
    have : determine cfg ⟨kEndobj, .literal⟩ s = (.ok .unknown, s) := by
      simp [determine, kEndobj, scanKind, isDigitB]
    rw [this] at h1
    cases h1
    rw [readDT] at h2
    cases h2
  · obtain ⟨c, hc, hd⟩ := lexLoop_end _ _ _ _ _ h ht
    rw [e] at hc
    simp [kEndobj] at hc
    subst hc
    revert hd
    decide

/-- Reading a dictionary from a text that goes on arbitrarily: the reader stops right behind it. -/
theorem read_dict {cfg : Cfg} (hcap : 20 ≤ cfg.cap) (hr : cfg.readRefs = true) (f : WFlags) (hf : f.Sep)
    (l : List (Bytes × Var)) (hv : Writable cfg.cap (.dict l)) (X rest : Bytes) (depth : Nat)
    (hX : lex cfg.cap X = lex cfg.cap (text f (.dict l) ++ rest))
    (hd : depth + gnest (.dict l) < cfg.maxDepth) :
    ∃ t s1 s', tryReadToken cfg.cap ⟨[], X, depth⟩ = (some t, s1) ∧ t.text ≠ kEndobj ∧
      readTok cfg (2 * s1.weight + 2) t s1 = (.ok (some (.dict l)), s') ∧ s' = ⟨[], rest, depth⟩ := by
  have hcap2 : 2 ≤ cfg.cap := by omega
  have e : text f (.dict l) ++ rest =
      60 :: 60 :: (f.cl [10] ++ (entries f (ordered l) ++ 62 :: 62 :: rest)) := by
    rw [text, dictBody_entries]; simp
  rw [e] at hX
  obtain ⟨s1, k1, k2, _, k3⟩ := tryReadToken_rep hcap2 (Rep2_fresh cfg.cap X depth)
    (hX.trans (lex_dangle hcap2 (Or.inl rfl)))
  obtain ⟨q1, q2⟩ := k3 (by simp)
  obtain ⟨hs, hl⟩ : SMap.Sorted l ∧ ∀ p ∈ l, (escapeNameBody p.1).length ≤ cfg.cap ∧
      Writable cfg.cap p.2 ∧ ReadsBack cfg f p.2 := by
    cases hv with
    | dict _ hs hk hw => exact ⟨hs, fun p hp => ⟨(hk p hp).2, hw p hp, readsBack_all hcap hr f hf _ (hw p hp)⟩⟩
  rw [gnest] at hd
  have hn1 : 1 ≤ Nat.max 1 (gnestKVs l) := Nat.le_max_left _ _
  have hn2 : gnestKVs l ≤ Nat.max 1 (gnestKVs l) := Nat.le_max_right _ _
  have hw : 2 * (entries f (ordered l)).length + 1 ≤ 2 * s1.weight + 1 := by
    unfold PS.weight; rw [q1, q2]; simp; omega
  obtain ⟨r, s', n1, n2, n3, n4, n5⟩ := readDict_spec hcap f hf (ordered l)
    (fun p hp => hl p (mem_ordered hp)) (ordered_nodup hs) [] trivial none (by simp)
    { s1 with depth := depth + 1 } _ rest (2 * s1.weight + 1) (gnestKVs l)
    (lex_cl hcap2 f 10 (by decide) _) ((k3 (by simp)).toRep2.depth (depth + 1))
    (by show depth + 1 + 1 ≤ _; omega) (fun p hp => gnest_mem_kvs (mem_ordered hp))
    (by show depth + 1 + _ ≤ _; omega) hw
  have hrl : r = l := by
    apply SMap.ext n4 hs
    intro k
    rw [n5 k, find_ordered]
    cases SMap.find? k l <;> rfl
  rw [hrl] at n1
  refine ⟨_, s1, _, k1, by simp [kEndobj], ?_, rfl⟩
  have hsd : s1.depth = depth := k2
  unfold readTok
  have hs' : s' = ⟨[], rest, depth + 1⟩ := by
    obtain ⟨a, b, c⟩ := s'
    obtain ⟨x1, x2⟩ := n3
    simp only at x1 x2 n2
    subst x1; subst x2; subst n2; rfl
  have := guarded_ok (max := cfg.maxDepth)
    (m := (determine cfg ⟨[60, 60], if (60 : Byte) = 60 then .dAngleL else .dAngleR⟩).andThen
      (fun d => readDT cfg (2 * s1.weight + 2) d)) (s := s1) (s' := s') (r := .ok (some (.dict l)))
    (by omega) (by
      unfold P.andThen
      simp only [determine, if_pos rfl, if_true]
      rw [readDT, hsd]
      exact n1)
  rw [this, hs']
  rfl

/-- Reading any value from a text that goes on with a blank and a word. -/
theorem read_value {cfg : Cfg} (hcap : 20 ≤ cfg.cap) (hr : cfg.readRefs = true) (f : WFlags) (hf : f.Sep)
    (v : Var) (hv : Writable cfg.cap v) (X rest : Bytes) (depth : Nat)
    (hX : lex cfg.cap X = lex cfg.cap (text f v ++ rest)) (hXl : (text f v).length + rest.length ≤ X.length)
    (hfo : Follow cfg.cap rest) (hd : depth + gnest v < cfg.maxDepth) :
    ∃ t s1 s', tryReadToken cfg.cap ⟨[], X, depth⟩ = (some t, s1) ∧ t.text ≠ kEndobj ∧
      readTok cfg (2 * s1.weight + 2) t s1 = (.ok (some v), s') ∧ Rep2 cfg.cap s' rest := by
  obtain ⟨t, s1, k1, k2, _, _, k4⟩ := readsBack_all hcap hr f hf v hv ⟨[], X, depth⟩ _ rest hfo.toC hX
    (Rep2_fresh _ _ _)
  have hcap2 : 2 ≤ cfg.cap := by omega
  have hlex : ∃ r, lex cfg.cap X = some (t, r) ∧ s1 = ⟨[], r, depth⟩ := by
    unfold tryReadToken at k1
    simp only at k1
    split at k1
    · cases k1
    · rename_i r hr
      cases k1
      exact ⟨_, hr, rfl⟩
  obtain ⟨r0, hlex, hs1⟩ := hlex
  have hfu : fuelFor f v ≤ 2 * s1.weight + 2 := by
    cases v with
    | arr l =>
      have hw : s1.weight = (text f (.arr l)).length - 1 + rest.length := by
        have h1 := weight_arr cfg.cap (by omega) ((text f (.arr l)).tail ++ rest) depth
        have e : text f (.arr l) ++ rest = 91 :: ((text f (.arr l)).tail ++ rest) := by simp [text]
        rw [e] at hX
        unfold tryReadToken at h1
        simp only at h1
        rw [← hX, hlex] at h1
        rw [hs1]
        simp only at h1
        rw [h1]; simp
      rw [fuelFor]
      omega
    | dict l =>
      have hw : s1.weight = (text f (.dict l)).length - 2 + rest.length := by
        have h1 := weight_dict cfg.cap (by omega) ((text f (.dict l)).tail.tail ++ rest) depth
        have e : text f (.dict l) ++ rest = 60 :: 60 :: ((text f (.dict l)).tail.tail ++ rest) := by simp [text]
        rw [e] at hX
        unfold tryReadToken at h1
        simp only at h1
        rw [← hX, hlex] at h1
        rw [hs1]
        simp only at h1
        rw [h1]; simp; omega
      rw [fuelFor]
      omega
    | _ => simp [fuelFor]
  obtain ⟨d, s2, s3, m1, m2, m3, m4⟩ := k4 (depth + 1) (2 * s1.weight + 2) (by omega) hfu
  have k2' : s1.depth = depth := k2
  refine ⟨t, s1, { s3 with depth := s3.depth - 1 }, k1, tok_not_endobj hlex m1 m2, ?_, m4.depth _⟩
  unfold readTok
  apply guarded_ok (by omega)
  unfold P.andThen
  rw [k2', m1]; dsimp only; rw [m2]

/-! ## The object header -/

theorem truncTo_nat {bits n : Nat} (h : n < 2 ^ bits) : truncTo bits (n : Int) = n := by
  unfold truncTo
  rw [← Int.natCast_emod, Int.toNat_natCast, Nat.mod_eq_of_lt h]

theorem readReference_header {cap : Nat} (hcap : 20 ≤ cap) (r : Ref) (hr : Spec.IsRef r) (X : Bytes)
    (hX : StartsOk X) (depth : Nat) :
    readReference cap ⟨[], fmtNat r.num ++ 32 :: (fmtNat r.gen ++ (tObj ++ X)), depth⟩ =
      (.ok r, ⟨[], X, depth⟩) := by
  obtain ⟨h1, h2⟩ := hr
  obtain ⟨num, gen⟩ := r
  simp only at h1 h2
  have l1 : lex cap (fmtNat num ++ 32 :: (fmtNat gen ++ (tObj ++ X))) =
      some (⟨fmtNat num, .literal⟩, 32 :: (fmtNat gen ++ (tObj ++ X))) :=
    lex_num hcap (by omega) (by decide) _
  have l2 : lex cap (32 :: (fmtNat gen ++ (tObj ++ X))) = some (⟨fmtNat gen, .literal⟩, tObj ++ X) := by
    rw [lex_ws (by omega) (by decide)]
    exact lex_num hcap (by omega) (by decide) _
  have l3 : lex cap (tObj ++ X) = some (⟨[111, 98, 106], .literal⟩, X) := by
    show lex cap (32 :: ([111, 98, 106] ++ X)) = _
    rw [lex_ws (by omega) (by decide)]
    exact lex_literal (by decide) (by simp) (by simp; omega) hX
  simp only [readReference, readNextNumber, tryReadToken, l1, l2, l3, fromChars_nat (n := num) (by omega),
    fromChars_nat (n := gen) (by omega), if_true]
  rw [truncTo_nat (by omega), truncTo_nat (by omega)]

theorem header_break (s : SaveOpts) : ∃ br : Bytes, (br = [] ∧ s.flags.clean = false ∨ br = [10]) ∧
    ∀ r, objHeader s r = fmtNat r.num ++ 32 :: (fmtNat r.gen ++ (tObj ++ br)) := by
  unfold objHeader
  by_cases h : s.flags.clean = false ∧ s.noPdfA = true
  · exact ⟨[], Or.inl ⟨rfl, h.1⟩, fun r => by rw [if_pos h]⟩
  · exact ⟨[10], Or.inr rfl, fun r => by rw [if_neg h]⟩

theorem startsOk_break (s : SaveOpts) (hs : s.flags.Sep) {cap : Nat} (v : Var) (hv : Writable cap v)
    (br rest : Bytes) (hbr : br = [] ∧ s.flags.clean = false ∨ br = [10]) :
    StartsOk (br ++ (text s.flags v ++ rest)) := by
  rcases hbr with ⟨h, hc⟩ | h
  · have := startsOk_text s.flags hs v hv 10 (by decide) rest
    unfold WFlags.cl at this
    rw [if_neg (by simp [hc])] at this
    rw [h]
    exact this
  · rw [h]; exact StartsOk.cons_ws (by decide)

theorem lex_break {cap : Nat} (hcap : 2 ≤ cap) (br X : Bytes) {P : Prop} (hbr : br = [] ∧ P ∨ br = [10]) :
    lex cap (br ++ X) = lex cap X := by
  rcases hbr with ⟨h, -⟩ | h
  · rw [h]; rfl
  · rw [h]; exact lex_ws hcap (by decide)

/-- **C91**. An indirect object without a stream is read back with its identifier and value, whatever
follows it in the file. -/
theorem C91_object_roundtrip (s : SaveOpts) (hs : s.flags.clean = true ∨ s.flags.noInline = false)
    (r : Ref) (hr : Spec.IsRef r) (v : Var) (hv : Writable 4095 v) (hd : nest v < 256) (rest : Bytes) :
    ∃ t, writePlain s r v = .ok t ∧ loadObject {} (t ++ rest) = .ok (r, .plain v) := by
  obtain ⟨br, hbr, hh⟩ := header_break s
  refine ⟨objHeader s r ++ (text s.flags v ++ 10 :: tEndObj), by simp [writePlain, writeVar, writable_noNul hv], ?_⟩
  have hg := gnest_le v
  rw [hh r]
  have e : fmtNat r.num ++ 32 :: (fmtNat r.gen ++ (tObj ++ br)) ++ (text s.flags v ++ 10 :: tEndObj) ++ rest =
      fmtNat r.num ++ 32 :: (fmtNat r.gen ++ (tObj ++ (br ++ (text s.flags v ++ (10 :: (tEndObj ++ rest)))))) := by
    simp
  rw [e]
  unfold loadObject
  rw [readReference_header (by decide) r hr _ (startsOk_break s hs v hv br _ hbr)]
  have hle : lex 4095 (10 :: (tEndObj ++ rest)) = some (⟨kEndobj, .literal⟩, 10 :: rest) := by
    rw [lex_ws (by decide) (by decide)]
    exact lex_literal (w := kEndobj) (rest := 10 :: rest) (by decide) (by decide) (by decide)
      (StartsOk.cons_ws (by decide))
  have hfo : Follow 4095 (10 :: (tEndObj ++ rest)) := by
    refine ⟨StartsOk.cons_ws (by decide), ?_⟩
    intro a t1 ha hl g hg
    rw [hle] at ha
    cases ha
    have hn : fromCharsInt kEndobj = none := by decide
    rw [show (⟨kEndobj, .literal⟩ : Tok).text = kEndobj from rfl, hn] at hg
    cases hg
  obtain ⟨t, s1, s', k1, k2, k3, k4⟩ := read_value (cfg := {}) (by decide) rfl s.flags hs v hv
    (br ++ (text s.flags v ++ (10 :: (tEndObj ++ rest)))) (10 :: (tEndObj ++ rest)) 0
    (lex_break (by decide) _ _ hbr) (by simp) hfo (by show 0 + gnest v < 256; omega)
  obtain ⟨s3, m1, -, -⟩ := tryReadToken_rep (by decide) k4 hle
  have hp : parseBody {} ⟨[], br ++ (text s.flags v ++ (10 :: (tEndObj ++ rest))), 0⟩ = .ok (.plain v) := by
    unfold parseBody
    rw [k1]; simp only
    rw [if_neg k2, k3]; simp only
    rw [m1]; simp only
    rw [if_pos trivial]
  simp only [hp]

/-! ## Stream objects -/

theorem mem_find_insert_writable {cap : Nat} {l : List (Bytes × Var)} (hv : Writable cap (.dict l)) (k : Bytes)
    (v : Var) (hk : 0 ∉ k ∧ (escapeNameBody k).length ≤ cap) (hw : Writable cap v) :
    Writable cap (.dict (SMap.insert k v l)) := by
  cases hv with
  | dict _ hs hks hws =>
    refine .dict _ (SMap.sorted_insert _ _ _ hs) ?_ ?_
    · intro p hp
      rcases SMap.mem_insert hp with rfl | hp
      · exact hk
      · exact hks p hp
    · intro p hp
      rcases SMap.mem_insert hp with rfl | hp
      · exact hw
      · exact hws p hp

theorem nestKVs_le_iff (l : List (Bytes × Var)) (n : Nat) : nestKVs l ≤ n ↔ ∀ p ∈ l, nest p.2 ≤ n := by
  induction l with
  | nil => simp [nestKVs]
  | cons p l ih =>
    rw [nestKVs]
    constructor
    · intro h q hq
      have h1 := Nat.le_trans (Nat.le_max_left (nest p.2) (nestKVs l)) h
      have h2 := Nat.le_trans (Nat.le_max_right (nest p.2) (nestKVs l)) h
      rcases List.mem_cons.mp hq with rfl | hq
      · exact h1
      · exact ih.mp h2 q hq
    · intro h
      exact Nat.max_le.2 ⟨h p List.mem_cons_self, ih.mpr (fun q hq => h q (List.mem_cons_of_mem _ hq))⟩

theorem nest_insert (k : Bytes) (v : Var) (l : List (Bytes × Var)) (n : Nat) (hv : nest v + 1 ≤ n)
    (h : nest (.dict l) ≤ n) : nest (.dict (SMap.insert k v l)) ≤ n := by
  rw [nest] at *
  have h1 : nestKVs l ≤ n - 1 := by omega
  have : nestKVs (SMap.insert k v l) ≤ n - 1 := by
    rw [nestKVs_le_iff] at *
    intro p hp
    rcases SMap.mem_insert hp with rfl | hp
    · show nest v ≤ _; omega
    · exact h1 p hp
  omega

theorem kLength_ne_kFilter : kFilter ≠ kLength := by decide
theorem kLength_ne_kDecodeParms : kDecodeParms ≠ kLength := by decide
theorem kFilter_ne_kDecodeParms : kDecodeParms ≠ kFilter := by decide

theorem nameToFilter_lit (f : FilterName) (n : String) (h : filterToName f = .ok n) :
    nameToFilter (latinStr (litBytes n)) = .ok f := by
  cases f <;> simp only [filterToName] at h <;> cases h <;> decide

theorem filtersOf_names (fs : List FilterName) (names : List String)
    (h : fs.map filterToName = names.map .ok) :
    filtersOf (names.map (fun n => .name (litBytes n))) = .ok fs := by
  induction names generalizing fs with
  | nil =>
    cases fs with
    | nil => rfl
    | cons f fs => simp at h
  | cons n names ih =>
    cases fs with
    | nil => simp at h
    | cons f fs =>
      simp only [List.map_cons, List.cons.injEq] at h
      simp only [List.map_cons, filtersOf, nameToFilter_lit f n h.1, ih fs h.2]

theorem createFilterList_entry (d : List (Bytes × Var)) (fs : List FilterName) (h : Spec.FilterEntry d fs) :
    createFilterList d = .ok fs := by
  obtain ⟨names, h1, h2⟩ := h
  have hn := filtersOf_names fs names h1
  match names, h1, h2, hn with
  | [], h1, h2, _ =>
    simp only at h2
    have : fs = [] := by simpa using h1
    simp only [createFilterList, h2, this]
  | [n], h1, h2, hn =>
    simp only at h2
    rcases h2 with h2 | h2
    · simp only [createFilterList, h2]; exact hn
    · simp only [createFilterList, h2]; exact hn
  | n :: m :: l, h1, h2, hn =>
    simp only at h2
    simp only [createFilterList, h2]; exact hn

theorem parseBody_stream (s : SaveOpts) (hs : s.flags.Sep) (d : List (Bytes × Var))
    (hv : Writable 4095 (.dict d)) (hd : nest (.dict d) < 256) (br Y : Bytes) {P : Prop}
    (hbr : br = [] ∧ P ∨ br = [10]) :
    parseBody {} ⟨[], br ++ (text s.flags (.dict d) ++ (10 :: (tStream ++ Y))), 0⟩ =
      .ok (.stream d (10 :: Y)) := by
  have hg := gnest_le (.dict d)
  obtain ⟨t, s1, s', k1, k2, k3, k4⟩ := read_dict (cfg := {}) (by decide) rfl s.flags hs d hv
    (br ++ (text s.flags (.dict d) ++ (10 :: (tStream ++ Y)))) (10 :: (tStream ++ Y)) 0
    (lex_break (by decide) _ _ hbr) (by show 0 + gnest (.dict d) < 256; omega)
  have hl : lex 4095 (10 :: (tStream ++ Y)) = some (⟨[115, 116, 114, 101, 97, 109], .literal⟩, 10 :: Y) := by
    rw [lex_ws (by decide) (by decide)]
    exact lex_literal (w := [115, 116, 114, 101, 97, 109]) (rest := 10 :: Y) (by decide) (by decide) (by decide)
      (StartsOk.cons_ws (by decide))
  unfold parseBody
  rw [k1]; simp only
  rw [if_neg k2, k3]; simp only
  subst k4
  simp only [tryReadToken, hl]
  rw [if_neg (by decide), if_pos trivial]

/-- The stream object read back from the text of a stream object with dictionary `d`, data `b` and
filters `fs`. -/
theorem load_stream (s : SaveOpts) (hs : s.flags.Sep) (r : Ref) (hr : Spec.IsRef r)
    (d : List (Bytes × Var)) (b : Bytes) (fs : List FilterName) (hv : Writable 4095 (.dict d))
    (hd : nest (.dict d) < 256) (hf : Spec.FilterEntry d fs)
    (hL : SMap.find? kLength d = some (.num b.length)) (rest : Bytes) :
    loadObject {} (objHeader s r ++ (text s.flags (.dict d) ++ (10 :: (tStream ++ (b ++ (tEndStream ++ tEndObj))))) ++ rest) =
      .ok (r, .stream ⟨d, b, fs, false⟩) := by
  obtain ⟨br, hbr, hh⟩ := header_break s
  rw [hh r]
  have e : fmtNat r.num ++ 32 :: (fmtNat r.gen ++ (tObj ++ br)) ++
        (text s.flags (.dict d) ++ (10 :: (tStream ++ (b ++ (tEndStream ++ tEndObj))))) ++ rest =
      fmtNat r.num ++ 32 :: (fmtNat r.gen ++ (tObj ++ (br ++ (text s.flags (.dict d) ++
        (10 :: (tStream ++ (b ++ (tEndStream ++ tEndObj ++ rest)))))))) := by
    simp
  rw [e]
  unfold loadObject
  rw [readReference_header (by decide) r hr _ (startsOk_break s hs _ hv br _ hbr)]
  simp only [parseBody_stream s hs d hv hd br _ hbr]
  have hst : streamStart (10 :: (b ++ (tEndStream ++ tEndObj ++ rest))) =
      .ok (b ++ (tEndStream ++ tEndObj ++ rest)) := by
    unfold streamStart
    rw [if_neg (by decide), if_neg (by decide), if_pos rfl]
  simp only [parseStream, hL, hst, createFilterList_entry d fs hf]
  rw [if_neg (by omega)]
  simp

/-- The decoded data depends only on the data, the filters and the /DecodeParms entry. -/
theorem copyTo_congr (flate : Filt) (o o' : StObj) (h1 : o'.buf = o.buf) (h2 : o'.filters = o.filters)
    (h3 : SMap.find? kDecodeParms o'.dict = SMap.find? kDecodeParms o.dict) :
    o'.copyTo flate = o.copyTo flate := by
  simp only [StObj.copyTo, decodeParms, h1, h2, h3]

theorem filterEntry_insert (d : List (Bytes × Var)) (fs : List FilterName) (k : Bytes) (v : Var)
    (hk : kFilter ≠ k) (h : Spec.FilterEntry d fs) : Spec.FilterEntry (SMap.insert k v d) fs := by
  obtain ⟨names, h1, h2⟩ := h
  refine ⟨names, h1, ?_⟩
  simp only [SMap.find_insert, if_neg hk]
  exact h2

theorem saveable_length (o : StObj) (h : Spec.Saveable o) :
    Writable 4095 (.dict (SMap.insert kLength (.num o.buf.length) o.dict)) ∧
    nest (.dict (SMap.insert kLength (.num o.buf.length) o.dict)) < 256 ∧
    Spec.FilterEntry (SMap.insert kLength (.num o.buf.length) o.dict) o.filters := by
  refine ⟨mem_find_insert_writable h.writable _ _ (by decide) (.num _ (by omega) (by have := h.size; omega)), ?_,
    filterEntry_insert _ _ _ _ kLength_ne_kFilter h.filters⟩
  have := nest_insert kLength (.num o.buf.length) o.dict 255 (by simp [nest]) (by have := h.depth; omega)
  omega

/-- **C62** (proved part). A stream object is written, whatever the options, and reading the text
gives an object with the same identifier, the same stored data and filters, the same dictionary up to
/Length, and the same decoded data. Missing: unfiltered streams saved with compression, see
`C62_compress_loses_data_false`. -/
theorem C62_write_read_partial (flate : Filt) (isMeta : Bool) (s : SaveOpts)
    (hs : s.flags.clean = true ∨ s.flags.noInline = false) (r : Ref) (hr : Spec.IsRef r) (o : StObj)
    (ho : Spec.Saveable o) (hc : s.noCompress = true ∨ o.filters ≠ [] ∨ isMeta = true) (rest : Bytes) :
    ∃ t o' o2, o.write flate isMeta s r = .ok (t, o') ∧
      loadObject {} (t ++ rest) = .ok (r, .stream o2) ∧
      o'.buf = o.buf ∧ o'.filters = o.filters ∧
      o2.buf = o.buf ∧ o2.filters = o.filters ∧ o2.dict = o'.dict ∧
      (∀ k, k ≠ kLength → SMap.find? k o2.dict = SMap.find? k o.dict) ∧
      SMap.find? kLength o2.dict = some (.num o.buf.length) ∧
      o2.copyTo flate = o.copyTo flate := by
  obtain ⟨w1, w2, w3⟩ := saveable_length o ho
  have hi : ¬ (s.noCompress = false ∧ o.filters = [] ∧ isMeta = false) := by
    rintro ⟨h1, h2, h3⟩
    rcases hc with h | h | h
    · rw [h] at h1; cases h1
    · exact h h2
    · rw [h] at h3; cases h3
  refine ⟨objHeader s r ++ (text s.flags (.dict (SMap.insert kLength (.num o.buf.length) o.dict)) ++
      (10 :: (tStream ++ (o.buf ++ (tEndStream ++ tEndObj))))), { o with dict := SMap.insert kLength (.num o.buf.length) o.dict },
    ⟨SMap.insert kLength (.num o.buf.length) o.dict, o.buf, o.filters, false⟩, ?_, ?_, rfl, rfl, rfl, rfl, rfl, ?_, ?_, ?_⟩
  · simp only [StObj.write, if_neg hi, writeVar, writable_noNul w1]; rfl
  · exact load_stream s hs r hr _ _ _ w1 w2 w3 (SMap.find_insert_self _ _ _) rest
  · intro k hk; exact SMap.find_insert_ne _ _ hk
  · exact SMap.find_insert_self _ _ _
  · exact copyTo_congr flate o _ rfl rfl (SMap.find_insert_ne _ _ kLength_ne_kDecodeParms)

/-- **C62** fails: every unfiltered stream saved with compression is written empty, so that its data
is missing from the file; the object in memory has lost it too. -/
theorem C62_compress_loses_data_false (flate : Filt) (hfl : RoundTrips flate.enc flate.dec) (s : SaveOpts)
    (hs : s.flags.clean = true ∨ s.flags.noInline = false) (hc : s.noCompress = false) (r : Ref)
    (hr : Spec.IsRef r) (o : StObj) (ho : Spec.Saveable o) (hf : o.filters = []) (rest : Bytes) :
    o.copyTo flate = .ok o.buf ∧
    ∃ t o' o2, o.write flate false s r = .ok (t, o') ∧ o'.copyTo flate = .ok [] ∧
      loadObject {} (t ++ rest) = .ok (r, .stream o2) ∧ o2.copyTo flate = .ok [] := by
  have hcopy : o.copyTo flate = .ok o.buf := by simp only [StObj.copyTo, hf, if_true]
  refine ⟨hcopy, ?_⟩
  obtain ⟨e, d, tx, h1, -, h3, -⟩ := C12_chain_roundtrip [flate] (by simp)
    (by intro f hf; rw [List.mem_singleton.mp hf]; exact hfl) [o.buf]
  have hout : StObj.temp.output flate [.FlateDecode] false [o.buf] =
      (.ok (), ⟨SMap.insert kFilter (.name (litBytes "FlateDecode")) [], tx, [.FlateDecode], false⟩) := by
    simp [StObj.output, StObj.temp, encodePieces, filtsEnc, filtEnc, h1, h3, setFilterKey, filterNames, filterToName]
  have hcomp : o.compress flate = .ok { o with
      dict := SMap.erase kDecodeParms (SMap.erase kFilter o.dict)
      buf := []
      filters := [] } := by
    simp [StObj.compress, hcopy, hout, StObj.moveFrom]
  have hsort : SMap.Sorted o.dict := by cases ho.writable with | dict _ hs _ _ => exact hs
  have hsave : Spec.Saveable { o with
      dict := SMap.erase kDecodeParms (SMap.erase kFilter o.dict)
      buf := []
      filters := [] } := by
    refine ⟨?_, ?_, ?_, by simp⟩
    · cases ho.writable with
      | dict _ hs hk hw =>
        exact .dict _ (SMap.sorted_erase _ (SMap.sorted_erase _ hs))
          (fun p hp => hk p (SMap.mem_erase (SMap.mem_erase hp)))
          (fun p hp => hw p (SMap.mem_erase (SMap.mem_erase hp)))
    · have := ho.depth
      rw [nest] at *
      have h1 : nestKVs o.dict ≤ 254 := by omega
      have : nestKVs (SMap.erase kDecodeParms (SMap.erase kFilter o.dict)) ≤ 254 := by
        rw [nestKVs_le_iff] at *
        intro p hp
        exact h1 p (SMap.mem_erase (SMap.mem_erase hp))
      show 1 + nestKVs (SMap.erase kDecodeParms (SMap.erase kFilter o.dict)) < 256
      omega
    · refine ⟨[], rfl, ?_⟩
      show SMap.find? kFilter _ = none
      rw [SMap.find_erase _ _ (SMap.sorted_erase _ hsort), if_neg (by decide), SMap.find_erase _ _ hsort, if_pos rfl]
  obtain ⟨w1, w2, w3⟩ := saveable_length _ hsave
  refine ⟨objHeader s r ++ (text s.flags (.dict (SMap.insert kLength (.num (([] : Bytes).length : Int))
      (SMap.erase kDecodeParms (SMap.erase kFilter o.dict)))) ++ (10 :: (tStream ++ ([] ++ (tEndStream ++ tEndObj))))), { o with
      dict := SMap.insert kLength (.num (([] : Bytes).length : Int)) (SMap.erase kDecodeParms (SMap.erase kFilter o.dict))
      buf := []
      filters := [] }, ⟨SMap.insert kLength (.num (([] : Bytes).length : Int)) (SMap.erase kDecodeParms (SMap.erase kFilter o.dict)),
      [], [], false⟩, ?_, ?_, ?_, ?_⟩
  · simp only [StObj.write, hc, hf, and_self, if_true, hcomp, writeVar, writable_noNul w1]; rfl
  · simp [StObj.copyTo]
  · exact load_stream s hs r hr _ [] [] w1 w2 w3 (SMap.find_insert_self _ _ _) rest
  · simp [StObj.copyTo]

/-- Non-vacuity: a stream with two filters and one without. -/
example : Spec.Saveable ⟨[(kFilter, .arr [.name (litBytes "ASCIIHexDecode"), .name (litBytes "FlateDecode")])],
    [1, 2], [.ASCIIHexDecode, .FlateDecode], false⟩ ∧ Spec.Saveable ⟨[([65], .num 5)], [1, 2, 3], [], false⟩ ∧
    Spec.IsRef ⟨7, 0⟩ := by
  refine ⟨⟨?_, by simp [nest, nestKVs, nestArr], ⟨["ASCIIHexDecode", "FlateDecode"], rfl, by simp [SMap.find?]⟩, by simp⟩,
    ⟨?_, by simp [nest, nestKVs], ⟨[], rfl, by simp [SMap.find?, kFilter]⟩, by simp⟩, by decide, by decide⟩
  · refine .dict _ ?_ ?_ ?_
    · simp [SMap.Sorted]
    · intro p hp; simp only [List.mem_singleton] at hp; subst hp; decide
    · intro p hp; simp only [List.mem_singleton] at hp; subst hp
      refine .arr _ ?_
      intro v hv
      simp only [List.mem_cons, List.not_mem_nil, or_false] at hv
      rcases hv with rfl | rfl
      · exact .name _ (by decide) (by decide)
      · exact .name _ (by decide) (by decide)
  · refine .dict _ (by simp [SMap.Sorted]) ?_ ?_
    · intro p hp; simp only [List.mem_singleton] at hp; subst hp; decide
    · intro p hp; simp only [List.mem_singleton] at hp; subst hp; exact .num _ (by decide) (by decide)

end Pdfmm
