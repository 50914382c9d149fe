import Verif.Save.SaveObjs
/-
Reading one cross-reference section of a written file.
-/
set_option autoImplicit false
namespace Pdfmm

open Spec

namespace Spec

/-- The object numbers a save lists in its table: those of the objects it writes and the free ones. -/
def listed (inc : Bool) (d : SaveIn) : List Nat :=
  (d.objs.filter (fun o => !(inc && !o.dirty))).map (·.ref.num) ++ d.free.map (·.num)

/-- The numbers that begin a run of consecutive numbers. -/
def runStarts (l : List Nat) : List Nat := l.filter (fun n => decide (n - 1 ∉ l))

/-- A document that can be saved, completely or (`inc`) as an update: a known version, object numbers and
generations in the range of the format and each number used at most once, less than 511 runs of numbers in the
table, objects that can be written, and a trailer with a /Root, whose /Root and /Info are
references or simple values or dictionaries of such, with an information dictionary and an /ID of the right types. -/
structure CanSave (env : SaveEnv) (inc : Bool) (d : SaveIn) : Prop where
  version : IsPdfVersion d.version
  sep : env.opts.flags.clean = true ∨ env.opts.flags.noInline = false
  objs : ∀ o ∈ d.objs, 1 ≤ o.ref.num ∧ o.ref.num < 8388607 ∧ o.ref.gen < 65536
  free : ∀ f ∈ d.free, 1 ≤ f.num ∧ f.num < 8388607 ∧ f.gen < 65536
  distinct : (d.objs.map (·.ref.num) ++ d.free.map (·.num)).Nodup
  runs : (runStarts (listed inc d)).length < 511
  write : ∀ o ∈ d.objs, (inc = true → o.dirty = true) → CanWrite env o
  nonempty : d.objs ≠ []
  root : ∀ v, SMap.find? kRoot d.trailer = some v → Writable 4095 v ∧ nest v ≤ 1
  info : ∀ v, SMap.find? kInfo d.trailer = some v → Writable 4095 v ∧ nest v ≤ 1
  infoDict : ∃ i, infoOf d.objs d.trailer = .ok i
  hasRoot : SMap.find? kRoot d.trailer ≠ none
  id : ∃ i, originalId d.objs d.trailer = .ok i
  prev : d.prev < 10000000000

end Spec

/-! ### The number of subsections -/

theorem pairwise_mem {α : Type} {R : α → α → Prop} {l : List α} (h : l.Pairwise R) {a b : α} (ha : a ∈ l)
    (hb : b ∈ l) : a = b ∨ R a b ∨ R b a := by
  induction l with
  | nil => simp at ha
  | cons x l ih =>
    rw [List.pairwise_cons] at h
    rcases List.mem_cons.1 ha with rfl | ha' <;> rcases List.mem_cons.1 hb with rfl | hb'
    · exact .inl rfl
    · exact .inr (.inl (h.1 b hb'))
    · exact .inr (.inr (h.1 a ha'))
    · exact ih h.2 ha' hb'

theorem entry_listed {adds : List XAdd} {ss : List XSection} (ht : IsTable adds ss) {x : Ref × XEntry}
    (hx : x ∈ Spec.allEntries ss) : x.1.num = 0 ∨ x.1.num ∈ (adds.filterMap XAdd.written).map Ref.num := by
  obtain ⟨r, e⟩ := x
  rcases (ht.only r e hx).2.1 with ⟨h1, _⟩ | ⟨a, ha, hw⟩
  · left; rw [h1]
  · right; exact List.mem_map.2 ⟨r, List.mem_filterMap.2 ⟨a, ha, hw⟩, rfl⟩

theorem listed_entry {adds : List XAdd} (hv : Spec.Adds adds) {ss : List XSection} (ht : IsTable adds ss) {n : Nat}
    (hn : n ∈ (adds.filterMap XAdd.written).map Ref.num) : ∃ x ∈ Spec.allEntries ss, x.1.num = n := by
  obtain ⟨r, hr, rfl⟩ := List.mem_map.1 hn
  obtain ⟨a, ha, hw⟩ := List.mem_filterMap.1 hr
  have hrange := hv.range a ha
  cases a with
  | inUse r' off =>
    simp only [XAdd.written, Option.some.injEq] at hw
    exact ⟨_, (ht.inUse r' off).1 ha, by rw [hw]⟩
  | old r' => simp [XAdd.written] at hw
  | free r' =>
    simp only [XAdd.written, Option.some.injEq] at hw
    simp only [XAdd.ref] at hrange
    obtain ⟨nx, hm⟩ := (ht.free r' (by omega)).1 ha
    exact ⟨_, hm, by rw [hw]⟩

theorem sections_le_runs {adds : List XAdd} (hv : Spec.Adds adds) {ss : List XSection} (ht : IsTable adds ss)
    (hpos : ∀ s ∈ ss, 0 < s.count) :
    ss.length ≤ 1 + (runStarts ((adds.filterMap XAdd.written).map Ref.num)).length := by
  have hmem : ∀ s ∈ ss, ∀ n, s.first ≤ n → n < s.first + s.count → ∃ x ∈ Spec.allEntries ss, x ∈ s.entries ∧ x.1.num = n := by
    intro s hs n h1 h2
    have : n ∈ s.entries.map (·.1.num) := by rw [ht.consecutive s hs, List.mem_range'_1]; omega
    obtain ⟨x, hx, e⟩ := List.mem_map.1 this
    exact ⟨x, List.mem_flatMap.2 ⟨s, hs, hx⟩, hx, e⟩
  have hnd : (ss.map XSection.first).Nodup := by
    rw [List.Nodup, List.pairwise_map]
    exact ht.apart.imp (fun h => by omega)
  have := length_le_of_subset (l₂ := 0 :: runStarts ((adds.filterMap XAdd.written).map Ref.num)) hnd (by
    intro n hn
    obtain ⟨s, hs, rfl⟩ := List.mem_map.1 hn
    by_cases h0 : s.first = 0
    · simp [h0]
    · refine List.mem_cons_of_mem _ ?_
      have hp := hpos s hs
      obtain ⟨x, hx, _, e⟩ := hmem s hs s.first (Nat.le_refl _) (by omega)
      have hl := (entry_listed ht hx).resolve_left (by omega)
      rw [e] at hl
      refine List.mem_filter.2 ⟨hl, ?_⟩
      simp only [decide_eq_true_eq]
      intro hm
      obtain ⟨y, hy, ey⟩ := listed_entry hv ht hm
      obtain ⟨s', hs', hy'⟩ := List.mem_flatMap.1 hy
      have : y.1.num ∈ s'.entries.map (·.1.num) := List.mem_map.2 ⟨y, hy', rfl⟩
      rw [ht.consecutive s' hs', List.mem_range'_1] at this
      rcases pairwise_mem ht.apart hs hs' with h | h | h
      · rw [← h] at this; omega
      · omega
      · omega)
  simp only [List.length_map, List.length_cons] at this
  omega

/-! ### The text of the table -/

theorem entriesText_ok : ∀ (es : List (Ref × XEntry)), (∀ x ∈ es, x.2.type ≠ .compressed) → ∃ t, entriesText es = .ok t
  | [], _ => ⟨[], rfl⟩
  | x :: es, h => by
    obtain ⟨t, ht⟩ := entriesText_ok es (fun y hy => h y (by simp [hy]))
    have hx := h x (by simp)
    rw [entriesText, ht]
    cases hty : x.2.type with
    | free => simp [entryText, hty]
    | inUse => simp [entryText, hty]
    | compressed => exact absurd hty hx

theorem sectionsText_ok : ∀ (ss : List XSection), (∀ x ∈ Spec.allEntries ss, x.2.type ≠ .compressed) →
    ∃ t, sectionsText ss = .ok t
  | [], _ => ⟨[], rfl⟩
  | s :: ss, h => by
    obtain ⟨t, ht⟩ := sectionsText_ok ss (fun y hy => h y (by simp only [Spec.allEntries, List.flatMap_cons, List.mem_append] at hy ⊢; exact .inr hy))
    obtain ⟨b, hb⟩ := entriesText_ok s.entries (fun y hy => h y (by simp only [Spec.allEntries, List.flatMap_cons, List.mem_append]; exact .inl hy))
    rw [sectionsText, ht, sectionText, hb]
    exact ⟨_, rfl⟩

/-- The entry of a number in a table. -/
theorem entryAt_iff {adds : List XAdd} {ss : List XSection} (ht : IsTable adds ss) (n : Nat) (e : XEntry) :
    Spec.entryAt (Spec.allEntries ss) n = some e ↔ ∃ r, (r, e) ∈ Spec.allEntries ss ∧ r.num = n := by
  have key : ∀ l : List (Ref × XEntry), l.Pairwise (fun x y => x.1.num < y.1.num) →
      (Spec.entryAt l n = some e ↔ ∃ r, (r, e) ∈ l ∧ r.num = n) := by
    intro l
    induction l with
    | nil => simp [Spec.entryAt]
    | cons x l ih =>
      intro hp
      rw [List.pairwise_cons] at hp
      by_cases hx : x.1.num = n
      · rw [Spec.entryAt, List.find?_cons_of_pos (by simp [hx])]
        constructor
        · intro h
          simp only [Option.map_some, Option.some.injEq] at h
          exact ⟨x.1, by rw [← h]; simp, hx⟩
        · rintro ⟨r, hr, hn⟩
          rcases List.mem_cons.1 hr with h | h
          · rw [← h]; simp
          · have := hp.1 _ h
            simp only at this
            omega
      · have e' : Spec.entryAt (x :: l) n = Spec.entryAt l n := by
          rw [Spec.entryAt, List.find?_cons_of_neg (by simp [hx])]; rfl
        rw [e', ih hp.2]
        constructor
        · rintro ⟨r, hr, hn⟩; exact ⟨r, by simp [hr], hn⟩
        · rintro ⟨r, hr, hn⟩
          rcases List.mem_cons.1 hr with h | h
          · rw [← h] at hx; exact absurd hn hx
          · exact ⟨r, h, hn⟩
  exact key _ ht.increasing

theorem readSections_ws {cap magic max left : Nat} (hcap : 2 ≤ cap) (es : XEntries) (c : Byte) (X : Bytes) (d : Nat)
    (hc : isWhitespace c = true) :
    readSections cap magic max (left + 1) es ⟨[], c :: X, d⟩ = readSections cap magic max (left + 1) es ⟨[], X, d⟩ := by
  have h : tryReadToken cap ⟨[], c :: X, d⟩ = tryReadToken cap ⟨[], X, d⟩ := by
    simp only [tryReadToken, lex_ws hcap hc]
  have h2 : readSection cap magic max es ⟨[], c :: X, d⟩ = readSection cap magic max es ⟨[], X, d⟩ := by
    unfold readSection; rw [h]
  rw [readSections, readSections, h2]

/-! ### The trailer -/

theorem copyKey_writable {k : Bytes} {tr d : List (Bytes × Var)} (hk : 0 ∉ k ∧ (escapeNameBody k).length ≤ 4095)
    (hv : ∀ v, SMap.find? k tr = some v → Writable 4095 v ∧ nest v ≤ 1) (h : Writable 4095 (.dict d))
    (hn : nest (.dict d) ≤ 2) : Writable 4095 (.dict (copyKey k tr d)) ∧ nest (.dict (copyKey k tr d)) ≤ 2 := by
  unfold copyKey
  cases hf : SMap.find? k tr with
  | none => exact ⟨h, hn⟩
  | some v =>
    obtain ⟨h1, h2⟩ := hv v hf
    exact ⟨mem_find_insert_writable h k v hk h1, nest_insert k v d 2 (by omega) hn⟩

theorem fillTrailer_writable {tr : List (Bytes × Var)} {size : Nat} {inc : Bool} {orig id : Bytes} {prev : Int}
    (hsize : size < 9223372036854775808) (hprev : prev < 10000000000)
    (hroot : ∀ v, SMap.find? kRoot tr = some v → Writable 4095 v ∧ nest v ≤ 1)
    (hinfo : ∀ v, SMap.find? kInfo tr = some v → Writable 4095 v ∧ nest v ≤ 1) :
    Writable 4095 (.dict (fillTrailer tr size inc orig id prev)) ∧ nest (.dict (fillTrailer tr size inc orig id prev)) ≤ 2 := by
  have h0 : Writable 4095 (.dict []) ∧ nest (.dict []) ≤ 2 := ⟨.dict _ (by simp [SMap.Sorted]) (by simp) (by simp), by simp [nest, nestKVs]⟩
  have h1 : Writable 4095 (.dict (SMap.insert kSize (.num (size : Int)) [])) ∧ nest (.dict (SMap.insert kSize (.num (size : Int)) [])) ≤ 2 :=
    ⟨mem_find_insert_writable h0.1 _ _ (by decide) (.num _ (by omega) (by omega)), nest_insert _ _ _ 2 (by simp [nest]) h0.2⟩
  have h2 := copyKey_writable (k := kRoot) (by decide) hroot h1.1 h1.2
  have h3 := copyKey_writable (k := kInfo) (by decide) hinfo h2.1 h2.2
  obtain ⟨d3, hd3⟩ : ∃ d, d = copyKey kInfo tr (copyKey kRoot tr (SMap.insert kSize (.num (size : Int)) [])) := ⟨_, rfl⟩
  rw [← hd3] at h3
  obtain ⟨o, ho⟩ : ∃ o : Bytes, o = (if inc = true ∧ orig ≠ [] then orig else id) := ⟨_, rfl⟩
  have h4 : Writable 4095 (.dict (SMap.insert kID (.arr [.str o true, .str id true]) d3)) ∧ nest (.dict (SMap.insert kID (.arr [.str o true, .str id true]) d3)) ≤ 2 := by
    refine ⟨mem_find_insert_writable h3.1 _ _ (by decide) (.arr _ ?_), nest_insert _ _ _ 2 (by simp [nest, nestArr]) h3.2⟩
    intro v hv
    simp only [List.mem_cons, List.not_mem_nil, or_false] at hv
    rcases hv with rfl | rfl <;> exact .str _ _
  unfold fillTrailer
  rw [← hd3, ← ho]
  dsimp only
  split
  · exact ⟨mem_find_insert_writable h4.1 _ _ (by decide) (.num _ (by omega) (by omega)), nest_insert _ _ _ 2 (by simp [nest]) h4.2⟩
  · exact h4

theorem copyKey_find {k q : Bytes} {tr d : List (Bytes × Var)} : SMap.find? q (copyKey k tr d) =
    if q = k then (SMap.find? k tr).or (SMap.find? q d) else SMap.find? q d := by
  unfold copyKey
  cases SMap.find? k tr with
  | none => simp
  | some v =>
    simp only [SMap.find_insert, Option.some_or]

/-- What the written trailer holds. -/
theorem fillTrailer_find (tr : List (Bytes × Var)) (size : Nat) (inc : Bool) (orig id : Bytes) (prev : Int) (q : Bytes) :
    SMap.find? q (fillTrailer tr size inc orig id prev) =
      if q = nPrev then (if prev > 0 then some (.num prev) else none)
      else if q = kID then some (.arr [.str (if inc = true ∧ orig ≠ [] then orig else id) true, .str id true])
      else if q = kInfo then SMap.find? kInfo tr
      else if q = kRoot then SMap.find? kRoot tr
      else if q = kSize then some (.num size)
      else none := by
  have hd : nPrev ≠ kID ∧ nPrev ≠ kInfo ∧ nPrev ≠ kRoot ∧ nPrev ≠ kSize ∧ kInfo ≠ kRoot ∧ kInfo ≠ kSize ∧ kRoot ≠ kSize := by decide
  obtain ⟨a1, a2, a3, a4, a5, a6, a7⟩ := hd
  unfold fillTrailer
  dsimp only
  by_cases hp : prev > 0
  · rw [if_pos hp, SMap.find_insert]
    by_cases e1 : q = nPrev
    · simp [e1, hp]
    · rw [if_neg e1, if_neg e1, SMap.find_insert]
      by_cases e2 : q = kID
      · simp [e2]
      · rw [if_neg e2, if_neg e2, copyKey_find, copyKey_find, SMap.find_insert]
        by_cases e3 : q = kInfo
        · subst e3; simp [a5, a6, SMap.find?]
        · by_cases e4 : q = kRoot
          · subst e4; simp [a5.symm, a7, SMap.find?]
          · simp [e3, e4, SMap.find?]
  · rw [if_neg hp, SMap.find_insert]
    by_cases e2 : q = kID
    · have : q ≠ nPrev := by rw [e2]; exact a1.symm
      simp [e2, this, a1.symm]
    · rw [if_neg e2, copyKey_find, copyKey_find, SMap.find_insert]
      by_cases e1 : q = nPrev
      · subst e1; simp [hp, a2, a3, a4, SMap.find?]
      · rw [if_neg e1, if_neg e2]
        by_cases e3 : q = kInfo
        · subst e3; simp [a5, a6, SMap.find?]
        · by_cases e4 : q = kRoot
          · subst e4; simp [a5.symm, a7, SMap.find?]
          · simp [e3, e4, SMap.find?]

/-! ### Reading a section -/

theorem tryReadToken_lex {cap : Nat} {X r : Bytes} {t : Tok} {d : Nat} (h : lex cap X = some (t, r)) :
    tryReadToken cap ⟨[], X, d⟩ = (some t, ⟨[], r, d⟩) := by
  simp [tryReadToken, h]

theorem gnest_dict {l : List (Bytes × Var)} (h : nest (.dict l) ≤ 2) : gnest (.dict l) = 1 := by
  have := gnestKVs_le l
  rw [nest] at h
  rw [gnest]
  have h1 := Nat.le_max_left 1 (gnestKVs l)
  have h2 := Nat.max_le.2 ⟨Nat.le_refl 1, (by omega : gnestKVs l ≤ 1)⟩
  exact Nat.le_antisymm h2 h1

/-- Reading a table and its trailer. -/
theorem xref_read {adds : List XAdd} (hf : Spec.Fits maxObjectCount adds) {inc : Bool}
    (hne : inc = true ∨ ∃ a ∈ adds, a.written ≠ none) {ss : List XSection} {t : Bytes}
    (hw : writeSections inc adds = .ok ss) (ht : sectionsText ss = .ok t) (hlen : ss.length < maxSections)
    (f : WFlags) (hs : f.Sep) (T : List (Bytes × Var)) (hT : Writable 4095 (.dict T)) (hn : nest (.dict T) ≤ 2)
    (hstm : SMap.find? nXRefStm T = none)
    (file : Bytes) (fuel depth off : Nat) (st : LState) (tail : Bytes)
    (hfile : file.drop off = xrefLine ++ (t ++ (kTrailer ++ (10 :: (text f (.dict T) ++ tail)))))
    (hdepth : depth + 3 < 256) (hvis : off ∉ st.visited) :
    ∃ es, (∀ n, known es n = (known st.entries n).or (entryAt (allEntries ss) n)) ∧
      readXRef {} 0 maxObjectCount file (fuel + 1) depth off st =
        match prevOf T with
        | none => .ok ⟨es, joinTrailer st.trailer T, off :: st.visited⟩
        | some p =>
          if p > 0 then
            if p.toNat ∈ off :: st.visited then .ok ⟨es, joinTrailer st.trailer T, off :: st.visited⟩
            else readXRef {} 0 maxObjectCount file fuel (depth + 2) p.toNat
              ⟨es, joinTrailer st.trailer T, off :: st.visited⟩
          else .ok ⟨es, joinTrailer st.trailer T, off :: st.visited⟩ := by
  obtain ⟨ss', t', h1, h2, h3, h4⟩ := C37_table_round_trip_partial (cap := 4095) (magic := 0) (max := maxObjectCount)
    (by omega) (by omega) (by decide) (by decide) hf inc hne
  rw [hw] at h1
  cases h1
  rw [ht] at h3
  cases h3
  obtain ⟨es, h5, h6⟩ := h4 hlen st.entries (10 :: (text f (.dict T) ++ tail)) (depth + 1) (.cons_ws (by decide))
  refine ⟨es, ?_, ?_⟩
  · intro n
    rw [h6 n]
    cases known st.entries n with
    | some e => rfl
    | none =>
      cases entryAt (allEntries ss) n with
      | none => rfl
      | some e =>
        simp only [Nat.add_zero, Option.or_some, Option.or]
        split <;> rfl
  · have hoff : ¬ off > file.length := by
      intro h
      rw [List.drop_of_length_le (by omega)] at hfile
      simp [xrefLine] at hfile
    have e1 : lex 4095 (file.drop off) = some (⟨[120, 114, 101, 102], .literal⟩, 10 :: (t ++ (kTrailer ++ (10 :: (text f (.dict T) ++ tail))))) := by
      rw [hfile]
      exact lex_literal (w := [120, 114, 101, 102]) (by decide) (by decide) (by decide) (.cons_ws (by decide))
    have e2 : readSections 4095 0 maxObjectCount maxSections st.entries ⟨[], 10 :: (t ++ (kTrailer ++ (10 :: (text f (.dict T) ++ tail)))), depth + 1⟩ =
        (.ok (), es, ⟨[⟨kTrailer, .literal⟩], 10 :: (text f (.dict T) ++ tail), depth + 1⟩) := by
      rw [← h5]
      exact readSections_ws (left := 511) (by omega) _ _ _ _ (by decide)
    have e3 : parseTrailer {} ⟨[], 10 :: (text f (.dict T) ++ tail), depth + 2⟩ = .ok T := by
      obtain ⟨t1, s1, s', k1, k2, k3, _⟩ := read_dict (cfg := {}) (by decide) rfl f hs T hT (10 :: (text f (.dict T) ++ tail)) tail
        (depth + 2) (lex_ws (by decide) (by decide)) (by have := gnest_dict hn; show _ < 256; omega)
      unfold parseTrailer
      rw [k1]
      dsimp only
      rw [if_neg k2, k3]
    rw [readXRef, if_neg (by show ¬ depth + 1 > 256; omega), if_neg hvis, if_neg hoff, tryReadToken_lex e1]
    dsimp only
    rw [if_neg (by simp), e2]
    dsimp only
    rw [if_neg (by omega)]
    have e4 : tryReadToken 4095 ⟨[⟨kTrailer, .literal⟩], 10 :: (text f (.dict T) ++ tail), depth + 1⟩ =
        (some ⟨kTrailer, .literal⟩, ⟨[], 10 :: (text f (.dict T) ++ tail), depth + 1⟩) := by
      rfl
    rw [e4]
    dsimp only
    rw [if_neg (by simp), e3]
    dsimp only
    rw [if_neg (by rw [hstm]; simp)]
    rfl

/-- At recursion depth 254 and more the trailer cannot be read. -/
theorem xref_deep {adds : List XAdd} (hf : Spec.Fits maxObjectCount adds) {inc : Bool}
    (hne : inc = true ∨ ∃ a ∈ adds, a.written ≠ none) {ss : List XSection} {t : Bytes}
    (hw : writeSections inc adds = .ok ss) (ht : sectionsText ss = .ok t) (hlen : ss.length < maxSections)
    (f : WFlags) (T : List (Bytes × Var)) (file : Bytes) (fuel depth off : Nat) (st : LState) (tail : Bytes)
    (hfile : file.drop off = xrefLine ++ (t ++ (kTrailer ++ (10 :: (text f (.dict T) ++ tail)))))
    (hdepth : 254 ≤ depth) :
    readXRef {} 0 maxObjectCount file (fuel + 1) depth off st = raise .InvalidXRef := by
  obtain ⟨ss', t', h1, h2, h3, h4⟩ := C37_table_round_trip_partial (cap := 4095) (magic := 0) (max := maxObjectCount)
    (by omega) (by omega) (by decide) (by decide) hf inc hne
  rw [hw] at h1
  cases h1
  rw [ht] at h3
  cases h3
  obtain ⟨es, h5, h6⟩ := h4 hlen st.entries (10 :: (text f (.dict T) ++ tail)) (depth + 1) (.cons_ws (by decide))
  have hoff : ¬ off > file.length := by
    intro h
    rw [List.drop_of_length_le (by omega)] at hfile
    simp [xrefLine] at hfile
  have e1 : lex 4095 (file.drop off) = some (⟨[120, 114, 101, 102], .literal⟩, 10 :: (t ++ (kTrailer ++ (10 :: (text f (.dict T) ++ tail))))) := by
    rw [hfile]
    exact lex_literal (w := [120, 114, 101, 102]) (by decide) (by decide) (by decide) (.cons_ws (by decide))
  have e2 : readSections 4095 0 maxObjectCount maxSections st.entries ⟨[], 10 :: (t ++ (kTrailer ++ (10 :: (text f (.dict T) ++ tail)))), depth + 1⟩ =
      (.ok (), es, ⟨[⟨kTrailer, .literal⟩], 10 :: (text f (.dict T) ++ tail), depth + 1⟩) := by
    rw [← h5]
    exact readSections_ws (left := 511) (by omega) _ _ _ _ (by decide)
  have e4 : tryReadToken 4095 ⟨[⟨kTrailer, .literal⟩], 10 :: (text f (.dict T) ++ tail), depth + 1⟩ =
      (some ⟨kTrailer, .literal⟩, ⟨[], 10 :: (text f (.dict T) ++ tail), depth + 1⟩) := by
    rfl
  have e3 : parseTrailer {} ⟨[], 10 :: (text f (.dict T) ++ tail), depth + 2⟩ = raise .InvalidXRef := by
    have hl : lex 4095 (10 :: (text f (.dict T) ++ tail)) = some (⟨[60, 60], .dAngleL⟩, f.cl [10] ++ (entries f (ordered T) ++ 62 :: 62 :: tail)) := by
      rw [lex_ws (by decide) (by decide)]
      have e : text f (.dict T) ++ tail = 60 :: 60 :: (f.cl [10] ++ (entries f (ordered T) ++ 62 :: 62 :: tail)) := by
        rw [text, dictBody_entries]; simp
      rw [e]
      exact lex_dangle (by decide) (Or.inl rfl)
    unfold parseTrailer
    rw [tryReadToken_lex hl]
    dsimp only
    rw [if_neg (by decide), readTok, guarded, if_pos (by show depth + 2 + 1 > 256; omega)]
  rw [readXRef]
  by_cases hc1 : depth + 1 > 256
  · rw [if_pos hc1]
  · rw [if_neg hc1]
    by_cases hc2 : off ∈ st.visited
    · rw [if_pos hc2]
    · rw [if_neg hc2, if_neg hoff, tryReadToken_lex e1]
      dsimp only
      rw [if_neg (by simp), e2]
      dsimp only
      by_cases hc3 : depth + 2 > 256
      · rw [if_pos hc3]
      · rw [if_neg hc3, e4]
        dsimp only
        rw [if_neg (by simp), e3]

/-! ### One revision -/

/-- The numbers of a document. -/
def SaveIn.nums (d : SaveIn) : List Nat := d.objs.map (·.ref.num) ++ d.free.map (·.num)

/-- What is known about the text of one revision, written at position `start`: where its table is, the entries `E`
and the trailer `T`. -/
structure RevOk (env : SaveEnv) (inc : Bool) (start : Nat) (d : SaveIn) (txt : Bytes) (off : Nat)
    (E : Nat → Option XEntry) (T : List (Bytes × Var)) : Prop where
  pos : 0 < off
  range : start ≤ off ∧ off < start + txt.length
  header : inc = false → ∃ y, txt = headerText d.version ++ y
  tail : ∃ b e, 1 ≤ b.length ∧ (e = [] ∨ e = [10]) ∧ txt = b ++ (startXRef ++ ((10 :: (fmtNat off ++ [10])) ++ (eofMarker ++ e)))
  read : ∀ (pre post : Bytes) (fuel depth : Nat) (st : LState), pre.length = start → depth + 3 < 256 → off ∉ st.visited →
    ∃ es, (∀ n, known es n = (known st.entries n).or (E n)) ∧
      readXRef {} 0 maxObjectCount (pre ++ (txt ++ post)) (fuel + 1) depth off st =
        if d.prev > 0 then
          if d.prev.toNat ∈ off :: st.visited then .ok ⟨es, joinTrailer st.trailer T, off :: st.visited⟩
          else readXRef {} 0 maxObjectCount (pre ++ (txt ++ post)) fuel (depth + 2) d.prev.toNat
            ⟨es, joinTrailer st.trailer T, off :: st.visited⟩
        else .ok ⟨es, joinTrailer st.trailer T, off :: st.visited⟩
  deep : ∀ (pre post : Bytes) (fuel depth : Nat) (st : LState), pre.length = start → 254 ≤ depth →
    readXRef {} 0 maxObjectCount (pre ++ (txt ++ post)) (fuel + 1) depth off st = raise .InvalidXRef
  inUse : ∀ n e, E n = some e → e.type = .inUse → 0 < e.variant ∧ ∃ o ∈ d.objs, o.written inc = true ∧
    o.ref = ⟨n, e.gen⟩ ∧ ∃ l, SameObj o.obj l ∧ ∀ pre post : Bytes, pre.length = start →
      loadObject {} ((pre ++ (txt ++ post)).drop e.variant) = .ok (o.ref, l)
  writes : ∀ o ∈ d.objs, o.written inc = true → ∃ v, E o.ref.num = some ⟨.inUse, v, o.ref.gen⟩
  frees : ∀ f ∈ d.free, ∃ v, E f.num = some ⟨.free, v, f.gen⟩
  free : ∀ n e, E n = some e → e.type = .free → n = 0 ∨ ⟨n, e.gen⟩ ∈ d.free
  type : ∀ n e, E n = some e → e.type = .inUse ∨ e.type = .free
  trailer : ∃ size ids, fileIds env d = .ok ids ∧ T = fillTrailer d.trailer size inc ids.1 ids.2 d.prev ∧
    (∀ n ∈ d.nums, n < size) ∧ ∃ n ∈ d.nums, n + 1 = size

/-- What is written, with or without its last byte. -/
theorem rev_write_core (env : SaveEnv) (inc : Bool) (start : Nat) (d : SaveIn) (hd : CanSave env inc d)
    (hstart : inc = true → 0 < start) :
    ∃ core off E T, writeFile env inc start d = .ok (core ++ [10]) ∧ ∀ e : Bytes, e = [] ∨ e = [10] →
      (start + (core ++ e).length < 10000000000 → RevOk env inc start d (core ++ e) off E T) := by
  obtain ⟨i, hi⟩ := hd.infoDict
  obtain ⟨og, hog⟩ := hd.id
  obtain ⟨ids, hids⟩ : ∃ ids, fileIds env d = .ok ids := by
    unfold fileIds; rw [hog, hi]; exact ⟨_, rfl⟩
  obtain ⟨hdr, hhdr⟩ : ∃ h, h = (if inc then [] else headerText d.version) := ⟨_, rfl⟩
  obtain ⟨body, adds, k1, k2, k3, k4, k5, k6⟩ := writeObjs_spec env hd.sep inc d.objs (start + hdr.length)
    (fun o ho => by have := hd.objs o ho; exact ⟨by omega, this.2.2⟩)
    (fun o ho hw => hd.write o ho (fun h => by subst h; simpa [DocObj.written] using hw))
  obtain ⟨al, hal⟩ : ∃ al, al = adds ++ d.free.map XAdd.free := ⟨_, rfl⟩
  have href : al.map XAdd.ref = d.objs.map (·.ref) ++ d.free := by
    rw [hal, List.map_append, k2, List.map_map]
    congr 1
    exact List.map_id'' (fun _ => rfl) d.free
  have hnum : ∀ a ∈ al, a.ref.num ∈ d.nums := by
    intro a ha
    have : a.ref ∈ d.objs.map (·.ref) ++ d.free := by rw [← href]; exact List.mem_map_of_mem ha
    rcases List.mem_append.1 this with h | h
    · obtain ⟨o, ho, e⟩ := List.mem_map.1 h
      exact List.mem_append_left _ (List.mem_map.2 ⟨o, ho, by rw [e]⟩)
    · exact List.mem_append_right _ (List.mem_map.2 ⟨_, h, rfl⟩)
  have hnum' : ∀ n ∈ d.nums, ∃ a ∈ al, a.ref.num = n := by
    intro n hn
    have : ∃ r ∈ d.objs.map (·.ref) ++ d.free, r.num = n := by
      rcases List.mem_append.1 hn with h | h
      · obtain ⟨o, ho, e⟩ := List.mem_map.1 h
        exact ⟨o.ref, List.mem_append_left _ (List.mem_map_of_mem ho), e⟩
      · obtain ⟨f, hf, e⟩ := List.mem_map.1 h
        exact ⟨f, List.mem_append_right _ hf, e⟩
    obtain ⟨r, hr, e⟩ := this
    rw [← href] at hr
    obtain ⟨a, ha, e'⟩ := List.mem_map.1 hr
    exact ⟨a, ha, by rw [e', e]⟩
  have hran : ∀ a ∈ al, 1 ≤ a.ref.num ∧ a.ref.num < 8388607 ∧ a.ref.gen < 65536 := by
    intro a ha
    have : a.ref ∈ d.objs.map (·.ref) ++ d.free := by rw [← href]; exact List.mem_map_of_mem ha
    rcases List.mem_append.1 this with h | h
    · obtain ⟨o, ho, e⟩ := List.mem_map.1 h
      rw [← e]; exact hd.objs o ho
    · exact hd.free _ h
  have hfw : (d.free.map XAdd.free).filterMap XAdd.written = d.free := by
    rw [List.filterMap_map]
    exact List.filterMap_some
  have hwr : (al.filterMap XAdd.written).map Ref.num = listed inc d := by
    rw [hal, List.filterMap_append, k3, hfw, List.map_append, List.map_map]
    rfl
  have hadds : Spec.Adds al := by
    refine ⟨fun a ha => ?_, ?_⟩
    · have := hran a ha; omega
    · rw [hwr]
      refine List.Sublist.nodup ?_ hd.distinct
      exact List.Sublist.append (List.Sublist.map _ List.filter_sublist) (List.Sublist.refl _)
  have hal0 : al ≠ [] := by
    intro h
    rw [h] at href
    have := hd.nonempty
    cases hq : d.objs with
    | nil => exact this hq
    | cons x y => rw [hq] at href; simp at href
  have hne : inc = true ∨ ∃ a ∈ al, a.written ≠ none := by
    cases inc with
    | true => exact .inl rfl
    | false =>
      right
      obtain ⟨o, ho⟩ := List.exists_mem_of_ne_nil _ hd.nonempty
      obtain ⟨v, hv⟩ := k5 o ho (by simp [DocObj.written])
      exact ⟨_, by rw [hal]; exact List.mem_append_left _ hv, by simp [XAdd.written]⟩
  obtain ⟨ss, hss, htab⟩ := C34_table hadds inc hne
  obtain ⟨t, ht⟩ := sectionsText_ok ss (fun x hx => by
    rcases (htab.only x.1 x.2 hx).2.2 with h | h
    · rw [h]; decide
    · rw [h.1]; decide)
  have hlen : ss.length < maxSections := by
    have h1 := sections_le_runs hadds htab (table_count_pos hadds inc hne hss)
    rw [hwr] at h1
    have := hd.runs
    show _ < 512
    omega
  obtain ⟨hsz1, hsz2⟩ := C34_size hadds inc hal0
  obtain ⟨size, hsize⟩ : ∃ z, z = (collect inc al).size := ⟨_, rfl⟩
  rw [← hsize] at hsz1 hsz2
  have hszlt : size < 9223372036854775808 := by
    obtain ⟨a, ha, e⟩ := hsz2
    have := hran a ha
    omega
  obtain ⟨T, hT⟩ : ∃ T, T = fillTrailer d.trailer size inc ids.1 ids.2 d.prev := ⟨_, rfl⟩
  have hTw : Writable 4095 (.dict T) ∧ nest (.dict T) ≤ 2 := by
    rw [hT]; exact fillTrailer_writable hszlt hd.prev hd.root hd.info
  have hTstm : SMap.find? nXRefStm T = none := by
    rw [hT, fillTrailer_find]
    rw [if_neg (by decide), if_neg (by decide), if_neg (by decide), if_neg (by decide), if_neg (by decide)]
  obtain ⟨off, hoff⟩ : ∃ o, o = start + hdr.length + body.length := ⟨_, rfl⟩
  obtain ⟨x0, hx0⟩ : ∃ x, x = xrefLine ++ (t ++ (kTrailer ++ (10 :: (text env.opts.flags (.dict T) ++ (10 :: (startXRef ++ (10 :: (fmtNat off ++ (10 :: eofMarker))))))))) := ⟨_, rfl⟩
  have hwf : writeFile env inc start d = .ok ((hdr ++ (body ++ x0)) ++ [10]) := by
    have hx : x0 ++ [10] = xrefLine ++ (t ++ fileTail (text env.opts.flags (.dict T)) off) := by
      rw [hx0, fileTail]; simp only [List.append_assoc, List.cons_append]
    have : xrefText env inc d ids al off = .ok (x0 ++ [10]) := by
      rw [xrefText, hss]
      dsimp only
      rw [ht]
      dsimp only
      rw [← hsize, ← hT, writeVar, if_neg (by rw [writable_noNul hTw.1]; simp), hx]
    rw [writeFile, hids]
    dsimp only
    rw [← hhdr, k1]
    dsimp only
    rw [← hoff, ← hal, this]
    simp only [List.append_assoc]
  refine ⟨hdr ++ (body ++ x0), off, fun n => entryAt (allEntries ss) n, T, hwf, fun ending hending => ?_⟩
  obtain ⟨x, hx1⟩ : ∃ x, x = x0 ++ ending := ⟨_, rfl⟩
  have hx : x = xrefLine ++ (t ++ (kTrailer ++ (10 :: (text env.opts.flags (.dict T) ++ (10 :: (startXRef ++ (10 :: (fmtNat off ++ (10 :: (eofMarker ++ ending)))))))))) := by
    rw [hx1, hx0]; simp only [List.append_assoc, List.cons_append]
  have hxl : xrefLine.length ≤ x.length := by rw [hx, List.length_append]; omega
  have hcx : (hdr ++ (body ++ x0)) ++ ending = hdr ++ (body ++ x) := by rw [hx1]; simp only [List.append_assoc]
  rw [hcx]
  intro hlt
  have hx5 : xrefLine.length = 5 := rfl
  have hlt' : start + hdr.length + body.length < 10000000000 := by
    simp only [List.length_append] at hlt; omega
  have hfits : Spec.Fits maxObjectCount al := by
    refine ⟨hadds, fun r o ho => ?_, fun a ha => ?_, fun a ha => ?_⟩
    · rw [hal] at ho
      rcases List.mem_append.1 ho with ho | ho
      · obtain ⟨_, _, _, _, _, h, _⟩ := k6 r o ho
        omega
      · simp at ho
    · have := hran a ha; omega
    · exact (hran a ha).2.1
  have hfile : ∀ pre post : Bytes, pre.length = start → (pre ++ ((hdr ++ (body ++ x)) ++ post)).drop off = xrefLine ++ (t ++ (kTrailer ++ (10 :: (text env.opts.flags (.dict T) ++
      ((10 :: (startXRef ++ (10 :: (fmtNat off ++ (10 :: (eofMarker ++ ending)))))) ++ post))))):= by
    intro pre post hpre
    have e : pre ++ ((hdr ++ (body ++ x)) ++ post) = (pre ++ (hdr ++ body)) ++ (x ++ post) := by simp only [List.append_assoc]
    rw [e, List.drop_left' (by simp only [List.length_append]; omega), hx]
    simp only [List.append_assoc, List.cons_append]
  have hpos : 0 < start + hdr.length := by
    cases hinc : inc with
    | true => have := hstart hinc; omega
    | false =>
      have : 0 < hdr.length := by rw [hhdr, hinc]; simp [headerText]; omega
      omega
  refine ⟨by omega, ⟨by omega, by simp only [List.length_append]; omega⟩, ?_, ?_, ?_, ?_, ?_, ?_, ?_, ?_, ?_, ?_⟩
  · intro h
    subst h
    exact ⟨body ++ x, by rw [hhdr]; rfl⟩
  · refine ⟨hdr ++ (body ++ (xrefLine ++ (t ++ (kTrailer ++ (10 :: (text env.opts.flags (.dict T) ++ [10])))))), ending, ?_, hending, ?_⟩
    · simp only [List.length_append, hx5]; omega
    · rw [hx]
      simp only [List.append_assoc, List.cons_append, List.nil_append]
  case refine_4 =>
    intro pre post fuel depth st hpre hdepth
    exact xref_deep hfits hne hss ht hlen env.opts.flags T _ fuel depth off st _ (hfile pre post hpre) hdepth
  · intro pre post fuel depth st hpre hdepth hvis
    have hfile := hfile pre post hpre
    obtain ⟨es, h1, h2⟩ := xref_read hfits hne hss ht hlen env.opts.flags hd.sep T hTw.1 hTw.2 hTstm
      (pre ++ ((hdr ++ (body ++ x)) ++ post)) fuel depth off st _ hfile hdepth hvis
    refine ⟨es, h1, ?_⟩
    rw [h2]
    have hp : prevOf T = if d.prev > 0 then some d.prev else none := by
      unfold prevOf
      rw [hT, fillTrailer_find, if_pos rfl]
      by_cases h : d.prev > 0
      · rw [if_pos h, if_pos h]
      · rw [if_neg h, if_neg h]
    rw [hp]
    by_cases h : d.prev > 0
    · rw [if_pos h, if_pos h]
      dsimp only
      rw [if_pos h]
    · rw [if_neg h, if_neg h]
  · intro n e he hty
    obtain ⟨r, hr, hn⟩ := (entryAt_iff htab n e).1 he
    obtain ⟨hg, hor, _⟩ := htab.only r e hr
    have hm : XAdd.inUse r e.variant ∈ al := by
      rw [htab.inUse]
      obtain ⟨ty, va, ge⟩ := e
      simp only at hg hty
      subst hg hty
      exact hr
    rw [hal] at hm
    rcases List.mem_append.1 hm with hm | hm
    · obtain ⟨o, ho, hw, hor, hlo, hhi, l, hl, hld⟩ := k6 r e.variant hm
      refine ⟨?_, o, ho, hw, ?_, l, hl, ?_⟩
      · omega
      · rw [hor, hg, ← hn]
      · intro pre post hpre
        have e' : pre ++ ((hdr ++ (body ++ x)) ++ post) = (pre ++ hdr) ++ (body ++ (x ++ post)) := by simp only [List.append_assoc]
        rw [e', hor]
        exact hld _ _ (by simp only [List.length_append]; omega)
    · simp at hm
  · intro o ho hw
    obtain ⟨v, hv⟩ := k5 o ho hw
    refine ⟨v, (entryAt_iff htab _ _).2 ⟨o.ref, ?_, rfl⟩⟩
    rw [← htab.inUse, hal]
    exact List.mem_append_left _ hv
  · intro f hf
    have := hd.free f hf
    obtain ⟨nx, hnx⟩ := (htab.free f (by omega)).1 (by rw [hal]; exact List.mem_append_right _ (List.mem_map_of_mem hf))
    exact ⟨nx, (entryAt_iff htab _ _).2 ⟨f, hnx, rfl⟩⟩
  · intro n e he hty
    obtain ⟨r, hr, hn⟩ := (entryAt_iff htab n e).1 he
    obtain ⟨hg, _, _⟩ := htab.only r e hr
    by_cases h0 : n = 0
    · exact .inl h0
    · right
      have hm : XAdd.free r ∈ al := by
        rw [htab.free r (by omega)]
        obtain ⟨ty, va, ge⟩ := e
        simp only at hg hty
        subst hg hty
        exact ⟨va, hr⟩
      rw [hal] at hm
      rcases List.mem_append.1 hm with hm | hm
      · exact absurd hm (k4 r)
      · obtain ⟨f, hf, e'⟩ := List.mem_map.1 hm
        cases e'
        rw [hg, ← hn]
        exact hf
  · intro n e he
    obtain ⟨r, hr, hn⟩ := (entryAt_iff htab n e).1 he
    rcases (htab.only r e hr).2.2 with h | h
    · exact .inl h
    · exact .inr h.1
  · refine ⟨size, ids, hids, hT, ?_, ?_⟩
    · intro n hn
      obtain ⟨a, ha, e⟩ := hnum' n hn
      rw [← e]; exact hsz1 a ha
    · obtain ⟨a, ha, e⟩ := hsz2
      exact ⟨_, hnum a ha, e⟩

theorem rev_write (env : SaveEnv) (inc : Bool) (start : Nat) (d : SaveIn) (hd : CanSave env inc d)
    (hstart : inc = true → 0 < start) :
    ∃ txt off E T, writeFile env inc start d = .ok txt ∧
      (start + txt.length < 10000000000 → RevOk env inc start d txt off E T) := by
  obtain ⟨core, off, E, T, h1, h2⟩ := rev_write_core env inc start d hd hstart
  exact ⟨_, off, E, T, h1, h2 [10] (.inr rfl)⟩

end Pdfmm
