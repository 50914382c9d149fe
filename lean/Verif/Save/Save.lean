import Verif.Save.SaveLoad
/-
C116 to C118: saving and opening documents.
-/
set_option autoImplicit false
namespace Pdfmm

open Spec

/-! ### An example document -/

/-- `/Type /Catalog /Version /1.5`. -/
def exCatalog : Var := .dict [([84, 121, 112, 101], .name [67, 97, 116, 97, 108, 111, 103]), (nVersion, .name [49, 46, 53])]

def exEnv (flate : Filt) : SaveEnv := ⟨flate, fun _ => false, ⟨⟨false, false⟩, false, true⟩, fun _ => [1, 2]⟩

/-- A catalog, a string, an empty information dictionary, and number 3 free. -/
def exDoc (k : Byte) (dirty : Bool) (prev : Int) (s : Bytes) : SaveIn :=
  ⟨[49, 46, k], [⟨⟨1, 0⟩, .plain exCatalog, dirty⟩, ⟨⟨2, 0⟩, .plain (.str s false), dirty⟩], [⟨3, 1⟩],
   [(kInfo, .dict []), (kRoot, .ref 1 0)], prev⟩

theorem exDoc_canSave (flate : Filt) (k : Byte) (hk1 : 48 ≤ k.toNat) (hk2 : k.toNat ≤ 55) (inc dirty : Bool) (prev : Int) (hp : prev < 10000000000) (s : Bytes) :
    CanSave (exEnv flate) inc (exDoc k dirty prev s) := by
  refine ⟨?_, .inr rfl, ?_, ?_, (show ([1, 2] ++ [3] : List Nat).Nodup by decide), ?_, ?_, by simp [exDoc], ?_, ?_, ⟨some [], rfl⟩, (show (some (Var.ref 1 0)) ≠ none by simp), ⟨none, rfl⟩, hp⟩
  · exact .inl ⟨k, hk1, hk2, rfl⟩
  · intro o ho
    simp only [exDoc, List.mem_cons, List.not_mem_nil, or_false] at ho
    rcases ho with rfl | rfl <;> exact ⟨by simp, by simp, by simp⟩
  · intro f hf
    simp only [exDoc, List.mem_cons, List.not_mem_nil, or_false] at hf
    subst hf
    exact ⟨by decide, by decide, by decide⟩
  · cases inc <;> cases dirty
    · show (runStarts ([1, 2] ++ [3])).length < 511; decide
    · show (runStarts ([1, 2] ++ [3])).length < 511; decide
    · show (runStarts ([] ++ [3])).length < 511; decide
    · show (runStarts ([1, 2] ++ [3])).length < 511; decide
  · intro o ho _
    simp only [exDoc, List.mem_cons, List.not_mem_nil, or_false] at ho
    rcases ho with rfl | rfl
    · refine ⟨.dict _ ⟨by intro p hp; simp only [List.mem_singleton] at hp; subst hp; decide, by simp [SMap.Sorted]⟩ ?_ ?_, by decide⟩
      · intro p hp
        simp only [List.mem_cons, List.not_mem_nil, or_false] at hp
        rcases hp with rfl | rfl <;> exact ⟨by decide, by decide⟩
      · intro p hp
        simp only [List.mem_cons, List.not_mem_nil, or_false] at hp
        rcases hp with rfl | rfl <;> exact .name _ (by decide) (by decide)
    · exact ⟨.str _ _, by simp [nest]⟩
  · intro v hv
    have : SMap.find? kRoot (exDoc k dirty prev s).trailer = some (.ref 1 0) := by rfl
    rw [this] at hv
    cases hv
    exact ⟨.ref _ _ (by decide) (by decide), by simp [nest]⟩
  · intro v hv
    have : SMap.find? kInfo (exDoc k dirty prev s).trailer = some (.dict []) := by rfl
    rw [this] at hv
    cases hv
    exact ⟨.dict _ (by simp [SMap.Sorted]) (by simp) (by simp), by decide⟩

/-! ### Example files -/

theorem exUpdSections : writeSections true [.old ⟨1,0⟩, .old ⟨2,0⟩, .free ⟨3,1⟩] =
    .ok [⟨0, 1, [(⟨0, 65535⟩, freeEntry 65535 (some ⟨3, 1⟩))]⟩, ⟨3, 1, [(⟨3, 1⟩, freeEntry 1 none)]⟩] := by
  rw [writeSections]
  have : collect true [.old ⟨1,0⟩, .old ⟨2,0⟩, .free ⟨3,1⟩] = ⟨[⟨0, 1, [], []⟩, ⟨3, 1, [], [⟨3, 1⟩]⟩], 3⟩ := by rfl
  rw [this]
  simp [mergeBlocks, mergeFrom, sectionsOf, sectionOf, emit, nextFreeRef, u32]
theorem exSaveSections (a b : Nat) : writeSections false [.inUse ⟨1,0⟩ a, .inUse ⟨2,0⟩ b, .free ⟨3,1⟩] =
    .ok [⟨0, 4, [(⟨0, 65535⟩, freeEntry 65535 (some ⟨3, 1⟩)), (⟨1, 0⟩, ⟨.inUse, a, 0⟩), (⟨2, 0⟩, ⟨.inUse, b, 0⟩), (⟨3, 1⟩, freeEntry 1 none)]⟩] := by
  rw [writeSections]
  have : collect false [.inUse ⟨1,0⟩ a, .inUse ⟨2,0⟩ b, .free ⟨3,1⟩] = ⟨[⟨1, 3, [(⟨1, 0⟩, a), (⟨2, 0⟩, b)], [⟨3, 1⟩]⟩], 3⟩ := by rfl
  rw [this]
  simp [mergeBlocks, mergeFrom, sectionsOf, sectionOf, emit, nextFreeRef, u32, Ref.lt]
/-- The same with two objects that were not changed, without an information dictionary, with an identifier. -/
def exClean (prev : Int) (a b : Loaded) : SaveIn :=
  ⟨[49, 46, 52], [⟨⟨1, 0⟩, a, false⟩, ⟨⟨2, 0⟩, b, false⟩], [⟨3, 1⟩],
   [(kID, .arr [.str [9] false]), (kRoot, .ref 1 0)], prev⟩

theorem exClean_canSave (flate : Filt) (prev : Int) (hp : prev < 10000000000) (a b : Loaded) :
    CanSave (exEnv flate) true (exClean prev a b) := by
  refine ⟨?_, .inr rfl, ?_, ?_, (show ([1, 2] ++ [3] : List Nat).Nodup by decide), ?_, ?_, by simp [exClean], ?_, ?_, ⟨none, rfl⟩, (show (some (Var.ref 1 0)) ≠ none by simp), ⟨some [9], rfl⟩, hp⟩
  · exact .inl ⟨52, by decide, by decide, rfl⟩
  · intro o ho
    simp only [exClean, List.mem_cons, List.not_mem_nil, or_false] at ho
    rcases ho with rfl | rfl <;> exact ⟨by simp, by simp, by simp⟩
  · intro f hf
    simp only [exClean, List.mem_cons, List.not_mem_nil, or_false] at hf
    subst hf
    exact ⟨by decide, by decide, by decide⟩
  · show (runStarts ([] ++ [3])).length < 511; decide
  · intro o ho hd
    simp only [exClean, List.mem_cons, List.not_mem_nil, or_false] at ho
    rcases ho with rfl | rfl <;> exact absurd (hd rfl) (by simp)
  · intro v hv
    have : SMap.find? kRoot (exClean prev a b).trailer = some (.ref 1 0) := by rfl
    rw [this] at hv
    cases hv
    exact ⟨.ref _ _ (by decide) (by decide), by simp [nest]⟩
  · intro v hv
    have : SMap.find? kInfo (exClean prev a b).trailer = none := by rfl
    rw [this] at hv
    cases hv

theorem exTrailer_body (a b c w : Bytes) : dictBody ⟨false, false⟩ [(kID, a), (nPrev, w), (kRoot, b), (kSize, c)]
    = ([47, 73, 68] ++ a) ++ (([47, 80, 114, 101, 118] ++ w) ++ (([47, 82, 111, 111, 116] ++ b) ++ ([47, 83, 105, 122, 101] ++ c))) := by
  have e : dictBody ⟨false, false⟩ [(kID, a), (nPrev, w), (kRoot, b), (kSize, c)] =
    [] ++ (([47, 73, 68] ++ [] ++ a ++ []) ++ (([47, 80, 114, 101, 118] ++ [] ++ w ++ []) ++ (([47, 82, 111, 111, 116] ++ [] ++ b ++ []) ++ (([47, 83, 105, 122, 101] ++ [] ++ c ++ []) ++ [])))) := rfl
  rw [e]
  simp only [List.append_nil, List.nil_append]

theorem exClean_length (flate : Filt) (start prev : Nat) (hs : start < 10000000000) (h0 : 0 < prev)
    (hp : prev < 10000000000) (a b : Loaded) :
    ∃ t, writeFile (exEnv flate) true start (exClean prev a b) = .ok t ∧ t.length < 1000 := by
  rw [writeFile]
  have h1 : fileIds (exEnv flate) (exClean prev a b) = .ok ([9], [1, 2]) := by rfl
  rw [h1]
  dsimp only
  have h2 : writeObjs (exEnv flate) true (start + ([] : Bytes).length) (exClean prev a b).objs = .ok ([], [.old ⟨1, 0⟩, .old ⟨2, 0⟩]) := by rfl
  rw [if_pos rfl, h2]
  dsimp only
  rw [xrefText]
  have h3 : ([.old ⟨1, 0⟩, .old ⟨2, 0⟩] ++ (exClean prev a b).free.map .free : List XAdd) = [.old ⟨1,0⟩, .old ⟨2,0⟩, .free ⟨3,1⟩] := by rfl
  rw [h3, exUpdSections]
  obtain ⟨x, hx, hxl⟩ : ∃ x, sectionsText [⟨0, 1, [(⟨0, 65535⟩, freeEntry 65535 (some ⟨3, 1⟩))]⟩, ⟨3, 1, [(⟨3, 1⟩, freeEntry 1 none)]⟩] = .ok x ∧ x.length = 48 := ⟨_, rfl, rfl⟩
  dsimp only
  rw [hx]
  have h4 : (exClean prev a b).prev = prev := rfl
  have h5 : fillTrailer (exClean prev a b).trailer (collect true [.old ⟨1,0⟩, .old ⟨2,0⟩, .free ⟨3,1⟩]).size true [9] [1, 2] (exClean prev a b).prev
     = [(kID, .arr [.str [9] true, .str [1, 2] true]), (nPrev, .num prev), (kRoot, .ref 1 0), (kSize, .num 4)] := by
    rw [h4, fillTrailer, if_pos (by omega)]
    rfl
  dsimp only
  rw [h5]
  have h6 : writeVar (exEnv flate).opts.flags (.dict [(kID, .arr [.str [9] true, .str [1, 2] true]), (nPrev, .num prev), (kRoot, .ref 1 0), (kSize, .num 4)]) = .ok (text ⟨false, false⟩ (.dict [(kID, .arr [.str [9] true, .str [1, 2] true]), (nPrev, .num prev), (kRoot, .ref 1 0), (kSize, .num 4)])) := by rfl
  rw [h6]
  have h7 : (fmtNat start).length ≤ 9 + 1 := fmtNat_length _ 9 (by omega)
  have h8 : (fmtNat prev).length ≤ 9 + 1 := fmtNat_length _ 9 (by omega)
  have h9 : fmtInt (prev : Int) = fmtNat prev := (fmtNat_fmtInt prev).symm
  refine ⟨_, rfl, ?_⟩
  have h10 : (text ⟨false, false⟩ (.dict [(kID, .arr [.str [9] true, .str [1, 2] true]), (nPrev, .num prev), (kRoot, .ref 1 0), (kSize, .num 4)])).length ≤ 100 := by
    have e : text ⟨false, false⟩ (.dict [(kID, .arr [.str [9] true, .str [1, 2] true]), (nPrev, .num prev), (kRoot, .ref 1 0), (kSize, .num 4)])
        = [60, 60] ++ ([] ++ (dictBody ⟨false, false⟩ [(kID, text ⟨false, false⟩ (.arr [.str [9] true, .str [1, 2] true])), (nPrev, 32 :: fmtInt prev), (kRoot, text ⟨false, false⟩ (.ref 1 0)), (kSize, text ⟨false, false⟩ (.num 4))] ++ [62, 62])) := rfl
    rw [e, h9, exTrailer_body]
    simp only [List.length_append, List.length_cons, List.length_nil]
    have a1 : (text ⟨false, false⟩ (.arr [.str [9] true, .str [1, 2] true])).length = 12 := rfl
    have a2 : (text ⟨false, false⟩ (.ref 1 0)).length = 6 := rfl
    have a3 : (text ⟨false, false⟩ (.num 4)).length = 2 := rfl
    rw [a1, a2, a3]
    omega
  simp only [List.length_append, List.length_cons, fileTail, hxl, List.length_nil] 
  have a1 : xrefLine.length = 5 := rfl
  have a2 : kTrailer.length = 7 := rfl
  have a3 : startXRef.length = 9 := rfl
  have a4 : eofMarker.length = 5 := rfl
  have a5 : fmtNat (start + 0 + 0) = fmtNat start := rfl
  rw [a1, a2, a3, a4, a5]
  omega

theorem exDoc_length (flate : Filt) (k : Byte) : ∃ t, writeFile (exEnv flate) false 0 (exDoc k true 0 [65]) = .ok t ∧ t.length < 1000 := by
  rw [writeFile]
  have h1 : fileIds (exEnv flate) (exDoc k true 0 [65]) = .ok ([1, 2], [1, 2]) := by rfl
  rw [h1]
  dsimp only
  obtain ⟨body, h2, h2l⟩ : ∃ body, writeObjs (exEnv flate) false (0 + (headerText [49, 46, k]).length) (exDoc k true 0 [65]).objs
     = .ok (body, [.inUse ⟨1, 0⟩ 15, .inUse ⟨2, 0⟩ 60]) ∧ body.length = 64 := ⟨_, rfl, rfl⟩
  rw [if_neg (by simp)]
  have h0 : (exDoc k true 0 [65]).version = [49, 46, k] := rfl
  rw [h0, h2]
  dsimp only
  rw [xrefText]
  have h3 : ([.inUse ⟨1, 0⟩ 15, .inUse ⟨2, 0⟩ 60] ++ (exDoc k true 0 [65]).free.map .free : List XAdd) = [.inUse ⟨1, 0⟩ 15, .inUse ⟨2, 0⟩ 60, .free ⟨3,1⟩] := by rfl
  rw [h3, exSaveSections]
  obtain ⟨x, hx, hxl⟩ : ∃ x, sectionsText [⟨0, 4, [(⟨0, 65535⟩, freeEntry 65535 (some ⟨3, 1⟩)), (⟨1, 0⟩, ⟨.inUse, 15, 0⟩), (⟨2, 0⟩, ⟨.inUse, 60, 0⟩), (⟨3, 1⟩, freeEntry 1 none)]⟩] = .ok x ∧ x.length = 84 := ⟨_, rfl, rfl⟩
  dsimp only
  rw [hx, h2l]
  dsimp only
  obtain ⟨y, hy, hyl⟩ : ∃ y, writeVar (exEnv flate).opts.flags (Var.dict
          (fillTrailer (exDoc k true 0 [65]).trailer
            (collect false [.inUse ⟨1, 0⟩ 15, .inUse ⟨2, 0⟩ 60, .free ⟨3,1⟩]).size
            false [1, 2] [1, 2] (exDoc k true 0 [65]).prev)) = .ok y ∧ y.length = 48 := ⟨_, rfl, rfl⟩
  rw [hy]
  refine ⟨_, rfl, ?_⟩
  have h7 : (fmtNat (0 + (headerText [49, 46, k]).length + 64)).length ≤ 9 + 1 := fmtNat_length _ 9 (by show 0 + 15 + 64 < _; decide)
  have a0 : (headerText [49, 46, k]).length = 15 := rfl
  have a1 : xrefLine.length = 5 := rfl
  have a2 : kTrailer.length = 7 := rfl
  have a3 : startXRef.length = 9 := rfl
  have a4 : eofMarker.length = 5 := rfl
  simp only [List.length_append, List.length_cons, fileTail, hxl, List.length_nil, hyl, h2l]
  omega

theorem exClean_new_length (flate : Filt) (start : Nat) (hs : start < 10000000000) (a b : Loaded) :
    ∃ t, writeFile (exEnv flate) true start (exClean (-1) a b) = .ok t ∧ t.length < 1000 := by
  rw [writeFile]
  have h1 : fileIds (exEnv flate) (exClean (-1) a b) = .ok ([9], [1, 2]) := by rfl
  rw [h1]
  dsimp only
  have h2 : writeObjs (exEnv flate) true (start + ([] : Bytes).length) (exClean (-1) a b).objs = .ok ([], [.old ⟨1, 0⟩, .old ⟨2, 0⟩]) := by rfl
  rw [if_pos rfl, h2]
  dsimp only
  rw [xrefText]
  have h3 : ([.old ⟨1, 0⟩, .old ⟨2, 0⟩] ++ (exClean (-1) a b).free.map .free : List XAdd) = [.old ⟨1,0⟩, .old ⟨2,0⟩, .free ⟨3,1⟩] := by rfl
  rw [h3, exUpdSections]
  obtain ⟨x, hx, hxl⟩ : ∃ x, sectionsText [⟨0, 1, [(⟨0, 65535⟩, freeEntry 65535 (some ⟨3, 1⟩))]⟩, ⟨3, 1, [(⟨3, 1⟩, freeEntry 1 none)]⟩] = .ok x ∧ x.length = 48 := ⟨_, rfl, rfl⟩
  dsimp only
  rw [hx]
  obtain ⟨y, hy, hyl⟩ : ∃ y, writeVar (exEnv flate).opts.flags (Var.dict
          (fillTrailer (exClean (-1) a b).trailer
            (collect true [.old ⟨1,0⟩, .old ⟨2,0⟩, .free ⟨3,1⟩]).size
            true [9] [1, 2] (exClean (-1) a b).prev)) = .ok y ∧ y.length = 37 := ⟨_, rfl, rfl⟩
  dsimp only
  rw [hy]
  refine ⟨_, rfl, ?_⟩
  have h7 : (fmtNat start).length ≤ 9 + 1 := fmtNat_length _ 9 (by omega)
  simp only [List.length_append, List.length_cons, fileTail, hxl, List.length_nil, hyl]
  have a1 : xrefLine.length = 5 := rfl
  have a2 : kTrailer.length = 7 := rfl
  have a3 : startXRef.length = 9 := rfl
  have a4 : eofMarker.length = 5 := rfl
  have a5 : fmtNat (start + 0 + 0) = fmtNat start := rfl
  rw [a1, a2, a3, a4, a5]
  omega

/-- There is a file for every number of updates up to 127. -/
theorem exHistory (n : Nat) (hn : n ≤ 127) : ∃ file d, History file d n [49, 46, 52] ∧ file.length < 1000 * (n + 1) ∧
    d.objs.map (·.ref) = [⟨1, 0⟩, ⟨2, 0⟩] := by
  induction n with
  | zero =>
    obtain ⟨t, ht, hl⟩ := exDoc_length hexFilt 52
    exact ⟨t, _, .save _ _ t (exDoc_canSave hexFilt 52 (by decide) (by decide) false true 0 (by omega) [65]) rfl ht (by omega), by omega, rfl⟩
  | succ n ih =>
    obtain ⟨file, d, h, hl, hr⟩ := ih (by omega)
    obtain ⟨_, off, E, F, offs, hc⟩ := history_chain h
    obtain ⟨ld, hld, has⟩ := chain_loadedAs hc (by omega)
    obtain ⟨ld', hld', hx, _⟩ := chain_loads hc (by omega)
    rw [hld] at hld'
    cases hld'
    have hmem : ∀ r : Ref, r ∈ d.objs.map (·.ref) ↔ r = ⟨1, 0⟩ ∨ r = ⟨2, 0⟩ := by intro r; rw [hr]; simp
    obtain ⟨o1, ho1, e1⟩ := List.mem_map.1 ((hmem ⟨1, 0⟩).2 (.inl rfl))
    obtain ⟨o2, ho2, e2⟩ := List.mem_map.1 ((hmem ⟨2, 0⟩).2 (.inr rfl))
    obtain ⟨l1, hl1, _⟩ := has.objs o1 ho1
    obtain ⟨l2, hl2, _⟩ := has.objs o2 ho2
    rw [e1] at hl1
    rw [e2] at hl2
    have hoff : off < file.length := hc.range off hc.mem
    have hpos : 0 < off := hc.pos
    obtain ⟨t, ht, htl⟩ := exClean_length hexFilt file.length off (by omega) hpos (by omega) l1 l2
    refine ⟨file ++ t, exClean off l1 l2, .update (exEnv hexFilt) file d n _ ld _ t h hld ⟨?_, ?_, ?_⟩ ?_ ht ?_, ?_, rfl⟩
    · rw [hx]; rfl
    · intro o ho _
      simp only [exClean, List.mem_cons, List.not_mem_nil, or_false] at ho
      rcases ho with rfl | rfl
      · exact hl1
      · exact hl2
    · intro r x hrx
      obtain ⟨o, ho, e⟩ := has.only r x hrx
      have := (hmem r).1 (e ▸ List.mem_map.2 ⟨o, ho, rfl⟩)
      rcases this with rfl | rfl <;> simp [exClean]
    · exact exClean_canSave _ _ (by omega) _ _
    · rw [List.length_append]; omega
    · rw [List.length_append]; omega

/-- A file with the string `A`. -/
theorem exSecond : ∃ file ld, History file (exDoc 52 true 0 [65]) 0 [49, 46, 52] ∧ file.length < 1000 ∧ loadFile {} file = .ok ld ∧
    ld.get file ⟨2, 0⟩ = some (.ok (.plain (.str [65] false))) ∧
    (∃ l, ld.get file ⟨1, 0⟩ = some (.ok l)) ∧ 0 < ld.xref ∧ ld.xref < 1000 ∧
    (∀ r x, ld.get file r = some x → r = ⟨1, 0⟩ ∨ r = ⟨2, 0⟩) := by
  obtain ⟨t, ht, hl⟩ := exDoc_length hexFilt 52
  have h : History t (exDoc 52 true 0 [65]) 0 [49, 46, 52] :=
    .save _ _ t (exDoc_canSave hexFilt 52 (by decide) (by decide) false true 0 (by omega) [65]) rfl ht (by omega)
  obtain ⟨_, off, E, F, offs, hc⟩ := history_chain h
  obtain ⟨ld, hld, has⟩ := chain_loadedAs hc (by omega)
  obtain ⟨ld', hld', hx, _⟩ := chain_loads hc (by omega)
  rw [hld] at hld'
  cases hld'
  have hr : off < t.length := hc.range off hc.mem
  have hp : 0 < off := hc.pos
  obtain ⟨l2, hl2, hs2⟩ := has.objs ⟨⟨2, 0⟩, .plain (.str [65] false), true⟩ (by simp [exDoc])
  obtain ⟨l1, hl1, _⟩ := has.objs ⟨⟨1, 0⟩, .plain exCatalog, true⟩ (by simp [exDoc])
  refine ⟨t, ld, h, hl, hld, ?_, ⟨l1, hl1⟩, by omega, by omega, ?_⟩
  · cases l2 with
    | plain v => rw [show v = Var.str [65] false from (show Var.str [65] false = v from hs2).symm] at hl2; exact hl2
    | stream s => exact hs2.elim
  · intro r x hrx
    obtain ⟨o, ho, e⟩ := has.only r x hrx
    simp only [exDoc, List.mem_cons, List.not_mem_nil, or_false] at ho
    rcases ho with rfl | rfl
    · exact .inl e.symm
    · exact .inr e.symm

/-! ### C116: save and open -/

/-- C116: a document that is saved and opened again has the same objects under the same references and no others,
the same /Root and /Info, and the right /Size; the version is that of the catalog or else the one of the document.
Missing: reals, streams that the save itself compresses, encryption, tables of 511 runs of numbers and more, files
of 10 GB and more. -/
theorem C116_save_load_partial (env : SaveEnv) (d : SaveIn) (hd : CanSave env false d) (hp : d.prev = 0) :
    ∃ txt, writeFile env false 0 d = .ok txt ∧
      (txt.length < 10000000000 → ∃ ld, loadFile {} txt = .ok ld ∧ LoadedAs txt ld d d.version) := by
  obtain ⟨txt, _, _, _, hw, _⟩ := rev_write env false 0 d hd (by simp)
  refine ⟨txt, hw, fun hlen => ?_⟩
  obtain ⟨off, E, F, offs, h⟩ := chain_save env d txt hd hp hw hlen
  exact chain_loadedAs h (by omega)

example : CanSave (exEnv hexFilt) false (exDoc 52 true 0 [65, 66]) := exDoc_canSave _ _ (by decide) (by decide) _ _ _ (by omega) _

/-- C116 is false of free numbers: each comes back with the next generation. -/
theorem C116_free_generation_false (env : SaveEnv) (d : SaveIn) (hd : CanSave env false d) (hp : d.prev = 0) (txt : Bytes)
    (hw : writeFile env false 0 d = .ok txt) (hlen : txt.length < 10000000000) (f : Ref) (hf : f ∈ d.free)
    (hg : f.gen + 1 < 65535) :
    ∃ ld, loadFile {} txt = .ok ld ∧ f ∉ ld.objs.free ∧ (⟨f.num, f.gen + 1⟩ : Ref) ∈ ld.objs.free := by
  obtain ⟨off, E, F, offs, h⟩ := chain_save env d txt hd hp hw hlen
  obtain ⟨ld, h1, _, _, h2, h3, _⟩ := chain_loads h (by omega)
  obtain ⟨v, hv⟩ := h.frees f hf
  have h1' := h.free f hf
  have hm : f.gen % 65536 = f.gen := Nat.mod_eq_of_lt h1'.2
  refine ⟨ld, h1, fun hc => ?_, ?_⟩
  · have := h2 f hc
    rw [hv] at this
    simp only [freeOf, hm] at this
    rw [if_pos ⟨by omega, hg⟩, List.mem_singleton] at this
    have := congrArg Ref.gen this
    simp at this
  · refine h3 ⟨f.num, f.gen + 1⟩ ⟨v, f.gen, hv⟩ ?_
    show _ ∈ freeOf f.num (E f.num)
    rw [hv]
    simp only [freeOf, hm]
    rw [if_pos ⟨by omega, hg⟩]
    simp

example : (⟨3, 1⟩ : Ref) ∈ (exDoc 52 true 0 [65]).free := by simp [exDoc]

/-! ### C117: updates -/

/-- C117: after a save and up to 126 times opening the file, changing the document and appending an update, opening
the file gives the last document.  Missing: as in C116, and cross-reference streams; see the theorems below. -/
theorem C117_history_partial {file : Bytes} {d : SaveIn} {n : Nat} {v0 : Bytes} (h : History file d n v0)
    (hn : n ≤ 126) : ∃ ld, loadFile {} file = .ok ld ∧ LoadedAs file ld d v0 := by
  obtain ⟨_, off, E, F, offs, hc⟩ := history_chain h
  exact chain_loadedAs hc (by omega)

/-- C117: an update keeps the first string of the file identifier. -/
theorem C117_identifier {file : Bytes} {d : SaveIn} {n : Nat} {v0 : Bytes} (h : History file d n v0) (hn : 1 ≤ n)
    {s : Bytes} {x : Bool} {r : List Var} (hs : SMap.find? kID d.trailer = some (.arr (.str s x :: r))) (hne : s ≠ [])
    {ld : LDoc} (hld : loadFile {} file = .ok ld) :
    ∃ b, SMap.find? kID ld.trailer = some (.arr [.str s true, .str b true]) := by
  obtain ⟨_, off, E, F, offs, hc⟩ := history_chain h
  have hL : n + 1 ≤ 127 := by
    apply Classical.byContradiction
    intro hgt
    have := chain_fails hc (by omega) (by omega)
    rw [hld] at this
    cases this
  obtain ⟨ld', h1, _, _, _, _, h4, _⟩ := chain_loads hc hL
  rw [hld] at h1
  cases h1
  obtain ⟨a, b, hF, ha⟩ := hc.ident
  have := ha (by omega) s x r hs hne
  exact ⟨b, by rw [h4 kID (by decide), hF, this]⟩

example : ∃ file d, History file d 126 [49, 46, 52] := by
  obtain ⟨file, d, h, _⟩ := exHistory 126 (by omega)
  exact ⟨file, d, h⟩

example : ∃ file d, History file d 1 [49, 46, 52] ∧ SMap.find? kID d.trailer = some (.arr [.str [9] false]) := by
  obtain ⟨file, ld, h, hl, hld, h2, ⟨l1, h1⟩, hx0, hx1, honly⟩ := exSecond
  obtain ⟨u, hu, hul⟩ := exClean_length hexFilt file.length ld.xref (by omega) hx0 (by omega) l1 (.plain (.str [65] false))
  refine ⟨file ++ u, exClean ld.xref l1 (.plain (.str [65] false)), .update _ file _ 0 _ ld _ u h hld ⟨rfl, ?_, ?_⟩
    (exClean_canSave hexFilt _ (by omega) _ _) hu ?_, rfl⟩
  · intro o ho _
    simp only [exClean, List.mem_cons, List.not_mem_nil, or_false] at ho
    rcases ho with rfl | rfl
    · exact h1
    · exact h2
  · intro r x hrx
    rcases honly r x hrx with rfl | rfl <;> simp [exClean]
  · simp only [List.length_append]; omega

/-- C117 is false of the 127th update: the file can no longer be opened. -/
theorem C117_update_limit_false {file : Bytes} {d : SaveIn} {v0 : Bytes} (h : History file d 127 v0) :
    loadFile {} file = raise .InvalidXRef := by
  obtain ⟨_, off, E, F, offs, hc⟩ := history_chain h
  exact chain_fails hc (by omega) (by omega)

example : ∃ file d, History file d 127 [49, 46, 52] := by
  obtain ⟨file, d, h, _⟩ := exHistory 127 (by omega)
  exact ⟨file, d, h⟩

/-- What an update leaves in the file for an object that it does not write. -/
def fromFile (file : Bytes) (ld : LDoc) (o : DocObj) : DocObj :=
  if o.dirty then o
  else match ld.get file o.ref with
    | some (.ok x) => { o with obj := x }
    | _ => o

theorem fromFile_ref (file : Bytes) (ld : LDoc) (o : DocObj) : (fromFile file ld o).ref = o.ref := by
  unfold fromFile
  split
  · rfl
  · split <;> rfl

theorem fromFile_dirty (file : Bytes) (ld : LDoc) (o : DocObj) : (fromFile file ld o).dirty = o.dirty := by
  unfold fromFile
  split
  · rfl
  · split <;> rfl

/-- C117 is false of two updates by one program without opening the file in between.  The document was opened from
`file`, a first update `upd1` was appended, and then the program appends a second one: the objects that were written
are clean now, and the offset of the previous table is still the one of `file`.  Then an object that was changed
before the first update only (and is clean in `m`) is found as it was in the original file. -/
theorem C117_second_update_false (env : SaveEnv) {file : Bytes} {d0 : SaveIn} {n : Nat} {v0 : Bytes}
    (h : History file d0 n v0) (hn : n ≤ 125) {ld : LDoc} (hld : loadFile {} file = .ok ld) (upd1 : Bytes) (m : SaveIn)
    (hm : CanSave env true m) (hprev : m.prev = ld.xref)
    (hold : ∀ o ∈ m.objs, o.dirty = false → ∃ x, ld.get file o.ref = some (.ok x))
    (hgone : ∀ r x, ld.get file r = some x → r.num ∈ m.objs.map (·.ref.num) ++ m.free.map (·.num))
    (upd2 : Bytes) (hw : writeFile env true (file ++ upd1).length m = .ok upd2)
    (hlen : (file ++ (upd1 ++ upd2)).length < 10000000000) :
    ∃ ld2, loadFile {} (file ++ (upd1 ++ upd2)) = .ok ld2 ∧
      ∀ o ∈ m.objs, o.dirty = false → ∃ x x', ld.get file o.ref = some (.ok x) ∧
        ld2.get (file ++ (upd1 ++ upd2)) o.ref = some (.ok x') ∧ SameObj x x' := by
  obtain ⟨_, off, E, F, offs, hc⟩ := history_chain h
  obtain ⟨d, hd⟩ : ∃ d : SaveIn, d = { m with objs := m.objs.map (fromFile file ld) } := ⟨_, rfl⟩
  have hrefs : m.objs.map (·.ref) = d.objs.map (·.ref) := by
    rw [hd]; simp [List.map_map, Function.comp_def, fromFile_ref]
  have hnums : d.objs.map (·.ref.num) = m.objs.map (·.ref.num) := by
    rw [hd]; simp [List.map_map, Function.comp_def, fromFile_ref]
  have hW : Writes m d := by
    refine ⟨hrefs, fun o ho => ?_, by rw [hd], by rw [hd], by rw [hd]⟩
    rw [hd]
    constructor
    · intro hmem
      refine List.mem_map.2 ⟨o, hmem, ?_⟩
      rw [fromFile, if_pos ho]
    · intro hmem
      obtain ⟨o', ho', e⟩ := List.mem_map.1 hmem
      have : o'.dirty = true := by rw [← fromFile_dirty file ld o', e, ho]
      rw [fromFile, if_pos this] at e
      rw [← e]; exact ho'
  have hch : ChangeOf file ld d := by
    refine ⟨by rw [hd]; exact hprev, ?_, ?_⟩
    · intro o ho hdirty
      rw [hd] at ho
      obtain ⟨o', ho', e⟩ := List.mem_map.1 ho
      have hd' : o'.dirty = false := by rw [← fromFile_dirty file ld o', e, hdirty]
      obtain ⟨x, hx⟩ := hold o' ho' hd'
      rw [fromFile, if_neg (by rw [hd']; simp), hx] at e
      rw [← e]
      exact hx
    · intro r x hx
      rw [hnums, hd]
      exact hgone r x hx
  obtain ⟨off', E', F', offs', h1, _⟩ := chain_update env hc (by omega) ld hld d m hW hch hm upd1 upd2 hw hlen
  obtain ⟨ld2, h2, h3⟩ := chain_loadedAs h1 (by omega)
  refine ⟨ld2, h2, fun o ho hdirty => ?_⟩
  obtain ⟨x, hx⟩ := hold o ho hdirty
  obtain ⟨l, hl1, hl2⟩ := h3.objs { o with obj := x } (by
    rw [hd]
    refine List.mem_map.2 ⟨o, ho, ?_⟩
    rw [fromFile, if_neg (by rw [hdirty]; simp), hx])
  exact ⟨x, l, hx, hl1, hl2⟩

/-- A document whose string was changed to `B` (the first update is not looked at at all: here it is a comment): after the second update the string is `A` again. -/
example : ∃ file ld m upd2, History file (exDoc 52 true 0 [65]) 0 [49, 46, 52] ∧ loadFile {} file = .ok ld ∧
    CanSave (exEnv hexFilt) true m ∧ m.prev = ld.xref ∧
    (∀ o ∈ m.objs, o.dirty = false → ∃ x, ld.get file o.ref = some (.ok x)) ∧
    (∀ r x, ld.get file r = some x → r.num ∈ m.objs.map (·.ref.num) ++ m.free.map (·.num)) ∧
    writeFile (exEnv hexFilt) true (file ++ [37, 10]).length m = .ok upd2 ∧
    (file ++ ([37, 10] ++ upd2)).length < 10000000000 ∧
    (⟨⟨2, 0⟩, .plain (.str [66] false), false⟩ : DocObj) ∈ m.objs ∧
    ld.get file ⟨2, 0⟩ = some (.ok (.plain (.str [65] false))) := by
  obtain ⟨file, ld, h, hl, hld, h2, ⟨l1, h1⟩, hx0, hx1, honly⟩ := exSecond
  obtain ⟨u, hu, hul⟩ := exClean_length hexFilt (file ++ [37, 10]).length ld.xref
    (by rw [List.length_append]; simp only [List.length_cons, List.length_nil]; omega) hx0 (by omega) l1 (.plain (.str [66] false))
  refine ⟨file, ld, exClean ld.xref l1 (.plain (.str [66] false)), u, h, hld, exClean_canSave _ _ (by omega) _ _, rfl, ?_, ?_,
    hu, ?_, by simp [exClean], h2⟩
  · intro o ho _
    simp only [exClean, List.mem_cons, List.not_mem_nil, or_false] at ho
    rcases ho with rfl | rfl
    · exact ⟨_, h1⟩
    · exact ⟨_, h2⟩
  · intro r x hrx
    rcases honly r x hrx with rfl | rfl <;> simp [exClean]
  · simp only [List.length_append, List.length_cons, List.length_nil]; omega

/-- C117 is false of a new document that is saved and then updated: the offset of the previous table is -1, the
update has no /Prev, and every object that is not written again is lost. -/
theorem C117_update_new_document_false (env env' : SaveEnv) (d0 : SaveIn) (hd0 : CanSave env false d0) (hp0 : d0.prev = 0)
    (file : Bytes) (hw0 : writeFile env false 0 d0 = .ok file) (d : SaveIn) (hd : CanSave env' true d) (hp : d.prev = -1)
    (upd : Bytes) (hw : writeFile env' true file.length d = .ok upd) (hlen : (file ++ upd).length < 10000000000) :
    ∃ ld, loadFile {} (file ++ upd) = .ok ld ∧ ∀ o ∈ d.objs, o.dirty = false → ld.get (file ++ upd) o.ref = none := by
  have hlen' := hlen
  rw [List.length_append] at hlen
  obtain ⟨off0, E0, F0, offs0, h0⟩ := chain_save env d0 file hd0 hp0 hw0 (by omega)
  have hfl : 0 < file.length := by
    have := h0.range off0 h0.mem
    omega
  obtain ⟨txt', off, E, T, h1, h2⟩ := rev_write env' true file.length d hd (fun _ => hfl)
  rw [hw] at h1
  cases h1
  have h := h2 hlen
  have hpn : ¬ d.prev > 0 := by omega
  obtain ⟨size, ids, hids, hT, hs1, hs2⟩ := h.trailer
  obtain ⟨d', hd'⟩ : ∃ d' : SaveIn, d' = { d with objs := d.objs.filter (·.dirty) } := ⟨_, rfl⟩
  have hmem : ∀ o, o ∈ d'.objs ↔ o ∈ d.objs ∧ o.dirty = true := by
    intro o; rw [hd']; exact List.mem_filter
  have hc : ChainOk (file ++ upd) d' 1 d0.version off E (fun q => SMap.find? q T) [off] d.nums := by
    refine ⟨h.pos, by simp, ?_, hlen', Nat.le_refl _, hd0.version, ?_, ?_, ?_, ?_, ?_, ?_, ?_, ?_, ?_, ?_, ?_, ?_, ?_, ?_, ?_⟩
    · intro o ho
      simp only [List.mem_singleton] at ho
      subst ho
      have := h.range
      rw [List.length_append]
      omega
    · obtain ⟨y, hy⟩ := h0.header
      exact ⟨y ++ upd, by rw [← List.append_assoc, ← hy]⟩
    · obtain ⟨b, e, hb1, he, hb2⟩ := h.tail
      exact ⟨file ++ b, e, by rw [List.length_append]; omega, he, by rw [List.append_assoc, ← hb2]⟩
    · intro post fuel k st hv hf hk
      cases fuel with
      | zero => omega
      | succ fuel =>
        obtain ⟨es, k1, k2⟩ := h.read file post fuel (2 * k) st rfl (by omega) (hv off (by simp))
        rw [if_neg hpn] at k2
        obtain ⟨c, hc, hq⟩ := join_find st.trailer T
        rw [List.append_assoc]
        exact ⟨_, k2, k1, c, hc, hq⟩
    · intro post fuel k st hv hf hk
      cases fuel with
      | zero => omega
      | succ fuel => rw [List.append_assoc]; exact h.deep file post fuel (2 * k) st rfl (by omega)
    · intro n e he ht
      obtain ⟨k1, o, ho, hwo, k3, l, k4, k5⟩ := h.inUse n e he ht
      refine ⟨k1, o, (hmem o).2 ⟨ho, by simpa [DocObj.written] using hwo⟩, k3, l, k4, fun post => ?_⟩
      rw [List.append_assoc]
      exact k5 file post rfl
    · intro o ho
      obtain ⟨ho1, ho2⟩ := (hmem o).1 ho
      exact h.writes o ho1 (by simp [DocObj.written, ho2])
    · intro f hf
      exact h.frees f (by rw [hd'] at hf; exact hf)
    · intro o ho
      have := hd.objs o ((hmem o).1 ho).1
      omega
    · intro f hf
      have := hd.free f (by rw [hd'] at hf; exact hf)
      omega
    · rw [hd']
      refine List.Sublist.nodup ?_ hd.distinct
      exact List.Sublist.append (List.Sublist.map _ List.filter_sublist) (List.Sublist.refl _)
    · show SMap.find? kRoot T = _
      rw [hd', hT, fillTrailer_find, if_neg (by decide), if_neg (by decide), if_neg (by decide), if_pos rfl]
    · intro v hv
      show SMap.find? kInfo T = _
      rw [hd'] at hv
      rw [hT, fillTrailer_find, if_neg (by decide), if_neg (by decide), if_pos rfl, hv]
    · show SMap.find? kEncrypt T = _
      rw [hT, fillTrailer_find, if_neg (by decide), if_neg (by decide), if_neg (by decide), if_neg (by decide), if_neg (by decide)]
    · refine ⟨size, ?_, hs1, hs2⟩
      show SMap.find? kSize T = _
      rw [hT, fillTrailer_find, if_neg (by decide), if_neg (by decide), if_neg (by decide), if_neg (by decide), if_pos rfl]
    · refine ⟨(if True ∧ ids.1 ≠ [] then ids.1 else ids.2), ids.2, ?_, fun h => absurd h (by omega)⟩
      show SMap.find? kID T = _
      rw [hT, fillTrailer_find, if_neg (by decide), if_pos rfl]
      simp
  obtain ⟨ld, g1, _, g2, _⟩ := chain_loads hc (by omega)
  refine ⟨ld, g1, fun o ho hdirty => ?_⟩
  cases hg : ld.get (file ++ upd) o.ref with
  | none => rfl
  | some x =>
    exfalso
    obtain ⟨v, k1, _⟩ := get_some hg
    obtain ⟨gen, k2, _⟩ := (g2 _ _).1 k1
    obtain ⟨_, o', ho', k3, _⟩ := hc.inUse _ _ k2 rfl
    obtain ⟨ho1, ho2⟩ := (hmem o').1 ho'
    have := obj_unique hd.distinct ho1 ho (by rw [k3])
    subst this
    rw [hdirty] at ho2
    cases ho2

example : ∃ file d upd, writeFile (exEnv hexFilt) false 0 (exDoc 52 true 0 [65]) = .ok file ∧ CanSave (exEnv hexFilt) true d ∧
    d.prev = -1 ∧ writeFile (exEnv hexFilt) true file.length d = .ok upd ∧ (file ++ upd).length < 10000000000 ∧
    (⟨⟨2, 0⟩, .plain (.str [65] false), false⟩ : DocObj) ∈ d.objs := by
  obtain ⟨t, ht, hl⟩ := exDoc_length hexFilt 52
  obtain ⟨u, hu, hul⟩ := exClean_new_length hexFilt t.length (by omega) (.plain exCatalog) (.plain (.str [65] false))
  exact ⟨t, _, u, ht, exClean_canSave _ _ (by omega) _ _, rfl, hu, by rw [List.length_append]; omega, by simp [exClean]⟩

/-- C117 is false of a removed /Info: it comes back from the older trailer. -/
theorem C117_info_removed_false (env : SaveEnv) {file : Bytes} {d0 : SaveIn} {n : Nat} {v0 : Bytes}
    (h : History file d0 n v0) (hn : n ≤ 125) {ld : LDoc} (hld : loadFile {} file = .ok ld) (d : SaveIn)
    (hch : ChangeOf file ld d) (hd : CanSave env true d) (upd : Bytes)
    (hw : writeFile env true file.length d = .ok upd) (hlen : (file ++ upd).length < 10000000000)
    (hgone : SMap.find? kInfo d.trailer = none) :
    ∃ ld2, loadFile {} (file ++ upd) = .ok ld2 ∧ SMap.find? kInfo ld2.trailer = SMap.find? kInfo ld.trailer := by
  obtain ⟨_, off, E, F, offs, hc⟩ := history_chain h
  obtain ⟨off', E', F', offs', h1, h2⟩ := chain_update env hc (by omega) ld hld d d (.refl d) hch hd [] upd
    (by rw [List.append_nil]; exact hw) hlen
  obtain ⟨ld2, h3, _, _, _, _, h4, _⟩ := chain_loads h1 (by omega)
  exact ⟨ld2, h3, by rw [h4 kInfo (by decide), h2, hgone, Option.none_or]⟩

example : ∃ file ld d upd, History file (exDoc 52 true 0 [65]) 0 [49, 46, 52] ∧ loadFile {} file = .ok ld ∧
    ChangeOf file ld d ∧ CanSave (exEnv hexFilt) true d ∧ writeFile (exEnv hexFilt) true file.length d = .ok upd ∧
    (file ++ upd).length < 10000000000 ∧ SMap.find? kInfo d.trailer = none ∧
    SMap.find? kInfo ld.trailer = some (.dict []) := by
  obtain ⟨file, ld, h, hl, hld, h2, ⟨l1, h1⟩, hx0, hx1, honly⟩ := exSecond
  obtain ⟨u, hu, hul⟩ := exClean_length hexFilt file.length ld.xref (by omega) hx0 (by omega) l1 (.plain (.str [65] false))
  obtain ⟨ld', hld', has⟩ := C117_history_partial h (by omega)
  rw [hld] at hld'
  cases hld'
  refine ⟨file, ld, exClean ld.xref l1 (.plain (.str [65] false)), u, h, hld, ⟨rfl, ?_, ?_⟩, exClean_canSave _ _ (by omega) _ _,
    hu, ?_, rfl, has.info _ rfl⟩
  · intro o ho _
    simp only [exClean, List.mem_cons, List.not_mem_nil, or_false] at ho
    rcases ho with rfl | rfl
    · exact h1
    · exact h2
  · intro r x hrx
    rcases honly r x hrx with rfl | rfl <;> simp [exClean]
  · simp only [List.length_append]; omega

end Pdfmm
