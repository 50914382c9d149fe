import Verif.Fonts.TrueTypeMetrics
set_option autoImplicit false
/-
C134 to C137: the tables of a subset that are copied, what is wrong in the subsets, and fonts that meet the hypotheses of the theorems.
-/
namespace Pdfmm
open Spec (be)

/-! ### C137 -/

theorem tag_cvt : Spec.tag "cvt " = tagCvt := by decide +kernel
theorem tag_fpgm : Spec.tag "fpgm" = tagFpgm := by decide +kernel
theorem tag_prep : Spec.tag "prep" = tagPrep := by decide +kernel

/-- The subset has the tables of the instructions of the font as they are, and the tables `head`, `hhea` and `maxp` with the checksum and the
numbers of metrics and of glyphs replaced. -/
theorem C137_tables_partial {file out : Bytes} {gids : List Nat} (h : ttBuild file gids = .ok out) (hout : out.length < 4294967296) :
    (∀ t ∈ [Spec.tag "cvt ", Spec.tag "fpgm", Spec.tag "prep"], ∀ T, Spec.ttTable file t = some T → Spec.ttTable out t = some T) ∧
      (∀ T, Spec.ttTable file (Spec.tag "hhea") = some T → ∃ w, w.length = 2 ∧ Spec.ttTable out (Spec.tag "hhea") = some (T.take 34 ++ (w ++ T.drop 36))) ∧
      (∀ T, Spec.ttTable file (Spec.tag "maxp") = some T → ∃ w, w.length = 2 ∧ Spec.ttTable out (Spec.tag "maxp") = some (T.take 4 ++ (w ++ T.drop 6))) ∧
      ∀ T, Spec.ttTable file (Spec.tag "head") = some T → ∃ T', Spec.ttTable out (Spec.tag "head") = some T' ∧ T'.length = T.length ∧ T'.drop 8 = T.drop 8 := by
  obtain ⟨f, p, b1, b2, b3⟩ := build_parts h
  have hi := init_spec b1
  rw [tag_cvt, tag_fpgm, tag_prep, tag_hhea, tag_maxp, tag_head]
  refine ⟨fun tg htg T hT => ?_, fun T hT => ?_, fun T hT => ?_, fun T hT => ?_⟩
  · obtain ⟨t, t1, t2, t3⟩ := hi.table tg (by
      simp only [List.mem_cons, List.not_mem_nil, or_false] at htg
      rcases htg with rfl | rfl | rfl <;> decide) T hT
    obtain ⟨b, T', w1, w2, w3, w4, w5⟩ := write_table b3 hout hi.size hi.kept t1
    have e := find_tag t1
    have hne : tg ≠ tagHead ∧ tg ≠ tagMaxp ∧ tg ≠ tagHhea ∧ tg ≠ tagPost ∧ tg ≠ tagGlyf ∧ tg ≠ tagLoca ∧ tg ≠ tagHmtx ∧ (tg = tagCvt ∨ tg = tagFpgm ∨ tg = tagPrep) := by
      simp only [List.mem_cons, List.not_mem_nil, or_false] at htg
      rcases htg with rfl | rfl | rfl <;> decide
    obtain ⟨n1, n2, n3, n4, n5, n6, n7, n8⟩ := hne
    rw [TtFont.body, e, if_neg n1, if_neg n2, if_neg n3, if_neg n4, if_neg n5, if_neg n6, if_neg n7, if_pos n8] at w1
    obtain ⟨r1, r2⟩ := ttRead_inv w1
    obtain ⟨s1, s2, s3⟩ := slice_inv t3
    rw [w2, w4 n1, r2, hi.same, s2]
  · obtain ⟨t, t1, t2, t3⟩ := hi.table tagHhea (by decide) T hT
    obtain ⟨b, T', w1, w2, w3, w4, w5⟩ := write_table b3 hout hi.size hi.kept t1
    have e := find_tag t1
    rw [TtFont.body, e, if_neg (by decide), if_neg (by decide), if_pos rfl] at w1
    obtain ⟨T0, s1, s2, s3⟩ := ttCopied_inv w1
    rw [hi.same, t3] at s1
    cases s1
    exact ⟨_, rfl, by rw [w2, w4 (by decide), s3]; rfl⟩
  · obtain ⟨t, t1, t2, t3⟩ := hi.table tagMaxp (by decide) T hT
    obtain ⟨b, T', w1, w2, w3, w4, w5⟩ := write_table b3 hout hi.size hi.kept t1
    have e := find_tag t1
    rw [TtFont.body, e, if_neg (by decide), if_pos rfl] at w1
    obtain ⟨T0, s1, s2, s3⟩ := ttCopied_inv w1
    rw [hi.same, t3] at s1
    cases s1
    exact ⟨_, rfl, by rw [w2, w4 (by decide), s3]; rfl⟩
  · obtain ⟨t, t1, t2, t3⟩ := hi.table tagHead (by decide) T hT
    obtain ⟨b, T', w1, w2, w3, w4, w5⟩ := write_table b3 hout hi.size hi.kept t1
    have e := find_tag t1
    rw [TtFont.body, e, if_pos rfl] at w1
    obtain ⟨T0, s1, s2, s3⟩ := ttCopied_inv w1
    rw [hi.same, t3] at s1
    cases s1
    have s2' : 8 ≤ T.length := s2
    have hl : (T.take 4).length = 4 := by rw [List.length_take]; omega
    have eb : b = (T.take 4 ++ ttW32 0) ++ T.drop 8 := by rw [s3, List.append_assoc]; rfl
    have hl8 : (T.take 4 ++ ttW32 0).length = 8 := by rw [List.length_append, hl]; rfl
    refine ⟨T', w2, ?_, ?_⟩
    · rw [w3, eb, List.length_append, hl8, List.length_drop]
      omega
    · rw [w5, eb, List.drop_append, List.drop_eq_nil_of_le (as := T.take 4 ++ ttW32 0) (by omega), hl8, Nat.sub_self, List.drop_zero, List.nil_append]

theorem ceilLog2_le (n : Nat) : ceilLog2 n ≤ n.log2 + 1 := by
  rw [ceilLog2]
  split <;> omega

/-- The directory of no subset has the search range that the format asks for: 16 times the greatest power of two that is not greater than the number
of tables. -/
theorem C137_search_range_false {file out : Bytes} {gids : List Nat} (h : ttBuild file gids = .ok out) :
    ∃ n, Spec.beAt out 4 2 = some n ∧ Spec.beAt out 6 2 ≠ some (16 * 2 ^ n.log2) := by
  obtain ⟨f, p, b1, b2, b3⟩ := build_parts h
  have hi := init_spec b1
  obtain ⟨tbs, dir, blocks, w1, w2, w3, w4, w5⟩ := write_layout b3
  refine ⟨f.tables.length, by rw [w3]; exact header_count _ hi.size _, ?_⟩
  rw [w3]
  obtain ⟨n, hn⟩ : ∃ n, n = f.tables.length := ⟨_, rfl⟩
  rw [← hn]
  have e : Spec.beAt (ttHeader n ++ (dir ++ blocks)) 6 2 = some (2 ^ ceilLog2 n % 65536) := by
    rw [ttHeader, show ttW32 0x00010000 ++ ttW16 (n % 65536) ++ ttW16 (2 ^ ceilLog2 n % 65536) ++ ttW16 (ceilLog2 n % 65536) ++
      ttW16 ((16 * (n % 65536) + 4294967296 - 2 ^ ceilLog2 n % 65536) % 65536) ++ (dir ++ blocks) = (ttW32 0x00010000 ++ ttW16 (n % 65536)) ++
      (ttW16 (2 ^ ceilLog2 n % 65536) ++ (ttW16 (ceilLog2 n % 65536) ++
      ttW16 ((16 * (n % 65536) + 4294967296 - 2 ^ ceilLog2 n % 65536) % 65536) ++ (dir ++ blocks))) from by simp only [List.append_assoc]]
    rw [beAt_mid _ _ _ 2 6 rfl rfl, be_W16 _ (Nat.mod_lt _ (by decide))]
  rw [e]
  intro hc
  injection hc with hc
  have hle : 2 ^ ceilLog2 n ≤ 2 ^ (n.log2 + 1) := Nat.pow_le_pow_right (by decide) (ceilLog2_le n)
  have hpos : 0 < 2 ^ n.log2 := Nat.pow_pos (by decide)
  rw [Nat.pow_succ] at hle
  generalize 2 ^ ceilLog2 n = a at *
  generalize 2 ^ n.log2 = b at *
  have := Nat.mod_le a 65536
  omega

/-! ### Fonts -/

/-- A font file with the given tables. -/
def exDir : List (Nat × Bytes) → Nat → Bytes
  | [], _ => []
  | (t, b) :: r, off => ttW32 t ++ ttW32 0 ++ ttW32 off ++ ttW32 b.length ++ exDir r (off + (ttPad b).length)

def exFile (ts : List (Nat × Bytes)) : Bytes :=
  ttW32 0x00010000 ++ ttW16 ts.length ++ List.replicate 6 0 ++ exDir ts (12 + 16 * ts.length) ++ ts.flatMap (fun t => ttPad t.2)

/-- A glyph of twelve bytes, a compound glyph of one component, and another glyph. -/
def exGlyph0 : Bytes := [0, 1, 0, 0, 0, 0, 0, 9, 0, 9, 7, 7]
def exGlyph1 : Bytes := [255, 255, 0, 0, 0, 0, 0, 8, 0, 8, 0, 2, 0, 2, 5, 6]
def exGlyph2 : Bytes := [0, 1, 0, 1, 0, 1, 0, 5, 0, 5, 3, 4]

/-- Tables of a font of three glyphs with `m` full metrics. -/
def exHead : Bytes := List.replicate 54 0
def exHhea (m : Nat) : Bytes := List.replicate 34 0 ++ ttW16 m
def exMaxp (n : Nat) : Bytes := ttW32 0x00010000 ++ ttW16 n
def exGlyf : Bytes := exGlyph0 ++ exGlyph1 ++ exGlyph2
def exLoca : Bytes := ttW16 0 ++ ttW16 6 ++ ttW16 14 ++ ttW16 20
def exHmtx3 : Bytes := ttW16 100 ++ ttW16 1 ++ ttW16 200 ++ ttW16 2 ++ ttW16 300 ++ ttW16 3
def exHmtx2 : Bytes := ttW16 100 ++ ttW16 1 ++ ttW16 200 ++ ttW16 2 ++ ttW16 3

/-- All glyphs have full metrics. -/
def exFontA : Bytes :=
  exFile [(tagFpgm, [1, 2, 3]), (tagGlyf, exGlyf), (tagHead, exHead), (tagHhea, exHhea 3), (tagHmtx, exHmtx3), (tagLoca, exLoca), (tagMaxp, exMaxp 3)]

/-- The last glyph has no full metrics. -/
def exFontB : Bytes := exFile [(tagGlyf, exGlyf), (tagHead, exHead), (tagHhea, exHhea 2), (tagHmtx, exHmtx2), (tagLoca, exLoca), (tagMaxp, exMaxp 3)]

/-- There is no table `hmtx`. -/
def exFontC : Bytes := exFile [(tagGlyf, exGlyf), (tagHead, exHead), (tagHhea, exHhea 3), (tagLoca, exLoca), (tagMaxp, exMaxp 3)]

/-- The last glyph is empty, as a space is, and the table `glyf` is the last one. -/
def exFontD : Bytes :=
  exFile [(tagHead, exHead), (tagHhea, exHhea 3), (tagHmtx, exHmtx3), (tagLoca, ttW16 0 ++ ttW16 6 ++ ttW16 12 ++ ttW16 12), (tagMaxp, exMaxp 3), (tagGlyf, exGlyph0 ++ exGlyph2)]

/-- A test for `Spec.TtValid`. -/
def validB (file : Bytes) : Bool :=
  decide (file.length < 4294967296) &&
    match Spec.ttCount file with
    | none => false
    | some n => (List.range n).all (fun g => match Spec.ttGlyph file g with
      | none => false
      | some b => decide (b = []) || (decide (10 ≤ b.length) && (decide (be (b.take 2) < 32768) || (Spec.ttComps b.length (b.drop 10)).isSome)))

theorem validB_spec {file : Bytes} (h : validB file = true) : Spec.TtValid file := by
  rw [validB, Bool.and_eq_true, decide_eq_true_eq] at h
  refine ⟨h.1, ?_⟩
  cases hc : Spec.ttCount file with
  | none =>
    rw [hc] at h
    cases h.2
  | some n =>
    rw [hc] at h
    refine ⟨n, rfl, fun g hg => ?_⟩
    have := List.all_eq_true.1 h.2 g (List.mem_range.2 hg)
    cases hd : Spec.ttGlyph file g with
    | none =>
      rw [hd] at this
      cases this
    | some b =>
      rw [hd] at this
      refine ⟨b, rfl, ?_⟩
      simp only [Bool.or_eq_true, Bool.and_eq_true, decide_eq_true_eq] at this
      rcases this with e | ⟨e1, e2⟩
      · exact Or.inl e
      · exact Or.inr ⟨e1, fun h => e2.resolve_left (by omega)⟩

theorem exA_valid : Spec.TtValid exFontA := validB_spec (by decide +kernel)

/-- What `ttBuild` gives, as a test. -/
def builtB (file : Bytes) (gids : List Nat) (test : Bytes → Bool) : Bool :=
  match ttBuild file gids with
  | .error _ => false
  | .ok out => test out

theorem builtB_spec {file : Bytes} {gids : List Nat} {test : Bytes → Bool} (h : builtB file gids test = true) : ∃ out, ttBuild file gids = .ok out ∧ test out = true := by
  rw [builtB] at h
  cases hb : ttBuild file gids with
  | error e =>
    rw [hb] at h
    cases h
  | ok out =>
    rw [hb] at h
    exact ⟨out, rfl, h⟩

/-- A font that meets the hypotheses of `C134_same_outlines_partial`, `C136_metrics_partial` and `C137_tables_partial`: the compound glyph 1 is
asked for, the glyph 2 comes with it. -/
example : Spec.TtValid exFontA ∧ [1].Nodup ∧ 0 ∉ [1] ∧ Spec.ttCount exFontA = some 3 ∧ Spec.ttFull exFontA = some 3 ∧
    ∃ out, ttBuild exFontA [1] = .ok out ∧ out.length < 4294967296 ∧ Spec.ttCount out = some 3 ∧ Spec.ttMetrics out 1 = some (200, 2) ∧
      Spec.ttTable out (Spec.tag "fpgm") = some [1, 2, 3] := by
  refine ⟨exA_valid, by decide, by decide, by decide +kernel, by decide +kernel, ?_⟩
  obtain ⟨out, h1, h2⟩ := builtB_spec (file := exFontA) (gids := [1]) (test := fun out => decide (out.length < 4294967296) && decide (Spec.ttCount out = some 3) &&
    decide (Spec.ttMetrics out 1 = some (200, 2)) && decide (Spec.ttTable out (Spec.tag "fpgm") = some [1, 2, 3])) (by decide +kernel)
  simp only [Bool.and_eq_true, decide_eq_true_eq] at h2
  exact ⟨out, h1, h2.1.1.1, h2.1.1.2, h2.1.2, h2.2⟩

/-- C135: the glyphs that are loaded for that list. -/
example : ∃ f m, ttInit exFontA = .ok f ∧ f.loadGlyphs [1] = .ok m ∧ m.map (·.1) = [0, 1, 2] := by
  have : (match ttInit exFontA with
    | .error _ => false
    | .ok f => match f.loadGlyphs [1] with
      | .error _ => false
      | .ok m => decide (m.map (·.1) = [0, 1, 2])) = true := by decide +kernel
  cases hf : ttInit exFontA with
  | error e =>
    rw [hf] at this
    cases this
  | ok f =>
    rw [hf] at this
    dsimp only at this
    cases hm : f.loadGlyphs [1] with
    | error e =>
      rw [hm] at this
      cases this
    | ok m =>
      rw [hm] at this
      exact ⟨f, m, rfl, hm, by simpa using this⟩

/-- The subset need not have as many glyphs as are asked for when the list names the glyph 0. -/
theorem C134_zero_false : ∃ file out, Spec.TtValid file ∧ ttBuild file [0, 2] = .ok out ∧ out.length < 4294967296 ∧ Spec.ttCount out = some 2 := by
  obtain ⟨out, h1, h2⟩ := builtB_spec (file := exFontA) (gids := [0, 2]) (test := fun out => decide (out.length < 4294967296) && decide (Spec.ttCount out = some 2)) (by decide +kernel)
  simp only [Bool.and_eq_true, decide_eq_true_eq] at h2
  exact ⟨exFontA, out, exA_valid, h1, h2.1, h2.2⟩

/-- A compound glyph with one component that is a simple glyph. -/
def onePart : Spec.Outline → Bool
  | .compound _ [(_, _, .simple _)] _ => true
  | _ => false

/-- When the list names a glyph twice, the components of compound glyphs may become others. -/
theorem C134_twice_false : ∃ file out, Spec.TtValid file ∧ ttBuild file [1, 1] = .ok out ∧ out.length < 4294967296 ∧
    Spec.outline (Spec.ttGlyph out) 5 1 ≠ Spec.outline (Spec.ttGlyph file) 5 1 := by
  obtain ⟨out, h1, h2⟩ := builtB_spec (file := exFontA) (gids := [1, 1]) (test := fun out => decide (out.length < 4294967296) &&
    !(onePart (Spec.outline (Spec.ttGlyph out) 5 1))) (by decide +kernel)
  rw [Bool.and_eq_true, decide_eq_true_eq] at h2
  refine ⟨exFontA, out, exA_valid, h1, h2.1, fun e => ?_⟩
  have : onePart (Spec.outline (Spec.ttGlyph exFontA) 5 1) = true := by decide +kernel
  rw [e, this] at h2
  cases h2.2

/-- There is a font that is not damaged, with an empty glyph, from which no subset with that glyph is made. -/
theorem C134_empty_false : ∃ file, Spec.TtValid file ∧ Spec.ttGlyph file 2 = some [] ∧ ttBuild file [2] = raise .UnexpectedEOF := by
  have : (match ttBuild exFontD [2] with
    | .error (.error .UnexpectedEOF) => true
    | _ => false) = true := by decide +kernel
  refine ⟨exFontD, validB_spec (by decide +kernel), by decide +kernel, ?_⟩
  split at this
  · next h => exact h
  · cases this

example : Spec.ttFull exFontB = some 2 ∧ Spec.ttMetrics exFontB 2 = some (200, 3) ∧ Spec.ttMetrics exFontB 1 = some (200, 2) := by decide +kernel

/-- The hypotheses of `C136_metrics_false` are met: the glyph 2, which has the bearing 3, gets the bearing of the glyph 1. -/
example : ∃ out, ttBuild exFontB ([] ++ 2 :: ([] ++ 1 :: [])) = .ok out ∧ out.length < 4294967296 ∧ Spec.ttMetrics exFontB 2 = some (200, 3) ∧
    Spec.ttMetrics out 1 = some (200, 2) := by
  obtain ⟨out, h1, h2⟩ := builtB_spec (file := exFontB) (gids := [2, 1]) (test := fun out => decide (out.length < 4294967296) && decide (Spec.ttMetrics out 1 = some (200, 2)))
    (by decide +kernel)
  simp only [Bool.and_eq_true, decide_eq_true_eq] at h2
  exact ⟨out, h1, h2.1, by decide +kernel, h2.2⟩

/-- A font without metrics is taken, and so is the subset. -/
theorem C137_missing_false : ∃ file out, Spec.TtValid file ∧ Spec.ttTable file (Spec.tag "hmtx") = none ∧ ttBuild file [1] = .ok out ∧
    Spec.ttTable out (Spec.tag "hmtx") = none := by
  obtain ⟨out, h1, h2⟩ := builtB_spec (file := exFontC) (gids := [1]) (test := fun out => decide (Spec.ttTable out (Spec.tag "hmtx") = none)) (by decide +kernel)
  rw [decide_eq_true_eq] at h2
  exact ⟨exFontC, out, validB_spec (by decide +kernel), by decide +kernel, h1, h2⟩

namespace Spec

/-- The sum of the words of some data. -/
def wordSum : Nat → Bytes → Nat
  | 0, _ => 0
  | k + 1, b => be (b.take 4) * 256 ^ (4 - (b.take 4).length) + wordSum k (b.drop 4)

/-- The checksum of a table as the format defines it: the sum of its words, with zeros after the end. -/
def ttSum (b : Bytes) : Nat := wordSum ((b.length + 3) / 4) b % 4294967296

/-- The checksum in the directory. -/
def ttDirSum (file : Bytes) (tag : Nat) : Option Nat :=
  (beAt file 4 2).bind (fun n => (ttFind file tag n 0).bind (fun i => beAt file (12 + 16 * i + 4) 4))

end Spec

/-- The checksums in the directory are not those of the tables. -/
theorem C137_checksum_false : ∃ file out T, Spec.TtValid file ∧ ttBuild file [1] = .ok out ∧ Spec.ttTable out (Spec.tag "hmtx") = some T ∧
    Spec.ttDirSum out (Spec.tag "hmtx") ≠ some (Spec.ttSum T) := by
  obtain ⟨out, h1, h2⟩ := builtB_spec (file := exFontA) (gids := [1]) (test := fun out => match Spec.ttTable out (Spec.tag "hmtx") with
    | none => false
    | some T => decide (Spec.ttDirSum out (Spec.tag "hmtx") ≠ some (Spec.ttSum T))) (by decide +kernel)
  cases hT : Spec.ttTable out (Spec.tag "hmtx") with
  | none =>
    rw [hT] at h2
    cases h2
  | some T =>
    rw [hT] at h2
    exact ⟨exFontA, out, T, exA_valid, h1, hT, by simpa using h2⟩

end Pdfmm
