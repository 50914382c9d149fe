import Verif.Fonts.TrueTypeTables
set_option autoImplicit false
/-
C134, C137: the file of a subset of a TrueType font.
-/
namespace Pdfmm
namespace Spec

/-- The first of the `n` entries of the table directory from the entry `i` on that has the tag. -/
def ttFind (file : Bytes) (tag : Nat) : Nat → Nat → Option Nat
  | 0, _ => none
  | n + 1, i => if beAt file (12 + 16 * i) 4 = some tag then some i else ttFind file tag n (i + 1)

/-- The bytes of a file from an offset on. -/
def slice (file : Bytes) (off len : Nat) : Option Bytes := if off + len ≤ file.length then some ((file.drop off).take len) else none

/-- A table of a font file: found in the table directory, all of it within the file. -/
def ttTable (file : Bytes) (tag : Nat) : Option Bytes :=
  match beAt file 4 2 with
  | none => none
  | some n =>
    match ttFind file tag n 0 with
    | none => none
    | some i =>
      match beAt file (12 + 16 * i + 8) 4, beAt file (12 + 16 * i + 12) 4 with
      | some off, some len => slice file off len
      | _, _ => none

/-- The tags of tables: the four characters as a number. -/
def tag (s : String) : Nat := be (s.toList.map (fun c => UInt8.ofNat c.toNat))

/-- The number of glyphs of a font. -/
def ttCount (file : Bytes) : Option Nat := (ttTable file (tag "maxp")).bind (fun t => beAt t 4 2)

/-- Whether the table `loca` has the long format. -/
def ttLong (file : Bytes) : Option Bool := ((ttTable file (tag "head")).bind (fun t => beAt t 50 2)).map (fun n => decide (n ≠ 0))

/-- The data of a glyph of a font. -/
def ttGlyph (file : Bytes) (i : Nat) : Option Bytes :=
  match ttTable file (tag "glyf"), ttTable file (tag "loca"), ttLong file with
  | some glyf, some loca, some long => ttGlyphOf glyf loca long i
  | _, _, _ => none

/-- A font file that is not damaged: smaller than 4 GB, with all glyphs, none of them damaged. -/
def TtValid (file : Bytes) : Prop :=
  file.length < 4294967296 ∧ ∃ n, ttCount file = some n ∧ ∀ g, g < n → ∃ data, ttGlyph file g = some data ∧ GlyphOk data

end Spec

open Spec (be)

theorem tag_glyf : Spec.tag "glyf" = tagGlyf := by decide +kernel
theorem tag_loca : Spec.tag "loca" = tagLoca := by decide +kernel
theorem tag_head : Spec.tag "head" = tagHead := by decide +kernel
theorem tag_maxp : Spec.tag "maxp" = tagMaxp := by decide +kernel
theorem tag_hhea : Spec.tag "hhea" = tagHhea := by decide +kernel
theorem tag_hmtx : Spec.tag "hmtx" = tagHmtx := by decide +kernel

/-! ### Reading the directory -/

theorem ttU32_beAt {file : Bytes} {off n : Nat} (h : ttU32 file off = .ok n) : Spec.beAt file off 4 = some n := by
  rw [ttU32] at h
  cases hr : ttRead file off 4 with
  | error e =>
    rw [hr] at h
    cases h
  | ok b =>
    rw [hr] at h
    cases h
    obtain ⟨a, c⟩ := ttRead_inv hr
    rw [Spec.beAt, if_pos a, ttNat_be, c]

theorem ttU16_beAt {file : Bytes} {off n : Nat} (h : ttU16 file off = .ok n) : Spec.beAt file off 2 = some n := by
  have a := ttU16_bound h
  rw [ttU16_ok a] at h
  cases h
  rw [Spec.beAt, if_pos a]

theorem beAt_ttU16 {file : Bytes} {off n : Nat} (h : Spec.beAt file off 2 = some n) : ttU16 file off = .ok n := by
  rw [Spec.beAt] at h
  by_cases a : off + 2 ≤ file.length
  · rw [if_pos a] at h
    cases h
    exact ttU16_ok a
  · rw [if_neg a] at h
    cases h

theorem beAt_ttU32 {file : Bytes} {off n : Nat} (h : Spec.beAt file off 4 = some n) : ttU32 file off = .ok n := by
  rw [Spec.beAt] at h
  by_cases a : off + 4 ≤ file.length
  · rw [if_pos a] at h
    cases h
    exact ttU32_ok a
  · rw [if_neg a] at h
    cases h

theorem ttEntry_inv {file : Bytes} {i : Nat} {t : TtTable} (h : ttEntry file i = .ok t) :
    Spec.beAt file (12 + 16 * i) 4 = some t.tag ∧ Spec.beAt file (12 + 16 * i + 8) 4 = some t.off ∧ Spec.beAt file (12 + 16 * i + 12) 4 = some t.len := by
  rw [ttEntry] at h
  cases h1 : ttU32 file (12 + 16 * i) with
  | error e =>
    rw [h1] at h
    cases h
  | ok a =>
    rw [h1] at h
    dsimp only at h
    cases h2 : ttU32 file (12 + 16 * i + 4) with
    | error e =>
      rw [h2] at h
      cases h
    | ok b =>
      rw [h2] at h
      dsimp only at h
      cases h3 : ttU32 file (12 + 16 * i + 8) with
      | error e =>
        rw [h3] at h
        cases h
      | ok c =>
        rw [h3] at h
        dsimp only at h
        cases h4 : ttU32 file (12 + 16 * i + 12) with
        | error e =>
          rw [h4] at h
          cases h
        | ok d =>
          rw [h4] at h
          cases h
          exact ⟨ttU32_beAt h1, ttU32_beAt h3, ttU32_beAt h4⟩

theorem ttEntries_find {file : Bytes} (tag : Nat) (n : Nat) : ∀ i all, ttEntries file n i = .ok all → ∀ j, Spec.ttFind file tag n i = some j →
    ∃ t, all.find? (fun (t : TtTable) => t.tag == tag) = some t ∧ Spec.beAt file (12 + 16 * j + 8) 4 = some t.off ∧ Spec.beAt file (12 + 16 * j + 12) 4 = some t.len := by
  induction n with
  | zero =>
    intro i all _ j hj
    cases hj
  | succ n ih =>
    intro i all h j hj
    rw [ttEntries] at h
    cases h1 : ttEntry file i with
    | error e =>
      rw [h1] at h
      cases h
    | ok t =>
      rw [h1] at h
      dsimp only at h
      cases h2 : ttEntries file n (i + 1) with
      | error e =>
        rw [h2] at h
        cases h
      | ok r =>
        rw [h2] at h
        cases h
        obtain ⟨e1, e2, e3⟩ := ttEntry_inv h1
        rw [Spec.ttFind, e1] at hj
        by_cases ht : t.tag = tag
        · rw [if_pos (by rw [ht])] at hj
          cases hj
          refine ⟨t, ?_, e2, e3⟩
          rw [List.find?_cons]
          simp [ht]
        · rw [if_neg (by simp [ht])] at hj
          obtain ⟨t', k1, k2⟩ := ih (i + 1) r h2 j hj
          refine ⟨t', ?_, k2⟩
          rw [List.find?_cons]
          have : (t.tag == tag) = false := by simp [ht]
          rw [this]
          exact k1

theorem ttKeep_tag {t t' : TtTable} (h : ttKeep t = some t') : t'.tag = t.tag := by
  rw [ttKeep] at h
  split at h
  · cases h
    rfl
  · split at h
    · split at h
      · cases h
      · cases h
        rfl
    · cases h

/-- The tables that are kept as they are in the directory. -/
def ttWhole : List Nat := ttRequired ++ [tagCvt, tagFpgm, tagPrep]

theorem ttKeep_required {t : TtTable} (h : t.tag ∈ ttWhole) : ttKeep t = some t := by
  rw [ttKeep, if_pos (by simpa [ttWhole] using h)]

theorem find_keep (tag : Nat) (htag : tag ∈ ttWhole) (all : List TtTable) :
    (all.filterMap ttKeep).find? (fun (t : TtTable) => t.tag == tag) = all.find? (fun (t : TtTable) => t.tag == tag) := by
  induction all with
  | nil => rfl
  | cons t r ih =>
    rw [List.filterMap_cons, List.find?_cons (as := r)]
    by_cases ht : t.tag = tag
    · rw [ttKeep_required (by rw [ht]; exact htag)]
      simp [ht]
    · have hb : (t.tag == tag) = false := by simp [ht]
      rw [hb]
      dsimp only
      cases hk : ttKeep t with
      | none => exact ih
      | some t' =>
        dsimp only
        rw [List.find?_cons]
        have : (t'.tag == tag) = false := by rw [ttKeep_tag hk]; exact hb
        rw [this]
        exact ih

/-- What is known after `Init`. -/
structure InitSpec (file : Bytes) (f : TtFont) : Prop where
  same : f.file = file
  kept : ∀ t ∈ f.tables, t.tag < 4294967296
  size : f.tables.length < 65536
  table : ∀ tag ∈ ttWhole, ∀ T, Spec.ttTable file tag = some T → ∃ t, f.tables.find? (fun (t : TtTable) => t.tag == tag) = some t ∧
    t.len = T.length ∧ Spec.slice file t.off t.len = some T
  offset : ∀ tag ∈ ttRequired, ∀ t, f.tables.find? (fun (t : TtTable) => t.tag == tag) = some t → ttOffset f.tables tag = .ok t.off
  maxp : ∃ o, ttOffset f.tables tagMaxp = .ok o ∧ ttU16 file (o + 4) = .ok f.count
  hhea : ∃ o, ttOffset f.tables tagHhea = .ok o ∧ ttU16 file (o + 34) = .ok f.hmCount
  head : ∃ o n, ttOffset f.tables tagHead = .ok o ∧ ttU16 file (o + 50) = .ok n ∧ f.long = decide (n ≠ 0)
  glyf : ttOffset f.tables tagGlyf = .ok f.glyf
  loca : ttOffset f.tables tagLoca = .ok f.loca

theorem ttEntries_tags {file : Bytes} (n : Nat) : ∀ i all, ttEntries file n i = .ok all → all.length = n := by
  induction n with
  | zero =>
    intro i all h
    cases h
    rfl
  | succ n ih =>
    intro i all h
    rw [ttEntries] at h
    cases h1 : ttEntry file i with
    | error e =>
      rw [h1] at h
      cases h
    | ok t =>
      rw [h1] at h
      dsimp only at h
      cases h2 : ttEntries file n (i + 1) with
      | error e =>
        rw [h2] at h
        cases h
      | ok r =>
        rw [h2] at h
        cases h
        rw [List.length_cons, ih _ _ h2]

theorem ttKeep_lt {t t' : TtTable} (h : ttKeep t = some t') : t'.tag < 4294967296 := by
  rw [ttKeep_tag h]
  rw [ttKeep] at h
  by_cases h1 : t.tag ∈ ttRequired ∨ t.tag = tagCvt ∨ t.tag = tagFpgm ∨ t.tag = tagPrep
  · rcases h1 with h1 | h1 | h1 | h1
    · simp only [ttRequired, List.mem_cons, List.not_mem_nil, or_false] at h1
      rcases h1 with h1 | h1 | h1 | h1 | h1 | h1 <;> rw [h1] <;> decide
    · rw [h1]; decide
    · rw [h1]; decide
    · rw [h1]; decide
  · rw [if_neg h1] at h
    by_cases h2 : t.tag = tagPost
    · rw [h2]; decide
    · rw [if_neg h2] at h
      cases h

theorem be16_lt {file : Bytes} {off n : Nat} (h : ttU16 file off = .ok n) : n < 65536 := by
  have a := ttU16_bound h
  rw [ttU16_ok a] at h
  cases h
  have := be_lt ((file.drop off).take 2)
  rw [show ((file.drop off).take 2).length = 2 from by rw [List.length_take, List.length_drop]; omega] at this
  exact this

theorem init_spec {file : Bytes} {f : TtFont} (h : ttInit file = .ok f) : InitSpec file f := by
  rw [ttInit] at h
  cases ht : ttTables file with
  | error e =>
    rw [ht] at h
    cases h
  | ok ts =>
    rw [ht] at h
    dsimp only at h
    cases h1 : ttOffset ts tagMaxp with
    | error e =>
      rw [h1] at h
      cases h
    | ok maxp =>
      rw [h1] at h
      dsimp only at h
      cases h2 : ttU16 file (maxp + 4) with
      | error e =>
        rw [h2] at h
        cases h
      | ok count =>
        rw [h2] at h
        dsimp only at h
        cases h3 : ttOffset ts tagHhea with
        | error e =>
          rw [h3] at h
          cases h
        | ok hhea =>
          rw [h3] at h
          dsimp only at h
          cases h4 : ttU16 file (hhea + 34) with
          | error e =>
            rw [h4] at h
            cases h
          | ok hm =>
            rw [h4] at h
            dsimp only at h
            cases h5 : ttOffset ts tagHead with
            | error e =>
              rw [h5] at h
              cases h
            | ok head =>
              rw [h5] at h
              dsimp only at h
              cases h6 : ttU16 file (head + 50) with
              | error e =>
                rw [h6] at h
                cases h
              | ok long =>
                rw [h6] at h
                dsimp only at h
                cases h7 : ttOffset ts tagGlyf with
                | error e =>
                  rw [h7] at h
                  cases h
                | ok glyf =>
                  rw [h7] at h
                  dsimp only at h
                  cases h8 : ttOffset ts tagLoca with
                  | error e =>
                    rw [h8] at h
                    cases h
                  | ok loca =>
                    rw [h8] at h
                    cases h
                    rw [ttTables] at ht
                    cases hn : ttU16 file 4 with
                    | error e =>
                      rw [hn] at ht
                      cases ht
                    | ok n =>
                      rw [hn] at ht
                      dsimp only at ht
                      cases he : ttEntries file n 0 with
                      | error e =>
                        rw [he] at ht
                        cases ht
                      | ok all =>
                        rw [he] at ht
                        dsimp only at ht
                        split at ht
                        · cases ht
                        · cases ht
                          have hoff : ∀ tag ∈ ttRequired, ∀ t, (all.filterMap ttKeep).find? (fun (t : TtTable) => t.tag == tag) = some t → ttOffset (all.filterMap ttKeep) tag = .ok t.off := by
                            intro tag _ t hf
                            rw [ttOffset, hf]
                          refine ⟨rfl, ?_, ?_, ?_, hoff, ⟨maxp, h1, h2⟩, ⟨hhea, h3, h4⟩, ⟨head, long, h5, h6, rfl⟩, h7, h8⟩
                          · intro t ht
                            obtain ⟨t0, _, hk⟩ := List.mem_filterMap.1 ht
                            exact ttKeep_lt hk
                          · refine Nat.lt_of_le_of_lt (List.length_filterMap_le _ _) ?_
                            rw [ttEntries_tags _ _ _ he]
                            exact be16_lt hn
                          · intro tag htag T hT
                            rw [Spec.ttTable, ttU16_beAt hn] at hT
                            dsimp only at hT
                            cases hj : Spec.ttFind file tag n 0 with
                            | none =>
                              rw [hj] at hT
                              cases hT
                            | some j =>
                              rw [hj] at hT
                              dsimp only at hT
                              obtain ⟨t, k1, k2, k3⟩ := ttEntries_find tag n 0 all he j hj
                              rw [k2, k3] at hT
                              dsimp only at hT
                              refine ⟨t, by rw [find_keep tag htag]; exact k1, ?_, hT⟩
                              rw [Spec.slice] at hT
                              by_cases hb : t.off + t.len ≤ file.length
                              · rw [if_pos hb] at hT
                                cases hT
                                rw [List.length_take, List.length_drop]
                                omega
                              · rw [if_neg hb] at hT
                                cases hT

/-! ### Parts of tables -/

theorem slice_inv {file T : Bytes} {off len : Nat} (h : Spec.slice file off len = some T) : off + len ≤ file.length ∧ T = (file.drop off).take len ∧ T.length = len := by
  rw [Spec.slice] at h
  by_cases hb : off + len ≤ file.length
  · rw [if_pos hb] at h
    cases h
    refine ⟨hb, rfl, ?_⟩
    rw [List.length_take, List.length_drop]
    omega
  · rw [if_neg hb] at h
    cases h

theorem beAt_slice {file T : Bytes} {off len k n v : Nat} (h : Spec.slice file off len = some T) (hv : Spec.beAt T k n = some v) :
    Spec.beAt file (off + k) n = some v := by
  obtain ⟨h1, h2, h3⟩ := slice_inv h
  rw [Spec.beAt] at hv
  by_cases hb : k + n ≤ T.length
  · rw [if_pos hb] at hv
    cases hv
    rw [Spec.beAt, if_pos (by omega), h2, List.drop_take, List.drop_drop, List.take_take, Nat.min_eq_left (by omega)]
  · rw [if_neg hb] at hv
    cases hv

/-- The glyphs of a font that is not damaged. -/
theorem oldGlyphs {file : Bytes} {f : TtFont} (hi : InitSpec file f) (hv : Spec.TtValid file) : OldGlyphs f (Spec.ttGlyph file) := by
  obtain ⟨_, n, hn, hall⟩ := hv
  have hcount : f.count = n := by
    rw [Spec.ttCount, tag_maxp] at hn
    cases hT : Spec.ttTable file tagMaxp with
    | none =>
      rw [hT] at hn
      cases hn
    | some T =>
      rw [hT] at hn
      obtain ⟨t, k1, k2, k3⟩ := hi.table tagMaxp (by decide) T hT
      obtain ⟨o, m1, m2⟩ := hi.maxp
      rw [hi.offset tagMaxp (by decide) t k1] at m1
      cases m1
      have := beAt_ttU16 (beAt_slice k3 hn)
      rw [m2] at this
      cases this
      rfl
  intro g hg
  obtain ⟨data, hd, hok⟩ := hall g (by omega)
  rw [Spec.ttGlyph, tag_glyf, tag_loca] at hd
  cases hG : Spec.ttTable file tagGlyf with
  | none =>
    rw [hG] at hd
    cases hd
  | some G =>
    cases hL : Spec.ttTable file tagLoca with
    | none =>
      rw [hG, hL] at hd
      cases hd
    | some L =>
      cases hlo : Spec.ttLong file with
      | none =>
        rw [hG, hL, hlo] at hd
        cases hd
      | some long =>
        rw [hG, hL, hlo] at hd
        dsimp only at hd
        obtain ⟨tg, g1, g2, g3⟩ := hi.table tagGlyf (by decide) G hG
        obtain ⟨tl, l1, l2, l3⟩ := hi.table tagLoca (by decide) L hL
        have eg := hi.offset tagGlyf (by decide) tg g1
        rw [hi.glyf] at eg
        have el := hi.offset tagLoca (by decide) tl l1
        rw [hi.loca] at el
        have eg' : f.glyf = tg.off := by injection eg
        have el' : f.loca = tl.off := by injection el
        have hlong : f.long = long := by
          rw [Spec.ttLong, tag_head] at hlo
          cases hT : Spec.ttTable file tagHead with
          | none =>
            rw [hT] at hlo
            cases hlo
          | some T =>
            rw [hT] at hlo
            obtain ⟨t, k1, k2, k3⟩ := hi.table tagHead (by decide) T hT
            obtain ⟨o, m, m1, m2, m3⟩ := hi.head
            rw [hi.offset tagHead (by decide) t k1] at m1
            cases m1
            simp only [Option.bind_some] at hlo
            cases hb : Spec.beAt T 50 2 with
            | none =>
              rw [hb] at hlo
              cases hlo
            | some v =>
              rw [hb] at hlo
              cases hlo
              have := beAt_ttU16 (beAt_slice k3 hb)
              rw [m2] at this
              cases this
              exact m3
        rw [Spec.ttGlyphOf] at hd
        have hloca : ∀ i a, Spec.ttLocaEntry L long i = some a → f.locaAt i = .ok a := by
          intro i a ha
          rw [TtFont.locaAt, hlong, hi.same, el']
          rw [Spec.ttLocaEntry] at ha
          cases long with
          | true =>
            simp only [if_true] at ha ⊢
            exact beAt_ttU32 (beAt_slice l3 ha)
          | false =>
            simp only [Bool.false_eq_true, if_false] at ha ⊢
            cases hb : Spec.beAt L (2 * i) 2 with
            | none =>
              rw [hb] at ha
              cases ha
            | some v =>
              rw [hb] at ha
              cases ha
              rw [beAt_ttU16 (beAt_slice l3 hb)]
        cases ha : Spec.ttLocaEntry L long g with
        | none =>
          rw [ha] at hd
          cases hd
        | some a =>
          cases hb : Spec.ttLocaEntry L long (g + 1) with
          | none =>
            rw [ha, hb] at hd
            cases hd
          | some b =>
            rw [ha, hb] at hd
            dsimp only at hd
            by_cases hc : a ≤ b ∧ b ≤ G.length
            · rw [if_pos hc] at hd
              cases hd
              obtain ⟨s1, s2, s3⟩ := slice_inv g3
              have hlen : ((G.drop a).take (b - a)).length = b - a := by
                rw [List.length_take, List.length_drop]
                omega
              refine ⟨a, (G.drop a).take (b - a), hloca g a ha, ?_, ?_, ?_, ?_, hok⟩
              · rw [hlen, hloca (g + 1) b hb]
                congr 1
                omega
              · rw [hlen, hi.same, eg']
                omega
              · rw [hlen, hi.same, eg']
                conv => lhs; rw [s2, List.drop_take, List.drop_drop, List.take_take, Nat.min_eq_left (by omega)]
              · rw [Spec.ttGlyph, tag_glyf, tag_loca, hG, hL, hlo]
                dsimp only
                rw [Spec.ttGlyphOf, ha, hb]
                dsimp only
                rw [if_pos hc]
            · rw [if_neg hc] at hd
              cases hd

end Pdfmm
