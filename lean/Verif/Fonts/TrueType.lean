import Verif.Fonts.TrueTypeWrite
set_option autoImplicit false
/-
C134, C136, C137: subsets of TrueType fonts.
-/
namespace Pdfmm
open Spec (be)

/-! ### C134 -/

theorem beAt_drop (T : Bytes) (k n m : Nat) (h : m ≤ T.length) : Spec.beAt T (m + k) n = Spec.beAt (T.drop m) k n := by
  rw [Spec.beAt, Spec.beAt, List.drop_drop, List.length_drop]
  by_cases hk : m + k + n ≤ T.length
  · rw [if_pos hk, if_pos (by omega)]
  · rw [if_neg hk, if_neg (by omega)]

theorem ttCopied_inv {file : Bytes} {t : TtTable} {k : Nat} {w b : Bytes} (h : ttCopied file t k w = .ok b) : ∃ T, Spec.slice file t.off t.len = some T ∧
    k + w.length ≤ T.length ∧ b = T.take k ++ (w ++ T.drop (k + w.length)) := by
  rw [ttCopied] at h
  cases hr : ttRead file t.off t.len with
  | error e =>
    rw [hr] at h
    cases h
  | ok T =>
    rw [hr] at h
    dsimp only at h
    obtain ⟨a, c⟩ := ttRead_inv hr
    rw [ttOver] at h
    by_cases hb : k + w.length > T.length
    · rw [if_pos hb] at h
      cases h
    · rw [if_neg hb] at h
      cases h
      refine ⟨T, ?_, by omega, by rw [List.append_assoc]⟩
      rw [Spec.slice, if_pos a, c]

theorem copied_at {T w : Bytes} {k : Nat} (h : k + w.length ≤ T.length) : Spec.beAt (T.take k ++ (w ++ T.drop (k + w.length))) k w.length = some (be w) := by
  have hk : (T.take k).length = k := by rw [List.length_take]; omega
  exact beAt_mid _ _ _ _ _ hk.symm rfl

theorem copied_behind {T w : Bytes} {k n : Nat} (h : k + w.length ≤ T.length) (j : Nat) :
    Spec.beAt (T.take k ++ (w ++ T.drop (k + w.length))) (k + w.length + j) n = Spec.beAt T (k + w.length + j) n := by
  have hk : (T.take k).length = k := by rw [List.length_take]; omega
  rw [beAt_drop _ _ _ _ h, beAt_drop _ _ _ _ (by simp only [List.length_append, hk]; omega)]
  rw [show T.take k ++ (w ++ T.drop (k + w.length)) = (T.take k ++ w) ++ T.drop (k + w.length) from by rw [List.append_assoc]]
  rw [List.drop_append, List.drop_eq_nil_of_le (by rw [List.length_append, hk]; omega), List.nil_append, List.length_append, hk, Nat.sub_self, List.drop_zero]

/-- The parts of `ttBuild`. -/
theorem build_parts {file out : Bytes} {gids : List Nat} (h : ttBuild file gids = .ok out) : ∃ f p, ttInit file = .ok f ∧ f.plan gids = .ok p ∧ f.write p = .ok out := by
  rw [ttBuild] at h
  cases hf : ttInit file with
  | error e =>
    rw [hf] at h
    cases h
  | ok f =>
    rw [hf] at h
    dsimp only at h
    cases hp : f.plan gids with
    | error e =>
      rw [hp] at h
      cases h
    | ok p =>
      rw [hp] at h
      exact ⟨f, p, rfl, hp, h⟩

theorem init_count {file : Bytes} {f : TtFont} (hi : InitSpec file f) : f.count < 65536 := by
  obtain ⟨o, _, h⟩ := hi.maxp
  exact be16_lt h

theorem init_count_eq {file : Bytes} {f : TtFont} {n : Nat} (hi : InitSpec file f) (hn : Spec.ttCount file = some n) : f.count = n := by
  rw [Spec.ttCount, tag_maxp] at hn
  cases hT : Spec.ttTable file tagMaxp with
  | none =>
    rw [hT] at hn
    cases hn
  | some T =>
    rw [hT] at hn
    obtain ⟨t, k1, k2, k3⟩ := hi.table tagMaxp (by decide) T hT
    obtain ⟨o, q1, q2⟩ := hi.maxp
    rw [hi.offset tagMaxp (by decide) t k1] at q1
    cases q1
    have := beAt_ttU16 (beAt_slice k3 hn)
    rw [q2] at this
    injection this

theorem long_of_glyph {file data : Bytes} {g : Nat} (hd : Spec.ttGlyph file g = some data) : ∃ l, Spec.ttLong file = some l := by
  rw [Spec.ttGlyph] at hd
  cases hh : Spec.ttLong file with
  | some l => exact ⟨l, rfl⟩
  | none =>
    rw [hh] at hd
    generalize Spec.ttTable file (Spec.tag "glyf") = a at hd
    generalize Spec.ttTable file (Spec.tag "loca") = b at hd
    cases a <;> cases b <;> cases hd

theorem find_of_offset {ts : List TtTable} {tag o : Nat} (h : ttOffset ts tag = .ok o) : ∃ t, ts.find? (fun (t : TtTable) => t.tag == tag) = some t ∧ t.off = o := by
  rw [ttOffset] at h
  cases hf : ts.find? (fun (t : TtTable) => t.tag == tag) with
  | none =>
    rw [hf] at h
    cases h
  | some t =>
    rw [hf] at h
    dsimp only at h
    injection h with h
    exact ⟨t, rfl, h⟩

theorem find_tag {ts : List TtTable} {tag : Nat} {t : TtTable} (h : ts.find? (fun (t : TtTable) => t.tag == tag) = some t) : t.tag = tag := by
  have := List.find?_some h
  simpa using this

theorem subset_glyphs {file out : Bytes} {gids : List Nat} {f : TtFont} {p : TtPlan} (hv : Spec.TtValid file) (hi : InitSpec file f) (hw : f.write p = .ok out)
    (hp : PlanSpec f gids p) (hout : out.length < 4294967296) : Spec.ttCount out = some p.order.length ∧
      ∀ n i g, p.order[i]? = some g → Spec.outline (Spec.ttGlyph out) n i = Spec.outline (Spec.ttGlyph file) n g := by
  have hold := oldGlyphs hi hv
  have hcount := init_count hi
  have hol := order_le hp
  have hfile : f.file.length < 4294967296 := by rw [hi.same]; exact hv.1
  obtain ⟨G, g1, g2⟩ := tables_glyphs hold hfile hp
  obtain ⟨tm, m1, _⟩ := find_of_offset hi.maxp.choose_spec.1
  obtain ⟨tg, tg1, _⟩ := find_of_offset hi.glyf
  obtain ⟨tl, tl1, _⟩ := find_of_offset hi.loca
  obtain ⟨oh, nh, h1, h2, h3⟩ := hi.head
  obtain ⟨th, th1, th2⟩ := find_of_offset h1
  obtain ⟨bm, Tm, bm1, bm2, bm3, bm4, bm5⟩ := write_table hw hout hi.size hi.kept m1
  obtain ⟨bg, Tg, bg1, bg2, bg3, bg4, bg5⟩ := write_table hw hout hi.size hi.kept tg1
  obtain ⟨bl, Tl, bl1, bl2, bl3, bl4, bl5⟩ := write_table hw hout hi.size hi.kept tl1
  obtain ⟨bh, Th, bh1, bh2, bh3, bh4, bh5⟩ := write_table hw hout hi.size hi.kept th1
  have em := find_tag m1
  have eg := find_tag tg1
  have el := find_tag tl1
  have eh := find_tag th1
  rw [TtFont.body, if_neg (by rw [em]; decide), if_pos em] at bm1
  rw [TtFont.body, if_neg (by rw [eg]; decide), if_neg (by rw [eg]; decide), if_neg (by rw [eg]; decide), if_neg (by rw [eg]; decide), if_pos eg, g1] at bg1
  rw [TtFont.body, if_neg (by rw [el]; decide), if_neg (by rw [el]; decide), if_neg (by rw [el]; decide), if_neg (by rw [el]; decide), if_neg (by rw [el]; decide),
    if_pos el] at bl1
  rw [TtFont.body, if_pos eh] at bh1
  have hbh8 := body_head_length (f := f) (p := p) eh (by rw [TtFont.body, if_pos eh]; exact bh1)
  have eG : Tg = G := by
    rw [bg4 (by decide)]
    cases bg1
    rfl
  have eL : Tl = f.locaOut p := by
    rw [bl4 (by decide)]
    cases bl1
    rfl
  have eLong : Spec.ttLong out = some f.long := by
    rw [Spec.ttLong, tag_head, bh2, Option.bind_some]
    obtain ⟨T, s1, s2, s3⟩ := ttCopied_inv bh1
    have e8 : Spec.beAt Th 50 2 = Spec.beAt bh 50 2 := by
      rw [show 50 = 8 + 42 from rfl, beAt_drop Th 42 2 8 (by omega), beAt_drop bh 42 2 8 (by omega), bh5]
    have e9 : Spec.beAt bh 50 2 = Spec.beAt T 50 2 := by
      rw [s3]
      exact copied_behind (w := ttW32 0) (k := 4) s2 42
    obtain ⟨n, hn, hall⟩ := hv.2
    obtain ⟨data, hd, _⟩ := hall 0 (by
      have hc := init_count_eq hi hn
      obtain ⟨ext, he⟩ := hp.front
      obtain ⟨_, _, _, k, _⟩ := hp.glyph 0 (by rw [he]; simp)
      omega)
    obtain ⟨l, hl⟩ := long_of_glyph hd
    rw [Spec.ttLong, tag_head] at hl
    cases hTT : Spec.ttTable file tagHead with
    | none =>
      rw [hTT] at hl
      cases hl
    | some T0 =>
      rw [hTT, Option.bind_some] at hl
      obtain ⟨t, k1, k2, k3⟩ := hi.table tagHead (by decide) T0 hTT
      rw [th1] at k1
      cases k1
      rw [hi.same, k3] at s1
      cases s1
      rw [e8, e9]
      cases hb : Spec.beAt T 50 2 with
      | none =>
        rw [hb] at hl
        cases hl
      | some v =>
        have := beAt_ttU16 (beAt_slice k3 hb)
        rw [th2, h2] at this
        injection this with this
        rw [Option.map_some, h3, this]
  constructor
  · rw [Spec.ttCount, tag_maxp, bm2, Option.bind_some, bm4 (by decide)]
    obtain ⟨T, s1, s2, s3⟩ := ttCopied_inv bm1
    rw [s3, show (2 : Nat) = (ttW16 (p.glyphs.length % 65536)).length from rfl, copied_at s2, be_W16 _ (by omega), hp.size, Nat.mod_eq_of_lt (by omega)]
  · intro n
    refine outline_renumbered (by omega) (fun i g hig => ?_) n
    obtain ⟨data, o, k1, k2, k3, k4⟩ := g2 i g hig
    refine ⟨data, o, k1, ?_, k3, k4⟩
    rw [Spec.ttGlyph, tag_glyf, tag_loca, bg2, bl2, eLong, eG, eL]
    exact k2

/-- The subset of a font that is not damaged shows, under the number one more than the place in the list, what the glyph of the list shows in the
font, with all its components, however deep they are nested; the glyph 0 is kept.  The number of glyphs is that of the glyphs that are
needed.  The list names no glyph twice and not the glyph 0, as the lists that the fonts of a document give (C131). -/
theorem C134_same_outlines_partial {file out : Bytes} {gids : List Nat} (hv : Spec.TtValid file) (h : ttBuild file gids = .ok out) (hout : out.length < 4294967296)
    (hn : gids.Nodup) (h0 : 0 ∉ gids) :
    (∀ n, Spec.outline (Spec.ttGlyph out) n 0 = Spec.outline (Spec.ttGlyph file) n 0) ∧
      (∀ n k g, gids[k]? = some g → Spec.outline (Spec.ttGlyph out) n (k + 1) = Spec.outline (Spec.ttGlyph file) n g) ∧
      ∃ (f : TtFont) (order : List Nat), ttInit file = .ok f ∧ order.Nodup ∧ (∀ g, g ∈ order ↔ Spec.TtNeeded f (0 :: gids) g) ∧ Spec.ttCount out = some order.length := by
  obtain ⟨f, p, b1, b2, b3⟩ := build_parts h
  have hi := init_spec b1
  have hp := plan_spec b2 hn h0
  obtain ⟨c1, c2⟩ := subset_glyphs hv hi b3 hp hout
  obtain ⟨ext, he⟩ := hp.front
  refine ⟨fun n => c2 n 0 0 (by rw [he]; rfl), fun n k g hk => c2 n (k + 1) g ?_, f, p.order, b1, hp.nodup, hp.needed, c1⟩
  rw [he, List.cons_append, List.getElem?_cons_succ, List.getElem?_append_left (getElem?_lt hk)]
  exact hk

end Pdfmm
