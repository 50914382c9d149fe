import Verif.Fonts.TrueType
import Verif.XRef.TextProps
set_option autoImplicit false
/-
C136: the horizontal metrics of a subset of a TrueType font.
-/
namespace Pdfmm
namespace Spec

/-- The number of full horizontal metrics of a font. -/
def ttFull (file : Bytes) : Option Nat := (ttTable file (tag "hhea")).bind (fun t => beAt t 34 2)

/-- The advance width and the left side bearing of a glyph: the glyphs after the last full metric have its advance width. -/
def ttMetrics (file : Bytes) (g : Nat) : Option (Nat × Nat) :=
  match ttTable file (tag "hmtx"), ttFull file with
  | some t, some m =>
    match (if g < m then beAt t (4 * g) 2 else beAt t (4 * (m - 1)) 2), (if g < m then beAt t (4 * g + 2) 2 else beAt t (4 * m + 2 * (g - m)) 2) with
    | some a, some b => some (a, b)
    | _, _ => none
  | _, _ => none

end Spec

open Spec (be)

/-- The glyphs with full metrics. -/
def TtFont.small (f : TtFont) (l : List Nat) : List Nat := l.filter (fun g => decide (g < f.hmCount))

theorem hmtxLoop_spec (f : TtFont) (hm : Nat) (l : List Nat) : ∀ full lsb, f.hmtxLoop hm l = .ok (full, lsb) → full.length = 4 * (f.small l).length ∧
    ∀ i g, (f.small l)[i]? = some g → ttRead f.file (hm + 4 * g) 4 = .ok ((full.drop (4 * i)).take 4) := by
  induction l with
  | nil =>
    intro full lsb h
    cases h
    exact ⟨rfl, fun i g hi => by simp [TtFont.small] at hi⟩
  | cons a l ih =>
    intro full lsb h
    rw [TtFont.hmtxLoop] at h
    by_cases ha : a < f.hmCount
    · rw [if_pos ha] at h
      cases hr : ttRead f.file (hm + 4 * a) 4 with
      | error e =>
        rw [hr] at h
        cases h
      | ok b =>
        rw [hr] at h
        dsimp only at h
        cases hl : f.hmtxLoop hm l with
        | error e =>
          rw [hl] at h
          cases h
        | ok q =>
          obtain ⟨full', lsb'⟩ := q
          rw [hl] at h
          dsimp only at h
          rw [if_pos ha] at h
          cases h
          obtain ⟨h1, h2⟩ := ih _ _ hl
          have hb : b.length = 4 := by
            obtain ⟨k1, k2⟩ := ttRead_inv hr
            rw [k2, List.length_take, List.length_drop]
            omega
          have hs : f.small (a :: l) = a :: f.small l := by
            rw [TtFont.small, List.filter_cons, if_pos (by simpa using ha)]
            rfl
          rw [hs]
          refine ⟨by rw [List.length_append, hb, h1, List.length_cons]; omega, fun i g hi => ?_⟩
          cases i with
          | zero =>
            cases hi
            rw [Nat.mul_zero, List.drop_zero, List.take_append, hb, Nat.sub_self, List.take_zero, List.append_nil, List.take_of_length_le (by omega)]
            exact hr
          | succ i =>
            rw [List.getElem?_cons_succ] at hi
            rw [h2 i g hi, List.drop_append, List.drop_eq_nil_of_le (as := b) (by omega), List.nil_append, hb]
            congr 3
    · rw [if_neg ha] at h
      cases hr : ttRead f.file (hm + 4 * f.hmCount + 2 * (a - f.hmCount)) 2 with
      | error e =>
        rw [hr] at h
        cases h
      | ok b =>
        rw [hr] at h
        dsimp only at h
        cases hl : f.hmtxLoop hm l with
        | error e =>
          rw [hl] at h
          cases h
        | ok q =>
          obtain ⟨full', lsb'⟩ := q
          rw [hl] at h
          dsimp only at h
          rw [if_neg ha] at h
          cases h
          have hs : f.small (a :: l) = f.small l := by
            rw [TtFont.small, List.filter_cons, if_neg (by simpa using ha)]
            rfl
          rw [hs]
          exact ih _ _ hl

theorem mem_find_isSome {α : Type} {l : List (Nat × α)} {d : Nat × α} (h : d ∈ l) : (SMap.find? d.1 l).isSome = true := by
  induction l with
  | nil => cases h
  | cons x l ih =>
    rw [SMap.find?]
    by_cases hx : x.1 = d.1
    · rw [if_pos (by first | exact hx | exact hx.symm)]
      rfl
    · rw [if_neg (by first | exact hx | exact fun e => hx e.symm)]
      rcases List.mem_cons.1 h with e | e
      · exact absurd (by rw [e]) hx
      · exact ih e

theorem small_count {f : TtFont} {gids : List Nat} {p : TtPlan} (hp : PlanSpec f gids p) (hc : f.count < 65536) : f.hmCountOut p = (f.small p.order).length := by
  have hol := order_le hp
  have e : (p.glyphs.filter (fun (g : Nat × TtGlyph) => decide (g.1 < f.hmCount))).length = (f.small (p.glyphs.map (·.1))).length := by
    rw [TtFont.small, List.filter_map, List.length_map]
    rfl
  have n1 : (f.small (p.glyphs.map (·.1))).Nodup := hp.keys.filter _
  have n2 : (f.small p.order).Nodup := hp.nodup.filter _
  have hm : ∀ g, g ∈ p.glyphs.map (·.1) ↔ g ∈ p.order := by
    intro g
    constructor
    · intro hg
      obtain ⟨d, hd, rfl⟩ := List.mem_map.1 hg
      exact (hp.mem d.1).2 (mem_find_isSome hd)
    · intro hg
      obtain ⟨d, hd⟩ := Option.isSome_iff_exists.1 ((hp.mem g).1 hg)
      exact List.mem_map.2 ⟨(g, d), SMap.find_mem hd, rfl⟩
  have l1 := length_le_of_subset n1 (l₂ := f.small p.order) (fun x hx => by
    rw [TtFont.small, List.mem_filter] at hx ⊢
    exact ⟨(hm x).1 hx.1, hx.2⟩)
  have l2 := length_le_of_subset n2 (l₂ := f.small (p.glyphs.map (·.1))) (fun x hx => by
    rw [TtFont.small, List.mem_filter] at hx ⊢
    exact ⟨(hm x).2 hx.1, hx.2⟩)
  have l3 : (f.small p.order).length ≤ p.order.length := List.length_filter_le _ _
  rw [TtFont.hmCountOut, e, Nat.mod_eq_of_lt (by omega)]
  omega

theorem init_full_eq {file : Bytes} {f : TtFont} {n : Nat} (hi : InitSpec file f) (hn : Spec.ttFull file = some n) : f.hmCount = n := by
  rw [Spec.ttFull, tag_hhea] at hn
  cases hT : Spec.ttTable file tagHhea with
  | none =>
    rw [hT] at hn
    cases hn
  | some T =>
    rw [hT] at hn
    obtain ⟨t, k1, k2, k3⟩ := hi.table tagHhea (by decide) T hT
    obtain ⟨o, q1, q2⟩ := hi.hhea
    rw [hi.offset tagHhea (by decide) t k1] at q1
    cases q1
    have := beAt_ttU16 (beAt_slice k3 hn)
    rw [q2] at this
    injection this

theorem beAt_take {b : Bytes} {o k n : Nat} (h : n ≤ k) (hb : o + k ≤ b.length) : Spec.beAt b o n = some (be (((b.drop o).take k).take n)) := by
  rw [Spec.beAt, if_pos (by omega), List.take_take, Nat.min_eq_left h]

theorem beAt_take' {b : Bytes} {o k m n : Nat} (h : m + n ≤ k) (hb : o + k ≤ b.length) : Spec.beAt b (o + m) n = some (be ((((b.drop o).take k).drop m).take n)) := by
  rw [Spec.beAt, if_pos (by omega), List.drop_take, List.drop_drop, List.take_take, Nat.min_eq_left (by omega)]

theorem subset_metrics {file out : Bytes} {gids : List Nat} {f : TtFont} {p : TtPlan} (hi : InitSpec file f) (hw : f.write p = .ok out)
    (hp : PlanSpec f gids p) (hout : out.length < 4294967296) (i g : Nat) (hig : (f.small p.order)[i]? = some g) (v : Nat × Nat) (hv : Spec.ttMetrics file g = some v) :
    Spec.ttMetrics out i = some v := by
  have hcount := init_count hi
  have hg : g < f.hmCount := by
    have := List.mem_of_getElem? hig
    rw [TtFont.small, List.mem_filter] at this
    simpa using this.2
  rw [Spec.ttMetrics] at hv
  cases hT : Spec.ttTable file (Spec.tag "hmtx") with
  | none =>
    rw [hT] at hv
    cases hv
  | some T =>
    cases hF : Spec.ttFull file with
    | none =>
      rw [hT, hF] at hv
      cases hv
    | some m =>
      rw [hT, hF] at hv
      dsimp only at hv
      have hm := init_full_eq hi hF
      rw [if_pos (by omega), if_pos (by omega)] at hv
      obtain ⟨t, t1, t2, t3⟩ := hi.table tagHmtx (by decide) T (by rw [← tag_hmtx]; exact hT)
      obtain ⟨oh, th1, _⟩ := hi.hhea
      obtain ⟨th, th2, _⟩ := find_of_offset th1
      obtain ⟨bh, Th, bh1, bh2, bh3, bh4, bh5⟩ := write_table hw hout hi.size hi.kept th2
      obtain ⟨bt, Tt, bt1, bt2, bt3, bt4, bt5⟩ := write_table hw hout hi.size hi.kept t1
      have eh := find_tag th2
      have et := find_tag t1
      rw [TtFont.body, if_neg (by rw [eh]; decide), if_neg (by rw [eh]; decide), if_pos eh] at bh1
      rw [TtFont.body, if_neg (by rw [et]; decide), if_neg (by rw [et]; decide), if_neg (by rw [et]; decide), if_neg (by rw [et]; decide), if_neg (by rw [et]; decide),
        if_neg (by rw [et]; decide), if_pos et, TtFont.hmtxOut, hi.offset tagHmtx (by decide) t t1] at bt1
      dsimp only at bt1
      cases hl : f.hmtxLoop t.off p.order with
      | error e =>
        rw [hl] at bt1
        cases bt1
      | ok q =>
        obtain ⟨full, lsb⟩ := q
        rw [hl] at bt1
        cases bt1
        obtain ⟨h1, h2⟩ := hmtxLoop_spec f _ _ _ _ hl
        have hlt := getElem?_lt hig
        have hF' : Spec.ttFull out = some (f.small p.order).length := by
          rw [Spec.ttFull, tag_hhea, bh2, Option.bind_some, bh4 (by decide)]
          obtain ⟨T, s1, s2, s3⟩ := ttCopied_inv bh1
          have hsc := small_count hp hcount
          have hle : (f.small p.order).length ≤ p.order.length := List.length_filter_le _ _
          have hol := order_le hp
          rw [s3, show (2 : Nat) = (ttW16 (f.hmCountOut p)).length from rfl, copied_at s2, be_W16 _ (by omega), hsc]
        have e := h2 i g hig
        obtain ⟨r1, r2⟩ := ttRead_inv e
        rw [Spec.ttMetrics, tag_hmtx, bt2, hF']
        dsimp only
        rw [if_pos hlt, if_pos hlt, bt4 (by decide)]
        have hb4 : 4 * i + 4 ≤ (full ++ lsb).length := by rw [List.length_append]; omega
        have hd4 : ((full ++ lsb).drop (4 * i)).take 4 = (full.drop (4 * i)).take 4 := by
          rw [List.drop_append_of_le_length (by omega), List.take_append_of_le_length (by rw [List.length_drop]; omega)]
        rw [beAt_take (k := 4) (by omega) hb4, beAt_take' (k := 4) (by omega) hb4, hd4, r2]
        dsimp only
        rw [hi.same] at r1 ⊢
        have key : ∀ a, Spec.beAt T (4 * g) 2 = some a → a = be ((((file.drop (t.off + 4 * g)).take 4)).take 2) := by
          intro a ha
          have := beAt_slice t3 ha
          rw [beAt_take (k := 4) (by omega) r1] at this
          injection this with this
          exact this.symm
        have key2 : ∀ a, Spec.beAt T (4 * g + 2) 2 = some a → a = be ((((file.drop (t.off + 4 * g)).take 4).drop 2).take 2) := by
          intro a ha
          have := beAt_slice t3 ha
          rw [← Nat.add_assoc, beAt_take' (k := 4) (by omega) r1] at this
          injection this with this
          exact this.symm
        cases ha : Spec.beAt T (4 * g) 2 with
        | none =>
          rw [ha] at hv
          cases hv
        | some a =>
          cases hb : Spec.beAt T (4 * g + 2) 2 with
          | none =>
            rw [ha, hb] at hv
            cases hv
          | some b =>
            rw [ha, hb] at hv
            cases hv
            rw [← key a ha, ← key2 b hb]

/-- In a font in which every glyph has full metrics, each glyph of the subset has the advance width and the bearing that the glyph of the list has
in the font. -/
theorem C136_metrics_partial {file out : Bytes} {gids : List Nat} {n m : Nat} (h : ttBuild file gids = .ok out) (hout : out.length < 4294967296)
    (hn : gids.Nodup) (h0 : 0 ∉ gids) (hc : Spec.ttCount file = some n) (hf : Spec.ttFull file = some m) (hnm : n ≤ m) :
    (∀ v, Spec.ttMetrics file 0 = some v → Spec.ttMetrics out 0 = some v) ∧
      ∀ k g v, gids[k]? = some g → Spec.ttMetrics file g = some v → Spec.ttMetrics out (k + 1) = some v := by
  obtain ⟨f, p, b1, b2, b3⟩ := build_parts h
  have hi := init_spec b1
  have hp := plan_spec b2 hn h0
  obtain ⟨ext, he⟩ := hp.front
  have hsm : f.small p.order = p.order := by
    rw [TtFont.small, List.filter_eq_self]
    intro g hg
    obtain ⟨_, _, _, k, _⟩ := hp.glyph g hg
    rw [init_count_eq hi hc] at k
    rw [init_full_eq hi hf, decide_eq_true_eq]
    omega
  refine ⟨fun v hv => subset_metrics hi b3 hp hout 0 0 (by rw [hsm, he]; rfl) v hv, fun k g v hk hv => subset_metrics hi b3 hp hout (k + 1) g ?_ v hv⟩
  rw [hsm, he, List.cons_append, List.getElem?_cons_succ, List.getElem?_append_left (getElem?_lt hk)]
  exact hk

/-- In a font in which only the first glyphs have full metrics, the subset mixes them up: the first glyph of the list that has no full metrics gets
the advance width and the bearing of the next glyph that has. -/
theorem C136_metrics_false {file out : Bytes} {A B C : List Nat} {g s m : Nat} (h : ttBuild file (A ++ g :: (B ++ s :: C)) = .ok out) (hout : out.length < 4294967296)
    (hn : (A ++ g :: (B ++ s :: C)).Nodup) (h0 : 0 ∉ A ++ g :: (B ++ s :: C)) (hf : Spec.ttFull file = some m)
    (hA : ∀ x ∈ A, x < m) (hg : m ≤ g) (hB : ∀ x ∈ B, m ≤ x) (hs : s < m) {v : Nat × Nat} (hv : Spec.ttMetrics file s = some v) :
    Spec.ttMetrics out (A.length + 1) = some v := by
  obtain ⟨f, p, b1, b2, b3⟩ := build_parts h
  have hi := init_spec b1
  have hp := plan_spec b2 hn h0
  obtain ⟨ext, he⟩ := hp.front
  have hm := init_full_eq hi hf
  refine subset_metrics hi b3 hp hout (A.length + 1) s ?_ v hv
  have eA : A.filter (fun g => decide (g < f.hmCount)) = A := by
    rw [List.filter_eq_self]
    intro x hx
    have := hA x hx
    simpa [hm] using this
  have eB : B.filter (fun g => decide (g < f.hmCount)) = [] := by
    rw [List.filter_eq_nil_iff]
    intro x hx
    have := hB x hx
    simpa [hm] using this
  rw [TtFont.small, he, List.cons_append, List.filter_cons, if_pos (by rw [decide_eq_true_eq]; omega), List.getElem?_cons_succ, List.filter_append, List.filter_append,
    eA, List.filter_cons, if_neg (by rw [decide_eq_true_eq]; omega), List.filter_append, eB, List.nil_append, List.filter_cons,
    if_pos (by rw [decide_eq_true_eq]; omega), List.append_assoc, List.getElem?_append_right (Nat.le_refl _), Nat.sub_self]
  rfl

end Pdfmm
