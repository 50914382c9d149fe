import Verif.Fonts.TrueTypeLoad
set_option autoImplicit false
/-
The numbering of the glyphs of a subset, used for C134.
-/
namespace Pdfmm

theorem lookup_zipIdx (l : List Nat) (n g : Nat) : (l.zipIdx n).lookup g = if g ∈ l then some (n + l.idxOf g) else none := by
  induction l generalizing n with
  | nil => simp
  | cons a l ih =>
    rw [List.zipIdx_cons, List.lookup_cons]
    by_cases h : g = a
    · subst h
      simp
    · have h' : ¬ a = g := fun e => h e.symm
      have hb : (g == a) = false := by simp [h]
      rw [hb]
      dsimp only
      rw [ih]
      by_cases hm : g ∈ l
      · rw [if_pos hm, if_pos (by simp [hm]), List.idxOf_cons]
        have : (a == g) = false := by simp [h']
        rw [this]
        simp
        omega
      · rw [if_neg hm, if_neg (by simp [h, hm])]

/-- The map numbers the ordered list. -/
structure TtOrder.Good (o : TtOrder) : Prop where
  idx : o.idx = o.ord.zipIdx
  nodup : o.ord.Nodup

theorem TtOrder.Good.lookup {o : TtOrder} (h : o.Good) (g : Nat) : o.idx.lookup g = if g ∈ o.ord then some (o.ord.idxOf g) else none := by
  rw [h.idx, lookup_zipIdx]
  simp

theorem TtOrder.Good.size {o : TtOrder} (h : o.Good) : o.idx.length = o.ord.length := by
  rw [h.idx, List.length_zipIdx]

theorem addPart_good {o : TtOrder} (h : o.Good) (g : Nat) : (o.addPart g).Good ∧
    (o.addPart g).ord = (if g ∈ o.ord then o.ord else o.ord ++ [g]) := by
  have hl := h.lookup g
  rw [TtOrder.addPart, TtOrder.insert, hl]
  by_cases hm : g ∈ o.ord
  · simp only [if_pos hm, Option.isSome_some, if_true]
    exact ⟨⟨h.idx, h.nodup⟩, trivial⟩
  · simp only [if_neg hm, Option.isSome_none, Bool.false_eq_true, if_false]
    refine ⟨⟨?_, ?_⟩, trivial⟩
    · rw [h.size, h.idx]
      simp [List.zipIdx_append]
    · rw [List.nodup_append]
      exact ⟨h.nodup, by simp, fun a ha b hb e => hm (by rw [List.mem_singleton.1 hb] at e; exact e ▸ ha)⟩

theorem idxOf_ext {a b : List Nat} {g : Nat} (h : g ∈ a) : (a ++ b).idxOf g = a.idxOf g := by
  rw [List.idxOf_append, if_pos h]

theorem ttRemap_spec (off : Nat) (ps : List (Nat × Nat)) : ∀ (o : TtOrder), o.Good → (ttRemap off ps o).1.Good ∧
    (∃ ext, (ttRemap off ps o).1.ord = o.ord ++ ext ∧ ∀ x ∈ ext, ∃ p ∈ ps, p.2 = x) ∧ (∀ p ∈ ps, p.2 ∈ (ttRemap off ps o).1.ord) ∧
    (ttRemap off ps o).2 = ps.map (fun p => (p.1 - off, (ttRemap off ps o).1.ord.idxOf p.2)) := by
  induction ps with
  | nil =>
    intro o h
    exact ⟨h, ⟨[], by simp [ttRemap]⟩, by simp, rfl⟩
  | cons p ps ih =>
    intro o h
    obtain ⟨pos, gid⟩ := p
    rw [ttRemap]
    dsimp only
    obtain ⟨g1, g2⟩ := addPart_good h gid
    obtain ⟨i1, ⟨ext, i2, i3⟩, i4, i5⟩ := ih (o.addPart gid) g1
    have hmem : gid ∈ (o.addPart gid).ord := by
      rw [g2]
      split
      · assumption
      · simp
    refine ⟨i1, ?_, ?_, ?_⟩
    · rw [g2] at i2
      by_cases hm : gid ∈ o.ord
      · rw [if_pos hm] at i2
        refine ⟨ext, i2, fun x hx => ?_⟩
        obtain ⟨q, q1, q2⟩ := i3 x hx
        exact ⟨q, by simp [q1], q2⟩
      · rw [if_neg hm, List.append_assoc] at i2
        refine ⟨[gid] ++ ext, i2, fun x hx => ?_⟩
        rcases List.mem_append.1 hx with hx | hx
        · exact ⟨(pos, gid), by simp, (List.mem_singleton.1 hx).symm⟩
        · obtain ⟨q, q1, q2⟩ := i3 x hx
          exact ⟨q, by simp [q1], q2⟩
    · intro q hq
      rcases List.mem_cons.1 hq with rfl | hq
      · rw [i2]
        simp [hmem]
      · exact i4 q hq
    · rw [List.map_cons, ← i5]
      dsimp only
      rw [g1.lookup, if_pos hmem, i2, idxOf_ext hmem]
      rfl

theorem remapAll_spec (f : TtFont) (m : List (Nat × TtGlyph)) : ∀ (o : TtOrder), o.Good → (m.map (·.1)).Nodup →
    ∀ o' cs, f.remapAll m o = .ok (o', cs) → o'.Good ∧
      (∃ ext, o'.ord = o.ord ++ ext ∧ ∀ x ∈ ext, ∃ g d ps pos, (g, d) ∈ m ∧ d.compound = true ∧ f.parts d.adv = .ok ps ∧ (pos, x) ∈ ps) ∧
      ∀ g d, (g, d) ∈ m → d.compound = true → ∃ ps, f.parts d.adv = .ok ps ∧ (∀ p ∈ ps, p.2 ∈ o'.ord) ∧
        cs.lookup g = some (ps.map (fun p => (p.1 - d.off, o'.ord.idxOf p.2))) := by
  induction m with
  | nil =>
    intro o h _ o' cs e
    cases e
    exact ⟨h, ⟨[], by simp⟩, by simp⟩
  | cons a m ih =>
    intro o h hn o' cs e
    obtain ⟨gid, d⟩ := a
    rw [List.map_cons, List.nodup_cons] at hn
    rw [TtFont.remapAll] at e
    by_cases hc : d.compound = true
    · rw [if_pos hc] at e
      cases hp : f.parts d.adv with
      | error x =>
        rw [hp] at e
        cases e
      | ok ps =>
        rw [hp] at e
        dsimp only at e
        obtain ⟨r1, ⟨ext1, r2, r3⟩, r4, r5⟩ := ttRemap_spec d.off ps o h
        cases hr : f.remapAll m (ttRemap d.off ps o).1 with
        | error x =>
          rw [hr] at e
          cases e
        | ok q =>
          obtain ⟨o1, cs1⟩ := q
          rw [hr] at e
          cases e
          obtain ⟨j1, ⟨ext2, j2, j3⟩, j4⟩ := ih _ r1 hn.2 _ _ hr
          refine ⟨j1, ⟨ext1 ++ ext2, by rw [j2, r2, List.append_assoc], fun x hx => ?_⟩, fun g d' hm hcd => ?_⟩
          · rcases List.mem_append.1 hx with hx | hx
            · obtain ⟨p, p1, p2⟩ := r3 x hx
              exact ⟨gid, d, ps, p.1, by simp, hc, hp, by rw [← p2]; exact p1⟩
            · obtain ⟨g, d', ps', pos, q1, q2⟩ := j3 x hx
              exact ⟨g, d', ps', pos, by simp [q1], q2⟩
          · rcases List.mem_cons.1 hm with he | hm
            · cases he
              refine ⟨ps, hp, fun p hp' => by rw [j2]; simp [r4 p hp'], ?_⟩
              rw [List.lookup_cons]
              simp only [beq_self_eq_true]
              rw [r5]
              congr 1
              refine List.map_congr_left (fun p hp' => ?_)
              rw [j2, idxOf_ext (r4 p hp')]
            · obtain ⟨ps', q1, q2, q3⟩ := j4 g d' hm hcd
              refine ⟨ps', q1, q2, ?_⟩
              rw [List.lookup_cons]
              have hne : (g == gid) = false := by
                simp only [beq_eq_false_iff_ne, ne_eq]
                intro e
                exact hn.1 (e ▸ List.mem_map_of_mem (f := (·.1)) hm)
              rw [hne]
              exact q3
    · rw [if_neg hc] at e
      obtain ⟨j1, ⟨ext2, j2, j3⟩, j4⟩ := ih _ h hn.2 _ _ e
      refine ⟨j1, ⟨ext2, j2, fun x hx => ?_⟩, fun g d' hm hcd => ?_⟩
      · obtain ⟨g, d', ps', pos, q1, q2⟩ := j3 x hx
        exact ⟨g, d', ps', pos, by simp [q1], q2⟩
      · rcases List.mem_cons.1 hm with he | hm
        · cases he
          exact absurd hcd hc
        · exact j4 g d' hm hcd

theorem addListed_fresh {o : TtOrder} (h : o.Good) {g : Nat} (hg : g ∉ o.ord) : (o.addListed g).Good ∧ (o.addListed g).ord = o.ord ++ [g] := by
  have hl := h.lookup g
  rw [if_neg hg] at hl
  obtain ⟨a, b⟩ := addPart_good h g
  have e : o.addListed g = o.addPart g := by
    rw [TtOrder.addListed, TtOrder.addPart, hl]
    simp
  rw [e]
  rw [if_neg hg] at b
  exact ⟨a, b⟩

theorem foldl_addListed (l : List Nat) : ∀ (o : TtOrder), o.Good → l.Nodup → (∀ g ∈ l, g ∉ o.ord) →
    (l.foldl TtOrder.addListed o).Good ∧ (l.foldl TtOrder.addListed o).ord = o.ord ++ l := by
  induction l with
  | nil =>
    intro o h _ _
    exact ⟨h, by simp⟩
  | cons a l ih =>
    intro o h hn hd
    rw [List.nodup_cons] at hn
    obtain ⟨a1, a2⟩ := addListed_fresh h (hd a (by simp))
    rw [List.foldl_cons]
    obtain ⟨b1, b2⟩ := ih _ a1 hn.2 (fun g hg => by
      rw [a2]
      simp only [List.mem_append, List.mem_singleton]
      rintro (hx | hx)
      · exact hd g (by simp [hg]) hx
      · exact hn.1 (hx ▸ hg))
    exact ⟨b1, by rw [b2, a2, List.append_assoc]; rfl⟩

theorem listed_spec {gids : List Nat} (hn : gids.Nodup) (h0 : 0 ∉ gids) : (ttListed gids).Good ∧ (ttListed gids).ord = 0 :: gids := by
  have := foldl_addListed gids ⟨[(0, 0)], [0]⟩ ⟨rfl, by simp⟩ hn (fun g hg h => h0 (by rw [List.mem_singleton.1 h] at hg; exact hg))
  exact this

theorem sorted_keys_nodup {m : List (Nat × TtGlyph)} (h : SMap.Sorted m) : (m.map (·.1)).Nodup := by
  induction m with
  | nil => simp
  | cons a r ih =>
    obtain ⟨k, v⟩ := a
    simp only [SMap.Sorted] at h
    rw [List.map_cons, List.nodup_cons]
    refine ⟨fun hm => ?_, ih h.2⟩
    obtain ⟨p, hp, hpk⟩ := List.mem_map.1 hm
    exact SMap.lt_ne (h.1 p hp) hpk.symm

/-- What is known of the glyphs, their order and the new components. -/
structure PlanSpec (f : TtFont) (gids : List Nat) (p : TtPlan) : Prop where
  nodup : p.order.Nodup
  front : ∃ ext, p.order = (0 :: gids) ++ ext
  mem : ∀ g, g ∈ p.order ↔ (SMap.find? g p.glyphs).isSome = true
  needed : ∀ g, g ∈ p.order ↔ Spec.TtNeeded f (0 :: gids) g
  keys : (p.glyphs.map (·.1)).Nodup
  size : p.glyphs.length = p.order.length
  glyph : ∀ g ∈ p.order, ∃ d, SMap.find? g p.glyphs = some d ∧ f.readGlyph g = .ok d ∧ g < f.count ∧
    (d.compound = true → ∃ ps, f.parts d.adv = .ok ps ∧ (∀ q ∈ ps, q.2 ∈ p.order) ∧
      p.comps.lookup g = some (ps.map (fun q => (q.1 - d.off, p.order.idxOf q.2))))

theorem plan_spec {f : TtFont} {gids : List Nat} {p : TtPlan} (h : f.plan gids = .ok p) (hn : gids.Nodup) (h0 : 0 ∉ gids) : PlanSpec f gids p := by
  rw [TtFont.plan] at h
  cases hl : f.loadGlyphs gids with
  | error e =>
    rw [hl] at h
    cases h
  | ok m =>
    rw [hl] at h
    dsimp only at h
    cases hr : f.remapAll m (ttListed gids) with
    | error e =>
      rw [hr] at h
      cases h
    | ok q =>
      obtain ⟨o, cs⟩ := q
      rw [hr] at h
      cases h
      obtain ⟨a, b, c⟩ := (loadGlyphs_spec f gids).2 m hl
      obtain ⟨cl1, cl2⟩ := C135_closure f gids hl
      obtain ⟨l1, l2⟩ := listed_spec hn h0
      have hk := sorted_keys_nodup a.sorted
      obtain ⟨r1, ⟨ext, r2, r3⟩, r4⟩ := remapAll_spec f m _ l1 hk _ _ hr
      rw [l2] at r2
      have hmem : ∀ g, g ∈ o.ord ↔ (SMap.find? g m).isSome = true := by
        intro g
        constructor
        · intro hg
          rw [r2] at hg
          rcases List.mem_append.1 hg with hg | hg
          · exact b g hg
          · obtain ⟨g', d, ps, pos, q1, q2, q3, q4⟩ := r3 g hg
            have := (a.new g' d (SMap.mem_find a.sorted q1)).resolve_left (by simp [SMap.find?])
            obtain ⟨ps', e, hall⟩ := this.2.2 q2
            rw [q3] at e
            cases e
            exact hall _ q4
        · intro hg
          have hneed := c g hg
          clear hg
          induction hneed with
          | root g hg =>
            rw [r2]
            exact List.mem_append_left _ hg
          | part g x hg hp ih =>
            obtain ⟨d, ps, pos, p1, p2, p3, p4⟩ := hp
            obtain ⟨d', hd'⟩ := (cl1 g).2 hg
            have := (cl2 g d' hd').2
            rw [p1] at this
            cases this
            obtain ⟨ps', e, hall, _⟩ := r4 g d hd' p2
            rw [p3] at e
            cases e
            exact hall _ p4
      refine ⟨r1.nodup, ⟨ext, r2⟩, hmem, ?_, hk, ?_, ?_⟩
      · intro g
        rw [hmem g]
        refine ⟨c g, fun hg => ?_⟩
        obtain ⟨d, hd⟩ := (cl1 g).2 hg
        rw [SMap.mem_find a.sorted hd]
        rfl
      · dsimp only
        have e1 : m.length = (m.map (·.1)).length := by simp
        rw [e1]
        refine Nat.le_antisymm (length_le_of_subset hk (fun x hx => ?_)) (length_le_of_subset r1.nodup (fun x hx => ?_))
        · obtain ⟨y, y1, y2⟩ := List.mem_map.1 hx
          rw [hmem x, ← y2, SMap.mem_find a.sorted (show (y.1, y.2) ∈ m from y1)]
          rfl
        · obtain ⟨d, hd⟩ := Option.isSome_iff_exists.1 ((hmem x).1 hx)
          exact List.mem_map.2 ⟨(x, d), SMap.find_mem hd, rfl⟩
      · intro g hg
        obtain ⟨d, hd⟩ := Option.isSome_iff_exists.1 ((hmem g).1 hg)
        obtain ⟨k1, k2⟩ := cl2 g d (SMap.find_mem hd)
        exact ⟨d, hd, k2, k1, fun hc => r4 g d (SMap.find_mem hd) hc⟩

end Pdfmm
