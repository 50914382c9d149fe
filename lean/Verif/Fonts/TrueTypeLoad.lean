import Verif.Fonts.TrueTypeModel
import Verif.XRef.TextProps
set_option autoImplicit false
/-
C135: loading the glyphs of a subset always ends and loads the glyphs that are needed and no others.
-/
namespace Pdfmm
namespace Spec

/-- `c` is a component of the glyph `g`. -/
def TtPart (f : TtFont) (g c : Nat) : Prop :=
  ∃ d ps pos, f.readGlyph g = .ok d ∧ d.compound = true ∧ f.parts d.adv = .ok ps ∧ (pos, c) ∈ ps

/-- The glyphs that are needed to draw the glyphs of a list: these glyphs and, again and again, the components of the glyphs that are needed. -/
inductive TtNeeded (f : TtFont) (roots : List Nat) : Nat → Prop
  | root (g : Nat) : g ∈ roots → TtNeeded f roots g
  | part (g c : Nat) : TtNeeded f roots g → TtPart f g c → TtNeeded f roots c

end Spec

/-! ### The reading ends -/

theorem err_ne {α β : Type} {e : Fault} (h : (Except.error e : Res α) ≠ .error .diverge) : (Except.error e : Res β) ≠ .error .diverge :=
  fun x => h (by cases x; rfl)

theorem ttU16_bound {file : Bytes} {off n : Nat} (h : ttU16 file off = .ok n) : off + 2 ≤ file.length := by
  rw [ttU16, ttRead] at h
  by_cases h1 : off > file.length
  · rw [if_pos h1] at h
    cases h
  · rw [if_neg h1] at h
    by_cases h2 : off + 2 > file.length
    · rw [if_pos h2] at h
      cases h
    · omega

theorem ttRead_nodiverge (file : Bytes) (off n : Nat) : ttRead file off n ≠ .error .diverge := by
  rw [ttRead]
  split
  · simp [raise]
  · split
    · simp [raise]
    · simp

theorem ttU16_nodiverge (file : Bytes) (off : Nat) : ttU16 file off ≠ .error .diverge := by
  rw [ttU16]
  have := ttRead_nodiverge file off 2
  cases h : ttRead file off 2 with
  | ok l => simp
  | error e =>
    rw [h] at this
    exact err_ne this

theorem ttU32_nodiverge (file : Bytes) (off : Nat) : ttU32 file off ≠ .error .diverge := by
  rw [ttU32]
  have := ttRead_nodiverge file off 4
  cases h : ttRead file off 4 with
  | ok l => simp
  | error e =>
    rw [h] at this
    exact err_ne this

theorem ttParts_nodiverge (file : Bytes) (k pos : Nat) (hk : 1 ≤ k) (h : file.length < pos + k) : ttParts file k pos ≠ .error .diverge := by
  induction k generalizing pos with
  | zero => omega
  | succ k ih =>
    rw [ttParts]
    cases h1 : ttU16 file pos with
    | error e =>
      have := ttU16_nodiverge file pos
      rw [h1] at this
      exact err_ne this
    | ok flags =>
      dsimp only
      have hb := ttU16_bound h1
      cases h2 : ttU16 file (pos + 2) with
      | error e =>
        have := ttU16_nodiverge file (pos + 2)
        rw [h2] at this
        exact err_ne this
      | ok gid =>
        dsimp only
        split
        · have hs : 6 ≤ ttStep flags := by
            rw [ttStep]
            split <;> omega
          have := ih (pos + ttStep flags) (by omega) (by omega)
          cases h3 : ttParts file k (pos + ttStep flags) with
          | error e =>
            rw [h3] at this
            exact err_ne this
          | ok r => simp
        · simp

theorem parts_nodiverge (f : TtFont) (adv : Nat) : f.parts adv ≠ .error .diverge :=
  ttParts_nodiverge f.file _ adv (by omega) (by omega)

theorem locaAt_nodiverge (f : TtFont) (gid : Nat) : f.locaAt gid ≠ .error .diverge := by
  rw [TtFont.locaAt]
  split
  · exact ttU32_nodiverge _ _
  · have := ttU16_nodiverge f.file (f.loca + 2 * gid)
    cases h : ttU16 f.file (f.loca + 2 * gid) with
    | error e =>
      rw [h] at this
      exact err_ne this
    | ok n => simp

theorem readGlyph_nodiverge (f : TtFont) (gid : Nat) : f.readGlyph gid ≠ .error .diverge := by
  rw [TtFont.readGlyph]
  have a1 := locaAt_nodiverge f gid
  have a2 := locaAt_nodiverge f (gid + 1)
  cases h1 : f.locaAt gid with
  | error e =>
    rw [h1] at a1
    exact err_ne a1
  | ok o1 =>
    dsimp only
    cases h2 : f.locaAt (gid + 1) with
    | error e =>
      rw [h2] at a2
      exact err_ne a2
    | ok o2 =>
      dsimp only
      have a3 := ttU16_nodiverge f.file ((f.glyf + o1) % 4294967296)
      cases h3 : ttU16 f.file ((f.glyf + o1) % 4294967296) with
      | error e =>
        rw [h3] at a3
        exact err_ne a3
      | ok c => simp

/-! ### What loading does -/

/-- The number of glyphs that are not loaded. -/
def unloaded (f : TtFont) (m : List (Nat × TtGlyph)) : Nat := ((List.range f.count).filter (fun g => (SMap.find? g m).isNone)).length

theorem tt_filter_length_lt {α : Type} (p q : α → Bool) (l : List α) (hpq : ∀ x, p x = true → q x = true) (x : α) (hx : x ∈ l) (hq : q x = true)
    (hp : p x = false) : (l.filter p).length < (l.filter q).length := by
  induction l with
  | nil => simp at hx
  | cons a l ih =>
    have hle : (l.filter p).length ≤ (l.filter q).length := by
      clear ih hx
      induction l with
      | nil => simp
      | cons b l ih =>
        simp only [List.filter_cons]
        cases hb : p b with
        | true =>
          rw [hpq b hb]
          simp
          exact ih
        | false =>
          cases q b with
          | true => simp; omega
          | false => simpa using ih
    simp only [List.filter_cons]
    rcases List.mem_cons.1 hx with rfl | hx
    · rw [hp, hq]
      simp
      omega
    · have := ih hx
      cases hb : p a with
      | true =>
        rw [hpq a hb]
        simpa using this
      | false =>
        cases q a with
        | true => simp; omega
        | false => simpa using this

theorem filter_length_le {α : Type} (p q : α → Bool) (l : List α) (hpq : ∀ x, p x = true → q x = true) : (l.filter p).length ≤ (l.filter q).length := by
  induction l with
  | nil => simp
  | cons b l ih =>
    simp only [List.filter_cons]
    cases hb : p b with
    | true =>
      rw [hpq b hb]
      simpa using ih
    | false =>
      cases q b with
      | true => simp; omega
      | false => simpa using ih

/-- What holds between the maps before and after loading glyphs. -/
structure TtLoaded (f : TtFont) (m m' : List (Nat × TtGlyph)) : Prop where
  sorted : SMap.Sorted m'
  keep : ∀ g d, SMap.find? g m = some d → SMap.find? g m' = some d
  new : ∀ g d, SMap.find? g m' = some d → SMap.find? g m = some d ∨
    (f.readGlyph g = .ok d ∧ g < f.count ∧
      (d.compound = true → ∃ ps, f.parts d.adv = .ok ps ∧ ∀ c ∈ ps, (SMap.find? c.2 m').isSome = true))

theorem TtLoaded.refl {f : TtFont} {m : List (Nat × TtGlyph)} (h : SMap.Sorted m) : TtLoaded f m m := ⟨h, fun _ _ h => h, fun _ _ h => Or.inl h⟩

theorem isSome_keep {m m' : List (Nat × TtGlyph)} (hk : ∀ g d, SMap.find? g m = some d → SMap.find? g m' = some d) {c : Nat}
    (h : (SMap.find? c m).isSome = true) : (SMap.find? c m').isSome = true := by
  obtain ⟨d, hd⟩ := Option.isSome_iff_exists.1 h
  rw [hk c d hd]
  rfl

theorem TtLoaded.trans {f : TtFont} {a b c : List (Nat × TtGlyph)} (h1 : TtLoaded f a b) (h2 : TtLoaded f b c) : TtLoaded f a c := by
  refine ⟨h2.sorted, fun g d h => h2.keep g d (h1.keep g d h), fun g d h => ?_⟩
  rcases h2.new g d h with h | h
  · rcases h1.new g d h with h | ⟨k1, k2, k3⟩
    · exact Or.inl h
    · refine Or.inr ⟨k1, k2, fun hc => ?_⟩
      obtain ⟨ps, e, hp⟩ := k3 hc
      exact ⟨ps, e, fun x hx => isSome_keep h2.keep (hp x hx)⟩
  · exact Or.inr h

theorem unloaded_le {f : TtFont} {m m' : List (Nat × TtGlyph)} (hk : ∀ g d, SMap.find? g m = some d → SMap.find? g m' = some d) : unloaded f m' ≤ unloaded f m := by
  refine filter_length_le _ _ _ (fun x hx => ?_)
  cases h : SMap.find? x m with
  | none => rfl
  | some d =>
    rw [hk x d h] at hx
    simp at hx

theorem keep_insert {m : List (Nat × TtGlyph)} {gid : Nat} (hn : SMap.find? gid m = none) (d : TtGlyph) :
    ∀ g d', SMap.find? g m = some d' → SMap.find? g (SMap.insert gid d m) = some d' := by
  intro g d' h
  by_cases hg : g = gid
  · subst hg
    rw [hn] at h
    cases h
  · rw [SMap.find_insert_ne _ _ hg]
    exact h

theorem unloaded_insert {f : TtFont} {m : List (Nat × TtGlyph)} {gid : Nat} (hlt : gid < f.count) (hn : SMap.find? gid m = none) (d : TtGlyph) :
    unloaded f (SMap.insert gid d m) < unloaded f m := by
  refine tt_filter_length_lt _ _ _ (fun x hx => ?_) gid (List.mem_range.2 hlt) ?_ ?_
  · cases h : SMap.find? x m with
    | none => rfl
    | some d' =>
      rw [keep_insert hn d x d' h] at hx
      simp at hx
  · rw [hn]
    rfl
  · rw [SMap.find_insert_self]
    rfl

/-- What loading one glyph gives. -/
def LoadSpec (f : TtFont) (load : List (Nat × TtGlyph) → Nat → Res (List (Nat × TtGlyph))) (k : Nat) : Prop :=
  ∀ m gid, SMap.Sorted m → unloaded f m < k → load m gid ≠ .error .diverge ∧
    ∀ m', load m gid = .ok m' → TtLoaded f m m' ∧ (SMap.find? gid m').isSome = true ∧
      ∀ g, (SMap.find? g m').isSome = true → (SMap.find? g m).isSome = true ∨ Spec.TtNeeded f [gid] g

theorem needed_mono {f : TtFont} {a b : List Nat} (h : ∀ x ∈ a, Spec.TtNeeded f b x) {g : Nat} (hg : Spec.TtNeeded f a g) : Spec.TtNeeded f b g := by
  induction hg with
  | root g h1 => exact h g h1
  | part g c _ hp ih => exact .part g c ih hp

theorem loadAll_spec {f : TtFont} {load : List (Nat × TtGlyph) → Nat → Res (List (Nat × TtGlyph))} {k : Nat} (hl : LoadSpec f load k) (l : List Nat) :
    ∀ m, SMap.Sorted m → unloaded f m < k → ttLoadAll load l m ≠ .error .diverge ∧
      ∀ m', ttLoadAll load l m = .ok m' → TtLoaded f m m' ∧ (∀ g ∈ l, (SMap.find? g m').isSome = true) ∧
        ∀ g, (SMap.find? g m').isSome = true → (SMap.find? g m).isSome = true ∨ Spec.TtNeeded f l g := by
  induction l with
  | nil =>
    intro m hs _
    rw [ttLoadAll]
    refine ⟨by simp, fun m' h => ?_⟩
    cases h
    exact ⟨.refl hs, by simp, fun g h => Or.inl h⟩
  | cons a l ih =>
    intro m hs hk
    rw [ttLoadAll]
    obtain ⟨h1, h2⟩ := hl m a hs hk
    cases h : load m a with
    | error e =>
      rw [h] at h1
      exact ⟨h1, by simp⟩
    | ok m1 =>
      obtain ⟨g1, g2, g3⟩ := h2 m1 h
      dsimp only
      obtain ⟨i1, i2⟩ := ih m1 g1.sorted (Nat.lt_of_le_of_lt (unloaded_le g1.keep) hk)
      refine ⟨i1, fun m' hm => ?_⟩
      obtain ⟨j1, j2, j3⟩ := i2 m' hm
      refine ⟨g1.trans j1, ?_, ?_⟩
      · intro g hg
        rcases List.mem_cons.1 hg with rfl | hg
        · exact isSome_keep j1.keep g2
        · exact j2 g hg
      · intro g hg
        rcases j3 g hg with hg | hg
        · rcases g3 g hg with hg | hg
          · exact Or.inl hg
          · refine Or.inr (needed_mono ?_ hg)
            intro x hx
            rw [List.mem_singleton.1 hx]
            exact .root _ (by simp)
        · refine Or.inr (needed_mono ?_ hg)
          intro x hx
          exact .root _ (by simp [hx])

theorem loadGid_spec (f : TtFont) (k : Nat) : LoadSpec f (f.loadGid k) k := by
  induction k with
  | zero =>
    intro m gid _ h
    omega
  | succ k ih =>
    intro m gid hs hk
    rw [TtFont.loadGid]
    by_cases hc : gid ≥ f.count
    · rw [if_pos hc]
      exact ⟨by simp [raise], by simp [raise]⟩
    · rw [if_neg hc]
      by_cases hv : (SMap.find? gid m).isSome = true
      · rw [if_pos hv]
        refine ⟨by simp, fun m' h => ?_⟩
        cases h
        exact ⟨.refl hs, hv, fun g h => Or.inl h⟩
      · rw [if_neg hv]
        have hn : SMap.find? gid m = none := by
          cases h : SMap.find? gid m with
          | none => rfl
          | some d =>
            rw [h] at hv
            simp at hv
        cases hd : f.readGlyph gid with
        | error e =>
          have := readGlyph_nodiverge f gid
          rw [hd] at this
          exact ⟨err_ne this, by simp⟩
        | ok d =>
          dsimp only
          have hs1 := SMap.sorted_insert gid d m hs
          by_cases hcm : d.compound = true
          · rw [if_pos hcm]
            cases hp : f.parts d.adv with
            | error e =>
              have := parts_nodiverge f d.adv
              rw [hp] at this
              exact ⟨err_ne this, by simp⟩
            | ok ps =>
              dsimp only
              have hu := unloaded_insert (f := f) (by omega) hn d
              obtain ⟨a1, a2⟩ := loadAll_spec ih (ps.map (·.2)) (SMap.insert gid d m) hs1 (by omega)
              refine ⟨a1, fun m' hm => ?_⟩
              obtain ⟨b1, b2, b3⟩ := a2 m' hm
              have hself : SMap.find? gid m' = some d := b1.keep gid d (SMap.find_insert_self _ _ _)
              refine ⟨⟨b1.sorted, fun g d' h => b1.keep g d' (keep_insert hn d g d' h), fun g d' h => ?_⟩, by rw [hself]; rfl, fun g hg => ?_⟩
              · by_cases hg : g = gid
                · subst hg
                  rw [hself] at h
                  cases h
                  exact Or.inr ⟨hd, by omega, fun _ => ⟨ps, hp, fun c hc => b2 c.2 (List.mem_map_of_mem hc)⟩⟩
                · rcases b1.new g d' h with h | h
                  · rw [SMap.find_insert_ne _ _ hg] at h
                    exact Or.inl h
                  · exact Or.inr h
              · by_cases hgg : g = gid
                · subst hgg
                  exact Or.inr (.root _ (by simp))
                · rcases b3 g hg with h | h
                  · rw [SMap.find_insert_ne _ _ hgg] at h
                    exact Or.inl h
                  · refine Or.inr (needed_mono ?_ h)
                    intro x hx
                    obtain ⟨p, hp1, hp2⟩ := List.mem_map.1 hx
                    refine .part gid x (.root _ (by simp)) ⟨d, ps, p.1, hd, hcm, hp, ?_⟩
                    rw [← hp2]
                    exact hp1
          · rw [if_neg hcm]
            refine ⟨by simp, fun m' h => ?_⟩
            cases h
            refine ⟨⟨hs1, keep_insert hn d, fun g d' h => ?_⟩, by rw [SMap.find_insert_self]; rfl, fun g hg => ?_⟩
            · by_cases hg : g = gid
              · subst hg
                rw [SMap.find_insert_self] at h
                cases h
                exact Or.inr ⟨hd, by omega, fun h => absurd h hcm⟩
              · rw [SMap.find_insert_ne _ _ hg] at h
                exact Or.inl h
            · by_cases hgg : g = gid
              · subst hgg
                exact Or.inr (.root _ (by simp))
              · rw [SMap.find_insert_ne _ _ hgg] at hg
                exact Or.inl hg

theorem unloaded_nil (f : TtFont) : unloaded f [] = f.count := by
  rw [unloaded, List.filter_eq_self.2 (by simp [SMap.find?]), List.length_range]

theorem loadGlyphs_spec (f : TtFont) (gids : List Nat) : f.loadGlyphs gids ≠ .error .diverge ∧
    ∀ m, f.loadGlyphs gids = .ok m → TtLoaded f [] m ∧ (∀ g ∈ 0 :: gids, (SMap.find? g m).isSome = true) ∧
      ∀ g, (SMap.find? g m).isSome = true → Spec.TtNeeded f (0 :: gids) g := by
  have h := loadAll_spec (loadGid_spec f (f.count + 1)) (0 :: gids) [] (by simp [SMap.Sorted]) (by rw [unloaded_nil]; omega)
  refine ⟨h.1, fun m hm => ?_⟩
  obtain ⟨a, b, c⟩ := h.2 m hm
  exact ⟨a, b, fun g hg => (c g hg).resolve_left (by simp [SMap.find?])⟩

/-! ### C135 -/

/-- Loading the glyphs ends for every file, also when glyphs are components of each other. -/
theorem C135_ends (f : TtFont) (gids : List Nat) : f.loadGlyphs gids ≠ .error .diverge := (loadGlyphs_spec f gids).1

/-- The glyphs that are loaded are those that are needed to draw the glyphs of the list and the glyph 0, each with the data that the tables of
the font give. -/
theorem C135_closure (f : TtFont) (gids : List Nat) {m : List (Nat × TtGlyph)} (h : f.loadGlyphs gids = .ok m) :
    (∀ g, (∃ d, (g, d) ∈ m) ↔ Spec.TtNeeded f (0 :: gids) g) ∧ ∀ g d, (g, d) ∈ m → g < f.count ∧ f.readGlyph g = .ok d := by
  obtain ⟨a, b, c⟩ := (loadGlyphs_spec f gids).2 m h
  have hnew : ∀ g d, SMap.find? g m = some d → f.readGlyph g = .ok d ∧ g < f.count ∧
      (d.compound = true → ∃ ps, f.parts d.adv = .ok ps ∧ ∀ c ∈ ps, (SMap.find? c.2 m).isSome = true) :=
    fun g d hd => (a.new g d hd).resolve_left (by simp [SMap.find?])
  refine ⟨fun g => ⟨fun ⟨d, hd⟩ => c g (by rw [SMap.mem_find a.sorted hd]; rfl), fun hg => ?_⟩, fun g d hd => ?_⟩
  · have : (SMap.find? g m).isSome = true := by
      induction hg with
      | root g hr => exact b g hr
      | part g x _ hp ih =>
        obtain ⟨d, hd⟩ := Option.isSome_iff_exists.1 ih
        obtain ⟨d', ps, pos, p1, p2, p3, p4⟩ := hp
        obtain ⟨q1, _, q3⟩ := hnew g d hd
        rw [p1] at q1
        cases q1
        obtain ⟨ps', e, hall⟩ := q3 p2
        rw [p3] at e
        cases e
        exact hall _ p4
    obtain ⟨d, hd⟩ := Option.isSome_iff_exists.1 this
    exact ⟨d, SMap.find_mem hd⟩
  · obtain ⟨q1, q2, _⟩ := hnew g d (SMap.mem_find a.sorted hd)
    exact ⟨q2, q1⟩

end Pdfmm
