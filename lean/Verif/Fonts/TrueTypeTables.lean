import Verif.Fonts.TrueTypeGlyphs
set_option autoImplicit false
/-
C134: the tables `glyf` and `loca` of a subset hold the glyphs of the font with the components renumbered.
-/
namespace Pdfmm
open Spec (be)

/-- The glyphs of the font as the tables give them: each has an address, all of it is in the file, and it is not damaged. -/
def OldGlyphs (f : TtFont) (old : Nat → Option Bytes) : Prop :=
  ∀ g, g < f.count → ∃ a data, f.locaAt g = .ok a ∧ f.locaAt (g + 1) = .ok (a + data.length) ∧ f.glyf + a + data.length ≤ f.file.length ∧
    data = (f.file.drop (f.glyf + a)).take data.length ∧ old g = some data ∧ Spec.GlyphOk data

/-- The data of a glyph with the components renumbered. -/
def Renumbered (φ : Nat → Nat) (data out : Bytes) : Prop :=
  (data = [] ∧ out = []) ∨ (10 ≤ data.length ∧ be (data.take 2) < 32768 ∧ out = data) ∨
    (10 ≤ data.length ∧ 32768 ≤ be (data.take 2) ∧ ∃ cs t, Spec.ttComps data.length (data.drop 10) = some (cs, t) ∧
      out = data.take 10 ++ (encComps (cs.map (renumber φ)) ++ t))

theorem Renumbered.length {φ : Nat → Nat} {data out : Bytes} (h : Renumbered φ data out) : out.length = data.length := by
  rcases h with ⟨h1, h2⟩ | ⟨_, _, h⟩ | ⟨h1, _, cs, t, h2, h3⟩
  · rw [h1, h2]
  · rw [h]
  · obtain ⟨_, e, _⟩ := ttComps_inv _ _ _ _ h2
    have := congrArg List.length e
    rw [h3]
    simp only [List.length_append, encComps_length, List.length_take, List.length_drop] at this ⊢
    omega

theorem readGlyph_old {f : TtFont} {old : Nat → Option Bytes} (hold : OldGlyphs f old) (hfile : f.file.length < 4294967296) {g : Nat} {d : TtGlyph}
    (hg : g < f.count) (h : f.readGlyph g = .ok d) : ∃ data a, old g = some data ∧ Spec.GlyphOk data ∧ d.len = data.length ∧
      data = (f.file.drop d.off).take data.length ∧ d.off + data.length ≤ f.file.length ∧
      (data ≠ [] → d.compound = decide (32768 ≤ be (data.take 2)) ∧ d.adv = d.off + 10) ∧ f.locaAt g = .ok a ∧ f.locaAt (g + 1) = .ok (a + data.length) := by
  obtain ⟨a, data, h1, h2, h3, h4, h5, h6⟩ := hold g hg
  rw [TtFont.readGlyph, h1] at h
  dsimp only at h
  rw [h2] at h
  dsimp only at h
  have ho : (f.glyf + a) % 4294967296 = f.glyf + a := Nat.mod_eq_of_lt (by omega)
  rw [ho] at h
  cases hu : ttU16 f.file (f.glyf + a) with
  | error e =>
    rw [hu] at h
    cases h
  | ok c =>
    rw [hu] at h
    cases h
    refine ⟨data, a, h5, h6, ?_, h4, h3, ?_, h1, h2⟩
    · dsimp only
      rw [show a + data.length + 4294967296 - a = data.length + 4294967296 by omega, Nat.add_mod_right, Nat.mod_eq_of_lt (by omega)]
    · intro hne
      dsimp only
      have h10 : 10 ≤ data.length := by
        rcases h6 with h6 | h6
        · exact absurd h6 hne
        · exact h6.1
      have hb := ttU16_bound hu
      rw [ttU16_ok hb] at hu
      cases hu
      refine ⟨?_, Nat.mod_eq_of_lt (by omega)⟩
      have : (f.file.drop (f.glyf + a)).take 2 = data.take 2 := by
        conv => rhs; rw [h4]
        rw [List.take_take, Nat.min_eq_left (by omega)]
      rw [this]

theorem order_le {f : TtFont} {gids : List Nat} {p : TtPlan} (h : PlanSpec f gids p) : p.order.length ≤ f.count := by
  have := length_le_of_subset h.nodup (l₂ := List.range f.count) (fun x hx => by
    obtain ⟨_, _, _, hlt, _⟩ := h.glyph x hx
    exact List.mem_range.2 hlt)
  rwa [List.length_range] at this

theorem glyphOut_renumbered {f : TtFont} {old : Nat → Option Bytes} (hold : OldGlyphs f old) (hfile : f.file.length < 4294967296)
    {gids : List Nat} {p : TtPlan} (h : PlanSpec f gids p) {g : Nat} (hg : g ∈ p.order) : ∃ data out a d, old g = some data ∧
      f.glyphOut p.glyphs p.comps g = .ok out ∧ Renumbered (fun x => p.order.idxOf x) data out ∧ SMap.find? g p.glyphs = some d ∧ d.len = data.length ∧
      f.locaAt g = .ok a ∧ f.locaAt (g + 1) = .ok (a + data.length) ∧ g < f.count ∧
      ∀ cs t, data ≠ [] → 32768 ≤ be (data.take 2) → Spec.ttComps data.length (data.drop 10) = some (cs, t) → ∀ c ∈ cs, c.gid ∈ p.order := by
  obtain ⟨d, h1, h2, h3, h4⟩ := h.glyph g hg
  obtain ⟨data, a, k1, k2, k3, k4, k5, k6, k7, k8⟩ := readGlyph_old hold hfile h3 h2
  rw [TtFont.glyphOut, h1]
  dsimp only
  by_cases hne : data = []
  · refine ⟨data, [], a, d, k1, ?_, Or.inl ⟨hne, rfl⟩, rfl, k3, k7, k8, h3, fun cs t hn => absurd hne hn⟩
    rw [if_pos (by rw [k3, hne]; rfl)]
  · obtain ⟨k6, k9⟩ := k6 hne
    have h10 : 10 ≤ data.length ∧ (32768 ≤ be (data.take 2) → (Spec.ttComps data.length (data.drop 10)).isSome = true) := k2.resolve_left hne
    rw [if_neg (by omega), ttRead_ok (by omega), k3]
    dsimp only
    rw [← k4]
    by_cases hc : 32768 ≤ be (data.take 2)
    · have hcomp : d.compound = true := by rw [k6]; exact decide_eq_true hc
      obtain ⟨q, hq⟩ := Option.isSome_iff_exists.1 (h10.2 hc)
      obtain ⟨cs, t⟩ := q
      obtain ⟨c1, c2, c3⟩ := ttComps_inv _ _ _ _ hq
      have hdata : data = data.take 10 ++ (encComps cs ++ t) := by
        rw [← c2, List.take_append_drop]
      have hhead : (data.take 10).length = 10 := by rw [List.length_take]; omega
      obtain ⟨ps, p1, p2, p3⟩ := h4 hcomp
      have hfileEq : f.file = f.file.take (d.off + 10) ++ (encComps cs ++ (t ++ f.file.drop (d.off + data.length))) := by
        have e1 : f.file.drop d.off = data ++ f.file.drop (d.off + data.length) := by
          conv => lhs; rw [← List.take_append_drop data.length (f.file.drop d.off), ← k4, List.drop_drop]
        have e2 : f.file.take (d.off + 10) = f.file.take d.off ++ data.take 10 := by
          rw [List.take_add, e1, List.take_append_of_le_length (by omega)]
        have e3 : data ++ f.file.drop (d.off + data.length) = data.take 10 ++ (encComps cs ++ (t ++ f.file.drop (d.off + data.length))) := by
          generalize f.file.drop (d.off + data.length) = z
          conv => lhs; rw [hdata]
          simp only [List.append_assoc]
        rw [e2, List.append_assoc, ← e3, ← e1, List.take_append_drop]
      have hpl : (f.file.take (d.off + 10)).length = d.off + 10 := by rw [List.length_take]; omega
      have hparts := ttParts_enc cs (f.file.take (d.off + 10)) (t ++ f.file.drop (d.off + data.length)) (f.file.length + 1) c1 (by omega)
      rw [← hfileEq, hpl, ← k9] at hparts
      have hpp := p1
      rw [TtFont.parts, hparts] at hpp
      cases hpp
      rw [k9, compPlaces_map cs d.off (fun x => p.order.idxOf x) (d.off + 10) (by omega), show d.off + 10 - d.off = (data.take 10).length by omega] at p3
      rw [if_pos hcomp, p3, Option.getD_some]
      have hpatch := patchAll_enc cs (fun x => p.order.idxOf x) (data.take 10) t (Or.inl c1)
      rw [← hdata] at hpatch
      refine ⟨data, data.take 10 ++ (encComps (cs.map (renumber (fun x => p.order.idxOf x))) ++ t), a, d, k1, hpatch,
        Or.inr (Or.inr ⟨h10.1, hc, cs, t, hq, rfl⟩), rfl, k3, k7, k8, h3, ?_⟩
      intro cs' t' _ _ he c hcm
      rw [hq] at he
      cases he
      have : c.gid ∈ (compPlaces cs d.adv).map (·.2) := by
        rw [compPlaces_gids]
        exact List.mem_map_of_mem hcm
      obtain ⟨q, q1, q2⟩ := List.mem_map.1 this
      rw [← q2]
      exact p2 q q1
    · have hcomp : ¬ d.compound = true := by rw [k6]; simp; omega
      rw [if_neg hcomp]
      exact ⟨data, data, a, d, k1, rfl, Or.inr (Or.inl ⟨h10.1, by omega, rfl⟩), rfl, k3, k7, k8, h3, fun cs t _ hn => absurd hn hc⟩

/-! ### The tables -/

theorem ttConcat_ok {g : Nat → Res Bytes} {B : Nat → Bytes} (l : List Nat) (h : ∀ x ∈ l, g x = .ok (B x)) : ttConcat g l = .ok (l.flatMap B) := by
  induction l with
  | nil => rfl
  | cons a l ih =>
    rw [ttConcat, h a (by simp)]
    dsimp only
    rw [ih (fun x hx => h x (by simp [hx]))]
    rfl

theorem ttAddresses_spec {m : List (Nat × TtGlyph)} {B : Nat → Bytes} (l : List Nat) (h : ∀ x ∈ l, ∃ d, SMap.find? x m = some d ∧ d.len = (B x).length) :
    ∀ a, a + (l.flatMap B).length < 4294967296 →
      (ttAddresses m l a).length = l.length + 1 ∧ ∀ i, i ≤ l.length → (ttAddresses m l a)[i]? = some (a + ((l.take i).flatMap B).length) := by
  induction l with
  | nil =>
    intro a _
    refine ⟨rfl, fun i hi => ?_⟩
    have : i = 0 := by simpa using hi
    subst this
    rfl
  | cons x l ih =>
    intro a ha
    obtain ⟨d, d1, d2⟩ := h x (by simp)
    rw [List.flatMap_cons, List.length_append] at ha
    rw [ttAddresses, d1]
    simp only [Option.map_some, Option.getD_some]
    rw [Nat.mod_eq_of_lt (by omega), d2]
    obtain ⟨i1, i2⟩ := ih (fun y hy => h y (by simp [hy])) (a + (B x).length) (by omega)
    refine ⟨by rw [List.length_cons, i1, List.length_cons], fun i hi => ?_⟩
    cases i with
    | zero => simp
    | succ i =>
      rw [List.getElem?_cons_succ, i2 i (by simpa using hi), List.take_succ_cons, List.flatMap_cons, List.length_append]
      congr 1
      omega

theorem chunk {α : Type} (w : α → Bytes) (n : Nat) (hw : ∀ x, (w x).length = n) (l : List α) : (l.flatMap w).length = n * l.length ∧
    ∀ i x, l[i]? = some x → ((l.flatMap w).drop (n * i)).take n = w x := by
  induction l with
  | nil => simp
  | cons a l ih =>
    obtain ⟨i1, i2⟩ := ih
    refine ⟨?_, fun i x hx => ?_⟩
    · rw [List.flatMap_cons, List.length_append, hw, i1, List.length_cons, Nat.mul_succ]
      omega
    · cases i with
      | zero =>
        simp only [List.getElem?_cons_zero, Option.some.injEq] at hx
        subst hx
        rw [List.flatMap_cons, Nat.mul_zero, List.drop_zero, ← hw a, List.take_left]
      | succ i =>
        rw [List.getElem?_cons_succ] at hx
        rw [List.flatMap_cons, Nat.mul_succ, Nat.add_comm, ← List.drop_drop]
        conv => lhs; rw [show (w a ++ l.flatMap w).drop n = l.flatMap w from by rw [← hw a, List.drop_left]]
        exact i2 i x hx

theorem getElem?_lt {α : Type} {l : List α} {i : Nat} {x : α} (h : l[i]? = some x) : i < l.length := by
  rcases Nat.lt_or_ge i l.length with h1 | h1
  · exact h1
  · rw [List.getElem?_eq_none h1] at h
    cases h

theorem locaEntry_long {as : List Nat} {i a : Nat} (h : as[i]? = some a) (ha : a < 4294967296) : Spec.ttLocaEntry (ttLoca true as) true i = some a := by
  obtain ⟨c1, c2⟩ := chunk ttW32 4 W32_length as
  have := getElem?_lt h
  simp only [Spec.ttLocaEntry, if_true, ttLoca, Spec.beAt]
  rw [if_pos (by rw [c1]; omega), c2 i a h, be_W32 _ ha]

theorem locaEntry_short {as : List Nat} {i a : Nat} (h : as[i]? = some a) (ha : a ≤ 131070) (he : a % 2 = 0) :
    Spec.ttLocaEntry (ttLoca false as) false i = some a := by
  obtain ⟨c1, c2⟩ := chunk (fun a => ttW16 (a / 2)) 2 (fun _ => W16_length _) as
  have := getElem?_lt h
  simp only [Spec.ttLocaEntry, Bool.false_eq_true, if_false, ttLoca, Spec.beAt]
  rw [if_pos (by rw [c1]; omega), c2 i a h, be_W16 _ (by omega), Option.map_some]
  congr 1
  omega

/-! ### The size of the glyph table -/

theorem sum_le_of_subset (w : Nat → Nat) : ∀ (l r : List Nat), l.Nodup → (∀ x ∈ l, x ∈ r) → (l.map w).sum ≤ (r.map w).sum := by
  intro l
  induction l with
  | nil =>
    intro r _ _
    simp
  | cons a l ih =>
    intro r hn hs
    rw [List.nodup_cons] at hn
    have hperm := List.perm_cons_erase (hs a (by simp))
    have h1 : (r.map w).sum = ((a :: r.erase a).map w).sum := (hperm.map w).sum_nat
    rw [h1, List.map_cons, List.map_cons, List.sum_cons, List.sum_cons]
    have := ih (r.erase a) hn.2 (fun x hx => (List.mem_erase_of_ne (fun (e : x = a) => hn.1 (e ▸ hx))).2 (hs x (by simp [hx])))
    omega

theorem sum_range_steps (E : Nat → Nat) (n : Nat) (h : ∀ i, i < n → E i ≤ E (i + 1)) : ((List.range n).map (fun i => E (i + 1) - E i)).sum + E 0 = E n := by
  induction n with
  | zero => simp
  | succ n ih =>
    rw [List.range_succ, List.map_append, List.sum_append]
    have := ih (fun i hi => h i (by omega))
    have := h n (by omega)
    simp
    omega

theorem flatMap_length_sum (B : Nat → Bytes) (l : List Nat) : (l.flatMap B).length = (l.map (fun x => (B x).length)).sum := by
  rw [List.length_flatMap]

theorem locaAt_short {f : TtFont} (hs : f.long = false) {i a : Nat} (h : f.locaAt i = .ok a) : a ≤ 131070 ∧ a % 2 = 0 := by
  rw [TtFont.locaAt, hs] at h
  simp only [Bool.false_eq_true, if_false] at h
  cases hu : ttU16 f.file (f.loca + 2 * i) with
  | error e =>
    rw [hu] at h
    cases h
  | ok n =>
    rw [hu] at h
    cases h
    have hb := ttU16_bound hu
    rw [ttU16_ok hb] at hu
    cases hu
    have := be_lt ((f.file.drop (f.loca + 2 * i)).take 2)
    rw [show ((f.file.drop (f.loca + 2 * i)).take 2).length = 2 from by rw [List.length_take, List.length_drop]; omega] at this
    omega

/-- A value of a result. -/
def okVal (r : Res Nat) : Nat := match r with | .ok a => a | .error _ => 0

theorem total_le {f : TtFont} {old : Nat → Option Bytes} (hold : OldGlyphs f old) {l : List Nat} (hn : l.Nodup) (hl : ∀ g ∈ l, g < f.count) {B : Nat → Bytes}
    (hB : ∀ g ∈ l, ∃ a, f.locaAt g = .ok a ∧ f.locaAt (g + 1) = .ok (a + (B g).length)) : (l.flatMap B).length ≤ okVal (f.locaAt f.count) := by
  have hmono : ∀ i, i < f.count → okVal (f.locaAt i) ≤ okVal (f.locaAt (i + 1)) := by
    intro i hi
    obtain ⟨a, data, h1, h2, _⟩ := hold i hi
    rw [h1, h2, okVal, okVal]
    omega
  have hs := sum_range_steps (fun i => okVal (f.locaAt i)) f.count hmono
  have hle := sum_le_of_subset (fun i => okVal (f.locaAt (i + 1)) - okVal (f.locaAt i)) l (List.range f.count) hn (fun x hx => List.mem_range.2 (hl x hx))
  rw [flatMap_length_sum]
  have e : l.map (fun x => (B x).length) = l.map (fun i => okVal (f.locaAt (i + 1)) - okVal (f.locaAt i)) := by
    refine List.map_congr_left (fun g hg => ?_)
    obtain ⟨a, h1, h2⟩ := hB g hg
    rw [h1, h2, okVal, okVal]
    omega
  rw [e]
  omega

theorem even_flatMap {f : TtFont} (hs : f.long = false) (l : List Nat) {B : Nat → Bytes}
    (hB : ∀ g ∈ l, ∃ a, f.locaAt g = .ok a ∧ f.locaAt (g + 1) = .ok (a + (B g).length)) : (l.flatMap B).length % 2 = 0 := by
  induction l with
  | nil => rfl
  | cons x l ih =>
    obtain ⟨a, h1, h2⟩ := hB x (by simp)
    have e1 := (locaAt_short hs h1).2
    have e2 := (locaAt_short hs h2).2
    have := ih (fun g hg => hB g (by simp [hg]))
    rw [List.flatMap_cons, List.length_append]
    omega

/-! ### The glyphs of the subset -/

theorem take_flatMap (B : Nat → Bytes) (l : List Nat) (i : Nat) (g : Nat) (h : l[i]? = some g) :
    l.flatMap B = (l.take i).flatMap B ++ (B g ++ (l.drop (i + 1)).flatMap B) := by
  induction l generalizing i with
  | nil => simp at h
  | cons a l ih =>
    cases i with
    | zero =>
      simp only [List.getElem?_cons_zero, Option.some.injEq] at h
      subst h
      simp
    | succ i =>
      rw [List.getElem?_cons_succ] at h
      rw [List.flatMap_cons, ih i h, List.take_succ_cons, List.flatMap_cons, List.drop_succ_cons, List.append_assoc]

theorem take_succ_flatMap (B : Nat → Bytes) (l : List Nat) (i : Nat) (g : Nat) (h : l[i]? = some g) :
    ((l.take (i + 1)).flatMap B).length = ((l.take i).flatMap B).length + (B g).length := by
  induction l generalizing i with
  | nil => simp at h
  | cons a l ih =>
    cases i with
    | zero =>
      simp only [List.getElem?_cons_zero, Option.some.injEq] at h
      subst h
      simp
    | succ i =>
      rw [List.getElem?_cons_succ] at h
      rw [List.take_succ_cons, List.flatMap_cons, List.take_succ_cons, List.flatMap_cons, List.length_append, List.length_append, ih i h]
      omega

/-- The tables that are written give the renumbered glyphs. -/
theorem tables_glyphs {f : TtFont} {old : Nat → Option Bytes} (hold : OldGlyphs f old) (hfile : f.file.length < 4294967296)
    {gids : List Nat} {p : TtPlan} (h : PlanSpec f gids p) : ∃ G, f.glyfOut p = .ok G ∧
      ∀ i g, p.order[i]? = some g → ∃ data out, old g = some data ∧ Spec.ttGlyphOf G (f.locaOut p) f.long i = some out ∧
        Renumbered (fun x => p.order.idxOf x) data out ∧
        ∀ cs t, data ≠ [] → 32768 ≤ be (data.take 2) → Spec.ttComps data.length (data.drop 10) = some (cs, t) → ∀ c ∈ cs, c.gid ∈ p.order := by
  have key := fun g (hg : g ∈ p.order) => glyphOut_renumbered hold hfile h hg
  obtain ⟨B, hBdef⟩ : ∃ B : Nat → Bytes, B = fun g => match f.glyphOut p.glyphs p.comps g with | .ok b => b | .error _ => [] := ⟨_, rfl⟩
  have hB : ∀ g ∈ p.order, f.glyphOut p.glyphs p.comps g = .ok (B g) := by
    intro g hg
    obtain ⟨data, out, a, d, k1, k2, _⟩ := key g hg
    rw [hBdef]
    dsimp only
    rw [k2]
  have hloc : ∀ g ∈ p.order, ∃ a, f.locaAt g = .ok a ∧ f.locaAt (g + 1) = .ok (a + (B g).length) := by
    intro g hg
    obtain ⟨data, out, a, d, k1, k2, k3, k4, k5, k6, k7, k8, k9⟩ := key g hg
    rw [hB g hg] at k2
    cases k2
    exact ⟨a, k6, by rw [k3.length]; exact k7⟩
  have hlen : ∀ g ∈ p.order, ∃ d, SMap.find? g p.glyphs = some d ∧ d.len = (B g).length := by
    intro g hg
    obtain ⟨data, out, a, d, k1, k2, k3, k4, k5, k6, k7, k8, k9⟩ := key g hg
    rw [hB g hg] at k2
    cases k2
    exact ⟨d, k4, by rw [k3.length]; exact k5⟩
  have hlt : ∀ g ∈ p.order, g < f.count := by
    intro g hg
    obtain ⟨_, _, _, k, _⟩ := h.glyph g hg
    exact k
  have htot := total_le hold h.nodup hlt hloc
  have hpos : 0 < f.count := by
    obtain ⟨ext, he⟩ := h.front
    exact Nat.lt_of_le_of_lt (Nat.zero_le _) (hlt 0 (by rw [he]; simp))
  have hlast : okVal (f.locaAt f.count) ≤ f.file.length := by
    obtain ⟨a, data, q1, q2, q3, _⟩ := hold (f.count - 1) (by omega)
    rw [show f.count - 1 + 1 = f.count by omega] at q2
    rw [q2, okVal]
    omega
  obtain ⟨ad1, ad2⟩ := ttAddresses_spec p.order hlen 0 (by omega)
  have hpre : ∀ i, ((p.order.take i).flatMap B).length ≤ (p.order.flatMap B).length := by
    intro i
    conv => rhs; rw [← List.take_append_drop i p.order]
    rw [List.flatMap_append, List.length_append]
    omega
  have hentry : ∀ i, i ≤ p.order.length → Spec.ttLocaEntry (f.locaOut p) f.long i = some (((p.order.take i).flatMap B).length) := by
    intro i hi
    have ha := ad2 i hi
    rw [Nat.zero_add] at ha
    have hle := hpre i
    rw [TtFont.locaOut]
    cases hs : f.long with
    | true => exact locaEntry_long ha (by omega)
    | false =>
      refine locaEntry_short ha ?_ ?_
      · obtain ⟨a, data, q1, q2, q3, _⟩ := hold (f.count - 1) (by omega)
        rw [show f.count - 1 + 1 = f.count by omega] at q2
        have := (locaAt_short hs q2).1
        rw [q2, okVal] at htot
        omega
      · exact even_flatMap hs _ (fun g hg => hloc g (List.mem_of_mem_take hg))
  refine ⟨p.order.flatMap B, ttConcat_ok _ hB, fun i g hig => ?_⟩
  have hmem : g ∈ p.order := List.mem_of_getElem? hig
  have hi := getElem?_lt hig
  obtain ⟨data, out, a, d, k1, k2, k3, k4, k5, k6, k7, k8, k9⟩ := key g hmem
  rw [hB g hmem] at k2
  cases k2
  refine ⟨data, B g, k1, ?_, k3, k9⟩
  rw [Spec.ttGlyphOf, hentry i (by omega), hentry (i + 1) (by omega)]
  dsimp only
  have e1 := take_succ_flatMap B p.order i g hig
  have e2 := take_flatMap B p.order i g hig
  have e3 := hpre (i + 1)
  rw [if_pos ⟨by omega, e3⟩, e1, Nat.add_sub_cancel_left]
  rw [e2, List.drop_left, List.take_left]

/-- Renumbered glyphs draw the same. -/
theorem outline_renumbered {old new : Nat → Option Bytes} {order : List Nat} (hlen : order.length < 65536)
    (h : ∀ i g, order[i]? = some g → ∃ data out, old g = some data ∧ new i = some out ∧ Renumbered (fun x => order.idxOf x) data out ∧
      ∀ cs t, data ≠ [] → 32768 ≤ be (data.take 2) → Spec.ttComps data.length (data.drop 10) = some (cs, t) → ∀ c ∈ cs, c.gid ∈ order) (n : Nat) :
    ∀ i g, order[i]? = some g → Spec.outline new n i = Spec.outline old n g := by
  induction n with
  | zero =>
    intro i g _
    rfl
  | succ n ih =>
    intro i g hig
    obtain ⟨data, out, k1, k2, k3, k4⟩ := h i g hig
    rw [Spec.outline, Spec.outline, k1, k2]
    dsimp only
    rcases k3 with ⟨h1, h2⟩ | ⟨_, _, h2⟩ | ⟨h1, h2, cs, t, h3, h4⟩
    · rw [h1, h2]
      simp
    · rw [h2]
      by_cases hd : data = []
      · rw [if_pos hd, if_pos hd]
      · rw [if_neg hd, if_neg hd, if_neg (by omega), if_neg (by omega)]
    · obtain ⟨c1, c2, c3⟩ := ttComps_inv _ _ _ _ h3
      have hd : data ≠ [] := by
        intro e
        rw [e] at h1
        simp at h1
      have ho : out ≠ [] := by
        intro e
        have := congrArg List.length h4
        rw [e] at this
        simp only [List.length_append, List.length_take, List.length_nil] at this
        omega
      have hhead : (data.take 10).length = 10 := by rw [List.length_take]; omega
      have e1 : out.take 2 = data.take 2 := by
        rw [h4, List.take_append_of_le_length (by omega), List.take_take, Nat.min_eq_left (by omega)]
      have e2 : out.take 10 = data.take 10 := by
        rw [h4, List.take_append_of_le_length (by omega), List.take_take, Nat.min_self]
      have e3 : out.drop 10 = encComps (cs.map (renumber (fun x => order.idxOf x))) ++ t := by
        rw [h4, List.drop_append, List.drop_eq_nil_of_le (by omega), hhead, Nat.sub_self, List.drop_zero, List.nil_append]
      have hφ : ∀ x, order.idxOf x < 65536 := fun x => Nat.lt_of_le_of_lt List.idxOf_le_length hlen
      have hl : out.length = data.length := Renumbered.length (φ := fun x => order.idxOf x) (Or.inr (Or.inr ⟨h1, h2, cs, t, h3, h4⟩))
      have e4 : Spec.ttComps out.length (out.drop 10) = some (cs.map (renumber (fun x => order.idxOf x)), t) := by
        rw [e3]
        exact ttComps_enc _ _ _ (renumber_ok _ hφ _ c1) (by rw [List.length_map, hl]; exact c3)
      rw [if_neg hd, if_neg ho, e1, if_pos h2, if_pos h2, h3, e4, e2]
      dsimp only
      rw [List.map_map]
      congr 1
      refine List.map_congr_left (fun c hc => ?_)
      have hm := k4 cs t hd h2 h3 c hc
      simp only [Function.comp_apply, renumber]
      rw [ih (order.idxOf c.gid) c.gid ?_]
      have hlt := List.idxOf_lt_length_of_mem hm
      rw [List.getElem?_eq_getElem hlt, List.getElem_idxOf hlt]

end Pdfmm
