import Verif.Parser.XChainModel
import Verif.XRef.TextProps
/-
Following cross-reference chains: termination, and what never changes.
-/
set_option autoImplicit false
namespace Pdfmm

/-- What a run does to the state whatever happens; `T` holds of every offset it may visit. -/
structure Grow {V : Type} (T : Nat → Prop) (c : Nat) (st st' : CState V) : Prop where
  suffix : st.visited <:+ st'.visited
  nodup : st.visited.Nodup → st'.visited.Nodup
  known : ∀ n e, st.entries n = some e → st'.entries n = some e
  log : st'.log.length + 2 * st.visited.length ≤ st.log.length + 2 * st'.visited.length + c
  new : ∀ o ∈ st'.visited, o ∈ st.visited ∨ T o

theorem Grow.refl {V : Type} {T : Nat → Prop} (c : Nat) (st : CState V) : Grow T c st st :=
  ⟨List.suffix_refl _, id, fun _ _ h => h, by omega, fun _ h => .inl h⟩

theorem Grow.trans {V : Type} {T : Nat → Prop} {a b : Nat} {s t u : CState V} (h : Grow T a s t) (k : Grow T b t u) :
    Grow T (a + b) s u :=
  ⟨h.suffix.trans k.suffix, fun x => k.nodup (h.nodup x), fun n e x => k.known n e (h.known n e x),
    by have := h.log; have := k.log; omega,
    fun o x => (k.new o x).elim (fun y => h.new o y) .inr⟩

theorem Grow.weaken {V : Type} {T : Nat → Prop} {a b : Nat} {s t : CState V} (h : Grow T a s t) (hab : a ≤ b) :
    Grow T b s t := ⟨h.suffix, h.nodup, h.known, by have := h.log; omega, h.new⟩

/-- Changes of other components do not matter. -/
theorem Grow.of_eq {V : Type} {T : Nat → Prop} {c : Nat} {s s' t t' : CState V} (h : Grow T c s t)
    (h1 : s'.visited = s.visited) (h2 : s'.entries = s.entries) (h3 : s'.log = s.log)
    (k1 : t'.visited = t.visited) (k2 : t'.entries = t.entries) (k3 : t'.log = t.log) : Grow T c s' t' :=
  ⟨by rw [h1, k1]; exact h.suffix, by rw [h1, k1]; exact h.nodup, by rw [h2, k2]; exact h.known,
    by rw [h1, h3, k1, k3]; exact h.log, by rw [h1, k1]; exact h.new⟩

theorem Grow.left {V : Type} {T : Nat → Prop} {c : Nat} {s s' t : CState V} (h : Grow T c s t)
    (h1 : s'.visited = s.visited) (h2 : s'.entries = s.entries) (h3 : s'.log = s.log) : Grow T c s' t :=
  h.of_eq h1 h2 h3 rfl rfl rfl

theorem addEntries_known (l : List (Nat × XEntry)) (f : Nat → Option XEntry) (n : Nat) (e : XEntry)
    (h : f n = some e) : addEntries f l n = some e := by
  induction l generalizing f with
  | nil => exact h
  | cons p r ih =>
    obtain ⟨k, e'⟩ := p
    simp only [addEntries]
    apply ih
    split
    · rename_i hk
      by_cases hn : n = k
      · subst hn; rw [h] at hk; cases hk
      · simp only [hn, if_false]; exact h
    · exact h

theorem guardC_grow {V : Type} {T : Nat → Prop} {c : Nat} (max : Nat) (m : CState V → Res Unit × CState V)
    (h : ∀ st, Grow T c st (m st).2) (st : CState V) : Grow T c st (guardC max m st).2 := by
  unfold guardC
  split
  · exact (Grow.refl c st).of_eq rfl rfl rfl rfl rfl rfl
  · have := h { st with depth := st.depth + 1 }
    exact this.of_eq rfl rfl rfl rfl rfl rfl

theorem ignoreNoTrailer_state {V : Type} (r : Res Unit × CState V) : (ignoreNoTrailer r).2 = r.2 := by
  unfold ignoreNoTrailer; split <;> rfl

theorem ignoreNoNumber_state {V : Type} (r : Res Unit × CState V) : (ignoreNoNumber r).2 = r.2 := by
  unfold ignoreNoNumber; split <;> rfl

theorem addTrailer_visited {V : Type} (st : CState V) (d : List (Bytes × V)) : (st.addTrailer d).visited = st.visited := rfl

/-- A set of offsets closed under the references of the sections of the file. -/
structure Closed {V : Type} (F : XFile V) (T : Nat → Prop) : Prop where
  table : ∀ off pos tr p, F.position off = .ok pos → (F.table pos).trailer = .ok tr → tr.prev = some p → T p.toNat
  stream : ∀ pos s p, F.stream pos = .ok s → s.prev = some p → T p

theorem chain_grow {V : Type} (max : Nat) (F : XFile V) (T : Nat → Prop) (hT : Closed F T) (f : Nat) :
    (∀ off st, T off → Grow T 0 st (readContents max F f off st).2) ∧
    (∀ off pos st, F.position off = .ok pos → Grow T 1 st (readTrailer max F f (F.table pos) st).2) ∧
    (∀ pos st, Grow T 1 st (readStream max F f pos st).2) := by
  induction f with
  | zero =>
    refine ⟨fun off st _ => ?_, fun _ _ st _ => ?_, fun pos st => ?_⟩
    · rw [readContents]; exact guardC_grow max _ (fun st => Grow.refl _ st) st
    · rw [readTrailer]; exact guardC_grow max _ (fun st => Grow.refl _ st) st
    · rw [readStream]; exact guardC_grow max _ (fun st => Grow.refl _ st) st
  | succ f ih =>
    obtain ⟨ihc, iht, ihs⟩ := ih
    refine ⟨fun off st hoff => ?_, fun off pos st hpos => ?_, fun pos st => ?_⟩
    · rw [readContents]
      apply guardC_grow
      intro st
      dsimp only
      split
      · exact Grow.refl _ _
      · rename_i hv
        have hins : ∀ c (u : CState V), Grow T c { st with visited := off :: st.visited } u → c ≤ 2 →
            Grow T 0 st u := by
          intro c u h hc
          refine ⟨(List.suffix_cons _ _).trans h.suffix, fun hn => h.nodup (List.nodup_cons.2 ⟨hv, hn⟩), h.known, ?_, ?_⟩
          · have := h.log
            simp only [List.length_cons] at this
            omega
          · intro o ho
            rcases h.new o ho with h' | h'
            · rcases List.mem_cons.1 h' with h'' | h''
              · exact .inr (h'' ▸ hoff)
              · exact .inl h''
            · exact .inr h'
        split
        · exact hins 0 _ (Grow.refl _ _) (by omega)
        · rename_i pos hpos
          split
          · exact hins 0 _ (Grow.refl _ _) (by omega)
          · split
            · exact hins 0 _ (Grow.refl _ _) (by omega)
            · exact hins 1 _ (ihs _ _) (by omega)
          · have htab : ∀ u : CState V, Grow T 1 (CState.addTable { st with visited := off :: st.visited } pos (F.table pos)) u →
                Grow T 0 st u := by
              intro u h
              refine hins 2 u ⟨h.suffix, h.nodup, fun n e hn => h.known n e (addEntries_known _ _ n e hn), ?_, h.new⟩ (by omega)
              have := h.log
              simp only [CState.addTable, List.length_cons] at this ⊢
              omega
            split
            · rw [ignoreNoTrailer_state]; exact htab _ (iht off pos _ hpos)
            · split
              · rw [ignoreNoTrailer_state]; exact htab _ (iht off pos _ hpos)
              · exact htab _ (Grow.refl _ _)
    · rw [readTrailer]
      apply guardC_grow
      intro st
      split
      · exact Grow.refl _ _
      · rename_i tr htr
        split
        · exact (Grow.refl _ _).of_eq rfl rfl rfl rfl rfl rfl
        · have hprev : ∀ u : CState V, Grow T 0 u (followPrev (readContents max F f) tr.prev u).2 := by
            intro u
            unfold followPrev
            split
            · exact Grow.refl _ _
            · rename_i p hp
              split
              · split
                · exact (Grow.refl _ _).of_eq rfl rfl rfl rfl rfl rfl
                · exact Grow.left (ihc p.toNat _ (hT.table off pos tr p hpos htr hp)) rfl rfl rfl
              · exact Grow.refl _ _
          have hseq : ∀ (r : Res Unit × CState V) (k : CState V → Res Unit × CState V), Grow T 1 st r.2 →
              (∀ u, Grow T 0 u (k u).2) → Grow T 1 st (thenC r k).2 := by
            intro r k h1 h2
            obtain ⟨a, u⟩ := r
            cases a with
            | error e => exact h1
            | ok x => exact h1.trans (h2 u)
          apply hseq _ _ ?_ hprev
          unfold followStm
          split
          · exact (Grow.refl _ _).of_eq rfl rfl rfl rfl rfl rfl
          · exact Grow.left (ihs _ _) rfl rfl rfl
    · rw [readStream]
      apply guardC_grow
      intro st
      dsimp only
      split
      · exact Grow.refl _ _
      · rename_i s hs
        split
        · exact (Grow.refl _ _).of_eq rfl rfl rfl rfl rfl rfl
        · have hadd : ∀ u : CState V, Grow T 0 (st.addStream pos s) u → Grow T 1 st u := by
            intro u h
            refine ⟨h.suffix, h.nodup, fun n e hn => h.known n e (addEntries_known _ _ n e hn), ?_, h.new⟩
            have := h.log
            simp only [CState.addStream, CState.addTrailer, List.length_cons] at this ⊢
            omega
          split
          · exact hadd _ (Grow.refl _ _)
          · split
            · exact hadd _ (Grow.refl _ _)
            · rename_i p hp
              split
              · exact hadd _ (Grow.refl _ _)
              · rw [ignoreNoNumber_state]
                exact hadd _ (Grow.left (ihc p _ (hT.stream pos s p hs hp)) rfl rfl rfl)

/-- The file itself never makes a read run forever. -/
structure XFile.Total {V : Type} (F : XFile V) : Prop where
  keyword : ∀ pos, F.keyword pos ≠ .error .diverge
  fallback : F.fallback ≠ .error .diverge
  fault : ∀ pos, (F.table pos).fault ≠ some .diverge
  trailer : ∀ pos, (F.table pos).trailer ≠ .error .diverge
  stream : ∀ pos, F.stream pos ≠ .error .diverge
  sfault : ∀ pos s, F.stream pos = .ok s → s.fault ≠ some .diverge

/-- The outcome of a run at a depth: it ended, and the depth is restored unless the limit was hit. -/
structure Ends {V : Type} (d : Nat) (r : Res Unit × CState V) : Prop where
  ends : r.1 ≠ .error .diverge
  depth : r.2.depth = d ∨ (r.2.depth = d + 1 ∧ r.1 = raise .InvalidXRef)

theorem guardC_ends {V : Type} (max : Nat) (m : CState V → Res Unit × CState V) (st : CState V)
    (h : st.depth + 1 ≤ max → Ends (st.depth + 1) (m { st with depth := st.depth + 1 })) :
    Ends st.depth (guardC max m st) := by
  unfold guardC
  split
  · exact ⟨(fun h => nomatch h), .inr ⟨rfl, rfl⟩⟩
  · rename_i hd
    have := h (by omega)
    obtain ⟨h1, h2⟩ := this
    refine ⟨h1, ?_⟩
    rcases h2 with h2 | ⟨h2, h3⟩
    · left; dsimp only [leaveC]; omega
    · right; refine ⟨?_, h3⟩; dsimp only [leaveC]; omega

theorem ignoreNoTrailer_ends {V : Type} {d : Nat} {r : Res Unit × CState V} (h : Ends d r) : Ends d (ignoreNoTrailer r) := by
  unfold ignoreNoTrailer
  split
  · refine ⟨(fun h => nomatch h), ?_⟩
    rcases h.depth with h | ⟨_, h⟩
    · exact .inl h
    · exact nomatch h
  · exact h

theorem ignoreNoNumber_ends {V : Type} {d : Nat} {r : Res Unit × CState V} (h : Ends d r) : Ends d (ignoreNoNumber r) := by
  unfold ignoreNoNumber
  split
  · refine ⟨(fun h => nomatch h), ?_⟩
    rcases h.depth with h | ⟨_, h⟩
    · exact .inl h
    · exact nomatch h
  · exact h

theorem chain_ends {V : Type} (max : Nat) (F : XFile V) (hF : F.Total) (f : Nat) :
    (∀ off d (st : CState V), st.depth = d → max ≤ f + d → Ends d (readContents max F f off st)) ∧
    (∀ pos d (st : CState V), st.depth = d → max ≤ f + d → Ends d (readTrailer max F f (F.table pos) st)) ∧
    (∀ pos d (st : CState V), st.depth = d → max ≤ f + d → Ends d (readStream max F f pos st)) := by
  induction f with
  | zero =>
    refine ⟨fun off d st hst h => ?_, fun _ d st hst h => ?_, fun pos d st hst h => ?_⟩
    · rw [readContents]; subst hst; exact guardC_ends max _ st (fun h' => by omega)
    · rw [readTrailer]; subst hst; exact guardC_ends max _ st (fun h' => by omega)
    · rw [readStream]; subst hst; exact guardC_ends max _ st (fun h' => by omega)
  | succ f ih =>
    obtain ⟨ihc, iht, ihs⟩ := ih
    refine ⟨fun off d st hst hd => ?_, fun pos d st hst hd => ?_, fun pos d st hst hd => ?_⟩
    all_goals subst hst
    · rw [readContents]
      apply guardC_ends
      intro hle
      dsimp only
      split
      · exact ⟨(fun h => nomatch h), .inl rfl⟩
      · split
        · rename_i e he
          refine ⟨fun h => hF.fallback ?_, .inl rfl⟩
          unfold XFile.position at he
          split at he
          · rw [he]; exact congrArg _ (Except.error.inj h)
          · cases he
        · rename_i pos hpos
          split
          · rename_i e he
            exact ⟨fun h => hF.keyword pos (by rw [he]; exact congrArg _ (Except.error.inj h)), .inl rfl⟩
          · split
            · exact ⟨(fun h => nomatch h), .inl rfl⟩
            · exact ihs _ _ _ rfl (by omega)
          · split
            · exact ignoreNoTrailer_ends (iht pos _ _ rfl (by omega))
            · rename_i e he
              split
              · exact ignoreNoTrailer_ends (iht pos _ _ rfl (by omega))
              · exact ⟨fun h => hF.fault pos (by rw [he]; exact congrArg _ (Except.error.inj h)), .inl rfl⟩
    · rw [readTrailer]
      apply guardC_ends
      intro hle
      dsimp only
      split
      · rename_i e he
        exact ⟨fun h => hF.trailer pos (by rw [he]; exact congrArg _ (Except.error.inj h)), .inl rfl⟩
      · rename_i tr htr
        split
        · exact ⟨(fun h => nomatch h), .inr ⟨rfl, rfl⟩⟩
        · have hseq : ∀ (r : Res Unit × CState V) (k : CState V → Res Unit × CState V), Ends (st.depth + 1) r →
              (∀ u, u.depth = st.depth + 1 → Ends (st.depth + 1) (k u)) → Ends (st.depth + 1) (thenC r k) := by
            intro r k h1 h2
            obtain ⟨a, u⟩ := r
            cases a with
            | error e => exact h1
            | ok x =>
              rcases h1.depth with h | ⟨_, h⟩
              · exact h2 u h
              · exact nomatch h
          apply hseq
          · unfold followStm
            split
            · exact ⟨(fun h => nomatch h), .inl rfl⟩
            · exact ihs _ _ _ rfl (by omega)
          · intro u hu
            unfold followPrev
            split
            · exact ⟨(fun h => nomatch h), .inl hu⟩
            · split
              · split
                · exact ⟨(fun h => nomatch h), .inl hu⟩
                · exact ihc _ _ _ hu (by omega)
              · exact ⟨(fun h => nomatch h), .inl hu⟩
    · rw [readStream]
      apply guardC_ends
      intro hle
      dsimp only
      split
      · rename_i e he
        exact ⟨fun h => hF.stream pos (by rw [he]; exact congrArg _ (Except.error.inj h)), .inl rfl⟩
      · rename_i s hs
        split
        · exact ⟨(fun h => nomatch h), .inr ⟨rfl, rfl⟩⟩
        · split
          · rename_i e he
            exact ⟨fun h => hF.sfault pos s hs (by rw [he]; exact congrArg _ (Except.error.inj h)), .inl rfl⟩
          · split
            · exact ⟨(fun h => nomatch h), .inl rfl⟩
            · split
              · exact ⟨(fun h => nomatch h), .inl rfl⟩
              · exact ignoreNoNumber_ends (ihc _ _ _ rfl (by omega))

theorem guardC_congr {V : Type} (max : Nat) (m m' : CState V → Res Unit × CState V) (st : CState V)
    (h : st.depth + 1 ≤ max → m { st with depth := st.depth + 1 } = m' { st with depth := st.depth + 1 }) :
    guardC max m st = guardC max m' st := by
  unfold guardC
  split
  · rfl
  · rw [h (by omega)]

/-- More fuel than levels changes nothing. -/
theorem chain_fuel {V : Type} (max : Nat) (F : XFile V) (hF : F.Total) (f : Nat) :
    (∀ off (st : CState V), max ≤ f + st.depth → readContents max F (f + 1) off st = readContents max F f off st) ∧
    (∀ pos (st : CState V), max ≤ f + st.depth →
      readTrailer max F (f + 1) (F.table pos) st = readTrailer max F f (F.table pos) st) ∧
    (∀ pos (st : CState V), max ≤ f + st.depth → readStream max F (f + 1) pos st = readStream max F f pos st) := by
  induction f with
  | zero =>
    refine ⟨fun off st h => ?_, fun _ st h => ?_, fun pos st h => ?_⟩
    · rw [readContents, readContents]; exact guardC_congr max _ _ st (fun h' => by omega)
    · rw [readTrailer, readTrailer]; exact guardC_congr max _ _ st (fun h' => by omega)
    · rw [readStream, readStream]; exact guardC_congr max _ _ st (fun h' => by omega)
  | succ f ih =>
    obtain ⟨ihc, iht, ihs⟩ := ih
    refine ⟨fun off st hd => ?_, fun pos st hd => ?_, fun pos st hd => ?_⟩
    · rw [readContents, readContents]
      apply guardC_congr
      intro hle
      have e1 : ∀ pos (u : CState V), u.depth = st.depth + 1 →
          readStream max F (f + 1) pos u = readStream max F f pos u := fun pos u hu => ihs pos u (by omega)
      have e2 : ∀ pos (u : CState V), u.depth = st.depth + 1 →
          readTrailer max F (f + 1) (F.table pos) u = readTrailer max F f (F.table pos) u :=
        fun pos u hu => iht pos u (by omega)
      dsimp only
      split
      · rfl
      · split
        · rfl
        · split
          · rfl
          · split
            · rfl
            · exact e1 _ _ rfl
          · split
            · rw [e2 _ _ rfl]
            · split
              · rw [e2 _ _ rfl]
              · rfl
    · rw [readTrailer, readTrailer]
      apply guardC_congr
      intro hle
      have e1 : ∀ pos (u : CState V), u.depth = st.depth + 1 →
          readStream max F (f + 1) pos u = readStream max F f pos u := fun pos u hu => ihs pos u (by omega)
      have e2 : ∀ off (u : CState V), u.depth = st.depth + 1 →
          readContents max F (f + 1) off u = readContents max F f off u := fun off u hu => ihc off u (by omega)
      dsimp only
      split
      · rfl
      · rename_i tr htr
        split
        · rfl
        · have hk : ∀ (r : Res Unit × CState V) (k k' : CState V → Res Unit × CState V), Ends (st.depth + 1) r →
              (∀ u, u.depth = st.depth + 1 → k u = k' u) → thenC r k = thenC r k' := by
            intro r k k' h1 h2
            obtain ⟨a, u⟩ := r
            cases a with
            | error e => rfl
            | ok x =>
              rcases h1.depth with h | ⟨_, h⟩
              · exact h2 u h
              · exact nomatch h
          have hk2 : ∀ u : CState V, u.depth = st.depth + 1 →
              followPrev (readContents max F (f + 1)) tr.prev u = followPrev (readContents max F f) tr.prev u := by
            intro u hu
            unfold followPrev
            split
            · rfl
            · split
              · split
                · rfl
                · exact e2 _ _ hu
              · rfl
          have hs : followStm (readStream max F (f + 1)) tr (CState.addTrailer { st with depth := st.depth + 1 } tr.dict) =
              followStm (readStream max F f) tr (CState.addTrailer { st with depth := st.depth + 1 } tr.dict) := by
            unfold followStm
            split
            · rfl
            · exact e1 _ _ rfl
          rw [hs]
          refine hk _ _ _ ?_ hk2
          unfold followStm
          split
          · exact ⟨(fun h => nomatch h), .inl rfl⟩
          · exact (chain_ends max F hF f).2.2 _ _ _ rfl (by omega)
    · rw [readStream, readStream]
      apply guardC_congr
      intro hle
      have e2 : ∀ off (u : CState V), u.depth = st.depth + 1 →
          readContents max F (f + 1) off u = readContents max F f off u := fun off u hu => ihc off u (by omega)
      dsimp only
      split
      · rfl
      · split
        · rfl
        · split
          · rfl
          · split
            · rfl
            · split
              · rfl
              · rw [e2 _ _ rfl]

end Pdfmm
