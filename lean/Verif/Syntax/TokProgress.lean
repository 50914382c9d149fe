import Verif.Syntax.TokModel
/-
C20: reading always makes progress and ends.
-/
namespace Pdfmm

theorem lexLoop_progress (cap : Nat) (hcap : 2 ≤ cap) (com : Bool) (inp acc : Bytes)
    (ha : acc.length ≤ cap) (t : Tok) (r : Bytes) (h : lexLoop cap com inp acc = some (t, r)) :
    t.text ≠ [] ∧ r.length + t.text.length ≤ inp.length + acc.length ∧ t.text.length ≤ cap := by
  induction inp generalizing com acc with
  | nil =>
    cases com <;> simp only [lexLoop] at h <;> split at h <;> simp at h <;>
      (obtain ⟨h1, h2⟩ := h; subst h1; subst h2; refine ⟨by assumption, by simp, ha⟩)
  | cons c rest ih =>
    cases com with
    | true =>
      simp only [lexLoop] at h
      split at h
      · split at h
        · simp at h; obtain ⟨h1, h2⟩ := h; subst h1; subst h2
          exact ⟨by assumption, by simp, ha⟩
        · have := ih false [] (by simp) h
          simp at this ⊢
          exact ⟨this.1, by omega, this.2.2⟩
      · have := ih true acc ha h
        simp at this ⊢
        exact ⟨this.1, by omega, this.2.2⟩
    | false =>
      simp only [lexLoop] at h
      split at h
      · rename_i hc
        simp at h; obtain ⟨h1, h2⟩ := h; subst h1; subst h2
        refine ⟨?_, by simp, ha⟩
        intro e; simp at e; subst e; simp at hc; omega
      · split at h
        · have := ih false acc ha h
          simp at this ⊢
          exact ⟨this.1, by omega, this.2.2⟩
        · split at h
          · have := ih true acc ha h
            simp at this ⊢
            exact ⟨this.1, by omega, this.2.2⟩
          · split at h
            · rename_i hh
              cases rest with
              | nil => simp [lexAngle] at h; obtain ⟨h1, h2⟩ := h; subst h1; subst h2; simp [hh.1]; omega
              | cons c2 r2 =>
                simp only [lexAngle] at h
                split at h <;> (simp at h; obtain ⟨h1, h2⟩ := h; subst h1; subst h2; simp [hh.1]; omega)
            · split at h
              · simp at h; obtain ⟨h1, h2⟩ := h; subst h1; subst h2
                rename_i hh
                exact ⟨hh.1, by simp, ha⟩
              · split at h
                · simp at h; obtain ⟨h1, h2⟩ := h; subst h1; subst h2
                  simp; omega
                · have := ih false (acc ++ [c]) (by simp; omega) h
                  simp at this ⊢
                  exact ⟨this.1, by omega, this.2.2⟩

theorem lex_progress {cap : Nat} (hcap : 2 ≤ cap) {inp : Bytes} {t : Tok} {r : Bytes}
    (h : lex cap inp = some (t, r)) :
    t.text ≠ [] ∧ r.length + t.text.length ≤ inp.length ∧ t.text.length ≤ cap := by
  have := lexLoop_progress cap hcap false inp [] (by simp) t r h
  simpa using this

theorem length_pos_of_ne {a : Bytes} (h : a ≠ []) : 0 < a.length :=
  List.length_pos_iff.2 h

/-- Queued tokens are non-empty and fit the buffer; every state the tokenizer reaches has this. -/
def QOk (cap : Nat) (s : PS) : Prop := ∀ t ∈ s.queue, t.text ≠ [] ∧ t.text.length ≤ cap

theorem QOk_fresh (cap : Nat) (inp : Bytes) (d : Nat) : QOk cap ⟨[], inp, d⟩ := by
  intro t ht; cases ht

theorem tryReadToken_some {cap : Nat} (hcap : 2 ≤ cap) {s s' : PS} {t : Tok} (hq : QOk cap s)
    (h : tryReadToken cap s = (some t, s')) :
    s'.weight + t.text.length ≤ s.weight ∧ t.text ≠ [] ∧ t.text.length ≤ cap ∧ QOk cap s' ∧
      s'.depth = s.depth ∧ (s.queue = [] → s'.inp.length + t.text.length ≤ s.inp.length) := by
  unfold tryReadToken at h
  cases hs : s.queue with
  | cons u q =>
    rw [hs] at h
    simp at h
    obtain ⟨h1, h2⟩ := h
    have hu := hq u (by rw [hs]; exact List.mem_cons_self)
    have e : u.text.take cap = u.text := List.take_of_length_le hu.2
    subst h1; subst h2
    refine ⟨?_, ?_, ?_, ?_, rfl, by simp⟩
    · simp [PS.weight, hs, e]; omega
    · simp only [e]; exact hu.1
    · simp only [e]; exact hu.2
    · intro v hv; exact hq v (by rw [hs]; exact List.mem_cons_of_mem _ hv)
  | nil =>
    rw [hs] at h
    simp only at h
    cases hl : lex cap s.inp with
    | none => rw [hl] at h; simp at h
    | some p =>
      obtain ⟨u, r⟩ := p
      rw [hl] at h
      simp at h
      obtain ⟨h1, h2⟩ := h
      subst h1; subst h2
      obtain ⟨a, b, c⟩ := lex_progress hcap hl
      refine ⟨?_, a, c, ?_, rfl, fun _ => b⟩
      · simp [PS.weight, hs]; omega
      · intro v hv; cases hv

theorem tryReadToken_none {cap : Nat} {s s' : PS} (h : tryReadToken cap s = (none, s')) :
    s.queue = [] ∧ s' = { s with inp := [] } := by
  unfold tryReadToken at h
  cases hs : s.queue with
  | cons u q => rw [hs] at h; simp at h
  | nil =>
    rw [hs] at h; simp only at h
    cases hl : lex cap s.inp with
    | none => rw [hl] at h; simp at h; exact ⟨rfl, h.symm⟩
    | some p => rw [hl] at h; simp at h

/-- Calling `TryReadNextToken` until it returns false: the tokens returned, or `none` when it was
still returning true after `n` calls. -/
def readAll (cap : Nat) : Nat → PS → Option (List Tok × PS)
  | 0, _ => none
  | n + 1, s =>
    match tryReadToken cap s with
    | (none, s') => some ([], s')
    | (some t, s') => (readAll cap n s').map (fun p => (t :: p.1, p.2))

/-- C20. From any state, a token read that succeeds consumes at least one byte (of the device when
nothing was queued); after at most one call per byte the tokenizer reports the end of input; from
then on every call reports it again. -/
theorem C20_tokens_progress (cap : Nat) (hcap : 2 ≤ cap) (s : PS) (hq : QOk cap s) :
    (∀ t s', tryReadToken cap s = (some t, s') → s'.weight < s.weight ∧
      (s.queue = [] → s'.inp.length < s.inp.length)) ∧
    (∃ ts s', readAll cap (s.weight + 1) s = some (ts, s') ∧ ts.length ≤ s.weight ∧
      s'.inp = [] ∧ s'.queue = [] ∧ tryReadToken cap s' = (none, s')) := by
  refine ⟨?_, ?_⟩
  · intro t s' h
    obtain ⟨h1, h2, _, _, _, h3⟩ := tryReadToken_some hcap hq h
    have := length_pos_of_ne h2
    exact ⟨by omega, fun e => by have := h3 e; omega⟩
  · suffices H : ∀ n s, QOk cap s → s.weight < n → ∃ ts s', readAll cap n s = some (ts, s') ∧
        ts.length ≤ s.weight ∧ s'.inp = [] ∧ s'.queue = [] ∧ tryReadToken cap s' = (none, s') from
      H (s.weight + 1) s hq (by omega)
    intro n
    induction n with
    | zero => intro s _ h; omega
    | succ n ih =>
      intro s hq hw
      cases hr : tryReadToken cap s with
      | mk o s' =>
        cases o with
        | none =>
          obtain ⟨h1, h2⟩ := tryReadToken_none hr
          refine ⟨[], s', ?_, by simp, ?_, ?_, ?_⟩
          · simp [readAll, hr]
          · rw [h2]
          · rw [h2]; exact h1
          · rw [h2]; simp [tryReadToken, h1, lex, lexLoop]
        | some t =>
          obtain ⟨h1, h2, _, h4, _, _⟩ := tryReadToken_some hcap hq hr
          have := length_pos_of_ne h2
          obtain ⟨ts, s'', a, b, c, d, e⟩ := ih s' h4 (by omega)
          refine ⟨t :: ts, s'', ?_, ?_, c, d, e⟩
          · simp [readAll, hr, a]
          · simp; omega

example : readAll 4095 20 ⟨[], [47, 65, 32, 49, 37, 120, 10, 60, 60], 0⟩ =
    some ([⟨[47], .slash⟩, ⟨[65], .literal⟩, ⟨[49], .literal⟩, ⟨[60, 60], .dAngleL⟩], ⟨[], [], 0⟩) := by
  decide +kernel

/-! ### The recursive reader ends -/

/-- Enqueuing a token that was just read restores no more than its weight. -/
theorem enqueue_weight (t : Tok) (s : PS) : (enqueue t s).weight = s.weight + t.text.length := by
  simp [enqueue, PS.weight]; omega

theorem enqueue_QOk {cap : Nat} {t : Tok} {s : PS} (h : QOk cap s) (h1 : t.text ≠ [])
    (h2 : t.text.length ≤ cap) : QOk cap (enqueue t s) := by
  intro u hu
  simp [enqueue] at hu
  rcases hu with hu | hu
  · exact h u hu
  · subst hu; exact ⟨h1, h2⟩

theorem lookRef_weight {cap : Nat} (hcap : 2 ≤ cap) (n : Int) {s : PS} (hq : QOk cap s) :
    (lookRef cap n s).2.weight ≤ s.weight ∧ QOk cap (lookRef cap n s).2 ∧
      (lookRef cap n s).2.depth = s.depth := by
  unfold lookRef
  cases h1 : tryReadToken cap s with
  | mk o s1 =>
    cases o with
    | none =>
      obtain ⟨a, b⟩ := tryReadToken_none h1
      subst b
      refine ⟨by simp [PS.weight], ?_, rfl⟩
      intro t ht; simp [a] at ht
    | some t2 =>
      obtain ⟨a1, a2, a3, a4, a5, _⟩ := tryReadToken_some hcap hq h1
      simp only
      split
      · exact ⟨by rw [enqueue_weight]; omega, enqueue_QOk a4 a2 a3, a5⟩
      · split
        · exact ⟨by rw [enqueue_weight]; omega, enqueue_QOk a4 a2 a3, a5⟩
        · cases h2 : tryReadToken cap s1 with
          | mk o s2 =>
            cases o with
            | none =>
              obtain ⟨a, b⟩ := tryReadToken_none h2
              subst b
              refine ⟨?_, ?_, a5⟩
              · have : ({ s1 with inp := [] } : PS).weight ≤ s1.weight := by simp [PS.weight]
                exact Nat.le_trans this (by omega)
              · intro t ht; simp [a] at ht
            | some t3 =>
              obtain ⟨b1, b2, b3, b4, b5, _⟩ := tryReadToken_some hcap a4 h2
              simp only
              split
              · exact ⟨by simp only; omega, b4, by simp only [b5, a5]⟩
              · refine ⟨?_, enqueue_QOk (enqueue_QOk b4 a2 a3) b2 b3, ?_⟩
                · simp only [enqueue_weight]; omega
                · simp only [enqueue, b5, a5]

theorem determine_weight {cfg : Cfg} (hcap : 2 ≤ cfg.cap) (t : Tok) {s : PS} (hq : QOk cfg.cap s)
    {d : Det} {s' : PS} (h : determine cfg t s = (.ok d, s')) :
    s'.weight ≤ s.weight ∧ QOk cfg.cap s' ∧ s'.depth = s.depth := by
  unfold determine at h
  split at h
  · split at h
    · simp at h; rw [← h.2]; exact ⟨Nat.le_refl _, hq, rfl⟩
    · split at h
      · simp at h; rw [← h.2]; exact ⟨Nat.le_refl _, hq, rfl⟩
      · split at h
        · simp at h; rw [← h.2]; exact ⟨Nat.le_refl _, hq, rfl⟩
        · split at h
          · split at h
            · simp at h
            · simp at h; rw [← h.2]; exact ⟨Nat.le_refl _, hq, rfl⟩
          · split at h
            · simp at h
            · split at h
              · simp at h; rw [← h.2]; exact lookRef_weight hcap _ hq
              · simp at h; rw [← h.2]; exact ⟨Nat.le_refl _, hq, rfl⟩
          · simp at h; rw [← h.2]; exact ⟨Nat.le_refl _, hq, rfl⟩
  all_goals simp at h
  all_goals rw [← h.2]; exact ⟨Nat.le_refl _, hq, rfl⟩

theorem determine_fault {cfg : Cfg} (t : Tok) {s : PS} {e : Fault} {s' : PS}
    (h : determine cfg t s = (.error e, s')) :
    (e = .error .NoNumber ∨ e = .error .InvalidEnumValue) ∧ s'.depth = s.depth := by
  unfold determine at h
  repeat' split at h
  all_goals first
    | (simp at h; obtain ⟨h1, h2⟩ := h; subst h1; subst h2; simp [enqueue])
    | (simp at h)

theorem readName_weight {cap : Nat} (hcap : 2 ≤ cap) {s : PS} (hq : QOk cap s) :
    (readName cap s).2.weight ≤ s.weight ∧ QOk cap (readName cap s).2 ∧
      (readName cap s).2.depth = s.depth := by
  unfold readName
  split
  · exact ⟨Nat.le_refl _, hq, rfl⟩
  · split
    · exact ⟨Nat.le_refl _, hq, rfl⟩
    · cases h1 : tryReadToken cap s with
      | mk o s1 =>
        cases o with
        | none =>
          obtain ⟨a, b⟩ := tryReadToken_none h1
          subst b
          refine ⟨by simp [PS.weight], ?_, rfl⟩
          intro t ht; simp [a] at ht
        | some t =>
          obtain ⟨a1, a2, a3, a4, a5, _⟩ := tryReadToken_some hcap hq h1
          simp only
          split
          · exact ⟨by simp only [enqueue_weight]; omega, enqueue_QOk a4 a2 a3, a5⟩
          · exact ⟨by simp only; omega, a4, a5⟩

theorem weight_inp_le {s : PS} {r : Bytes} (h : r.length ≤ s.inp.length) :
    ({ s with inp := r } : PS).weight ≤ s.weight := by
  simp [PS.weight]; omega

/-- What the induction carries: no divergence, and on success no growth of the pending input. -/
def GoodRun (cap : Nat) (s : PS) (res : Res (Option Var) × PS) : Prop :=
  res.1 ≠ .error .diverge ∧ res.1 ≠ .error .ub ∧
  ∀ v, res.1 = .ok v → res.2.weight ≤ s.weight ∧ QOk cap res.2 ∧ res.2.depth = s.depth

theorem GoodRun.raise {cap : Nat} {s s' : PS} {c : ErrorCode} :
    GoodRun cap s ((Pdfmm.raise c : Res (Option Var)), s') :=
  ⟨by simp [Pdfmm.raise], by simp [Pdfmm.raise], by intro v h; cases h⟩

theorem GoodRun.of_error {cap : Nat} {s s' : PS} {e : Fault} (h1 : e ≠ .diverge) (h2 : e ≠ .ub) :
    GoodRun cap s ((.error e : Res (Option Var)), s') :=
  ⟨by simpa using h1, by simpa using h2, by intro v h; cases h⟩

theorem GoodRun.ok {cap : Nat} {s s' : PS} {v : Option Var} (h1 : s'.weight ≤ s.weight)
    (h2 : QOk cap s') (h3 : s'.depth = s.depth) :
    GoodRun cap s ((.ok v : Res (Option Var)), s') :=
  ⟨by simp, by simp, fun _ _ => ⟨h1, h2, h3⟩⟩

theorem GoodRun.mono {cap : Nat} {s s₀ : PS} {res : Res (Option Var) × PS}
    (h : GoodRun cap s res) (hw : s.weight ≤ s₀.weight) (hd : s.depth = s₀.depth) :
    GoodRun cap s₀ res :=
  ⟨h.1, h.2.1, fun v hv => by
    obtain ⟨a, b, c⟩ := h.2.2 v hv
    exact ⟨by omega, b, by omega⟩⟩

theorem guarded_good {cap max : Nat} {m : P (Option Var)} {s : PS}
    (h : ∀ s₁, s₁ = { s with depth := s.depth + 1 } → GoodRun cap s₁ (m s₁)) :
    GoodRun cap s (guarded max m s) := by
  unfold guarded
  split
  · exact GoodRun.raise
  · have := h _ rfl
    cases hm : m { s with depth := s.depth + 1 } with
    | mk r s' =>
      rw [hm] at this
      refine ⟨this.1, this.2.1, ?_⟩
      intro v hv
      obtain ⟨a, b, c⟩ := this.2.2 v hv
      exact ⟨a, b, by simp at c ⊢; omega⟩

theorem reader_good (cfg : Cfg) (hcap : 2 ≤ cfg.cap) (f : Nat) :
    (∀ d s, QOk cfg.cap s → 2 * s.weight + 2 ≤ f → GoodRun cfg.cap s (readDT cfg f d s)) ∧
    (∀ acc s, QOk cfg.cap s → 2 * s.weight + 1 ≤ f → GoodRun cfg.cap s (readArr cfg f acc s)) ∧
    (∀ acc con s, QOk cfg.cap s → 2 * s.weight + 1 ≤ f →
      GoodRun cfg.cap s (readDict cfg f acc con s)) := by
  induction f with
  | zero => exact ⟨fun _ s _ h => by omega, fun _ s _ h => by omega, fun _ _ s _ h => by omega⟩
  | succ f ih =>
    obtain ⟨ihD, ihA, ihK⟩ := ih
    have hguard : ∀ (t : Tok) (s : PS), QOk cfg.cap s → 2 * s.weight + 2 ≤ f →
        GoodRun cfg.cap s (guarded cfg.maxDepth ((determine cfg t).andThen (fun d => readDT cfg f d)) s) := by
      intro t s hq hf
      apply guarded_good
      intro s₁ hs₁
      have hq₁ : QOk cfg.cap s₁ := by rw [hs₁]; exact hq
      have hw₁ : s₁.weight = s.weight := by rw [hs₁]; rfl
      unfold P.andThen
      cases hd : determine cfg t s₁ with
      | mk r s₂ =>
        cases r with
        | error e =>
          have := (determine_fault t hd).1
          simp only
          refine GoodRun.of_error ?_ ?_ <;> rcases this with h | h <;> subst h <;> simp
        | ok d =>
          obtain ⟨a, b, c⟩ := determine_weight hcap t hq₁ hd
          exact (ihD d s₂ b (by omega)).mono a c
    refine ⟨?_, ?_, ?_⟩
    · intro d s hq hf
      cases d with
      | val v => rw [readDT]; exact GoodRun.ok (Nat.le_refl _) hq rfl
      | unknown => rw [readDT]; exact GoodRun.ok (Nat.le_refl _) hq rfl
      | str => rw [readDT]; exact GoodRun.ok (weight_inp_le (readString_rest _)) hq rfl
      | hex => rw [readDT]; exact GoodRun.ok (weight_inp_le (readHex_rest _)) hq rfl
      | name =>
        rw [readDT]
        obtain ⟨a, b, c⟩ := readName_weight hcap hq
        exact GoodRun.ok a b c
      | arr => rw [readDT]; exact ihA [] s hq (by omega)
      | dict => rw [readDT]; exact ihK [] none s hq (by omega)
    · intro acc s hq hf
      rw [readArr]
      dsimp only
      cases h1 : tryReadToken cfg.cap s with
      | mk o s1 =>
        cases o with
        | none => exact GoodRun.raise
        | some t =>
          obtain ⟨a1, a2, a3, a4, a5, _⟩ := tryReadToken_some hcap hq h1
          have := length_pos_of_ne a2
          simp only
          split
          · exact GoodRun.ok (by omega) a4 a5
          · have hg := hguard t s1 a4 (by omega)
            generalize guarded cfg.maxDepth _ s1 = res at hg
            obtain ⟨r, s2⟩ := res
            cases r with
            | error e =>
              simp only
              exact GoodRun.of_error (fun h => hg.1 (by rw [h])) (fun h => hg.2.1 (by rw [h]))
            | ok v =>
              obtain ⟨b1, b2, b3⟩ := hg.2.2 v rfl
              cases v with
              | none => exact GoodRun.raise
              | some v =>
                simp only at b1 b2 b3 ⊢
                exact (ihA _ s2 b2 (by omega)).mono (by omega) (by omega)
    · intro acc con s hq hf
      rw [readDict]
      dsimp only
      cases h1 : tryReadToken cfg.cap s with
      | mk o s1 =>
        cases o with
        | none => exact GoodRun.raise
        | some t =>
          obtain ⟨a1, a2, a3, a4, a5, _⟩ := tryReadToken_some hcap hq h1
          have := length_pos_of_ne a2
          simp only
          split
          · cases con <;> exact GoodRun.ok (by omega) a4 a5
          · have hg := hguard t s1 a4 (by omega)
            generalize guarded cfg.maxDepth _ s1 = res at hg
            obtain ⟨r, s2⟩ := res
            cases r with
            | error e =>
              simp only
              exact GoodRun.of_error (fun h => hg.1 (by rw [h])) (fun h => hg.2.1 (by rw [h]))
            | ok v =>
              obtain ⟨b1, b2, b3⟩ := hg.2.2 v rfl
              simp only at b1 b2 b3
              cases v with
              | none => exact GoodRun.raise
              | some v =>
                cases v
                case name key =>
                  simp only
                  cases h2 : tryReadToken cfg.cap s2 with
                  | mk o s3 =>
                    cases o with
                    | none => exact GoodRun.raise
                    | some t2 =>
                      obtain ⟨c1, c2, c3, c4, c5, _⟩ := tryReadToken_some hcap b2 h2
                      simp only
                      cases hd : determine cfg t2 s3 with
                      | mk r s4 =>
                        cases r with
                        | error e =>
                          have := (determine_fault t2 hd).1
                          simp only
                          refine GoodRun.of_error ?_ ?_ <;> rcases this with h | h <;> subst h <;> simp
                        | ok d =>
                          obtain ⟨d1, d2, d3⟩ := determine_weight hcap t2 c4 hd
                          simp only
                          split
                          · have hh : ({ s4 with inp := (readHex s4.inp).2 } : PS).weight ≤ s4.weight :=
                              weight_inp_le (readHex_rest _)
                            exact (ihK acc _ { s4 with inp := (readHex s4.inp).2 } d2 (by omega)).mono
                              (by omega) (by simp; omega)
                          · have hg2 := ihD d s4 d2 (by omega)
                            generalize readDT cfg f d s4 = res2 at hg2
                            obtain ⟨r2, s5⟩ := res2
                            cases r2 with
                            | error e =>
                              simp only
                              exact GoodRun.of_error (fun h => hg2.1 (by rw [h])) (fun h => hg2.2.1 (by rw [h]))
                            | ok v =>
                              obtain ⟨e1, e2, e3⟩ := hg2.2.2 v rfl
                              simp only at e1 e2 e3
                              cases v with
                              | none => exact GoodRun.raise
                              | some v =>
                                simp only
                                exact (ihK _ _ s5 e2 (by omega)).mono (by omega) (by omega)
                all_goals exact GoodRun.raise

/-- C20, values. Reading a value from any input, at any recursion depth, ends: with a value, with
"no value", or with a raised error; it never reads outside its buffers and never loops. -/
theorem C20_parse_terminates (cfg : Cfg) (hcap : 2 ≤ cfg.cap) (s : PS) (hq : QOk cfg.cap s) :
    (tryReadVariant cfg s).1 ≠ .error .diverge ∧ (tryReadVariant cfg s).1 ≠ .error .ub ∧
    ∀ v, (tryReadVariant cfg s).1 = .ok (some v) → (tryReadVariant cfg s).2.weight < s.weight ∧
      QOk cfg.cap (tryReadVariant cfg s).2 ∧ (tryReadVariant cfg s).2.depth = s.depth := by
  unfold tryReadVariant
  cases h1 : tryReadToken cfg.cap s with
  | mk o s1 =>
    cases o with
    | none => simp
    | some t =>
      obtain ⟨a1, a2, a3, a4, a5, _⟩ := tryReadToken_some hcap hq h1
      have hp := length_pos_of_ne a2
      have hg : GoodRun cfg.cap s1 (readTok cfg (2 * s1.weight + 2) t s1) := by
        unfold readTok
        apply guarded_good
        intro s₁ hs₁
        have hq₁ : QOk cfg.cap s₁ := by rw [hs₁]; exact a4
        have hw₁ : s₁.weight = s1.weight := by rw [hs₁]; rfl
        unfold P.andThen
        cases hd : determine cfg t s₁ with
        | mk r s₂ =>
          cases r with
          | error e =>
            have := (determine_fault t hd).1
            simp only
            refine GoodRun.of_error ?_ ?_ <;> rcases this with h | h <;> subst h <;> simp
          | ok d =>
            obtain ⟨a, b, c⟩ := determine_weight hcap t hq₁ hd
            exact ((reader_good cfg hcap _).1 d s₂ b (by omega)).mono a c
      refine ⟨hg.1, hg.2.1, ?_⟩
      intro v hv
      obtain ⟨b1, b2, b3⟩ := hg.2.2 _ hv
      exact ⟨by simp only; omega, b2, by simp only; omega⟩

/-- Non-vacuity: a nested value is read from a fresh tokenizer, whose state meets `QOk`. -/
example : QOk 4095 ⟨[], [91, 49, 93], 0⟩ ∧
    (match (parse {} [91, 49, 93]).1 with | .ok (some (.arr [.num 1])) => true | _ => false) = true := by
  exact ⟨QOk_fresh _ _ _, by decide +kernel⟩

end Pdfmm
