import Verif.Contents.ReaderModel
import Verif.Fonts.CMapTerminates
set_option autoImplicit false
/-
Reading a content stream ends, whatever the streams and the resources.  Property C123.
-/
namespace Pdfmm

/-! ### The tokenizer's queue -/

/-- At most one token is queued, and queued tokens fit the buffer. -/
def Q1 (s : PS) : Prop := QOk psCfg.cap s ∧ s.queue.length ≤ 1

theorem tok_q1 {s s' : PS} {t : Tok} (hs : Q1 s) (h : tryReadToken psCfg.cap s = (some t, s')) :
    s'.weight + t.text.length ≤ s.weight ∧ t.text ≠ [] ∧ t.text.length ≤ psCfg.cap ∧ s'.queue = [] := by
  obtain ⟨h1, h2, h3, _, _, _⟩ := tryReadToken_some cap_ok hs.1 h
  refine ⟨h1, h2, h3, ?_⟩
  unfold tryReadToken at h
  have hq := hs.2
  cases hsq : s.queue with
  | nil =>
    rw [hsq] at h; simp only at h
    split at h <;> simp at h
    rw [← h.2]
  | cons u q =>
    rw [hsq] at h hq; simp at h hq
    rw [← h.2]; simp [hq]

theorem q1_nil {s : PS} (h : s.queue = []) : Q1 s := ⟨(by intro t ht; rw [h] at ht; cases ht), by rw [h]; simp⟩

/-- What a successful read leaves behind. -/
def Q1Run (res : Res (Option Var) × PS) : Prop := ∀ v, res.1 = .ok v → Q1 res.2

theorem Q1Run.err {e : Fault} {s : PS} : Q1Run (.error e, s) := by intro v h; cases h

theorem readName_q1 {s : PS} (h : s.queue = []) : Q1 (readName psCfg.cap s).2 := by
  unfold readName
  split
  · exact q1_nil h
  · split
    · exact q1_nil h
    · cases h1 : tryReadToken psCfg.cap s with
      | mk o s1 =>
        cases o with
        | none =>
          simp only
          exact q1_nil (by rw [(tryReadToken_none h1).2]; exact h)
        | some t =>
          obtain ⟨_, a, b, c⟩ := tok_q1 (q1_nil h) h1
          simp only
          split
          · refine ⟨?_, by simp [enqueue, c]⟩
            intro u hu
            simp [enqueue, c] at hu
            subst hu
            exact ⟨a, b⟩
          · exact q1_nil c

theorem guarded_q1 {max : Nat} {m : P (Option Var)} {s : PS} (h : Q1Run (m { s with depth := s.depth + 1 })) : Q1Run (guarded max m s) := by
  unfold guarded
  split
  · exact Q1Run.err
  · cases hm : m { s with depth := s.depth + 1 } with
    | mk r s' =>
      rw [hm] at h
      intro v hv
      exact h v hv

theorem reader_q1 (f : Nat) :
    (∀ d s, s.queue = [] → Q1Run (readDT psCfg f d s)) ∧
    (∀ acc s, Q1 s → Q1Run (readArr psCfg f acc s)) ∧
    (∀ acc con s, Q1 s → Q1Run (readDict psCfg f acc con s)) := by
  induction f with
  | zero =>
    refine ⟨?_, fun acc s _ => by simp only [readArr]; exact Q1Run.err, fun acc con s _ => by simp only [readDict]; exact Q1Run.err⟩
    intro d s hs
    cases d with
    | val _ => simp only [readDT]; intro v _; exact q1_nil hs
    | unknown => simp only [readDT]; intro v _; exact q1_nil hs
    | str => simp only [readDT]; intro v _; exact q1_nil hs
    | hex => simp only [readDT]; intro v _; exact q1_nil hs
    | name => simp only [readDT]; intro v _; exact readName_q1 hs
    | arr => simp only [readDT]; exact Q1Run.err
    | dict => simp only [readDT]; exact Q1Run.err
  | succ f ih =>
    obtain ⟨ihD, ihA, ihK⟩ := ih
    have hguard : ∀ (t : Tok) (s : PS), s.queue = [] →
        Q1Run (guarded psCfg.maxDepth ((determine psCfg t).andThen (fun d => readDT psCfg f d)) s) := by
      intro t s hs
      apply guarded_q1
      unfold P.andThen
      cases hd : determine psCfg t { s with depth := s.depth + 1 } with
      | mk r s₂ =>
        cases r with
        | error e => exact Q1Run.err
        | ok d =>
          have := determine_state hd
          subst this
          exact ihD d _ hs
    refine ⟨?_, ?_, ?_⟩
    · intro d s hs
      cases d with
      | val _ => simp only [readDT]; intro v _; exact q1_nil hs
      | unknown => simp only [readDT]; intro v _; exact q1_nil hs
      | str => simp only [readDT]; intro v _; exact q1_nil hs
      | hex => simp only [readDT]; intro v _; exact q1_nil hs
      | name => simp only [readDT]; intro v _; exact readName_q1 hs
      | arr => simp only [readDT]; exact ihA [] s (q1_nil hs)
      | dict => simp only [readDT]; exact ihK [] none s (q1_nil hs)
    · intro acc s hs
      simp only [readArr]
      cases h1 : tryReadToken psCfg.cap s with
      | mk o s1 =>
        cases o with
        | none => exact Q1Run.err
        | some t =>
          obtain ⟨_, _, _, a⟩ := tok_q1 hs h1
          simp only
          split
          · intro v _; exact q1_nil a
          · have hg := hguard t s1 a
            generalize guarded psCfg.maxDepth _ s1 = res at hg
            obtain ⟨r, s2⟩ := res
            cases r with
            | error e => exact Q1Run.err
            | ok v =>
              cases v with
              | none => exact Q1Run.err
              | some v => exact ihA _ s2 (hg _ rfl)
    · intro acc con s hs
      simp only [readDict]
      cases h1 : tryReadToken psCfg.cap s with
      | mk o s1 =>
        cases o with
        | none => exact Q1Run.err
        | some t =>
          obtain ⟨_, _, _, a⟩ := tok_q1 hs h1
          simp only
          split
          · cases con <;> (intro v _; exact q1_nil a)
          · have hg := hguard t s1 a
            generalize guarded psCfg.maxDepth _ s1 = res at hg
            obtain ⟨r, s2⟩ := res
            cases r with
            | error e => exact Q1Run.err
            | ok v =>
              have b := hg v rfl
              cases v with
              | none => exact Q1Run.err
              | some v =>
                cases v
                case name key =>
                  simp only
                  cases h2 : tryReadToken psCfg.cap s2 with
                  | mk o s3 =>
                    cases o with
                    | none => exact Q1Run.err
                    | some t2 =>
                      obtain ⟨_, _, _, c⟩ := tok_q1 b h2
                      simp only
                      cases hd : determine psCfg t2 s3 with
                      | mk r s4 =>
                        cases r with
                        | error e => exact Q1Run.err
                        | ok d =>
                          have := determine_state hd
                          subst this
                          simp only
                          split
                          · exact ihK acc _ _ (q1_nil c)
                          · have hg2 := ihD d _ c
                            generalize readDT psCfg f d _ = res2 at hg2
                            obtain ⟨r2, s5⟩ := res2
                            cases r2 with
                            | error e => exact Q1Run.err
                            | ok v =>
                              cases v with
                              | none => exact Q1Run.err
                              | some v => exact ihK _ _ s5 (hg2 _ rfl)
                all_goals exact Q1Run.err

theorem readArr_some (cfg : Cfg) (f : Nat) (acc : List Var) (s : PS) : (readArr cfg f acc s).1 ≠ .ok none := by
  induction f generalizing acc s with
  | zero => simp [readArr]
  | succ f ih =>
    rw [readArr]
    dsimp only
    repeat' split
    all_goals first
      | exact ih _ _
      | simp

theorem readDict_some (cfg : Cfg) (f : Nat) (acc : List (Bytes × Var)) (con : Option Bytes) (s : PS) :
    (readDict cfg f acc con s).1 ≠ .ok none := by
  induction f generalizing acc con s with
  | zero => simp [readDict]
  | succ f ih =>
    rw [readDict]
    dsimp only
    repeat' split
    all_goals first
      | exact ih _ _ _
      | simp

/-- One token of the PostScript tokenizer: progress, and what is left queued. -/
theorem psNext_q1 {s : PS} (hs : Q1 s) :
    psNext s ≠ .error .diverge ∧
    (∀ s', psNext s = .ok (none, s') → s'.queue = [] ∧ s'.weight ≤ s.weight) ∧
    (∀ t s', psNext s = .ok (some t, s') → s'.weight < s.weight ∧ Q1 s' ∧ (∀ k, t = .keyword k → s'.queue = [])) := by
  rw [psNext]
  cases h1 : tryReadToken psCfg.cap s with
  | mk o s1 =>
    cases o with
    | none =>
      obtain ⟨a, b⟩ := tryReadToken_none h1
      simp only
      refine ⟨by simp, ?_, by simp⟩
      intro s' h
      simp only [Except.ok.injEq, Prod.mk.injEq, true_and] at h
      rw [← h, b]; exact ⟨a, by simp [PS.weight, a]⟩
    | some t =>
      obtain ⟨a1, a2, a3, a4⟩ := tok_q1 hs h1
      have hp := length_pos_of_ne a2
      have hend : ∀ tk, (tk : PsTok) = tk → s1.weight < s.weight ∧ Q1 s1 ∧ (∀ k, tk = .keyword k → s1.queue = []) :=
        fun tk _ => ⟨by omega, q1_nil a4, fun _ _ => a4⟩
      simp only
      split
      · refine ⟨by simp, by simp, ?_⟩
        intro t' s' h
        simp only [Except.ok.injEq, Prod.mk.injEq, Option.some.injEq] at h
        obtain ⟨h1, h2⟩ := h
        subst h1; subst h2
        exact hend _ rfl
      · split
        · refine ⟨by simp, by simp, ?_⟩
          intro t' s' h
          simp only [Except.ok.injEq, Prod.mk.injEq, Option.some.injEq] at h
          obtain ⟨h1, h2⟩ := h
          subst h1; subst h2
          exact hend _ rfl
        · simp only [P.andThen]
          cases hd : determine psCfg t s1 with
          | mk r s2 =>
            cases r with
            | error e =>
              have := (determine_fault t hd).1
              simp only
              refine ⟨?_, by simp, by simp⟩
              rcases this with h | h <;> subst h <;> simp
            | ok d =>
              have := determine_state hd
              subst this
              simp only
              have hg := (reader_good psCfg cap_ok _).1 d s2 (q1_nil a4).1 (Nat.le_refl _)
              have hc := (reader_q1 (2 * s2.weight + 2)).1 d s2 a4
              cases hr : readDT psCfg (2 * s2.weight + 2) d s2 with
              | mk r s3 =>
                rw [hr] at hg hc
                cases r with
                | error e =>
                  simp only
                  refine ⟨?_, by simp, by simp⟩
                  intro he
                  simp only [Except.error.injEq] at he
                  exact hg.1 (by rw [he])
                | ok v =>
                  obtain ⟨g1, g2, _⟩ := hg.2.2 v rfl
                  have hcl := hc v rfl
                  simp only at g1 g2 hcl
                  cases v with
                  | none =>
                    refine ⟨by simp, by simp, ?_⟩
                    intro t' s' h
                    simp only [Except.ok.injEq, Prod.mk.injEq, Option.some.injEq] at h
                    obtain ⟨h1, h2⟩ := h
                    subst h1; subst h2
                    refine ⟨by omega, hcl, fun k _ => ?_⟩
                    have : s3 = s2 := by
                      cases d with
                      | unknown => simp only [readDT, Prod.mk.injEq] at hr; exact hr.2.symm
                      | val _ => simp [readDT] at hr
                      | str => simp [readDT] at hr
                      | hex => simp [readDT] at hr
                      | name => simp [readDT] at hr
                      | arr =>
                        obtain ⟨f', hf'⟩ : ∃ f', 2 * s2.weight + 2 = f' + 1 := ⟨_, rfl⟩
                        rw [hf'] at hr
                        simp only [readDT] at hr
                        have := (readArr_some psCfg f' [] s2)
                        rw [hr] at this
                        exact absurd rfl this
                      | dict =>
                        obtain ⟨f', hf'⟩ : ∃ f', 2 * s2.weight + 2 = f' + 1 := ⟨_, rfl⟩
                        rw [hf'] at hr
                        simp only [readDT] at hr
                        have := (readDict_some psCfg f' [] none s2)
                        rw [hr] at this
                        exact absurd rfl this
                    rw [this]; exact a4
                  | some v =>
                    refine ⟨by simp, by simp, ?_⟩
                    intro t' s' h
                    simp only [Except.ok.injEq, Prod.mk.injEq, Option.some.injEq] at h
                    obtain ⟨h1, h2⟩ := h
                    subst h1; subst h2
                    exact ⟨by omega, hcl, fun k hk => by cases hk⟩

/-- The same for a value. -/
theorem readVariant_q1 {s : PS} (hs : Q1 s) :
    (tryReadVariant psCfg s).1 ≠ .error .diverge ∧
    (∀ v, (tryReadVariant psCfg s).1 = .ok v → (tryReadVariant psCfg s).2.weight ≤ s.weight ∧ Q1 (tryReadVariant psCfg s).2) ∧
    ((tryReadVariant psCfg s).1 = .ok none → (tryReadVariant psCfg s).2.queue = []) := by
  have ht := C20_parse_terminates psCfg cap_ok s hs.1
  refine ⟨ht.1, ?_⟩
  unfold tryReadVariant
  cases h1 : tryReadToken psCfg.cap s with
  | mk o s1 =>
    cases o with
    | none =>
      obtain ⟨a, b⟩ := tryReadToken_none h1
      simp only
      rw [b]
      refine ⟨fun v _ => ⟨?_, q1_nil a⟩, fun _ => a⟩
      simp [PS.weight, a]
    | some t =>
      obtain ⟨a1, a2, a3, a4⟩ := tok_q1 hs h1
      have hp := length_pos_of_ne a2
      simp only
      unfold readTok guarded
      split
      · exact ⟨(fun v h => by cases h), (fun h => by cases h)⟩
      · simp only [P.andThen]
        cases hd : determine psCfg t { s1 with depth := s1.depth + 1 } with
        | mk r s2 =>
          cases r with
          | error e => exact ⟨(fun v h => by cases h), (fun h => by cases h)⟩
          | ok d =>
            have h2 := determine_state hd
            have hq2 : s2.queue = [] := by rw [h2]; exact a4
            have hw2 : s2.weight = s1.weight := by rw [h2]; rfl
            have hg := (reader_good psCfg cap_ok (2 * s1.weight + 2)).1 d s2 (q1_nil hq2).1 (by omega)
            have hc := (reader_q1 (2 * s1.weight + 2)).1 d s2 hq2
            simp only
            cases hr : readDT psCfg (2 * s1.weight + 2) d s2 with
            | mk r s3 =>
              rw [hr] at hg hc
              simp only
              refine ⟨?_, ?_⟩
              · intro v hv
                obtain ⟨g1, _, _⟩ := hg.2.2 v hv
                have g2 := hc v hv
                refine ⟨?_, g2⟩
                have : (⟨s3.queue, s3.inp, s3.depth - 1⟩ : PS).weight = s3.weight := rfl
                simp only at g1
                simp only [PS.weight] at *
                omega
              · intro hv
                have : s3 = s2 := by
                  cases d with
                  | unknown => simp only [readDT, Prod.mk.injEq] at hr; exact hr.2.symm
                  | val _ => simp [readDT] at hr; rw [← hr.1] at hv; simp at hv
                  | str => simp [readDT] at hr; rw [← hr.1] at hv; simp at hv
                  | hex => simp [readDT] at hr; rw [← hr.1] at hv; simp at hv
                  | name => simp [readDT] at hr; rw [← hr.1] at hv; simp at hv
                  | arr =>
                    obtain ⟨f', hf'⟩ : ∃ f', 2 * s1.weight + 2 = f' + 1 := ⟨_, rfl⟩
                    rw [hf'] at hr
                    simp only [readDT] at hr
                    have := (readArr_some psCfg f' [] s2)
                    rw [hr] at this
                    exact absurd hv this
                  | dict =>
                    obtain ⟨f', hf'⟩ : ∃ f', 2 * s1.weight + 2 = f' + 1 := ⟨_, rfl⟩
                    rw [hf'] at hr
                    simp only [readDT] at hr
                    have := (readDict_some psCfg f' [] none s2)
                    rw [hr] at this
                    exact absurd hv this
                rw [this]; exact hq2

/-! ### One content -/

/-- The tokenizer as the reader uses it. -/
def topPS (q : List Tok) (i : CInput) : PS := ⟨q, i.text, 0⟩

/-- The state of a reader between two calls. -/
def RInv (st : RState) : Prop :=
  (∀ i r, st.inputs = i :: r → Q1 (topPS st.queue i)) ∧ (st.readingImg = true → st.queue = [])

/-- A step of the tokenizer only shortens the text of the last input. -/
theorem next_ok {st : RState} {i : CInput} {r : List CInput} (hi : st.inputs = i :: r) (hq : Q1 (topPS st.queue i)) :
    st.next ≠ .error .diverge ∧
    (∀ o st', st.next = .ok (o, st') → ∃ t q, st' = { st with inputs := { i with text := t } :: r, queue := q } ∧
      Q1 (topPS q { i with text := t }) ∧ (o = none → q = []) ∧ (∀ k, o = some (.keyword k) → q = []) ∧
      (o ≠ none → (topPS q { i with text := t }).weight < (topPS st.queue i).weight) ∧
      (topPS q { i with text := t }).weight ≤ (topPS st.queue i).weight) := by
  obtain ⟨h1, h2, h3⟩ := psNext_q1 hq
  unfold RState.next
  rw [hi]
  simp only
  cases hp : psNext ⟨st.queue, i.text, 0⟩ with
  | error e =>
    refine ⟨?_, by simp⟩
    intro h
    simp only [Except.error.injEq] at h
    exact h1 (by rw [topPS, hp, h])
  | ok p =>
    obtain ⟨o, s⟩ := p
    refine ⟨by simp, ?_⟩
    intro o' st' h
    simp only [Except.ok.injEq, Prod.mk.injEq] at h
    obtain ⟨ho, hst⟩ := h
    subst ho
    refine ⟨s.inp, s.queue, hst.symm, ?_⟩
    cases o with
    | none =>
      have := h2 s hp
      exact ⟨by rw [this.1]; exact q1_nil rfl, fun _ => this.1, by simp, by simp, this.2⟩
    | some t =>
      obtain ⟨a, b, c⟩ := h3 t s hp
      refine ⟨⟨b.1, b.2⟩, by simp, ?_, fun _ => a, Nat.le_of_lt a⟩
      intro k hk
      exact c k (by simpa using hk)

theorem nextVariant_ok {st : RState} {i : CInput} {r : List CInput} (hi : st.inputs = i :: r) (hq : Q1 (topPS st.queue i)) :
    st.nextVariant ≠ .error .diverge ∧
    (∀ o st', st.nextVariant = .ok (o, st') → ∃ t q, st' = { st with inputs := { i with text := t } :: r, queue := q } ∧
      Q1 (topPS q { i with text := t }) ∧ (o = none → q = []) ∧
      (topPS q { i with text := t }).weight ≤ (topPS st.queue i).weight) := by
  obtain ⟨h1, h2, h3⟩ := readVariant_q1 hq
  unfold RState.nextVariant
  rw [hi]
  simp only
  rw [topPS] at h1 h2 h3
  cases hp : tryReadVariant psCfg ⟨st.queue, i.text, 0⟩ with
  | mk res s =>
    rw [hp] at h1 h2 h3
    cases res with
    | error e =>
      refine ⟨?_, by simp⟩
      intro h
      simp only [Except.error.injEq] at h
      exact h1 (by rw [h])
    | ok o =>
      refine ⟨by simp, ?_⟩
      intro o' st' h
      simp only [Except.ok.injEq, Prod.mk.injEq] at h
      obtain ⟨ho, hst⟩ := h
      subst ho
      obtain ⟨a, b⟩ := h2 o rfl
      exact ⟨s.inp, s.queue, hst.symm, ⟨b.1, b.2⟩, fun h => h3 (by rw [h]), a⟩

theorem readImgDict_ok {i : CInput} {r : List CInput} (f : Nat) (c : Content) (st : RState) (hi : st.inputs = i :: r)
    (hq : Q1 (topPS st.queue i)) (hf : (topPS st.queue i).weight < f) :
    readImgDict f c st ≠ .error .diverge ∧
    (∀ b c' st', readImgDict f c st = .ok (b, c', st') → ∃ t, st' = { st with inputs := { i with text := t } :: r, queue := [] } ∧
      (topPS [] { i with text := t }).weight ≤ (topPS st.queue i).weight ∧ c'.type = c.type ∧
      c'.warnings.recursiveXObject = c.warnings.recursiveXObject) := by
  induction f generalizing c st i with
  | zero => omega
  | succ f ih =>
    rw [readImgDict]
    obtain ⟨n1, n2⟩ := next_ok hi hq
    cases hn : st.next with
    | error e =>
      refine ⟨?_, by simp⟩
      intro h; simp only [Except.error.injEq] at h; exact n1 (by rw [hn, h])
    | ok p =>
      obtain ⟨o, st1⟩ := p
      obtain ⟨t, q, h1, h2, h3, h4, h5, h6⟩ := n2 o st1 hn
      have again : ∀ (c1 : Content), c1.type = c.type → c1.warnings.recursiveXObject = c.warnings.recursiveXObject → o ≠ none →
          readImgDict f c1 st1 ≠ .error .diverge ∧
          (∀ b c' st', readImgDict f c1 st1 = .ok (b, c', st') → ∃ t, st' = { st with inputs := { i with text := t } :: r, queue := [] } ∧
            (topPS [] { i with text := t }).weight ≤ (topPS st.queue i).weight ∧ c'.type = c.type ∧
            c'.warnings.recursiveXObject = c.warnings.recursiveXObject) := by
        intro c1 hc1 hc2 ho
        have hw := h5 ho
        have := ih (i := { i with text := t }) c1 st1 (by rw [h1]) (by rw [h1]; exact h2) (by rw [h1]; show (topPS q { i with text := t }).weight < f; omega)
        refine ⟨this.1, ?_⟩
        intro b c' st' hh
        obtain ⟨t', a1, a2, a3, a4⟩ := this.2 b c' st' hh
        refine ⟨t', ?_, ?_, by rw [a3, hc1], by rw [a4, hc2]⟩
        · rw [a1, h1]
        · rw [h1] at a2; dsimp only at a2; omega
      cases o with
      | none =>
        simp only
        refine ⟨by simp, ?_⟩
        intro b c' st' h
        simp only [Except.ok.injEq, Prod.mk.injEq] at h
        obtain ⟨_, hc, hs⟩ := h
        have hq' := h3 rfl
        subst hq'
        subst hc
        refine ⟨t, by rw [← hs, h1], ?_, rfl, rfl⟩
        exact h6
      | some tok =>
        have hw := h5 (by simp)
        cases tok with
        | keyword k =>
          simp only
          split
          · refine ⟨by simp, ?_⟩
            intro b c' st' h
            simp only [Except.ok.injEq, Prod.mk.injEq] at h
            obtain ⟨_, hc, hs⟩ := h
            have hq' := h4 k rfl
            subst hq'
            subst hc
            exact ⟨t, by rw [← hs, h1], Nat.le_of_lt hw, rfl, rfl⟩
          · exact again _ rfl rfl (by simp)
        | procEnter => exact again _ rfl rfl (by simp)
        | procExit => exact again _ rfl rfl (by simp)
        | value v =>
          cases v
          case name n =>
            simp only
            have hi1 : st1.inputs = { i with text := t } :: r := by rw [h1]
            obtain ⟨v1, v2⟩ := nextVariant_ok hi1 (by rw [h1]; exact h2)
            cases hv : st1.nextVariant with
            | error e =>
              refine ⟨?_, by simp⟩
              intro h; simp only [Except.error.injEq] at h; exact v1 (by rw [hv, h])
            | ok p =>
              obtain ⟨o, st2⟩ := p
              obtain ⟨t', q', g1, g2, g3, g4⟩ := v2 o st2 hv
              have hw' : (topPS q' { i with text := t' }).weight < (topPS st.queue i).weight := by
                rw [h1] at g4; dsimp only at g4; omega
              cases o with
              | none =>
                simp only
                refine ⟨by simp, ?_⟩
                intro b c' st' h
                simp only [Except.ok.injEq, Prod.mk.injEq] at h
                obtain ⟨_, hc, hs⟩ := h
                have hq' := g3 rfl
                subst hq'
                subst hc
                exact ⟨t', by rw [← hs, g1, h1], Nat.le_of_lt hw', rfl, rfl⟩
              | some v =>
                simp only
                have := ih (i := { i with text := t' }) { c with imgDict := SMap.insert n v c.imgDict } st2 (by rw [g1]) (by rw [g1]; exact g2)
                  (by rw [g1]; show (topPS q' { i with text := t' }).weight < f; omega)
                refine ⟨this.1, ?_⟩
                intro b c' st' hh
                obtain ⟨t'', a1, a2, a3, a4⟩ := this.2 b c' st' hh
                refine ⟨t'', ?_, ?_, a3, a4⟩
                · rw [a1, g1, h1]
                · rw [g1] at a2; dsimp only at a2; omega
          all_goals exact again _ rfl rfl (by simp)

/-! ### What one call leaves behind -/

/-- A content that announces that the next contents are those of a form: `Do` of a form that is followed, without the warning that the form
is already being read. -/
def Spec.Enters (env : CEnv) (a : CArgs) (c : Content) : Prop :=
  c.type = .doXObject ∧ c.warnings.recursiveXObject = false ∧ a.dontFollow = false ∧ ∃ x, c.xobj = some x ∧ env.form x = true

/-- The reader stays with the same input. -/
structure Stays (i : CInput) (r : List CInput) (w : Nat) (b : Bool) (st' : RState) : Prop where
  inputs : ∃ t, st'.inputs = { i with text := t } :: r ∧ Q1 (topPS st'.queue { i with text := t }) ∧
    (topPS st'.queue { i with text := t }).weight < w + (if b then 0 else 1)
  image : st'.readingImg = true → st'.queue = []
  ended : b = false → st'.queue = []

/-- The reader goes into a form. -/
structure Pushes (env : CEnv) (i : CInput) (r : List CInput) (w : Nat) (st' : RState) : Prop where
  inputs : ∃ x t b, st'.inputs = ⟨some x, some x, b⟩ :: { i with text := t } :: r ∧ env.body x = .ok b ∧
    (∃ cv n, env.xobj cv n = some x) ∧ isCalledRecursively (i :: r) x = false ∧ (topPS [] { i with text := t }).weight < w
  queue : st'.queue = []

/-- What a read of one content does. -/
def Outcome (env : CEnv) (a : CArgs) (i : CInput) (r : List CInput) (w : Nat) (c : Content) (res : Res (Bool × Content × RState)) : Prop :=
  res ≠ .error .diverge ∧
  ∀ b c' st', res = .ok (b, c', st') →
    (Stays i r w b st' ∧ (b = true → c'.type ≠ .endXObjectForm ∧ (c.warnings.recursiveXObject = false → ¬ Spec.Enters env a c'))) ∨
    (b = true ∧ Pushes env i r w st' ∧ c'.type ≠ .endXObjectForm ∧ (c.warnings.recursiveXObject = false → Spec.Enters env a c'))

theorem isCalledRecursively_text (i : CInput) (r : List CInput) (t : Bytes) (x : Nat) :
    isCalledRecursively ({ i with text := t } :: r) x = isCalledRecursively (i :: r) x := rfl

theorem followXObject_ok {env : CEnv} {a : CArgs} (hb : ∀ x, env.body x ≠ .error .diverge) {cv : Nat} {c : Content} {st : RState}
    {i : CInput} {r : List CInput} {w : Nat} (hi : st.inputs = i :: r) (hq : st.queue = []) (hw : (topPS [] i).weight < w)
    (hop : c.type = .operator) :
    tryFollowXObject env a cv c st ≠ .error .diverge ∧
    ∀ c' st', tryFollowXObject env a cv c st = .ok (c', st') →
      (Stays i r w true st' ∧ c'.type ≠ .endXObjectForm ∧ (c.warnings.recursiveXObject = false → ¬ Spec.Enters env a c')) ∨
      (Pushes env i r w st' ∧ c'.type ≠ .endXObjectForm ∧ (c.warnings.recursiveXObject = false → Spec.Enters env a c')) := by
  have hstay : Stays i r w true st := by
    refine ⟨⟨i.text, hi, by rw [hq]; exact q1_nil rfl, ?_⟩, fun _ => hq, fun _ => hq⟩
    rw [hq]; exact hw
  unfold tryFollowXObject
  split
  · refine ⟨by simp, ?_⟩
    intro c' st' h
    simp only [Except.ok.injEq, Prod.mk.injEq] at h
    obtain ⟨h1, h2⟩ := h
    subst h1; subst h2
    exact Or.inl ⟨hstay, by simp [hop], fun _ he => by have := he.1; simp [hop] at this⟩
  · split
    · refine ⟨by simp, ?_⟩
      intro c' st' h
      simp only [Except.ok.injEq, Prod.mk.injEq] at h
      obtain ⟨h1, h2⟩ := h
      subst h1; subst h2
      exact Or.inl ⟨hstay, by simp [hop], fun _ he => by have := he.1; simp [hop] at this⟩
    · rename_i _ n _ _ x hx
      split
      · refine ⟨by simp, ?_⟩
        intro c' st' h
        simp only [Except.ok.injEq, Prod.mk.injEq] at h
        obtain ⟨h1, h2⟩ := h
        subst h1; subst h2
        exact Or.inl ⟨hstay, by simp, fun _ he => by have := he.2.1; simp at this⟩
      · rename_i hrec
        split
        · rename_i hform
          simp only [Bool.and_eq_true, Bool.not_eq_true'] at hform
          split
          · rename_i e he
            refine ⟨?_, by simp⟩
            intro h; simp only [Except.error.injEq] at h; exact hb x (by rw [he, h])
          · rename_i b hbd
            refine ⟨by simp, ?_⟩
            intro c' st' h
            simp only [Except.ok.injEq, Prod.mk.injEq] at h
            obtain ⟨h1, h2⟩ := h
            subst h1; subst h2
            refine Or.inr ⟨⟨⟨x, i.text, b, ?_, hbd, ⟨cv, n, hx⟩, ?_, hw⟩, hq⟩, by simp, fun hr => ⟨rfl, hr, hform.2, x, rfl, hform.1⟩⟩
            · dsimp only; rw [hi]
            · rw [hi] at hrec; simpa using hrec
        · rename_i hform
          refine ⟨by simp, ?_⟩
          intro c' st' h
          simp only [Except.ok.injEq, Prod.mk.injEq] at h
          obtain ⟨h1, h2⟩ := h
          subst h1; subst h2
          refine Or.inl ⟨hstay, by simp, ?_⟩
          rintro _ ⟨_, _, h3, y, hy, hf⟩
          simp only [Option.some.injEq] at hy
          subst hy
          simp [hf, h3] at hform

theorem handleOperator_ok {env : CEnv} {a : CArgs} (hb : ∀ x, env.body x ≠ .error .diverge) {op : PdfOp} {c : Content} {st : RState}
    {i : CInput} {r : List CInput} {w : Nat} (hi : st.inputs = i :: r) (hq : st.queue = []) (hw : (topPS [] i).weight < w)
    (hop : c.type = .operator) : Outcome env a i r w c (tryHandleOperator env a op c st) := by
  have hstay : ∀ b, Stays i r w b st := by
    intro b
    refine ⟨⟨i.text, hi, by rw [hq]; exact q1_nil rfl, ?_⟩, fun _ => hq, fun _ => hq⟩
    rw [hq]
    show (topPS [] i).weight < _
    cases b
    · exact Nat.lt_succ_of_lt hw
    · exact hw
  have hplain : Outcome env a i r w c (.ok (true, c, st)) := by
    refine ⟨by simp, ?_⟩
    intro b c' st' h
    simp only [Except.ok.injEq, Prod.mk.injEq] at h
    obtain ⟨h0, h1, h2⟩ := h
    subst h0; subst h1; subst h2
    exact Or.inl ⟨hstay _, fun _ => ⟨by simp [hop], fun _ he => by have := he.1; simp [hop] at this⟩⟩
  unfold tryHandleOperator
  split
  · rw [hi]
    simp only
    split
    · exact hplain
    · rename_i cv hcv
      have := followXObject_ok hb (cv := cv) (a := a) hi hq hw hop
      cases hf : tryFollowXObject env a cv c st with
      | error e =>
        rw [hf] at this
        refine ⟨?_, by simp⟩
        intro h; simp only [Except.error.injEq] at h; exact this.1 (by rw [h])
      | ok p =>
        obtain ⟨c1, st1⟩ := p
        refine ⟨by simp, ?_⟩
        intro b c' st' h
        simp only [Except.ok.injEq, Prod.mk.injEq] at h
        obtain ⟨h0, h1, h2⟩ := h
        subst h0; subst h1; subst h2
        rcases this.2 c1 st1 hf with ⟨g1, g2, g3⟩ | ⟨g1, g2, g3⟩
        · exact Or.inl ⟨g1, fun _ => ⟨g2, g3⟩⟩
        · exact Or.inr ⟨rfl, g1, g2, g3⟩
  · split
    · have hwt : st.weight = (topPS [] i).weight := by unfold RState.weight; rw [hi, hq]; rfl
      have := readImgDict_ok (st.weight + 1) c st hi (by rw [hq]; exact q1_nil rfl) (by rw [hq, hwt]; omega)
      cases hf : readImgDict (st.weight + 1) c st with
      | error e =>
        rw [hf] at this
        refine ⟨?_, by simp⟩
        intro h; simp only [Except.error.injEq] at h; exact this.1 (by rw [h])
      | ok p =>
        obtain ⟨b1, c1, st1⟩ := p
        obtain ⟨t, g1, g2, g3, g4⟩ := this.2 b1 c1 st1 hf
        rw [hq] at g2
        have hst : ∀ b, Stays i r w b st1 := by
          intro b
          rw [g1]
          refine ⟨⟨t, rfl, q1_nil rfl, ?_⟩, fun _ => rfl, fun _ => rfl⟩
          cases b <;> simp <;> omega
        cases b1 with
        | false =>
          refine ⟨by simp, ?_⟩
          intro b c' st' h
          simp only [Except.ok.injEq, Prod.mk.injEq] at h
          obtain ⟨h0, h1, h2⟩ := h
          subst h0; subst h1; subst h2
          exact Or.inl ⟨hst _, by simp⟩
        | true =>
          refine ⟨by simp, ?_⟩
          intro b c' st' h
          simp only [Except.ok.injEq, Prod.mk.injEq] at h
          obtain ⟨h0, h1, h2⟩ := h
          subst h0; subst h1; subst h2
          refine Or.inl ⟨⟨(hst true).inputs, fun _ => by rw [g1], fun _ => by rw [g1]⟩, fun _ => ⟨by simp, fun _ he => by have := he.1; simp at this⟩⟩
    · exact hplain

theorem readContentLoop_ok {env : CEnv} {a : CArgs} (hb : ∀ x, env.body x ≠ .error .diverge) {i : CInput} {r : List CInput} (f : Nat)
    (c : Content) (st : RState) (hi : st.inputs = i :: r) (hq : Q1 (topPS st.queue i)) (himg : st.readingImg = false)
    (hf : (topPS st.queue i).weight < f) :
    Outcome env a i r (topPS st.queue i).weight c (readContentLoop env a f c st) := by
  induction f generalizing c st i with
  | zero => omega
  | succ f ih =>
    rw [readContentLoop]
    obtain ⟨n1, n2⟩ := next_ok hi hq
    cases hn : st.next with
    | error e =>
      refine ⟨?_, by simp⟩
      intro h; simp only [Except.error.injEq] at h; exact n1 (by rw [hn, h])
    | ok p =>
      obtain ⟨o, st1⟩ := p
      obtain ⟨t, q, h1, h2, h3, h4, h5, h6⟩ := n2 o st1 hn
      have hi1 : st1.inputs = { i with text := t } :: r := by rw [h1]
      have himg1 : st1.readingImg = false := by rw [h1]; exact himg
      have hq1 : st1.queue = q := by rw [h1]
      cases o with
      | none =>
        refine ⟨by simp, ?_⟩
        intro b c' st' h
        simp only [Except.ok.injEq, Prod.mk.injEq] at h
        obtain ⟨h0, hc, hs⟩ := h
        subst h0; subst hc; subst hs
        have hq' := h3 rfl
        subst hq'
        refine Or.inl ⟨⟨⟨t, hi1, by rw [hq1]; exact h2, ?_⟩, fun _ => hq1, fun _ => hq1⟩, by simp⟩
        rw [hq1]; simp; omega
      | some tok =>
        have hw := h5 (by simp)
        have hstay : Stays i r (topPS st.queue i).weight true st1 :=
          ⟨⟨t, hi1, by rw [hq1]; exact h2, by rw [hq1]; simpa using hw⟩, fun h => by rw [himg1] at h; simp at h, by simp⟩
        have hunex : ∀ c1 : Content, c1.type = .unexpectedKeyword → Outcome env a i r (topPS st.queue i).weight c (.ok (true, c1, st1)) := by
          intro c1 hc1
          refine ⟨by simp, ?_⟩
          intro b c' st' h
          simp only [Except.ok.injEq, Prod.mk.injEq] at h
          obtain ⟨h0, hc, hs⟩ := h
          subst h0; subst hc; subst hs
          exact Or.inl ⟨hstay, fun _ => ⟨by simp [hc1], fun _ he => by have := he.1; simp [hc1] at this⟩⟩
        cases tok with
        | keyword k =>
          have hq' := h4 k rfl
          subst hq'
          simp only
          split
          · exact hunex _ rfl
          · rename_i op hop
            have := handleOperator_ok (env := env) (a := a) hb (op := op)
              (c := { c with keyword := k, op := some op, type := .operator, warnings := countWarn op c.stack.length c.warnings })
              (w := (topPS st.queue i).weight) hi1 hq1 hw rfl
            refine ⟨this.1, ?_⟩
            intro b c' st' hh
            have hcw : (countWarn op c.stack.length c.warnings).recursiveXObject = c.warnings.recursiveXObject := by
              unfold countWarn; repeat' split
              all_goals rfl
            have := this.2 b c' st' hh
            dsimp only at this
            rw [hcw] at this
            rcases this with ⟨g1, g2⟩ | ⟨g0, g1, g2⟩
            · exact Or.inl ⟨⟨g1.inputs, g1.image, g1.ended⟩, g2⟩
            · exact Or.inr ⟨g0, ⟨g1.inputs, g1.queue⟩, g2⟩
        | procEnter => exact hunex _ rfl
        | procExit => exact hunex _ rfl
        | value v =>
          simp only
          have := ih (i := { i with text := t }) { c with stack := c.stack ++ [v] } st1 hi1 (by rw [hq1]; exact h2) himg1 (by rw [hq1]; omega)
          rw [hq1] at this
          refine ⟨this.1, ?_⟩
          intro b c' st' hh
          rcases this.2 b c' st' hh with ⟨g1, g2⟩ | ⟨g0, g1, g2⟩
          · refine Or.inl ⟨⟨?_, g1.image, g1.ended⟩, g2⟩
            obtain ⟨t', e1, e2, e3⟩ := g1.inputs
            refine ⟨t', e1, e2, ?_⟩
            dsimp only at e3 ⊢; omega
          · refine Or.inr ⟨g0, ⟨?_, g1.queue⟩, g2⟩
            obtain ⟨x, t', bd, e1, e2, e3, e4, e5⟩ := g1.inputs
            refine ⟨x, t', bd, e1, e2, e3, e4, ?_⟩
            dsimp only at e5 ⊢; omega

/-! ### The measure -/

/-- The objects that are not being read. -/
def freeObjs (objs : List Nat) (inputs : List CInput) : Nat := (objs.filter fun x => !isCalledRecursively inputs x).length

/-- What the inputs below the last can still cost. -/
def muL (objs : List Nat) (M : Nat) : List CInput → Nat
  | [] => 0
  | i :: r => (i.text.length + 1) * M ^ freeObjs objs (i :: r) + muL objs M r

/-- What the reader can still cost. -/
def mu (objs : List Nat) (M : Nat) (st : RState) : Nat :=
  match st.inputs with
  | [] => 0
  | i :: r => ((topPS st.queue i).weight + 1) * M ^ freeObjs objs (i :: r) + muL objs M r

theorem mu_nil_queue (objs : List Nat) (M : Nat) (st : RState) (h : st.queue = []) : mu objs M st = muL objs M st.inputs := by
  unfold mu
  cases hi : st.inputs with
  | nil => rfl
  | cons i r => rw [h]; simp [muL, topPS, PS.weight]

theorem filter_length_lt {p q : Nat → Bool} (l : List Nat) (x : Nat) (hx : x ∈ l) (hp : p x = true) (hq : q x = false)
    (himp : ∀ y, q y = true → p y = true) : (l.filter q).length < (l.filter p).length := by
  have hle : ∀ l : List Nat, (l.filter q).length ≤ (l.filter p).length := by
    intro l
    induction l with
    | nil => simp
    | cons a l ih =>
      simp only [List.filter_cons]
      cases h : q a with
      | true => rw [himp a h]; simpa using ih
      | false =>
        cases h2 : p a
        · simpa using ih
        · simp; omega
  induction l with
  | nil => cases hx
  | cons a l ih =>
    simp only [List.filter_cons]
    rcases List.mem_cons.1 hx with h | h
    · subst h
      rw [hp, hq]
      have := hle l
      simp; omega
    · have := ih h
      cases h1 : q a with
      | true => rw [himp a h1]; simpa using this
      | false =>
        cases h2 : p a
        · simpa using this
        · simp; omega

theorem freeObjs_push (objs : List Nat) (inputs : List CInput) (x : Nat) (b : Bytes) (cv : Option Nat) (hx : x ∈ objs)
    (h : isCalledRecursively inputs x = false) : freeObjs objs (⟨cv, some x, b⟩ :: inputs) + 1 ≤ freeObjs objs inputs := by
  refine filter_length_lt objs x hx (by simp [h]) (by simp [isCalledRecursively]) ?_
  intro y hy
  simp only [isCalledRecursively, List.any_cons, Bool.not_or, Bool.and_eq_true, Bool.not_eq_true'] at hy ⊢
  exact hy.2

/-- What the measure needs to know of the document. -/
structure Bounded (env : CEnv) (objs : List Nat) (M : Nat) : Prop where
  known : ∀ cv n x, env.xobj cv n = some x → x ∈ objs
  short : ∀ x b, x ∈ objs → env.body x = .ok b → b.length + 2 ≤ M
  pos : 1 ≤ M

theorem stays_mu {objs : List Nat} {M : Nat} (hM : 1 ≤ M) {i : CInput} {r : List CInput} {st st' : RState} {b : Bool} {w : Nat} (hi : st.inputs = i :: r)
    (hw : w ≤ (topPS st.queue i).weight) (h : Stays i r w b st') : mu objs M st' + (if b then 1 else 0) ≤ mu objs M st := by
  obtain ⟨t, e1, _, e3⟩ := h.inputs
  unfold mu
  rw [hi, e1]
  simp only
  have hfree : freeObjs objs ({ i with text := t } :: r) = freeObjs objs (i :: r) := rfl
  rw [hfree]
  generalize freeObjs objs (i :: r) = k
  have hk : 1 ≤ M ^ k := Nat.one_le_iff_ne_zero.2 (by have := Nat.pow_pos (n := k) (show 0 < M by omega); omega)
  generalize M ^ k = K at hk
  generalize (topPS st'.queue { i with text := t }).weight = w' at e3
  generalize (topPS st.queue i).weight = w0 at hw
  cases b with
  | true =>
    simp at e3
    have : (w' + 1 + 1) * K ≤ (w0 + 1) * K := Nat.mul_le_mul_right _ (by omega)
    rw [Nat.add_mul (w' + 1) 1] at this
    simp; omega
  | false =>
    simp at e3
    have : (w' + 1) * K ≤ (w0 + 1) * K := Nat.mul_le_mul_right _ (by omega)
    simp; omega

theorem pushes_mu {env : CEnv} {objs : List Nat} {M : Nat} (hM : Bounded env objs M) {i : CInput} {r : List CInput} {st st' : RState} {w : Nat}
    (hi : st.inputs = i :: r) (hw : w ≤ (topPS st.queue i).weight) (h : Pushes env i r w st') : mu objs M st' + 1 ≤ mu objs M st := by
  obtain ⟨x, t, b, e1, e2, ⟨cv, n, e3⟩, e4, e5⟩ := h.inputs
  rw [mu_nil_queue _ _ _ h.queue, e1]
  unfold mu
  rw [hi]
  simp only [muL]
  have hx := hM.known cv n x e3
  have hfree : freeObjs objs ({ i with text := t } :: r) = freeObjs objs (i :: r) := rfl
  have hp := freeObjs_push objs ({ i with text := t } :: r) x b (some x) hx e4
  rw [hfree] at hp ⊢
  have hb := hM.short x b hx e2
  generalize freeObjs objs (⟨some x, some x, b⟩ :: { i with text := t } :: r) = j at hp
  generalize freeObjs objs (i :: r) = k at hp
  have ht : t.length < (topPS st.queue i).weight := by simp [topPS, PS.weight] at e5 hw ⊢; omega
  generalize (topPS st.queue i).weight = w0 at ht
  have h1 : M ^ (j + 1) ≤ M ^ k := Nat.pow_le_pow_right (by omega) hp
  rw [Nat.pow_succ] at h1
  have h2 : (b.length + 2) * M ^ j ≤ M ^ j * M := by rw [Nat.mul_comm]; exact Nat.mul_le_mul_left _ hb
  have hj : 1 ≤ M ^ j := by have := Nat.pow_pos (n := j) (show 0 < M by omega); omega
  generalize M ^ j = J at *
  generalize M ^ k = K at *
  have h3 : (t.length + 1 + 1) * K ≤ (w0 + 1) * K := Nat.mul_le_mul_right _ (by omega)
  rw [Nat.add_mul (t.length + 1) 1] at h3
  rw [show b.length + 2 = b.length + 1 + 1 from rfl, Nat.add_mul (b.length + 1) 1] at h2
  omega

/-! ### One call -/

/-- A call leaves the reader in order and costs something. -/
def Progress (objs : List Nat) (M : Nat) (m : Nat) (res : Res (Bool × Content × RState)) : Prop :=
  res ≠ .error .diverge ∧ ∀ c' st', res = .ok (true, c', st') → RInv st' ∧ mu objs M st' < m

theorem stays_inv {i : CInput} {r : List CInput} {w : Nat} {b : Bool} {st' : RState} (h : Stays i r w b st') : RInv st' := by
  refine ⟨?_, h.image⟩
  intro j s hj
  obtain ⟨t, e1, e2, _⟩ := h.inputs
  rw [e1] at hj
  simp only [List.cons.injEq] at hj
  rw [← hj.1]; exact e2

theorem pushes_inv {env : CEnv} {i : CInput} {r : List CInput} {w : Nat} {st' : RState} (h : Pushes env i r w st') : RInv st' :=
  ⟨fun _ _ _ => q1_nil h.queue, fun _ => h.queue⟩

theorem handleContent_progress {objs : List Nat} {M m : Nat} {a : CArgs} {c : Content} {st : RState} (h : RInv st) (hm : mu objs M st < m) :
    Progress objs M m (handleContent a c st) := by
  unfold handleContent handleWarnings
  split
  · rename_i e he
    split at he <;> simp [raise] at he
    exact ⟨by rw [← he]; simp, by simp⟩
  · refine ⟨by simp, ?_⟩
    intro c' st' h'
    simp only [Except.ok.injEq, Prod.mk.injEq, true_and] at h'
    rw [← h'.2]; exact ⟨h, hm⟩

theorem popDevice_progress {objs : List Nat} {M m : Nat} (hM : 1 ≤ M) {a : CArgs} {c : Content} {st : RState} (hq : st.queue = [])
    (hm : mu objs M st ≤ m) : Progress objs M m (popDevice a c st) := by
  unfold popDevice
  split
  · exact ⟨by simp, by simp⟩
  · exact ⟨by simp, by simp⟩
  · rename_i i' i r hi
    apply handleContent_progress
    · exact ⟨fun _ _ _ => q1_nil hq, fun _ => hq⟩
    · rw [mu_nil_queue _ _ _ (by exact hq)]
      rw [mu_nil_queue _ _ _ hq, hi] at hm
      simp only [muL] at hm ⊢
      have := Nat.pow_pos (n := freeObjs objs (i' :: i :: r)) (show 0 < M by omega)
      have h2 : 0 < (i'.text.length + 1) * M ^ freeObjs objs (i' :: i :: r) := Nat.mul_pos (by omega) this
      omega

theorem readPlain_progress {env : CEnv} {a : CArgs} {objs : List Nat} {M m : Nat} (hM : Bounded env objs M) (hb : ∀ x, env.body x ≠ .error .diverge)
    {c : Content} {st : RState} {i : CInput} {r : List CInput} (hi : st.inputs = i :: r) (hq : Q1 (topPS st.queue i))
    (himg : st.readingImg = false) (hm : mu objs M st ≤ m) : Progress objs M m (readPlain env a c st) := by
  unfold readPlain tryReadNextContent
  have hwt : st.weight = (topPS st.queue i).weight := by unfold RState.weight; rw [hi]; rfl
  have := readContentLoop_ok (a := a) hb (st.weight + 1) c st hi hq himg (by rw [hwt]; omega)
  cases hr : readContentLoop env a (st.weight + 1) c st with
  | error e =>
    refine ⟨?_, by simp⟩
    intro h; simp only [Except.error.injEq] at h; exact this.1 (by rw [hr, h])
  | ok p =>
    obtain ⟨b, c1, st1⟩ := p
    have := this.2 b c1 st1 hr
    cases b with
    | false =>
      simp only
      rcases this with ⟨g, _⟩ | ⟨g, _⟩
      · have h2 := stays_mu (objs := objs) hM.pos hi (Nat.le_refl _) g
        exact popDevice_progress hM.pos (g.ended rfl) (by simp at h2; omega)
      · simp at g
    | true =>
      simp only
      rcases this with ⟨g, _⟩ | ⟨_, g, _⟩
      · have h2 := stays_mu (objs := objs) hM.pos hi (Nat.le_refl _) g
        exact handleContent_progress (stays_inv g) (by simp at h2; omega)
      · have h2 := pushes_mu hM hi (Nat.le_refl _) g
        exact handleContent_progress (pushes_inv g) (by omega)

theorem eiLoop_length (s : EISt) (t acc d u : Bytes) (h : eiLoop s t acc = some (d, u)) : u.length < t.length := by
  induction t generalizing s acc with
  | nil => cases s <;> simp [eiLoop] at h
  | cons b t ih =>
    cases s with
    | readE => rw [eiLoop] at h; have := ih _ _ h; simp; omega
    | readI => rw [eiLoop] at h; have := ih _ _ h; simp; omega
    | readWs =>
      rw [eiLoop] at h
      split at h
      · simp at h; rw [← h.2]; simp
      · have := ih _ _ h; simp; omega

theorem tryReadImgData_length (t d u : Bytes) (h : tryReadImgData t = some (d, u)) : u.length < t.length := by
  cases t with
  | nil => simp [tryReadImgData] at h
  | cons b t => rw [tryReadImgData] at h; have := eiLoop_length _ _ _ _ _ h; simp; omega

theorem next_img {st st' : RState} {o : Option PsTok} (h : st.next = .ok (o, st')) : st'.readingImg = st.readingImg := by
  unfold RState.next at h
  split at h
  · simp at h
  · split at h
    · simp at h
    · simp only [Except.ok.injEq, Prod.mk.injEq] at h; rw [← h.2]

theorem readImgDict_op (f : Nat) (c c' : Content) (st st' : RState) (b : Bool) (h : readImgDict f c st = .ok (b, c', st')) : c'.op = c.op := by
  induction f generalizing c st with
  | zero => simp [readImgDict] at h
  | succ f ih =>
    rw [readImgDict] at h
    repeat' split at h
    all_goals first
      | (simp at h; done)
      | (simp only [Except.ok.injEq, Prod.mk.injEq] at h; rw [← h.2.1])
      | (have := ih _ _ h; exact this)

/-- Whatever is read as `EI` leaves the reader out of an inline image. -/
theorem readContentLoop_img {env : CEnv} {a : CArgs} (f : Nat) (c c' : Content) (st st' : RState) (b : Bool) (himg : st.readingImg = false)
    (h : readContentLoop env a f c st = .ok (b, c', st')) (hop : c'.op = some .opEI) : st'.readingImg = false := by
  induction f generalizing c st with
  | zero => simp [readContentLoop] at h
  | succ f ih =>
    rw [readContentLoop] at h
    cases hn : st.next with
    | error e => rw [hn] at h; simp at h
    | ok p =>
      obtain ⟨o, st1⟩ := p
      have himg1 : st1.readingImg = false := by rw [next_img hn]; exact himg
      rw [hn] at h
      cases o with
      | none =>
        simp only [Except.ok.injEq, Prod.mk.injEq] at h; rw [← h.2.2]; exact himg1
      | some t =>
        cases t with
        | procEnter => simp only [Except.ok.injEq, Prod.mk.injEq] at h; rw [← h.2.2]; exact himg1
        | procExit => simp only [Except.ok.injEq, Prod.mk.injEq] at h; rw [← h.2.2]; exact himg1
        | value v => exact ih _ st1 himg1 h
        | keyword k =>
          simp only at h
          split at h
          · simp only [Except.ok.injEq, Prod.mk.injEq] at h; rw [← h.2.2]; exact himg1
          · rename_i op _
            unfold tryHandleOperator at h
            split at h
            · split at h
              · simp at h
              · split at h
                · simp only [Except.ok.injEq, Prod.mk.injEq] at h; rw [← h.2.2]; exact himg1
                · split at h
                  · simp at h
                  · rename_i c2 st2 hf
                    simp only [Except.ok.injEq, Prod.mk.injEq] at h
                    rw [← h.2.2]
                    unfold tryFollowXObject at hf
                    repeat' split at hf
                    all_goals first
                      | (simp at hf; done)
                      | (simp only [Except.ok.injEq, Prod.mk.injEq] at hf; rw [← hf.2]; exact himg1)
            · split at h
              · rename_i hbi
                split at h
                · simp at h
                · rename_i c2 st2 hf
                  simp only [Except.ok.injEq, Prod.mk.injEq] at h
                  have := readImgDict_op _ _ _ _ _ _ hf
                  rw [h.2.1, hop] at this
                  simp [hbi] at this
                · rename_i c2 st2 hf
                  simp only [Except.ok.injEq, Prod.mk.injEq] at h
                  have := readImgDict_op _ _ _ _ _ _ hf
                  rw [← h.2.1] at hop
                  rw [hop] at this
                  simp [hbi] at this
              · simp only [Except.ok.injEq, Prod.mk.injEq] at h; rw [← h.2.2]; exact himg1

/-- The device never gets longer in the hands of the handler. -/
def Consumes (a : CArgs) : Prop := ∀ h, a.handler = some h → ∀ d t, (h d t).2.length ≤ t.length

theorem text_mu {objs : List Nat} {M : Nat} {i : CInput} {r : List CInput} {st st' : RState} (hi : st.inputs = i :: r) (hq : st.queue = [])
    (t : Bytes) (hi' : st'.inputs = { i with text := t } :: r) (hq' : st'.queue = []) (h : t.length ≤ i.text.length) :
    mu objs M st' ≤ mu objs M st := by
  rw [mu_nil_queue _ _ _ hq, mu_nil_queue _ _ _ hq', hi, hi']
  simp only [muL]
  have hfree : freeObjs objs ({ i with text := t } :: r) = freeObjs objs (i :: r) := rfl
  rw [hfree]
  have := Nat.mul_le_mul_right (M ^ freeObjs objs (i :: r)) (show t.length + 1 ≤ i.text.length + 1 by omega)
  omega

theorem text_mu_lt {objs : List Nat} {M : Nat} (hM : 1 ≤ M) {i : CInput} {r : List CInput} {st st' : RState} (hi : st.inputs = i :: r) (hq : st.queue = [])
    (t : Bytes) (hi' : st'.inputs = { i with text := t } :: r) (hq' : st'.queue = []) (h : t.length < i.text.length) :
    mu objs M st' < mu objs M st := by
  rw [mu_nil_queue _ _ _ hq, mu_nil_queue _ _ _ hq', hi, hi']
  simp only [muL]
  have hfree : freeObjs objs ({ i with text := t } :: r) = freeObjs objs (i :: r) := rfl
  rw [hfree]
  have h1 := Nat.mul_le_mul_right (M ^ freeObjs objs (i :: r)) (show t.length + 1 + 1 ≤ i.text.length + 1 by omega)
  rw [Nat.add_mul (t.length + 1) 1] at h1
  have := Nat.pow_pos (n := freeObjs objs (i :: r)) (show 0 < M by omega)
  omega

theorem tryReadNext_progress {env : CEnv} {a : CArgs} {objs : List Nat} {M : Nat} (hM : Bounded env objs M) (hb : ∀ x, env.body x ≠ .error .diverge)
    (hh : Consumes a) {c : Content} {st : RState} (h : RInv st) : Progress objs M (mu objs M st) (tryReadNext env a c st) := by
  unfold tryReadNext
  split
  · exact ⟨by simp, by simp⟩
  · rename_i i r hi
    split
    · rename_i himg
      have hq := h.2 himg
      split
      · split
        · exact popDevice_progress hM.pos hq (text_mu hi hq [] rfl hq (by simp))
        · rename_i d t hd
          refine ⟨by simp, ?_⟩
          intro c' st' h'
          simp only [Except.ok.injEq, Prod.mk.injEq, true_and] at h'
          rw [← h'.2]
          exact ⟨⟨fun _ _ _ => q1_nil hq, fun _ => hq⟩, text_mu_lt hM.pos hi hq t rfl hq (tryReadImgData_length _ _ _ hd)⟩
      · rename_i hd hhd
        unfold readAfterHandler
        dsimp only
        have hlen := hh hd hhd c.reset.imgDict i.text
        generalize hd c.reset.imgDict i.text = res at hlen
        obtain ⟨b, t⟩ := res
        have hmu : mu objs M { st with inputs := { i with text := t } :: r, readingImg := false } ≤ mu objs M st :=
          text_mu hi hq t rfl hq hlen
        split
        · exact popDevice_progress hM.pos hq hmu
        · generalize hst1 : ({ st with inputs := { i with text := t } :: r, readingImg := false } : RState) = st1 at hmu
          have hi1 : st1.inputs = { i with text := t } :: r := by rw [← hst1]
          have hq1 : st1.queue = [] := by rw [← hst1]; exact hq
          have himg1 : st1.readingImg = false := by rw [← hst1]
          unfold tryReadNextContent
          have hwt : st1.weight = (topPS st1.queue { i with text := t }).weight := by unfold RState.weight; rw [hi1]; rfl
          have := readContentLoop_ok (a := a) hb (st1.weight + 1) c.reset st1 hi1 (q1_nil hq1) himg1 (by rw [hwt]; omega)
          cases hr : readContentLoop env a (st1.weight + 1) c.reset st1 with
          | error e =>
            refine ⟨?_, by simp⟩
            intro h; simp only [Except.error.injEq] at h; exact this.1 (by rw [hr, h])
          | ok p =>
            obtain ⟨b, c1, st2⟩ := p
            have := this.2 b c1 st2 hr
            cases b with
            | false =>
              simp only
              rcases this with ⟨g, _⟩ | ⟨g, _⟩
              · have h2 := stays_mu (objs := objs) hM.pos hi1 (Nat.le_refl _) g
                exact popDevice_progress hM.pos (g.ended rfl) (by simp at h2; omega)
              · simp at g
            | true =>
              simp only
              have key : RInv st2 ∧ mu objs M st2 < mu objs M st := by
                rcases this with ⟨g, _⟩ | ⟨_, g, _⟩
                · have h2 := stays_mu (objs := objs) hM.pos hi1 (Nat.le_refl _) g
                  exact ⟨stays_inv g, by simp at h2; omega⟩
                · have h2 := pushes_mu hM hi1 (Nat.le_refl _) g
                  exact ⟨pushes_inv g, by omega⟩
              split
              · exact handleContent_progress key.1 key.2
              · rename_i hei
                have himg2 : st2.readingImg = false := readContentLoop_img _ _ _ _ _ _ himg1 hr (by simpa using hei)
                cases hi2 : st2.inputs with
                | nil =>
                  exfalso
                  rcases this with ⟨g, _⟩ | ⟨_, g, _⟩
                  · obtain ⟨_, e, _⟩ := g.inputs; rw [hi2] at e; simp at e
                  · obtain ⟨_, _, _, e, _⟩ := g.inputs; rw [hi2] at e; simp at e
                | cons i2 r2 => exact readPlain_progress hM hb hi2 (key.1.1 i2 r2 hi2) himg2 (Nat.le_of_lt key.2)
    · rename_i himg
      exact readPlain_progress hM hb hi (h.1 i r hi) (by simpa using himg) (Nat.le_refl _)

/-! ### All the contents -/

theorem readContents_ends {env : CEnv} {a : CArgs} {objs : List Nat} {M : Nat} (hM : Bounded env objs M) (hb : ∀ x, env.body x ≠ .error .diverge)
    (hh : Consumes a) (n : Nat) (c : Content) (st : RState) (h : RInv st) (hn : mu objs M st < n) :
    readAllContent env a n c st ≠ .error .diverge ∧ ∀ m, n ≤ m → readAllContent env a m c st = readAllContent env a n c st := by
  induction n generalizing c st with
  | zero => omega
  | succ n ih =>
    have hp := tryReadNext_progress (c := c) hM hb hh h
    have hstep : ∀ m, n + 1 ≤ m → ∃ k, m = k + 1 ∧ n ≤ k := fun m hm => ⟨m - 1, by omega, by omega⟩
    cases hr : tryReadNext env a c st with
    | error e =>
      refine ⟨?_, ?_⟩
      · rw [readAllContent, hr]
        simp only
        intro he; simp only [Except.error.injEq] at he; exact hp.1 (by rw [hr, he])
      · intro m hm
        obtain ⟨k, hk, _⟩ := hstep m hm
        rw [hk, readAllContent, readAllContent, hr]
    | ok p =>
      obtain ⟨b, c1, st1⟩ := p
      cases b with
      | false =>
        refine ⟨by rw [readAllContent, hr]; simp, ?_⟩
        intro m hm
        obtain ⟨k, hk, _⟩ := hstep m hm
        rw [hk, readAllContent, readAllContent, hr]
      | true =>
        obtain ⟨g1, g2⟩ := hp.2 c1 st1 hr
        obtain ⟨i1, i2⟩ := ih c1 st1 g1 (by omega)
        refine ⟨?_, ?_⟩
        · rw [readAllContent, hr]
          simp only
          split
          · rename_i e he
            intro h'; simp only [Except.error.injEq] at h'; exact i1 (by rw [he, h'])
          · simp
        · intro m hm
          obtain ⟨k, hk, hkn⟩ := hstep m hm
          rw [hk, readAllContent, readAllContent, hr]
          simp only
          rw [i2 k hkn]

/-- The measure exists as soon as the document has finitely many objects. -/
theorem bounded_of_finite (env : CEnv) (objs : List Nat) (h : ∀ cv n x, env.xobj cv n = some x → x ∈ objs) : ∃ M, Bounded env objs M := by
  have : ∃ M, 1 ≤ M ∧ ∀ x b, x ∈ objs → env.body x = .ok b → b.length + 2 ≤ M := by
    clear h
    induction objs with
    | nil => exact ⟨1, by omega, fun x b hx => by cases hx⟩
    | cons y l ih =>
      obtain ⟨M, h1, h2⟩ := ih
      cases hy : env.body y with
      | error e =>
        refine ⟨M, h1, ?_⟩
        intro x b hx hb
        rcases List.mem_cons.1 hx with h | h
        · subst h; rw [hy] at hb; simp at hb
        · exact h2 x b h hb
      | ok bd =>
        refine ⟨M + bd.length + 2, by omega, ?_⟩
        intro x b hx hb
        rcases List.mem_cons.1 hx with h | h
        · subst h; rw [hy] at hb; simp at hb; rw [← hb]; omega
        · have := h2 x b h hb; omega
  obtain ⟨M, h1, h2⟩ := this
  exact ⟨M, h, h2, h1⟩

/-- C123 (ending).  Take a document with finitely many objects, whatever its forms contain and however they name each other, and any
text.  Calling `TryReadNext` again and again, with any arguments and with any inline image handler that only takes bytes from the device,
ends: after finitely many calls it answers false or raises.  The number of calls does not depend on how many the caller is ready to make. -/
theorem C123_reading_ends (env : CEnv) (a : CArgs) (objs : List Nat) (hobjs : ∀ cv n x, env.xobj cv n = some x → x ∈ objs)
    (hbody : ∀ x, env.body x ≠ .error .diverge) (hhandler : Consumes a) (canvas contents : Option Nat) (text : Bytes) :
    ∃ n r, r ≠ .error .diverge ∧ ∀ m, n ≤ m → readAllContent env a m {} ⟨[⟨canvas, contents, text⟩], [], false⟩ = r := by
  obtain ⟨M, hM⟩ := bounded_of_finite env objs hobjs
  have hinv : RInv ⟨[⟨canvas, contents, text⟩], [], false⟩ := ⟨fun _ _ _ => q1_nil rfl, fun _ => rfl⟩
  obtain ⟨h1, h2⟩ := readContents_ends hM hbody hhandler _ {} _ hinv (Nat.lt_succ_self _)
  exact ⟨_, _, h1, h2⟩

/-! ### Nesting -/

/-- The contents of a canvas that has been entered `d` times: every form that is entered is left, and nothing else is. -/
def Spec.Nested (env : CEnv) (a : CArgs) : Nat → List Content → Prop
  | d, [] => d = 0
  | d, c :: l =>
    (Spec.Enters env a c ∧ c.type ≠ .endXObjectForm ∧ Spec.Nested env a (d + 1) l) ∨
    (c.type = .endXObjectForm ∧ ∃ k, d = k + 1 ∧ Spec.Nested env a k l) ∨
    (¬ Spec.Enters env a c ∧ c.type ≠ .endXObjectForm ∧ Spec.Nested env a d l)

theorem enters_clear {env : CEnv} {a : CArgs} {c : Content} : Spec.Enters env a c.clear ↔ Spec.Enters env a c := by
  unfold Spec.Enters Content.clear
  cases h : c.type <;> simp [h]

theorem type_clear (c : Content) : c.clear.type = c.type := by
  unfold Content.clear
  cases h : c.type <;> simp [h]

/-- What a call without handler does to the stack of inputs. -/
def StackStep (env : CEnv) (a : CArgs) (st : RState) (res : Res (Bool × Content × RState)) : Prop :=
  ∀ b c' st', res = .ok (b, c', st') →
    (b = false → st.inputs.length ≤ 1) ∧
    (b = true → RInv st' ∧
      ((Spec.Enters env a c' ∧ c'.type ≠ .endXObjectForm ∧ st'.inputs.length = st.inputs.length + 1) ∨
       (c'.type = .endXObjectForm ∧ 2 ≤ st.inputs.length ∧ st'.inputs.length + 1 = st.inputs.length) ∨
       (¬ Spec.Enters env a c' ∧ c'.type ≠ .endXObjectForm ∧ st'.inputs.length = st.inputs.length)))

theorem popDevice_stack {env : CEnv} {a : CArgs} {c : Content} {st st0 : RState} (hl : st.inputs.length = st0.inputs.length)
    (hq : st.queue = []) : StackStep env a st0 (popDevice a c st) := by
  intro b c' st' h
  unfold popDevice at h
  split at h
  · simp at h
  · rename_i hi
    simp only [Except.ok.injEq, Prod.mk.injEq] at h
    obtain ⟨h0, _, _⟩ := h
    subst h0
    rw [hi] at hl
    exact ⟨fun _ => by rw [← hl]; simp, by simp⟩
  · rename_i i' i r hi
    rw [hi] at hl
    unfold handleContent at h
    split at h
    · simp at h
    · simp only [Except.ok.injEq, Prod.mk.injEq] at h
      obtain ⟨h0, h1, h2⟩ := h
      subst h0; subst h1; subst h2
      refine ⟨by simp, fun _ => ⟨⟨fun _ _ _ => q1_nil hq, fun _ => hq⟩, Or.inr (Or.inl ⟨by rw [type_clear], ?_, ?_⟩)⟩⟩
      · rw [← hl]; simp
      · rw [← hl]; simp

theorem tryReadNext_stack {env : CEnv} {a : CArgs} (hb : ∀ x, env.body x ≠ .error .diverge) (hh : a.handler = none) {c : Content} {st : RState}
    (h : RInv st) : StackStep env a st (tryReadNext env a c st) := by
  unfold tryReadNext
  split
  · rename_i hi
    intro b c' st' h'
    simp only [Except.ok.injEq, Prod.mk.injEq] at h'
    rw [← h'.1]
    exact ⟨fun _ => by rw [hi]; simp, by simp⟩
  · rename_i i r hi
    split
    · rename_i himg
      have hq := h.2 himg
      rw [hh]
      simp only
      split
      · exact popDevice_stack (by rw [hi]; simp) hq
      · rename_i d t hd
        intro b c' st' h'
        simp only [Except.ok.injEq, Prod.mk.injEq] at h'
        obtain ⟨h0, h1, h2⟩ := h'
        subst h0; subst h1; subst h2
        refine ⟨by simp, fun _ => ⟨⟨fun _ _ _ => q1_nil hq, fun _ => hq⟩, Or.inr (Or.inr ⟨?_, ?_, ?_⟩)⟩⟩
        · rw [enters_clear]; intro he; have := he.1; simp at this
        · rw [type_clear]; simp
        · rw [hi]; simp
    · rename_i himg
      unfold readPlain tryReadNextContent
      have hwt : st.weight = (topPS st.queue i).weight := by unfold RState.weight; rw [hi]; rfl
      have := readContentLoop_ok (a := a) hb (st.weight + 1) c.reset st hi (h.1 i r hi) (by simpa using himg) (by rw [hwt]; omega)
      cases hr : readContentLoop env a (st.weight + 1) c.reset st with
      | error e => intro b c' st' h'; simp at h'
      | ok p =>
        obtain ⟨b1, c1, st1⟩ := p
        have := this.2 b1 c1 st1 hr
        cases b1 with
        | false =>
          simp only
          rcases this with ⟨g, _⟩ | ⟨g, _⟩
          · obtain ⟨t, e1, _, _⟩ := g.inputs
            exact popDevice_stack (by rw [e1, hi]; simp) (g.ended rfl)
          · simp at g
        | true =>
          simp only
          intro b c' st' h'
          unfold handleContent at h'
          split at h'
          · simp at h'
          · simp only [Except.ok.injEq, Prod.mk.injEq] at h'
            obtain ⟨h0, h1, h2⟩ := h'
            subst h0; subst h1; subst h2
            refine ⟨by simp, fun _ => ?_⟩
            rw [enters_clear, type_clear]
            rcases this with ⟨g, g'⟩ | ⟨_, g, g', g''⟩
            · obtain ⟨t, e1, _, _⟩ := g.inputs
              refine ⟨stays_inv g, Or.inr (Or.inr ⟨(g' rfl).2 rfl, (g' rfl).1, ?_⟩)⟩
              rw [e1, hi]; simp
            · obtain ⟨x, t, bd, e1, _⟩ := g.inputs
              refine ⟨pushes_inv g, Or.inl ⟨g'' rfl, g', ?_⟩⟩
              rw [e1, hi]; simp

theorem readContents_nested {env : CEnv} {a : CArgs} (hb : ∀ x, env.body x ≠ .error .diverge) (hh : a.handler = none) (n d : Nat) (c : Content)
    (st : RState) (l : List Content) (h : RInv st) (hd : st.inputs.length = d + 1) (hr : readAllContent env a n c st = .ok l) :
    Spec.Nested env a d l := by
  induction n generalizing c st l d with
  | zero => simp [readAllContent] at hr
  | succ n ih =>
    rw [readAllContent] at hr
    have hs := tryReadNext_stack hb hh (c := c) h
    cases ht : tryReadNext env a c st with
    | error e => rw [ht] at hr; simp at hr
    | ok p =>
      obtain ⟨b, c1, st1⟩ := p
      obtain ⟨g1, g2⟩ := hs b c1 st1 ht
      rw [ht] at hr
      cases b with
      | false =>
        simp only [Except.ok.injEq] at hr
        rw [← hr]
        have := g1 rfl
        show d = 0
        omega
      | true =>
        simp only at hr
        split at hr
        · simp at hr
        · rename_i l' hl'
          simp only [Except.ok.injEq] at hr
          rw [← hr]
          obtain ⟨g3, g4⟩ := g2 rfl
          rcases g4 with ⟨e1, e2, e3⟩ | ⟨e1, e2, e3⟩ | ⟨e1, e2, e3⟩
          · exact Or.inl ⟨e1, e2, ih (d + 1) c1 st1 l' g3 (by omega) hl'⟩
          · obtain ⟨k, hk⟩ : ∃ k, d = k + 1 := ⟨d - 1, by omega⟩
            exact Or.inr (Or.inl ⟨e1, k, hk, ih k c1 st1 l' g3 (by omega) hl'⟩)
          · exact Or.inr (Or.inr ⟨e1, e2, ih d c1 st1 l' g3 (by omega) hl'⟩)

/-- C123 (nesting).  When no inline image handler is set and reading ends without an exception, the contents delivered are nested: every
`DoXObject` of a followed form without the recursion warning is answered by one `EndXObjectForm`, and there is no other
`EndXObjectForm`. -/
theorem C123_nested_partial (env : CEnv) (a : CArgs) (hbody : ∀ x, env.body x ≠ .error .diverge) (hh : a.handler = none)
    (canvas contents : Option Nat) (text : Bytes) (n : Nat) (l : List Content)
    (hr : readAllContent env a n {} ⟨[⟨canvas, contents, text⟩], [], false⟩ = .ok l) : Spec.Nested env a 0 l :=
  readContents_nested hbody hh n 0 {} _ l ⟨fun _ _ _ => q1_nil rfl, fun _ => rfl⟩ rfl hr

/-- Two forms, 1 and 2, that paint each other; the page, canvas 0, paints the first. -/
def loopEnv : CEnv where
  xobj cv n := if n = asciiB "A" then some 1 else if n = asciiB "B" ∧ cv = 1 then some 2 else none
  form _ := true
  body x := .ok (if x = 1 then asciiB "/B Do" else asciiB "q /A Do Q")

/-- What is seen of the contents. -/
def summary (r : Res (List Content)) : List (CType × Bool) :=
  match r with
  | .ok l => l.map fun c => (c.type, c.warnings.recursiveXObject)
  | .error _ => []

/-- Non-vacuity: the two forms meet the hypotheses, and the page is read to its end. -/
example : (∀ cv n x, loopEnv.xobj cv n = some x → x ∈ [1, 2]) ∧ (∀ x, loopEnv.body x ≠ .error .diverge) ∧ Consumes {} ∧
    summary (readAllContent loopEnv {} 20 {} ⟨[⟨some 0, some 7, asciiB "/A Do f"⟩], [], false⟩) =
      [(.doXObject, false), (.doXObject, false), (.operator, false), (.doXObject, true), (.operator, false), (.endXObjectForm, false),
        (.endXObjectForm, false), (.operator, false)] := by
  refine ⟨?_, by intro x h; simp [loopEnv] at h, by intro h hh; simp at hh, by decide +kernel⟩
  intro cv n x h
  simp only [loopEnv] at h
  split at h
  · simp at h; simp [← h]
  · split at h
    · simp at h; simp [← h]
    · simp at h

/-- A handler that takes the data up to its end, here one space. -/
def oneSpace : List (Bytes × Var) → Bytes → Bool × Bytes := fun _ t => (true, t.drop 1)

/-- An image dictionary, then a form that looks entered. -/
def lostWarning : List Content → Bool
  | [c1, c2] => decide (c1.type = .imageDictionary ∧ c2.type = .doXObject ∧ c2.warnings.recursiveXObject = false ∧ c2.xobj = some 7)
  | _ => false

/-- A test on what was read. -/
def resHas (p : List Content → Bool) : Res (List Content) → Bool
  | .ok l => p l
  | .error _ => false

theorem resHas_ok {p : List Content → Bool} {r : Res (List Content)} (h : resHas p r = true) : ∃ l, r = .ok l ∧ p l = true := by
  cases r with
  | error e => simp [resHas] at h
  | ok l => exact ⟨l, rfl, h⟩

/-- C123 is false with an inline image handler: when the image data is not followed by `EI`, the warning about the missing `EI` replaces
the warning that a form is already being read, so a form that was not entered looks as if it had been. -/
theorem C123_nested_handler_false : ∃ (env : CEnv) (a : CArgs) (text : Bytes) (l : List Content), Consumes a ∧
    (∀ x, env.body x ≠ .error .diverge) ∧ readAllContent env a 20 {} ⟨[⟨some 0, some 7, text⟩], [], false⟩ = .ok l ∧ ¬ Spec.Nested env a 0 l := by
  obtain ⟨env, henv⟩ : ∃ env : CEnv, env = ⟨fun _ _ => some 7, fun _ => true, fun _ => .ok []⟩ := ⟨_, rfl⟩
  obtain ⟨a, ha⟩ : ∃ a : CArgs, a = { handler := some oneSpace } := ⟨_, rfl⟩
  have key : ∀ l : List Content, lostWarning l = true → ¬ Spec.Nested env a 0 l := by
    intro l hl
    unfold lostWarning at hl
    split at hl
    · rename_i c1 c2
      simp only [decide_eq_true_eq] at hl
      obtain ⟨h1, h2, h3, h4⟩ := hl
      have he : Spec.Enters env a c2 := ⟨h2, h3, by rw [ha], 7, h4, by rw [henv]⟩
      rintro (⟨g, _⟩ | ⟨g, _⟩ | ⟨_, _, g⟩)
      · have := g.1; rw [h1] at this; simp at this
      · rw [h1] at g; simp at g
      · rcases g with ⟨_, _, g⟩ | ⟨g, _⟩ | ⟨g, _⟩
        · simp [Spec.Nested] at g
        · rw [h2] at g; simp at g
        · exact g he
    · simp at hl
  have hfacts : resHas lostWarning (readAllContent env a 20 {} ⟨[⟨some 0, some 7, asciiB "BI ID /A Do"⟩], [], false⟩) = true := by
    subst henv ha; decide +kernel
  obtain ⟨l, h1, h2⟩ := resHas_ok hfacts
  refine ⟨env, a, _, l, ?_, ?_, h1, key l h2⟩
  · rw [ha]; intro h hh d t
    simp only [Option.some.injEq] at hh
    rw [← hh]; simp [oneSpace]
  · intro x; rw [henv]; simp

end Pdfmm
