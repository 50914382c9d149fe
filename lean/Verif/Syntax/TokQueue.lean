import Verif.Syntax.ObjectProps
/-
C21 (the look-ahead gives back what it read) and C22 (recursion is bounded).
-/
namespace Pdfmm

/-! ### States a tokenizer can be in -/

/-- At most two queued tokens; when there are two, the first is a literal that starts with an
integer. -/
def QShape (s : PS) : Prop :=
  s.queue.length ≤ 1 ∨ ∃ a b, s.queue = [a, b] ∧ a.type = .literal ∧ fromCharsInt a.text ≠ none

/-- The invariant of a tokenizer. -/
def TInv (cap : Nat) (s : PS) : Prop := QOk cap s ∧ QShape s

theorem TInv_fresh (cap : Nat) (inp : Bytes) (d : Nat) : TInv cap ⟨[], inp, d⟩ :=
  ⟨QOk_fresh _ _ _, Or.inl (by simp)⟩

/-- What is known after a token was read from a state meeting the invariant. -/
def AfterTok (cap : Nat) (t : Tok) (s : PS) : Prop :=
  QOk cap s ∧ s.queue.length ≤ 1 ∧ (s.queue ≠ [] → t.type = .literal ∧ fromCharsInt t.text ≠ none) ∧
    t.text ≠ [] ∧ t.text.length ≤ cap

theorem tryReadToken_inv {cap : Nat} (hcap : 2 ≤ cap) {s s' : PS} {t : Tok} (h : TInv cap s)
    (hr : tryReadToken cap s = (some t, s')) : AfterTok cap t s' ∧ s'.depth = s.depth := by
  obtain ⟨_, h2, h3, h4, h5, _⟩ := tryReadToken_some hcap h.1 hr
  refine ⟨⟨h4, ?_, ?_, h2, h3⟩, h5⟩
  · unfold tryReadToken at hr
    rcases h.2 with hq | ⟨a, b, hq, _⟩
    · cases hs : s.queue with
      | nil =>
        rw [hs] at hr; simp only at hr
        split at hr <;> simp at hr
        rw [← hr.2]; simp
      | cons u q =>
        rw [hs] at hr hq; simp at hr hq
        rw [← hr.2]; simp [hq]
    · rw [hq] at hr; simp at hr
      rw [← hr.2]; simp
  · intro hne
    unfold tryReadToken at hr
    rcases h.2 with hq | ⟨a, b, hq, ha, hi⟩
    · exfalso
      cases hs : s.queue with
      | nil =>
        rw [hs] at hr; simp only at hr
        split at hr <;> simp at hr
        rw [← hr.2] at hne; simp at hne
      | cons u q =>
        rw [hs] at hr hq; simp at hr hq
        rw [← hr.2] at hne; simp [hq] at hne
    · rw [hq] at hr; simp at hr
      have hlen := (h.1 a (by rw [hq]; simp)).2
      rw [← hr.1, List.take_of_length_le hlen]
      exact ⟨ha, hi⟩

theorem tryReadToken_none_inv {cap : Nat} {s s' : PS} (hr : tryReadToken cap s = (none, s')) :
    TInv cap s' ∧ s'.depth = s.depth := by
  obtain ⟨h1, h2⟩ := tryReadToken_none hr
  subst h2
  exact ⟨⟨by intro t ht; simp [h1] at ht, Or.inl (by simp [h1])⟩, rfl⟩

theorem AfterTok.toTInv {cap : Nat} {t : Tok} {s : PS} (h : AfterTok cap t s) : TInv cap s :=
  ⟨h.1, Or.inl h.2.1⟩

theorem AfterTok.queue_nil {cap : Nat} {t : Tok} {s : PS} (h : AfterTok cap t s)
    (ht : t.type ≠ .literal) : s.queue = [] :=
  Classical.byContradiction (fun hne => ht (h.2.2.1 hne).1)

theorem enqueue_nil_inv {cap : Nat} {t : Tok} {s : PS} (hq : s.queue = []) (h1 : t.text ≠ [])
    (h2 : t.text.length ≤ cap) : TInv cap (enqueue t s) := by
  refine ⟨?_, Or.inl (by simp [enqueue, hq])⟩
  intro u hu; simp [enqueue, hq] at hu; subst hu; exact ⟨h1, h2⟩

theorem fixed_of_int {t : Bytes} (h : fromCharsInt t ≠ none) : fromCharsFixed t ≠ none := by
  have body : ∀ neg r, List.takeWhile isDigitB r ≠ [] → fromCharsFixed.fixedBody neg r ≠ none := by
    intro neg r hr
    unfold fromCharsFixed.fixedBody
    split
    · rw [if_neg (fun h => hr h.1)]; simp
    · rw [if_neg hr]; simp
  unfold fromCharsInt at h
  unfold fromCharsFixed
  split at h
  · rename_i r
    apply body
    intro e; simp [e] at h
  · rename_i t' hne
    apply body; intro e; simp [e] at h

theorem lookRef_inv {cap : Nat} (hcap : 2 ≤ cap) (n : Int) {s : PS} (hq : QOk cap s)
    (hl : s.queue.length ≤ 1) :
    TInv cap (lookRef cap n s).2 ∧ (lookRef cap n s).2.depth = s.depth := by
  unfold lookRef
  cases h1 : tryReadToken cap s with
  | mk o s1 =>
    cases o with
    | none => exact tryReadToken_none_inv h1
    | some t2 =>
      obtain ⟨⟨a1, a2, a3, a4, a5⟩, a6⟩ := tryReadToken_inv hcap ⟨hq, Or.inl hl⟩ h1
      have hq1 : s1.queue = [] := by
        unfold tryReadToken at h1
        cases hs : s.queue with
        | nil =>
          rw [hs] at h1; simp only at h1
          split at h1 <;> simp at h1
          rw [← h1.2]
        | cons u q =>
          rw [hs] at h1 hl; simp at h1 hl
          rw [← h1.2]; exact hl
      simp only
      split
      · exact ⟨enqueue_nil_inv hq1 a4 a5, a6⟩
      · rename_i hlit
        cases hg : fromCharsInt t2.text with
        | none => exact ⟨enqueue_nil_inv hq1 a4 a5, a6⟩
        | some g =>
          simp only
          cases h2 : tryReadToken cap s1 with
          | mk o s2 =>
            cases o with
            | none => exact ⟨(tryReadToken_none_inv h2).1, by have := (tryReadToken_none_inv h2).2; simp only; omega⟩
            | some t3 =>
              obtain ⟨b, b6⟩ := tryReadToken_inv hcap ⟨a1, Or.inl a2⟩ h2
              have hq2 : s2.queue = [] := by
                unfold tryReadToken at h2
                rw [hq1] at h2; simp only at h2
                split at h2 <;> simp at h2
                rw [← h2.2]
              simp only
              split
              · exact ⟨b.toTInv, by simp only; omega⟩
              · refine ⟨⟨?_, Or.inr ⟨t2, t3, by simp [enqueue, hq2], by simpa using hlit, by simp [hg]⟩⟩,
                  by simp only [enqueue]; omega⟩
                intro u hu
                simp [enqueue, hq2] at hu
                rcases hu with hu | hu <;> subst hu
                · exact ⟨a4, a5⟩
                · exact ⟨b.2.2.2.1, b.2.2.2.2⟩

/-- The kinds of value still to be read from the device itself. -/
def Det.raw : Det → Bool
  | .val _ => false
  | .unknown => false
  | _ => true

theorem determine_inv {cfg : Cfg} (hcap : 2 ≤ cfg.cap) {t : Tok} {s : PS}
    (h : AfterTok cfg.cap t s) :
    TInv cfg.cap (determine cfg t s).2 ∧ (determine cfg t s).2.depth = s.depth ∧
      (determine cfg t s).1 ≠ raise .InvalidXRef ∧
      ∀ d, (determine cfg t s).1 = .ok d → d.raw = true → (determine cfg t s).2.queue = [] := by
  have hI := h.toTInv
  have hnil := fun hne => h.queue_nil hne
  unfold determine
  cases hty : t.type with
  | literal =>
    simp only
    by_cases c1 : t.text = [110, 117, 108, 108]
    · rw [if_pos c1]; exact ⟨hI, rfl, by simp [raise], by intro d hd; cases hd; simp [Det.raw]⟩
    rw [if_neg c1]
    by_cases c2 : t.text = [116, 114, 117, 101]
    · rw [if_pos c2]; exact ⟨hI, rfl, by simp [raise], by intro d hd; cases hd; simp [Det.raw]⟩
    rw [if_neg c2]
    by_cases c3 : t.text = [102, 97, 108, 115, 101]
    · rw [if_pos c3]; exact ⟨hI, rfl, by simp [raise], by intro d hd; cases hd; simp [Det.raw]⟩
    rw [if_neg c3]
    cases scanKind t.text .number with
    | real =>
      simp only
      cases hf : fromCharsFixed t.text with
      | none =>
        have hq : s.queue = [] := Classical.byContradiction (fun hne =>
          fixed_of_int (h.2.2.1 hne).2 hf)
        exact ⟨enqueue_nil_inv hq h.2.2.2.1 h.2.2.2.2, rfl, by simp [raise], by intro d hd; cases hd⟩
      | some p =>
        obtain ⟨x, y, z⟩ := p
        exact ⟨hI, rfl, by simp [raise], by intro d hd; cases hd; simp [Det.raw]⟩
    | number =>
      simp only
      cases hf : fromCharsInt t.text with
      | none =>
        have hq : s.queue = [] := Classical.byContradiction (fun hne => (h.2.2.1 hne).2 hf)
        exact ⟨enqueue_nil_inv hq h.2.2.2.1 h.2.2.2.2, rfl, by simp [raise], by intro d hd; cases hd⟩
      | some n =>
        simp only
        split
        · obtain ⟨a, b⟩ := lookRef_inv hcap n h.1 h.2.1
          refine ⟨a, b, by simp [raise], ?_⟩
          intro d hd hraw
          simp at hd
          rw [← hd] at hraw
          exfalso
          unfold lookRef at hraw
          repeat' split at hraw
          all_goals simp [Det.raw] at hraw
        · exact ⟨hI, rfl, by simp [raise], by intro d hd; cases hd; simp [Det.raw]⟩
    | unknown => exact ⟨hI, rfl, by simp [raise], by intro d hd; cases hd; simp [Det.raw]⟩
  | _ =>
    exact ⟨hI, rfl, by simp [raise], fun _ _ _ => hnil (by rw [hty]; simp)⟩

theorem readName_inv {cap : Nat} (hcap : 2 ≤ cap) {s : PS} (hq : s.queue = []) :
    TInv cap (readName cap s).2 ∧ (readName cap s).2.depth = s.depth := by
  have hI : TInv cap s := ⟨(by intro t ht; rw [hq] at ht; cases ht), Or.inl (by simp [hq])⟩
  unfold readName
  split
  · exact ⟨hI, rfl⟩
  · split
    · exact ⟨hI, rfl⟩
    · cases h1 : tryReadToken cap s with
      | mk o s1 =>
        cases o with
        | none => exact tryReadToken_none_inv h1
        | some t =>
          obtain ⟨a, a6⟩ := tryReadToken_inv hcap hI h1
          simp only
          split
          · rename_i hne
            exact ⟨enqueue_nil_inv (a.queue_nil hne) a.2.2.2.1 a.2.2.2.2, a6⟩
          · exact ⟨a.toTInv, a6⟩

/-- Outcome of a read started at depth `e`: the invariant holds again, and the recursion depth is
back where it was, except after a recursion overflow, when it is one higher. -/
def RunInv (cap : Nat) (e : Nat) (res : Res (Option Var) × PS) : Prop :=
  TInv cap res.2 ∧ (res.1 ≠ raise .InvalidXRef → res.2.depth = e) ∧
    (res.1 = raise .InvalidXRef → res.2.depth = e + 1)

theorem RunInv.ok {cap e : Nat} {v : Option Var} {s : PS} (h : TInv cap s) (hd : s.depth = e) :
    RunInv cap e (.ok v, s) := ⟨h, fun _ => hd, fun h => by simp [raise] at h⟩

theorem RunInv.err {cap e : Nat} {f : Fault} {s : PS} (h : TInv cap s) (hd : s.depth = e)
    (hf : f ≠ .error .InvalidXRef) : RunInv cap e (.error f, s) :=
  ⟨h, fun _ => hd, fun h => by simp [raise] at h; exact absurd h hf⟩

theorem guarded_inv {cap max : Nat} {m : P (Option Var)} {s : PS} (hs : TInv cap s)
    (h : RunInv cap (s.depth + 1) (m { s with depth := s.depth + 1 })) :
    RunInv cap s.depth (guarded max m s) := by
  unfold guarded
  split
  · exact ⟨hs, fun h => absurd rfl h, fun _ => rfl⟩
  · cases hm : m { s with depth := s.depth + 1 } with
    | mk r s' =>
      rw [hm] at h
      obtain ⟨a, b, c⟩ := h
      refine ⟨a, ?_, ?_⟩
      · intro hne; have := b hne; simp only at this ⊢; omega
      · intro he; have := c he; simp only at this ⊢; omega

theorem reader_inv (cfg : Cfg) (hcap : 2 ≤ cfg.cap) (f : Nat) :
    (∀ d s, TInv cfg.cap s → (d.raw = true → s.queue = []) →
      RunInv cfg.cap s.depth (readDT cfg f d s)) ∧
    (∀ acc s, TInv cfg.cap s → RunInv cfg.cap s.depth (readArr cfg f acc s)) ∧
    (∀ acc con s, TInv cfg.cap s → RunInv cfg.cap s.depth (readDict cfg f acc con s)) := by
  have scalar : ∀ f d s, TInv cfg.cap s → (d.raw = true → s.queue = []) → d ≠ .arr → d ≠ .dict →
      RunInv cfg.cap s.depth (readDT cfg f d s) := by
    intro f d s hs hraw h1 h2
    cases d with
    | val v => rw [readDT]; exact RunInv.ok hs rfl
    | unknown => rw [readDT]; exact RunInv.ok hs rfl
    | str => rw [readDT]; exact RunInv.ok hs rfl
    | hex => rw [readDT]; exact RunInv.ok hs rfl
    | name =>
      rw [readDT]
      obtain ⟨a, b⟩ := readName_inv hcap (hraw rfl)
      exact RunInv.ok a b
    | arr => exact absurd rfl h1
    | dict => exact absurd rfl h2
  induction f with
  | zero =>
    refine ⟨?_, ?_, ?_⟩
    · intro d s hs hraw
      by_cases h1 : d = .arr
      · subst h1; rw [readDT]; exact RunInv.err hs rfl (by simp)
      · by_cases h2 : d = .dict
        · subst h2; rw [readDT]; exact RunInv.err hs rfl (by simp)
        · exact scalar _ _ _ hs hraw h1 h2
    · intro acc s hs; rw [readArr]; exact RunInv.err hs rfl (by simp)
    · intro acc con s hs; rw [readDict]; exact RunInv.err hs rfl (by simp)
  | succ f ih =>
    obtain ⟨ihD, ihA, ihK⟩ := ih
    have hguard : ∀ (t : Tok) (s : PS), AfterTok cfg.cap t s →
        RunInv cfg.cap s.depth
          (guarded cfg.maxDepth ((determine cfg t).andThen (fun d => readDT cfg f d)) s) := by
      intro t s hs
      apply guarded_inv hs.toTInv
      have hs' : AfterTok cfg.cap t { s with depth := s.depth + 1 } := hs
      obtain ⟨a, b, c, d⟩ := determine_inv hcap hs'
      unfold P.andThen
      cases hd : determine cfg t { s with depth := s.depth + 1 } with
      | mk r s₂ =>
        rw [hd] at a b c d
        cases r with
        | error e => exact RunInv.err a b (by intro he; subst he; exact c rfl)
        | ok dd =>
          have := ihD dd s₂ a (d dd rfl)
          rw [show s₂.depth = s.depth + 1 from b] at this
          exact this
    refine ⟨?_, ?_, ?_⟩
    · intro d s hs hraw
      by_cases h1 : d = .arr
      · subst h1; rw [readDT]; exact ihA [] s hs
      · by_cases h2 : d = .dict
        · subst h2; rw [readDT]; exact ihK [] none s hs
        · exact scalar _ _ _ hs hraw h1 h2
    · intro acc s hs
      rw [readArr]
      dsimp only
      cases h1 : tryReadToken cfg.cap s with
      | mk o s1 =>
        cases o with
        | none =>
          obtain ⟨a, b⟩ := tryReadToken_none_inv h1
          exact RunInv.err a b (by simp)
        | some t =>
          obtain ⟨a, a5⟩ := tryReadToken_inv hcap hs h1
          simp only
          split
          · exact RunInv.ok a.toTInv a5
          · have hg := hguard t s1 a
            generalize guarded cfg.maxDepth _ s1 = res at hg
            obtain ⟨r, s2⟩ := res
            rw [a5] at hg
            cases r with
            | error e =>
              exact ⟨hg.1, fun h => hg.2.1 (fun h' => h (by simpa [raise] using h')),
                fun h => hg.2.2 (by simpa [raise] using h)⟩
            | ok v =>
              obtain ⟨b1, b2, b3⟩ := hg
              replace b2 := b2 (by simp [raise])
              cases v with
              | none => exact RunInv.err b1 b2 (by simp)
              | some v =>
                simp only at b1 b2 ⊢
                rw [← b2]
                exact ihA _ s2 b1
    · intro acc con s hs
      rw [readDict]
      dsimp only
      cases h1 : tryReadToken cfg.cap s with
      | mk o s1 =>
        cases o with
        | none =>
          obtain ⟨a, b⟩ := tryReadToken_none_inv h1
          exact RunInv.err a b (by simp)
        | some t =>
          obtain ⟨a, a5⟩ := tryReadToken_inv hcap hs h1
          simp only
          split
          · cases con <;> exact RunInv.ok a.toTInv a5
          · have hg := hguard t s1 a
            generalize guarded cfg.maxDepth _ s1 = res at hg
            obtain ⟨r, s2⟩ := res
            rw [a5] at hg
            cases r with
            | error e =>
              exact ⟨hg.1, fun h => hg.2.1 (fun h' => h (by simpa [raise] using h')),
                fun h => hg.2.2 (by simpa [raise] using h)⟩
            | ok v =>
              obtain ⟨b1, b2, b3⟩ := hg
              replace b2 := b2 (by simp [raise])
              simp only at b1 b2
              cases v with
              | none => exact RunInv.err b1 b2 (by simp)
              | some v =>
                cases v
                case name key =>
                  simp only
                  cases h2 : tryReadToken cfg.cap s2 with
                  | mk o s3 =>
                    cases o with
                    | none =>
                      obtain ⟨c1, c2⟩ := tryReadToken_none_inv h2
                      exact RunInv.err c1 (by omega) (by simp)
                    | some t2 =>
                      obtain ⟨c1, c5⟩ := tryReadToken_inv hcap b1 h2
                      simp only
                      obtain ⟨d1, d2, d3, d4⟩ := determine_inv hcap c1
                      cases hd : determine cfg t2 s3 with
                      | mk r s4 =>
                        rw [hd] at d1 d2 d3 d4
                        have d2' : s4.depth = s.depth := by simp only at d2; omega
                        cases r with
                        | error e => exact RunInv.err d1 d2' (by intro he; subst he; exact d3 rfl)
                        | ok d =>
                          simp only
                          split
                          · have := ihK acc (some (readHex s4.inp).1) { s4 with inp := (readHex s4.inp).2 } d1
                            rw [← d2']; exact this
                          · have hg2 := ihD d s4 d1 (d4 d rfl)
                            rw [d2'] at hg2
                            generalize readDT cfg f d s4 = res2 at hg2
                            obtain ⟨r2, s5⟩ := res2
                            cases r2 with
                            | error e =>
                              exact ⟨hg2.1, fun h => hg2.2.1 (fun h' => h (by simpa [raise] using h')),
                                fun h => hg2.2.2 (by simpa [raise] using h)⟩
                            | ok v =>
                              obtain ⟨e1, e2, e3⟩ := hg2
                              replace e2 := e2 (by simp [raise])
                              simp only at e1 e2
                              cases v with
                              | none => exact RunInv.err e1 e2 (by simp)
                              | some v =>
                                simp only
                                rw [← e2]
                                exact ihK _ _ s5 e1
                all_goals exact RunInv.err b1 b2 (by simp)

/-- Every read keeps the tokenizer's invariant, whether it succeeds or raises. -/
theorem tryReadVariant_inv (cfg : Cfg) (hcap : 2 ≤ cfg.cap) (s : PS) (hs : TInv cfg.cap s) :
    RunInv cfg.cap s.depth (tryReadVariant cfg s) := by
  unfold tryReadVariant
  cases h1 : tryReadToken cfg.cap s with
  | mk o s1 =>
    cases o with
    | none =>
      obtain ⟨a, b⟩ := tryReadToken_none_inv h1
      exact RunInv.ok a b
    | some t =>
      obtain ⟨a, a5⟩ := tryReadToken_inv hcap hs h1
      simp only
      rw [← a5]
      unfold readTok
      apply guarded_inv a.toTInv
      have hs' : AfterTok cfg.cap t { s1 with depth := s1.depth + 1 } := a
      obtain ⟨a, b, c, d⟩ := determine_inv hcap hs'
      unfold P.andThen
      cases hd : determine cfg t { s1 with depth := s1.depth + 1 } with
      | mk r s₂ =>
        rw [hd] at a b c d
        cases r with
        | error e => exact RunInv.err a b (by intro he; subst he; exact c rfl)
        | ok dd =>
          have := (reader_inv cfg hcap (2 * s1.weight + 2)).1 dd s₂ a (d dd rfl)
          rw [show s₂.depth = s1.depth + 1 from b] at this
          exact this


/-! ### C21: the look-ahead gives back what it read -/

/-- Calling `TryReadNextToken` until it returns false gives exactly the tokens `ts`. -/
def Spec.Leaves (cap : Nat) (s : PS) (ts : List Tok) : Prop := ∃ n s', readAll cap n s = some (ts, s')

/-- A reading history: tokens and values read one after another, some of the reads raising. -/
inductive Spec.Reached (cfg : Cfg) : PS → Prop
  | start (inp : Bytes) (depth : Nat) : Reached cfg ⟨[], inp, depth⟩
  | token {s : PS} : Reached cfg s → Reached cfg (tryReadToken cfg.cap s).2
  | value {s : PS} : Reached cfg s → Reached cfg (tryReadVariant cfg s).2

open Spec

theorem reached_inv {cfg : Cfg} (hcap : 2 ≤ cfg.cap) {s : PS} (h : Reached cfg s) :
    TInv cfg.cap s := by
  induction h with
  | start inp d => exact TInv_fresh _ _ _
  | token _ ih =>
    rename_i s _
    cases hr : tryReadToken cfg.cap s with
    | mk o s' =>
      cases o with
      | none => exact (tryReadToken_none_inv hr).1
      | some t => exact (tryReadToken_inv hcap ih hr).1.toTInv
  | value _ ih => exact (tryReadVariant_inv cfg hcap _ ih).1

theorem leaves_cons {cap : Nat} {s s1 : PS} {t : Tok} (h : tryReadToken cap s = (some t, s1))
    (u : Tok) (ts : List Tok) : Leaves cap s (u :: ts) ↔ u = t ∧ Leaves cap s1 ts := by
  constructor
  · rintro ⟨n, s', hn⟩
    cases n with
    | zero => simp [readAll] at hn
    | succ n =>
      rw [readAll, h] at hn
      simp only [Option.map_eq_some_iff] at hn
      obtain ⟨⟨a, b⟩, h1, h2⟩ := hn
      simp at h2
      obtain ⟨⟨h3, h4⟩, h5⟩ := h2
      subst h4
      exact ⟨h3.symm, n, b, h1⟩
  · rintro ⟨rfl, n, s', hn⟩
    exact ⟨n + 1, s', by rw [readAll, h]; simp [hn]⟩

theorem leaves_some_ne_nil {cap : Nat} {s s1 : PS} {t : Tok} (h : tryReadToken cap s = (some t, s1))
    {ts : List Tok} (hl : Leaves cap s ts) : ∃ rest, ts = t :: rest ∧ Leaves cap s1 rest := by
  cases ts with
  | nil =>
    obtain ⟨n, s', hn⟩ := hl
    cases n with
    | zero => simp [readAll] at hn
    | succ n => rw [readAll, h] at hn; simp [Option.map_eq_some_iff] at hn
  | cons u ts =>
    obtain ⟨h1, h2⟩ := (leaves_cons h u ts).1 hl
    exact ⟨ts, by rw [h1], h2⟩

theorem leaves_none {cap : Nat} {s s1 : PS} (h : tryReadToken cap s = (none, s1))
    {ts : List Tok} : Leaves cap s ts ↔ ts = [] := by
  constructor
  · rintro ⟨n, s', hn⟩
    cases n with
    | zero => simp [readAll] at hn
    | succ n => rw [readAll, h] at hn; simp at hn; exact hn.1
  · rintro rfl
    exact ⟨1, s1, by rw [readAll, h]⟩

theorem leaves_eof {cap : Nat} {s s1 : PS} (h : tryReadToken cap s = (none, s1)) :
    Leaves cap s1 [] := by
  obtain ⟨h1, h2⟩ := tryReadToken_none h
  refine (leaves_none (s1 := s1) ?_).2 rfl
  subst h2
  simp [tryReadToken, h1, lex_nil]

/-- The depth does not matter for what is left to read. -/
theorem leaves_depth {cap : Nat} {s : PS} {d : Nat} {ts : List Tok} (h : Leaves cap s ts) :
    Leaves cap { s with depth := d } ts := by
  obtain ⟨n, s', hn⟩ := h
  induction n generalizing s ts with
  | zero => simp [readAll] at hn
  | succ n ih =>
    have key : tryReadToken cap { s with depth := d } =
        ((tryReadToken cap s).1, { (tryReadToken cap s).2 with depth := d }) := by
      unfold tryReadToken
      simp only
      cases s.queue with
      | nil => simp only; split <;> rfl
      | cons => rfl
    rw [readAll] at hn
    cases hr : tryReadToken cap s with
    | mk o s1 =>
      rw [hr] at hn key
      cases o with
      | none => simp at hn; rw [hn.1]; exact (leaves_none key).2 rfl
      | some t =>
        simp only [Option.map_eq_some_iff] at hn
        obtain ⟨⟨a, b⟩, h1, h2⟩ := hn
        simp at h2
        obtain ⟨h3, h4⟩ := h2
        subst h4; rw [← h3]
        exact (leaves_cons key t a).2 ⟨rfl, ih h1⟩

theorem leaves_enqueue_nil {cap : Nat} {s : PS} {t : Tok} {ts : List Tok} (hq : s.queue = [])
    (ht : t.text.length ≤ cap) (h : Leaves cap s ts) : Leaves cap (enqueue t s) (t :: ts) := by
  refine (leaves_cons (s1 := s) ?_ t ts).2 ⟨rfl, h⟩
  obtain ⟨q, i, d⟩ := s
  simp at hq; subst hq
  simp [tryReadToken, enqueue, List.take_of_length_le ht]

theorem leaves_enqueue_two {cap : Nat} {s : PS} {t u : Tok} {ts : List Tok} (hq : s.queue = [])
    (ht : t.text.length ≤ cap) (hu : u.text.length ≤ cap) (h : Leaves cap s ts) :
    Leaves cap (enqueue u (enqueue t s)) (t :: u :: ts) := by
  refine (leaves_cons (s1 := enqueue u s) ?_ t _).2 ⟨rfl, leaves_enqueue_nil hq hu h⟩
  obtain ⟨q, i, d⟩ := s
  simp at hq; subst hq
  simp [tryReadToken, enqueue, List.take_of_length_le ht]

/-- What the look-ahead does to the tokens still to come. -/
theorem lookRef_leaves {cap : Nat} (hcap : 2 ≤ cap) (n : Int) {s : PS} (hq : QOk cap s)
    (hl : s.queue.length ≤ 1) {m : Int} (hm : (lookRef cap n s).1 = .val (.num m))
    {ts : List Tok} (h : Leaves cap s ts) :
    m = n ∧ (Leaves cap (lookRef cap n s).2 ts ∨
      (Leaves cap (lookRef cap n s).2 [] ∧ ∃ t, ts = [t] ∧ t.type = .literal ∧
        fromCharsInt t.text ≠ none)) := by
  unfold lookRef at hm ⊢
  cases h1 : tryReadToken cap s with
  | mk o s1 =>
    rw [h1] at hm
    cases o with
    | none =>
      have hts := (leaves_none h1).1 h
      subst hts
      simp at hm
      exact ⟨hm.symm, Or.inl (leaves_eof h1)⟩
    | some t2 =>
      obtain ⟨⟨a1, a2, a3, a4, a5⟩, a6⟩ := tryReadToken_inv hcap ⟨hq, Or.inl hl⟩ h1
      have hq1 : s1.queue = [] := by
        unfold tryReadToken at h1
        cases hs : s.queue with
        | nil =>
          rw [hs] at h1; simp only at h1
          split at h1 <;> simp at h1
          rw [← h1.2]
        | cons u q =>
          rw [hs] at h1 hl; simp at h1 hl
          rw [← h1.2]; exact hl
      obtain ⟨rest, hts, hrest⟩ := leaves_some_ne_nil h1 h
      subst hts
      simp only at hm ⊢
      by_cases hlit : t2.type ≠ .literal
      · rw [if_pos hlit] at hm; rw [if_pos hlit]
        simp at hm
        exact ⟨hm.symm, Or.inl (leaves_enqueue_nil hq1 a5 hrest)⟩
      · rw [if_neg hlit] at hm; rw [if_neg hlit]
        cases hg : fromCharsInt t2.text with
        | none =>
          rw [hg] at hm; simp at hm
          exact ⟨hm.symm, Or.inl (leaves_enqueue_nil hq1 a5 hrest)⟩
        | some g =>
          rw [hg] at hm
          simp only at hm ⊢
          cases h2 : tryReadToken cap s1 with
          | mk o s2 =>
            rw [h2] at hm
            cases o with
            | none =>
              simp at hm
              have := (leaves_none h2).1 hrest
              subst this
              exact ⟨hm.symm, Or.inr ⟨leaves_eof h2, t2, rfl, by simpa using hlit, by simp [hg]⟩⟩
            | some t3 =>
              obtain ⟨b, b6⟩ := tryReadToken_inv hcap ⟨a1, Or.inl a2⟩ h2
              have hq2 : s2.queue = [] := by
                unfold tryReadToken at h2
                rw [hq1] at h2; simp only at h2
                split at h2 <;> simp at h2
                rw [← h2.2]
              obtain ⟨rest2, hts, hrest2⟩ := leaves_some_ne_nil h2 hrest
              subst hts
              simp only at hm ⊢
              by_cases hR : t3.type = .literal ∧ t3.text = [82]
              · rw [if_pos hR] at hm; simp at hm
              · rw [if_neg hR] at hm; rw [if_neg hR]
                simp at hm
                exact ⟨hm.symm, Or.inl (leaves_enqueue_two hq2 a5 b.2.2.2.2 hrest2)⟩

theorem determine_num_leaves {cfg : Cfg} (hcap : 2 ≤ cfg.cap) {t : Tok} {s : PS}
    (h : AfterTok cfg.cap t s) {m : Int} (hm : (determine cfg t s).1 = .ok (.val (.num m)))
    {ts : List Tok} (hl : Leaves cfg.cap s ts) :
    Leaves cfg.cap (determine cfg t s).2 ts ∨
      (Leaves cfg.cap (determine cfg t s).2 [] ∧ ∃ t, ts = [t] ∧ t.type = .literal ∧
        fromCharsInt t.text ≠ none) := by
  unfold determine at hm ⊢
  cases hty : t.type with
  | literal =>
    rw [hty] at hm
    simp only at hm ⊢
    by_cases c1 : t.text = [110, 117, 108, 108]
    · rw [if_pos c1] at hm; simp at hm
    rw [if_neg c1] at hm; rw [if_neg c1]
    by_cases c2 : t.text = [116, 114, 117, 101]
    · rw [if_pos c2] at hm; simp at hm
    rw [if_neg c2] at hm; rw [if_neg c2]
    by_cases c3 : t.text = [102, 97, 108, 115, 101]
    · rw [if_pos c3] at hm; simp at hm
    rw [if_neg c3] at hm; rw [if_neg c3]
    cases hk : scanKind t.text .number with
    | real =>
      rw [hk] at hm; simp only at hm
      cases hf : fromCharsFixed t.text <;> rw [hf] at hm <;> simp [raise] at hm
    | unknown => rw [hk] at hm; simp at hm
    | number =>
      rw [hk] at hm; simp only at hm ⊢
      cases hf : fromCharsInt t.text with
      | none => rw [hf] at hm; simp [raise] at hm
      | some n =>
        rw [hf] at hm; simp only at hm ⊢
        by_cases hr : cfg.readRefs = true
        · rw [if_pos hr] at hm; rw [if_pos hr]
          simp at hm
          exact (lookRef_leaves hcap n h.1 h.2.1 hm hl).2
        · rw [if_neg hr]; exact Or.inl hl
  | _ => rw [hty] at hm; simp [raise] at hm

/-- Arrays and dictionaries are read as arrays and dictionaries. -/
theorem readArr_kind (cfg : Cfg) (f : Nat) (acc : List Var) (s : PS) (v : Var)
    (h : (readArr cfg f acc s).1 = .ok (some v)) : ∃ l, v = .arr l := by
  induction f generalizing acc s with
  | zero => simp [readArr] at h
  | succ f ih =>
    rw [readArr] at h
    dsimp only at h
    split at h
    · simp [raise] at h
    · split at h
      · simp at h; exact ⟨_, h.symm⟩
      · split at h
        · simp at h
        · simp [raise] at h
        · exact ih _ _ h

theorem readDict_kind (cfg : Cfg) (f : Nat) (acc : List (Bytes × Var)) (con : Option Bytes) (s : PS)
    (v : Var) (h : (readDict cfg f acc con s).1 = .ok (some v)) : ∃ l, v = .dict l := by
  induction f generalizing acc con s with
  | zero => simp [readDict] at h
  | succ f ih =>
    rw [readDict] at h
    dsimp only at h
    split at h
    · simp [raise] at h
    · split at h
      · cases con <;> (simp at h; exact ⟨_, h.symm⟩)
      · split at h
        · simp at h
        · split at h
          · simp [raise] at h
          · split at h
            · simp at h
            · split at h
              · exact ih _ _ _ h
              · split at h
                · simp at h
                · simp [raise] at h
                · exact ih _ _ _ h
        · simp [raise] at h

/-- C21 (partial).  Take a tokenizer in any state reached from a fresh one by reading tokens and
values, successfully or not.  If the next value read is a number, the tokens after it are returned by
the following reads, in order — except that when exactly one token was left and it starts with an
integer, that token is lost.  Missing: the exception (see `C21_last_token_lost_false`). -/
theorem C21_lookahead_partial (cfg : Cfg) (hcap : 2 ≤ cfg.cap) {s : PS} (hs : Reached cfg s)
    {t : Tok} {rest : List Tok} (hl : Leaves cfg.cap s (t :: rest)) {m : Int}
    (hm : (tryReadVariant cfg s).1 = .ok (some (.num m))) :
    Leaves cfg.cap (tryReadVariant cfg s).2 rest ∨
      (Leaves cfg.cap (tryReadVariant cfg s).2 [] ∧ ∃ u, rest = [u] ∧ u.type = .literal ∧
        fromCharsInt u.text ≠ none) := by
  have hI := reached_inv hcap hs
  unfold tryReadVariant at hm ⊢
  cases h1 : tryReadToken cfg.cap s with
  | mk o s1 =>
    rw [h1] at hm
    cases o with
    | none => simp at hm
    | some t' =>
      obtain ⟨a, a5⟩ := tryReadToken_inv hcap hI h1
      obtain ⟨rest', he, hrest⟩ := leaves_some_ne_nil h1 hl
      cases he
      simp only at hm ⊢
      unfold readTok guarded at hm ⊢
      by_cases hg : s1.depth + 1 > cfg.maxDepth
      · rw [if_pos hg] at hm; simp [raise] at hm
      · rw [if_neg hg] at hm; rw [if_neg hg]
        unfold P.andThen at hm ⊢
        have a' : AfterTok cfg.cap t { s1 with depth := s1.depth + 1 } := a
        have key := fun m hm => determine_num_leaves hcap a' (m := m) hm (leaves_depth hrest)
        cases hd : determine cfg t { s1 with depth := s1.depth + 1 } with
        | mk r s2 =>
          rw [hd] at hm key
          cases r with
          | error e => simp at hm
          | ok d =>
            simp only at hm ⊢
            cases d with
            | val v =>
              rw [readDT] at hm; simp at hm
              subst hm
              rw [readDT]
              rcases key m rfl with h | ⟨h, hu⟩
              · exact Or.inl (leaves_depth h)
              · exact Or.inr ⟨leaves_depth h, hu⟩
            | unknown => rw [readDT] at hm; simp at hm
            | str => rw [readDT] at hm; simp at hm
            | hex => rw [readDT] at hm; simp at hm
            | name => rw [readDT] at hm; simp at hm
            | arr =>
              rw [show 2 * s1.weight + 2 = (2 * s1.weight + 1) + 1 from rfl, readDT] at hm
              obtain ⟨l, hl⟩ := readArr_kind _ _ _ _ _ hm
              cases hl
            | dict =>
              rw [show 2 * s1.weight + 2 = (2 * s1.weight + 1) + 1 from rfl, readDT] at hm
              obtain ⟨l, hl⟩ := readDict_kind _ _ _ _ _ _ hm
              cases hl

/-- Non-vacuity: `1 2 3` — reading the first number leaves `2` and `3`. -/
example : Reached {} ⟨[], [49, 32, 50, 32, 51], 0⟩ ∧
    (match tryReadVariant {} ⟨[], [49, 32, 50, 32, 51], 0⟩ with
      | (.ok (some (.num 1)), s) => s.queue == [⟨[50], .literal⟩, ⟨[51], .literal⟩] | _ => false) = true :=
  ⟨.start _ _, by decide +kernel⟩

/-- Where C21 fails: in `n m`, for any two integers, reading the first loses the second. -/
theorem C21_last_token_lost_false (n m : Int) (h1 : -9223372036854775808 ≤ n)
    (h2 : n < 9223372036854775808) (h3 : -9223372036854775808 ≤ m) (h4 : m < 9223372036854775808) :
    (parse {} (fmtInt n ++ 32 :: fmtInt m)).1 = .ok (some (.num n)) ∧
    Leaves 4095 ⟨[], fmtInt n ++ 32 :: fmtInt m, 0⟩ [⟨fmtInt n, .literal⟩, ⟨fmtInt m, .literal⟩] ∧
    Leaves 4095 (parse {} (fmtInt n ++ 32 :: fmtInt m)).2 [] := by
  have l1 : lex 4095 (fmtInt n ++ 32 :: fmtInt m) = some (⟨fmtInt n, .literal⟩, 32 :: fmtInt m) :=
    lex_literal (fmtInt_lit n) (fmtInt_ne_nil n) (Nat.le_trans (fmtInt_length h1 h2) (by decide))
      (StartsOk.cons_ws (by decide))
  have l2 : lex 4095 (32 :: fmtInt m) = some (⟨fmtInt m, .literal⟩, []) := by
    rw [lex_ws (by decide) (by decide)]
    have := lex_literal (cap := 4095) (fmtInt_lit m) (fmtInt_ne_nil m)
      (Nat.le_trans (fmtInt_length h3 h4) (by decide)) (rest := []) (Or.inl rfl)
    rw [List.append_nil] at this; exact this
  have t1 : ∀ d, tryReadToken 4095 ⟨[], fmtInt n ++ 32 :: fmtInt m, d⟩ =
      (some ⟨fmtInt n, .literal⟩, ⟨[], 32 :: fmtInt m, d⟩) := by
    intro d; simp [tryReadToken, l1]
  have t2 : ∀ d, tryReadToken 4095 ⟨[], 32 :: fmtInt m, d⟩ =
      (some ⟨fmtInt m, .literal⟩, ⟨[], [], d⟩) := by
    intro d; simp [tryReadToken, l2]
  have t3 : ∀ d, tryReadToken 4095 ⟨[], [], d⟩ = (none, ⟨[], [], d⟩) := by
    intro d; simp [tryReadToken, lex_nil]
  have hp : parse {} (fmtInt n ++ 32 :: fmtInt m) = (.ok (some (.num n)), ⟨[], [], 0⟩) := by
    unfold parse tryReadVariant
    have t1' : tryReadToken ({} : Cfg).cap ⟨[], fmtInt n ++ 32 :: fmtInt m, 0⟩ =
      (some ⟨fmtInt n, .literal⟩, ⟨[], 32 :: fmtInt m, 0⟩) := t1 0
    rw [t1']; dsimp only
    unfold readTok
    rw [guarded_ok (r := .ok (some (.num n))) (s' := ⟨[], [], 1⟩)]
    · rfl
    · show 0 + 1 ≤ 256; omega
    · unfold P.andThen
      have : determine {} ⟨fmtInt n, .literal⟩ ⟨[], 32 :: fmtInt m, 1⟩ =
          (.ok (.val (.num n)), ⟨[], [], 1⟩) := by
        obtain ⟨w1, w2, w3, _⟩ := fmtInt_not_word n
        unfold determine
        simp only [if_neg w1, if_neg w2, if_neg w3, fmtInt_scan, fromChars_exact n h1 h2]
        show (let (d, s) := lookRef 4095 n ⟨[], 32 :: fmtInt m, 1⟩; (Except.ok d, s)) = _
        unfold lookRef
        rw [t2]
        simp only [ne_eq, not_true, if_false, fromChars_exact m h3 h4]
        rw [t3]
      dsimp only
      rw [this]; dsimp only; rw [readDT]
  refine ⟨by rw [hp], ?_, ?_⟩
  · rw [leaves_cons (t1 0)]
    refine ⟨rfl, ?_⟩
    rw [leaves_cons (t2 0)]
    exact ⟨rfl, (leaves_none (t3 0)).2 rfl⟩
  · rw [hp]; exact (leaves_none (t3 0)).2 rfl


/-! ### C22: recursion is bounded -/

/-- Arrays nested `k` deep, the innermost empty (`k = 0` means one empty array). -/
def nestedArr : Nat → Var
  | 0 => .arr []
  | k + 1 => .arr [nestedArr k]

/-- Dictionaries nested `k` deep through the key `A`. -/
def nestedDict : Nat → Var
  | 0 => .dict []
  | k + 1 => .dict [([65], nestedDict k)]

theorem lex_open (cap : Nat) (hcap : 2 ≤ cap) (r : Bytes) (d : Nat) :
    tryReadToken cap ⟨[], 91 :: r, d⟩ = (some ⟨[91], .sqL⟩, ⟨[], r, d⟩) := by
  have : lex cap (91 :: r) = some (⟨[91], .sqL⟩, r) := lex_delim hcap (by decide)
  simp [tryReadToken, this]

theorem lex_close (cap : Nat) (hcap : 2 ≤ cap) (r : Bytes) (d : Nat) :
    tryReadToken cap ⟨[], 93 :: r, d⟩ = (some ⟨[93], .sqR⟩, ⟨[], r, d⟩) := by
  have : lex cap (93 :: r) = some (⟨[93], .sqR⟩, r) := lex_delim hcap (by decide)
  simp [tryReadToken, this]

/-- Inside an array at depth `d`, `k` more opening brackets with `d + k` above the limit overflow. -/
theorem readArr_overflow (cfg : Cfg) (hcap : 2 ≤ cfg.cap) (k : Nat) (rest : Bytes) (d fuel : Nat)
    (hd : d ≤ cfg.maxDepth) (hk : cfg.maxDepth < d + k) (hf : 2 * k ≤ fuel) :
    ∃ s', readArr cfg fuel [] ⟨[], List.replicate k 91 ++ rest, d⟩ = (raise .InvalidXRef, s') ∧
      s'.depth = d + 1 := by
  induction k generalizing d fuel with
  | zero => omega
  | succ k ih =>
    obtain ⟨fuel, rfl⟩ : ∃ n, fuel = n + 2 := ⟨fuel - 2, by omega⟩
    rw [List.replicate_succ, List.cons_append, readArr]
    dsimp only
    rw [lex_open _ hcap]
    simp only [reduceCtorEq, if_false]
    by_cases hlim : d + 1 > cfg.maxDepth
    · refine ⟨⟨[], List.replicate k 91 ++ rest, d + 1⟩, ?_, rfl⟩
      unfold guarded
      simp only [if_pos hlim]
    · obtain ⟨s', h1, h2⟩ := ih (d + 1) fuel (by omega) (by omega) (by omega)
      refine ⟨{ s' with depth := s'.depth - 1 }, ?_, by show s'.depth - 1 = d + 1; omega⟩
      rw [guarded_ok (r := raise .InvalidXRef) (s' := s')]
      · show d + 1 ≤ _; omega
      · have hdet : determine cfg ⟨[91], .sqL⟩ ⟨[], List.replicate k 91 ++ rest, d + 1⟩ =
          (.ok .arr, ⟨[], List.replicate k 91 ++ rest, d + 1⟩) := rfl
        unfold P.andThen
        dsimp only
        rw [hdet]; dsimp only
        rw [readDT]; exact h1

/-- C22, the limit: opening brackets nested deeper than the recursion limit allows, followed by
anything at all, raise an error; nothing is read beyond. -/
theorem C22_deep_arrays_raise (cfg : Cfg) (hcap : 2 ≤ cfg.cap) (k : Nat) (rest : Bytes) (d : Nat)
    (hd : d ≤ cfg.maxDepth) (hk : cfg.maxDepth < d + k) :
    ∃ s', tryReadVariant cfg ⟨[], List.replicate k 91 ++ rest, d⟩ = (raise .InvalidXRef, s') ∧
      s'.depth = d + 1 := by
  cases k with
  | zero => omega
  | succ k =>
    rw [List.replicate_succ, List.cons_append]
    unfold tryReadVariant
    rw [lex_open _ hcap]
    dsimp only
    by_cases hlim : d + 1 > cfg.maxDepth
    · refine ⟨⟨[], List.replicate k 91 ++ rest, d + 1⟩, ?_, rfl⟩
      unfold readTok guarded
      rw [if_pos hlim]
    · obtain ⟨s', h1, h2⟩ := readArr_overflow cfg hcap k rest (d + 1)
        (2 * PS.weight ⟨[], List.replicate k 91 ++ rest, d⟩ + 1) (by omega) (by omega)
        (by simp [PS.weight]; omega)
      refine ⟨{ s' with depth := s'.depth - 1 }, ?_, by show s'.depth - 1 = d + 1; omega⟩
      unfold readTok
      apply guarded_ok
      · show d + 1 ≤ _; omega
      · have hdet : determine cfg ⟨[91], .sqL⟩ ⟨[], List.replicate k 91 ++ rest, d + 1⟩ =
          (.ok .arr, ⟨[], List.replicate k 91 ++ rest, d + 1⟩) := rfl
        unfold P.andThen
        dsimp only
        rw [hdet]; dsimp only
        rw [readDT]; exact h1

/-- Non-vacuity at the default limit: 257 brackets on a fresh thread. -/
example : (0 : Nat) ≤ ({} : Cfg).maxDepth ∧ ({} : Cfg).maxDepth < 0 + 257 := by decide

/-- Inside an array at depth `d`, arrays nested `k` deep are read. -/
theorem readArr_nested (cfg : Cfg) (hcap : 2 ≤ cfg.cap) (k : Nat) (rest : Bytes) (d fuel : Nat)
    (hk : d + k ≤ cfg.maxDepth) (hf : 2 * k + 1 ≤ fuel) :
    readArr cfg fuel [] ⟨[], List.replicate k 91 ++ List.replicate (k + 1) 93 ++ rest, d⟩ =
      (.ok (some (nestedArr k)), ⟨[], rest, d⟩) := by
  induction k generalizing d fuel rest with
  | zero =>
    obtain ⟨fuel, rfl⟩ : ∃ n, fuel = n + 1 := ⟨fuel - 1, by omega⟩
    show readArr cfg (fuel + 1) [] ⟨[], 93 :: rest, d⟩ = _
    rw [readArr]; dsimp only
    rw [lex_close _ hcap]; simp [nestedArr]
  | succ k ih =>
    obtain ⟨fuel, rfl⟩ : ∃ n, fuel = n + 2 := ⟨fuel - 2, by omega⟩
    have e : List.replicate (k + 1) (91 : Byte) ++ List.replicate (k + 1 + 1) 93 ++ rest =
        91 :: (List.replicate k 91 ++ List.replicate (k + 1) 93 ++ (93 :: rest)) := by
      rw [List.replicate_succ (n := k), List.replicate_succ' (n := k + 1)]; simp
    rw [e, readArr]; dsimp only
    rw [lex_open _ hcap]; simp only [reduceCtorEq, if_false]
    rw [guarded_ok (r := .ok (some (nestedArr k))) (s' := ⟨[], 93 :: rest, d + 1⟩)]
    · dsimp only
      rw [readArr]; dsimp only
      show (match tryReadToken cfg.cap ⟨[], 93 :: rest, d + 1 - 1⟩ with | (none, s) => _ | (some t, s) => _) = _
      rw [lex_close _ hcap]; simp [nestedArr]
    · show d + 1 ≤ _; omega
    · have hdet : ∀ X, determine cfg ⟨[91], .sqL⟩ ⟨[], X, d + 1⟩ = (.ok .arr, ⟨[], X, d + 1⟩) :=
        fun _ => rfl
      unfold P.andThen
      dsimp only
      rw [hdet]; dsimp only
      rw [readDT]
      exact ih (93 :: rest) (d + 1) fuel (by omega) (by omega)

/-- C22, up to the limit: `k` nested arrays are read whenever `k` levels still fit, and the thread's
depth is what it was. -/
theorem C22_shallow_arrays_parse (cfg : Cfg) (hcap : 2 ≤ cfg.cap) (k : Nat) (rest : Bytes) (d : Nat)
    (hk : d + (k + 1) ≤ cfg.maxDepth) :
    tryReadVariant cfg ⟨[], List.replicate (k + 1) 91 ++ List.replicate (k + 1) 93 ++ rest, d⟩ =
      (.ok (some (nestedArr k)), ⟨[], rest, d⟩) := by
  rw [List.replicate_succ (a := 91), List.cons_append, List.cons_append]
  unfold tryReadVariant
  rw [lex_open _ hcap]; dsimp only
  unfold readTok
  rw [guarded_ok (r := .ok (some (nestedArr k))) (s' := ⟨[], rest, d + 1⟩)]
  · rfl
  · show d + 1 ≤ _; omega
  · have hdet : ∀ X, determine cfg ⟨[91], .sqL⟩ ⟨[], X, d + 1⟩ = (.ok .arr, ⟨[], X, d + 1⟩) :=
      fun _ => rfl
    unfold P.andThen
    dsimp only
    rw [hdet]; dsimp only
    rw [readDT]
    exact readArr_nested cfg hcap k rest (d + 1) _ (by omega) (by simp [PS.weight]; omega)

/-- Non-vacuity: 256 nested arrays fit on a fresh thread. -/
example : (0 : Nat) + (255 + 1) ≤ ({} : Cfg).maxDepth := by decide

/-- C22, history: a read leaves the thread's recursion depth as it found it, unless it overflowed, in
which case the depth is one higher — for every state, input and outcome. -/
theorem C22_depth_history_partial (cfg : Cfg) (hcap : 2 ≤ cfg.cap) {s : PS} (hs : Reached cfg s) :
    ((tryReadVariant cfg s).1 ≠ raise .InvalidXRef → (tryReadVariant cfg s).2.depth = s.depth) ∧
    ((tryReadVariant cfg s).1 = raise .InvalidXRef → (tryReadVariant cfg s).2.depth = s.depth + 1) :=
  (tryReadVariant_inv cfg hcap s (reached_inv hcap hs)).2

/-- The depth on a thread after it parsed the texts one after another, each with a new tokenizer. -/
def threadDepth (cfg : Cfg) : Nat → List Bytes → Nat
  | d, [] => d
  | d, t :: ts => threadDepth cfg (tryReadVariant cfg ⟨[], t, d⟩).2.depth ts

/-- Where C22 fails, 1: the limit is not the same for later parses.  After `maxDepth` parses that
overflowed, each with its own tokenizer, every parse on the thread raises, whatever it is given. -/
theorem C22_limit_leaks_false (cfg : Cfg) (hcap : 2 ≤ cfg.cap) :
    ∃ history : List Bytes, threadDepth cfg 0 history = cfg.maxDepth ∧
      ∀ c : Byte, litChar c = true ∧ 1 ≤ cfg.cap →
        (tryReadVariant cfg ⟨[], [c], threadDepth cfg 0 history⟩).1 = raise .InvalidXRef := by
  have key : ∀ n, n ≤ cfg.maxDepth → threadDepth cfg (cfg.maxDepth - n)
      (List.replicate n (List.replicate (cfg.maxDepth + 1) 91)) = cfg.maxDepth := by
    intro n
    induction n with
    | zero => intro _; rfl
    | succ n ih =>
      intro hn
      rw [List.replicate_succ, threadDepth]
      obtain ⟨s', h1, h2⟩ := C22_deep_arrays_raise cfg hcap (cfg.maxDepth + 1) []
        (cfg.maxDepth - (n + 1)) (by omega) (by omega)
      rw [List.append_nil] at h1
      rw [h1]
      simp only [h2]
      have : cfg.maxDepth - (n + 1) + 1 = cfg.maxDepth - n := by omega
      rw [this]
      exact ih (by omega)
  refine ⟨List.replicate cfg.maxDepth (List.replicate (cfg.maxDepth + 1) 91), ?_, ?_⟩
  · have := key cfg.maxDepth (Nat.le_refl _)
    simpa using this
  · intro c hc
    have h0 := key cfg.maxDepth (Nat.le_refl _)
    rw [Nat.sub_self] at h0
    rw [h0]
    have hl := lex_literal (cap := cfg.cap) (w := [c]) (rest := []) (by simpa using hc.1) (by simp)
      (by simpa using hc.2) (Or.inl rfl)
    rw [List.append_nil] at hl
    unfold tryReadVariant tryReadToken
    simp only [hl]
    unfold readTok guarded
    simp

/-- Where C22 fails, 2: dictionaries are not bounded.  For every `k`, dictionaries nested `k` deep are
parsed without an error, so the C++ recursion is `k` deep (and overflows the stack for large `k`). -/
theorem C22_dictionaries_unbounded_false (k : Nat) :
    ∃ t s', writeVar ⟨false, false⟩ (nestedDict k) = .ok t ∧
      parse {} t = (.ok (some (nestedDict k)), s') ∧ Spec.nest (nestedDict k) = k + 1 := by
  have hw : ∀ k, Spec.Writable 4095 (nestedDict k) := by
    intro k
    induction k with
    | zero => exact .dict [] trivial (by simp) (by simp)
    | succ k ih =>
      refine .dict _ ⟨by simp, trivial⟩ ?_ ?_
      · intro p hp; simp at hp; subst hp; dsimp only; decide
      · intro p hp; simp at hp; subst hp; exact ih
  have hg : ∀ k, gnest (nestedDict k) = 1 := by
    intro k
    induction k with
    | zero => simp [nestedDict, gnest, gnestKVs]
    | succ k ih => rw [nestedDict, gnest, gnestKVs, gnestKVs]; simp only [ih]; rfl
  have hn : ∀ k, Spec.nest (nestedDict k) = k + 1 := by
    intro k
    induction k with
    | zero => simp [nestedDict, Spec.nest, Spec.nestKVs]
    | succ k ih =>
      rw [nestedDict, Spec.nest, Spec.nestKVs, Spec.nestKVs]; simp only [ih, Nat.max_zero]
      omega
  obtain ⟨t, s', h1, h2, _, _⟩ := C19_write_parse_context {} (by decide) rfl ⟨false, false⟩
    (Or.inr rfl) (nestedDict k) (hw k) [] (Or.inl rfl) (noRef_nil _) 0
    (by rw [hg]; show 0 + 1 < 256; omega)
  rw [List.append_nil] at h2
  exact ⟨t, s', h1, h2, hn k⟩

end Pdfmm
