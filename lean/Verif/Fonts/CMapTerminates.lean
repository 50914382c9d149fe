import Verif.Fonts.CMapOneByte
import Verif.Syntax.TokProgress
import Verif.Syntax.TokQueue
/-
Reading a CMap ends, unless a number is negative.
-/
set_option autoImplicit false
namespace Pdfmm
open Spec

/-! ### Texts without a minus sign -/

/-- No minus sign among the bytes. -/
def NoMinus (d : Bytes) : Prop := ∀ b ∈ d, b ≠ 45

/-- Nor in what the reader works on. -/
def Clean (s : PS) : Prop := NoMinus s.inp ∧ ∀ t ∈ s.queue, NoMinus t.text

theorem NoMinus.tail {c : Byte} {r : Bytes} (h : NoMinus (c :: r)) : NoMinus r := fun b hb => h b (List.mem_cons_of_mem _ hb)

theorem NoMinus.head {c : Byte} {r : Bytes} (h : NoMinus (c :: r)) : c ≠ 45 := h c List.mem_cons_self

theorem NoMinus.snoc {d : Bytes} {c : Byte} (h : NoMinus d) (hc : c ≠ 45) : NoMinus (d ++ [c]) := by
  intro b hb
  rcases List.mem_append.1 hb with hb | hb
  · exact h b hb
  · rw [List.mem_singleton] at hb; rw [hb]; exact hc

theorem NoMinus.nil : NoMinus [] := by intro b hb; cases hb

theorem lexLoop_clean (cap : Nat) (com : Bool) (inp acc : Bytes) (hi : NoMinus inp) (ha : NoMinus acc) (t : Tok) (r : Bytes)
    (h : lexLoop cap com inp acc = some (t, r)) : NoMinus t.text ∧ NoMinus r := by
  induction inp generalizing com acc with
  | nil =>
    cases com <;> simp only [lexLoop] at h <;> split at h <;> simp at h <;>
      (obtain ⟨h1, h2⟩ := h; subst h1; subst h2; exact ⟨ha, .nil⟩)
  | cons c rest ih =>
    have hr := hi.tail
    have hc := hi.head
    cases com with
    | true =>
      simp only [lexLoop] at h
      split at h
      · split at h
        · simp at h; obtain ⟨h1, h2⟩ := h; subst h1; subst h2
          exact ⟨ha, hi⟩
        · exact ih false [] hr .nil h
      · exact ih true acc hr ha h
    | false =>
      simp only [lexLoop] at h
      split at h
      · simp at h; obtain ⟨h1, h2⟩ := h; subst h1; subst h2
        exact ⟨ha, hi⟩
      · split at h
        · exact ih false acc hr ha h
        · split at h
          · exact ih true acc hr ha h
          · split at h
            · cases rest with
              | nil =>
                simp [lexAngle] at h; obtain ⟨h1, h2⟩ := h; subst h1; subst h2
                exact ⟨NoMinus.snoc (d := []) .nil hc, .nil⟩
              | cons c2 r2 =>
                simp only [lexAngle] at h
                split at h
                · simp at h; obtain ⟨h1, h2⟩ := h; subst h1; subst h2
                  exact ⟨NoMinus.snoc (d := [c]) (NoMinus.snoc (d := []) .nil hc) hr.head, hr.tail⟩
                · simp at h; obtain ⟨h1, h2⟩ := h; subst h1; subst h2
                  exact ⟨NoMinus.snoc (d := []) .nil hc, hr⟩
            · split at h
              · simp at h; obtain ⟨h1, h2⟩ := h; subst h1; subst h2
                exact ⟨ha, hi⟩
              · split at h
                · simp at h; obtain ⟨h1, h2⟩ := h; subst h1; subst h2
                  exact ⟨ha.snoc hc, hr⟩
                · exact ih false (acc ++ [c]) hr (ha.snoc hc) h

theorem tryReadToken_clean {cap : Nat} {s s' : PS} {t : Tok} (hs : Clean s) (h : tryReadToken cap s = (some t, s')) :
    NoMinus t.text ∧ Clean s' := by
  unfold tryReadToken at h
  cases hq : s.queue with
  | cons u q =>
    rw [hq] at h
    simp at h
    obtain ⟨h1, h2⟩ := h
    subst h1; subst h2
    refine ⟨fun b hb => hs.2 u (by rw [hq]; exact List.mem_cons_self) b (List.mem_of_mem_take hb), hs.1, ?_⟩
    intro v hv; exact hs.2 v (by rw [hq]; exact List.mem_cons_of_mem _ hv)
  | nil =>
    rw [hq] at h
    simp only at h
    cases hl : lex cap s.inp with
    | none => rw [hl] at h; simp at h
    | some p =>
      obtain ⟨u, r⟩ := p
      rw [hl] at h
      simp at h
      obtain ⟨h1, h2⟩ := h
      subst h1; subst h2
      obtain ⟨a, b⟩ := lexLoop_clean cap false s.inp [] hs.1 .nil _ _ hl
      exact ⟨a, b, by intro t ht; cases ht⟩

theorem enqueue_clean {t : Tok} {s : PS} (hs : Clean s) (ht : NoMinus t.text) : Clean (enqueue t s) := by
  refine ⟨hs.1, ?_⟩
  intro u hu
  simp [enqueue] at hu
  rcases hu with hu | hu
  · exact hs.2 u hu
  · subst hu; exact ht

/-- Without references no other tokens are looked at. -/
theorem determine_state {t : Tok} {s s' : PS} {d : Det} (h : determine psCfg t s = (.ok d, s')) : s' = s := by
  have hr : psCfg.readRefs = false := rfl
  unfold determine at h
  simp only [hr] at h
  repeat' split at h
  all_goals first
    | (simp at h; done)
    | (rename_i hf; cases hf; done)
    | (simp at h; exact h.2.symm)

theorem determine_notNeg {t : Tok} {s s' : PS} {n : Int} (ht : NoMinus t.text) (h : determine psCfg t s = (.ok (.val (.num n)), s')) : 0 ≤ n := by
  have hr : psCfg.readRefs = false := rfl
  unfold determine at h
  simp only [hr] at h
  split at h
  · repeat' split at h
    all_goals try (simp at h; done)
    all_goals try (rename_i hf; cases hf; done)
    rename_i k hk _
    simp at h
    rw [← h.1]
    rw [fromCharsInt.eq_def] at hk
    split at hk
    · rename_i r he
      exact absurd rfl (ht 45 (by rw [he]; exact List.mem_cons_self))
    · dsimp only at hk
      split at hk
      · simp at hk
      · split at hk
        · simp only [Option.some.injEq] at hk; omega
        · simp at hk
  all_goals simp at h

theorem readStringLoop_clean (inp : Bytes) (st : StrSt) (h : NoMinus inp) : NoMinus (readStringLoop inp st).2 := by
  induction inp generalizing st with
  | nil => exact .nil
  | cons c r ih =>
    have hr := h.tail
    rw [readStringLoop]
    dsimp only
    repeat' split
    all_goals first
      | exact hr
      | exact ih _ hr

theorem readHexLoop_clean (inp acc : Bytes) (h : NoMinus inp) : NoMinus (readHexLoop inp acc).2 := by
  induction inp generalizing acc with
  | nil => exact .nil
  | cons c r ih =>
    have hr := h.tail
    rw [readHexLoop]
    repeat' split
    all_goals first
      | exact hr
      | exact ih _ hr

theorem readHex_clean (inp : Bytes) (h : NoMinus inp) : NoMinus (readHex inp).2 := readHexLoop_clean inp [] h

theorem readName_clean {cap : Nat} {s : PS} (hs : Clean s) : Clean (readName cap s).2 := by
  unfold readName
  split
  · exact hs
  · split
    · exact hs
    · cases h1 : tryReadToken cap s with
      | mk o s1 =>
        cases o with
        | none =>
          obtain ⟨a, b⟩ := tryReadToken_none h1
          subst b
          exact ⟨.nil, hs.2⟩
        | some t =>
          obtain ⟨a, b⟩ := tryReadToken_clean hs h1
          simp only
          split
          · exact enqueue_clean b a
          · exact b

/-- What is left after a read has no minus sign. -/
def CleanRun (res : Res (Option Var) × PS) : Prop := ∀ v, res.1 = .ok v → Clean res.2

theorem CleanRun.err {e : Fault} {s : PS} : CleanRun (.error e, s) := by intro v h; cases h

theorem guarded_clean {max : Nat} {m : P (Option Var)} {s : PS} (h : CleanRun (m { s with depth := s.depth + 1 })) :
    CleanRun (guarded max m s) := by
  unfold guarded
  split
  · exact CleanRun.err
  · cases hm : m { s with depth := s.depth + 1 } with
    | mk r s' =>
      rw [hm] at h
      intro v hv
      exact h v hv

theorem reader_clean (f : Nat) :
    (∀ d s, Clean s → CleanRun (readDT psCfg f d s)) ∧
    (∀ acc s, Clean s → CleanRun (readArr psCfg f acc s)) ∧
    (∀ acc con s, Clean s → CleanRun (readDict psCfg f acc con s)) := by
  induction f with
  | zero =>
    refine ⟨?_, fun acc s _ => by simp only [readArr]; exact CleanRun.err, fun acc con s _ => by simp only [readDict]; exact CleanRun.err⟩
    intro d s hs
    cases d with
    | val _ => simp only [readDT]; intro v _; exact hs
    | unknown => simp only [readDT]; intro v _; exact hs
    | str => simp only [readDT]; intro v _; exact ⟨readStringLoop_clean _ _ hs.1, hs.2⟩
    | hex => simp only [readDT]; intro v _; exact ⟨readHex_clean _ hs.1, hs.2⟩
    | name => simp only [readDT]; intro v _; exact readName_clean hs
    | arr => simp only [readDT]; exact CleanRun.err
    | dict => simp only [readDT]; exact CleanRun.err
  | succ f ih =>
    obtain ⟨ihD, ihA, ihK⟩ := ih
    have hguard : ∀ (t : Tok) (s : PS), Clean s →
        CleanRun (guarded psCfg.maxDepth ((determine psCfg t).andThen (fun d => readDT psCfg f d)) s) := by
      intro t s hs
      apply guarded_clean
      unfold P.andThen
      cases hd : determine psCfg t { s with depth := s.depth + 1 } with
      | mk r s₂ =>
        cases r with
        | error e => exact CleanRun.err
        | ok d =>
          have := determine_state hd
          subst this
          exact ihD d _ hs
    refine ⟨?_, ?_, ?_⟩
    · intro d s hs
      cases d with
      | val _ => simp only [readDT]; intro v _; exact hs
      | unknown => simp only [readDT]; intro v _; exact hs
      | str => simp only [readDT]; intro v _; exact ⟨readStringLoop_clean _ _ hs.1, hs.2⟩
      | hex => simp only [readDT]; intro v _; exact ⟨readHex_clean _ hs.1, hs.2⟩
      | name => simp only [readDT]; intro v _; exact readName_clean hs
      | arr => simp only [readDT]; exact ihA [] s hs
      | dict => simp only [readDT]; exact ihK [] none s hs
    · intro acc s hs
      simp only [readArr]
      cases h1 : tryReadToken psCfg.cap s with
      | mk o s1 =>
        cases o with
        | none => exact CleanRun.err
        | some t =>
          obtain ⟨_, a⟩ := tryReadToken_clean hs h1
          simp only
          split
          · intro v _; exact a
          · have hg := hguard t s1 a
            generalize guarded psCfg.maxDepth _ s1 = res at hg
            obtain ⟨r, s2⟩ := res
            cases r with
            | error e => exact CleanRun.err
            | ok v =>
              cases v with
              | none => exact CleanRun.err
              | some v => exact ihA _ s2 (hg _ rfl)
    · intro acc con s hs
      simp only [readDict]
      cases h1 : tryReadToken psCfg.cap s with
      | mk o s1 =>
        cases o with
        | none => exact CleanRun.err
        | some t =>
          obtain ⟨_, a⟩ := tryReadToken_clean hs h1
          simp only
          split
          · cases con <;> (intro v _; exact a)
          · have hg := hguard t s1 a
            generalize guarded psCfg.maxDepth _ s1 = res at hg
            obtain ⟨r, s2⟩ := res
            cases r with
            | error e => exact CleanRun.err
            | ok v =>
              have b := hg v rfl
              cases v with
              | none => exact CleanRun.err
              | some v =>
                cases v
                case name key =>
                  simp only
                  cases h2 : tryReadToken psCfg.cap s2 with
                  | mk o s3 =>
                    cases o with
                    | none => exact CleanRun.err
                    | some t2 =>
                      obtain ⟨_, c⟩ := tryReadToken_clean b h2
                      simp only
                      cases hd : determine psCfg t2 s3 with
                      | mk r s4 =>
                        cases r with
                        | error e => exact CleanRun.err
                        | ok d =>
                          have := determine_state hd
                          subst this
                          simp only
                          split
                          · exact ihK acc _ _ ⟨readHex_clean _ c.1, c.2⟩
                          · have hg2 := ihD d _ c
                            generalize readDT psCfg f d _ = res2 at hg2
                            obtain ⟨r2, s5⟩ := res2
                            cases r2 with
                            | error e => exact CleanRun.err
                            | ok v =>
                              cases v with
                              | none => exact CleanRun.err
                              | some v => exact ihK _ _ s5 (hg2 _ rfl)
                all_goals exact CleanRun.err

/-- Only a literal gives a number. -/
theorem readDT_num {f : Nat} {d : Det} {s s' : PS} {n : Int} (h : readDT psCfg f d s = (.ok (some (.num n)), s')) : d = .val (.num n) := by
  cases d with
  | val v => simp only [readDT, Prod.mk.injEq, Except.ok.injEq, Option.some.injEq] at h; rw [h.1]
  | unknown => simp [readDT] at h
  | str => simp [readDT] at h
  | hex => simp [readDT] at h
  | name => simp [readDT] at h
  | arr =>
    cases f with
    | zero => simp [readDT] at h
    | succ f =>
      simp only [readDT] at h
      obtain ⟨l, hl⟩ := readArr_kind psCfg f [] s (.num n) (by rw [h])
      cases hl
  | dict =>
    cases f with
    | zero => simp [readDT] at h
    | succ f =>
      simp only [readDT] at h
      obtain ⟨l, hl⟩ := readDict_kind psCfg f [] none s (.num n) (by rw [h])
      cases hl

/-! ### The steps -/

/-- A value that is a number is not negative. -/
def NotNeg (v : Var) : Prop := ∀ n, v = .num n → 0 ≤ n

/-- What the loops need of a state. -/
def Good (s : PS) : Prop := QOk psCfg.cap s ∧ Clean s

theorem cap_ok : 2 ≤ psCfg.cap := by decide

theorem psNext_good {s : PS} (hs : Good s) :
    psNext s ≠ .error .diverge ∧ ∀ t s', psNext s = .ok (some t, s') →
      s'.weight < s.weight ∧ Good s' ∧ (∀ v, t = .value v → NotNeg v) := by
  rw [psNext]
  cases h1 : tryReadToken psCfg.cap s with
  | mk o s1 =>
    cases o with
    | none => simp
    | some t =>
      obtain ⟨a1, a2, a3, a4, a5, _⟩ := tryReadToken_some cap_ok hs.1 h1
      obtain ⟨c1, c2⟩ := tryReadToken_clean hs.2 h1
      have hp := length_pos_of_ne a2
      simp only
      split
      · refine ⟨by simp, ?_⟩
        intro t' s' h
        simp only [Except.ok.injEq, Prod.mk.injEq, Option.some.injEq] at h
        obtain ⟨h1, h2⟩ := h
        subst h1; subst h2
        exact ⟨by omega, ⟨a4, c2⟩, by intro v hv; cases hv⟩
      · split
        · refine ⟨by simp, ?_⟩
          intro t' s' h
          simp only [Except.ok.injEq, Prod.mk.injEq, Option.some.injEq] at h
          obtain ⟨h1, h2⟩ := h
          subst h1; subst h2
          exact ⟨by omega, ⟨a4, c2⟩, by intro v hv; cases hv⟩
        · simp only [P.andThen]
          cases hd : determine psCfg t s1 with
          | mk r s2 =>
            cases r with
            | error e =>
              have := (determine_fault t hd).1
              simp only
              refine ⟨?_, by simp⟩
              rcases this with h | h <;> subst h <;> simp
            | ok d =>
              have := determine_state hd
              subst this
              simp only
              have hg := (reader_good psCfg cap_ok _).1 d s2 a4 (Nat.le_refl _)
              have hc := (reader_clean (2 * s2.weight + 2)).1 d s2 c2
              cases hr : readDT psCfg (2 * s2.weight + 2) d s2 with
              | mk r s3 =>
                rw [hr] at hg hc
                cases r with
                | error e =>
                  simp only
                  refine ⟨?_, by simp⟩
                  intro he
                  simp only [Except.error.injEq] at he
                  exact hg.1 (by rw [he])
                | ok v =>
                  obtain ⟨g1, g2, _⟩ := hg.2.2 v rfl
                  have hcl := hc v rfl
                  simp only at g1 g2 hcl
                  cases v with
                  | none =>
                    refine ⟨by simp, ?_⟩
                    intro t' s' h
                    simp only [Except.ok.injEq, Prod.mk.injEq, Option.some.injEq] at h
                    obtain ⟨h1, h2⟩ := h
                    subst h1; subst h2
                    exact ⟨by omega, ⟨g2, hcl⟩, by intro v hv; cases hv⟩
                  | some v =>
                    refine ⟨by simp, ?_⟩
                    intro t' s' h
                    simp only [Except.ok.injEq, Prod.mk.injEq, Option.some.injEq] at h
                    obtain ⟨h1, h2⟩ := h
                    subst h1; subst h2
                    refine ⟨by omega, ⟨g2, hcl⟩, ?_⟩
                    intro w hw n hn
                    simp only [PsTok.value.injEq] at hw
                    subst hw; subst hn
                    have := readDT_num hr
                    subst this
                    exact determine_notNeg c1 hd

theorem psVariant_good {s : PS} (hs : Good s) :
    psVariant s ≠ .error .diverge ∧ ∀ v s', psVariant s = .ok (v, s') → s'.weight < s.weight ∧ Good s' ∧ NotNeg v := by
  have hT := C20_parse_terminates psCfg cap_ok s hs.1
  rw [psVariant]
  cases hv : tryReadVariant psCfg s with
  | mk r s' =>
    rw [hv] at hT
    cases r with
    | error e =>
      simp only
      refine ⟨?_, by simp⟩
      intro he
      simp only [Except.error.injEq] at he
      exact hT.1 (by rw [he])
    | ok o =>
      cases o with
      | none => simp [raise]
      | some v =>
        refine ⟨by simp, ?_⟩
        intro v' s'' h
        simp only [Except.ok.injEq, Prod.mk.injEq] at h
        obtain ⟨h1, h2⟩ := h
        subst h1; subst h2
        obtain ⟨g1, g2, _⟩ := hT.2.2 v rfl
        rw [tryReadVariant] at hv
        cases h1 : tryReadToken psCfg.cap s with
        | mk o s1 =>
          rw [h1] at hv
          cases o with
          | none => simp at hv
          | some t =>
            obtain ⟨c1, c2⟩ := tryReadToken_clean hs.2 h1
            simp only [readTok] at hv
            rw [guarded] at hv
            split at hv
            · simp [raise] at hv
            · simp only [P.andThen] at hv
              cases hd : determine psCfg t { s1 with depth := s1.depth + 1 } with
              | mk r s2 =>
                rw [hd] at hv
                cases r with
                | error e => simp at hv
                | ok d =>
                  have := determine_state hd
                  subst this
                  simp only at hv
                  have hc := (reader_clean (2 * s1.weight + 2)).1 d { s1 with depth := s1.depth + 1 } c2
                  cases hr : readDT psCfg (2 * s1.weight + 2) d { s1 with depth := s1.depth + 1 } with
                  | mk r s3 =>
                    rw [hr] at hv hc
                    simp only [Prod.mk.injEq] at hv
                    obtain ⟨e1, e2⟩ := hv
                    subst e1; subst e2
                    refine ⟨g1, ⟨g2, hc _ rfl⟩, ?_⟩
                    intro n hn
                    subst hn
                    have := readDT_num hr
                    subst this
                    exact determine_notNeg c1 hd

theorem seqNext_good {e : Bytes} {s : PS} (hs : Good s) :
    seqNext e s ≠ .error .diverge ∧ ∀ o s', seqNext e s = .ok (o, s') →
      s'.weight < s.weight ∧ Good s' ∧ (∀ v, o = some v → NotNeg v) := by
  have h := psNext_good hs
  rw [seqNext]
  cases hp : psNext s with
  | error x =>
    rw [hp] at h
    simp only
    exact ⟨by simpa using h.1, by simp⟩
  | ok p =>
    obtain ⟨o, s1⟩ := p
    rw [hp] at h
    cases o with
    | none => simp [raise]
    | some t =>
      obtain ⟨g1, g2, g3⟩ := h.2 t s1 rfl
      cases t with
      | keyword k =>
        simp only
        split
        · refine ⟨by simp, ?_⟩
          intro o s' h
          simp only [Except.ok.injEq, Prod.mk.injEq] at h
          obtain ⟨h1, h2⟩ := h
          subst h1; subst h2
          exact ⟨g1, g2, by intro v hv; cases hv⟩
        · simp [raise]
      | value v =>
        refine ⟨by simp, ?_⟩
        intro o s' h
        simp only [Except.ok.injEq, Prod.mk.injEq] at h
        obtain ⟨h1, h2⟩ := h
        subst h1; subst h2
        refine ⟨g1, g2, ?_⟩
        intro w hw
        simp only [Option.some.injEq] at hw
        subst hw
        exact g3 _ rfl
      | procEnter => simp [raise]
      | procExit => simp [raise]

/-! ### The entries -/

theorem codeOfVar_nd {v : Var} (h : NotNeg v) : codeOfVar v ≠ .error .diverge := by
  cases v with
  | num n =>
    rw [codeOfVar, if_neg (by have := h n rfl; omega)]; simp
  | str d x => rw [codeOfVar]; split <;> simp
  | _ => simp [codeOfVar, raise]

theorem code_nd (st : CMState) {v : Var} (h : NotNeg v) : st.code v ≠ .error .diverge := by
  rw [CMState.code]
  have := codeOfVar_nd h
  cases hc : codeOfVar v with
  | error e => rw [hc] at this; simpa using this
  | ok c => simp

theorem push_nd (st : CMState) (c : CharCode) (cps : List Nat) : st.push c cps ≠ .error .diverge := by
  rw [CMState.push]
  split
  · simp
  · cases h : st.map.push c cps with
    | ok m => simp
    | error e =>
      rw [CodeMap.push] at h
      split at h
      · simp only [raise, Except.error.injEq] at h; rw [← h]; simp
      · split at h
        · simp only [raise, Except.error.injEq] at h; rw [← h]; simp
        · simp at h

theorem pushRange_nd (lo size : Nat) (f : Nat → Res (List Nat)) (hf : ∀ i, f i ≠ .error .diverge) :
    ∀ (k i : Nat) (st : CMState), pushRange lo size f i k st ≠ .error .diverge := by
  intro k
  induction k with
  | zero => intro i st; simp [pushRange]
  | succ k ih =>
    intro i st
    rw [pushRange]
    have h1 := hf i
    cases hfi : f i with
    | error e => rw [hfi] at h1; simpa using h1
    | ok cps =>
      simp only
      have h2 := push_nd st ⟨(lo + i) % 4294967296, size⟩ cps
      cases hp : st.push ⟨(lo + i) % 4294967296, size⟩ cps with
      | error e => rw [hp] at h2; simpa using h2
      | ok st => exact ih _ _

theorem readUtf16_nd (b : Bool) (d : Bytes) : readUtf16 b d ≠ .error .diverge := by
  rw [readUtf16]; split <;> simp

theorem pointsOf_nd (v : Var) : pointsOf v ≠ .error .diverge := by
  rw [pointsOf.eq_def]
  split
  · rename_i d
    rw [stringPoints]
    have := readUtf16_nd true d
    cases h : readUtf16 true d with
    | error e => rw [h] at this; simpa using this
    | ok t => simp only; split <;> simp
  · rw [namePoints]; split <;> simp
  · simp [raise]

theorem rangePoints_nd (cps : List Nat) (i : Nat) : rangePoints cps i ≠ .error .diverge := by
  rw [rangePoints.eq_def]; split <;> simp

theorem arrPoints_nd (l : List Var) (i : Nat) : arrPoints l i ≠ .error .diverge := by
  rw [arrPoints]
  split
  · simp [raise]
  · exact pointsOf_nd _

theorem bfRange_nd (st : CMState) {a b : Var} (ha : NotNeg a) (hb : NotNeg b) (d : Var) : bfRange st a b d ≠ .error .diverge := by
  rw [bfRange]
  have h1 := code_nd st ha
  cases hc : st.code a with
  | error e => rw [hc] at h1; simpa using h1
  | ok p =>
    obtain ⟨c, s1⟩ := p
    simp only
    have h2 := code_nd s1 hb
    cases hc2 : s1.code b with
    | error e => rw [hc2] at h2; simpa using h2
    | ok p =>
      obtain ⟨c2, s2⟩ := p
      simp only
      split
      · exact pushRange_nd _ _ _ (arrPoints_nd _) _ _ _
      · have h3 := pointsOf_nd d
        cases hp : pointsOf d with
        | error e => rw [hp] at h3; simpa using h3
        | ok cps =>
          simp only
          split
          · simp
          · exact pushRange_nd _ _ _ (rangePoints_nd _) _ _ _

theorem bfChar_nd (st : CMState) {a d : Var} (ha : NotNeg a) (hd : NotNeg d) : bfChar st a d ≠ .error .diverge := by
  rw [bfChar]
  have h1 := code_nd st ha
  cases hc : st.code a with
  | error e => rw [hc] at h1; simpa using h1
  | ok p =>
    obtain ⟨c, s1⟩ := p
    simp only
    split
    · rename_i n
      have h2 := code_nd s1 hd
      cases hc2 : s1.code (.num n) with
      | error e => rw [hc2] at h2; simpa using h2
      | ok p => exact push_nd _ _ _
    · have h3 := pointsOf_nd d
      cases hp : pointsOf d with
      | error e => rw [hp] at h3; simpa using h3
      | ok cps => exact push_nd _ _ _

theorem cidRange_nd (st : CMState) {a b d : Var} (ha : NotNeg a) (hb : NotNeg b) (hd : NotNeg d) : cidRange st a b d ≠ .error .diverge := by
  rw [cidRange]
  have h1 := code_nd st ha
  cases hc : st.code a with
  | error e => rw [hc] at h1; simpa using h1
  | ok p =>
    obtain ⟨c, s1⟩ := p
    simp only
    have h2 := code_nd s1 hb
    cases hc2 : s1.code b with
    | error e => rw [hc2] at h2; simpa using h2
    | ok p =>
      obtain ⟨c2, s2⟩ := p
      simp only
      have h3 := code_nd s2 hd
      cases hc3 : s2.code d with
      | error e => rw [hc3] at h3; simpa using h3
      | ok p => exact pushRange_nd _ _ _ (by simp) _ _ _

theorem two_codes_nd (st : CMState) {a b : Var} (ha : NotNeg a) (hb : NotNeg b) :
    codeSpace st a b ≠ .error .diverge ∧ cidChar st a b ≠ .error .diverge := by
  rw [codeSpace, cidChar]
  have h1 := code_nd st ha
  cases hc : st.code a with
  | error e => rw [hc] at h1; simp only; exact ⟨by simpa using h1, by simpa using h1⟩
  | ok p =>
    obtain ⟨c, s1⟩ := p
    simp only
    have h2 := code_nd s1 hb
    cases hc2 : s1.code b with
    | error e => rw [hc2] at h2; simp only; exact ⟨by simpa using h2, by simpa using h2⟩
    | ok p => exact ⟨by simp, push_nd _ _ _⟩

/-! ### The loops -/

/-- What is left after a section. -/
def SectionEnds (s : PS) (r : Res (CMState × PS)) : Prop :=
  r ≠ .error .diverge ∧ ∀ st s', r = .ok (st, s') → s'.weight ≤ s.weight ∧ Good s'

theorem SectionEnds.error {s : PS} {e : Fault} (h : e ≠ .diverge) : SectionEnds s (.error e) := ⟨by simpa using h, by simp⟩

theorem SectionEnds.mono {s s0 : PS} {r : Res (CMState × PS)} (h : SectionEnds s r) (hw : s.weight ≤ s0.weight) : SectionEnds s0 r :=
  ⟨h.1, fun st s' e => ⟨by have := (h.2 st s' e).1; omega, (h.2 st s' e).2⟩⟩

theorem pairLoop_ends (e : Bytes) (step : CMState → Var → Var → Res CMState)
    (hstep : ∀ st a b, NotNeg a → NotNeg b → step st a b ≠ .error .diverge) :
    ∀ (n : Nat) (st : CMState) (s : PS), Good s → s.weight < n → SectionEnds s (pairLoop e step n st s) := by
  intro n
  induction n with
  | zero => intro st s _ h; omega
  | succ n ih =>
    intro st s hs hn
    rw [pairLoop]
    have h1 := seqNext_good (e := e) hs
    cases hq : seqNext e s with
    | error x => rw [hq] at h1; exact SectionEnds.error (by simpa using h1.1)
    | ok p =>
      obtain ⟨o, s1⟩ := p
      rw [hq] at h1
      obtain ⟨w1, g1, v1⟩ := h1.2 o s1 rfl
      cases o with
      | none =>
        simp only
        refine ⟨by simp, ?_⟩
        intro st' s' h
        simp only [Except.ok.injEq, Prod.mk.injEq] at h
        rw [← h.2]; exact ⟨by omega, g1⟩
      | some a =>
        simp only
        have h2 := psVariant_good g1
        cases hb : psVariant s1 with
        | error x => rw [hb] at h2; exact SectionEnds.error (by simpa using h2.1)
        | ok p =>
          obtain ⟨b, s2⟩ := p
          rw [hb] at h2
          obtain ⟨w2, g2, v2⟩ := h2.2 b s2 rfl
          simp only
          have h3 := hstep st a b (v1 a rfl) v2
          cases hst : step st a b with
          | error x => rw [hst] at h3; exact SectionEnds.error (by simpa using h3)
          | ok st => exact (ih st s2 g2 (by omega)).mono (by omega)

theorem tripleLoop_ends (e : Bytes) (step : CMState → Var → Var → Var → Res CMState)
    (hstep : ∀ st a b c, NotNeg a → NotNeg b → NotNeg c → step st a b c ≠ .error .diverge) :
    ∀ (n : Nat) (st : CMState) (s : PS), Good s → s.weight < n → SectionEnds s (tripleLoop e step n st s) := by
  intro n
  induction n with
  | zero => intro st s _ h; omega
  | succ n ih =>
    intro st s hs hn
    rw [tripleLoop]
    have h1 := seqNext_good (e := e) hs
    cases hq : seqNext e s with
    | error x => rw [hq] at h1; exact SectionEnds.error (by simpa using h1.1)
    | ok p =>
      obtain ⟨o, s1⟩ := p
      rw [hq] at h1
      obtain ⟨w1, g1, v1⟩ := h1.2 o s1 rfl
      cases o with
      | none =>
        simp only
        refine ⟨by simp, ?_⟩
        intro st' s' h
        simp only [Except.ok.injEq, Prod.mk.injEq] at h
        rw [← h.2]; exact ⟨by omega, g1⟩
      | some a =>
        simp only
        have h2 := psVariant_good g1
        cases hb : psVariant s1 with
        | error x => rw [hb] at h2; exact SectionEnds.error (by simpa using h2.1)
        | ok p =>
          obtain ⟨b, s2⟩ := p
          rw [hb] at h2
          obtain ⟨w2, g2, v2⟩ := h2.2 b s2 rfl
          simp only
          have h4 := psVariant_good g2
          cases hc : psVariant s2 with
          | error x => rw [hc] at h4; exact SectionEnds.error (by simpa using h4.1)
          | ok p =>
            obtain ⟨c, s3⟩ := p
            rw [hc] at h4
            obtain ⟨w3, g3, v3⟩ := h4.2 c s3 rfl
            simp only
            have h3 := hstep st a b c (v1 a rfl) v2 v3
            cases hst : step st a b c with
            | error x => rw [hst] at h3; exact SectionEnds.error (by simpa using h3)
            | ok st => exact (ih st s3 g3 (by omega)).mono (by omega)

theorem cidCharLoop_ends : ∀ (k : Nat) (cur : Var) (st : CMState) (s : PS), Good s → NotNeg cur → SectionEnds s (cidCharLoop k cur st s) := by
  intro k
  induction k with
  | zero =>
    intro cur st s hs _
    rw [cidCharLoop]
    refine ⟨by simp, ?_⟩
    intro st' s' h
    simp only [Except.ok.injEq, Prod.mk.injEq] at h
    rw [← h.2]; exact ⟨by omega, hs⟩
  | succ k ih =>
    intro cur st s hs hcur
    rw [cidCharLoop]
    have h1 := psNext_good hs
    cases hq : psNext s with
    | error x => rw [hq] at h1; exact SectionEnds.error (by simpa using h1.1)
    | ok p =>
      obtain ⟨t, s1⟩ := p
      rw [hq] at h1
      have hg1 : s1.weight ≤ s.weight ∧ Good s1 ∧ (∀ v, t = some (.value v) → NotNeg v) := by
        cases t with
        | some t =>
          obtain ⟨a, b, c⟩ := h1.2 t s1 rfl
          exact ⟨by omega, b, fun v hv => by simp only [Option.some.injEq] at hv; exact c v hv⟩
        | none =>
          rw [psNext] at hq
          cases h1 : tryReadToken psCfg.cap s with
          | mk o s2 =>
            rw [h1] at hq
            cases o with
            | none =>
              simp only [Except.ok.injEq, Prod.mk.injEq, true_and] at hq
              obtain ⟨a, b⟩ := tryReadToken_none h1
              subst hq; subst b
              refine ⟨by simp [PS.weight], ⟨?_, .nil, ?_⟩, by intro v hv; cases hv⟩
              · exact hs.1
              · exact hs.2.2
            | some t =>
              simp only at hq
              repeat' split at hq
              all_goals simp at hq
      obtain ⟨w1, g1, v1⟩ := hg1
      simp only
      have h2 := psVariant_good g1
      cases hb : psVariant s1 with
      | error x => rw [hb] at h2; exact SectionEnds.error (by simpa using h2.1)
      | ok p =>
        obtain ⟨b, s2⟩ := p
        rw [hb] at h2
        obtain ⟨w2, g2, v2⟩ := h2.2 b s2 rfl
        simp only
        have fin : ∀ a, NotNeg a → SectionEnds s (match cidChar st a b with
            | .error e => .error e
            | .ok st => cidCharLoop k b st s2) := by
          intro a ha
          have h3 := (two_codes_nd st ha v2).2
          cases hst : cidChar st a b with
          | error x => rw [hst] at h3; exact SectionEnds.error (by simpa using h3)
          | ok st => exact (ih b st s2 g2 v2).mono (by omega)
        exact fin _ (by
          split
          · exact v1 _ rfl
          · exact hcur)

theorem cmapSection_ends (n : Nat) (kw : Bytes) (toks : List Var) (st : CMState) (s : PS) (hs : Good s) (hn : s.weight < n) :
    SectionEnds s (cmapSection n kw toks st s) := by
  rw [cmapSection]
  split
  · exact pairLoop_ends _ _ (fun st a b ha hb => (two_codes_nd st ha hb).1) n st s hs hn
  · split
    · exact tripleLoop_ends _ _ (fun st a b c ha hb _ => bfRange_nd st ha hb c) n st s hs hn
    · split
      · exact pairLoop_ends _ _ (fun st a b ha hb => bfChar_nd st ha hb) n st s hs hn
      · split
        · exact tripleLoop_ends _ _ (fun st a b c ha hb hc => cidRange_nd st ha hb hc) n st s hs hn
        · split
          · have hc : cidCount toks ≠ .error .diverge := by
              rw [cidCount.eq_def]; split <;> simp [raise]
            cases h : cidCount toks with
            | error e => rw [h] at hc; exact SectionEnds.error (by simpa using hc)
            | ok k => exact cidCharLoop_ends k .null st s hs (by intro n h; cases h)
          · refine ⟨by simp, ?_⟩
            intro st' s' h
            simp only [Except.ok.injEq, Prod.mk.injEq] at h
            rw [← h.2]; exact ⟨by omega, hs⟩

theorem cmapLoop_nd : ∀ (n : Nat) (toks : List Var) (st : CMState) (s : PS), Good s → s.weight < n → cmapLoop n toks st s ≠ .error .diverge := by
  intro n
  induction n with
  | zero => intro toks st s _ h; omega
  | succ n ih =>
    intro toks st s hs hn
    rw [cmapLoop]
    have h1 := psNext_good hs
    cases hq : psNext s with
    | error x => rw [hq] at h1; simpa using h1.1
    | ok p =>
      obtain ⟨t, s1⟩ := p
      rw [hq] at h1
      cases t with
      | none => simp
      | some t =>
        obtain ⟨w1, g1, v1⟩ := h1.2 t s1 rfl
        cases t with
        | keyword k =>
          simp only
          have h2 := cmapSection_ends n k toks st s1 g1 (by omega)
          cases hsec : cmapSection n k toks st s1 with
          | error x => rw [hsec] at h2; simpa using h2.1
          | ok p =>
            obtain ⟨st2, s2⟩ := p
            rw [hsec] at h2
            obtain ⟨w2, g2⟩ := h2.2 st2 s2 rfl
            exact ih [] st2 s2 g2 (by omega)
        | value v => exact ih _ st s1 g1 (by omega)
        | procEnter => simp [raise]
        | procExit => simp [raise]

/-- **C99** in part: reading a stream without a minus sign as a CMap ends. -/
theorem C99_terminates_partial (z : Nat) (text : Bytes) (h : ∀ b ∈ text, b ≠ 45) : parseCMap z text ≠ .error .diverge := by
  refine cmapLoop_nd _ _ _ _ ⟨QOk_fresh _ _ _, h, by intro t ht; cases ht⟩ ?_
  simp [PS.weight]

example : parseCMap 1 (asciiB "1 beginbfchar <41> <0061> endbfchar") ≠ .error .diverge :=
  C99_terminates_partial 1 _ (by decide +kernel)

/-! ### What goes wrong -/

theorem psNext_int {n : Int} (h1 : -9223372036854775808 ≤ n) (h2 : n < 9223372036854775808) {rest : Bytes} (hr : StartsOk rest) (d : Nat) :
    psNext ⟨[], fmtInt n ++ rest, d⟩ = .ok (some (.value (.num n)), ⟨[], rest, d⟩) := by
  have hl : lex psCfg.cap (fmtInt n ++ rest) = some (⟨fmtInt n, .literal⟩, rest) := by
    refine lex_literal (fmtInt_lit n) (fmtInt_ne_nil _) ?_ hr
    have := fmtInt_length h1 h2
    have e : psCfg.cap = 4095 := rfl
    omega
  rw [psNext, tok_of_lex d hl]
  obtain ⟨a, b, c, _⟩ := fmtInt_not_word n
  simp only [reduceCtorEq, if_false, P.andThen, determine]
  rw [if_neg a, if_neg b, if_neg c, fmtInt_scan]
  simp only
  rw [fromChars_exact n h1 h2]
  simp [psCfg, readDT]

/-- The first entry of a range of codes decides. -/
theorem codeSpace_first (z : Nat) {X Y Z : Bytes} {v : Var} {e : Fault} (hX : psNext ⟨[], X ++ 32 :: Y, 0⟩ = .ok (some (.value v), ⟨[], 32 :: Y, 0⟩))
    (hY : psVariant ⟨[], Y, 0⟩ = .ok (.num 1, ⟨[], Z, 0⟩)) (he : codeOfVar v = .error e) :
    parseCMap z (kwBeginCodeSpace ++ 32 :: (X ++ 32 :: Y)) = .error e := by
  have hk : psNext ⟨[], kwBeginCodeSpace ++ 32 :: (X ++ 32 :: Y), 0⟩ = .ok (some (.keyword kwBeginCodeSpace), ⟨[], 32 :: (X ++ 32 :: Y), 0⟩) :=
    psNext_word (by decide +kernel) (StartsOk.cons_ws (by decide)) 0
  have hlen : (kwBeginCodeSpace ++ 32 :: (X ++ 32 :: Y)).length = X.length + Y.length + 20 + 1 := by
    rw [List.length_append, show kwBeginCodeSpace.length = 19 by decide +kernel]
    simp; omega
  rw [parseCMap, hlen, cmapLoop, hk]
  simp only
  rw [cmapSection, if_pos rfl, pairLoop, seqNext_ws (by decide), seqNext, hX]
  simp only
  rw [psVariant_ws (by decide), hY]
  simp only [codeSpace, CMState.code, he]

/-- **C99** fails: a code given as a negative number is read for ever. -/
theorem C99_negative_false (z : Nat) (n : Int) (hn : n < 0) (h : -9223372036854775808 ≤ n) (rest : Bytes) :
    parseCMap z (asciiB "begincodespacerange" ++ 32 :: (fmtInt n ++ 32 :: (fmtNat 1 ++ 32 :: rest))) = .error .diverge :=
  codeSpace_first z (psNext_int h (by omega) (StartsOk.cons_ws (by decide)) 0)
    (psVariant_num (n := 1) (by decide) (StartsOk.cons_ws (by decide)) 0 (by decide)) (by rw [codeOfVar, if_pos hn])

/-- **C99** fails: a code of more than four bytes is shifted by more bits than an `int` has. -/
theorem C99_long_code_false (z : Nat) (d : Bytes) (hd : 4 < d.length) (rest : Bytes) :
    parseCMap z (asciiB "begincodespacerange" ++ 32 :: ((60 :: (d.flatMap writeCharHex ++ [62])) ++ 32 :: (fmtNat 1 ++ 32 :: rest))) = .error .ub := by
  refine codeSpace_first z (v := .str d true) ?_ (psVariant_num (n := 1) (by decide) (StartsOk.cons_ws (by decide)) 0 (by decide))
    (by rw [codeOfVar, if_pos hd])
  have hne : d ≠ [] := by intro e; rw [e] at hd; simp at hd
  obtain ⟨⟨c, r, e, hc⟩, ht⟩ := HexText.of_code hne
  have h2 := ht (32 :: (fmtNat 1 ++ 32 :: rest))
  rw [e] at h2 ⊢
  simp only [List.cons_append, List.append_assoc, List.nil_append] at h2 ⊢
  exact psNext_hex hc h2 0

example : fmtInt (-1) = asciiB "-1" := by decide

end Pdfmm
