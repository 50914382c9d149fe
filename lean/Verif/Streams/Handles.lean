import Verif.Base.Basic
/-
C179: the input and output streams of stream objects, and the lock they hold.
-/
set_option autoImplicit false
namespace Pdfmm

/-- A variable that holds an input stream or an output stream, `src/pdfmm/base/PdfObjectStream.h:41-44` and `:67-69`: `m_stream`, and `m_input` or `m_output`, stated by the stream whose data it
reads or writes.  Streams and variables are numbered. -/
structure StrHandle where
  out : Bool
  stream : Option Nat
  dev : Option Nat
deriving DecidableEq

/-- The locks of the streams (`m_locked`) and the variables that exist. -/
structure HState where
  locked : Nat → Bool
  vars : Nat → Option StrHandle

def HState.start : HState := ⟨fun _ => false, fun _ => none⟩

/-- A table changed at one place. -/
def setAt {α : Type} (f : Nat → α) (k : Nat) (v : α) : Nat → α := fun i => if i = k then v else f i

/-- What a program does with such variables. -/
inductive HOp
  | getIn (v s : Nat)
  | getOut (v s : Nat)
  | close (v : Nat)
  | moveNew (v' v : Nat)
  | assign (v' v : Nat)

/-- A variable is created only under a free name. -/
def HState.fresh (st : HState) (v : Nat) : Bool := (st.vars v).isNone

/-- One step.  `opens s`: the decoders (or the encoders) of the stream can be created.
- `getIn`, `src/pdfmm/base/PdfObjectStream.cpp:52-56` with `:396-401`: locked before the decoders are created.
- `getOut`, `:34-50` with `:479-513`: locked after the encoders are created.
- `close`, the destructors, `:384-388` and `:422-460`.
- `moveNew`, the move constructors, `:390-394` and `:462-466`: neither takes over `m_input` or `m_output`.
- `assign`, `:413-417` and `:525-531`: the stream used before is forgotten; only the output stream takes over its device.
Steps that are no C++ (a name used twice, a variable that does not exist, an input stream assigned to an output stream) do nothing. -/
def HState.step (opens : Nat → Bool) (st : HState) : HOp → Res Unit × HState
  | .getIn v s =>
    if st.fresh v = false then (.ok (), st)
    else if st.locked s then (raise .InternalLogic, st)
    else if opens s then (.ok (), ⟨setAt st.locked s true, setAt st.vars v (some ⟨false, some s, some s⟩)⟩)
    else (raise .UnsupportedFilter, ⟨setAt st.locked s true, st.vars⟩)
  | .getOut v s =>
    if st.fresh v = false then (.ok (), st)
    else if st.locked s then (raise .InternalLogic, st)
    else if opens s then (.ok (), ⟨setAt st.locked s true, setAt st.vars v (some ⟨true, some s, some s⟩)⟩)
    else (raise .UnsupportedFilter, st)
  | .close v =>
    match st.vars v with
    | none => (.ok (), st)
    | some ⟨_, none, _⟩ => (.ok (), ⟨st.locked, setAt st.vars v none⟩)
    | some ⟨_, some s, _⟩ => (.ok (), ⟨setAt st.locked s false, setAt st.vars v none⟩)
  | .moveNew v' v =>
    match st.vars v with
    | none => (.ok (), st)
    | some a =>
      if st.fresh v' = false then (.ok (), st)
      else (.ok (), ⟨st.locked, setAt (setAt st.vars v (some { a with stream := none })) v' (some { a with dev := none })⟩)
  | .assign v' v =>
    match st.vars v', st.vars v with
    | some a, some b =>
      if a.out = b.out then
        (.ok (), ⟨st.locked,
          setAt (setAt st.vars v' (some ⟨a.out, b.stream, if a.out then b.dev else a.dev⟩)) v (some ⟨b.out, none, if v = v' then (if a.out then none else a.dev) else if a.out then none else b.dev⟩)⟩)
      else (.ok (), st)
    | _, _ => (.ok (), st)

/-- A history, with the success of each step. -/
def HState.run (opens : Nat → Bool) : HState → List HOp → List Bool × HState
  | st, [] => ([], st)
  | st, o :: l =>
    let r := st.step opens o
    let q := r.2.run opens l
    (r.1.isOk :: q.1, q.2)

/-- The stream a variable reads or writes, `src/pdfmm/base/PdfObjectStream.cpp:403-411` and `:515-523`: a null pointer is followed when there is none. -/
def HState.uses (st : HState) (v : Nat) : Res Nat :=
  match (st.vars v).bind StrHandle.dev with
  | some s => .ok s
  | none => .error .ub

/-! ## What is expected -/

/-- The stream each variable is for: nothing under a name that is not used, `some none` when the variable is for no stream. -/
abbrev Spec.HeldBy := Nat → Option (Option Nat)

/-- What a step should do: a stream is opened exactly when no variable holds it and it can be opened, closing lets go of it, and moving a variable into another hands the stream over and lets go of
what the other held. -/
inductive Spec.HStep (opens : Nat → Bool) : Spec.HeldBy → HOp → Bool → Spec.HeldBy → Prop
  | getIn {u v s} : u v = none → opens s = true → (∀ w, u w ≠ some (some s)) → Spec.HStep opens u (.getIn v s) true (setAt u v (some (some s)))
  | getOut {u v s} : u v = none → opens s = true → (∀ w, u w ≠ some (some s)) → Spec.HStep opens u (.getOut v s) true (setAt u v (some (some s)))
  | inBusy {u v s w} : u v = none → u w = some (some s) → Spec.HStep opens u (.getIn v s) false u
  | outBusy {u v s w} : u v = none → u w = some (some s) → Spec.HStep opens u (.getOut v s) false u
  | inBad {u v s} : u v = none → opens s = false → Spec.HStep opens u (.getIn v s) false u
  | outBad {u v s} : u v = none → opens s = false → Spec.HStep opens u (.getOut v s) false u
  | close {u v} : u v ≠ none → Spec.HStep opens u (.close v) true (setAt u v none)
  | moveNew {u v' v x} : u v = some x → u v' = none → Spec.HStep opens u (.moveNew v' v) true (setAt (setAt u v (some none)) v' (some x))
  | assign {u v' v x y} : v' ≠ v → u v' = some y → u v = some x → Spec.HStep opens u (.assign v' v) true (setAt (setAt u v' (some x)) v (some none))

/-- A history of steps. -/
inductive Spec.HRun (opens : Nat → Bool) : Spec.HeldBy → List HOp → List Bool → Spec.HeldBy → Prop
  | nil {u} : Spec.HRun opens u [] [] u
  | cons {u o b u1 l bs u2} : Spec.HStep opens u o b u1 → Spec.HRun opens u1 l bs u2 → Spec.HRun opens u (o :: l) (b :: bs) u2

/-- No assignment to a variable that holds a stream, and only between variables of one kind (`st` says which): the part of the histories for which the code is right. -/
def tame (st : HState) : HOp → Prop
  | .assign v' v => (st.vars v').bind StrHandle.stream = none ∧ (st.vars v').map StrHandle.out = (st.vars v).map StrHandle.out
  | _ => True

/-- All steps of a history are of that kind. -/
def tameAll (opens : Nat → Bool) : HState → List HOp → Prop
  | _, [] => True
  | st, o :: l => tame st o ∧ tameAll opens (st.step opens o).2 l

/-- The state agrees with what is expected. -/
structure HAgree (st : HState) (u : Spec.HeldBy) : Prop where
  vars : ∀ v, (st.vars v).map StrHandle.stream = u v
  lock : ∀ s, st.locked s = true ↔ ∃ v, u v = some (some s)
  one : ∀ s v w, u v = some (some s) → u w = some (some s) → v = w

theorem fresh_iff {st : HState} {u : Spec.HeldBy} (h : HAgree st u) (v : Nat) : st.fresh v = true ↔ u v = none := by
  rw [HState.fresh, ← h.vars v]
  cases st.vars v <;> simp

theorem hstep_agree (opens : Nat → Bool) (hop : ∀ s, opens s = true) (st : HState) (u u' : Spec.HeldBy) (o : HOp) (b : Bool) (h : HAgree st u) (hs : Spec.HStep opens u o b u')
    (ht : tame st o) : (st.step opens o).1.isOk = b ∧ HAgree (st.step opens o).2 u' := by
  obtain ⟨h1, h2, h3⟩ := h
  have hfr : ∀ v, st.fresh v = true ↔ u v = none := fun v => fresh_iff ⟨h1, h2, h3⟩ v
  have open_ : ∀ v s k, u v = none → (∀ w, u w ≠ some (some s)) →
      HAgree ⟨setAt st.locked s true, setAt st.vars v (some ⟨k, some s, some s⟩)⟩ (setAt u v (some (some s))) := by
    intro v s k hv hw
    refine ⟨?_, ?_, ?_⟩
    · intro w; simp only [setAt]; split <;> simp [h1]
    · intro t
      simp only [setAt]
      constructor
      · intro ht
        split at ht
        · rename_i e; exact ⟨v, by simp [e]⟩
        · obtain ⟨w, hw'⟩ := (h2 t).1 ht
          exact ⟨w, by rw [if_neg (by rintro rfl; rw [hv] at hw'; cases hw'), hw']⟩
      · rintro ⟨w, hw'⟩
        split
        · rfl
        · rename_i ne
          split at hw'
          · cases hw'; exact absurd rfl ne
          · exact (h2 t).2 ⟨w, hw'⟩
    · intro t x y hx hy
      simp only [setAt] at hx hy
      grind [setAt]
  cases hs with
  | getIn hv ho hw =>
    rename_i v s
    have hl : st.locked s = false := by
      cases e : st.locked s with
      | false => rfl
      | true => obtain ⟨w, hw'⟩ := (h2 s).1 e; exact absurd hw' (hw w)
    simp only [HState.step, (hfr v).2 hv, hl, ho]
    exact ⟨rfl, open_ v s false hv hw⟩
  | getOut hv ho hw =>
    rename_i v s
    have hl : st.locked s = false := by
      cases e : st.locked s with
      | false => rfl
      | true => obtain ⟨w, hw'⟩ := (h2 s).1 e; exact absurd hw' (hw w)
    simp only [HState.step, (hfr v).2 hv, hl, ho]
    exact ⟨rfl, open_ v s true hv hw⟩
  | inBusy hv hw =>
    rename_i v s w
    simp only [HState.step, (hfr v).2 hv, (h2 s).2 ⟨w, hw⟩]
    exact ⟨rfl, h1, h2, h3⟩
  | outBusy hv hw =>
    rename_i v s w
    simp only [HState.step, (hfr v).2 hv, (h2 s).2 ⟨w, hw⟩]
    exact ⟨rfl, h1, h2, h3⟩
  | inBad hv ho => rw [hop] at ho; cases ho
  | outBad hv ho => rw [hop] at ho; cases ho
  | close hv =>
    rename_i v
    have e1 := h1 v
    simp only [HState.step]
    split
    · rename_i e; rw [e] at e1; exact absurd e1.symm hv
    · rename_i e
      rw [e] at e1
      refine ⟨rfl, ?_, ?_, ?_⟩
      · intro w; simp only [setAt]; split <;> simp [h1]
      · intro t
        rw [h2 t]
        simp only [setAt]
        simp only [Option.map_some] at e1
        grind [setAt]
      · intro t x y hx hy
        simp only [setAt] at hx hy
        grind [setAt]
    · rename_i s _ e
      rw [e] at e1
      simp only [Option.map_some] at e1
      refine ⟨rfl, ?_, ?_, ?_⟩
      · intro w; simp only [setAt]; split <;> simp [h1]
      · intro t
        simp only [setAt]
        have := h2 t
        grind [setAt]
      · intro t x y hx hy
        simp only [setAt] at hx hy
        grind [setAt]
  | moveNew hv hn =>
    rename_i v' v x
    have e1 := h1 v
    simp only [HState.step]
    cases e : st.vars v with
    | none => rw [e, hv] at e1; cases e1
    | some a =>
      rw [e, hv] at e1
      simp only [Option.map_some, Option.some.injEq] at e1
      simp only [(hfr v').2 hn]
      refine ⟨rfl, ?_, ?_, ?_⟩
      · intro w
        have := h1 w
        simp only [setAt]
        grind [setAt]
      · intro t
        simp only [setAt]
        have := h2 t
        grind [setAt]
      · intro t x y hx hy
        simp only [setAt] at hx hy
        grind [setAt]
  | assign hne hv' hv =>
    rename_i v' v x y
    obtain ⟨t1, t2⟩ := ht
    have e1 := h1 v
    have e2 := h1 v'
    simp only [HState.step]
    cases e : st.vars v with
    | none => rw [e, hv] at e1; cases e1
    | some b =>
      cases e' : st.vars v' with
      | none => rw [e', hv'] at e2; cases e2
      | some a =>
        rw [e, hv] at e1
        rw [e', hv'] at e2
        rw [e, e'] at t2
        rw [e'] at t1
        simp only [Option.map_some, Option.some.injEq, Option.bind_some] at e1 e2 t1 t2
        rw [t1] at e2
        subst e2
        simp only [t2, if_true]
        refine ⟨rfl, ?_, ?_, ?_⟩
        · intro w
          have := h1 w
          simp only [setAt]
          grind [setAt]
        · intro t
          simp only [setAt]
          have := h2 t
          grind [setAt]
        · intro t x y hx hy
          simp only [setAt] at hx hy
          grind [setAt]

theorem agree_start : HAgree HState.start (fun _ => none) :=
  ⟨fun _ => rfl, fun _ => by simp [HState.start], fun _ _ _ h => by cases h⟩

/-- **C179** (proved part). For every history in which every stream can be opened and no variable that holds a stream is assigned to, each step succeeds exactly when it should, and at the end a stream is
locked exactly when a variable holds it.  Missing: `C179_failed_open_false`, `C179_assign_false`. -/
theorem C179_lock_partial (opens : Nat → Bool) (hop : ∀ s, opens s = true) (ops : List HOp) (bs : List Bool) (u : Spec.HeldBy)
    (hr : Spec.HRun opens (fun _ => none) ops bs u) (ht : tameAll opens HState.start ops) :
    (HState.start.run opens ops).1 = bs ∧ ∀ s, (HState.start.run opens ops).2.locked s = true ↔ ∃ v, u v = some (some s) := by
  have gen : ∀ (ops : List HOp) (st : HState) (u0 u : Spec.HeldBy) (bs : List Bool), HAgree st u0 → Spec.HRun opens u0 ops bs u → tameAll opens st ops →
      (st.run opens ops).1 = bs ∧ HAgree (st.run opens ops).2 u := by
    intro ops
    induction ops with
    | nil => intro st u0 u bs h hr _; cases hr; exact ⟨rfl, h⟩
    | cons o l ih =>
      intro st u0 u bs h hr ht
      cases hr with
      | cons h1 h2 =>
        obtain ⟨a1, a2⟩ := hstep_agree opens hop st _ _ o _ h h1 ht.1
        obtain ⟨b1, b2⟩ := ih _ _ _ _ a2 h2 ht.2
        exact ⟨by simp only [HState.run]; rw [a1, b1], b2⟩
  obtain ⟨g1, g2⟩ := gen ops _ _ u bs agree_start hr ht
  exact ⟨g1, g2.lock⟩

/-- A history without moves. -/
def Spec.PlainUse : HOp → Prop
  | .moveNew _ _ | .assign _ _ => False
  | _ => True

/-- **C179** (proved part). As long as variables are not moved, each reads or writes the stream it was opened for.  Missing: `C179_moved_false`, `C179_assign_false`. -/
theorem C179_own_stream_partial (opens : Nat → Bool) (hop : ∀ s, opens s = true) (ops : List HOp) (bs : List Bool) (u : Spec.HeldBy)
    (hr : Spec.HRun opens (fun _ => none) ops bs u) (hp : ∀ o ∈ ops, Spec.PlainUse o) :
    ∀ v s, u v = some (some s) → (HState.start.run opens ops).2.uses v = .ok s := by
  have gen : ∀ (ops : List HOp) (st : HState) (u0 u : Spec.HeldBy) (bs : List Bool), HAgree st u0 → (∀ v a, st.vars v = some a → a.dev = a.stream) →
      Spec.HRun opens u0 ops bs u → (∀ o ∈ ops, Spec.PlainUse o) →
      HAgree (st.run opens ops).2 u ∧ ∀ v a, (st.run opens ops).2.vars v = some a → a.dev = a.stream := by
    intro ops
    induction ops with
    | nil => intro st u0 u bs h hd hr _; cases hr; exact ⟨h, hd⟩
    | cons o l ih =>
      intro st u0 u bs h hd hr hp
      have hpo := hp o (by simp)
      cases hr with
      | cons h1 h2 =>
        have ht : tame st o := by cases o <;> first | trivial | exact hpo.elim
        obtain ⟨-, a2⟩ := hstep_agree opens hop st _ _ o _ h h1 ht
        refine ih _ _ _ _ a2 ?_ h2 (fun o ho => hp o (by simp [ho]))
        intro v a hv
        cases o with
        | getIn w s =>
          simp only [HState.step] at hv
          split at hv
          · exact hd v a hv
          · split at hv
            · exact hd v a hv
            · split at hv
              · simp only [setAt] at hv
                split at hv
                · cases hv; rfl
                · exact hd v a hv
              · exact hd v a hv
        | getOut w s =>
          simp only [HState.step] at hv
          split at hv
          · exact hd v a hv
          · split at hv
            · exact hd v a hv
            · split at hv
              · simp only [setAt] at hv
                split at hv
                · cases hv; rfl
                · exact hd v a hv
              · exact hd v a hv
        | close w =>
          simp only [HState.step] at hv
          split at hv
          · exact hd v a hv
          all_goals
            simp only [setAt] at hv
            split at hv
            · cases hv
            · exact hd v a hv
        | moveNew _ _ => exact hpo.elim
        | assign _ _ => exact hpo.elim
  obtain ⟨g1, g2⟩ := gen ops _ _ u bs agree_start (by intro v a h; cases h) hr hp
  intro v s hv
  have e1 := g1.vars v
  rw [hv] at e1
  cases e : ((HState.start.run opens ops).2).vars v with
  | none => rw [e] at e1; cases e1
  | some a =>
    rw [e] at e1
    simp only [Option.map_some, Option.some.injEq] at e1
    simp only [HState.uses, e, Option.bind_some, g2 v a e, e1]

/-- **C179** fails: an input stream asked of a stream that cannot be decoded raises an error and locks the stream, whatever happens to other variables before: no variable holds it, and it can never be
opened or written again. -/
theorem C179_failed_open_false (opens : Nat → Bool) (st : HState) (v s : Nat) (hv : st.vars v = none) (hl : st.locked s = false) (ho : opens s = false) (w : Nat) (hw : st.vars w = none) :
    let st' := (st.step opens (.getIn v s)).2
    (st.step opens (.getIn v s)).1 = raise .UnsupportedFilter ∧ st'.vars = st.vars ∧ st'.step opens (.getOut w s) = (raise .InternalLogic, st') ∧
      st'.step opens (.getIn w s) = (raise .InternalLogic, st') := by
  have e : st.step opens (.getIn v s) = (raise .UnsupportedFilter, ⟨setAt st.locked s true, st.vars⟩) := by
    simp [HState.step, HState.fresh, hv, hl, ho]
  rw [e]
  refine ⟨rfl, rfl, ?_, ?_⟩ <;> simp [HState.step, HState.fresh, hw, setAt]

/-- **C179** (proved part). An output stream that is refused leaves everything as it was, so another variable can still be given the stream.  Missing: the same of input streams,
`C179_failed_open_false`. -/
theorem C179_refused_output_partial (opens opens' : Nat → Bool) (st : HState) (v s : Nat) (hv : st.vars v = none) (hl : st.locked s = false) (ho : opens s = false) (ho' : opens' s = true)
    (w : Nat) (hw : st.vars w = none) (hfw : st.fresh w = true) :
    let st' := (st.step opens (.getOut v s)).2
    (st.step opens (.getOut v s)).1 = raise .UnsupportedFilter ∧ st' = st ∧ (st'.step opens' (.getOut w s)).1 = .ok () ∧ (st'.step opens' (.getOut w s)).2.locked s = true := by
  have e : st.step opens (.getOut v s) = (raise .UnsupportedFilter, st) := by
    simp [HState.step, HState.fresh, hv, hl, ho]
  rw [e]
  refine ⟨rfl, rfl, ?_, ?_⟩ <;> simp [HState.step, hfw, hl, ho', setAt]

/-- Non-vacuity of `C179_refused_output_partial`: nothing is locked and no variable is used. -/
example : ∃ st : HState, st.vars 0 = none ∧ st.locked 0 = false ∧ st.vars 1 = none ∧ st.fresh 1 = true :=
  ⟨⟨fun _ => false, fun _ => none⟩, rfl, rfl, rfl, rfl⟩

/-- **C179** fails: a variable that took over another one by a move reads or writes through a null pointer, for every input stream and every output stream. -/
theorem C179_moved_false (opens : Nat → Bool) (st : HState) (v' v : Nat) (a : StrHandle) (hv : st.vars v = some a) (hn : st.vars v' = none) :
    ∃ st', st.step opens (.moveNew v' v) = (.ok (), st') ∧ (st'.vars v').map StrHandle.stream = some a.stream ∧ st'.uses v' = .error .ub := by
  refine ⟨_, by simp only [HState.step, hv, HState.fresh, hn]; rfl, ?_, ?_⟩
  · simp [setAt]
  · simp [HState.uses, setAt]

/-- **C179** fails: after an input stream is assigned to a variable that reads another stream, the variable still reads the old stream, and the old stream stays locked even when both variables are closed. -/
theorem C179_assign_false (opens : Nat → Bool) (st : HState) (v' v s' s : Nat) (hne : v' ≠ v) (hs : s' ≠ s) (hv' : st.vars v' = some ⟨false, some s', some s'⟩)
    (hv : st.vars v = some ⟨false, some s, some s⟩) (hl : st.locked s' = true) :
    ∃ st', st.step opens (.assign v' v) = (.ok (), st') ∧ (st'.vars v').map StrHandle.stream = some (some s) ∧ st'.uses v' = .ok s' ∧
      (st'.run opens [.close v', .close v]).2.locked s' = true ∧ (st'.run opens [.close v', .close v]).2.vars v' = none ∧ (st'.run opens [.close v', .close v]).2.vars v = none := by
  refine ⟨_, by simp only [HState.step, hv, hv']; rfl, ?_, ?_, ?_, ?_, ?_⟩
  · simp [setAt, hne]
  · simp [HState.uses, setAt, hne]
  all_goals simp [HState.run, HState.step, setAt, hne, Ne.symm hne, hs, hl]

/-- **C179** fails for output streams as well: the stream of the variable assigned to stays locked when both are closed. -/
theorem C179_assign_out_false (opens : Nat → Bool) (st : HState) (v' v s' s : Nat) (hne : v' ≠ v) (hs : s' ≠ s) (hv' : st.vars v' = some ⟨true, some s', some s'⟩)
    (hv : st.vars v = some ⟨true, some s, some s⟩) (hl : st.locked s' = true) :
    ∃ st', st.step opens (.assign v' v) = (.ok (), st') ∧ st'.uses v' = .ok s ∧ (st'.run opens [.close v', .close v]).2.locked s' = true := by
  refine ⟨_, by simp only [HState.step, hv, hv']; rfl, ?_, ?_⟩
  · simp [HState.uses, setAt, hne]
  all_goals simp [HState.run, HState.step, setAt, hne, Ne.symm hne, hs, hl]

/-- Non-vacuity: two streams are read and written by turns, one attempt is refused, and a variable is moved. -/
example : ∃ bs u, Spec.HRun (fun _ => true) (fun _ => none) [.getIn 0 7, .getOut 1 7, .close 0, .getOut 1 7, .moveNew 2 1] bs u ∧ bs = [true, false, true, true, true] ∧
    u 2 = some (some 7) ∧ tameAll (fun _ => true) HState.start [.getIn 0 7, .getOut 1 7, .close 0, .getOut 1 7, .moveNew 2 1] := by
  refine ⟨_, _, .cons (.getIn rfl rfl ?_) (.cons (.outBusy (w := 0) (by simp [setAt]) (by simp [setAt])) (.cons (.close (by simp [setAt])) (.cons (.getOut (by simp [setAt]) rfl ?_)
    (.cons (.moveNew (x := some 7) (by simp [setAt]) (by simp [setAt])) .nil)))), rfl, by simp [setAt], by simp [tameAll, tame]⟩
  · intro w; simp
  · intro w; simp only [setAt]; split <;> simp_all

/-- Non-vacuity of the failures: two input streams can be open at the same time. -/
example : let st := (HState.start.run (fun _ => true) [.getIn 0 7, .getIn 1 8]).2
    st.vars 0 = some ⟨false, some 7, some 7⟩ ∧ st.vars 1 = some ⟨false, some 8, some 8⟩ ∧ st.locked 7 = true ∧ st.vars 2 = none := by decide

end Pdfmm
