import Verif.Base.Basic
/-
The block interface of PDF filters.

A filter direction (encoding or decoding) is a `Codec`: a start state (`BeginEncodeImpl` /
`BeginDecodeImpl`), a block function (`EncodeBlockImpl` / `DecodeBlockImpl`) and an end function
(`EndEncodeImpl` / `EndDecodeImpl`).  Output is the list of `OutputStream::Write` calls made, so that
stacking a codec on top of another one hands over exactly the blocks the code hands over.

Simplification: when a call raises, the bytes written before are forgotten (the user sees the
exception; `PdfFilter::FailEncodeDecode` then only flushes).
-/
namespace Pdfmm

/-- One direction of a `PdfFilter`, `src/pdfmm/base/PdfFilter.h` (virtual `*Impl` methods). -/
structure Codec (σ : Type) where
  start : σ
  block : σ → Bytes → Res (σ × List Bytes)
  finish : σ → Res (List Bytes)

namespace Codec

variable {σ τ : Type}

/-- A sequence of `EncodeBlock`/`DecodeBlock` calls, `src/pdfmm/base/PdfFilter.cpp:379-393, 429-443`. -/
def blocks (c : Codec σ) : σ → List Bytes → Res (σ × List Bytes)
  | s, [] => .ok (s, [])
  | s, b :: bs =>
    match c.block s b with
    | .error e => .error e
    | .ok (s', o) =>
      match blocks c s' bs with
      | .error e => .error e
      | .ok (s'', o') => .ok (s'', o ++ o')

/-- Begin, the given blocks, End: `src/pdfmm/base/PdfFilter.cpp` `PdfFilter::encodeTo` /
`PdfFilter::decodeTo`, generalised from one block to any number (as the stacked streams do).
The result is the list of writes made on the output stream. -/
def writes (c : Codec σ) (bs : List Bytes) : Res (List Bytes) :=
  match c.blocks c.start bs with
  | .error e => .error e
  | .ok (s, o) =>
    match c.finish s with
    | .error e => .error e
    | .ok o' => .ok (o ++ o')

/-- The bytes produced by a whole run. -/
def run (c : Codec σ) (bs : List Bytes) : Res Bytes :=
  match c.writes bs with
  | .error e => .error e
  | .ok o => .ok o.flatten

/-- `PdfFilter::EncodeTo` / `DecodeTo` on one buffer, `src/pdfmm/base/PdfFilter.cpp:199-247`. -/
def oneShot (c : Codec σ) (b : Bytes) : Res Bytes := c.run [b]

/-- Codecs whose block function is a byte-by-byte loop. -/
structure Stepper (σ : Type) where
  start : σ
  step : σ → Byte → Res (σ × List Bytes)
  finish : σ → Res (List Bytes)

/-- The byte loop of a block function. -/
def Stepper.loop (c : Stepper σ) : σ → Bytes → Res (σ × List Bytes)
  | s, [] => .ok (s, [])
  | s, b :: bs =>
    match c.step s b with
    | .error e => .error e
    | .ok (s', o) =>
      match loop c s' bs with
      | .error e => .error e
      | .ok (s'', o') => .ok (s'', o ++ o')

/-- A byte-by-byte loop seen as a codec. -/
def ofStepper (c : Stepper σ) : Codec σ :=
  { start := c.start, block := c.loop, finish := c.finish }

/-- `OutputStream::Write` does nothing for an empty buffer, `src/pdfmm/base/PdfOutputStream.cpp:24-40`. -/
def nonEmptyWrites (o : List Bytes) : List Bytes := o.filter fun b => !b.isEmpty

/-- Data pushed into `c` whose output stream is codec `d`: every non-empty write of `c` becomes a
block of `d`, and ending `c` flushes, i.e. ends, `d`
(`src/pdfmm/base/PdfFilter.cpp:20-49` encode side, `52-118` decode side). -/
def stack (c : Codec σ) (d : Codec τ) : Codec (σ × τ) where
  start := (c.start, d.start)
  block := fun (s, t) b =>
    match c.block s b with
    | .error e => .error e
    | .ok (s', o) =>
      match d.blocks t (nonEmptyWrites o) with
      | .error e => .error e
      | .ok (t', o') => .ok ((s', t'), o')
  finish := fun (s, t) =>
    match c.finish s with
    | .error e => .error e
    | .ok o =>
      match d.blocks t (nonEmptyWrites o) with
      | .error e => .error e
      | .ok (t', o') =>
        match d.finish t' with
        | .error e => .error e
        | .ok o'' => .ok (o' ++ o'')

/-! ### Lemmas -/

theorem blocks_append (c : Codec σ) (s : σ) (xs ys : List Bytes) :
    c.blocks s (xs ++ ys) =
      match c.blocks s xs with
      | .error e => .error e
      | .ok (s', o) =>
        match c.blocks s' ys with
        | .error e => .error e
        | .ok (s'', o') => .ok (s'', o ++ o') := by
  induction xs generalizing s with
  | nil =>
    simp only [List.nil_append, blocks]
    cases c.blocks s ys with
    | error e => rfl
    | ok p => obtain ⟨a, b⟩ := p; simp
  | cons x xs ih =>
    simp only [List.cons_append, blocks]
    cases c.block s x with
    | error e => rfl
    | ok p =>
      obtain ⟨s1, o1⟩ := p
      simp only [ih]
      cases c.blocks s1 xs with
      | error e => rfl
      | ok q =>
        obtain ⟨s2, o2⟩ := q
        simp only
        cases c.blocks s2 ys with
        | error e => rfl
        | ok r => obtain ⟨s3, o3⟩ := r; simp

theorem Stepper.loop_append (c : Stepper σ) (s : σ) (xs ys : Bytes) :
    c.loop s (xs ++ ys) =
      match c.loop s xs with
      | .error e => .error e
      | .ok (s', o) =>
        match c.loop s' ys with
        | .error e => .error e
        | .ok (s'', o') => .ok (s'', o ++ o') := by
  induction xs generalizing s with
  | nil =>
    simp only [List.nil_append, loop]
    cases c.loop s ys with
    | error e => rfl
    | ok p => obtain ⟨a, b⟩ := p; simp
  | cons x xs ih =>
    simp only [List.cons_append, loop]
    cases c.step s x with
    | error e => rfl
    | ok p =>
      obtain ⟨s1, o1⟩ := p
      simp only [ih]
      cases c.loop s1 xs with
      | error e => rfl
      | ok q =>
        obtain ⟨s2, o2⟩ := q
        simp only
        cases c.loop s2 ys with
        | error e => rfl
        | ok r => obtain ⟨s3, o3⟩ := r; simp

theorem ofStepper_blocks (c : Stepper σ) (s : σ) (bs : List Bytes) :
    (ofStepper c).blocks s bs = c.loop s bs.flatten := by
  induction bs generalizing s with
  | nil => rfl
  | cons b bs ih =>
    have hb : (ofStepper c).block = c.loop := rfl
    simp only [blocks, hb, List.flatten_cons, Stepper.loop_append]
    cases c.loop s b with
    | error e => rfl
    | ok p =>
      obtain ⟨s1, o1⟩ := p
      have := ih s1
      simp only at this ⊢
      rw [this]

/-- The result of a byte-by-byte codec depends on the blocks only through their concatenation. -/
theorem ofStepper_writes (c : Stepper σ) (bs : List Bytes) :
    (ofStepper c).writes bs =
      match c.loop c.start bs.flatten with
      | .error e => .error e
      | .ok (s, o) =>
        match c.finish s with
        | .error e => .error e
        | .ok o' => .ok (o ++ o') := by
  unfold writes
  have hs : (ofStepper c).blocks (ofStepper c).start bs = c.loop c.start bs.flatten :=
    ofStepper_blocks c c.start bs
  rw [hs]
  cases c.loop c.start bs.flatten <;> rfl

theorem ofStepper_writes_congr (c : Stepper σ) {bs bs' : List Bytes} (h : bs.flatten = bs'.flatten) :
    (ofStepper c).writes bs = (ofStepper c).writes bs' := by
  rw [ofStepper_writes, ofStepper_writes, h]

theorem ofStepper_run_congr (c : Stepper σ) {bs bs' : List Bytes} (h : bs.flatten = bs'.flatten) :
    (ofStepper c).run bs = (ofStepper c).run bs' := by
  unfold run
  rw [ofStepper_writes_congr c h]

theorem nonEmptyWrites_append (a b : List Bytes) :
    nonEmptyWrites (a ++ b) = nonEmptyWrites a ++ nonEmptyWrites b := by
  simp [nonEmptyWrites]

theorem nonEmptyWrites_flatten (a : List Bytes) : (nonEmptyWrites a).flatten = a.flatten := by
  induction a with
  | nil => rfl
  | cons x xs ih =>
    cases x with
    | nil => simpa [nonEmptyWrites] using ih
    | cons y ys => simpa [nonEmptyWrites] using ih

theorem stack_blocks (c : Codec σ) (d : Codec τ) (s : σ) (t : τ) (bs : List Bytes) :
    (stack c d).blocks (s, t) bs =
      match c.blocks s bs with
      | .error _ =>
        -- an error of `c` or an earlier error of `d`
        (match (stack c d).blocks (s, t) bs with | .error e' => .error e' | .ok r => .ok r)
      | .ok (s', o) =>
        match d.blocks t (nonEmptyWrites o) with
        | .error e => .error e
        | .ok (t', o') => .ok ((s', t'), o') := by
  induction bs generalizing s t with
  | nil => rfl
  | cons b bs ih =>
    cases hb : c.block s b with
    | error e =>
      simp only [blocks, hb]
      cases (stack c d).block (s, t) b with
      | error e => rfl
      | ok p => obtain ⟨p1, p2⟩ := p; simp only; cases (stack c d).blocks p1 bs <;> rfl
    | ok p =>
      obtain ⟨s1, o1⟩ := p
      simp only [blocks, hb]
      cases hbs : c.blocks s1 bs with
      | error e =>
        simp only
        cases (stack c d).block (s, t) b with
        | error e => rfl
        | ok p => obtain ⟨p1, p2⟩ := p; simp only; cases (stack c d).blocks p1 bs <;> rfl
      | ok q =>
        obtain ⟨s2, o2⟩ := q
        simp only [nonEmptyWrites_append, blocks_append]
        have hblk : (stack c d).block (s, t) b =
          match d.blocks t (nonEmptyWrites o1) with
          | .error e => .error e
          | .ok (t', o') => .ok ((s1, t'), o') := by
            simp only [stack, hb]
        rw [hblk]
        cases hd : d.blocks t (nonEmptyWrites o1) with
        | error e => rfl
        | ok r =>
          obtain ⟨t1, w1⟩ := r
          simp only
          rw [ih s1 t1, hbs]
          simp only
          cases d.blocks t1 (nonEmptyWrites o2) with
          | error e => rfl
          | ok r => rfl

/-- Running a stacked codec = running the upper one and feeding its writes to the lower one. -/
theorem stack_writes (c : Codec σ) (d : Codec τ) (bs o : List Bytes) (h : c.writes bs = .ok o) :
    (stack c d).writes bs = d.writes (nonEmptyWrites o) := by
  unfold writes at h ⊢
  have hst : (stack c d).start = (c.start, d.start) := rfl
  rw [hst, stack_blocks]
  cases hc : c.blocks c.start bs with
  | error e => simp [hc] at h
  | ok p =>
    obtain ⟨s1, o1⟩ := p
    simp only [hc] at h
    cases hf : c.finish s1 with
    | error e => simp [hf] at h
    | ok o2 =>
      simp only [hf, Except.ok.injEq] at h
      subst h
      simp only [nonEmptyWrites_append, blocks_append]
      cases hd : d.blocks d.start (nonEmptyWrites o1) with
      | error e => rfl
      | ok r =>
        obtain ⟨t1, w1⟩ := r
        simp only
        have hfin : (stack c d).finish (s1, t1) =
          match d.blocks t1 (nonEmptyWrites o2) with
          | .error e => .error e
          | .ok (t', o') =>
            match d.finish t' with
            | .error e => .error e
            | .ok o'' => .ok (o' ++ o'') := by simp only [stack, hf]
        rw [hfin]
        cases d.blocks t1 (nonEmptyWrites o2) with
        | error e => rfl
        | ok r =>
          obtain ⟨t2, w2⟩ := r
          simp only
          cases d.finish t2 with
          | error e => rfl
          | ok w3 => simp

end Codec
end Pdfmm
