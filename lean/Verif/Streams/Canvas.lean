import Verif.Base.Basic
set_option autoImplicit false
/-!
# The contents of a page or form as one device (PdfCanvasInputDevice)

Properties C86 (reading by characters) and C87 (reading by blocks).
-/
namespace Pdfmm

/-- `PdfCanvasInputDevice`, PdfCanvasInputDevice.h 24-60. The queue holds what `GetStream` and
`CopyTo` give for the objects of /Contents: `none` where there is no stream, else the decoded data
(constructor, PdfCanvasInputDevice.cpp 15-46; a stream that cannot be decoded raises there and is
not modelled). `cur` is the unread rest of the current device. -/
structure CanvasDev where
  rest : List (Option Bytes)
  cur : Bytes
  sw : Bool
  eof : Bool
deriving Repr, DecidableEq

/-- `tryPopNextDevice`, PdfCanvasInputDevice.cpp 201-219: skips absent and empty streams. -/
def CanvasDev.pop : List (Option Bytes) → Option (Bytes × List (Option Bytes))
  | [] => none
  | none :: r => pop r
  | some b :: r => if b.length = 0 then pop r else some (b, r)

/-- The constructor, PdfCanvasInputDevice.cpp 15-46. -/
def CanvasDev.open (l : List (Option Bytes)) : CanvasDev :=
  match CanvasDev.pop l with
  | none => ⟨[], [], false, true⟩
  | some (b, r) => ⟨r, b, false, false⟩

/-- `tryGetNextDevice`, PdfCanvasInputDevice.cpp 173-197; `first` says that the caller's device
pointer is still null. -/
def CanvasDev.tryGetNext (first : Bool) (c : CanvasDev) : Option CanvasDev :=
  if first then some c
  else match CanvasDev.pop c.rest with
    | none => none
    | some (b, r) => some { c with rest := r, cur := b, sw := true }

/-- `setEOF`, PdfCanvasInputDevice.cpp 221-225, after a pop that emptied the queue. -/
def CanvasDev.setEOF (c : CanvasDev) : CanvasDev := { c with rest := [], sw := false, eof := true }

/-- The loop of `readChar`, PdfCanvasInputDevice.cpp 138-157. -/
def CanvasDev.readCharLoop : Nat → Bool → CanvasDev → Res (Option Byte) × CanvasDev
  | 0, _, c => (.error .diverge, c)
  | f + 1, first, c =>
    match c.tryGetNext first with
    | none => (.ok none, c.setEOF)
    | some c' =>
      if c'.sw then (.ok (some 10), { c' with sw := false })
      else match c'.cur with
        | [] => readCharLoop f false c'
        | x :: t => (.ok (some x), { c' with cur := t })

/-- `readChar`, PdfCanvasInputDevice.cpp 130-158. -/
def CanvasDev.readChar (c : CanvasDev) : Res (Option Byte) × CanvasDev :=
  if c.eof then (.ok none, c) else c.readCharLoop 2 true

/-- The loop of `peek`, PdfCanvasInputDevice.cpp 59-79. -/
def CanvasDev.peekLoop : Nat → Bool → CanvasDev → Res (Option Byte) × CanvasDev
  | 0, _, c => (.error .diverge, c)
  | f + 1, first, c =>
    match c.tryGetNext first with
    | none => (.ok none, c.setEOF)
    | some c' =>
      if c'.sw then (.ok (some 10), c')
      else match c'.cur with
        | [] => peekLoop f false c'
        | x :: _ => (.ok (some x), c')

/-- `peek`, PdfCanvasInputDevice.cpp 49-80. -/
def CanvasDev.peek (c : CanvasDev) : Res (Option Byte) × CanvasDev :=
  if c.eof then (.ok none, c) else c.peekLoop 2 true

/-- The loop of `readBuffer`, PdfCanvasInputDevice.cpp 95-127. `eof` is the caller's variable, also
written by the inner `Read` (line 122) with the end of the inner device. -/
def CanvasDev.blockLoop : Nat → Bool → CanvasDev → Nat → Bool → Bytes → Res (Bytes × Bool) × CanvasDev
  | 0, _, c, _, _, _ => (.error .diverge, c)
  | f + 1, first, c, size, eof, acc =>
    match c.tryGetNext first with
    | none => (.ok (acc, true), c.setEOF)
    | some c' =>
      if size = 0 then (.ok (acc, eof), c')
      else if c'.sw then
        if size - 1 = 0 then (.ok (acc ++ [10], eof), { c' with sw := false })
        else blockLoop f false { c' with sw := false, cur := c'.cur.drop (size - 1) }
          (size - 1 - (c'.cur.take (size - 1)).length) (decide (c'.cur.length ≤ size - 1))
          (acc ++ [10] ++ c'.cur.take (size - 1))
      else blockLoop f false { c' with cur := c'.cur.drop size }
        (size - (c'.cur.take size).length) (decide (c'.cur.length ≤ size)) (acc ++ c'.cur.take size)

/-- `readBuffer`, PdfCanvasInputDevice.cpp 84-127. -/
def CanvasDev.readBlock (c : CanvasDev) (size : Nat) (eof : Bool) : Res (Bytes × Bool) × CanvasDev :=
  if c.eof then (.ok ([], true), c) else c.blockLoop (c.rest.length + 2) true size eof []

/-- `InputStream::CopyTo(stream)`, PdfInputStream.cpp 74-87, on this device; the chunk size (4096)
is a parameter. -/
def CanvasDev.copyTo (chunk : Nat) : Nat → CanvasDev → Bool → Bytes → Res Bytes
  | 0, _, _, _ => .error .diverge
  | f + 1, c, eof, acc =>
    match c.readBlock chunk eof with
    | (.error e, _) => .error e
    | (.ok (b, e), c') => if e then .ok (acc ++ b) else copyTo chunk f c' e (acc ++ b)

/-! ## Specification -/

/-- The streams that have data. -/
def Spec.nonEmpty (l : List (Option Bytes)) : List Bytes :=
  l.filterMap (fun o => match o with | some (x :: t) => some (x :: t) | _ => none)

/-- The contents as one text: the non-empty streams, in order, with a line feed between each two. -/
def Spec.joined (l : List (Option Bytes)) : Bytes := [10].intercalate (Spec.nonEmpty l)

/-- Calls: read one character, or look at it. -/
inductive CharOp
  | read | peek
deriving Repr, DecidableEq

/-- What the calls give on a plain text. -/
def Spec.charRun : List CharOp → Bytes → List (Option Byte)
  | [], _ => []
  | .read :: ops, t => t.head? :: Spec.charRun ops t.tail
  | .peek :: ops, t => t.head? :: Spec.charRun ops t

/-- What the calls give on the device. -/
def CanvasDev.charRun : List CharOp → CanvasDev → List (Res (Option Byte))
  | [], _ => []
  | .read :: ops, c => c.readChar.1 :: charRun ops c.readChar.2
  | .peek :: ops, c => c.peek.1 :: charRun ops c.peek.2

/-! ## Characters -/

/-- Each remaining stream preceded by a line feed. -/
def tailText : List Bytes → Bytes
  | [] => []
  | b :: r => 10 :: (b ++ tailText r)

theorem intercalate_cons (b : Bytes) (r : List Bytes) :
    ([10] : Bytes).intercalate (b :: r) = b ++ tailText r := by
  induction r generalizing b with
  | nil => simp [List.intercalate, tailText]
  | cons d r ih =>
    have := ih d
    simp only [List.intercalate, List.intersperse] at this ⊢
    cases r with
    | nil => simp [tailText]
    | cons e r => simp [tailText] at this ⊢; simp [this]

theorem pop_none (l : List (Option Bytes)) (h : CanvasDev.pop l = none) : Spec.nonEmpty l = [] := by
  induction l with
  | nil => rfl
  | cons o l ih =>
    cases o with
    | none => simpa [Spec.nonEmpty] using ih (by simpa [CanvasDev.pop] using h)
    | some b =>
      cases b with
      | nil => simpa [Spec.nonEmpty] using ih (by simpa [CanvasDev.pop] using h)
      | cons x t => simp [CanvasDev.pop] at h

theorem pop_some (l : List (Option Bytes)) (b : Bytes) (r : List (Option Bytes))
    (h : CanvasDev.pop l = some (b, r)) :
    Spec.nonEmpty l = b :: Spec.nonEmpty r ∧ b ≠ [] ∧ r.length < l.length := by
  induction l with
  | nil => simp [CanvasDev.pop] at h
  | cons o l ih =>
    cases o with
    | none =>
      obtain ⟨h1, h2, h3⟩ := ih (by simpa [CanvasDev.pop] using h)
      refine ⟨by simpa [Spec.nonEmpty] using h1, h2, by simp; omega⟩
    | some d =>
      cases d with
      | nil =>
        obtain ⟨h1, h2, h3⟩ := ih (by simpa [CanvasDev.pop] using h)
        refine ⟨by simpa [Spec.nonEmpty] using h1, h2, by simp; omega⟩
      | cons x t =>
        simp [CanvasDev.pop] at h
        obtain ⟨h1, h2⟩ := h
        subst h1 h2
        simp [Spec.nonEmpty]

/-- The text a device still has to deliver. -/
def CanvasDev.rem (c : CanvasDev) : Bytes :=
  if c.eof then [] else (if c.sw then [10] else []) ++ c.cur ++ tailText (Spec.nonEmpty c.rest)

theorem open_rem (l : List (Option Bytes)) : (CanvasDev.open l).rem = Spec.joined l := by
  unfold CanvasDev.open
  cases h : CanvasDev.pop l with
  | none => simp [CanvasDev.rem, Spec.joined, pop_none l h, List.intercalate]
  | some p =>
    obtain ⟨b, r⟩ := p
    obtain ⟨h1, _, _⟩ := pop_some l b r h
    simp [CanvasDev.rem, Spec.joined, h1, intercalate_cons]

theorem readChar_rem (c : CanvasDev) :
    c.readChar.1 = .ok c.rem.head? ∧ c.readChar.2.rem = c.rem.tail := by
  obtain ⟨rest, cur, sw, eof⟩ := c
  cases eof with
  | true => simp [CanvasDev.readChar, CanvasDev.rem]
  | false =>
    cases sw with
    | true => simp [CanvasDev.readChar, CanvasDev.readCharLoop, CanvasDev.tryGetNext, CanvasDev.rem]
    | false =>
      cases cur with
      | cons x t =>
        simp [CanvasDev.readChar, CanvasDev.readCharLoop, CanvasDev.tryGetNext, CanvasDev.rem]
      | nil =>
        cases h : CanvasDev.pop rest with
        | none =>
          simp [CanvasDev.readChar, CanvasDev.readCharLoop, CanvasDev.tryGetNext, CanvasDev.rem, h,
            CanvasDev.setEOF, pop_none rest h, tailText]
        | some p =>
          obtain ⟨b, r⟩ := p
          obtain ⟨h1, _, _⟩ := pop_some rest b r h
          simp [CanvasDev.readChar, CanvasDev.readCharLoop, CanvasDev.tryGetNext, CanvasDev.rem, h, h1,
            tailText]

theorem peek_rem (c : CanvasDev) : c.peek.1 = .ok c.rem.head? ∧ c.peek.2.rem = c.rem := by
  obtain ⟨rest, cur, sw, eof⟩ := c
  cases eof with
  | true => simp [CanvasDev.peek, CanvasDev.rem]
  | false =>
    cases sw with
    | true => simp [CanvasDev.peek, CanvasDev.peekLoop, CanvasDev.tryGetNext, CanvasDev.rem]
    | false =>
      cases cur with
      | cons x t => simp [CanvasDev.peek, CanvasDev.peekLoop, CanvasDev.tryGetNext, CanvasDev.rem]
      | nil =>
        cases h : CanvasDev.pop rest with
        | none =>
          simp [CanvasDev.peek, CanvasDev.peekLoop, CanvasDev.tryGetNext, CanvasDev.rem, h,
            CanvasDev.setEOF, pop_none rest h, tailText]
        | some p =>
          obtain ⟨b, r⟩ := p
          obtain ⟨h1, _, _⟩ := pop_some rest b r h
          simp [CanvasDev.peek, CanvasDev.peekLoop, CanvasDev.tryGetNext, CanvasDev.rem, h, h1,
            tailText]

/-- **C86**. Reading the contents of a page or form character by character, with any number of peeks
in between, gives the data of its non-empty streams in order with one line feed between each two,
and then the end; no call fails. -/
theorem C86_chars_joined (l : List (Option Bytes)) (ops : List CharOp) :
    (CanvasDev.open l).charRun ops = (Spec.charRun ops (Spec.joined l)).map .ok := by
  have key : ∀ (ops : List CharOp) (c : CanvasDev),
      CanvasDev.charRun ops c = (Spec.charRun ops c.rem).map .ok := by
    intro ops
    induction ops with
    | nil => intro c; rfl
    | cons op ops ih =>
      intro c
      cases op with
      | read =>
        obtain ⟨h1, h2⟩ := readChar_rem c
        simp only [CanvasDev.charRun, Spec.charRun, List.map_cons, h1, ih, h2]
      | peek =>
        obtain ⟨h1, h2⟩ := peek_rem c
        simp only [CanvasDev.charRun, Spec.charRun, List.map_cons, h1, ih, h2]
  have := key ops (CanvasDev.open l)
  rw [open_rem] at this
  exact this

/-- Non-vacuity: a missing and an empty stream between two others, with a peek at the seam. -/
example : Spec.charRun [.read, .peek, .read, .read, .read] (Spec.joined [some [65], none, some [], some [66]]) =
    [some 65, some 10, some 10, some 66, none] := by decide +kernel

/-! ## Blocks -/

theorem blockLoop_fits (f : Nat) (c : CanvasDev) (size : Nat) (eof : Bool) (acc : Bytes)
    (he : c.eof = false) (hf : c.rest.length < f) (hsw : c.sw = false) (hcur : c.cur = [])
    (hs : c.rem.length ≤ size) :
    ∃ c', c.blockLoop f false size eof acc = (.ok (acc ++ c.rem, true), c') ∧ c'.eof = true := by
  induction f generalizing c size eof acc with
  | zero => omega
  | succ f ih =>
    obtain ⟨rest, cur, sw, eof'⟩ := c
    simp only at he hf hsw hcur
    subst he hsw hcur
    unfold CanvasDev.blockLoop
    cases h : CanvasDev.pop rest with
    | none =>
      simp only [CanvasDev.tryGetNext, h, Bool.false_eq_true, if_false]
      refine ⟨CanvasDev.setEOF ⟨rest, [], false, false⟩, ?_, rfl⟩
      simp [CanvasDev.rem, pop_none rest h, tailText]
    | some p =>
      obtain ⟨b, r⟩ := p
      obtain ⟨h1, h2, h3⟩ := pop_some rest b r h
      have hb : 0 < b.length := List.length_pos_iff.mpr h2
      simp [CanvasDev.rem, h1, tailText] at hs
      simp only [CanvasDev.tryGetNext, h, Bool.false_eq_true, if_false, if_true]
      rw [if_neg (by omega), if_neg (by omega)]
      rw [List.take_of_length_le (by omega), List.drop_eq_nil_of_le (by omega)]
      obtain ⟨c', g1, g2⟩ := ih ⟨r, [], false, false⟩ (size - 1 - b.length)
        (decide (b.length ≤ size - 1)) (acc ++ [10] ++ b) rfl (by simp only; omega) rfl rfl
        (by simp [CanvasDev.rem]; omega)
      refine ⟨c', ?_, g2⟩
      rw [g1]
      simp [CanvasDev.rem, h1, tailText]

/-- What one pass of `blockLoop` on a chosen device leads to. -/
theorem readBlock_open (l : List (Option Bytes)) (b : Bytes) (r : List (Option Bytes))
    (h : CanvasDev.pop l = some (b, r)) (size : Nat) (hs : size ≠ 0) (eof : Bool) :
    (CanvasDev.open l).readBlock size eof =
      CanvasDev.blockLoop (r.length + 1) false ⟨r, b.drop size, false, false⟩
        (size - (b.take size).length) (decide (b.length ≤ size)) (b.take size) := by
  simp only [CanvasDev.open, h, CanvasDev.readBlock, Bool.false_eq_true, if_false]
  rw [show r.length + 2 = (r.length + 1) + 1 from rfl, CanvasDev.blockLoop]
  simp [CanvasDev.tryGetNext, hs]

theorem readBlock_fits (l : List (Option Bytes)) (size : Nat) (hs : size ≠ 0) (eof : Bool)
    (hl : (Spec.joined l).length ≤ size) :
    ∃ c', (CanvasDev.open l).readBlock size eof = (.ok (Spec.joined l, true), c') ∧ c'.eof = true := by
  cases h : CanvasDev.pop l with
  | none =>
    have h0 := pop_none l h
    refine ⟨CanvasDev.open l, ?_, ?_⟩
    · simp [CanvasDev.open, h, CanvasDev.readBlock, Spec.joined, h0, List.intercalate]
    · simp [CanvasDev.open, h]
  | some p =>
    obtain ⟨b, r⟩ := p
    obtain ⟨h1, _, _⟩ := pop_some l b r h
    have hj : Spec.joined l = b ++ tailText (Spec.nonEmpty r) := by
      rw [Spec.joined, h1, intercalate_cons]
    rw [hj, List.length_append] at hl
    rw [readBlock_open l b r h size hs eof]
    rw [List.take_of_length_le (by omega), List.drop_eq_nil_of_le (by omega)]
    obtain ⟨c', g1, g2⟩ := blockLoop_fits (r.length + 1) ⟨r, [], false, false⟩ (size - b.length)
      (decide (b.length ≤ size)) b rfl (by simp only; omega) rfl rfl (by simp [CanvasDev.rem]; omega)
    refine ⟨c', ?_, g2⟩
    rw [g1, hj]
    simp [CanvasDev.rem]

/-- Nothing is delivered twice: what a block read gives and what is left never exceed what there was. -/
theorem blockLoop_le (f : Nat) (first : Bool) (c : CanvasDev) (size : Nat) (eof : Bool) (acc b : Bytes)
    (e : Bool) (c' : CanvasDev) (he : c.eof = false)
    (h : c.blockLoop f first size eof acc = (.ok (b, e), c')) :
    b.length + c'.rem.length ≤ acc.length + c.rem.length := by
  induction f generalizing first c size eof acc with
  | zero => simp [CanvasDev.blockLoop] at h
  | succ f ih =>
    unfold CanvasDev.blockLoop at h
    have body : ∀ d : CanvasDev, d.eof = false → d.rem.length ≤ c.rem.length →
        (if size = 0 then ((.ok (acc, eof) : Res (Bytes × Bool)), d)
          else if d.sw then
            if size - 1 = 0 then (.ok (acc ++ [10], eof), { d with sw := false })
            else CanvasDev.blockLoop f false { d with sw := false, cur := d.cur.drop (size - 1) }
              (size - 1 - (d.cur.take (size - 1)).length) (decide (d.cur.length ≤ size - 1))
              (acc ++ [10] ++ d.cur.take (size - 1))
          else CanvasDev.blockLoop f false { d with cur := d.cur.drop size }
            (size - (d.cur.take size).length) (decide (d.cur.length ≤ size)) (acc ++ d.cur.take size)) =
          (.ok (b, e), c') →
        b.length + c'.rem.length ≤ acc.length + c.rem.length := by
      intro d hd hle hh
      obtain ⟨rest, cur, sw, eof'⟩ := d
      simp only at hd
      subst hd
      by_cases hs0 : size = 0
      · rw [if_pos hs0] at hh
        simp only [Prod.mk.injEq, Except.ok.injEq] at hh
        obtain ⟨⟨h1, h2⟩, h3⟩ := hh
        subst h1 h3
        omega
      · rw [if_neg hs0] at hh
        cases sw with
        | true =>
          simp only [if_true] at hh
          simp only [CanvasDev.rem, Bool.false_eq_true, if_false, if_true, List.length_append,
            List.length_cons, List.length_nil] at hle
          by_cases hs1 : size - 1 = 0
          · rw [if_pos hs1] at hh
            simp only [Prod.mk.injEq, Except.ok.injEq] at hh
            obtain ⟨⟨h1, h2⟩, h3⟩ := hh
            subst h1 h3
            simp [CanvasDev.rem] at hle ⊢
            omega
          · rw [if_neg hs1] at hh
            have := ih _ _ _ _ _ rfl hh
            simp [CanvasDev.rem] at this hle ⊢
            omega
        | false =>
          simp only [Bool.false_eq_true, if_false] at hh
          have := ih _ _ _ _ _ rfl hh
          simp [CanvasDev.rem] at this hle ⊢
          omega
    obtain ⟨rest, cur, sw, eof'⟩ := c
    simp only at he
    subst he
    cases first with
    | true =>
      simp only [CanvasDev.tryGetNext, if_true] at h
      exact body ⟨rest, cur, sw, false⟩ rfl (Nat.le_refl _) h
    | false =>
      cases hp : CanvasDev.pop rest with
      | none =>
        simp only [CanvasDev.tryGetNext, hp, Bool.false_eq_true, if_false, Prod.mk.injEq,
          Except.ok.injEq] at h
        obtain ⟨⟨h1, h2⟩, h3⟩ := h
        subst h1 h3
        simp [CanvasDev.rem, CanvasDev.setEOF]
      | some p =>
        obtain ⟨b0, r⟩ := p
        obtain ⟨h1, _, _⟩ := pop_some rest b0 r hp
        simp only [CanvasDev.tryGetNext, hp, Bool.false_eq_true, if_false] at h
        refine body ⟨r, b0, true, false⟩ rfl ?_ h
        simp [CanvasDev.rem, h1, tailText]
        omega

/-- When more is left than the block holds, the block read reports the end or loses data. -/
theorem blockLoop_loses (f : Nat) (c : CanvasDev) (size : Nat) (eof : Bool) (acc b : Bytes)
    (e : Bool) (c' : CanvasDev) (he : c.eof = false) (hsw : c.sw = false)
    (hc1 : c.cur ≠ [] → size = 0) (hc2 : c.cur = [] → eof = true) (hs : size < c.rem.length)
    (h : c.blockLoop f false size eof acc = (.ok (b, e), c')) :
    b.length ≤ acc.length + size ∧
    (e = true ∨ b.length + c'.rem.length < acc.length + c.rem.length) := by
  induction f generalizing c size eof acc with
  | zero => simp [CanvasDev.blockLoop] at h
  | succ f ih =>
    obtain ⟨rest, cur, sw, eof'⟩ := c
    simp only at he hsw hc1 hc2
    subst he hsw
    unfold CanvasDev.blockLoop at h
    cases hp : CanvasDev.pop rest with
    | none =>
      simp only [CanvasDev.tryGetNext, hp, Bool.false_eq_true, if_false, Prod.mk.injEq,
        Except.ok.injEq] at h
      obtain ⟨⟨h1, h2⟩, h3⟩ := h
      subst h1 h2
      exact ⟨by omega, Or.inl rfl⟩
    | some p =>
      obtain ⟨b0, r⟩ := p
      obtain ⟨h1, _, _⟩ := pop_some rest b0 r hp
      simp only [CanvasDev.tryGetNext, hp, Bool.false_eq_true, if_false, if_true] at h
      by_cases hs0 : size = 0
      · rw [if_pos hs0] at h
        simp only [Prod.mk.injEq, Except.ok.injEq] at h
        obtain ⟨⟨g1, g2⟩, g3⟩ := h
        subst g1 g2 g3
        refine ⟨by omega, ?_⟩
        by_cases hcur : cur = []
        · exact Or.inl (hc2 hcur)
        · right
          have := List.length_pos_iff.mpr hcur
          simp [CanvasDev.rem, h1, tailText]
          omega
      · rw [if_neg hs0] at h
        have hcur : cur = [] := Classical.byContradiction fun hne => hs0 (hc1 hne)
        subst hcur
        have heof := hc2 rfl
        by_cases hs1 : size - 1 = 0
        · rw [if_pos hs1] at h
          simp only [Prod.mk.injEq, Except.ok.injEq] at h
          obtain ⟨⟨g1, g2⟩, g3⟩ := h
          subst g1 g2
          exact ⟨by simp; omega, Or.inl heof⟩
        · rw [if_neg hs1] at h
          simp [CanvasDev.rem, h1, tailText] at hs
          have := ih ⟨r, b0.drop (size - 1), false, false⟩ (size - 1 - (b0.take (size - 1)).length)
            (decide (b0.length ≤ size - 1)) (acc ++ [10] ++ b0.take (size - 1)) rfl rfl
            (by
              simp only [ne_eq, List.drop_eq_nil_iff, List.length_take]
              omega)
            (by simp only [List.drop_eq_nil_iff, decide_eq_true_eq]; omega)
            (by simp [CanvasDev.rem]; omega) h
          simp [CanvasDev.rem, h1, tailText] at this ⊢
          refine ⟨by omega, ?_⟩
          rcases this.2 with g | g
          · exact Or.inl g
          · right; omega

theorem readBlock_le (c : CanvasDev) (size : Nat) (eof : Bool) (b : Bytes) (e : Bool) (c' : CanvasDev)
    (h : c.readBlock size eof = (.ok (b, e), c')) : b.length + c'.rem.length ≤ c.rem.length := by
  unfold CanvasDev.readBlock at h
  cases he : c.eof with
  | true =>
    simp only [he, if_true, Prod.mk.injEq, Except.ok.injEq] at h
    obtain ⟨⟨g1, g2⟩, g3⟩ := h
    subst g1 g3
    simp
  | false =>
    simp only [he, Bool.false_eq_true, if_false] at h
    have := blockLoop_le _ _ _ _ _ _ _ _ _ he h
    simpa using this

theorem copyTo_le (chunk f : Nat) (c : CanvasDev) (eof : Bool) (acc out : Bytes)
    (h : c.copyTo chunk f eof acc = .ok out) : out.length ≤ acc.length + c.rem.length := by
  induction f generalizing c eof acc with
  | zero => simp [CanvasDev.copyTo] at h
  | succ f ih =>
    unfold CanvasDev.copyTo at h
    cases hb : c.readBlock chunk eof with
    | mk res c' =>
      cases res with
      | error e => simp [hb] at h
      | ok p =>
        obtain ⟨b, e⟩ := p
        have hle := readBlock_le c chunk eof b e c' hb
        simp only [hb] at h
        cases e with
        | true =>
          simp only [if_true, Except.ok.injEq] at h
          subst h
          simp; omega
        | false =>
          simp only [Bool.false_eq_true, if_false] at h
          have := ih _ _ _ h
          simp at this ⊢
          omega

/-- **C87**, the part that holds: contents that fit the buffer of one block read are copied whole,
streams joined by line feeds. Missing: longer contents, see `C87_long_contents_lost_false`. -/
theorem C87_block_read_partial (l : List (Option Bytes)) (chunk : Nat) (hc : chunk ≠ 0)
    (hl : (Spec.joined l).length ≤ chunk) (eof : Bool) :
    (∃ c', (CanvasDev.open l).readBlock chunk eof = (.ok (Spec.joined l, true), c') ∧ c'.eof = true) ∧
    ∃ f, (CanvasDev.open l).copyTo chunk f eof [] = .ok (Spec.joined l) := by
  obtain ⟨c', h1, h2⟩ := readBlock_fits l chunk hc eof hl
  refine ⟨⟨c', h1, h2⟩, 1, ?_⟩
  simp [CanvasDev.copyTo, h1]

/-- **C87** fails: contents longer than the buffer of a block read are never copied whole, however
they are divided into streams. In particular `CopyTo` (buffer of 4096 bytes) loses data of every
page whose contents are longer. -/
theorem C87_long_contents_lost_false (l : List (Option Bytes)) (chunk : Nat) (hc : chunk ≠ 0)
    (hl : chunk < (Spec.joined l).length) (eof : Bool) (f : Nat) :
    (CanvasDev.open l).copyTo chunk f eof [] ≠ .ok (Spec.joined l) := by
  intro h
  cases f with
  | zero => simp [CanvasDev.copyTo] at h
  | succ f =>
    cases hp : CanvasDev.pop l with
    | none => simp [Spec.joined, pop_none l hp, List.intercalate] at hl
    | some p =>
      obtain ⟨b0, r⟩ := p
      obtain ⟨h1, _, _⟩ := pop_some l b0 r hp
      have hj : Spec.joined l = b0 ++ tailText (Spec.nonEmpty r) := by
        rw [Spec.joined, h1, intercalate_cons]
      have hjl := congrArg List.length hj
      rw [List.length_append] at hjl
      unfold CanvasDev.copyTo at h
      cases hb : (CanvasDev.open l).readBlock chunk eof with
      | mk res c' =>
        cases res with
        | error e => simp [hb] at h
        | ok q =>
          obtain ⟨b, e⟩ := q
          simp only [hb] at h
          rw [readBlock_open l b0 r hp chunk hc eof] at hb
          have hlose := blockLoop_loses _ ⟨r, b0.drop chunk, false, false⟩ _ _ _ _ _ _ rfl rfl
            (by simp only [ne_eq, List.drop_eq_nil_iff, List.length_take]; omega)
            (by simp only [List.drop_eq_nil_iff, decide_eq_true_eq]; omega)
            (by simp [CanvasDev.rem]; omega) hb
          have hr0 : (CanvasDev.mk r (b0.drop chunk) false false).rem.length =
              b0.length - chunk + (tailText (Spec.nonEmpty r)).length := by simp [CanvasDev.rem]
          rw [hr0, List.length_take] at hlose
          cases e with
          | true =>
            simp only [if_true, Except.ok.injEq, List.nil_append] at h
            subst h
            omega
          | false =>
            simp only [Bool.false_eq_true, if_false, List.nil_append] at h
            have := copyTo_le _ _ _ _ _ _ h
            simp only [Bool.false_eq_true, false_or] at hlose
            omega

/-- **C87** fails already for a single stream: a block read shorter than the stream reports the end
of the contents, and every later read of any kind gives nothing. -/
theorem C87_single_stream_cut_false (b : Bytes) (n : Nat) (hn : n ≠ 0) (hb : n < b.length) (eof : Bool) :
    ∃ c', (CanvasDev.open [some b]).readBlock n eof = (.ok (b.take n, true), c') ∧
      c'.readChar = (.ok none, c') ∧ ∀ m e, c'.readBlock m e = (.ok ([], true), c') := by
  have hp : CanvasDev.pop [some b] = some (b, []) := by
    simp only [CanvasDev.pop]
    rw [if_neg (by omega)]
  rw [readBlock_open [some b] b [] hp n hn eof]
  refine ⟨⟨[], b.drop n, false, true⟩, ?_, ?_, ?_⟩
  · simp [CanvasDev.blockLoop, CanvasDev.tryGetNext, CanvasDev.pop, CanvasDev.setEOF]
  · simp [CanvasDev.readChar]
  · intro m e; simp [CanvasDev.readBlock]

/-- Non-vacuity: two streams that fit, and one that does not. -/
example : (CanvasDev.open [some [65, 66], none, some [67]]).readBlock 4 false =
    (.ok ([65, 66, 10, 67], true), ⟨[], [], false, true⟩) ∧
    (CanvasDev.open [some [65, 66], none, some [67]]).readBlock 3 false =
    (.ok ([65, 66, 10], true), ⟨[], [67], false, false⟩) := by decide +kernel

end Pdfmm
