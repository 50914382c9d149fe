import Verif.Base.Basic
import Verif.Fonts.CMapModel
import Verif.Util.Geometry

set_option autoImplicit false

/-! # Where extracted text is placed

`PdfPage::ExtractTextTo` follows the operators of the contents and remembers, for each string shown, where it is shown. The numbers
are exact here (the code uses `double`). -/

namespace Pdfmm

/-- One element of the array of `TJ`: a string, as its decoded text and the sum of its raw lengths, or a number. -/
inductive TextItem
  | str (s : Bytes) (w : Rat)
  | num (n : Rat)

/-- The operators that `PdfPage::ExtractTextTo` receives, `src/pdfmm/base/PdfPage_TextExtraction.cpp:211-434`. A string is given as its decoded
text and the sum `w` of the lengths `PdfFont::TryScanString` computes for it with the spacing in force. A form carries its `/Matrix`.
`rise` and `stretch` are `Ts` and `Tz`. Operators that touch neither the position nor the text are left out. -/
inductive TextOp
  | leading (l : Rat)
  | rise (r : Rat)
  | stretch (z : Rat)
  | cm (m : Mat)
  | td (x y : Rat)
  | tD (x y : Rat)
  | tm (m : Mat)
  | nextLine
  | bt
  | et
  | font (size : Rat)
  | tj (s : Bytes) (w : Rat)
  | quote (s : Bytes) (w : Rat)
  | dquote (s : Bytes) (w : Rat)
  | tJ (items : List TextItem)
  | q
  | Q
  | form (m : Mat)
  | endForm

/-- `TextState`, `src/pdfmm/base/PdfPage_TextExtraction.cpp:40-55`; of the font state only the size matters for the position. -/
structure TxtState where
  rm : Mat
  ctm : Mat
  tm : Mat
  tlm : Mat
  tl : Rat
  size : Rat
  deriving DecidableEq

/-- `TextState` as first constructed, `src/pdfmm/base/PdfPage_TextExtraction.cpp:40-55` and `src/pdfmm/base/PdfTextState.cpp:13-22`: the size is `-1`. -/
def TxtState.start : TxtState := ⟨Mat.one, Mat.one, Mat.one, Mat.one, 0, -1⟩

/-- `TextState::ComputeT_rm`, `src/pdfmm/base/PdfPage_TextExtraction.cpp:1249-1252`. -/
def TxtState.compute (s : TxtState) : TxtState := { s with rm := s.tm.mul s.ctm }

/-- `ExtractionContext` as far as positions go, `src/pdfmm/base/PdfPage_TextExtraction.cpp:120-160`: the top of the stack of states, those below it, the
sizes of the stack remembered for the open forms, and the strings pushed so far with `StatefulString::Position`. -/
structure TxtCtx where
  cur : TxtState
  saved : List TxtState
  forms : List Nat
  out : List (Bytes × V2)
  deriving DecidableEq

/-- The context as first constructed, `src/pdfmm/base/PdfPage_TextExtraction.cpp:853-857`. -/
def TxtCtx.start : TxtCtx := ⟨TxtState.start, [], [], []⟩

/-- `TextStateStack::GetSize`, `src/pdfmm/base/PdfPage_TextExtraction.cpp:875-878`. -/
def TxtCtx.depth (c : TxtCtx) : Nat := c.saved.length + 1

/-- The pops of `TextStateStack::Pop`, `src/pdfmm/base/PdfPage_TextExtraction.cpp:869-870`. -/
def TxtCtx.drop : TxtState → List TxtState → Nat → TxtState × List TxtState
  | cur, saved, 0 => (cur, saved)
  | cur, [], _ + 1 => (cur, [])
  | _, s :: saved, n + 1 => TxtCtx.drop s saved n

/-- `TextStateStack::Pop`, `src/pdfmm/base/PdfPage_TextExtraction.cpp:864-873`. -/
def TxtCtx.pop (c : TxtCtx) (n : Nat) : Res TxtCtx :=
  if c.depth ≤ n then .error .exn
  else .ok { c with cur := (TxtCtx.drop c.cur c.saved n).1, saved := (TxtCtx.drop c.cur c.saved n).2 }

/-- `ExtractionContext::TStar_Operator`, `src/pdfmm/base/PdfPage_TextExtraction.cpp:965-970`. -/
def TxtCtx.star (c : TxtCtx) : TxtCtx :=
  { c with cur := { c.cur with tlm := c.cur.tlm.applyTy (-c.cur.tl), tm := c.cur.tlm.applyTy (-c.cur.tl) }.compute }

/-- `ExtractionContext::TdTD_Operator`, `src/pdfmm/base/PdfPage_TextExtraction.cpp:957-963`. -/
def TxtCtx.move (c : TxtCtx) (x y : Rat) : TxtCtx :=
  { c with cur := { c.cur with tlm := c.cur.tlm.translate ⟨x, y⟩, tm := c.cur.tlm.translate ⟨x, y⟩ }.compute }

/-- Showing a string, `src/pdfmm/base/PdfPage_TextExtraction.cpp:317-322` and `PushString`, `:978-998`: a string whose decoded text is empty is skipped. The
position is the translation of `T_rm`, `:717`. -/
def TxtCtx.push (c : TxtCtx) (s : Bytes) (w : Rat) : TxtCtx :=
  if s = [] then c
  else { c with out := c.out ++ [(s, ⟨c.cur.rm.e, c.cur.rm.f⟩)], cur := { c.cur with tm := c.cur.tm.applyTx w }.compute }

/-- `ExtractionContext::AdvanceSpace`, `src/pdfmm/base/PdfPage_TextExtraction.cpp:972-976`. -/
def TxtCtx.advance (c : TxtCtx) (x : Rat) : TxtCtx := { c with cur := { c.cur with tm := c.cur.tm.applyTx x }.compute }

/-- One element of the array of `TJ`, `src/pdfmm/base/PdfPage_TextExtraction.cpp:338-363`. -/
def TxtCtx.item (c : TxtCtx) : TextItem → TxtCtx
  | .str s w => c.push s w
  | .num n => c.advance ((-n / 1000) * c.cur.size)

/-- One step of the loop of `PdfPage::ExtractTextTo`, `src/pdfmm/base/PdfPage_TextExtraction.cpp:211-434`. `BT` only sets a flag used for warnings, `:904-910`;
`ET` resets the two matrices, `:912-919`. `Ts` and `Tz` fall in the default case, `:394-398`. -/
def TxtCtx.step (c : TxtCtx) : TextOp → Res TxtCtx
  | .leading l => .ok { c with cur := { c.cur with tl := l } }
  | .rise _ => .ok c
  | .stretch _ => .ok c
  | .cm m => .ok { c with cur := { c.cur with ctm := m.mul c.cur.ctm }.compute }
  | .td x y => .ok (c.move x y)
  | .tD x y => .ok { c.move x y with cur := { (c.move x y).cur with tl := -y } }
  | .tm m => .ok { c with cur := { c.cur with tlm := m, tm := m }.compute }
  | .nextLine => .ok c.star
  | .bt => .ok c
  | .et => .ok { c with cur := { c.cur with tm := Mat.one, tlm := Mat.one }.compute }
  | .font z => .ok { c with cur := { c.cur with size := z } }
  | .tj s w => .ok (c.push s w)
  | .quote s w => .ok (c.push s w).star
  | .dquote s w => .ok (c.push s w).star
  | .tJ items => .ok (items.foldl TxtCtx.item c)
  | .q => .ok { c with saved := c.cur :: c.saved }
  | .Q => c.pop 1
  | .form _ => .ok { c with forms := c.depth :: c.forms, saved := c.cur :: c.saved }
  | .endForm =>
    match c.forms with
    | [] => .error .ub
    | n :: fs => (c.pop (c.depth - n)).map fun c => { c with forms := fs }

/-- The loop, `src/pdfmm/base/PdfPage_TextExtraction.cpp:211`. -/
def TxtCtx.run (c : TxtCtx) : List TextOp → Res TxtCtx
  | [] => .ok c
  | o :: ops => (c.step o).bind fun c => c.run ops

/-- The strings `PdfPage::ExtractTextTo` gathers, with their positions. -/
def textPositions (ops : List TextOp) : Res (List (Bytes × V2)) := (TxtCtx.start.run ops).map TxtCtx.out

/-! ## The specification: ISO 32000-1, 8.4 and 9.3–9.4 -/

/-- The part of the graphics state that places text. -/
structure Spec.Graphics where
  ctm : Mat
  leading : Rat
  size : Rat
  rise : Rat
  stretch : Rat

/-- The state of a reader: the graphics state, those saved by `q` since the start of the page or form, the text matrix and the text line matrix
inside a text object, and for each open form what to return to. -/
structure Spec.Reader where
  g : Spec.Graphics
  saved : List Spec.Graphics
  text : Option (Mat × Mat)
  forms : List (Spec.Graphics × List Spec.Graphics)
  shown : List (Bytes × V2)

/-- The start of a page. The standard gives no initial font size; the reader's is the one the library starts with. -/
def Spec.Reader.start : Spec.Reader := ⟨⟨Mat.one, 0, -1, 0, 1⟩, [], none, [], []⟩

/-- The origin of the next glyph: the text origin raised by the text rise, through the text matrix, through the CTM (9.4.4). -/
def Spec.Graphics.place (g : Spec.Graphics) (tm : Mat) : V2 := (V2.mul ⟨0, g.rise⟩ tm).mul g.ctm

/-- Moving in text space: `Tm = [1 0 0 1 x y] × Tm`. -/
def Spec.shift (x y : Rat) (m : Mat) : Mat := (Mat.translation ⟨x, y⟩).mul m

/-- Showing a string of width `w`: it stands at the current place, then the text matrix moves by `w` scaled horizontally. An invisible string
(no text) moves the matrix as any other. -/
def Spec.Reader.show (r : Spec.Reader) (s : Bytes) (w : Rat) (tm tlm : Mat) : Spec.Reader :=
  { r with text := some (Spec.shift (w * r.g.stretch) 0 tm, tlm), shown := if s = [] then r.shown else r.shown ++ [(s, r.g.place tm)] }

/-- The elements of the array of `TJ` (9.4.3): a number moves back by thousandths of the font size. -/
def Spec.Reader.items : Spec.Reader → Mat → Mat → List TextItem → Spec.Reader
  | r, tm, tlm, [] => { r with text := some (tm, tlm) }
  | r, tm, tlm, .str s w :: is => (r.show s w tm tlm).items (Spec.shift (w * r.g.stretch) 0 tm) tlm is
  | r, tm, tlm, .num n :: is => r.items (Spec.shift ((-n / 1000) * r.g.size * r.g.stretch) 0 tm) tlm is

/-- One operator of a well formed content; `none` when the operator may not stand there. -/
def Spec.Reader.step (r : Spec.Reader) : TextOp → Option Spec.Reader
  | .leading l => some { r with g := { r.g with leading := l } }
  | .rise t => some { r with g := { r.g with rise := t } }
  | .stretch z => some { r with g := { r.g with stretch := z / 100 } }
  | .font z => some { r with g := { r.g with size := z } }
  | .cm m => match r.text with
    | none => some { r with g := { r.g with ctm := m.mul r.g.ctm } }
    | some _ => none
  | .bt => match r.text with
    | none => some { r with text := some (Mat.one, Mat.one) }
    | some _ => none
  | .et => match r.text with
    | none => none
    | some _ => some { r with text := none }
  | .td x y => match r.text with
    | none => none
    | some (_, tlm) => some { r with text := some (Spec.shift x y tlm, Spec.shift x y tlm) }
  | .tD x y => match r.text with
    | none => none
    | some (_, tlm) => some { r with text := some (Spec.shift x y tlm, Spec.shift x y tlm), g := { r.g with leading := -y } }
  | .tm m => match r.text with
    | none => none
    | some _ => some { r with text := some (m, m) }
  | .nextLine => match r.text with
    | none => none
    | some (_, tlm) => some { r with text := some (Spec.shift 0 (-r.g.leading) tlm, Spec.shift 0 (-r.g.leading) tlm) }
  | .tj s w => match r.text with
    | none => none
    | some (tm, tlm) => some (r.show s w tm tlm)
  | .quote s w => match r.text with
    | none => none
    | some (_, tlm) => some (r.show s w (Spec.shift 0 (-r.g.leading) tlm) (Spec.shift 0 (-r.g.leading) tlm))
  | .dquote s w => match r.text with
    | none => none
    | some (_, tlm) => some (r.show s w (Spec.shift 0 (-r.g.leading) tlm) (Spec.shift 0 (-r.g.leading) tlm))
  | .tJ is => match r.text with
    | none => none
    | some (tm, tlm) => some (r.items tm tlm is)
  | .q => match r.text with
    | none => some { r with saved := r.g :: r.saved }
    | some _ => none
  | .Q => match r.text, r.saved with
    | none, g :: gs => some { r with g := g, saved := gs }
    | _, _ => none
  | .form m => match r.text with
    | none => some { r with forms := (r.g, r.saved) :: r.forms, saved := [], g := { r.g with ctm := m.mul r.g.ctm } }
    | some _ => none
  | .endForm => match r.text, r.forms with
    | none, (g, gs) :: fs => some { r with forms := fs, g := g, saved := gs }
    | _, _ => none

/-- A sequence of operators. -/
def Spec.Reader.run (r : Spec.Reader) : List TextOp → Option Spec.Reader
  | [] => some r
  | o :: ops => (r.step o).bind fun r => r.run ops

/-- Where a reader places the strings of a well formed content. -/
def Spec.positions (ops : List TextOp) : Option (List (Bytes × V2)) := (Spec.Reader.start.run ops).map Spec.Reader.shown

/-- The operators the code follows: text upright or scaled but not rotated or skewed, no rise, no horizontal scaling, no `'` or `"`, strings that all have some text, and
forms with the identity matrix. -/
def Spec.PlainOp : TextOp → Prop
  | .tm m => m.b = 0 ∧ m.c = 0
  | .rise r => r = 0
  | .stretch z => z = 100
  | .quote _ _ => False
  | .dquote _ _ => False
  | .tj s _ => s ≠ []
  | .tJ is => ∀ s w, TextItem.str s w ∈ is → s ≠ []
  | .form m => m = Mat.one
  | _ => True

/-- A text matrix that neither rotates nor skews. -/
def Spec.Level (m : Mat) : Prop := m.b = 0 ∧ m.c = 0

theorem shift_eq (x y : Rat) (m : Mat) : Spec.shift x y m = m.translate ⟨x, y⟩ := by
  simp [Spec.shift, Mat.translation, Mat.mul, Mat.translate] <;> grind

theorem Spec.Level.tx {m : Mat} (h : Spec.Level m) (v : Rat) : m.applyTx v = Spec.shift v 0 m := by
  obtain ⟨h1, h2⟩ := h
  rw [shift_eq]; simp only [Mat.applyTx, Mat.translate, h1, h2]; congr 1 <;> grind

theorem Spec.Level.ty {m : Mat} (h : Spec.Level m) (v : Rat) : m.applyTy v = Spec.shift 0 v m := by
  obtain ⟨h1, h2⟩ := h
  rw [shift_eq]; simp only [Mat.applyTy, Mat.translate, h1, h2]; congr 1 <;> grind

theorem Spec.Level.shift {m : Mat} (h : Spec.Level m) (x y : Rat) : Spec.Level (Spec.shift x y m) := by
  rw [shift_eq]; exact h

theorem level_one : Spec.Level Mat.one := ⟨rfl, rfl⟩

/-- A state of the code stands for a graphics state and two text matrices. -/
def StateAs (s : TxtState) (g : Spec.Graphics) (tm tlm : Mat) : Prop :=
  s = ⟨tm.mul g.ctm, g.ctm, tm, tlm, g.leading, g.size⟩ ∧ g.rise = 0 ∧ g.stretch = 1 ∧ Spec.Level tm ∧ Spec.Level tlm

/-- The states below the top stand, from the top down, for those saved in the innermost form, then the one the form returns to, and so on. -/
inductive StackAs : List TxtState → List Spec.Graphics → List (Spec.Graphics × List Spec.Graphics) → List Nat → Prop
  | nil : StackAs [] [] [] []
  | saved {s ss g gs fs ns} : StateAs s g Mat.one Mat.one → StackAs ss gs fs ns → StackAs (s :: ss) (g :: gs) fs ns
  | form {s ss g gs fs ns} : StateAs s g Mat.one Mat.one → StackAs ss gs fs ns →
      StackAs (s :: ss) [] ((g, gs) :: fs) ((ss.length + 1) :: ns)

theorem StackAs.unwind {gs : List Spec.Graphics} {g : Spec.Graphics} {gs' : List Spec.Graphics} {fs : List (Spec.Graphics × List Spec.Graphics)} :
    ∀ {ss : List TxtState} {ns : List Nat}, StackAs ss gs ((g, gs') :: fs) ns →
      ∃ s ss' ns', ns = (ss'.length + 1) :: ns' ∧ StateAs s g Mat.one Mat.one ∧ StackAs ss' gs' fs ns' ∧ ss'.length < ss.length ∧
        ∀ cur, TxtCtx.drop cur ss (ss.length - ss'.length) = (s, ss') := by
  induction gs with
  | nil =>
    intro ss ns h
    cases h with
    | form hs h =>
      refine ⟨_, _, _, rfl, hs, h, by simp, fun cur => ?_⟩
      simp [TxtCtx.drop]
  | cons x gs ih =>
    intro ss ns h
    cases h with
    | saved hs h =>
      obtain ⟨s, ss', ns', h1, h2, h3, h4, h5⟩ := ih h
      refine ⟨s, ss', ns', h1, h2, h3, by simp only [List.length_cons]; omega, fun cur => ?_⟩
      rw [List.length_cons, show ∀ a b : Nat, b < a → a + 1 - b = (a - b) + 1 from fun a b h => by omega]
      · exact h5 _
      · exact h4

/-- The code and the reader agree. -/
structure SameAs (c : TxtCtx) (r : Spec.Reader) : Prop where
  cur : StateAs c.cur r.g (r.text.getD (Mat.one, Mat.one)).1 (r.text.getD (Mat.one, Mat.one)).2
  stack : StackAs c.saved r.saved r.forms c.forms
  out : c.out = r.shown

theorem place_eq (g : Spec.Graphics) (hr : g.rise = 0) (tm : Mat) : g.place tm = ⟨(tm.mul g.ctm).e, (tm.mul g.ctm).f⟩ := by
  simp only [Spec.Graphics.place, hr, V2.mul, Mat.mul]; congr 1 <;> grind

theorem SameAs.show {c : TxtCtx} {r : Spec.Reader} {tm tlm : Mat} (h : SameAs c { r with text := some (tm, tlm) }) (s : Bytes) (w : Rat) (hs : s ≠ []) :
    SameAs (c.push s w) (r.show s w tm tlm) := by
  obtain ⟨⟨hc, h1, h2, h3, h4⟩, hst, ho⟩ := h
  simp only [Option.getD_some] at hc h1 h2 h3 h4 hst ho
  rw [TxtCtx.push, if_neg hs]
  refine ⟨⟨?_, h1, h2, h3.shift _ _, h4⟩, hst, ?_⟩
  · simp only [hc, TxtState.compute, h3.tx, Spec.Reader.show, Option.getD_some, h2, Rat.mul_one]
  · simp only [Spec.Reader.show, if_neg hs, ho, place_eq r.g h1, hc]

theorem SameAs.items (is : List TextItem) : ∀ {c : TxtCtx} {r : Spec.Reader} {tm tlm : Mat}, SameAs c { r with text := some (tm, tlm) } →
    (∀ s w, TextItem.str s w ∈ is → s ≠ []) → SameAs (is.foldl TxtCtx.item c) (r.items tm tlm is) := by
  induction is with
  | nil => intro c r tm tlm h _; exact h
  | cons i is ih =>
    intro c r tm tlm h hp
    cases i with
    | str s w => exact ih (r := r.show s w tm tlm) (h.show s w (hp s w List.mem_cons_self)) fun s w hm => hp s w (List.mem_cons_of_mem _ hm)
    | num n =>
      refine ih ?_ fun s w hm => hp s w (List.mem_cons_of_mem _ hm)
      obtain ⟨⟨hc, h1, h2, h3, h4⟩, hst, ho⟩ := h
      simp only [Option.getD_some] at hc h1 h2 h3 h4 hst ho
      refine ⟨⟨?_, h1, h2, h3.shift _ _, h4⟩, hst, ho⟩
      simp only [TxtCtx.item, TxtCtx.advance, hc, TxtState.compute, h3.tx, Option.getD_some, h2, Rat.mul_one]

theorem pop_ok (c : TxtCtx) (n : Nat) (h : n < c.depth) :
    c.pop n = .ok { c with cur := (TxtCtx.drop c.cur c.saved n).1, saved := (TxtCtx.drop c.cur c.saved n).2 } := by
  rw [TxtCtx.pop, if_neg (by omega)]

theorem same_step {c : TxtCtx} {r r' : Spec.Reader} (h : SameAs c r) (o : TextOp) (hp : Spec.PlainOp o) (hr : r.step o = some r') :
    ∃ c', c.step o = .ok c' ∧ SameAs c' r' := by
  obtain ⟨g, gs, text, fs, shown⟩ := r
  obtain ⟨cur, saved, forms, out⟩ := c
  obtain ⟨⟨hc, h1, h2, h3, h4⟩, hst, ho⟩ := h
  simp only at hc h1 h2 h3 h4 hst ho
  subst hc ho
  cases o with
  | leading l => cases hr; exact ⟨_, rfl, ⟨rfl, h1, h2, h3, h4⟩, hst, rfl⟩
  | rise t => cases hr; cases (show t = 0 from hp); exact ⟨_, rfl, ⟨rfl, rfl, h2, h3, h4⟩, hst, rfl⟩
  | stretch z => cases hr; cases (show z = 100 from hp); exact ⟨_, rfl, ⟨rfl, h1, by simp only; decide +kernel, h3, h4⟩, hst, rfl⟩
  | font z => cases hr; exact ⟨_, rfl, ⟨rfl, h1, h2, h3, h4⟩, hst, rfl⟩
  | cm m =>
    cases text with
    | none => cases hr; exact ⟨_, rfl, ⟨rfl, h1, h2, h3, h4⟩, hst, rfl⟩
    | some t => cases hr
  | bt =>
    cases text with
    | none => cases hr; exact ⟨_, rfl, ⟨rfl, h1, h2, h3, h4⟩, hst, rfl⟩
    | some t => cases hr
  | et =>
    cases text with
    | none => cases hr
    | some t => cases hr; exact ⟨_, rfl, ⟨rfl, h1, h2, level_one, level_one⟩, hst, rfl⟩
  | td x y =>
    cases text with
    | none => cases hr
    | some t => cases hr; exact ⟨_, rfl, ⟨by simp only [TxtCtx.move, TxtState.compute, shift_eq, Option.getD_some], h1, h2, h4.shift _ _, h4.shift _ _⟩, hst, rfl⟩
  | tD x y =>
    cases text with
    | none => cases hr
    | some t => cases hr; exact ⟨_, rfl, ⟨by simp only [TxtCtx.move, TxtState.compute, shift_eq, Option.getD_some], h1, h2, h4.shift _ _, h4.shift _ _⟩, hst, rfl⟩
  | tm m =>
    cases text with
    | none => cases hr
    | some t => cases hr; exact ⟨_, rfl, ⟨rfl, h1, h2, hp, hp⟩, hst, rfl⟩
  | nextLine =>
    cases text with
    | none => cases hr
    | some t =>
      cases hr
      have h4' : Spec.Level t.2 := h4
      exact ⟨_, rfl, ⟨by simp only [TxtCtx.star, TxtState.compute, h4'.ty, Option.getD_some], h1, h2, h4.shift _ _, h4.shift _ _⟩, hst, rfl⟩
  | tj s w =>
    cases text with
    | none => cases hr
    | some t => cases hr; exact ⟨_, rfl, SameAs.show (r := ⟨g, gs, some t, fs, out⟩) ⟨⟨rfl, h1, h2, h3, h4⟩, hst, rfl⟩ s w hp⟩
  | quote s w => exact hp.elim
  | dquote s w => exact hp.elim
  | tJ is =>
    cases text with
    | none => cases hr
    | some t => cases hr; exact ⟨_, rfl, SameAs.items is (r := ⟨g, gs, some t, fs, out⟩) ⟨⟨rfl, h1, h2, h3, h4⟩, hst, rfl⟩ hp⟩
  | q =>
    cases text with
    | none => cases hr; exact ⟨_, rfl, ⟨rfl, h1, h2, h3, h4⟩, .saved ⟨rfl, h1, h2, h3, h4⟩ hst, rfl⟩
    | some t => cases hr
  | Q =>
    cases text with
    | some t => cases hr
    | none =>
      cases hst with
      | nil => cases hr
      | form hs h => cases hr
      | @saved s ss _ _ _ _ hs h =>
        cases hr
        have e : ∀ cur, TxtCtx.drop cur (s :: ss) 1 = (s, ss) := fun cur => by simp [TxtCtx.drop]
        refine ⟨⟨s, ss, forms, out⟩, ?_, ⟨hs, h, rfl⟩⟩
        rw [TxtCtx.step, pop_ok _ 1 (by simp only [TxtCtx.depth, List.length_cons]; omega)]
        simp only [e]
  | form m =>
    cases text with
    | some t => cases hr
    | none =>
      cases hr
      cases (show m = Mat.one from hp)
      have e : Mat.one.mul g.ctm = g.ctm := by simp only [Mat.one, Mat.mul]; cases g.ctm; simp only; congr 1 <;> grind
      exact ⟨_, rfl, ⟨by simp only [e], h1, h2, h3, h4⟩, .form ⟨rfl, h1, h2, h3, h4⟩ hst, rfl⟩
  | endForm =>
    cases text with
    | some t => cases hr
    | none =>
      cases fs with
      | nil => cases hr
      | cons f fs =>
        cases hr
        obtain ⟨s, ss', ns', e1, hs, h, hl, hd⟩ := hst.unwind
        subst e1
        refine ⟨⟨s, ss', ns', out⟩, ?_, ⟨hs, h, rfl⟩⟩
        have hn : ∀ c : TxtCtx, c.saved = saved → c.depth - (ss'.length + 1) = saved.length - ss'.length := fun c h => by rw [TxtCtx.depth, h]; omega
        simp only [TxtCtx.step]
        rw [hn _ rfl, pop_ok _ _ (by simp only [TxtCtx.depth]; omega)]
        simp only [hd]
        rfl

theorem same_run (ops : List TextOp) : ∀ {c : TxtCtx} {r r' : Spec.Reader}, SameAs c r → (∀ o, o ∈ ops → Spec.PlainOp o) → r.run ops = some r' →
    ∃ c', c.run ops = .ok c' ∧ SameAs c' r' := by
  induction ops with
  | nil => intro c r r' h _ hr; cases hr; exact ⟨c, rfl, h⟩
  | cons o ops ih =>
    intro c r r' h hp hr
    rw [Spec.Reader.run] at hr
    cases hs : r.step o with
    | none => rw [hs] at hr; cases hr
    | some r1 =>
      rw [hs] at hr
      obtain ⟨c1, h1, h2⟩ := same_step h o (hp o List.mem_cons_self) hs
      obtain ⟨c', h3, h4⟩ := ih h2 (fun o hm => hp o (List.mem_cons_of_mem _ hm)) hr
      exact ⟨c', by rw [TxtCtx.run, h1]; exact h3, h4⟩

/-- For every well formed sequence of operators — any nesting of `q`/`Q` and of forms, any number of text objects — that neither rotates nor skews the text matrix, uses
no rise or horizontal scaling, neither `'` nor `"`, no string without text and only forms with the identity matrix, the strings are gathered in order, each at the place the standard gives. -/
theorem C157_positions_partial (ops : List TextOp) (hp : ∀ o, o ∈ ops → Spec.PlainOp o) (l : List (Bytes × V2)) (h : Spec.positions ops = some l) :
    textPositions ops = .ok l := by
  rw [Spec.positions, Option.map_eq_some_iff] at h
  obtain ⟨r', hr, rfl⟩ := h
  obtain ⟨c', hc, hs⟩ := same_run ops (c := TxtCtx.start) (r := Spec.Reader.start) ⟨⟨by simp only [TxtCtx.start, TxtState.start, Spec.Reader.start, Option.getD_none]; decide +kernel, rfl, rfl, level_one, level_one⟩, .nil, rfl⟩ hp hr
  rw [textPositions, hc]
  exact congrArg Except.ok hs.out

example : Spec.positions [.q, .cm ⟨2, 0, 0, 2, 10, 0⟩, .form Mat.one, .bt, .font 10, .leading 12, .tm ⟨1, 0, 0, 1, 5, 700⟩, .tj (asciiB "ab") 11, .tJ [.num 100, .str (asciiB "c") 6], .nextLine,
    .tj (asciiB "d") 6, .et, .q, .endForm, .Q, .bt, .tj (asciiB "e") 6, .et] =
    some [(asciiB "ab", ⟨20, 1400⟩), (asciiB "c", ⟨40, 1400⟩), (asciiB "d", ⟨20, 1376⟩), (asciiB "e", ⟨0, 0⟩)] := by decide +kernel

/-- `'` and `"` show the string before they move to the next line. -/
theorem C157_quote_false (m : Mat) (l : Rat) (s : Bytes) (w : Rat) (hs : s ≠ []) (hm : m.d ≠ 0) (hl : l ≠ 0) (o : TextOp) (ho : o = .quote s w ∨ o = .dquote s w) :
    textPositions [.bt, .tm m, .leading l, o] = .ok [(s, ⟨m.e, m.f⟩)] ∧
      Spec.positions [.bt, .tm m, .leading l, o] = some [(s, ⟨m.e - l * m.c, m.f - l * m.d⟩)] ∧ m.f ≠ m.f - l * m.d := by
  refine ⟨?_, ?_, ?_⟩
  · rcases ho with rfl | rfl <;>
    · simp [textPositions, TxtCtx.run, TxtCtx.step, Except.bind, Except.map, TxtCtx.push, if_neg hs, TxtCtx.star, TxtCtx.start, TxtState.start, TxtState.compute, Mat.mul, Mat.one]
      constructor <;> grind
  · rcases ho with rfl | rfl <;>
    · simp [Spec.positions, Spec.Reader.run, Spec.Reader.step, Spec.Reader.start, Spec.Reader.show, if_neg hs, Spec.shift, Spec.Graphics.place, Mat.mul, Mat.one, Mat.translation, V2.mul]
      constructor <;> grind
  · intro h
    have : l * m.d = 0 := by grind
    rcases Rat.mul_eq_zero.1 this with h | h <;> contradiction

/-- On rotated or skewed text `T*` moves straight down the page instead of along the rotated line. -/
theorem C157_rotated_line_false (m : Mat) (l : Rat) (s : Bytes) (w : Rat) (hs : s ≠ []) (hm : m.c ≠ 0) (hl : l ≠ 0) :
    textPositions [.bt, .tm m, .leading l, .nextLine, .tj s w] = .ok [(s, ⟨m.e, m.f - l * m.d⟩)] ∧
      Spec.positions [.bt, .tm m, .leading l, .nextLine, .tj s w] = some [(s, ⟨m.e - l * m.c, m.f - l * m.d⟩)] ∧ m.e ≠ m.e - l * m.c := by
  refine ⟨?_, ?_, ?_⟩
  · simp [textPositions, TxtCtx.run, TxtCtx.step, Except.bind, Except.map, TxtCtx.push, if_neg hs, TxtCtx.star, TxtCtx.start, TxtState.start, TxtState.compute, Mat.mul, Mat.one, Mat.applyTy]
    constructor <;> grind
  · simp [Spec.positions, Spec.Reader.run, Spec.Reader.step, Spec.Reader.start, Spec.Reader.show, if_neg hs, Spec.shift, Spec.Graphics.place, Mat.mul, Mat.one, Mat.translation, V2.mul]
    constructor <;> grind
  · intro h
    have : l * m.c = 0 := by grind
    rcases Rat.mul_eq_zero.1 this with h | h <;> contradiction

/-- On rotated text a string does not move the next one along its baseline: the vertical part is lost. -/
theorem C157_rotated_advance_false (m : Mat) (s s' : Bytes) (w w' : Rat) (hs : s ≠ []) (hs' : s' ≠ []) (hm : m.b ≠ 0) (hw : w ≠ 0) :
    textPositions [.bt, .tm m, .tj s w, .tj s' w'] = .ok [(s, ⟨m.e, m.f⟩), (s', ⟨w * m.a + m.e, m.f⟩)] ∧
      Spec.positions [.bt, .tm m, .tj s w, .tj s' w'] = some [(s, ⟨m.e, m.f⟩), (s', ⟨w * m.a + m.e, w * m.b + m.f⟩)] ∧ m.f ≠ w * m.b + m.f := by
  refine ⟨?_, ?_, ?_⟩
  · simp [textPositions, TxtCtx.run, TxtCtx.step, Except.bind, Except.map, TxtCtx.push, if_neg hs, if_neg hs', TxtCtx.start, TxtState.start, TxtState.compute, Mat.mul, Mat.one, Mat.applyTx]
    refine ⟨⟨?_, ?_⟩, ?_, ?_⟩ <;> grind
  · simp [Spec.positions, Spec.Reader.run, Spec.Reader.step, Spec.Reader.start, Spec.Reader.show, if_neg hs, if_neg hs', Spec.shift, Spec.Graphics.place, Mat.mul, Mat.one, Mat.translation, V2.mul]
    refine ⟨⟨?_, ?_⟩, ?_, ?_⟩ <;> grind
  · intro h
    have : w * m.b = 0 := by grind
    rcases Rat.mul_eq_zero.1 this with h | h <;> contradiction

/-- Text rise and horizontal scaling are ignored. -/
theorem C157_rise_false (s : Bytes) (w t : Rat) (hs : s ≠ []) (ht : t ≠ 0) :
    textPositions [.bt, .rise t, .tj s w] = .ok [(s, ⟨0, 0⟩)] ∧ Spec.positions [.bt, .rise t, .tj s w] = some [(s, ⟨0, t⟩)] ∧ (0 : Rat) ≠ t := by
  refine ⟨?_, ?_, fun h => ht h.symm⟩
  · simp [textPositions, TxtCtx.run, TxtCtx.step, Except.bind, Except.map, TxtCtx.push, if_neg hs, TxtCtx.start, TxtState.start, Mat.one]
  · simp [Spec.positions, Spec.Reader.run, Spec.Reader.step, Spec.Reader.start, Spec.Reader.show, if_neg hs, Spec.Graphics.place, Mat.one, V2.mul]
    constructor <;> grind

theorem C157_stretch_false (s s' : Bytes) (w w' z : Rat) (hs : s ≠ []) (hs' : s' ≠ []) (hw : w ≠ 0) (hz : z ≠ 100) :
    textPositions [.bt, .stretch z, .tj s w, .tj s' w'] = .ok [(s, ⟨0, 0⟩), (s', ⟨w, 0⟩)] ∧
      Spec.positions [.bt, .stretch z, .tj s w, .tj s' w'] = some [(s, ⟨0, 0⟩), (s', ⟨w * (z / 100), 0⟩)] ∧ w ≠ w * (z / 100) := by
  refine ⟨?_, ?_, ?_⟩
  · simp [textPositions, TxtCtx.run, TxtCtx.step, Except.bind, Except.map, TxtCtx.push, if_neg hs, if_neg hs', TxtCtx.start, TxtState.start, TxtState.compute, Mat.mul, Mat.one, Mat.applyTx]
    constructor <;> grind
  · simp [Spec.positions, Spec.Reader.run, Spec.Reader.step, Spec.Reader.start, Spec.Reader.show, if_neg hs, if_neg hs', Spec.shift, Spec.Graphics.place, Mat.mul, Mat.one, Mat.translation, V2.mul]
    refine ⟨⟨?_, ?_⟩, ?_, ?_⟩ <;> grind
  · intro h
    have : w * (1 - z / 100) = 0 := by grind
    rcases Rat.mul_eq_zero.1 this with h | h
    · contradiction
    · apply hz; grind

/-- The `/Matrix` of a form is not applied to its text. -/
theorem C157_form_false (m : Mat) (s : Bytes) (w : Rat) (hs : s ≠ []) (hm : m.e ≠ 0 ∨ m.f ≠ 0) :
    textPositions [.form m, .bt, .tj s w, .et, .endForm] = .ok [(s, ⟨0, 0⟩)] ∧
      Spec.positions [.form m, .bt, .tj s w, .et, .endForm] = some [(s, ⟨m.e, m.f⟩)] ∧ (⟨0, 0⟩ : V2) ≠ ⟨m.e, m.f⟩ := by
  refine ⟨?_, ?_, ?_⟩
  · simp [textPositions, TxtCtx.run, TxtCtx.step, Except.bind, Except.map, TxtCtx.push, if_neg hs, TxtCtx.start, TxtState.start, Mat.one, TxtCtx.depth, TxtCtx.pop, TxtCtx.drop]
  · simp [Spec.positions, Spec.Reader.run, Spec.Reader.step, Spec.Reader.start, Spec.Reader.show, if_neg hs, Spec.Graphics.place, Mat.one, V2.mul, Mat.mul]
    constructor <;> grind
  · intro h
    injection h with h1 h2
    rcases hm with h | h
    · exact h h1.symm
    · exact h h2.symm

/-- A string none of whose codes has a Unicode value takes no room: what follows it is placed on top of it. -/
theorem C157_unmapped_false (s : Bytes) (w w' : Rat) (hs : s ≠ []) (hw : w ≠ 0) :
    textPositions [.bt, .tj [] w, .tj s w'] = .ok [(s, ⟨0, 0⟩)] ∧ Spec.positions [.bt, .tj [] w, .tj s w'] = some [(s, ⟨w, 0⟩)] ∧ (0 : Rat) ≠ w := by
  refine ⟨?_, ?_, fun h => hw h.symm⟩
  · simp [textPositions, TxtCtx.run, TxtCtx.step, Except.bind, Except.map, TxtCtx.push, if_neg hs, TxtCtx.start, TxtState.start, Mat.one]
  · simp [Spec.positions, Spec.Reader.run, Spec.Reader.step, Spec.Reader.start, Spec.Reader.show, if_neg hs, Spec.shift, Spec.Graphics.place, Mat.mul, Mat.one, Mat.translation, V2.mul]
    constructor <;> grind

/-- Any contents, after any operators, that restore a state once more than they saved one lose all the text: the extraction throws. -/
theorem C157_restore_false (ops rest : List TextOp) (c : TxtCtx) (h : TxtCtx.start.run ops = .ok c) (hs : c.saved = []) :
    textPositions (ops ++ .Q :: rest) = .error .exn := by
  have ha : ∀ (a : List TextOp) (c0 : TxtCtx), c0.run a = .ok c → c0.run (a ++ .Q :: rest) = .error .exn := by
    intro a
    induction a with
    | nil => intro c0 h; cases h; simp [TxtCtx.run, TxtCtx.step, TxtCtx.pop, TxtCtx.depth, hs]; rfl
    | cons o a ih =>
      intro c0 h
      rw [TxtCtx.run] at h
      rw [List.cons_append, TxtCtx.run]
      cases hc : c0.step o with
      | error e => rw [hc] at h; cases h
      | ok c1 => rw [hc] at h; exact ih c1 h
  rw [textPositions, ha ops _ h]; rfl

example : TxtCtx.start.run [.q, .Q, .bt, .tj (asciiB "a") 5, .et] = .ok ⟨TxtState.start, [], [], [(asciiB "a", ⟨0, 0⟩)]⟩ := by decide +kernel

/-- The texts a sequence of operators shows, in order. -/
def Spec.texts (ops : List TextOp) : List Bytes :=
  (ops.flatMap fun
    | .tj s _ => [s]
    | .quote s _ => [s]
    | .dquote s _ => [s]
    | .tJ is => is.filterMap fun | .str s _ => some s | .num _ => none
    | _ => []).filter (· ≠ [])

theorem push_texts (c : TxtCtx) (s : Bytes) (w : Rat) : (c.push s w).out.map Prod.fst = c.out.map Prod.fst ++ [s].filter (· ≠ []) := by
  by_cases h : s = [] <;> simp [TxtCtx.push, h]

theorem items_texts (is : List TextItem) : ∀ c : TxtCtx, (is.foldl TxtCtx.item c).out.map Prod.fst =
    c.out.map Prod.fst ++ (is.filterMap fun | TextItem.str s _ => some s | TextItem.num _ => none).filter (· ≠ []) := by
  induction is with
  | nil => intro c; simp
  | cons i is ih =>
    intro c
    rw [List.foldl_cons, ih]
    cases i with
    | str s w => simp only [TxtCtx.item, push_texts, List.filterMap_cons, List.append_assoc, ← List.filter_append, List.singleton_append]
    | num n => simp only [TxtCtx.item, List.filterMap_cons]; rfl

theorem pop_out {c c' : TxtCtx} {n : Nat} (h : c.pop n = .ok c') : c'.out = c.out := by
  unfold TxtCtx.pop at h
  split at h
  · cases h
  · cases h; rfl

theorem step_texts {c c' : TxtCtx} (o : TextOp) (h : c.step o = .ok c') : c'.out.map Prod.fst = c.out.map Prod.fst ++ Spec.texts [o] := by
  cases o
  case tj s w => cases h; rw [push_texts]; simp [Spec.texts]
  case quote s w => cases h; exact (push_texts c s w).trans (by simp [Spec.texts])
  case dquote s w => cases h; exact (push_texts c s w).trans (by simp [Spec.texts])
  case tJ is => cases h; rw [items_texts]; simp [Spec.texts]
  case Q => rw [pop_out h]; simp [Spec.texts]
  case endForm =>
    simp only [TxtCtx.step] at h
    split at h
    · cases h
    · cases hp : c.pop (c.depth - _) with
      | error e => rw [hp] at h; cases h
      | ok c1 => rw [hp] at h; cases h; rw [show c1.out = c.out from pop_out hp]; simp [Spec.texts]
  all_goals cases h; simp [Spec.texts, TxtCtx.move, TxtCtx.star]

/-- For every sequence of operators whatsoever that the extraction gets through, the strings gathered are all the texts shown, each once and in order. -/
theorem C157_order (ops : List TextOp) (l : List (Bytes × V2)) (h : textPositions ops = .ok l) : l.map Prod.fst = Spec.texts ops := by
  have key : ∀ (ops : List TextOp) (c c' : TxtCtx), c.run ops = .ok c' → c'.out.map Prod.fst = c.out.map Prod.fst ++ Spec.texts ops := by
    intro ops
    induction ops with
    | nil => intro c c' h; cases h; simp [Spec.texts]
    | cons o ops ih =>
      intro c c' h
      rw [TxtCtx.run] at h
      cases hc : c.step o with
      | error e => rw [hc] at h; cases h
      | ok c1 =>
        rw [hc] at h
        rw [ih c1 c' h, step_texts o hc, List.append_assoc]
        simp only [Spec.texts, List.flatMap_cons, List.flatMap_nil, List.append_nil, List.filter_append]
  rw [textPositions] at h
  cases hr : TxtCtx.start.run ops with
  | error e => rw [hr] at h; cases h
  | ok c => rw [hr] at h; cases h; simpa [TxtCtx.start] using key ops _ _ hr

example : textPositions [.bt, .quote (asciiB "a") 5, .tJ [.str (asciiB "b") 5, .num 3, .str [] 4, .str (asciiB "c") 5], .et] =
    .ok [(asciiB "a", ⟨0, 0⟩), (asciiB "b", ⟨0, 0⟩), (asciiB "c", ⟨5003 / 1000, 0⟩)] := by decide +kernel

end Pdfmm
