import Verif.Base.Basic
import Verif.Base.Chars
import Verif.Util.Geometry
import Verif.Contents.Colors
import Verif.Text.Utf

set_option autoImplicit false

/-! # The painter and the state it draws with

`PdfPainter` (`src/pdfmm/base/PdfPainter.cpp`): the graphics and text state it remembers, the operators it writes, text objects, and the calls it refuses. Numbers are exact instead of doubles
and the operators written are kept as operators, not as text: the text of a number is the matter of C10. Strings given to `Tj` are the bytes between `<` and `>` before hexadecimal coding. Fonts
are numbers. What a painter writes is shown from the initial graphics state: C143 says when. -/

namespace Pdfmm

/-- `PdfLineCapStyle`, `src/pdfmm/base/PdfDeclarations.h:383-388`. -/
inductive CapStyle | butt | round | square deriving DecidableEq
/-- The value of the enumerator, `src/pdfmm/base/PdfDeclarations.h:383-388`. -/
def CapStyle.code : CapStyle → Nat | .butt => 0 | .round => 1 | .square => 2

/-- `PdfLineJoinStyle`, `src/pdfmm/base/PdfDeclarations.h:393-398`. -/
inductive JoinStyle | miter | round | bevel deriving DecidableEq
/-- The value of the enumerator, `src/pdfmm/base/PdfDeclarations.h:393-398`. -/
def JoinStyle.code : JoinStyle → Nat | .miter => 0 | .round => 1 | .bevel => 2

/-- `PdfTextRenderingMode`, `src/pdfmm/base/PdfDeclarations.h:341-352`. -/
inductive TextMode | unknown | fill | stroke | fillStroke | invisible | fillClip | strokeClip | fillStrokeClip | clip deriving DecidableEq
/-- The value of the enumerator, `src/pdfmm/base/PdfDeclarations.h:341-352`. -/
def TextMode.code : TextMode → Nat
  | .unknown => 0 | .fill => 1 | .stroke => 2 | .fillStroke => 3 | .invisible => 4 | .fillClip => 5 | .strokeClip => 6 | .fillStrokeClip => 7 | .clip => 8

/-- `PdfGraphicsState` with its initial values, `src/pdfmm/base/PdfGraphicsState.h:16-29` and `PdfGraphicsState.cpp:12-18`, `src/pdfmm/base/PdfMath.cpp:23-24`, `src/pdfmm/base/PdfColor.cpp:303-311`. -/
structure GSet where
  ctm : Mat := Mat.one
  width : Rat := 0
  miter : Rat := 10
  cap : CapStyle := .square
  join : JoinStyle := .miter
  intent : Bytes := []
  fill : Color := .base (.gray 0)
  stroke : Color := .base (.gray 0)

/-- `PdfTextState` with its initial values, `src/pdfmm/base/PdfTextState.h:17-28` and `PdfTextState.cpp:12-18`. -/
structure TSet where
  font : Option Nat := none
  size : Rat := -1
  scale : Rat := 1
  charSp : Rat := 0
  wordSp : Rat := 0
  mode : TextMode := .fill

/-- The operators for colours: `g`, `rg`, `k` and `cs … scn` with the name of the colour space. -/
inductive ColorOp
  | gray (g : Rat)
  | rgb (r g b : Rat)
  | cmyk (c m y k : Rat)
  | space (name : Bytes) (comps : List Rat)
  deriving DecidableEq

/-- Operators that build a path. -/
inductive PathOp
  | move (x y : Rat)
  | line (x y : Rat)
  | curve (x1 y1 x2 y2 x3 y3 : Rat)
  | rect (x y w h : Rat)
  | close
  deriving DecidableEq

/-- Operators that use the path. -/
inductive PaintOp
  | stroke | fill | fillEO | both | bothEO | clip | clipEO | none
  deriving DecidableEq

/-- The operators a painter writes; `lt` is a lone `<` and no operator. -/
inductive PntOp
  | q | Q | cm (m : Mat) | w (x : Rat) | miter (x : Rat) | cap (n : Nat) | join (n : Nat) | ri (s : Bytes) | fill (c : ColorOp) | stroke (c : ColorOp)
  | BT | ET | Td (x y : Rat) | Tj (s : Bytes) | Tf (f : Nat) (size : Rat) | Tz (x : Rat) | Tc (x : Rat) | Tw (x : Rat) | Tr (n : Nat)
  | path (p : PathOp) | paint (k : PaintOp) | lt
  deriving DecidableEq

/-- The members of `PdfPainter` used here, `src/pdfmm/base/PdfPainter.h:746-775`: whether `m_stream` is set, the text of `m_tmpStream` and, in `done`, what was written to canvases before. -/
structure Pntr where
  canvas : Option Nat := none
  opened : Bool := false
  gs : GSet := {}
  ts : TSet := {}
  tab : Nat := 4
  textOpen : Bool := false
  out : List PntOp := []
  done : List (Nat × List PntOp) := []

/-- The font's part of the work: the encoding of a text, `src/pdfmm/base/PdfFont.cpp:162`, and its measures, `:283-289`, `:617-635`. They are any functions here. -/
structure PEnv where
  encode : Nat → Bytes → Res Bytes
  len : Nat → Bytes → TSet → Rat
  spacing : Nat → TSet → Rat
  ascent : Nat → TSet → Rat
  descent : Nat → TSet → Rat

/-- What a call adds to `m_tmpStream`, for instance at `src/pdfmm/base/PdfPainter.cpp:1169`. -/
def Pntr.put (p : Pntr) (l : List PntOp) : Pntr := { p with out := p.out ++ l }

/-- `checkStream`, `src/pdfmm/base/PdfPainter.cpp:1518-1525`, before the rest of a call. Errors of `GetStreamForAppending` are left out. -/
def Pntr.checked (p : Pntr) (k : Pntr → Pntr × Res Unit) : Pntr × Res Unit :=
  if p.opened then k p
  else match p.canvas with
    | none => (p, raise .InternalLogic)
    | some _ => k { p with opened := true }

/-- `checkStream` and then operators. -/
def Pntr.write (p : Pntr) (l : List PntOp) : Pntr × Res Unit := p.checked fun p => (p.put l, .ok ())

/-- `finishDrawing`, `src/pdfmm/base/PdfPainter.cpp:118-171`; the operators around the contents are those of C142. -/
def Pntr.flush (p : Pntr) : Pntr :=
  { p with out := [], done := if p.opened then p.done ++ [(p.canvas.getD 0, p.out)] else p.done }

/-- `SetCanvas`, `src/pdfmm/base/PdfPainter.cpp:88-98`. -/
def Pntr.setCanvas (p : Pntr) (c : Nat) : Pntr := if p.canvas = some c then p else { p.flush with canvas := some c, opened := false }

/-- `FinishDrawing`, `src/pdfmm/base/PdfPainter.cpp:100-116`. -/
def Pntr.finish (p : Pntr) : Pntr := { p.flush with canvas := none, opened := false }

/-- What the setters of `PdfGraphicsStateWrapper` are given, `src/pdfmm/base/PdfPainter.h:53-60`. -/
inductive GArg
  | ctm (m : Mat) | width (x : Rat) | miter (x : Rat) | cap (c : CapStyle) | join (j : JoinStyle) | intent (s : Bytes) | fill (c : Color) | stroke (c : Color)

/-- The operators of `SetFillColor` and `SetStrokeColor`, `src/pdfmm/base/PdfPainter.cpp:1311-1413`; the resource for the colour space is the matter of C162. -/
def Color.op : Color → Res ColorOp
  | .base (.gray g) => .ok (.gray g)
  | .base (.rgb r g b) => .ok (.rgb r g b)
  | .base (.cmyk c m y k) => .ok (.cmyk c m y k)
  | .base (.lab l a b) => .ok (.space (asciiB "ColorSpaceCieLab") [l, a, b])
  | .sep name d _ => .ok (.space (asciiB "ColorSpace" ++ name) [d])
  | .transparent => raise .CannotConvertColor

/-- A colour after `checkStream`, `src/pdfmm/base/PdfPainter.cpp:1311-1413`. -/
def Pntr.writeColor (p : Pntr) (c : Color) (k : ColorOp → PntOp) : Pntr × Res Unit :=
  p.checked fun p => match c.op with
    | .ok o => (p.put [k o], .ok ())
    | .error e => (p, .error e)

/-- The setters of `PdfGraphicsStateWrapper`, `src/pdfmm/base/PdfPainter.cpp:1567-1637`, with `SetTransformationMatrix` and the others, `:1264-1413`. -/
def Pntr.set (p : Pntr) : GArg → Pntr × Res Unit
  | .ctm m => if p.gs.ctm = m then (p, .ok ()) else ({ p with gs := { p.gs with ctm := m } }).write [.cm m]
  | .width x => if p.gs.width = x then (p, .ok ()) else ({ p with gs := { p.gs with width := x } }).write [.w x]
  | .miter x => if p.gs.miter = x then (p, .ok ()) else ({ p with gs := { p.gs with miter := x } }).write [.miter x]
  | .cap c => if p.gs.cap = c then (p, .ok ()) else ({ p with gs := { p.gs with cap := c } }).write [.cap c.code]
  | .join j => if p.gs.join = j then (p, .ok ()) else ({ p with gs := { p.gs with join := j } }).write [.join j.code]
  | .intent s => if p.gs.intent = s then (p, .ok ()) else ({ p with gs := { p.gs with intent := s } }).write [.ri s]
  | .fill c => if p.gs.fill = c then (p, .ok ()) else ({ p with gs := { p.gs with fill := c } }).writeColor c .fill
  | .stroke c => if p.gs.stroke = c then (p, .ok ()) else ({ p with gs := { p.gs with stroke := c } }).writeColor c .stroke

/-- What the setters of `PdfTextStateWrapper` are given, `src/pdfmm/base/PdfPainter.h:91-109`. -/
inductive TArg
  | font (f : Nat) (size : Rat) | scale (x : Rat) | charSp (x : Rat) | wordSp (x : Rat) | mode (m : TextMode)

/-- The operators are only written in an open text, `src/pdfmm/base/PdfPainter.cpp:1451-1497`. -/
def Pntr.writeOpen (p : Pntr) (l : List PntOp) : Pntr × Res Unit := if p.textOpen then p.write l else (p, .ok ())

/-- The setters of `PdfTextStateWrapper`, `src/pdfmm/base/PdfPainter.cpp:1642-1686`, with `SetFont` and the others, `:1433-1497`. Adding the font to the resources is left out, except that there
has to be a canvas, `:1215-1221`. -/
def Pntr.setText (p : Pntr) : TArg → Pntr × Res Unit
  | .font f s =>
    if p.ts.font = some f ∧ p.ts.size = s then (p, .ok ())
    else if p.canvas.isNone then ({ p with ts := { p.ts with font := some f, size := s } }, raise .InvalidHandle)
    else ({ p with ts := { p.ts with font := some f, size := s } }).writeOpen [.Tf f s]
  | .scale x => if p.ts.scale = x then (p, .ok ()) else ({ p with ts := { p.ts with scale := x } }).writeOpen [.Tz (x * 100)]
  | .charSp x => if p.ts.charSp = x then (p, .ok ()) else ({ p with ts := { p.ts with charSp := x } }).writeOpen [.Tc x]
  | .wordSp x => if p.ts.wordSp = x then (p, .ok ()) else ({ p with ts := { p.ts with wordSp := x } }).writeOpen [.Tw x]
  | .mode m => if p.ts.mode = m then (p, .ok ()) else ({ p with ts := { p.ts with mode := m } }).writeOpen [.Tr m.code]

/-- `writeTextState`, `src/pdfmm/base/PdfPainter.cpp:1415-1431`. -/
def TSet.ops (t : TSet) : List PntOp :=
  (match t.font with | some f => [.Tf f t.size] | none => []) ++ (if t.scale ≠ 1 then [.Tz (t.scale * 100)] else []) ++ (if t.charSp ≠ 0 then [.Tc t.charSp] else [])
    ++ (if t.wordSp ≠ 0 then [.Tw t.wordSp] else []) ++ (if t.mode ≠ .fill then [.Tr t.mode.code] else [])

/-- `expandTabs`, `src/pdfmm/base/PdfPainter.cpp:1499-1516` and `:1545-1562`: a text that is not UTF-8 makes `utf8::next` throw; the tabulator is appended after the spaces. The memory reserved beforehand (`:1551`) is left out. -/
def expandTabs (width : Nat) (s : Bytes) : Res Bytes :=
  match utf8Decode s with
  | none => .error .exn
  | some cps => if 9 ∈ cps then .ok (utf8Encode (cps.flatMap fun c => (if c = 9 then List.replicate width 32 else []) ++ [c])) else .ok s

/-- `WriteStringToStream`, `src/pdfmm/base/PdfFont.cpp:159-166`, and `Tj`: the bracket is written before the text is encoded. -/
def Pntr.putString (env : PEnv) (p : Pntr) (f : Nat) (s : Bytes) : Pntr × Res Unit :=
  match env.encode f s with
  | .error e => (p.put [.lt], .error e)
  | .ok b => (p.put [.Tj b], .ok ())

/-- `drawText` without underlines, `src/pdfmm/base/PdfPainter.cpp:452-488`. -/
def Pntr.drawString (env : PEnv) (p : Pntr) (f : Nat) (s : Bytes) (x y : Rat) : Pntr × Res Unit :=
  match expandTabs p.tab s with
  | .error e => (p.put [.Td x y], .error e)
  | .ok t => (p.put [.Td x y]).putString env f t

/-- The end of a text object that was written without an error, `src/pdfmm/base/PdfPainter.cpp:449`, `:550`, `:565`. -/
def endObject (r : Pntr × Res Unit) : Pntr × Res Unit :=
  match r.2 with
  | .ok _ => (r.1.put [.ET], .ok ())
  | .error e => (r.1, .error e)

/-- `checkTextModeClosed` and `checkFont`, `src/pdfmm/base/PdfPainter.cpp:1527-1543`, then the start of a text object with its state, `:446-447`; `DrawMultiLineText` checks in another order, both times
before anything is written. -/
def Pntr.inObject (p : Pntr) (k : Pntr → Nat → Pntr × Res Unit) : Pntr × Res Unit :=
  p.checked fun p =>
    if p.textOpen then (p, raise .InternalLogic)
    else match p.ts.font with
      | none => (p, raise .InvalidHandle)
      | some f => endObject (k (p.put (.BT :: p.ts.ops)) f)

/-- `DrawText`, `src/pdfmm/base/PdfPainter.cpp:440-450`. -/
def Pntr.drawText (env : PEnv) (p : Pntr) (s : Bytes) (x y : Rat) : Pntr × Res Unit := p.inObject fun p f => p.drawString env f s x y

/-- `PdfHorizontalAlignment` and `PdfVerticalAlignment`, used at `src/pdfmm/base/PdfPainter.cpp:581-592` and `:778-789`. -/
inductive HAlign | left | center | right deriving DecidableEq
inductive VAlign | top | center | bottom deriving DecidableEq

/-- Where a text starts, `src/pdfmm/base/PdfPainter.cpp:778-789`. -/
def alignX (env : PEnv) (t : TSet) (f : Nat) (s : Bytes) (x width : Rat) : HAlign → Rat
  | .left => x
  | .center => x + (width - env.len f s t) / 2
  | .right => x + (width - env.len f s t)

/-- `drawTextAligned`, `src/pdfmm/base/PdfPainter.cpp:776-792`. -/
def Pntr.drawAligned (env : PEnv) (p : Pntr) (f : Nat) (s : Bytes) (x y width : Rat) (h : HAlign) : Pntr × Res Unit := p.drawString env f s (alignX env p.ts f s x width h) y

/-- `DrawTextAligned`, `src/pdfmm/base/PdfPainter.cpp:553-566`. -/
def Pntr.drawTextAligned (env : PEnv) (p : Pntr) (s : Bytes) (x y width : Rat) (h : HAlign) : Pntr × Res Unit :=
  if width ≤ 0 then (p, .ok ()) else p.inObject fun p f => p.drawAligned env f s x y width h

/-- The height of the only line, `src/pdfmm/base/PdfPainter.cpp:579-594`: `getMultiLineTextAsLines` gives one line for every text, `:610-614`. -/
def multiY (env : PEnv) (t : TSet) (f : Nat) (y height : Rat) (v : VAlign) : Rat :=
  (match v with
    | .top => y + height
    | .bottom => y + env.spacing f t
    | .center => y + (height - (height - env.spacing f t) / 2))
  - (env.ascent f t + (env.spacing f t - env.ascent f t + env.descent f t) / 2)

/-- `drawMultiLineText`, `src/pdfmm/base/PdfPainter.cpp:568-606`, with `SetClipRect`, `:342-350`. -/
def Pntr.drawMulti (env : PEnv) (p : Pntr) (f : Nat) (s : Bytes) (x y width height : Rat) (h : HAlign) (v : VAlign) (clip : Bool) : Pntr × Res Unit :=
  let p := p.put (.q :: if clip then [.path (.rect x y width height), .paint .clip] else [])
  match expandTabs p.tab s with
  | .error e => (p, .error e)
  | .ok [] => (p.put [.Q], .ok ())
  | .ok (b :: t) =>
    match p.drawAligned env f (b :: t) x (multiY env p.ts f y height v) width h with
    | (p, .error e) => (p, .error e)
    | (p, .ok _) => (p.put [.Q], .ok ())

/-- `DrawMultiLineText`, `src/pdfmm/base/PdfPainter.cpp:537-551`: the checks come first. -/
def Pntr.drawMultiLine (env : PEnv) (p : Pntr) (s : Bytes) (x y width height : Rat) (h : HAlign) (v : VAlign) (clip : Bool) : Pntr × Res Unit :=
  p.checked fun p =>
    match p.ts.font with
    | none => (p, raise .InvalidHandle)
    | some _ =>
      if p.textOpen then (p, raise .InternalLogic)
      else if width ≤ 0 ∨ height ≤ 0 then (p, .ok ())
      else p.inObject fun p f => p.drawMulti env f s x y width height h v clip

/-- `BeginText`, `src/pdfmm/base/PdfPainter.cpp:490-498`. -/
def Pntr.beginText (p : Pntr) (x y : Rat) : Pntr × Res Unit :=
  p.checked fun p => if p.textOpen then (p, raise .InternalLogic) else ({ p.put [.BT, .Td x y] with textOpen := true }, .ok ())

/-- `MoveTextPos`, `src/pdfmm/base/PdfPainter.cpp:500-506`. -/
def Pntr.moveText (p : Pntr) (x y : Rat) : Pntr × Res Unit :=
  p.checked fun p => if p.textOpen then (p.put [.Td x y], .ok ()) else (p, raise .InternalLogic)

/-- `AddText`, `src/pdfmm/base/PdfPainter.cpp:508-519`. -/
def Pntr.addText (env : PEnv) (p : Pntr) (s : Bytes) : Pntr × Res Unit :=
  p.checked fun p => match p.ts.font with
    | none => (p, raise .InvalidHandle)
    | some f =>
      if p.textOpen then
        match expandTabs p.tab s with
        | .error e => (p, .error e)
        | .ok t => p.putString env f t
      else (p, raise .InternalLogic)

/-- `EndText`, `src/pdfmm/base/PdfPainter.cpp:521-528`. -/
def Pntr.endText (p : Pntr) : Pntr × Res Unit :=
  p.checked fun p => if p.textOpen then ({ p.put [.ET] with textOpen := false }, .ok ()) else (p, raise .InternalLogic)

/-- The calls of a program. Paths are built by `MoveTo`, `LineTo`, `CubicBezierTo`, `Rectangle` and `ClosePath`, `src/pdfmm/base/PdfPainter.cpp:817-849`, `:386-390`, and used by `Stroke`, `Fill`,
`FillAndStroke`, `Clip` and `EndPath`, `:1127-1164`; `Save` and `Restore` are at `:1166-1176` and `SetTabWidth` at `src/pdfmm/base/PdfPainter.h:637`. Calls that draw more are in `PainterPaths`. -/
inductive PCall
  | setCanvas (c : Nat) | finish | save | restore | set (a : GArg) | setText (a : TArg) | setTab (n : Nat)
  | drawText (s : Bytes) (x y : Rat) | aligned (s : Bytes) (x y width : Rat) (h : HAlign) | multi (s : Bytes) (x y width height : Rat) (h : HAlign) (v : VAlign) (clip : Bool)
  | beginText (x y : Rat) | moveText (x y : Rat) | addText (s : Bytes) | endText | path (o : PathOp) | paint (o : PaintOp)

/-- One call; the definitions above cite the code. -/
def Pntr.call (env : PEnv) (p : Pntr) : PCall → Pntr × Res Unit
  | .setCanvas c => (p.setCanvas c, .ok ())
  | .finish => (p.finish, .ok ())
  | .save => p.write [.q]
  | .restore => p.write [.Q]
  | .set a => p.set a
  | .setText a => p.setText a
  | .setTab n => ({ p with tab := n % 65536 }, .ok ())
  | .drawText s x y => p.drawText env s x y
  | .aligned s x y w h => p.drawTextAligned env s x y w h
  | .multi s x y w h a v c => p.drawMultiLine env s x y w h a v c
  | .beginText x y => p.beginText x y
  | .moveText x y => p.moveText x y
  | .addText s => p.addText env s
  | .endText => p.endText
  | .path o => p.write [.path o]
  | .paint o => p.write [.paint o]

/-- A program that makes calls one after the other, whatever they return: errors may be caught. -/
def Pntr.run (env : PEnv) (p : Pntr) : List PCall → Pntr
  | [] => p
  | c :: l => Pntr.run env (p.call env c).1 l

theorem Pntr.run_append (env : PEnv) (p : Pntr) (l m : List PCall) : p.run env (l ++ m) = (p.run env l).run env m := by
  induction l generalizing p with
  | nil => rfl
  | cons c l ih => exact ih _

/-! ## Specification: what a reader of the operators draws with (ISO 32000-1, 8.4, 8.6 and 9.3) -/

/-- The parameters of the graphics state with their initial values, ISO 32000-1, tables 52, 104 and 8.6.5. -/
structure Spec.GState where
  ctm : Mat := Mat.one
  width : Rat := 1
  miter : Rat := 10
  cap : Nat := 0
  join : Nat := 0
  intent : Bytes := asciiB "RelativeColorimetric"
  fill : ColorOp := .gray 0
  stroke : ColorOp := .gray 0
  font : Option (Nat × Rat) := none
  scale : Rat := 100
  charSp : Rat := 0
  wordSp : Rat := 0
  mode : Nat := 0

/-- The state and the stack of states after an operator, ISO 32000-1, tables 57, 74 and 105. A `Q` that has nothing to restore does nothing. -/
def Spec.GState.after (s : Spec.GState × List Spec.GState) : PntOp → Spec.GState × List Spec.GState
  | .q => (s.1, s.1 :: s.2)
  | .Q => match s.2 with | [] => s | t :: r => (t, r)
  | .cm m => ({ s.1 with ctm := Mat.mul m s.1.ctm }, s.2)
  | .w x => ({ s.1 with width := x }, s.2)
  | .miter x => ({ s.1 with miter := x }, s.2)
  | .cap n => ({ s.1 with cap := n }, s.2)
  | .join n => ({ s.1 with join := n }, s.2)
  | .ri i => ({ s.1 with intent := i }, s.2)
  | .fill c => ({ s.1 with fill := c }, s.2)
  | .stroke c => ({ s.1 with stroke := c }, s.2)
  | .Tf f x => ({ s.1 with font := some (f, x) }, s.2)
  | .Tz x => ({ s.1 with scale := x }, s.2)
  | .Tc x => ({ s.1 with charSp := x }, s.2)
  | .Tw x => ({ s.1 with wordSp := x }, s.2)
  | .Tr n => ({ s.1 with mode := n }, s.2)
  | _ => s

/-- The state and the stack after operators. -/
def Spec.GState.afterAll (s : Spec.GState × List Spec.GState) (l : List PntOp) : Spec.GState × List Spec.GState := l.foldl Spec.GState.after s

/-- The state the next thing is drawn with on the canvas a painter draws on. -/
def Spec.drawsWith (p : Pntr) : Spec.GState := (Spec.GState.afterAll ({}, []) p.out).1

/-- The texts a reader shows, each with the state it is shown with. -/
def Spec.paintedTexts : Spec.GState × List Spec.GState → List PntOp → List (Bytes × Spec.GState)
  | _, [] => []
  | s, .Tj b :: l => (b, s.1) :: Spec.paintedTexts s l
  | s, o :: l => Spec.paintedTexts (Spec.GState.after s o) l

/-- The parameters a painter can be asked for and given. -/
inductive Spec.Param | ctm | width | miter | cap | join | intent | fill | stroke deriving DecidableEq

/-- The colour a reader has to use for a colour of the library: the components in their colour space. -/
def Spec.colorOf : Color → Option ColorOp
  | .base (.gray g) => some (.gray g)
  | .base (.rgb r g b) => some (.rgb r g b)
  | .base (.cmyk c m y k) => some (.cmyk c m y k)
  | .base (.lab l a b) => some (.space (asciiB "ColorSpaceCieLab") [l, a, b])
  | .sep name d _ => some (.space (asciiB "ColorSpace" ++ name) [d])
  | .transparent => none

/-- The numbers of the styles, ISO 32000-1, tables 54 and 55. -/
def Spec.capNumber : CapStyle → Nat | .butt => 0 | .round => 1 | .square => 2
def Spec.joinNumber : JoinStyle → Nat | .miter => 0 | .round => 1 | .bevel => 2

/-- The getter for a parameter tells what is drawn with. -/
def Spec.Told (g : GSet) (s : Spec.GState) : Spec.Param → Prop
  | .ctm => s.ctm = g.ctm
  | .width => s.width = g.width
  | .miter => s.miter = g.miter
  | .cap => s.cap = Spec.capNumber g.cap
  | .join => s.join = Spec.joinNumber g.join
  | .intent => s.intent = g.intent
  | .fill => some s.fill = Spec.colorOf g.fill
  | .stroke => some s.stroke = Spec.colorOf g.stroke

/-- The parameter a setter is for, and what it asks for. -/
def Spec.param : GArg → Spec.Param
  | .ctm _ => .ctm | .width _ => .width | .miter _ => .miter | .cap _ => .cap | .join _ => .join | .intent _ => .intent | .fill _ => .fill | .stroke _ => .stroke

/-- The state a drawing has to be made with after a setter was called. -/
def Spec.Asked (s : Spec.GState) : GArg → Prop
  | .ctm m => s.ctm = m
  | .width x => s.width = x
  | .miter x => s.miter = x
  | .cap c => s.cap = Spec.capNumber c
  | .join j => s.join = Spec.joinNumber j
  | .intent i => s.intent = i
  | .fill c => some s.fill = Spec.colorOf c
  | .stroke c => some s.stroke = Spec.colorOf c

/-- Two states give a parameter the same value. -/
def Spec.SameAt (s t : Spec.GState) : Spec.Param → Prop
  | .ctm => s.ctm = t.ctm
  | .width => s.width = t.width
  | .miter => s.miter = t.miter
  | .cap => s.cap = t.cap
  | .join => s.join = t.join
  | .intent => s.intent = t.intent
  | .fill => s.fill = t.fill
  | .stroke => s.stroke = t.stroke

/-- The painter reports the value that is asked for already. -/
def Spec.Reported (g : GSet) : GArg → Prop
  | .ctm m => g.ctm = m
  | .width x => g.width = x
  | .miter x => g.miter = x
  | .cap c => g.cap = c
  | .join j => g.join = j
  | .intent i => g.intent = i
  | .fill c => g.fill = c
  | .stroke c => g.stroke = c

/-- Colours can be set unless they are transparent. -/
def Spec.Settable : GArg → Prop
  | .fill c => c ≠ .transparent
  | .stroke c => c ≠ .transparent
  | _ => True

/-! ## C168 -/

theorem afterAll_append (s : Spec.GState × List Spec.GState) (l m : List PntOp) : Spec.GState.afterAll s (l ++ m) = Spec.GState.afterAll (Spec.GState.afterAll s l) m := by
  simp [Spec.GState.afterAll, List.foldl_append]

theorem colorOf_op {c : Color} (h : c ≠ .transparent) : ∃ o, c.op = .ok o ∧ Spec.colorOf c = some o := by
  cases c with
  | base b => cases b <;> exact ⟨_, rfl, rfl⟩
  | sep n d a => exact ⟨_, rfl, rfl⟩
  | transparent => exact absurd rfl h

theorem cap_code (c : CapStyle) : c.code = Spec.capNumber c := by cases c <;> rfl
theorem join_code (j : JoinStyle) : j.code = Spec.joinNumber j := by cases j <;> rfl

/-- A canvas was set and not finished. -/
def Spec.HasCanvas (p : Pntr) : Prop := p.canvas ≠ none

theorem checked_canvas {p : Pntr} (h : Spec.HasCanvas p) (k : Pntr → Pntr × Res Unit) : p.checked k = k { p with opened := true } := by
  unfold Pntr.checked
  by_cases ho : p.opened
  · rw [if_pos ho, ← ho]
  · rw [if_neg ho]
    unfold Spec.HasCanvas at h
    cases hc : p.canvas with
    | none => exact absurd hc h
    | some c => simp

/-- The state after a setter was called that changes the value reported. -/
theorem set_changes {p : Pntr} (hc : Spec.HasCanvas p) {a : GArg} (hs : Spec.Settable a) (hr : ¬ Spec.Reported p.gs a) :
    ∃ o g, p.set a = ({ p with gs := g, opened := true, out := p.out ++ [o] }, .ok ()) ∧ Spec.Reported g a
      ∧ (∀ k, k ≠ Spec.param a → ∀ s, Spec.Told p.gs s k ↔ Spec.Told g s k)
      ∧ (∀ s : Spec.GState × List Spec.GState, (Spec.GState.after s o).2 = s.2 ∧ (∀ k, k ≠ Spec.param a → Spec.SameAt (Spec.GState.after s o).1 s.1 k)
        ∧ ((∀ m, a ≠ .ctm m) → Spec.Asked (Spec.GState.after s o).1 a) ∧ (∀ m, a = .ctm m → (Spec.GState.after s o).1.ctm = Mat.mul m s.1.ctm)) := by
  have hc' : ∀ g, Spec.HasCanvas { p with gs := g } := fun g => hc
  cases a with
  | ctm m =>
    refine ⟨.cm m, { p.gs with ctm := m }, ?_, rfl, ?_, ?_⟩
    · refine (if_neg hr).trans ?_
      rw [Pntr.write, checked_canvas (hc' _)]; rfl
    · intro k hk s; cases k <;> first | exact absurd rfl hk | exact Iff.rfl
    · intro s
      refine ⟨rfl, ?_, fun h => absurd rfl (h m), fun m' h => by cases h; rfl⟩
      intro k hk; cases k <;> first | exact absurd rfl hk | rfl
  | width x =>
    refine ⟨.w x, { p.gs with width := x }, ?_, rfl, ?_, ?_⟩
    · refine (if_neg hr).trans ?_
      rw [Pntr.write, checked_canvas (hc' _)]; rfl
    · intro k hk s; cases k <;> first | exact absurd rfl hk | exact Iff.rfl
    · intro s
      refine ⟨rfl, ?_, fun _ => rfl, fun m' h => by cases h⟩
      intro k hk; cases k <;> first | exact absurd rfl hk | rfl
  | miter x =>
    refine ⟨.miter x, { p.gs with miter := x }, ?_, rfl, ?_, ?_⟩
    · refine (if_neg hr).trans ?_
      rw [Pntr.write, checked_canvas (hc' _)]; rfl
    · intro k hk s; cases k <;> first | exact absurd rfl hk | exact Iff.rfl
    · intro s
      refine ⟨rfl, ?_, fun _ => rfl, fun m' h => by cases h⟩
      intro k hk; cases k <;> first | exact absurd rfl hk | rfl
  | cap x =>
    refine ⟨.cap x.code, { p.gs with cap := x }, ?_, rfl, ?_, ?_⟩
    · refine (if_neg hr).trans ?_
      rw [Pntr.write, checked_canvas (hc' _)]; rfl
    · intro k hk s; cases k <;> first | exact absurd rfl hk | exact Iff.rfl
    · intro s
      refine ⟨rfl, ?_, fun _ => cap_code x, fun m' h => by cases h⟩
      intro k hk; cases k <;> first | exact absurd rfl hk | rfl
  | join x =>
    refine ⟨.join x.code, { p.gs with join := x }, ?_, rfl, ?_, ?_⟩
    · refine (if_neg hr).trans ?_
      rw [Pntr.write, checked_canvas (hc' _)]; rfl
    · intro k hk s; cases k <;> first | exact absurd rfl hk | exact Iff.rfl
    · intro s
      refine ⟨rfl, ?_, fun _ => join_code x, fun m' h => by cases h⟩
      intro k hk; cases k <;> first | exact absurd rfl hk | rfl
  | intent x =>
    refine ⟨.ri x, { p.gs with intent := x }, ?_, rfl, ?_, ?_⟩
    · refine (if_neg hr).trans ?_
      rw [Pntr.write, checked_canvas (hc' _)]; rfl
    · intro k hk s; cases k <;> first | exact absurd rfl hk | exact Iff.rfl
    · intro s
      refine ⟨rfl, ?_, fun _ => rfl, fun m' h => by cases h⟩
      intro k hk; cases k <;> first | exact absurd rfl hk | rfl
  | fill c =>
    obtain ⟨o, ho, hco⟩ := colorOf_op hs
    refine ⟨.fill o, { p.gs with fill := c }, ?_, rfl, ?_, ?_⟩
    · refine (if_neg hr).trans ?_
      rw [Pntr.writeColor, checked_canvas (hc' _), ho]; rfl
    · intro k hk s; cases k <;> first | exact absurd rfl hk | exact Iff.rfl
    · intro s
      refine ⟨rfl, ?_, fun _ => hco.symm, fun m' h => by cases h⟩
      intro k hk; cases k <;> first | exact absurd rfl hk | rfl
  | stroke c =>
    obtain ⟨o, ho, hco⟩ := colorOf_op hs
    refine ⟨.stroke o, { p.gs with stroke := c }, ?_, rfl, ?_, ?_⟩
    · refine (if_neg hr).trans ?_
      rw [Pntr.writeColor, checked_canvas (hc' _), ho]; rfl
    · intro k hk s; cases k <;> first | exact absurd rfl hk | exact Iff.rfl
    · intro s
      refine ⟨rfl, ?_, fun _ => hco.symm, fun m' h => by cases h⟩
      intro k hk; cases k <;> first | exact absurd rfl hk | rfl

theorem set_reported (p : Pntr) (a : GArg) (hr : Spec.Reported p.gs a) : p.set a = (p, .ok ()) := by
  cases a <;> exact if_pos hr

/-- A setter that changes the value the painter reports makes the next drawing use the new value, and changes nothing else, in every state a painter can be in. The matrix is left out. -/
theorem C168_set_partial (p : Pntr) (hc : Spec.HasCanvas p) (a : GArg) (hs : Spec.Settable a) (ha : ∀ m, a ≠ .ctm m) (hr : ¬ Spec.Reported p.gs a) :
    (p.set a).2 = .ok () ∧ Spec.Asked (Spec.drawsWith (p.set a).1) a ∧ Spec.Reported (p.set a).1.gs a
      ∧ ∀ k, k ≠ Spec.param a → Spec.SameAt (Spec.drawsWith (p.set a).1) (Spec.drawsWith p) k := by
  obtain ⟨o, g, he, hg, -, hstep⟩ := set_changes hc hs hr
  rw [he]
  obtain ⟨-, h2, h3, -⟩ := hstep (Spec.GState.afterAll ({}, []) p.out)
  refine ⟨rfl, ?_, hg, ?_⟩
  · show Spec.Asked (Spec.GState.afterAll ({}, []) (p.out ++ [o])).1 a
    rw [afterAll_append]; exact h3 ha
  · intro k hk
    show Spec.SameAt (Spec.GState.afterAll ({}, []) (p.out ++ [o])).1 _ k
    rw [afterAll_append]; exact h2 k hk

/-- A painter with a canvas. -/
def exPainter : Pntr := ({} : Pntr).setCanvas 3

example : Spec.HasCanvas exPainter ∧ ¬ Spec.Reported exPainter.gs (.width 5) ∧ Spec.Settable (.width 5) ∧ (∀ m, GArg.width 5 ≠ .ctm m) ∧ (exPainter.set (.width 5)).1.out = [.w 5] := by
  refine ⟨by simp [Spec.HasCanvas, exPainter, Pntr.setCanvas], ?_, trivial, ?_, by decide +kernel⟩
  · show ¬ ((0 : Rat) = 5); decide +kernel
  · intro m h; cases h

/-! Programs with `Save` and `Restore`. -/

/-- An operator that is not `q`, `Q` or one of the graphics state. -/
def PntOp.plain : PntOp → Bool
  | .q | .Q | .cm _ | .w _ | .miter _ | .cap _ | .join _ | .ri _ | .fill _ | .stroke _ => false
  | _ => true

theorem Spec.SameAt.rfl' (s : Spec.GState) (k : Spec.Param) : Spec.SameAt s s k := by cases k <;> rfl
theorem Spec.SameAt.trans' {s t u : Spec.GState} {k : Spec.Param} (h : Spec.SameAt s t k) (g : Spec.SameAt t u k) : Spec.SameAt s u k := by
  cases k <;> exact Eq.trans h g
theorem Spec.SameAt.symm' {s t : Spec.GState} {k : Spec.Param} (h : Spec.SameAt s t k) : Spec.SameAt t s k := by
  cases k <;> exact Eq.symm h
theorem Spec.Told.of_same {g : GSet} {s t : Spec.GState} {k : Spec.Param} (h : Spec.SameAt s t k) (ht : Spec.Told g t k) : Spec.Told g s k := by
  cases k
  all_goals first
    | exact Eq.trans h ht
    | exact (congrArg some h).trans ht

theorem plain_after {o : PntOp} (h : o.plain = true) (s : Spec.GState × List Spec.GState) (k : Spec.Param) : Spec.SameAt (Spec.GState.after s o).1 s.1 k ∧ (Spec.GState.after s o).2 = s.2 := by
  cases o <;> first | exact Bool.noConfusion h | (cases k <;> exact ⟨rfl, rfl⟩)

/-- Operators that leave a parameter as it is, and the states below on the stack; states put on it have the same value. -/
def Quiet (k : Spec.Param) (l : List PntOp) : Prop :=
  ∀ s : Spec.GState × List Spec.GState, Spec.SameAt (Spec.GState.afterAll s l).1 s.1 k ∧ ∃ junk, (Spec.GState.afterAll s l).2 = junk ++ s.2 ∧ ∀ t ∈ junk, Spec.SameAt t s.1 k

theorem Quiet.plain {k : Spec.Param} : ∀ {l : List PntOp}, (∀ o ∈ l, o.plain = true) → ∀ s : Spec.GState × List Spec.GState, Spec.SameAt (Spec.GState.afterAll s l).1 s.1 k ∧ (Spec.GState.afterAll s l).2 = s.2
  | [], _, s => ⟨Spec.SameAt.rfl' _ k, rfl⟩
  | o :: l, h, s => by
    obtain ⟨h1, h2⟩ := plain_after (h o (by simp)) s k
    obtain ⟨h3, h4⟩ := Quiet.plain (k := k) (l := l) (fun o ho => h o (by simp [ho])) (Spec.GState.after s o)
    exact ⟨h3.trans' h1, h4.trans h2⟩

theorem Quiet.of_plain {k : Spec.Param} {l : List PntOp} (h : ∀ o ∈ l, o.plain = true) : Quiet k l := fun s =>
  ⟨(Quiet.plain h s).1, [], (Quiet.plain (k := k) h s).2, by simp⟩

theorem Quiet.append {k : Spec.Param} {l m : List PntOp} (hl : Quiet k l) (hm : Quiet k m) : Quiet k (l ++ m) := by
  intro s
  rw [afterAll_append]
  obtain ⟨h1, j1, e1, g1⟩ := hl s
  obtain ⟨h2, j2, e2, g2⟩ := hm (Spec.GState.afterAll s l)
  refine ⟨h2.trans' h1, j2 ++ j1, by rw [e2, e1, List.append_assoc], ?_⟩
  intro t ht
  rcases List.mem_append.1 ht with h | h
  · exact (g2 t h).trans' h1
  · exact g1 t h

theorem Quiet.q {k : Spec.Param} : Quiet k [.q] := fun s => ⟨Spec.SameAt.rfl' _ k, [s.1], rfl, by intro t ht; rw [List.mem_singleton.1 ht]; exact Spec.SameAt.rfl' _ k⟩

theorem Quiet.saved {k : Spec.Param} {l : List PntOp} (h : ∀ o ∈ l, o.plain = true) : Quiet k (.q :: (l ++ [.Q])) := by
  intro s
  have e : Spec.GState.afterAll s (.q :: (l ++ [.Q])) = Spec.GState.after (Spec.GState.afterAll (s.1, s.1 :: s.2) l) .Q := by
    show Spec.GState.afterAll (s.1, s.1 :: s.2) (l ++ [.Q]) = _
    rw [afterAll_append]; rfl
  obtain ⟨-, h2⟩ := Quiet.plain (k := k) h (s.1, s.1 :: s.2)
  rw [e]
  simp only [Spec.GState.after, h2]
  exact ⟨Spec.SameAt.rfl' _ k, [], rfl, by simp⟩

/-- The painter has written operators and reports the same graphics state. -/
def PExt (p p' : Pntr) (l : List PntOp) : Prop := p'.out = p.out ++ l ∧ p'.gs = p.gs ∧ p'.canvas = p.canvas

theorem PExt.refl (p : Pntr) : PExt p p [] := ⟨by simp, rfl, rfl⟩
theorem PExt.put (p : Pntr) (l : List PntOp) : PExt p (p.put l) l := ⟨rfl, rfl, rfl⟩
theorem PExt.trans {p q r : Pntr} {l m : List PntOp} (h : PExt p q l) (g : PExt q r m) : PExt p r (l ++ m) :=
  ⟨by rw [g.1, h.1, List.append_assoc], g.2.1.trans h.2.1, g.2.2.trans h.2.2⟩

theorem ops_plain (t : TSet) : ∀ o ∈ t.ops, o.plain = true := by
  intro o ho
  simp only [TSet.ops, List.mem_append] at ho
  rcases ho with (((h | h) | h) | h) | h
  · revert h; cases t.font <;> simp <;> rintro rfl <;> rfl
  all_goals (split at h <;> simp at h; subst h; rfl)

/-- The operators of a call are an extension that leaves every parameter. -/
def QuietCall (p : Pntr) (r : Pntr × Res Unit) : Prop := ∃ l, PExt p r.1 l ∧ ∀ k, Quiet k l
/-- The same with plain operators only. -/
def PlainCall (p : Pntr) (r : Pntr × Res Unit) : Prop := ∃ l, PExt p r.1 l ∧ ∀ o ∈ l, o.plain = true

theorem PlainCall.quiet {p : Pntr} {r : Pntr × Res Unit} (h : PlainCall p r) : QuietCall p r := by
  obtain ⟨l, e, g⟩ := h; exact ⟨l, e, fun k => Quiet.of_plain g⟩

theorem PlainCall.put {p : Pntr} {l : List PntOp} {u : Res Unit} (h : ∀ o ∈ l, o.plain = true) : PlainCall p (p.put l, u) := ⟨l, PExt.put p l, h⟩
theorem PlainCall.refl {p : Pntr} {u : Res Unit} : PlainCall p (p, u) := ⟨[], PExt.refl p, by simp⟩

theorem putString_plain (env : PEnv) (p : Pntr) (f : Nat) (s : Bytes) : PlainCall p (p.putString env f s) := by
  unfold Pntr.putString
  split <;> exact .put (by simp [PntOp.plain])

theorem PlainCall.after {p : Pntr} {m : List PntOp} (hm : ∀ o ∈ m, o.plain = true) {r : Pntr × Res Unit} (h : PlainCall (p.put m) r) : PlainCall p r := by
  obtain ⟨l, e, g⟩ := h
  refine ⟨m ++ l, (PExt.put p m).trans e, ?_⟩
  intro o ho
  rcases List.mem_append.1 ho with h | h
  · exact hm o h
  · exact g o h

theorem drawString_plain (env : PEnv) (p : Pntr) (f : Nat) (s : Bytes) (x y : Rat) : PlainCall p (p.drawString env f s x y) := by
  unfold Pntr.drawString
  split
  · exact .put (by simp [PntOp.plain])
  · exact PlainCall.after (by simp [PntOp.plain]) (putString_plain env _ f _)

theorem endObject_quiet {p : Pntr} {r : Pntr × Res Unit} (h : QuietCall p r) : QuietCall p (endObject r) := by
  obtain ⟨l, e, g⟩ := h
  unfold endObject
  split
  · exact ⟨l ++ [.ET], e.trans (PExt.put _ _), fun k => (g k).append (Quiet.of_plain (by simp [PntOp.plain]))⟩
  · exact ⟨l, e, g⟩

theorem QuietCall.opened {p : Pntr} {r : Pntr × Res Unit} (h : QuietCall { p with opened := true } r) : QuietCall p r := h

theorem checked_quiet {p : Pntr} {k : Pntr → Pntr × Res Unit} (h : QuietCall { p with opened := true } (k { p with opened := true })) : QuietCall p (p.checked k) := by
  unfold Pntr.checked
  split
  · rename_i ho
    have : { p with opened := true } = p := by rw [← ho]
    rw [this] at h; exact h
  · split
    · exact PlainCall.refl.quiet
    · exact h

theorem inObject_quiet {p : Pntr} {k : Pntr → Nat → Pntr × Res Unit} (h : ∀ q f, QuietCall q (k q f)) : QuietCall p (p.inObject k) := by
  refine checked_quiet ?_
  split
  · exact PlainCall.refl.quiet
  · split
    · exact PlainCall.refl.quiet
    · rename_i f hf
      refine endObject_quiet ?_
      obtain ⟨l, e, g⟩ := h (({ p with opened := true } : Pntr).put (.BT :: p.ts.ops)) f
      refine ⟨(.BT :: p.ts.ops) ++ l, (PExt.put _ _).trans e, fun k => (Quiet.of_plain ?_).append (g k)⟩
      intro o ho
      rcases List.mem_cons.1 ho with rfl | h
      · rfl
      · exact ops_plain _ o h

theorem drawMulti_quiet (env : PEnv) (p : Pntr) (f : Nat) (s : Bytes) (x y w h : Rat) (a : HAlign) (v : VAlign) (c : Bool) : QuietCall p (p.drawMulti env f s x y w h a v c) := by
  have hclip : ∀ o ∈ (if c then [PntOp.path (.rect x y w h), .paint .clip] else []), o.plain = true := by
    cases c <;> simp [PntOp.plain]
  have hq : ∀ m : List PntOp, (∀ o ∈ m, o.plain = true) → ∀ k, Quiet k (.q :: m) := fun m hm k => Quiet.append (l := [.q]) Quiet.q (Quiet.of_plain hm)
  unfold Pntr.drawMulti
  simp only
  generalize (if c then [PntOp.path (.rect x y w h), .paint .clip] else []) = m at hclip
  split
  · exact ⟨_, PExt.put _ _, hq m hclip⟩
  · exact ⟨_, (PExt.put _ _).trans (PExt.put _ _), fun k => Quiet.saved hclip⟩
  · rename_i b t _
    have hd := drawString_plain env (p.put (.q :: m)) f (b :: t) (alignX env (p.put (.q :: m)).ts f (b :: t) x w a) (multiY env (p.put (.q :: m)).ts f y h v)
    obtain ⟨l, e, g⟩ := hd
    have hml : ∀ o ∈ m ++ l, o.plain = true := by
      intro o ho
      rcases List.mem_append.1 ho with h | h
      · exact hclip o h
      · exact g o h
    unfold Pntr.drawAligned
    generalize hr : Pntr.drawString env (p.put (.q :: m)) f (b :: t) (alignX env (p.put (.q :: m)).ts f (b :: t) x w a) (multiY env (p.put (.q :: m)).ts f y h v) = r at e
    obtain ⟨p2, u⟩ := r
    cases u with
    | error er => exact ⟨_, (PExt.put _ _).trans e, hq _ hml⟩
    | ok _ =>
      refine ⟨_, ((PExt.put _ _).trans e).trans (PExt.put _ _), fun k => ?_⟩
      have := Quiet.saved (k := k) hml
      simpa using this

/-- Calls that do not save, restore, change the canvas or set a parameter of the graphics state. -/
def Spec.Other : PCall → Prop
  | .setCanvas _ | .finish | .save | .restore | .set _ => False
  | _ => True

theorem write_plain (p : Pntr) {l : List PntOp} (h : ∀ o ∈ l, o.plain = true) : QuietCall p (p.write l) := checked_quiet (PlainCall.put h).quiet

theorem writeOpen_plain {p q : Pntr} (hq : PExt p q []) {l : List PntOp} (h : ∀ o ∈ l, o.plain = true) : QuietCall p (q.writeOpen l) := by
  have key : QuietCall q (q.writeOpen l) := by
    unfold Pntr.writeOpen
    split
    · exact write_plain q h
    · exact PlainCall.refl.quiet
  obtain ⟨m, e, g⟩ := key
  exact ⟨m, by simpa using hq.trans e, g⟩

theorem other_quiet (env : PEnv) (p : Pntr) (c : PCall) (hc : Spec.Other c) : QuietCall p (p.call env c) := by
  cases c with
  | setCanvas _ => cases hc
  | finish => cases hc
  | save => cases hc
  | restore => cases hc
  | set _ => cases hc
  | setText a =>
    cases a with
    | font f s =>
      simp only [Pntr.call, Pntr.setText]
      split
      · exact PlainCall.refl.quiet
      · split
        · exact ⟨[], ⟨by simp, rfl, rfl⟩, fun k => Quiet.of_plain (by simp)⟩
        · exact writeOpen_plain ⟨by simp, rfl, rfl⟩ (by simp [PntOp.plain])
    | scale x =>
      simp only [Pntr.call, Pntr.setText]
      split
      · exact PlainCall.refl.quiet
      · exact writeOpen_plain ⟨by simp, rfl, rfl⟩ (by simp [PntOp.plain])
    | charSp x =>
      simp only [Pntr.call, Pntr.setText]
      split
      · exact PlainCall.refl.quiet
      · exact writeOpen_plain ⟨by simp, rfl, rfl⟩ (by simp [PntOp.plain])
    | wordSp x =>
      simp only [Pntr.call, Pntr.setText]
      split
      · exact PlainCall.refl.quiet
      · exact writeOpen_plain ⟨by simp, rfl, rfl⟩ (by simp [PntOp.plain])
    | mode x =>
      simp only [Pntr.call, Pntr.setText]
      split
      · exact PlainCall.refl.quiet
      · exact writeOpen_plain ⟨by simp, rfl, rfl⟩ (by simp [PntOp.plain])
  | setTab n => exact ⟨[], ⟨by simp [Pntr.call], rfl, rfl⟩, fun k => Quiet.of_plain (by simp)⟩
  | drawText s x y => exact inObject_quiet fun q f => (drawString_plain env q f s x y).quiet
  | aligned s x y w h =>
    show QuietCall p (p.drawTextAligned env s x y w h)
    unfold Pntr.drawTextAligned
    split
    · exact PlainCall.refl.quiet
    · exact inObject_quiet fun q f => (drawString_plain env q f s _ y).quiet
  | multi s x y w h a v c =>
    refine checked_quiet ?_
    split
    · exact PlainCall.refl.quiet
    · split
      · exact PlainCall.refl.quiet
      · split
        · exact PlainCall.refl.quiet
        · exact inObject_quiet fun q f => drawMulti_quiet env q f s x y w h a v c
  | beginText x y =>
    refine checked_quiet ?_
    split
    · exact PlainCall.refl.quiet
    · exact ⟨[.BT, .Td x y], ⟨rfl, rfl, rfl⟩, fun k => Quiet.of_plain (by simp [PntOp.plain])⟩
  | moveText x y =>
    refine checked_quiet ?_
    split
    · exact (PlainCall.put (by simp [PntOp.plain])).quiet
    · exact PlainCall.refl.quiet
  | addText s =>
    refine checked_quiet ?_
    split
    · exact PlainCall.refl.quiet
    · split
      · split
        · exact PlainCall.refl.quiet
        · exact (putString_plain env _ _ _).quiet
      · exact PlainCall.refl.quiet
  | endText =>
    refine checked_quiet ?_
    split
    · exact ⟨[.ET], ⟨rfl, rfl, rfl⟩, fun k => Quiet.of_plain (by simp [PntOp.plain])⟩
    · exact PlainCall.refl.quiet
  | path o => exact write_plain p (by simp [PntOp.plain])
  | paint o => exact write_plain p (by simp [PntOp.plain])

/-- Programs in which every `Save` has its `Restore`, the canvas stays, no transparent colour is set, and a parameter is not set between a `Save` and its `Restore`; `inside` says whether
the program itself is there. -/
inductive Spec.Bracketed (k : Spec.Param) : Bool → List PCall → Prop
  | nil (inside : Bool) : Spec.Bracketed k inside []
  | other (inside : Bool) (c : PCall) (l : List PCall) : Spec.Other c → Spec.Bracketed k inside l → Spec.Bracketed k inside (c :: l)
  | set (inside : Bool) (a : GArg) (l : List PCall) : Spec.Settable a → (inside = true → Spec.param a ≠ k) → Spec.Bracketed k inside l → Spec.Bracketed k inside (.set a :: l)
  | saved (inside : Bool) (l m : List PCall) : Spec.Bracketed k true l → Spec.Bracketed k inside m → Spec.Bracketed k inside (.save :: (l ++ .restore :: m))

/-- The state and the stack of a reader on the canvas. -/
def Pntr.reader (p : Pntr) : Spec.GState × List Spec.GState := Spec.GState.afterAll ({}, []) p.out

theorem Spec.Asked.told {a : GArg} {g : GSet} {s : Spec.GState} (hg : Spec.Reported g a) (h : Spec.Asked s a) : Spec.Told g s (Spec.param a) := by
  cases a <;> simp only [Spec.Reported] at hg <;> subst hg <;> exact h

theorem bracketed_run (env : PEnv) (k : Spec.Param) (hk : k ≠ .ctm) {inside : Bool} {l : List PCall} (hb : Spec.Bracketed k inside l) :
    ∀ p : Pntr, Spec.HasCanvas p → Spec.HasCanvas (p.run env l) ∧ (Spec.Told p.gs p.reader.1 k → Spec.Told (p.run env l).gs (p.run env l).reader.1 k)
      ∧ (∃ junk, (p.run env l).reader.2 = junk ++ p.reader.2 ∧ (inside = true → ∀ t ∈ junk, Spec.SameAt t p.reader.1 k))
      ∧ (inside = true → Spec.SameAt (p.run env l).reader.1 p.reader.1 k ∧ ∀ s, Spec.Told p.gs s k ↔ Spec.Told (p.run env l).gs s k) := by
  induction hb with
  | nil inside => exact fun p hc => ⟨hc, id, ⟨[], rfl, by simp⟩, fun _ => ⟨Spec.SameAt.rfl' _ k, fun s => Iff.rfl⟩⟩
  | other inside c l ho hb ih =>
    intro p hc
    obtain ⟨m, ⟨e1, e2, e3⟩, hq⟩ := other_quiet env p c ho
    have hr : (p.call env c).1.reader = Spec.GState.afterAll p.reader m := by
      unfold Pntr.reader; rw [e1, afterAll_append]
    obtain ⟨q1, j1, q2, q3⟩ := hq k p.reader
    rw [← hr] at q1 q2
    have hc' : Spec.HasCanvas (p.call env c).1 := by unfold Spec.HasCanvas; rw [e3]; exact hc
    obtain ⟨i1, i2, ⟨j2, i3, i4⟩, i5⟩ := ih (p.call env c).1 hc'
    rw [e2] at i2 i5
    refine ⟨i1, fun h => i2 (Spec.Told.of_same q1 h), ⟨j2 ++ j1, ?_, ?_⟩, ?_⟩
    · show ((p.call env c).1.run env l).reader.2 = _
      rw [i3, q2, List.append_assoc]
    · intro hi t ht
      rcases List.mem_append.1 ht with h | h
      · exact (i4 hi t h).trans' q1
      · exact q3 t h
    · intro hi
      obtain ⟨a, b⟩ := i5 hi
      exact ⟨a.trans' q1, b⟩
  | set inside a l hs hn hb ih =>
    intro p hc
    by_cases hr : Spec.Reported p.gs a
    · have : (p.call env (.set a)).1 = p := by show (p.set a).1 = p; rw [set_reported p a hr]
      have ih' := ih p hc
      simp only [Pntr.run, this]
      exact ih'
    · obtain ⟨o, g, he, hg, ht, hstep⟩ := set_changes hc hs hr
      have hcall : (p.call env (.set a)).1 = { p with gs := g, opened := true, out := p.out ++ [o] } := by show (p.set a).1 = _; rw [he]
      obtain ⟨s1, s2, s3, -⟩ := hstep p.reader
      have hrd : (p.call env (.set a)).1.reader = Spec.GState.after p.reader o := by
        rw [hcall]; show Spec.GState.afterAll ({}, []) (p.out ++ [o]) = _
        rw [afterAll_append]; rfl
      obtain ⟨i1, i2, ⟨j2, i3, i4⟩, i5⟩ := ih (p.call env (.set a)).1 (by rw [hcall]; exact hc)
      rw [hrd] at i2 i3 i4 i5
      have hgs : (p.call env (.set a)).1.gs = g := by rw [hcall]
      rw [hgs] at i2 i5
      refine ⟨i1, ?_, ⟨j2, ?_, ?_⟩, ?_⟩
      · intro h
        refine i2 ?_
        by_cases hka : k = Spec.param a
        · have hctm : ∀ m, a ≠ .ctm m := by rintro m rfl; exact hk hka
          rw [hka]; exact (s3 hctm).told hg
        · exact (ht k hka _).1 (Spec.Told.of_same (s2 k hka) h)
      · show ((p.call env (.set a)).1.run env l).reader.2 = _
        rw [i3, s1]
      · intro hi t ht'
        exact (i4 hi t ht').trans' (s2 k (fun h => hn hi h.symm))
      · intro hi
        have hka : k ≠ Spec.param a := fun h => hn hi h.symm
        obtain ⟨a1, b⟩ := i5 hi
        exact ⟨a1.trans' (s2 k hka), fun s => (ht k hka s).trans (b s)⟩
  | saved inside l m hl hm ihl ihm =>
    intro p hc
    have hsave : (p.call env .save).1 = { p with opened := true, out := p.out ++ [.q] } := by
      show (p.write [.q]).1 = _; rw [Pntr.write, checked_canvas hc]; rfl
    have hrs : (p.call env .save).1.reader = (p.reader.1, p.reader.1 :: p.reader.2) := by
      rw [hsave]; show Spec.GState.afterAll ({}, []) (p.out ++ [.q]) = _
      rw [afterAll_append]; rfl
    obtain ⟨a1, a2, ⟨j1, a3, a4⟩, a5⟩ := ihl (p.call env .save).1 (by rw [hsave]; exact hc)
    rw [hrs] at a2 a3 a4 a5
    have hgs : (p.call env .save).1.gs = p.gs := by rw [hsave]
    rw [hgs] at a2 a5
    simp only at a2 a3 a4 a5
    have a4 := a4 trivial
    obtain ⟨a6, a7⟩ := a5 trivial
    generalize hp2 : (p.call env .save).1.run env l = p2 at a1 a2 a3 a6 a7
    have hrest : (p2.call env .restore).1 = { p2 with opened := true, out := p2.out ++ [.Q] } := by
      show (p2.write [.Q]).1 = _; rw [Pntr.write, checked_canvas a1]; rfl
    have hrr : ∃ t junk, (p2.call env .restore).1.reader = (t, junk ++ p.reader.2) ∧ Spec.SameAt t p.reader.1 k ∧ ∀ u ∈ junk, Spec.SameAt u p.reader.1 k := by
      have e : (p2.call env .restore).1.reader = Spec.GState.after p2.reader .Q := by
        rw [hrest]; show Spec.GState.afterAll ({}, []) (p2.out ++ [.Q]) = _
        rw [afterAll_append]; rfl
      rw [e]
      simp only [Spec.GState.after, a3]
      cases j1 with
      | nil => exact ⟨p.reader.1, [], rfl, Spec.SameAt.rfl' _ k, by simp⟩
      | cons t j =>
        refine ⟨t, j ++ [p.reader.1], by simp, a4 t (by simp), ?_⟩
        intro u hu
        rcases List.mem_append.1 hu with h | h
        · exact a4 u (by simp [h])
        · rw [List.mem_singleton.1 h]; exact Spec.SameAt.rfl' _ k
    obtain ⟨t, junk, hrd, hst, hju⟩ := hrr
    have hgs3 : (p2.call env .restore).1.gs = p2.gs := by rw [hrest]
    obtain ⟨b1, b2, ⟨j2, b3, b4⟩, b5⟩ := ihm (p2.call env .restore).1 (by rw [hrest]; exact a1)
    rw [hrd] at b2 b3 b4 b5
    rw [hgs3] at b2 b5
    have hrun : p.run env (.save :: (l ++ .restore :: m)) = (p2.call env .restore).1.run env m := by
      show (p.call env .save).1.run env (l ++ .restore :: m) = _
      rw [Pntr.run_append, hp2]; rfl
    rw [hrun]
    refine ⟨b1, ?_, ⟨j2 ++ junk, by rw [b3, List.append_assoc], ?_⟩, ?_⟩
    · intro h
      exact b2 ((a7 t).1 (Spec.Told.of_same hst h))
    · intro hi u hu
      rcases List.mem_append.1 hu with h | h
      · exact (b4 hi u h).trans' hst
      · exact hju u h
    · intro hi
      obtain ⟨c1, c2⟩ := b5 hi
      exact ⟨c1.trans' hst, fun s => (a7 s).trans (c2 s)⟩

/-- In every program that sets a parameter only outside of `Save` and `Restore`, the getter goes on telling what is drawn with, once it does. Texts that cannot be drawn may be among the calls. -/
theorem C168_brackets_partial (env : PEnv) (k : Spec.Param) (hk : k ≠ .ctm) (l : List PCall) (hb : Spec.Bracketed k false l) (p : Pntr) (hc : Spec.HasCanvas p)
    (h : Spec.Told p.gs (Spec.drawsWith p) k) : Spec.Told (p.run env l).gs (Spec.drawsWith (p.run env l)) k :=
  (bracketed_run env k hk hb p hc).2.1 h

/-- For a new painter this holds from the start for the miter limit, the join style and the colours, on the first canvas. -/
theorem C168_fresh_partial (env : PEnv) (k : Spec.Param) (hk : k = .miter ∨ k = .join ∨ k = .fill ∨ k = .stroke) (c : Nat) (l : List PCall) (hb : Spec.Bracketed k false l) :
    Spec.Told (({} : Pntr).run env (.setCanvas c :: l)).gs (Spec.drawsWith (({} : Pntr).run env (.setCanvas c :: l))) k := by
  refine C168_brackets_partial env k (by rcases hk with h | h | h | h <;> rw [h] <;> decide) l hb (({} : Pntr).setCanvas c) (by simp [Spec.HasCanvas, Pntr.setCanvas]) ?_
  rcases hk with rfl | rfl | rfl | rfl <;> rfl

example : Spec.Bracketed .fill false [.set (.fill (.base (.rgb 1 0 0))), .save, .set (.ctm (.scale ⟨2, 2⟩)), .path (.rect 0 0 1 1), .paint .fill, .restore, .set (.fill (.base (.gray 1)))] :=
  .set _ _ _ (by intro h; cases h) (by intro h; cases h)
    (.saved _ [.set (.ctm (.scale ⟨2, 2⟩)), .path (.rect 0 0 1 1), .paint .fill] _
      (.set _ _ _ trivial (by intro _ h; cases h) (.other _ _ _ trivial (.other _ _ _ trivial (.nil _)))) (.set _ _ _ (by intro h; cases h) (by intro h; cases h) (.nil _)))

theorem after_Q {s : Spec.GState × List Spec.GState} {t : Spec.GState} {r : List Spec.GState} (h : s.2 = t :: r) : Spec.GState.after s .Q = (t, r) := by
  simp only [Spec.GState.after, h]

/-- The painter does not know that `Restore` gives back the old values: a value set after `Save` and again after `Restore` is not set at all the second time, for every parameter, value and state. -/
theorem C168_restore_false (env : PEnv) (p : Pntr) (hc : Spec.HasCanvas p) (a : GArg) (hs : Spec.Settable a) (hr : ¬ Spec.Reported p.gs a) (h : ¬ Spec.Asked (Spec.drawsWith p) a) :
    let p' := p.run env [.save, .set a, .restore]
    (p'.set a).2 = .ok () ∧ ¬ Spec.Asked (Spec.drawsWith (p'.set a).1) a ∧ ¬ Spec.Told (p'.set a).1.gs (Spec.drawsWith (p'.set a).1) (Spec.param a) := by
  have hsave : (p.call env .save).1 = { p with opened := true, out := p.out ++ [.q] } := by
    show (p.write [.q]).1 = _; rw [Pntr.write, checked_canvas hc]; rfl
  obtain ⟨o, g, he, hg, -, hstep⟩ := set_changes (p := { p with opened := true, out := p.out ++ [.q] }) hc hs hr
  have hset : ((p.call env .save).1.call env (.set a)).1 = { p with gs := g, opened := true, out := (p.out ++ [.q]) ++ [o] } := by
    rw [hsave]; show (Pntr.set _ a).1 = _; rw [he]
  have hrest : p.run env [.save, .set a, .restore] = { p with gs := g, opened := true, out := ((p.out ++ [.q]) ++ [o]) ++ [.Q] } := by
    show (((p.call env .save).1.call env (.set a)).1.call env .restore).1 = _
    rw [hset]; rfl
  have hd : Spec.drawsWith (p.run env [.save, .set a, .restore]) = Spec.drawsWith p := by
    rw [hrest]
    show (Spec.GState.afterAll ({}, []) (((p.out ++ [.q]) ++ [o]) ++ [.Q])).1 = _
    rw [afterAll_append, afterAll_append, afterAll_append]
    have h2 := (hstep (Spec.GState.afterAll (Spec.GState.afterAll ({}, []) p.out) [.q])).1
    show (Spec.GState.after (Spec.GState.after (Spec.GState.afterAll (Spec.GState.afterAll ({}, []) p.out) [.q]) o) .Q).1 = _
    rw [after_Q h2]
    rfl
  have hrep : Spec.Reported (p.run env [.save, .set a, .restore]).gs a := by rw [hrest]; exact hg
  simp only
  rw [set_reported _ a hrep]
  refine ⟨rfl, by rw [hd]; exact h, ?_⟩
  rw [hd]
  intro ht
  refine h ?_
  revert ht hrep
  generalize (p.run env [.save, .set a, .restore]).gs = g'
  intro hrep ht
  cases a <;> simp only [Spec.Reported] at hrep <;> subst hrep <;> exact ht

/-- The values a new painter believes in are not those drawings start with: a line width of 0 and square caps are never set. -/
theorem C168_initial_false (c : Nat) :
    let p := ({} : Pntr).setCanvas c
    (p.set (.width 0)).1.out = [] ∧ ¬ Spec.Asked (Spec.drawsWith (p.set (.width 0)).1) (.width 0) ∧ (p.set (.cap .square)).1.out = [] ∧ ¬ Spec.Asked (Spec.drawsWith (p.set (.cap .square)).1) (.cap .square)
      ∧ ¬ Spec.Told p.gs (Spec.drawsWith p) .width ∧ ¬ Spec.Told p.gs (Spec.drawsWith p) .cap ∧ ¬ Spec.Told p.gs (Spec.drawsWith p) .intent := by
  have e : ∀ a, Spec.Reported (({} : Pntr).setCanvas c).gs a → (({} : Pntr).setCanvas c).set a = (({} : Pntr).setCanvas c, .ok ()) := fun a h => set_reported _ a h
  have hw : ¬ ((1 : Rat) = 0) := by decide +kernel
  refine ⟨by rw [e (.width 0) rfl]; rfl, by rw [e (.width 0) rfl]; exact hw, by rw [e (.cap .square) rfl]; rfl, by rw [e (.cap .square) rfl]; exact fun h => absurd h (by decide : ¬ (0 = 2)), hw, fun h => absurd h (by decide : ¬ (0 = 2)), ?_⟩
  show ¬ (asciiB "RelativeColorimetric" = [])
  decide +kernel

/-- On the next canvas the painter goes on believing in the values of the one before, which its drawings do not have. -/
theorem C168_canvas_false (p : Pntr) (a : GArg) (c : Nat) (hc : p.canvas ≠ some c) (hr : Spec.Reported p.gs a) (h : ¬ Spec.Asked {} a) :
    ((p.setCanvas c).set a).2 = .ok () ∧ ¬ Spec.Asked (Spec.drawsWith ((p.setCanvas c).set a).1) a
      ∧ ((p.finish.setCanvas c).set a).2 = .ok () ∧ ¬ Spec.Asked (Spec.drawsWith ((p.finish.setCanvas c).set a).1) a := by
  have h1 : p.setCanvas c = { p.flush with canvas := some c, opened := false } := if_neg hc
  have h2 : p.finish.setCanvas c = { p.finish.flush with canvas := some c, opened := false } := if_neg (by simp [Pntr.finish])
  have r1 : Spec.Reported (p.setCanvas c).gs a := by rw [h1]; exact hr
  have r2 : Spec.Reported (p.finish.setCanvas c).gs a := by rw [h2]; exact hr
  rw [set_reported _ a r1, set_reported _ a r2]
  refine ⟨rfl, ?_, rfl, ?_⟩
  · rw [h1]; exact h
  · rw [h2]; exact h

/-- A setter that is refused because there is no canvas has changed what the painter reports, so that the same call later does nothing. -/
theorem C168_refused_false (a : GArg) (hr : ¬ Spec.Reported ({} : GSet) a) (c : Nat) (h : ¬ Spec.Asked {} a) :
    (({} : Pntr).set a).2 = raise .InternalLogic ∧ Spec.Reported (({} : Pntr).set a).1.gs a
      ∧ ((({} : Pntr).set a).1.setCanvas c |>.set a).2 = .ok () ∧ ¬ Spec.Asked (Spec.drawsWith ((({} : Pntr).set a).1.setCanvas c |>.set a).1) a := by
  have key : ∃ g, ({} : Pntr).set a = ({ gs := g }, raise .InternalLogic) ∧ Spec.Reported g a := by
    cases a <;> exact ⟨_, if_neg hr, rfl⟩
  obtain ⟨g, e, hg⟩ := key
  rw [e]
  refine ⟨rfl, hg, ?_⟩
  have r : Spec.Reported (({ gs := g } : Pntr).setCanvas c).gs a := hg
  rw [set_reported _ a r]
  exact ⟨rfl, h⟩

/-- `SetCurrentMatrix` multiplies the matrix of the drawing: when the painter tells the matrix of the drawing and it is not the identity, setting any other invertible matrix gives another one. -/
theorem C168_matrix_false (p : Pntr) (hc : Spec.HasCanvas p) (m : Mat) (ht : Spec.Told p.gs (Spec.drawsWith p) .ctm) (h1 : p.gs.ctm ≠ Mat.one) (hm : p.gs.ctm ≠ m)
    (hd : m.a * m.d - m.b * m.c ≠ 0) :
    (p.set (.ctm m)).2 = .ok () ∧ (Spec.drawsWith (p.set (.ctm m)).1).ctm = Mat.mul m p.gs.ctm ∧ ¬ Spec.Asked (Spec.drawsWith (p.set (.ctm m)).1) (.ctm m) := by
  obtain ⟨o, g, he, hg, -, hstep⟩ := set_changes hc (a := .ctm m) trivial hm
  have hdw : (Spec.drawsWith (p.set (.ctm m)).1).ctm = Mat.mul m p.gs.ctm := by
    rw [he]
    show (Spec.GState.afterAll ({}, []) (p.out ++ [o])).1.ctm = _
    rw [afterAll_append]
    refine ((hstep _).2.2.2 m rfl).trans ?_
    exact congrArg (Mat.mul m) ht
  refine ⟨by rw [he], hdw, ?_⟩
  intro h
  have h' : Mat.mul m p.gs.ctm = m := hdw.symm.trans h
  apply h1
  generalize p.gs.ctm = n at h'
  obtain ⟨a, b, c, d, e, f⟩ := m
  obtain ⟨a', b', c', d', e', f'⟩ := n
  simp only [Mat.mul, Mat.mk.injEq, Mat.one] at h' hd ⊢
  obtain ⟨g1, g2, g3, g4, g5, g6⟩ := h'
  have ha : a' = 1 := by grind
  have hc' : c' = 0 := by grind
  have hb' : b' = 0 := by grind
  have hd' : d' = 1 := by grind
  refine ⟨ha, hb', hc', hd', ?_, ?_⟩ <;> grind

example : Spec.Told ((exPainter.set (.ctm (.scale ⟨2, 3⟩))).1).gs (Spec.drawsWith (exPainter.set (.ctm (.scale ⟨2, 3⟩))).1) .ctm
    ∧ Mat.scale ⟨2, 3⟩ ≠ Mat.one ∧ Mat.mul (.scale ⟨5, 5⟩) (.scale ⟨2, 3⟩) = .scale ⟨10, 15⟩ := by
  refine ⟨?_, by decide +kernel, by decide +kernel⟩
  show (Spec.drawsWith (exPainter.set (.ctm (.scale ⟨2, 3⟩))).1).ctm = (exPainter.set (.ctm (.scale ⟨2, 3⟩))).1.gs.ctm
  decide +kernel

end Pdfmm
