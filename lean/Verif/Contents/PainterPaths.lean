import Verif.Contents.Painter
set_option autoImplicit false

/-!
# C171: paths

The calls of a painter that add to the current path. Coordinates are rational numbers, not doubles. That a canvas is needed is C168, and is left out here: every call writes its operators.
-/

namespace Pdfmm

/-- What a painter remembers of a path besides what it wrote, `src/pdfmm/base/PdfPainter.h:784-793` and `src/pdfmm/base/PdfPainter.cpp:60-69`; `m_lpx`, `m_lpy`, `m_lpx2` and `m_lpy2` are never used. -/
structure Pen where
  out : List PathOp := []
  lpx3 : Rat := 0
  lpy3 : Rat := 0
  lcx : Rat := 0
  lcy : Rat := 0
  lrx : Rat := 0
  lry : Rat := 0
  deriving DecidableEq

/-- Operators are appended. -/
def Pen.put (p : Pen) (l : List PathOp) : Pen := { p with out := p.out ++ l }

/-- What the curves remember, `src/pdfmm/base/PdfPainter.cpp:872-881`, `:899-908`, `:928-929`. -/
def Pen.remember (p : Pen) (x3 y3 rx ry : Rat) : Pen := { p with lpx3 := x3, lpy3 := y3, lcx := x3, lcy := y3, lrx := rx, lry := ry }

/-- `HorizontalLineTo`, `src/pdfmm/base/PdfPainter.cpp:851-854`. -/
def Pen.hline (p : Pen) (x : Rat) : Pen := p.put [.line x p.lpy3]

/-- `VerticalLineTo`, `src/pdfmm/base/PdfPainter.cpp:856-859`. -/
def Pen.vline (p : Pen) (y : Rat) : Pen := p.put [.line p.lpx3 y]

/-- `SmoothCurveTo`, `src/pdfmm/base/PdfPainter.cpp:861-884`. -/
def Pen.smooth (p : Pen) (x2 y2 x3 y3 : Rat) : Pen := (p.remember x3 y3 x2 y2).put [.curve (2 * p.lcx - p.lrx) (2 * p.lcy - p.lry) x2 y2 x3 y3]

/-- `QuadCurveTo`, `src/pdfmm/base/PdfPainter.cpp:886-911`: the second control point is computed from the first one of the cubic curve. -/
def Pen.quad (p : Pen) (x1 y1 x3 y3 : Rat) : Pen :=
  let px := (p.lcx + 2 * x1) * (1 / 3)
  let py := (p.lcy + 2 * y1) * (1 / 3)
  let px2 := (x3 + 2 * px) * (1 / 3)
  let py2 := (y3 + 2 * py) * (1 / 3)
  (p.remember x3 y3 px2 py2).put [.curve px py px2 py2 x3 y3]

/-- `SmoothQuadCurveTo`, `src/pdfmm/base/PdfPainter.cpp:913-932`. -/
def Pen.smoothQuad (p : Pen) (x3 y3 : Rat) : Pen :=
  let xc := 2 * p.lcx - p.lrx
  let yc := 2 * p.lcy - p.lry
  (p.remember x3 y3 xc yc).put [.curve ((p.lcx + 2 * xc) * (1 / 3)) ((p.lcy + 2 * yc) * (1 / 3)) ((x3 + 2 * xc) * (1 / 3)) ((y3 + 2 * yc) * (1 / 3)) x3 y3]

/-- The factor of rounded corners, `0.4477f`, `src/pdfmm/base/PdfPainter.cpp:372`. -/
def roundB : Rat := 15022319 / 33554432

/-- `Rectangle`, `src/pdfmm/base/PdfPainter.cpp:364-392`. A radius that does not fit into an `int` makes the test undefined; here it is taken as not zero. -/
def Pen.rectangle (p : Pen) (x y w h rx ry : Rat) : Pen :=
  if rx.num.tdiv rx.den ≠ 0 ∨ ry.num.tdiv ry.den ≠ 0 then
    p.put [.move (x + rx) y, .line (x + w - rx) y, .curve (x + w - rx * roundB) y (x + w) (y + ry * roundB) (x + w) (y + ry),
      .line (x + w) (y + h - ry), .curve (x + w) (y + h - ry * roundB) (x + w - rx * roundB) (y + h) (x + w - rx) (y + h),
      .line (x + rx) (y + h), .curve (x + rx * roundB) (y + h) x (y + h - ry * roundB) x (y + h - ry),
      .line x (y + ry), .curve x (y + ry * roundB) (x + rx * roundB) y (x + rx) y]
  else p.put [.rect x y w h]

/-- `dConvert`, `src/pdfmm/base/PdfPainter.cpp:1230`. -/
def ellipseK : Rat := 2761423749154 / 10000000000000

/-- `Ellipse` and `convertRectToBezier`, `src/pdfmm/base/PdfPainter.cpp:394-417`, `:1223-1262`. -/
def Pen.ellipse (p : Pen) (x y w h : Rat) : Pen :=
  let ox := w * ellipseK
  let oy := h * ellipseK
  let cx := x + w / 2
  let cy := y + h / 2
  p.put [.move x cy, .curve x (cy - oy) (cx - ox) y cx y, .curve (cx + ox) y (x + w) (cy - oy) (x + w) cy, .curve (x + w) (cy + oy) (cx + ox) (y + h) cx (y + h), .curve (cx - ox) (y + h) x (cy + oy) x cy]

/-- `ARC_MAGIC`, `src/pdfmm/base/PdfPainter.cpp:35`. -/
def arcMagic : Rat := 552284749 / 1000000000

/-- `Circle`, `src/pdfmm/base/PdfPainter.cpp:419-438`. -/
def Pen.circle (p : Pen) (x y r : Rat) : Pen :=
  p.put [.move (x + r) y, .curve (x + r) (y + r * arcMagic) (x + r * arcMagic) (y + r) x (y + r), .curve (x - r * arcMagic) (y + r) (x - r) (y + r * arcMagic) (x - r) y,
    .curve (x - r) (y - r * arcMagic) (x - r * arcMagic) (y - r) x (y - r), .curve (x + r * arcMagic) (y - r) (x + r) (y - r * arcMagic) (x + r) y, .close]

/-- A point of an arc of a circle of radius 1, taken back into the coordinates of the page, `src/pdfmm/base/PdfPainter.cpp:1005-1008`, `:1018-1023`, with the sine and cosine of the rotation: the second
coordinate is computed from the first one after it was changed. -/
def arcBack (s c rx ry nx ny : Rat) : Rat × Rat :=
  let nx' := c * rx * nx + -s * ry * ny
  (nx', s * rx * nx' + c * ry * ny)

/-- The calls that add to a path: `MoveTo`, `LineTo`, `CubicBezierTo` and `ClosePath` are at `src/pdfmm/base/PdfPainter.cpp:817-849` and only write; `ArcTo` is not among them. -/
inductive PathCall
  | move (x y : Rat) | line (x y : Rat) | curve (x1 y1 x2 y2 x3 y3 : Rat) | close | hline (x : Rat) | vline (y : Rat) | smooth (x2 y2 x3 y3 : Rat) | quad (x1 y1 x3 y3 : Rat) | smoothQuad (x3 y3 : Rat)
  | rectangle (x y w h rx ry : Rat) | ellipse (x y w h : Rat) | circle (x y r : Rat)

/-- One call; the definitions above cite the code. -/
def Pen.call (p : Pen) : PathCall → Pen
  | .move x y => p.put [.move x y]
  | .line x y => p.put [.line x y]
  | .curve x1 y1 x2 y2 x3 y3 => p.put [.curve x1 y1 x2 y2 x3 y3]
  | .close => p.put [.close]
  | .hline x => p.hline x
  | .vline y => p.vline y
  | .smooth x2 y2 x3 y3 => p.smooth x2 y2 x3 y3
  | .quad x1 y1 x3 y3 => p.quad x1 y1 x3 y3
  | .smoothQuad x3 y3 => p.smoothQuad x3 y3
  | .rectangle x y w h rx ry => p.rectangle x y w h rx ry
  | .ellipse x y w h => p.ellipse x y w h
  | .circle x y r => p.circle x y r

/-- A program, from `src/pdfmm/base/PdfPainter.cpp:60-69` on. -/
def Pen.run (p : Pen) (l : List PathCall) : Pen := l.foldl Pen.call p

/-! ## The meaning of paths -/

/-- Segments of a path. -/
inductive Spec.Seg
  | line (p q : Rat × Rat)
  | cubic (p a b q : Rat × Rat)
  deriving DecidableEq

/-- ISO 32000-1, 8.5.2.1: the current point and the start of the subpath after an operator, and the segments it adds. -/
def Spec.pathStep (s : (Rat × Rat) × (Rat × Rat)) : PathOp → ((Rat × Rat) × (Rat × Rat)) × List Spec.Seg
  | .move x y => (((x, y), (x, y)), [])
  | .line x y => (((x, y), s.2), [.line s.1 (x, y)])
  | .curve x1 y1 x2 y2 x3 y3 => (((x3, y3), s.2), [.cubic s.1 (x1, y1) (x2, y2) (x3, y3)])
  | .rect x y w h => (((x, y), (x, y)), [.line (x, y) (x + w, y), .line (x + w, y) (x + w, y + h), .line (x + w, y + h) (x, y + h), .line (x, y + h) (x, y)])
  | .close => ((s.2, s.2), [.line s.1 s.2])

/-- The current point after operators and the segments they add. -/
def Spec.path : (Rat × Rat) × (Rat × Rat) → List PathOp → ((Rat × Rat) × (Rat × Rat)) × List Spec.Seg
  | s, [] => (s, [])
  | s, o :: l => ((Spec.path (Spec.pathStep s o).1 l).1, (Spec.pathStep s o).2 ++ (Spec.path (Spec.pathStep s o).1 l).2)

/-- The current point after operators; before the first one there is none, and it is taken as the origin. -/
def Spec.current (l : List PathOp) : Rat × Rat := (Spec.path ((0, 0), (0, 0)) l).1.1

/-- A cubic curve, ISO 32000-1, 8.5.2.2, in one coordinate. -/
def Spec.cubic (a b c d t : Rat) : Rat := (1 - t) * (1 - t) * (1 - t) * a + 3 * t * (1 - t) * (1 - t) * b + 3 * t * t * (1 - t) * c + t * t * t * d

/-- A quadratic curve, in one coordinate. -/
def Spec.quadratic (a b c t : Rat) : Rat := (1 - t) * (1 - t) * a + 2 * t * (1 - t) * b + t * t * c

/-- A point of a segment. -/
def Spec.Seg.at (t : Rat) : Spec.Seg → Rat × Rat
  | .line p q => ((1 - t) * p.1 + t * q.1, (1 - t) * p.2 + t * q.2)
  | .cubic p a b q => (Spec.cubic p.1 a.1 b.1 q.1 t, Spec.cubic p.2 a.2 b.2 q.2 t)

/-- The end of a segment. -/
def Spec.Seg.last : Spec.Seg → Rat × Rat
  | .line _ q => q
  | .cubic _ _ _ q => q

theorem path_append (s : (Rat × Rat) × (Rat × Rat)) (a b : List PathOp) :
    Spec.path s (a ++ b) = ((Spec.path (Spec.path s a).1 b).1, (Spec.path s a).2 ++ (Spec.path (Spec.path s a).1 b).2) := by
  induction a generalizing s with
  | nil => rfl
  | cons o a ih => simp [Spec.path, ih, List.append_assoc]

/-- The segments that a call adds to what is there. -/
def Spec.added (p p' : Pen) : List Spec.Seg := ((Spec.path ((0, 0), (0, 0)) p'.out).2).drop (Spec.path ((0, 0), (0, 0)) p.out).2.length

theorem added_put (p : Pen) (l : List PathOp) (p' : Pen) (h : p'.out = p.out ++ l) : Spec.added p p' = (Spec.path (Spec.path ((0, 0), (0, 0)) p.out).1 l).2 := by
  unfold Spec.added
  rw [h, path_append]
  simp

/-! ## Lines and curves that start where the last one ended -/

/-- The end of the last `SmoothCurveTo`, `QuadCurveTo` or `SmoothQuadCurveTo`, or the origin. -/
def Spec.lastEnd (l : List PathCall) : Rat × Rat :=
  l.foldl (fun q c => match c with | .smooth _ _ x y | .quad _ _ x y | .smoothQuad x y => (x, y) | _ => q) (0, 0)

theorem call_put (p : Pen) (c : PathCall) : ∃ l, (p.call c).out = p.out ++ l := by
  cases c <;> first | exact ⟨_, rfl⟩ | skip
  unfold Pen.call Pen.rectangle
  simp only
  split <;> exact ⟨_, rfl⟩

theorem lastEnd_inv (l : List PathCall) : let p := ({} : Pen).run l; p.lpx3 = (Spec.lastEnd l).1 ∧ p.lpy3 = (Spec.lastEnd l).2 ∧ p.lcx = (Spec.lastEnd l).1 ∧ p.lcy = (Spec.lastEnd l).2 := by
  have gen : ∀ (l : List PathCall) (p : Pen) (q : Rat × Rat), p.lpx3 = q.1 → p.lpy3 = q.2 → p.lcx = q.1 → p.lcy = q.2 →
      let q' := l.foldl (fun q c => match c with | .smooth _ _ x y | .quad _ _ x y | .smoothQuad x y => (x, y) | _ => q) q
      (p.run l).lpx3 = q'.1 ∧ (p.run l).lpy3 = q'.2 ∧ (p.run l).lcx = q'.1 ∧ (p.run l).lcy = q'.2 := by
    intro l
    induction l with
    | nil => intro p q h1 h2 h3 h4; exact ⟨h1, h2, h3, h4⟩
    | cons c l ih =>
      intro p q h1 h2 h3 h4
      cases c with
      | rectangle x y w h rx ry =>
        refine ih _ _ ?_ ?_ ?_ ?_ <;> (simp only [Pen.call, Pen.rectangle]; split <;> assumption)
      | smooth => exact ih _ _ rfl rfl rfl rfl
      | quad => exact ih _ _ rfl rfl rfl rfl
      | smoothQuad => exact ih _ _ rfl rfl rfl rfl
      | _ => exact ih _ _ h1 h2 h3 h4
  exact gen l {} (0, 0) rfl rfl rfl rfl

/-- `HorizontalLineTo` adds a horizontal line just when the current point is as high as the end of the last curve that was added by `SmoothCurveTo`, `QuadCurveTo` or `SmoothQuadCurveTo`;
`VerticalLineTo` likewise. -/
theorem C171_straight_partial (l : List PathCall) (x : Rat) : let p := ({} : Pen).run l
    (∃ q, Spec.added p (p.hline x) = [.line (Spec.current p.out) (x, q)] ∧ (q = (Spec.current p.out).2 ↔ (Spec.lastEnd l).2 = (Spec.current p.out).2))
    ∧ (∃ q, Spec.added p (p.vline x) = [.line (Spec.current p.out) (q, x)] ∧ (q = (Spec.current p.out).1 ↔ (Spec.lastEnd l).1 = (Spec.current p.out).1)) := by
  intro p
  obtain ⟨h1, h2, -, -⟩ := lastEnd_inv l
  refine ⟨⟨p.lpy3, ?_, by rw [show p.lpy3 = _ from h2]⟩, ⟨p.lpx3, ?_, by rw [show p.lpx3 = _ from h1]⟩⟩
  · rw [added_put p [.line x p.lpy3] _ rfl]; rfl
  · rw [added_put p [.line p.lpx3 x] _ rfl]; rfl

theorem run_snoc (p : Pen) (l : List PathCall) (c : PathCall) : p.run (l ++ [c]) = (p.run l).call c := by simp [Pen.run]

/-- After any program, a `MoveTo`, a `LineTo` or a `CubicBezierTo` to another height than that of the last remembered end, or to the side of it, makes the next `HorizontalLineTo` and `VerticalLineTo` slanted. -/
theorem C171_straight_false (l : List PathCall) (c : PathCall) (a b x : Rat)
    (hc : match c with | .move x y => x = a ∧ y = b | .line x y => x = a ∧ y = b | .curve _ _ _ _ x y => x = a ∧ y = b | _ => False) : let p := ({} : Pen).run (l ++ [c])
    (b ≠ (Spec.lastEnd l).2 → ∃ q, q ≠ b ∧ Spec.added p (p.hline x) = [.line (a, b) (x, q)]) ∧ (a ≠ (Spec.lastEnd l).1 → ∃ q, q ≠ a ∧ Spec.added p (p.vline x) = [.line (a, b) (q, x)]) := by
  intro p
  have hcur : Spec.current p.out = (a, b) := by
    show Spec.current (({} : Pen).run (l ++ [c])).out = _
    rw [run_snoc]
    cases c <;> first | exact hc.elim | skip
    all_goals
      obtain ⟨rfl, rfl⟩ := hc
      simp [Pen.call, Pen.put, Spec.current, path_append, Spec.path, Spec.pathStep]
  have hend : Spec.lastEnd (l ++ [c]) = Spec.lastEnd l := by
    unfold Spec.lastEnd
    rw [List.foldl_append]
    cases c <;> first | exact hc.elim | rfl
  obtain ⟨⟨q, e1, e2⟩, ⟨q', e3, e4⟩⟩ := C171_straight_partial (l ++ [c]) x
  rw [hend] at e2 e4
  have hcur' : Spec.current (({} : Pen).run (l ++ [c])).out = (a, b) := hcur
  rw [hcur'] at e1 e2 e3 e4
  exact ⟨fun h => ⟨q, fun hq => h (e2.1 hq).symm, e1⟩, fun h => ⟨q', fun hq => h (e4.1 hq).symm, e3⟩⟩

/-- A cubic segment that is a quadratic curve with some control point. -/
def Spec.IsQuadratic (s : Spec.Seg) (p c q : Rat × Rat) : Prop := ∀ t, s.at t = (Spec.quadratic p.1 c.1 q.1 t, Spec.quadratic p.2 c.2 q.2 t)

theorem elevate (a b c t : Rat) : Spec.cubic a ((a + 2 * b) * (1 / 3)) ((c + 2 * b) * (1 / 3)) c t = Spec.quadratic a b c t := by
  unfold Spec.cubic Spec.quadratic; grind

/-- `SmoothQuadCurveTo` adds a quadratic curve from the current point whose control point is the mirror image of the remembered one, if the last call was one of the three that remember where they ended. -/
theorem C171_smoothQuad_partial (l : List PathCall) (x y : Rat) : let p := ({} : Pen).run l
    Spec.current p.out = Spec.lastEnd l → ∃ s, Spec.added p (p.smoothQuad x y) = [s]
      ∧ Spec.IsQuadratic s (Spec.current p.out) (2 * (Spec.current p.out).1 - p.lrx, 2 * (Spec.current p.out).2 - p.lry) (x, y) := by
  intro p hcur
  obtain ⟨-, -, h3, h4⟩ := lastEnd_inv l
  have hx : p.lcx = (Spec.current p.out).1 := by rw [hcur]; exact h3
  have hy : p.lcy = (Spec.current p.out).2 := by rw [hcur]; exact h4
  refine ⟨_, added_put p [.curve ((p.lcx + 2 * (2 * p.lcx - p.lrx)) * (1 / 3)) ((p.lcy + 2 * (2 * p.lcy - p.lry)) * (1 / 3)) ((x + 2 * (2 * p.lcx - p.lrx)) * (1 / 3)) ((y + 2 * (2 * p.lcy - p.lry)) * (1 / 3)) x y] _ rfl, ?_⟩
  intro t
  have hc : (Spec.path ((0, 0), (0, 0)) p.out).1.1 = Spec.current p.out := rfl
  simp only [Spec.Seg.at, hc]
  rw [← hx, ← hy, elevate, elevate]

/-- So after `SmoothQuadCurveTo`, the next one is what SVG says: the control point is the mirror image of the last one. -/
theorem C171_chain_partial (l : List PathCall) (x y x' y' : Rat) : let p := ({} : Pen).run l
    Spec.current p.out = Spec.lastEnd l → ∃ s s' c, Spec.added p (p.smoothQuad x y) = [s] ∧ Spec.added (p.smoothQuad x y) ((p.smoothQuad x y).smoothQuad x' y') = [s']
      ∧ Spec.IsQuadratic s (Spec.current p.out) c (x, y) ∧ Spec.IsQuadratic s' (x, y) (2 * x - c.1, 2 * y - c.2) (x', y') := by
  intro p hcur
  obtain ⟨s, e1, e2⟩ := C171_smoothQuad_partial l x y hcur
  obtain ⟨-, -, h3, h4⟩ := lastEnd_inv l
  have hx : p.lcx = (Spec.current p.out).1 := by rw [hcur]; exact h3
  have hy : p.lcy = (Spec.current p.out).2 := by rw [hcur]; exact h4
  have hrun : ({} : Pen).run (l ++ [.smoothQuad x y]) = p.smoothQuad x y := run_snoc _ _ _
  have hlast : Spec.lastEnd (l ++ [.smoothQuad x y]) = (x, y) := by unfold Spec.lastEnd; rw [List.foldl_append]; rfl
  have hcur2 : Spec.current (p.smoothQuad x y).out = (x, y) := by
    simp [Pen.smoothQuad, Pen.put, Pen.remember, Spec.current, path_append, Spec.path, Spec.pathStep]
  obtain ⟨s', e3, e4⟩ := C171_smoothQuad_partial (l ++ [.smoothQuad x y]) x' y' (by rw [hrun, hlast, hcur2])
  rw [hrun] at e3 e4
  rw [hcur2] at e4
  refine ⟨s, s', (2 * (Spec.current p.out).1 - p.lrx, 2 * (Spec.current p.out).2 - p.lry), e1, e3, e2, ?_⟩
  have a1 : (p.smoothQuad x y).lrx = 2 * (Spec.current p.out).1 - p.lrx := by rw [← hx]; rfl
  have a2 : (p.smoothQuad x y).lry = 2 * (Spec.current p.out).2 - p.lry := by rw [← hy]; rfl
  rw [a1, a2] at e4
  exact e4

/-- `QuadCurveTo` adds a quadratic curve with the control point it was given only if that is where the curve starts. -/
theorem C171_quad_false (l : List PathCall) (x1 y1 x3 y3 : Rat) : let p := ({} : Pen).run l
    ∃ s, Spec.added p (p.quad x1 y1 x3 y3) = [s] ∧ (Spec.IsQuadratic s (Spec.current p.out) (x1, y1) (x3, y3) → Spec.current p.out = (x1, y1)) := by
  intro p
  refine ⟨_, added_put p [.curve ((p.lcx + 2 * x1) * (1 / 3)) ((p.lcy + 2 * y1) * (1 / 3)) ((x3 + 2 * ((p.lcx + 2 * x1) * (1 / 3))) * (1 / 3)) ((y3 + 2 * ((p.lcy + 2 * y1) * (1 / 3))) * (1 / 3)) x3 y3] _ rfl, ?_⟩
  intro h
  have hc : (Spec.path ((0, 0), (0, 0)) p.out).1.1 = Spec.current p.out := rfl
  have key : ∀ a lc b c : Rat, (∀ t, Spec.cubic a ((lc + 2 * b) * (1 / 3)) ((c + 2 * ((lc + 2 * b) * (1 / 3))) * (1 / 3)) c t = Spec.quadratic a b c t) → a = b := by
    intro a lc b c h
    have h1 := h (1 / 3)
    have h2 := h (2 / 3)
    unfold Spec.cubic Spec.quadratic at h1 h2
    grind
  refine Prod.ext ?_ ?_
  · refine key _ p.lcx _ x3 (fun t => ?_)
    have := congrArg Prod.fst (h t)
    simpa only [Spec.Seg.at, hc] using this
  · refine key _ p.lcy _ y3 (fun t => ?_)
    have := congrArg Prod.snd (h t)
    simpa only [Spec.Seg.at, hc] using this

/-- `SmoothCurveTo` goes on smoothly after `SmoothCurveTo`: its first control point is the mirror image of the last second one. -/
theorem C171_smooth_partial (l : List PathCall) (x2 y2 x3 y3 x2' y2' x3' y3' : Rat) : let p := ({} : Pen).run (l ++ [.smooth x2 y2 x3 y3])
    Spec.added p (p.smooth x2' y2' x3' y3') = [.cubic (x3, y3) (2 * x3 - x2, 2 * y3 - y2) (x2', y2') (x3', y3')] := by
  intro p
  have hp : p = (({} : Pen).run l).smooth x2 y2 x3 y3 := run_snoc _ _ _
  rw [added_put p [.curve (2 * p.lcx - p.lrx) (2 * p.lcy - p.lry) x2' y2' x3' y3'] _ rfl]
  have hcur : (Spec.path ((0, 0), (0, 0)) p.out).1.1 = (x3, y3) := by
    rw [hp]; simp [Pen.smooth, Pen.put, Pen.remember, path_append, Spec.path, Spec.pathStep]
  simp only [Spec.path, Spec.pathStep, hcur, List.append_nil]
  rw [hp]
  rfl

/-- After `CubicBezierTo` it does not: the control point is the one of an older curve, or the origin, whatever the curve was. -/
theorem C171_smooth_false (l : List PathCall) (x1 y1 x2 y2 x3 y3 x2' y2' x3' y3' : Rat) : let p := ({} : Pen).run (l ++ [.curve x1 y1 x2 y2 x3 y3])
    ∃ a b, Spec.added p (p.smooth x2' y2' x3' y3') = [.cubic (x3, y3) (a, b) (x2', y2') (x3', y3')] ∧ a = 2 * (Spec.lastEnd l).1 - (({} : Pen).run l).lrx ∧ b = 2 * (Spec.lastEnd l).2 - (({} : Pen).run l).lry
      ∧ (2 * x3 - x2 ≠ a ∨ 2 * y3 - y2 ≠ b → Spec.added p (p.smooth x2' y2' x3' y3') ≠ [.cubic (x3, y3) (2 * x3 - x2, 2 * y3 - y2) (x2', y2') (x3', y3')]) := by
  intro p
  have hp : p = (({} : Pen).run l).call (.curve x1 y1 x2 y2 x3 y3) := run_snoc _ _ _
  obtain ⟨-, -, h3, h4⟩ := lastEnd_inv l
  have hcur : (Spec.path ((0, 0), (0, 0)) p.out).1.1 = (x3, y3) := by
    rw [hp]; simp [Pen.call, Pen.put, path_append, Spec.path, Spec.pathStep]
  have e : Spec.added p (p.smooth x2' y2' x3' y3') = [.cubic (x3, y3) (2 * p.lcx - p.lrx, 2 * p.lcy - p.lry) (x2', y2') (x3', y3')] := by
    rw [added_put p [.curve (2 * p.lcx - p.lrx) (2 * p.lcy - p.lry) x2' y2' x3' y3'] _ rfl]
    simp only [Spec.path, Spec.pathStep, hcur, List.append_nil]
  refine ⟨_, _, e, ?_, ?_, ?_⟩
  · rw [hp, ← h3]; rfl
  · rw [hp, ← h4]; rfl
  · rw [e]
    rintro h h'
    simp only [List.cons.injEq, Spec.Seg.cubic.injEq, Prod.mk.injEq, and_true, true_and] at h'
    rcases h with h | h
    · exact h h'.1.symm
    · exact h h'.2.symm

/-- The points of an arc that `ArcTo` draws are where they should be just if the arc is not rotated, or its radius is zero, or the point has the same first coordinate on the circle and on the page. -/
theorem C171_arc_false (s c rx ry nx ny : Rat) :
    arcBack s c rx ry nx ny = (c * rx * nx - s * ry * ny, s * rx * nx + c * ry * ny) ↔ s = 0 ∨ rx = 0 ∨ c * rx * nx - s * ry * ny = nx := by
  unfold arcBack
  simp only [Prod.mk.injEq]
  constructor
  · rintro ⟨-, h⟩
    have h' : (s * rx) * ((c * rx * nx - s * ry * ny) - nx) = 0 := by grind
    rcases Rat.mul_eq_zero.1 h' with h1 | h1
    · rcases Rat.mul_eq_zero.1 h1 with h2 | h2
      · exact .inl h2
      · exact .inr (.inl h2)
    · exact .inr (.inr (by grind))
  · rintro (h | h | h)
    · subst h; constructor <;> grind
    · subst h; constructor <;> grind
    · refine ⟨by grind, ?_⟩
      have : c * rx * nx + -s * ry * ny = nx := by grind
      rw [this]

/-! ## Round shapes -/

/-- `|a| ≤ b`. -/
def Spec.Within (a b : Rat) : Prop := -b ≤ a ∧ a ≤ b

theorem sq_nonneg (a : Rat) : 0 ≤ a * a := by
  rcases Rat.le_total (a := 0) (b := a) with h | h
  · exact Rat.mul_nonneg h h
  · have := Rat.mul_nonneg (a := -a) (b := -a) (by grind) (by grind); grind

theorem bump (A B u : Rat) (h0 : 0 ≤ u) (h1 : u ≤ 1 / 4) (hB : -24 / 100 ≤ B) (hB' : B ≤ 0) (hd : -3 / 10000 ≤ A + B / 4) (hd' : A + B / 4 ≤ 3 / 10000) :
    Spec.Within (u * u * (A + B * u)) (6 / 10000) := by
  have hu2 : 0 ≤ u * u := sq_nonneg u
  have hu2' : u * u ≤ 1 / 16 := by
    have := Rat.mul_nonneg h0 (show 0 ≤ 1 / 4 - u by grind)
    grind
  have c1 : 0 ≤ u * u * (1 / 4 - u) := Rat.mul_nonneg hu2 (by grind)
  have c2 : u * u * (1 / 4 - u) ≤ 1 / 432 := by
    have := Rat.mul_nonneg (sq_nonneg (u - 1 / 6)) (show 0 ≤ u + 1 / 12 by grind)
    grind
  have d1 : 0 ≤ (u * u) * (A + B / 4 + 3 / 10000) := Rat.mul_nonneg hu2 (by grind)
  have d2 : 0 ≤ (u * u) * (3 / 10000 - (A + B / 4)) := Rat.mul_nonneg hu2 (by grind)
  have e1 : 0 ≤ (u * u * (1 / 4 - u)) * (B + 24 / 100) := Rat.mul_nonneg c1 (by grind)
  have e2 : 0 ≤ (u * u * (1 / 4 - u)) * (-B) := Rat.mul_nonneg c1 (by grind)
  have key : u * u * (A + B * u) = (u * u) * (A + B / 4) - (u * u * (1 / 4 - u)) * B := by grind
  generalize hP : u * u * (1 / 4 - u) = P at *
  generalize hD : A + B / 4 = D at *
  generalize hU : u * u = U at *
  have key' : U * (A + B * u) = U * D - P * B := key
  constructor <;> rw [key'] <;> grind

/-- The quarter of a circle as a cubic curve: how far its points are from the circle. -/
theorem quarter (k t : Rat) (h0 : 0 ≤ t) (h1 : t ≤ 1) (hk : 552284 / 1000000 ≤ k) (hk' : k ≤ 5523001 / 10000000) :
    Spec.Within (Spec.cubic 1 1 k 0 t * Spec.cubic 1 1 k 0 t + Spec.cubic 0 k 1 1 t * Spec.cubic 0 k 1 1 t - 1) (6 / 10000) := by
  have hu0 : 0 ≤ t * (1 - t) := Rat.mul_nonneg h0 (by grind)
  have hu1 : t * (1 - t) ≤ 1 / 4 := by have := sq_nonneg (t - 1 / 2); grind
  have hk2 : (552284 / 1000000) * (552284 / 1000000) ≤ k * k := by
    have := Rat.mul_nonneg (show 0 ≤ k - 552284 / 1000000 by grind) (show 0 ≤ k + 552284 / 1000000 by grind); grind
  have hk2' : k * k ≤ (5523001 / 10000000) * (5523001 / 10000000) := by
    have := Rat.mul_nonneg (show 0 ≤ 5523001 / 10000000 - k by grind) (show 0 ≤ 5523001 / 10000000 + k by grind); grind
  have := bump (9 * (k * k) + 6 * k - 6) (24 * k - 8 - 18 * (k * k)) (t * (1 - t)) hu0 hu1 (by grind) (by grind) (by grind) (by grind)
  have e : Spec.cubic 1 1 k 0 t * Spec.cubic 1 1 k 0 t + Spec.cubic 0 k 1 1 t * Spec.cubic 0 k 1 1 t - 1
      = (t * (1 - t)) * (t * (1 - t)) * ((9 * (k * k) + 6 * k - 6) + (24 * k - 8 - 18 * (k * k)) * (t * (1 - t))) := by
    unfold Spec.cubic; grind
  rw [e]; exact this

/-- Where a segment starts. -/
def Spec.Seg.first : Spec.Seg → Rat × Rat
  | .line p _ => p
  | .cubic p _ _ _ => p

/-- A point is on an ellipse with its axes parallel to those of the page, given by its centre and its half axes, but for 0.06% of the square of the distance. -/
def Spec.NearEllipse (cx cy a b : Rat) (q : Rat × Rat) : Prop :=
  Spec.Within (b * b * ((q.1 - cx) * (q.1 - cx)) + a * a * ((q.2 - cy) * (q.2 - cy)) - a * a * (b * b)) (6 / 10000 * (a * a * (b * b)))

/-- All of a segment is. -/
def Spec.SegNear (cx cy a b : Rat) (s : Spec.Seg) : Prop := ∀ t, 0 ≤ t → t ≤ 1 → Spec.NearEllipse cx cy a b (s.at t)

theorem near_scale (cx cy a b k t X Y : Rat) (h0 : 0 ≤ t) (h1 : t ≤ 1) (hk : 552284 / 1000000 ≤ k) (hk' : k ≤ 5523001 / 10000000)
    (h : (X - cx) * (X - cx) = a * a * (Spec.cubic 1 1 k 0 t * Spec.cubic 1 1 k 0 t) ∧ (Y - cy) * (Y - cy) = b * b * (Spec.cubic 0 k 1 1 t * Spec.cubic 0 k 1 1 t)
      ∨ (X - cx) * (X - cx) = a * a * (Spec.cubic 0 k 1 1 t * Spec.cubic 0 k 1 1 t) ∧ (Y - cy) * (Y - cy) = b * b * (Spec.cubic 1 1 k 0 t * Spec.cubic 1 1 k 0 t)) : Spec.NearEllipse cx cy a b (X, Y) := by
  obtain ⟨q1, q2⟩ := quarter k t h0 h1 hk hk'
  have hab : 0 ≤ a * a * (b * b) := Rat.mul_nonneg (sq_nonneg a) (sq_nonneg b)
  generalize Spec.cubic 1 1 k 0 t * Spec.cubic 1 1 k 0 t = C at *
  generalize Spec.cubic 0 k 1 1 t * Spec.cubic 0 k 1 1 t = S at *
  have e : b * b * ((X - cx) * (X - cx)) + a * a * ((Y - cy) * (Y - cy)) - a * a * (b * b) = (a * a * (b * b)) * (C + S - 1) := by
    rcases h with ⟨hx, hy⟩ | ⟨hx, hy⟩ <;> rw [hx, hy] <;> grind
  have m1 := Rat.mul_nonneg hab (show 0 ≤ C + S - 1 + 6 / 10000 by grind)
  have m2 := Rat.mul_nonneg hab (show 0 ≤ 6 / 10000 - (C + S - 1) by grind)
  unfold Spec.NearEllipse Spec.Within
  simp only
  rw [e]
  generalize a * a * (b * b) = P at *
  generalize C + S - 1 = E at *
  constructor <;> grind

/-- The four kinds of quarters, each in both directions. -/
theorem near_quarter (cx cy a b k : Rat) (hk : 552284 / 1000000 ≤ k) (hk' : k ≤ 5523001 / 10000000) (sx sy : Rat) (hx : sx = 1 ∨ sx = -1) (hy : sy = 1 ∨ sy = -1) :
    Spec.SegNear cx cy a b (.cubic (cx + sx * a, cy) (cx + sx * a, cy + sy * (b * k)) (cx + sx * (a * k), cy + sy * b) (cx, cy + sy * b))
    ∧ Spec.SegNear cx cy a b (.cubic (cx, cy + sy * b) (cx + sx * (a * k), cy + sy * b) (cx + sx * a, cy + sy * (b * k)) (cx + sx * a, cy)) := by
  have hx2 : sx * sx = 1 := by rcases hx with h | h <;> subst h <;> grind
  have hy2 : sy * sy = 1 := by rcases hy with h | h <;> subst h <;> grind
  constructor
  · intro t h0 h1
    refine near_scale cx cy a b k t _ _ h0 h1 hk hk' (.inl ⟨?_, ?_⟩)
    · have : Spec.cubic (cx + sx * a) (cx + sx * a) (cx + sx * (a * k)) cx t - cx = sx * (a * Spec.cubic 1 1 k 0 t) := by unfold Spec.cubic; grind
      simp only; rw [this]; generalize Spec.cubic 1 1 k 0 t = C; grind
    · have : Spec.cubic cy (cy + sy * (b * k)) (cy + sy * b) (cy + sy * b) t - cy = sy * (b * Spec.cubic 0 k 1 1 t) := by unfold Spec.cubic; grind
      simp only; rw [this]; generalize Spec.cubic 0 k 1 1 t = C; grind
  · intro t h0 h1
    refine near_scale cx cy a b k t _ _ h0 h1 hk hk' (.inr ⟨?_, ?_⟩)
    · have : Spec.cubic cx (cx + sx * (a * k)) (cx + sx * a) (cx + sx * a) t - cx = sx * (a * Spec.cubic 0 k 1 1 t) := by unfold Spec.cubic; grind
      simp only; rw [this]; generalize Spec.cubic 0 k 1 1 t = C; grind
    · have : Spec.cubic (cy + sy * b) (cy + sy * b) (cy + sy * (b * k)) cy t - cy = sy * (b * Spec.cubic 1 1 k 0 t) := by unfold Spec.cubic; grind
      simp only; rw [this]; generalize Spec.cubic 1 1 k 0 t = C; grind

/-- `Circle` adds four curves, from the right over the top, the left and the bottom back, and closes the path; every point of them is on the circle but for 0.06% of the square of the radius. -/
theorem C171_circle (p : Pen) (x y r : Rat) : ∃ s1 s2 s3 s4, Spec.added p (p.circle x y r) = [s1, s2, s3, s4, .line (x + r, y) (x + r, y)]
    ∧ [s1, s2, s3, s4].map Spec.Seg.first = [(x + r, y), (x, y + r), (x - r, y), (x, y - r)] ∧ [s1, s2, s3, s4].map Spec.Seg.last = [(x, y + r), (x - r, y), (x, y - r), (x + r, y)]
    ∧ ∀ s ∈ [s1, s2, s3, s4], Spec.SegNear x y r r s := by
  refine ⟨.cubic (x + r, y) (x + r, y + r * arcMagic) (x + r * arcMagic, y + r) (x, y + r), .cubic (x, y + r) (x - r * arcMagic, y + r) (x - r, y + r * arcMagic) (x - r, y),
    .cubic (x - r, y) (x - r, y - r * arcMagic) (x - r * arcMagic, y - r) (x, y - r), .cubic (x, y - r) (x + r * arcMagic, y - r) (x + r, y - r * arcMagic) (x + r, y), ?_, rfl, rfl, ?_⟩
  · unfold Pen.circle
    rw [added_put p _ _ rfl]; rfl
  · have n := fun sx sy hx hy => near_quarter x y r r arcMagic (by decide +kernel) (by decide +kernel) sx sy hx hy
    have a1 := (n 1 1 (.inl rfl) (.inl rfl)).1
    have a2 := (n (-1) 1 (.inr rfl) (.inl rfl)).2
    have a3 := (n (-1) (-1) (.inr rfl) (.inr rfl)).1
    have a4 := (n 1 (-1) (.inl rfl) (.inr rfl)).2
    have p1 : ∀ u v : Rat, u + 1 * v = u + v := by intros; grind
    have p2 : ∀ u v : Rat, u + -1 * v = u - v := by intros; grind
    simp only [p1, p2] at a1 a2 a3 a4
    intro s hs
    simp only [List.mem_cons, List.not_mem_nil, or_false] at hs
    rcases hs with h | h | h | h <;> subst h <;> assumption

/-- `Ellipse` adds four curves, from the left over the bottom, the right and the top back, that touch the middles of the sides of the rectangle; every point of them is on the ellipse but for 0.06%. -/
theorem C171_ellipse (p : Pen) (x y w h : Rat) : ∃ s1 s2 s3 s4, Spec.added p (p.ellipse x y w h) = [s1, s2, s3, s4]
    ∧ [s1, s2, s3, s4].map Spec.Seg.first = [(x, y + h / 2), (x + w / 2, y), (x + w, y + h / 2), (x + w / 2, y + h)]
    ∧ [s1, s2, s3, s4].map Spec.Seg.last = [(x + w / 2, y), (x + w, y + h / 2), (x + w / 2, y + h), (x, y + h / 2)]
    ∧ ∀ s ∈ [s1, s2, s3, s4], Spec.SegNear (x + w / 2) (y + h / 2) (w / 2) (h / 2) s := by
  refine ⟨.cubic (x, y + h / 2) (x, y + h / 2 - h * ellipseK) (x + w / 2 - w * ellipseK, y) (x + w / 2, y), .cubic (x + w / 2, y) (x + w / 2 + w * ellipseK, y) (x + w, y + h / 2 - h * ellipseK) (x + w, y + h / 2),
    .cubic (x + w, y + h / 2) (x + w, y + h / 2 + h * ellipseK) (x + w / 2 + w * ellipseK, y + h) (x + w / 2, y + h), .cubic (x + w / 2, y + h) (x + w / 2 - w * ellipseK, y + h) (x, y + h / 2 + h * ellipseK) (x, y + h / 2),
    ?_, rfl, rfl, ?_⟩
  · unfold Pen.ellipse
    rw [added_put p _ _ rfl]; rfl
  · have n := fun sx sy hx hy => near_quarter (x + w / 2) (y + h / 2) (w / 2) (h / 2) (2 * ellipseK) (by decide +kernel) (by decide +kernel) sx sy hx hy
    have a1 := (n (-1) (-1) (.inr rfl) (.inr rfl)).1
    have a2 := (n 1 (-1) (.inl rfl) (.inr rfl)).2
    have a3 := (n 1 1 (.inl rfl) (.inl rfl)).1
    have a4 := (n (-1) 1 (.inr rfl) (.inl rfl)).2
    have p1 : ∀ u v : Rat, u + v / 2 + 1 * (v / 2) = u + v := by intros; grind
    have p2 : ∀ u v : Rat, u + v / 2 + -1 * (v / 2) = u := by intros; grind
    have p3 : ∀ u v : Rat, u + v / 2 + 1 * (v / 2 * (2 * ellipseK)) = u + v / 2 + v * ellipseK := by intros; grind
    have p4 : ∀ u v : Rat, u + v / 2 + -1 * (v / 2 * (2 * ellipseK)) = u + v / 2 - v * ellipseK := by intros; grind
    simp only [p1, p2, p3, p4] at a1 a2 a3 a4
    intro s hs
    simp only [List.mem_cons, List.not_mem_nil, or_false] at hs
    rcases hs with h | h | h | h <;> subst h <;> assumption

theorem tdiv_small (r : Rat) (h : -1 < r) (h' : r < 1) : r.num.tdiv r.den = 0 := by
  have h1 := (Rat.lt_iff _ _).1 h'
  have h2 := (Rat.lt_iff _ _).1 h
  simp at h1 h2
  rcases Int.le_total 0 r.num with hn | hn
  · exact Int.tdiv_eq_zero_of_lt hn h1
  · have : (-r.num).tdiv r.den = 0 := Int.tdiv_eq_zero_of_lt (by omega) (by omega)
    rw [Int.neg_tdiv] at this
    omega

theorem tdiv_big (r : Rat) (h : 1 ≤ r) : r.num.tdiv r.den ≠ 0 := by
  have h1 := (Rat.le_iff _ _).1 h
  simp at h1
  have : (1 : Int) ≤ r.num.tdiv r.den := Int.le_tdiv_of_mul_le (by have := r.den_pos; omega) (by omega)
  omega

/-- `Rectangle` with a radius of 1 or more adds four sides and, between them, four quarters of ellipses with these half axes, but for 0.06%, and comes back to its start. -/
theorem C171_round_partial (p : Pen) (x y w h rx ry : Rat) (hr : 1 ≤ rx ∨ 1 ≤ ry) : ∃ s1 s2 s3 s4,
    Spec.added p (p.rectangle x y w h rx ry) = [.line (x + rx, y) (x + w - rx, y), s1, .line (x + w, y + ry) (x + w, y + h - ry), s2, .line (x + w - rx, y + h) (x + rx, y + h), s3, .line (x, y + h - ry) (x, y + ry), s4]
    ∧ [s1, s2, s3, s4].map Spec.Seg.first = [(x + w - rx, y), (x + w, y + h - ry), (x + rx, y + h), (x, y + ry)] ∧ [s1, s2, s3, s4].map Spec.Seg.last = [(x + w, y + ry), (x + w - rx, y + h), (x, y + h - ry), (x + rx, y)]
    ∧ Spec.SegNear (x + w - rx) (y + ry) rx ry s1 ∧ Spec.SegNear (x + w - rx) (y + h - ry) rx ry s2 ∧ Spec.SegNear (x + rx) (y + h - ry) rx ry s3 ∧ Spec.SegNear (x + rx) (y + ry) rx ry s4 := by
  have hc : rx.num.tdiv rx.den ≠ 0 ∨ ry.num.tdiv ry.den ≠ 0 := hr.imp (tdiv_big rx) (tdiv_big ry)
  refine ⟨.cubic (x + w - rx, y) (x + w - rx * roundB, y) (x + w, y + ry * roundB) (x + w, y + ry), .cubic (x + w, y + h - ry) (x + w, y + h - ry * roundB) (x + w - rx * roundB, y + h) (x + w - rx, y + h),
    .cubic (x + rx, y + h) (x + rx * roundB, y + h) (x, y + h - ry * roundB) (x, y + h - ry), .cubic (x, y + ry) (x, y + ry * roundB) (x + rx * roundB, y) (x + rx, y), ?_, rfl, rfl, ?_⟩
  · unfold Pen.rectangle
    rw [if_pos hc, added_put p _ _ rfl]; rfl
  · have n := fun cx cy sx sy hx hy => near_quarter cx cy rx ry (1 - roundB) (by decide +kernel) (by decide +kernel) sx sy hx hy
    have a1 := (n (x + w - rx) (y + ry) 1 (-1) (.inl rfl) (.inr rfl)).2
    have a2 := (n (x + w - rx) (y + h - ry) 1 1 (.inl rfl) (.inl rfl)).1
    have a3 := (n (x + rx) (y + h - ry) (-1) 1 (.inr rfl) (.inl rfl)).2
    have a4 := (n (x + rx) (y + ry) (-1) (-1) (.inr rfl) (.inr rfl)).1
    have q1 : ∀ u v : Rat, u - v + 1 * v = u := by intros; grind
    have q2 : ∀ u v : Rat, u + v + -1 * v = u := by intros; grind
    have q3 : ∀ u v : Rat, u - v + 1 * (v * (1 - roundB)) = u - v * roundB := by intros; grind
    have q4 : ∀ u v : Rat, u + v + -1 * (v * (1 - roundB)) = u + v * roundB := by intros; grind
    simp only [q1, q2, q3, q4] at a1 a2 a3 a4
    exact ⟨a1, a2, a3, a4⟩

/-- A rectangle without radii has its four sides. -/
theorem C171_rectangle (p : Pen) (x y w h : Rat) : Spec.added p (p.rectangle x y w h 0 0)
    = [.line (x, y) (x + w, y), .line (x + w, y) (x + w, y + h), .line (x + w, y + h) (x, y + h), .line (x, y + h) (x, y)] := by
  unfold Pen.rectangle
  rw [if_neg (by decide +kernel), added_put p _ _ rfl]; rfl

/-- Radii smaller than 1 are not used: the corners are not rounded. -/
theorem C171_round_false (p : Pen) (x y w h rx ry : Rat) (h1 : 0 < rx) (h2 : rx < 1) (h3 : 0 < ry) (h4 : ry < 1) : p.rectangle x y w h rx ry = p.rectangle x y w h 0 0 := by
  have e1 := tdiv_small rx (by grind) h2
  have e2 := tdiv_small ry (by grind) h4
  unfold Pen.rectangle
  rw [if_neg (by simp [e1, e2]), if_neg (by decide +kernel)]

/-- A program that is used in the theorems above. -/
def exPath : List PathCall := [.move 10 20, .line 30 40, .smoothQuad 50 60, .hline 70]

example : (({} : Pen).run exPath).out = [.move 10 20, .line 30 40, .curve 0 0 (50 / 3) 20 50 60, .line 70 60] ∧ Spec.lastEnd exPath = (50, 60) ∧ Spec.current (({} : Pen).run exPath).out = (70, 60)
    ∧ Spec.current (({} : Pen).run [.move 10 20, .line 30 40, .smoothQuad 50 60]).out = Spec.lastEnd [.move 10 20, .line 30 40, .smoothQuad 50 60]
    ∧ (({} : Pen).rectangle 0 0 100 50 (1 / 2) (1 / 2)).out = [.rect 0 0 100 50] ∧ arcBack 1 0 1 2 1 0 = (0, 0) := by decide +kernel

end Pdfmm
