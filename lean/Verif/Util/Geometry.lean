import Verif.Base.Basic
/-
C154 and C155: rectangles, matrices, and how they are combined.
-/
set_option autoImplicit false
namespace Pdfmm

/-- A rectangle, `src/pdfmm/base/PdfRect.h:128-134`.  The coordinates are exact here; those of the code are doubles, and rounding is left out. -/
structure Rect where
  left : Rat
  bottom : Rat
  width : Rat
  height : Rat
  deriving DecidableEq

/-- `GetRight` and `GetTop`, `src/pdfmm/base/PdfRect.cpp:89-97`. -/
def Rect.right (r : Rect) : Rat := r.left + r.width
def Rect.top (r : Rect) : Rat := r.bottom + r.height

/-- `CreateRect` and `NormalizeCoordinates`, `src/pdfmm/base/PdfRect.cpp:143-163`; also `PdfRect::FromCorners`, `src/pdfmm/base/PdfRect.cpp:36-41`. -/
def Rect.fromCorners (x1 y1 x2 y2 : Rat) : Rect :=
  ⟨if x1 > x2 then x2 else x1, if y1 > y2 then y2 else y1, if x1 > x2 then x1 - x2 else x2 - x1, if y1 > y2 then y1 - y2 else y2 - y1⟩

/-- `PdfRect::ToArray`, `src/pdfmm/base/PdfRect.cpp:49-56`. -/
def Rect.toArray (r : Rect) : List Rat := [r.left, r.bottom, r.width + r.left, r.height + r.bottom]

/-- `PdfRect::FromArray`, `src/pdfmm/base/PdfRect.cpp:73-88`. -/
def Rect.fromArray : List Rat → Res Rect
  | [x1, y1, x2, y2] => .ok (Rect.fromCorners x1 y1 x2 y2)
  | _ => raise .ValueOutOfRange

/-- `PdfRect::Contains`, `src/pdfmm/base/PdfRect.cpp:67-71`. -/
def Rect.contains (r : Rect) (x y : Rat) : Bool :=
  decide (x ≥ r.left) && decide (x ≤ r.left + r.width) && decide (y ≥ r.bottom) && decide (y ≤ r.bottom + r.height)

/-- One direction of `Intersect`: the start moves up, then the end moves down. -/
def clipSpan (start size start' size' : Rat) : Rat × Rat :=
  let (s, l) := if start' - start > 0 then (start + (start' - start), size - (start' - start)) else (start, size)
  if (s + l) - (start' + size') > 0 then (s, l - ((s + l) - (start' + size'))) else (s, l)

/-- `PdfRect::Intersect`, `src/pdfmm/base/PdfRect.cpp:100-132`. -/
def Rect.intersect (r o : Rect) : Rect :=
  if o.bottom ≠ 0 ∨ o.height ≠ 0 ∨ o.left ≠ 0 ∨ o.width ≠ 0 then
    ⟨(clipSpan r.left r.width o.left o.width).1, (clipSpan r.bottom r.height o.bottom o.height).1,
     (clipSpan r.left r.width o.left o.width).2, (clipSpan r.bottom r.height o.bottom o.height).2⟩
  else r

/-- A point belongs to a rectangle. -/
def Spec.In (r : Rect) (x y : Rat) : Prop := r.left ≤ x ∧ x ≤ r.right ∧ r.bottom ≤ y ∧ y ≤ r.top

/-- The rectangle is not turned inside out. -/
def Spec.Proper (r : Rect) : Prop := 0 ≤ r.width ∧ 0 ≤ r.height

theorem contains_iff (r : Rect) (x y : Rat) : r.contains x y = true ↔ Spec.In r x y := by
  simp only [Rect.contains, Spec.In, Rect.right, Rect.top, Bool.and_eq_true, decide_eq_true_eq]
  grind

/-- C154: a rectangle given by any two opposite corners has the corners on its border, contains exactly the points between them, and does not depend on
which corners are given. -/
theorem C154_corners (x1 y1 x2 y2 : Rat) :
    Spec.Proper (Rect.fromCorners x1 y1 x2 y2) ∧
    (∀ x y, (Rect.fromCorners x1 y1 x2 y2).contains x y = true ↔ ((x1 ≤ x ∧ x ≤ x2) ∨ (x2 ≤ x ∧ x ≤ x1)) ∧ ((y1 ≤ y ∧ y ≤ y2) ∨ (y2 ≤ y ∧ y ≤ y1))) ∧
    Rect.fromCorners x1 y1 x2 y2 = Rect.fromCorners x2 y2 x1 y1 ∧ Rect.fromCorners x1 y1 x2 y2 = Rect.fromCorners x1 y2 x2 y1 ∧
    Rect.fromCorners x1 y1 x2 y2 = Rect.fromCorners x2 y1 x1 y2 := by
  refine ⟨?_, ?_, ?_, ?_, ?_⟩
  · simp only [Spec.Proper, Rect.fromCorners]; grind
  · intro x y
    rw [contains_iff]
    simp only [Spec.In, Rect.right, Rect.top, Rect.fromCorners]
    grind
  all_goals simp only [Rect.fromCorners, Rect.mk.injEq]; grind

example : Rect.fromCorners 40 5 10 25 = ⟨10, 5, 30, 20⟩ := by decide +kernel

/-- C154: what is written for a rectangle reads back as the same rectangle. -/
theorem C154_array_partial (r : Rect) (hr : Spec.Proper r) : Rect.fromArray r.toArray = .ok r := by
  obtain ⟨l, b, w, h⟩ := r
  simp only [Spec.Proper] at hr
  simp only [Rect.toArray, Rect.fromArray, Rect.fromCorners, Except.ok.injEq, Rect.mk.injEq]
  grind

example : Spec.Proper ⟨10, 20, 30, 40⟩ ∧ Rect.toArray ⟨10, 20, 30, 40⟩ = [10, 20, 40, 60] := by
  refine ⟨by simp only [Spec.Proper]; decide +kernel, by decide +kernel⟩

/-- A rectangle that is inside out does not read back as itself. -/
example : Rect.fromArray (Rect.toArray ⟨10, 20, -4, 40⟩) = .ok ⟨6, 20, 4, 40⟩ := by
  simp only [Rect.toArray, Rect.fromArray, Except.ok.injEq]; decide +kernel

/-- C154: reading succeeds for four numbers and only then. -/
theorem C154_read (l : List Rat) : (∃ r, Rect.fromArray l = .ok r ∧ Spec.Proper r) ∨ (l.length ≠ 4 ∧ Rect.fromArray l = raise .ValueOutOfRange) := by
  match l with
  | [x1, y1, x2, y2] => exact Or.inl ⟨_, rfl, (C154_corners x1 y1 x2 y2).1⟩
  | [] => exact Or.inr ⟨by simp, rfl⟩
  | [_] => exact Or.inr ⟨by simp, rfl⟩
  | [_, _] => exact Or.inr ⟨by simp, rfl⟩
  | [_, _, _] => exact Or.inr ⟨by simp, rfl⟩
  | _ :: _ :: _ :: _ :: _ :: _ => exact Or.inr ⟨by simp, rfl⟩

theorem clipSpan_mem (s z s' z' x : Rat) :
    ((clipSpan s z s' z').1 ≤ x ∧ x ≤ (clipSpan s z s' z').1 + (clipSpan s z s' z').2) ↔ (s ≤ x ∧ x ≤ s + z) ∧ (s' ≤ x ∧ x ≤ s' + z') := by
  simp only [clipSpan]
  split <;> (simp only []; split <;> (simp only []; grind))

theorem not_zero {l b w h : Rat} (ho : (⟨l, b, w, h⟩ : Rect) ≠ ⟨0, 0, 0, 0⟩) : b ≠ 0 ∨ h ≠ 0 ∨ l ≠ 0 ∨ w ≠ 0 := by
  simp only [ne_eq, Rect.mk.injEq] at ho
  by_cases h1 : b = 0
  · by_cases h2 : h = 0
    · by_cases h3 : l = 0
      · by_cases h4 : w = 0
        · exact absurd ⟨h3, h1, h4, h2⟩ ho
        · exact Or.inr (Or.inr (Or.inr h4))
      · exact Or.inr (Or.inr (Or.inl h3))
    · exact Or.inr (Or.inl h2)
  · exact Or.inl h1

/-- C154: the intersection has exactly the points both rectangles have, unless the second is the point 0 0. -/
theorem C154_intersect_partial (r o : Rect) (ho : o ≠ ⟨0, 0, 0, 0⟩) (x y : Rat) :
    (r.intersect o).contains x y = true ↔ r.contains x y = true ∧ o.contains x y = true := by
  rw [contains_iff, contains_iff, contains_iff]
  obtain ⟨l, b, w, h⟩ := r
  obtain ⟨l', b', w', h'⟩ := o
  have hne := not_zero ho
  rw [Rect.intersect, if_pos hne]
  simp only [Spec.In, Rect.right, Rect.top, clipSpan]
  have h1 := clipSpan_mem l w l' w' x
  have h2 := clipSpan_mem b h b' h' y
  simp only [clipSpan] at h1 h2
  constructor
  · rintro ⟨a1, a2, a3, a4⟩
    obtain ⟨c1, c2⟩ := h1.1 ⟨a1, a2⟩
    obtain ⟨c3, c4⟩ := h2.1 ⟨a3, a4⟩
    exact ⟨⟨c1.1, c1.2, c3.1, c3.2⟩, c2.1, c2.2, c4.1, c4.2⟩
  · rintro ⟨⟨a1, a2, a3, a4⟩, a5, a6, a7, a8⟩
    obtain ⟨c1, c2⟩ := h1.2 ⟨⟨a1, a2⟩, a5, a6⟩
    obtain ⟨c3, c4⟩ := h2.2 ⟨⟨a3, a4⟩, a7, a8⟩
    exact ⟨c1, c2, c3, c4⟩

example : Rect.intersect ⟨0, 0, 10, 10⟩ ⟨5, 3, 20, 4⟩ = ⟨5, 3, 5, 4⟩ := by decide +kernel

/-- C154, what is wrong: the intersection with the point 0 0 is everything. -/
theorem C154_zero_false (r : Rect) : r.intersect ⟨0, 0, 0, 0⟩ = r := by
  simp [Rect.intersect]

/-- C154, what is wrong: the intersection of rectangles that lie beside each other is inside out; written and read back it has all the points between them,
which neither of the two has. -/
theorem C154_disjoint_false (r o : Rect) (ho : o ≠ ⟨0, 0, 0, 0⟩) (hw : 0 ≤ o.width) (hb : r.right < o.left) :
    (r.intersect o).width < 0 ∧
    ∃ r', Rect.fromArray (r.intersect o).toArray = .ok r' ∧
      ∀ x y, r.right < x → x < o.left → r.bottom ≤ y → y ≤ r.top → o.bottom ≤ y → y ≤ o.top →
        r'.contains x y = true ∧ r.contains x y = false ∧ o.contains x y = false := by
  obtain ⟨l, b, w, h⟩ := r
  obtain ⟨l', b', w', h'⟩ := o
  have hne : b' ≠ 0 ∨ h' ≠ 0 ∨ l' ≠ 0 ∨ w' ≠ 0 := not_zero ho
  simp only [Rect.right, Rect.top] at hb hw ⊢
  have hx : clipSpan l w l' w' = (if l' - l > 0 then l' else l, w - (if l' - l > 0 then l' - l else 0)) := by
    simp only [clipSpan]; split
    · simp only []; rw [if_neg (by grind)]; simp only [Prod.mk.injEq]; grind
    · simp only []; rw [if_neg (by grind)]; simp only [Prod.mk.injEq]; grind
  have hwneg : (Rect.intersect ⟨l, b, w, h⟩ ⟨l', b', w', h'⟩).width = w - (if l' - l > 0 then l' - l else 0) := by
    rw [Rect.intersect, if_pos hne]; simp only [hx]
  refine ⟨by rw [hwneg]; grind, _, rfl, ?_⟩
  intro x y hx1 hx2 hy1 hy2 hy3 hy4
  have hy := (clipSpan_mem b h b' h' y).2 ⟨⟨hy1, hy2⟩, hy3, hy4⟩
  refine ⟨?_, ?_, ?_⟩
  · rw [(C154_corners _ _ _ _).2.1]
    rw [Rect.intersect, if_pos hne]
    simp only [hx]
    refine ⟨?_, ?_⟩
    · right; grind
    · left
      refine ⟨hy.1, ?_⟩
      have := hy.2
      grind
  · rw [Bool.eq_false_iff]
    intro hc
    have := (contains_iff _ _ _).1 hc
    simp only [Spec.In, Rect.right, Rect.top] at this
    grind
  · rw [Bool.eq_false_iff]
    intro hc
    have := (contains_iff _ _ _).1 hc
    simp only [Spec.In, Rect.right, Rect.top] at this
    grind

example : Rect.intersect ⟨0, 0, 10, 10⟩ ⟨15, 0, 10, 10⟩ = ⟨15, 0, -5, 10⟩ ∧ (0 : Rat) ≤ 10 ∧ Rect.right ⟨0, 0, 10, 10⟩ < 15 := by decide +kernel

/-- A vector, `src/pdfmm/base/PdfMath.h:20-46`, exact as the rectangles are. -/
structure V2 where
  x : Rat
  y : Rat
  deriving DecidableEq

/-- A matrix, `src/pdfmm/base/PdfMath.h:48-118`: the six numbers of `m_mat` in order. -/
structure Mat where
  a : Rat
  b : Rat
  c : Rat
  d : Rat
  e : Rat
  f : Rat
  deriving DecidableEq

/-- `Vector2::operator*`, `src/pdfmm/base/PdfMath.cpp:210-216`. -/
def V2.mul (v : V2) (m : Mat) : V2 := ⟨m.a * v.x + m.c * v.y + m.e, m.b * v.x + m.d * v.y + m.f⟩

/-- `Vector2::operator+` and `-`, `src/pdfmm/base/PdfMath.cpp:200-208`. -/
def V2.add (v w : V2) : V2 := ⟨v.x + w.x, v.y + w.y⟩
def V2.sub (v w : V2) : V2 := ⟨v.x - w.x, v.y - w.y⟩

/-- `Matrix::Matrix()`, `src/pdfmm/base/PdfMath.cpp:23-24`. -/
def Mat.one : Mat := ⟨1, 0, 0, 1, 0, 0⟩

/-- `Matrix::operator*`, `src/pdfmm/base/PdfMath.cpp:88-98`. -/
def Mat.mul (m n : Mat) : Mat :=
  ⟨m.a * n.a + m.b * n.c, m.a * n.b + m.b * n.d, m.c * n.a + m.d * n.c, m.c * n.b + m.d * n.d, m.e * n.a + m.f * n.c + n.e, m.e * n.b + m.f * n.d + n.f⟩

/-- `Matrix::CreateTranslation` and `CreateScale`, `src/pdfmm/base/PdfMath.cpp:41-50`. -/
def Mat.translation (t : V2) : Mat := ⟨1, 0, 0, 1, t.x, t.y⟩
def Mat.scale (s : V2) : Mat := ⟨s.x, 0, 0, s.y, 0, 0⟩

/-- `Matrix::CreateRotation`, `src/pdfmm/base/PdfMath.cpp:52-71`, for the cosine and sine of the angle. -/
def Mat.rotation (center : V2) (cosA sinA : Rat) : Mat :=
  ⟨cosA, sinA, -sinA, cosA, -center.x * cosA + center.y * sinA + center.x, -center.x * sinA - center.y * cosA + center.y⟩

/-- `Matrix::Translate`, `src/pdfmm/base/PdfMath.cpp:73-78`: the second line uses the first two columns only, so the changed entry does not matter. -/
def Mat.translate (m : Mat) (t : V2) : Mat := { m with e := t.x * m.a + t.y * m.c + m.e, f := t.x * m.b + t.y * m.d + m.f }

/-- `Apply<Tx>` and `Apply<Ty>`, `src/pdfmm/base/PdfMathBase.h:28-66`. -/
def Mat.applyTx (m : Mat) (v : Rat) : Mat := { m with e := v * m.a + m.e }
def Mat.applyTy (m : Mat) (v : Rat) : Mat := { m with f := v * m.d + m.f }

/-- `PdfRect::operator*`, `src/pdfmm/base/PdfRect.cpp:133-141`. -/
def Rect.mul (r : Rect) (m : Mat) : Rect :=
  Rect.fromCorners ((V2.mul ⟨r.left, r.bottom⟩ m).x) ((V2.mul ⟨r.left, r.bottom⟩ m).y) ((V2.mul ⟨r.right, r.top⟩ m).x) ((V2.mul ⟨r.right, r.top⟩ m).y)

/-- `GetFrameRotationTransform`, `src/pdfmm/base/PdfMath.cpp:233-249`. -/
def frameRotation (r : Rect) (cosA sinA : Rat) : Mat :=
  let rot := Mat.rotation ⟨0, 0⟩ cosA sinA
  let r1 := r.mul rot
  rot.mul (Mat.translation (V2.sub ⟨r.left, r.bottom⟩ ⟨r1.left, r1.bottom⟩))

/-- `GetFrameRotationTransformInverse`, `src/pdfmm/base/PdfMath.cpp:251-268`; the angle `-teta` has the same cosine and the opposite sine. -/
def frameRotationInverse (r : Rect) (cosA sinA : Rat) : Mat :=
  let rot := Mat.rotation ⟨0, 0⟩ cosA sinA
  let inv := Mat.rotation ⟨0, 0⟩ cosA (-sinA)
  let r1 := r.mul rot
  (Mat.translation (V2.sub ⟨r1.left, r1.bottom⟩ ⟨r.left, r.bottom⟩)).mul inv

/-- C155: a product of matrices is one transformation after the other; the identity changes nothing; products can be grouped in any way. -/
theorem C155_product (v : V2) (m n k : Mat) :
    v.mul (m.mul n) = (v.mul m).mul n ∧ v.mul Mat.one = v ∧ m.mul Mat.one = m ∧ Mat.one.mul m = m ∧ (m.mul n).mul k = m.mul (n.mul k) := by
  obtain ⟨x, y⟩ := v
  obtain ⟨a, b, c, d, e, f⟩ := m
  refine ⟨?_, ?_, ?_, ?_, ?_⟩
  all_goals simp only [V2.mul, Mat.mul, Mat.one, V2.mk.injEq, Mat.mk.injEq]
  all_goals grind

/-- C155: translations, scalings and rotations do what their names say: a translation adds, a scaling multiplies, a rotation keeps its center and the
distances; `Translate` puts the translation before the matrix. -/
theorem C155_kinds (v w t s center : V2) (m : Mat) (cosA sinA : Rat) (hcs : cosA * cosA + sinA * sinA = 1) :
    v.mul (Mat.translation t) = v.add t ∧ v.mul (Mat.scale s) = ⟨s.x * v.x, s.y * v.y⟩ ∧
    center.mul (Mat.rotation center cosA sinA) = center ∧
    (let p := v.mul (Mat.rotation center cosA sinA); let q := w.mul (Mat.rotation center cosA sinA)
     (p.x - q.x) * (p.x - q.x) + (p.y - q.y) * (p.y - q.y) = (v.x - w.x) * (v.x - w.x) + (v.y - w.y) * (v.y - w.y)) ∧
    m.translate t = (Mat.translation t).mul m ∧ v.mul (m.translate t) = (v.add t).mul m := by
  obtain ⟨x, y⟩ := v
  obtain ⟨x', y'⟩ := w
  obtain ⟨tx, ty⟩ := t
  obtain ⟨cx, cy⟩ := center
  obtain ⟨a, b, c, d, e, f⟩ := m
  refine ⟨?_, ?_, ?_, ?_, ?_, ?_⟩
  all_goals simp only [V2.mul, V2.add, Mat.mul, Mat.translate, Mat.translation, Mat.scale, Mat.rotation, V2.mk.injEq, Mat.mk.injEq]
  all_goals grind

/-- The hypothesis is met by the 3-4-5 angle. -/
example : (3 / 5 : Rat) * (3 / 5) + (4 / 5) * (4 / 5) = 1 ∧ V2.mul ⟨5, 0⟩ (Mat.rotation ⟨0, 0⟩ (3 / 5) (4 / 5)) = ⟨3, 4⟩ := by decide +kernel

/-- C155: rotating a page frame and its inverse cancel out, for every angle. -/
theorem C155_frame_inverse (r : Rect) (cosA sinA : Rat) (hcs : cosA * cosA + sinA * sinA = 1) :
    (frameRotation r cosA sinA).mul (frameRotationInverse r cosA sinA) = Mat.one ∧
    (frameRotationInverse r cosA sinA).mul (frameRotation r cosA sinA) = Mat.one := by
  simp only [frameRotation, frameRotationInverse]
  generalize r.mul (Mat.rotation ⟨0, 0⟩ cosA sinA) = r1
  obtain ⟨l, b, w, h⟩ := r
  obtain ⟨l1, b1, w1, h1⟩ := r1
  simp only [Mat.mul, Mat.one, Mat.rotation, Mat.translation, V2.sub, Mat.mk.injEq]
  grind

/-- C155: for a quarter turn, a half turn or none, the rotated frame has its corner where it was, with width and height exchanged for a quarter turn, and it
contains exactly the images of the points of the frame. -/
theorem C155_frame_partial (r : Rect) (hr : Spec.Proper r) (cosA sinA : Rat)
    (hq : (cosA = 1 ∧ sinA = 0) ∨ (cosA = 0 ∧ sinA = 1) ∨ (cosA = -1 ∧ sinA = 0) ∨ (cosA = 0 ∧ sinA = -1)) :
    r.mul (frameRotation r cosA sinA) = ⟨r.left, r.bottom, if sinA = 0 then r.width else r.height, if sinA = 0 then r.height else r.width⟩ ∧
    ∀ v : V2, Spec.In (r.mul (frameRotation r cosA sinA)) (v.mul (frameRotation r cosA sinA)).x (v.mul (frameRotation r cosA sinA)).y ↔ Spec.In r v.x v.y := by
  obtain ⟨l, b, w, h⟩ := r
  simp only [Spec.Proper] at hr
  have key : Rect.mul ⟨l, b, w, h⟩ (frameRotation ⟨l, b, w, h⟩ cosA sinA) = ⟨l, b, if sinA = 0 then w else h, if sinA = 0 then h else w⟩ := by
    rcases hq with ⟨h1, h2⟩ | ⟨h1, h2⟩ | ⟨h1, h2⟩ | ⟨h1, h2⟩ <;> subst h1 <;> subst h2 <;>
      (simp only [frameRotation, Rect.mul, Rect.fromCorners, Rect.right, Rect.top, V2.mul, V2.sub, Mat.mul, Mat.rotation, Mat.translation, Rect.mk.injEq]
       grind)
  refine ⟨key, ?_⟩
  intro v
  rw [key]
  obtain ⟨x, y⟩ := v
  rcases hq with ⟨h1, h2⟩ | ⟨h1, h2⟩ | ⟨h1, h2⟩ | ⟨h1, h2⟩ <;> subst h1 <;> subst h2 <;>
    (simp only [frameRotation, Rect.mul, Rect.fromCorners, Rect.right, Rect.top, V2.mul, V2.sub, Mat.mul, Mat.rotation, Mat.translation, Spec.In]
     grind)

/-- A portrait page turned by a quarter becomes a landscape page at the same corner. -/
example : Rect.mul ⟨10, 20, 30, 40⟩ (frameRotation ⟨10, 20, 30, 40⟩ 0 (-1)) = ⟨10, 20, 40, 30⟩ := by decide +kernel

theorem mul_signs (a c : Rat) (h : 0 ≤ a * c) : (0 ≤ a ∧ 0 ≤ c) ∨ (a ≤ 0 ∧ c ≤ 0) := by
  have pos : ∀ x y : Rat, 0 < x → y < 0 → x * y < 0 := by
    intro x y hx hy
    have := Rat.mul_pos hx (show 0 < -y by grind)
    grind
  rcases (by grind : a < 0 ∨ a = 0 ∨ 0 < a) with ha | ha | ha
  · rcases (by grind : c ≤ 0 ∨ 0 < c) with hc | hc
    · exact Or.inr ⟨by grind, hc⟩
    · have := pos c a hc ha; grind
  · rcases (by grind : c ≤ 0 ∨ 0 < c) with hc | hc
    · exact Or.inr ⟨by grind, hc⟩
    · exact Or.inl ⟨by grind, by grind⟩
  · rcases (by grind : c < 0 ∨ 0 ≤ c) with hc | hc
    · have := pos a c ha hc; grind
    · exact Or.inl ⟨by grind, hc⟩

theorem same_sign (a c w h : Rat) (hw : 0 < w) (hh : 0 < h)
    (hb : (0 ≤ a * w ∧ a * w ≤ a * w + c * h) ∨ (a * w ≤ 0 ∧ a * w + c * h ≤ a * w)) : 0 ≤ a * c := by
  have sign : ∀ x y : Rat, 0 < y → (0 ≤ x * y ↔ 0 ≤ x) := by
    intro x y hy
    constructor
    · intro hxy
      rcases mul_signs x y hxy with h | h <;> grind
    · intro hx; exact Rat.mul_nonneg hx (by grind)
  have neg : ∀ x y : Rat, 0 < y → x * y ≤ 0 → x ≤ 0 := by
    intro x y hy hxy
    have := (sign (-x) y hy).1 (by grind)
    grind
  rcases hb with ⟨h1, h2⟩ | ⟨h1, h2⟩
  · exact Rat.mul_nonneg ((sign a w hw).1 h1) ((sign c h hh).1 (by grind))
  · have := Rat.mul_nonneg (show 0 ≤ -a by have := neg a w hw h1; grind) (show 0 ≤ -c by have := neg c h hh (by grind); grind)
    grind

theorem span_image (a c : Rat) (hac : 0 ≤ a * c) (l w b h x y : Rat) (x1 : l ≤ x) (x2 : x ≤ l + w) (y1 : b ≤ y) (y2 : y ≤ b + h) :
    (a * l + c * b ≤ a * x + c * y ∧ a * x + c * y ≤ a * (l + w) + c * (b + h)) ∨
    (a * (l + w) + c * (b + h) ≤ a * x + c * y ∧ a * x + c * y ≤ a * l + c * b) := by
  rcases mul_signs a c hac with ⟨ha, hc⟩ | ⟨ha, hc⟩
  · left
    have h1 := Rat.mul_nonneg ha (show 0 ≤ x - l by grind)
    have h2 := Rat.mul_nonneg ha (show 0 ≤ l + w - x by grind)
    have h3 := Rat.mul_nonneg hc (show 0 ≤ y - b by grind)
    have h4 := Rat.mul_nonneg hc (show 0 ≤ b + h - y by grind)
    grind
  · right
    have h1 := Rat.mul_nonneg (show 0 ≤ -a by grind) (show 0 ≤ x - l by grind)
    have h2 := Rat.mul_nonneg (show 0 ≤ -a by grind) (show 0 ≤ l + w - x by grind)
    have h3 := Rat.mul_nonneg (show 0 ≤ -c by grind) (show 0 ≤ y - b by grind)
    have h4 := Rat.mul_nonneg (show 0 ≤ -c by grind) (show 0 ≤ b + h - y by grind)
    grind

/-- C155: a rectangle times a matrix contains the images of all its points exactly if the matrix does not mix coordinates with opposite signs: so for
scalings, reflections, translations and quarter turns. -/
theorem C155_rect_partial (r : Rect) (hw : 0 < r.width) (hh : 0 < r.height) (m : Mat) :
    (∀ v : V2, Spec.In r v.x v.y → Spec.In (r.mul m) (v.mul m).x (v.mul m).y) ↔ 0 ≤ m.a * m.c ∧ 0 ≤ m.b * m.d := by
  obtain ⟨l, b, w, h⟩ := r
  obtain ⟨ma, mb, mc, md, me, mf⟩ := m
  simp only at hw hh
  simp only [Spec.In, Rect.mul, Rect.fromCorners, Rect.right, Rect.top, V2.mul]
  constructor
  · intro hall
    have h1 := hall ⟨l + w, b⟩ ⟨by simp only; grind, by simp only; grind, by simp only; grind, by simp only; grind⟩
    simp only at h1
    obtain ⟨x1, x2, y1, y2⟩ := h1
    refine ⟨same_sign ma mc w h hw hh ?_, same_sign mb md w h hw hh ?_⟩
    · grind
    · grind
  · rintro ⟨hac, hbd⟩ ⟨x, y⟩ ⟨x1, x2, y1, y2⟩
    simp only at x1 x2 y1 y2 ⊢
    have kx := span_image ma mc hac l w b h x y x1 x2 y1 y2
    have ky := span_image mb md hbd l w b h x y x1 x2 y1 y2
    grind

/-- Turned by another angle, the square of side 5 becomes a rectangle of sides 1 and 7 that does not contain the image of its own corner. -/
example : Rect.mul ⟨0, 0, 5, 5⟩ (Mat.rotation ⟨0, 0⟩ (3 / 5) (4 / 5)) = ⟨-1, 0, 1, 7⟩ ∧ V2.mul ⟨5, 0⟩ (Mat.rotation ⟨0, 0⟩ (3 / 5) (4 / 5)) = ⟨3, 4⟩ := by decide +kernel

/-- C155, what is wrong: `Apply` is documented to prepend a translation.  It does so exactly if the matrix does not turn or shear in that direction; otherwise a
part of the translation is lost. -/
theorem C155_apply_false (m : Mat) (v : Rat) (hv : v ≠ 0) :
    (m.applyTx v = m.translate ⟨v, 0⟩ ↔ m.b = 0) ∧ (m.applyTy v = m.translate ⟨0, v⟩ ↔ m.c = 0) := by
  obtain ⟨a, b, c, d, e, f⟩ := m
  simp only [Mat.applyTx, Mat.applyTy, Mat.translate, Mat.mk.injEq, true_and]
  have cancel : ∀ z : Rat, v * z = 0 → z = 0 := by
    intro z hz
    rcases Rat.mul_eq_zero.1 hz with h | h
    · exact absurd h hv
    · exact h
  refine ⟨⟨fun h => cancel b (by grind), fun h => by subst h; grind⟩, ⟨fun h => cancel c (by grind), fun h => by subst h; grind⟩⟩

example : (Mat.applyTy ⟨0, 1, -1, 0, 7, 9⟩ 12) = ⟨0, 1, -1, 0, 7, 9⟩ ∧ Mat.translate ⟨0, 1, -1, 0, 7, 9⟩ ⟨0, 12⟩ = ⟨0, 1, -1, 0, -5, 9⟩ := by decide +kernel

end Pdfmm
