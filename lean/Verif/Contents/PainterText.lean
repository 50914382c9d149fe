import Verif.Contents.Painter

set_option autoImplicit false

/-! # Texts drawn by a painter -/

namespace Pdfmm

/-! ## C169: the text state -/

/-- The number of a rendering mode, ISO 32000-1, table 106. -/
def Spec.modeNumber : TextMode → Option Nat
  | .unknown => none
  | .fill => some 0 | .stroke => some 1 | .fillStroke => some 2 | .invisible => some 3 | .fillClip => some 4 | .strokeClip => some 5 | .fillStrokeClip => some 6 | .clip => some 7

/-- The text state with which a text is to be shown. -/
structure Spec.TextAsked (t : TSet) (s : Spec.GState) : Prop where
  font : s.font = t.font.map fun f => (f, t.size)
  scale : s.scale = t.scale * 100
  charSp : s.charSp = t.charSp
  wordSp : s.wordSp = t.wordSp
  mode : some s.mode = Spec.modeNumber t.mode

/-- The state after `writeTextState`. -/
def textStateAfter (t : TSet) (s : Spec.GState) : Spec.GState :=
  { s with
    font := match t.font with | some f => some (f, t.size) | none => s.font
    scale := if t.scale ≠ 1 then t.scale * 100 else s.scale
    charSp := if t.charSp ≠ 0 then t.charSp else s.charSp
    wordSp := if t.wordSp ≠ 0 then t.wordSp else s.wordSp
    mode := if t.mode ≠ .fill then t.mode.code else s.mode }

theorem ops_after (t : TSet) (s : Spec.GState × List Spec.GState) : Spec.GState.afterAll s t.ops = (textStateAfter t s.1, s.2) := by
  obtain ⟨font, size, scale, charSp, wordSp, mode⟩ := t
  unfold TSet.ops textStateAfter
  cases font <;> by_cases h1 : scale = 1 <;> by_cases h2 : charSp = 0 <;> by_cases h3 : wordSp = 0 <;> by_cases h4 : mode = .fill <;>
    simp [h1, h2, h3, h4, Spec.GState.afterAll, Spec.GState.after]

theorem texts_append (s : Spec.GState × List Spec.GState) (l m : List PntOp) : Spec.paintedTexts s (l ++ m) = Spec.paintedTexts s l ++ Spec.paintedTexts (Spec.GState.afterAll s l) m := by
  induction l generalizing s with
  | nil => rfl
  | cons o l ih =>
    cases o <;> first
      | exact ih _
      | exact congrArg (_ :: ·) (ih _)

theorem texts_ops (t : TSet) (s : Spec.GState × List Spec.GState) : Spec.paintedTexts s t.ops = [] := by
  obtain ⟨font, size, scale, charSp, wordSp, mode⟩ := t
  unfold TSet.ops
  cases font <;> by_cases h1 : scale = 1 <;> by_cases h2 : charSp = 0 <;> by_cases h3 : wordSp = 0 <;> by_cases h4 : mode = .fill <;>
    simp [h1, h2, h3, h4, Spec.paintedTexts]

/-- The texts on the canvas a painter draws on. -/
def Spec.shownWith (p : Pntr) : List (Bytes × Spec.GState) := Spec.paintedTexts ({}, []) p.out

/-- A text can be drawn with a font: it is UTF-8 and can be encoded. -/
def Spec.Drawable (env : PEnv) (f : Nat) (tab : Nat) (s : Bytes) (b : Bytes) : Prop := ∃ t, expandTabs tab s = .ok t ∧ env.encode f t = .ok b

theorem drawText_ok (env : PEnv) (p : Pntr) (hc : Spec.HasCanvas p) (ho : p.textOpen = false) (f : Nat) (hf : p.ts.font = some f) (s b : Bytes) (x y : Rat) (hd : Spec.Drawable env f p.tab s b) :
    p.drawText env s x y = ({ p with opened := true, out := p.out ++ .BT :: p.ts.ops ++ [.Td x y, .Tj b, .ET] }, .ok ()) := by
  obtain ⟨t, h1, h2⟩ := hd
  unfold Pntr.drawText Pntr.inObject
  rw [checked_canvas hc]
  simp only [ho, hf, Bool.false_eq_true, if_false]
  simp [Pntr.put, Pntr.drawString, Pntr.putString, endObject, h1, h2]

theorem drawText_shows (env : PEnv) (p : Pntr) (hc : Spec.HasCanvas p) (ho : p.textOpen = false) (f : Nat) (hf : p.ts.font = some f) (s b : Bytes) (x y : Rat) (hd : Spec.Drawable env f p.tab s b) :
    (p.drawText env s x y).2 = .ok () ∧ Spec.shownWith (p.drawText env s x y).1 = Spec.shownWith p ++ [(b, textStateAfter p.ts (Spec.drawsWith p))]
      ∧ Spec.drawsWith (p.drawText env s x y).1 = textStateAfter p.ts (Spec.drawsWith p) ∧ (p.drawText env s x y).1.ts = p.ts := by
  rw [drawText_ok env p hc ho f hf s b x y hd]
  refine ⟨rfl, ?_, ?_, rfl⟩
  · show Spec.paintedTexts _ (p.out ++ .BT :: p.ts.ops ++ [.Td x y, .Tj b, .ET]) = _
    rw [List.append_assoc, texts_append]
    congr 1
    show Spec.paintedTexts (Spec.GState.afterAll ({}, []) p.out) (p.ts.ops ++ [.Td x y, .Tj b, .ET]) = _
    rw [texts_append, texts_ops, ops_after]
    rfl
  · show (Spec.GState.afterAll _ (p.out ++ .BT :: p.ts.ops ++ [.Td x y, .Tj b, .ET])).1 = _
    rw [List.append_assoc, afterAll_append]
    show (Spec.GState.afterAll (Spec.GState.afterAll ({}, []) p.out) (p.ts.ops ++ [.Td x y, .Tj b, .ET])).1 = _
    rw [afterAll_append, ops_after]
    rfl

/-- `DrawText` shows the text, after whatever was done before, in the font and size that were set last. -/
theorem C169_font (env : PEnv) (p : Pntr) (hc : Spec.HasCanvas p) (ho : p.textOpen = false) (f : Nat) (hf : p.ts.font = some f) (s b : Bytes) (x y : Rat) (hd : Spec.Drawable env f p.tab s b) :
    (p.drawText env s x y).2 = .ok () ∧ ∃ g, Spec.shownWith (p.drawText env s x y).1 = Spec.shownWith p ++ [(b, g)] ∧ g.font = some (f, p.ts.size) := by
  obtain ⟨h1, h2, -, -⟩ := drawText_shows env p hc ho f hf s b x y hd
  exact ⟨h1, _, h2, by simp [textStateAfter, hf]⟩

/-- It shows it with the whole text state that was set exactly when each value that is left to its default is the one drawn with already, and the rendering mode is `Fill`. -/
theorem C169_text_partial (env : PEnv) (p : Pntr) (hc : Spec.HasCanvas p) (ho : p.textOpen = false) (f : Nat) (hf : p.ts.font = some f) (s b : Bytes) (x y : Rat) (hd : Spec.Drawable env f p.tab s b) :
    ∃ g, Spec.shownWith (p.drawText env s x y).1 = Spec.shownWith p ++ [(b, g)] ∧
      (Spec.TextAsked p.ts g ↔ (p.ts.scale = 1 → (Spec.drawsWith p).scale = 100) ∧ (p.ts.charSp = 0 → (Spec.drawsWith p).charSp = 0) ∧ (p.ts.wordSp = 0 → (Spec.drawsWith p).wordSp = 0)
        ∧ p.ts.mode = .fill ∧ (Spec.drawsWith p).mode = 0) := by
  obtain ⟨-, h2, -, -⟩ := drawText_shows env p hc ho f hf s b x y hd
  refine ⟨_, h2, ?_⟩
  generalize Spec.drawsWith p = d
  generalize p.ts = t at hf ⊢
  obtain ⟨font, size, scale, charSp, wordSp, mode⟩ := t
  simp only at hf
  subst hf
  constructor
  · rintro ⟨g1, g2, g3, g4, g5⟩
    simp only [textStateAfter] at g1 g2 g3 g4 g5
    refine ⟨?_, ?_, ?_, ?_⟩
    · rintro rfl; simpa using g2
    · rintro rfl; simpa using g3
    · rintro rfl; simpa using g4
    · cases mode <;> simp_all [Spec.modeNumber, TextMode.code]
  · rintro ⟨g2, g3, g4, g5, g6⟩
    simp only at g2 g3 g4 g5
    subst g5
    refine ⟨rfl, ?_, ?_, ?_, ?_⟩
    · by_cases h : scale = 1
      · simp [textStateAfter, h, g2 h]
      · simp [textStateAfter, h]
    · by_cases h : charSp = 0
      · simp [textStateAfter, h, g3 h]
      · simp [textStateAfter, h]
    · by_cases h : wordSp = 0
      · simp [textStateAfter, h, g4 h]
      · simp [textStateAfter, h]
    · simp [textStateAfter, g6, Spec.modeNumber]

/-- Every rendering mode is written with the number of the next one: texts to be stroked are filled and stroked, texts to be hidden are filled and clip. -/
theorem C169_mode_false (env : PEnv) (p : Pntr) (hc : Spec.HasCanvas p) (ho : p.textOpen = false) (f : Nat) (hf : p.ts.font = some f) (s b : Bytes) (x y : Rat) (hd : Spec.Drawable env f p.tab s b)
    (n : Nat) (hn : Spec.modeNumber p.ts.mode = some n) (hm : p.ts.mode ≠ .fill) :
    ∃ g, Spec.shownWith (p.drawText env s x y).1 = Spec.shownWith p ++ [(b, g)] ∧ g.mode = n + 1 := by
  obtain ⟨-, h2, -, -⟩ := drawText_shows env p hc ho f hf s b x y hd
  refine ⟨_, h2, ?_⟩
  simp only [textStateAfter, if_pos hm]
  revert hn hm
  cases p.ts.mode <;> simp [Spec.modeNumber, TextMode.code] <;> omega

theorem back_core (env : PEnv) (p : Pntr) (hc : Spec.HasCanvas p) (ho : p.textOpen = false) (f : Nat) (hf : p.ts.font = some f) (s b : Bytes) (x y : Rat) (hd : Spec.Drawable env f p.tab s b)
    (s' b' : Bytes) (x' y' : Rat) (hd' : Spec.Drawable env f p.tab s' b') (t : TSet) (ht : t.font = some f) (a : TArg)
    (ha : ∀ q : Pntr, q.ts = p.ts → q.textOpen = false → (q.setText a).1 = { q with ts := t }) :
    ((p.drawText env s x y).1.setText a).1.ts = t
      ∧ Spec.shownWith ((((p.drawText env s x y).1.setText a).1).drawText env s' x' y').1 = Spec.shownWith p ++ [(b, textStateAfter p.ts (Spec.drawsWith p)), (b', textStateAfter t (textStateAfter p.ts (Spec.drawsWith p)))] := by
  have h1 := drawText_ok env p hc ho f hf s b x y hd
  obtain ⟨-, h2, h3, h4⟩ := drawText_shows env p hc ho f hf s b x y hd
  have e := ha (p.drawText env s x y).1 h4 (by rw [h1]; exact ho)
  rw [e]
  obtain ⟨-, k2, -, -⟩ := drawText_shows env { (p.drawText env s x y).1 with ts := t } (by rw [h1]; exact hc) (by rw [h1]; exact ho) f ht s' b' x' y' (by rw [h1]; exact hd')
  refine ⟨rfl, ?_⟩
  have hdw : Spec.drawsWith { (p.drawText env s x y).1 with ts := t } = textStateAfter p.ts (Spec.drawsWith p) := h3
  have hsh : Spec.shownWith { (p.drawText env s x y).1 with ts := t } = Spec.shownWith p ++ [(b, textStateAfter p.ts (Spec.drawsWith p))] := h2
  rw [k2, hdw, hsh, List.append_assoc]
  rfl

/-- A scale, once drawn with, stays: after it was set back to 1 texts are still drawn with it. -/
theorem C169_scale_false (env : PEnv) (p : Pntr) (hc : Spec.HasCanvas p) (ho : p.textOpen = false) (f : Nat) (hf : p.ts.font = some f) (s b : Bytes) (x y : Rat) (hd : Spec.Drawable env f p.tab s b)
    (hs : p.ts.scale ≠ 1) (s' b' : Bytes) (x' y' : Rat) (hd' : Spec.Drawable env f p.tab s' b') :
    let p1 := ((p.drawText env s x y).1.setText (.scale 1)).1
    p1.ts.scale = 1 ∧ ∃ g g', Spec.shownWith (p1.drawText env s' x' y').1 = Spec.shownWith p ++ [(b, g), (b', g')] ∧ g'.scale = p.ts.scale * 100 ∧ g'.scale ≠ 100 := by
  obtain ⟨h1, h2⟩ := back_core env p hc ho f hf s b x y hd s' b' x' y' hd' { p.ts with scale := 1 } hf (.scale 1)
    (by intro q hq hqo; simp only [Pntr.setText, hq, if_neg hs, Pntr.writeOpen, hqo, Bool.false_eq_true, if_false])
  refine ⟨by rw [h1], _, _, h2, ?_, ?_⟩
  · simp [textStateAfter, hs]
  · simp only [textStateAfter, ne_eq, not_true_eq_false, if_false, hs, not_false_eq_true, if_true]
    intro h; exact hs (by grind)

/-- So do the spacings of characters and of words. -/
theorem C169_spacing_false (env : PEnv) (p : Pntr) (hc : Spec.HasCanvas p) (ho : p.textOpen = false) (f : Nat) (hf : p.ts.font = some f) (s b : Bytes) (x y : Rat) (hd : Spec.Drawable env f p.tab s b)
    (s' b' : Bytes) (x' y' : Rat) (hd' : Spec.Drawable env f p.tab s' b') :
    (p.ts.charSp ≠ 0 → let p1 := ((p.drawText env s x y).1.setText (.charSp 0)).1
      p1.ts.charSp = 0 ∧ ∃ g g', Spec.shownWith (p1.drawText env s' x' y').1 = Spec.shownWith p ++ [(b, g), (b', g')] ∧ g'.charSp = p.ts.charSp)
    ∧ (p.ts.wordSp ≠ 0 → let p1 := ((p.drawText env s x y).1.setText (.wordSp 0)).1
      p1.ts.wordSp = 0 ∧ ∃ g g', Spec.shownWith (p1.drawText env s' x' y').1 = Spec.shownWith p ++ [(b, g), (b', g')] ∧ g'.wordSp = p.ts.wordSp) := by
  constructor
  · intro hs
    obtain ⟨h1, h2⟩ := back_core env p hc ho f hf s b x y hd s' b' x' y' hd' { p.ts with charSp := 0 } hf (.charSp 0)
      (by intro q hq hqo; simp only [Pntr.setText, hq, if_neg hs, Pntr.writeOpen, hqo, Bool.false_eq_true, if_false])
    exact ⟨by rw [h1], _, _, h2, by simp [textStateAfter, hs]⟩
  · intro hs
    obtain ⟨h1, h2⟩ := back_core env p hc ho f hf s b x y hd s' b' x' y' hd' { p.ts with wordSp := 0 } hf (.wordSp 0)
      (by intro q hq hqo; simp only [Pntr.setText, hq, if_neg hs, Pntr.writeOpen, hqo, Bool.false_eq_true, if_false])
    exact ⟨by rw [h1], _, _, h2, by simp [textStateAfter, hs]⟩

theorem beginText_ok (p : Pntr) (hc : Spec.HasCanvas p) (ho : p.textOpen = false) (x y : Rat) :
    p.beginText x y = ({ p with opened := true, textOpen := true, out := p.out ++ [.BT, .Td x y] }, .ok ()) := by
  unfold Pntr.beginText
  rw [checked_canvas hc]
  simp only [ho, Bool.false_eq_true, if_false]
  rfl

theorem addText_ok (env : PEnv) (p : Pntr) (hc : Spec.HasCanvas p) (ho : p.textOpen = true) (f : Nat) (hf : p.ts.font = some f) (s b : Bytes) (hd : Spec.Drawable env f p.tab s b) :
    p.addText env s = ({ p with opened := true, out := p.out ++ [.Tj b] }, .ok ()) := by
  obtain ⟨t, h1, h2⟩ := hd
  unfold Pntr.addText
  rw [checked_canvas hc]
  simp only [hf, ho, if_true, h1, Pntr.putString, h2]
  rfl

/-- `BeginText` writes no text state: a text added after it is shown with what was drawn with before, whatever was set in between; in a new painter that is no font at all. -/
theorem C169_begin_false (env : PEnv) (p : Pntr) (hc : Spec.HasCanvas p) (ho : p.textOpen = false) (f : Nat) (size : Rat) (hne : ¬ (p.ts.font = some f ∧ p.ts.size = size)) (s b : Bytes) (x y : Rat)
    (hd : Spec.Drawable env f p.tab s b) :
    let p1 := p.run env [.setText (.font f size), .beginText x y]
    (p.setText (.font f size)).2 = .ok () ∧ (p1.addText env s).2 = .ok () ∧ p1.ts.font = some f ∧ p1.ts.size = size
      ∧ Spec.shownWith (p1.addText env s).1 = Spec.shownWith p ++ [(b, Spec.drawsWith p)] := by
  have hn : p.canvas.isNone = false := by
    unfold Spec.HasCanvas at hc
    cases h : p.canvas with
    | none => exact absurd h hc
    | some c => rfl
  have e1 : p.setText (.font f size) = ({ p with ts := { p.ts with font := some f, size := size } }, .ok ()) := by
    simp only [Pntr.setText]
    rw [if_neg hne]
    simp only [hn, Pntr.writeOpen, ho, Bool.false_eq_true, if_false]
  have e2 : p.run env [.setText (.font f size), .beginText x y] = { p with ts := { p.ts with font := some f, size := size }, opened := true, textOpen := true, out := p.out ++ [.BT, .Td x y] } := by
    show ((p.setText (.font f size)).1.beginText x y).1 = _
    rw [e1, beginText_ok { p with ts := { p.ts with font := some f, size := size } } hc ho]
  simp only
  rw [e2, e1]
  rw [addText_ok env { p with ts := { p.ts with font := some f, size := size }, opened := true, textOpen := true, out := p.out ++ [.BT, .Td x y] } hc rfl f rfl s b hd]
  refine ⟨rfl, rfl, rfl, rfl, ?_⟩
  show Spec.paintedTexts ({}, []) ((p.out ++ [.BT, .Td x y]) ++ [.Tj b]) = _
  rw [List.append_assoc, texts_append]
  rfl

/-- A painter whose font encodes every text as it is. -/
def exPEnv : PEnv := { encode := fun _ s => .ok s, len := fun _ s _ => s.length, spacing := fun _ t => t.size, ascent := fun _ t => t.size, descent := fun _ _ => 0 }

/-- In a new painter, `BeginText` after `SetFont` shows texts without a font. -/
theorem C169_nofont_false (env : PEnv) (c f : Nat) (size : Rat) (s b : Bytes) (x y : Rat) (hd : Spec.Drawable env f 4 s b) :
    ∃ g, Spec.shownWith (({} : Pntr).run env [.setCanvas c, .setText (.font f size), .beginText x y, .addText s]) = [(b, g)] ∧ g.font = none := by
  obtain ⟨-, -, -, -, h⟩ := C169_begin_false env (({} : Pntr).setCanvas c) (by simp [Spec.HasCanvas, Pntr.setCanvas]) rfl f size (by rintro ⟨h, -⟩; cases h) s b x y hd
  exact ⟨_, h, rfl⟩

/-- While a text is open, a setter that changes a value makes the texts after it use it at once, in every state. -/
theorem C169_open_partial (p : Pntr) (hc : Spec.HasCanvas p) (ho : p.textOpen = true) (t : TArg) :
    match t with
    | .font f z => ¬ (p.ts.font = some f ∧ p.ts.size = z) → (p.setText t).2 = .ok () ∧ (Spec.drawsWith (p.setText t).1) = { Spec.drawsWith p with font := some (f, z) }
    | .scale x => p.ts.scale ≠ x → (p.setText t).2 = .ok () ∧ (Spec.drawsWith (p.setText t).1) = { Spec.drawsWith p with scale := x * 100 }
    | .charSp x => p.ts.charSp ≠ x → (p.setText t).2 = .ok () ∧ (Spec.drawsWith (p.setText t).1) = { Spec.drawsWith p with charSp := x }
    | .wordSp x => p.ts.wordSp ≠ x → (p.setText t).2 = .ok () ∧ (Spec.drawsWith (p.setText t).1) = { Spec.drawsWith p with wordSp := x }
    | .mode m => p.ts.mode ≠ m → (p.setText t).2 = .ok () ∧ (Spec.drawsWith (p.setText t).1) = { Spec.drawsWith p with mode := m.code } := by
  have hn : p.canvas.isNone = false := by
    unfold Spec.HasCanvas at hc
    cases h : p.canvas with
    | none => exact absurd h hc
    | some c => rfl
  have key : ∀ (q : Pntr) (l : List PntOp), q.canvas = p.canvas → q.textOpen = p.textOpen → q.out = p.out → (q.writeOpen l).2 = .ok () ∧ Spec.drawsWith (q.writeOpen l).1 = (Spec.GState.afterAll (Spec.GState.afterAll ({}, []) p.out) l).1 := by
    intro q l h1 h2 h3
    have hq : Spec.HasCanvas q := by unfold Spec.HasCanvas; rw [h1]; exact hc
    unfold Pntr.writeOpen
    rw [h2, ho, if_pos rfl, Pntr.write, checked_canvas hq]
    refine ⟨rfl, ?_⟩
    show (Spec.GState.afterAll ({}, []) (q.out ++ l)).1 = _
    rw [h3, afterAll_append]
  cases t with
  | font f z =>
    intro hne
    simp only [Pntr.setText]
    rw [if_neg hne]
    simp only [hn, Bool.false_eq_true, if_false]
    exact key _ _ rfl rfl rfl
  | scale x => intro hne; simp only [Pntr.setText]; rw [if_neg hne]; exact key _ _ rfl rfl rfl
  | charSp x => intro hne; simp only [Pntr.setText]; rw [if_neg hne]; exact key _ _ rfl rfl rfl
  | wordSp x => intro hne; simp only [Pntr.setText]; rw [if_neg hne]; exact key _ _ rfl rfl rfl
  | mode m => intro hne; simp only [Pntr.setText]; rw [if_neg hne]; exact key _ _ rfl rfl rfl

/-- Setting `Fill` in an open text has the text stroked. -/
theorem C169_fill_false (p : Pntr) (hc : Spec.HasCanvas p) (ho : p.textOpen = true) (hm : p.ts.mode ≠ .fill) :
    some (Spec.drawsWith (p.setText (.mode .fill)).1).mode = Spec.modeNumber .stroke := by
  rw [(C169_open_partial p hc ho (.mode .fill) hm).2]; rfl

/-- A painter about to draw a text of 12 points at twice the width. -/
def exTextPainter : Pntr := ({} : Pntr).run exPEnv [.setCanvas 1, .setText (.font 7 12), .setText (.scale 2), .setText (.mode .stroke)]

example : Spec.HasCanvas exTextPainter ∧ exTextPainter.textOpen = false ∧ exTextPainter.ts.font = some 7 ∧ Spec.Drawable exPEnv 7 exTextPainter.tab [72, 105] [72, 105] ∧ exTextPainter.ts.scale ≠ 1
    ∧ Spec.modeNumber exTextPainter.ts.mode = some 1 ∧ (exTextPainter.drawText exPEnv [72, 105] 10 20).1.out = [.BT, .Tf 7 12, .Tz 200, .Tr 2, .Td 10 20, .Tj [72, 105], .ET] := by
  refine ⟨?_, by decide +kernel, by decide +kernel, ⟨[72, 105], by decide +kernel, rfl⟩, by decide +kernel, by decide +kernel, by decide +kernel⟩
  show exTextPainter.canvas ≠ none
  decide +kernel

/-! ## C170: text objects -/

/-- Operators inside and outside of text objects, ISO 32000-1, 8.2 and 9.4.1: text objects are not nested, and texts are positioned and shown in them only. With `strict`, `q`, `Q`, `cm` and
operators for paths are allowed outside only. -/
def Spec.nestStep (strict : Bool) (inText : Bool) : PntOp → Option Bool
  | .BT => if inText then none else some true
  | .ET => if inText then some false else none
  | .Td _ _ | .Tj _ => if inText then some true else none
  | .q | .Q | .cm _ | .path _ | .paint _ => if strict && inText then none else some inText
  | .lt => none
  | _ => some inText

/-- Whether operators may follow each other, and whether they end inside of a text object. -/
def Spec.objNest (strict : Bool) : Bool → List PntOp → Option Bool
  | b, [] => some b
  | b, o :: l => match Spec.nestStep strict b o with
    | none => none
    | some b' => Spec.objNest strict b' l

/-- The canvas is not changed between `BeginText` and `EndText`. -/
def Spec.Switches : Bool → List PCall → Prop
  | _, [] => True
  | o, .setCanvas _ :: l => o = false ∧ Spec.Switches o l
  | o, .finish :: l => o = false ∧ Spec.Switches o l
  | _, .beginText _ _ :: l => Spec.Switches true l
  | _, .endText :: l => Spec.Switches false l
  | o, _ :: l => Spec.Switches o l

/-- There is no drawing, saving or restoring between `BeginText` and `EndText`, nor `DrawMultiLineText` anywhere. -/
def Spec.TextOnly : Bool → List PCall → Prop
  | _, [] => True
  | _, .multi _ _ _ _ _ _ _ _ :: _ => False
  | o, .save :: l => o = false ∧ Spec.TextOnly o l
  | o, .restore :: l => o = false ∧ Spec.TextOnly o l
  | o, .path _ :: l => o = false ∧ Spec.TextOnly o l
  | o, .paint _ :: l => o = false ∧ Spec.TextOnly o l
  | o, .set (.ctm _) :: l => o = false ∧ Spec.TextOnly o l
  | _, .beginText _ _ :: l => Spec.TextOnly true l
  | _, .endText :: l => Spec.TextOnly false l
  | o, _ :: l => Spec.TextOnly o l

/-- The texts of a program are UTF-8. -/
def Spec.Utf8Texts (l : List PCall) : Prop :=
  ∀ c ∈ l, match c with
    | .drawText s _ _ | .aligned s _ _ _ _ | .multi s _ _ _ _ _ _ _ | .addText s => utf8Decode s ≠ none
    | _ => True

theorem nest_append (strict b : Bool) (l m : List PntOp) : Spec.objNest strict b (l ++ m) = (Spec.objNest strict b l).bind fun b' => Spec.objNest strict b' m := by
  induction l generalizing b with
  | nil => rfl
  | cons o l ih =>
    simp only [List.cons_append, Spec.objNest]
    cases Spec.nestStep strict b o with
    | none => rfl
    | some b' => exact ih b'

theorem nest_ops (strict b : Bool) (t : TSet) : Spec.objNest strict b t.ops = some b := by
  obtain ⟨font, size, scale, charSp, wordSp, mode⟩ := t
  unfold TSet.ops
  cases font <;> by_cases h1 : scale = 1 <;> by_cases h2 : charSp = 0 <;> by_cases h3 : wordSp = 0 <;> by_cases h4 : mode = .fill <;>
    simp [h1, h2, h3, h4, Spec.objNest, Spec.nestStep]

theorem expandTabs_ok (n : Nat) (s : Bytes) (h : utf8Decode s ≠ none) : ∃ t, expandTabs n s = .ok t := by
  unfold expandTabs
  cases hd : utf8Decode s with
  | none => exact absurd hd h
  | some cps =>
    simp only
    split
    · exact ⟨_, rfl⟩
    · exact ⟨_, rfl⟩

/-- The painter wrote operators that leave a text open that was, and nothing else but the text state and the graphics state changed. -/
def Nested (strict : Bool) (p : Pntr) (r : Pntr × Res Unit) : Prop :=
  ∃ l, r.1.out = p.out ++ l ∧ Spec.objNest strict p.textOpen l = some r.1.textOpen ∧ r.1.done = p.done ∧ r.1.canvas = p.canvas ∧ (r.1.opened = true → p.opened = true ∨ p.canvas ≠ none)

theorem Nested.refl {strict : Bool} {p : Pntr} {u : Res Unit} : Nested strict p (p, u) := ⟨[], by simp, rfl, rfl, rfl, Or.inl⟩

theorem Nested.put {strict : Bool} {p : Pntr} {u : Res Unit} {l : List PntOp} (h : Spec.objNest strict p.textOpen l = some p.textOpen) : Nested strict p (p.put l, u) := ⟨l, rfl, h, rfl, rfl, Or.inl⟩

theorem checked_nested {strict : Bool} {p : Pntr} {k : Pntr → Pntr × Res Unit} (h : Nested strict { p with opened := true } (k { p with opened := true })) : Nested strict p (p.checked k) := by
  unfold Pntr.checked
  split
  · rename_i ho
    have : { p with opened := true } = p := by rw [← ho]
    rw [this] at h; exact h
  · split
    · exact Nested.refl
    · rename_i c hc
      obtain ⟨l, e1, e2, e3, e4, -⟩ := h
      exact ⟨l, e1, e2, e3, e4, fun _ => .inr (by rw [hc]; exact Option.some_ne_none c)⟩

theorem write_nested {strict : Bool} {p q : Pntr} (h1 : q.out = p.out) (h2 : q.textOpen = p.textOpen) (h3 : q.done = p.done) (h4 : q.canvas = p.canvas) (h5 : q.opened = p.opened) {l : List PntOp}
    (h : Spec.objNest strict p.textOpen l = some p.textOpen) : Nested strict p (q.write l) := by
  have : Nested strict q (q.write l) := checked_nested (Nested.put (by rw [← h2] at h; exact h))
  obtain ⟨m, e1, e2, e3, e4, e5⟩ := this
  exact ⟨m, by rw [e1, h1], by rw [h2] at e2; exact e2, e3.trans h3, e4.trans h4, by rw [h4, h5] at e5; exact e5⟩

theorem writeOpen_nested {strict : Bool} {p q : Pntr} (h1 : q.out = p.out) (h2 : q.textOpen = p.textOpen) (h3 : q.done = p.done) (h4 : q.canvas = p.canvas) (h5 : q.opened = p.opened) {l : List PntOp}
    (h : Spec.objNest strict p.textOpen l = some p.textOpen) : Nested strict p (q.writeOpen l) := by
  unfold Pntr.writeOpen
  split
  · exact write_nested h1 h2 h3 h4 h5 h
  · exact ⟨[], by simp [h1], by simp [Spec.objNest, h2], h3, h4, fun h => .inl (h5.symm.trans h)⟩

theorem inObject_nested {strict : Bool} {p : Pntr} {k : Pntr → Nat → Pntr × Res Unit}
    (h : ∀ q f, ∃ l, k q f = (q.put l, .ok ()) ∧ Spec.objNest strict true l = some true) : Nested strict p (p.inObject k) := by
  refine checked_nested ?_
  split
  · exact Nested.refl
  · rename_i ho
    split
    · exact Nested.refl
    · rename_i f hf
      obtain ⟨l, e, hl⟩ := h (({ p with opened := true } : Pntr).put (.BT :: p.ts.ops)) f
      simp only [e, endObject]
      have ho' : p.textOpen = false := by simpa using ho
      refine ⟨(.BT :: p.ts.ops) ++ l ++ [.ET], by simp [Pntr.put], ?_, rfl, rfl, Or.inl⟩
      show Spec.objNest strict p.textOpen _ = some p.textOpen
      rw [ho', nest_append, nest_append]
      have : Spec.objNest strict false (.BT :: p.ts.ops) = some true := by
        show Spec.objNest strict true p.ts.ops = _
        exact nest_ops strict true p.ts
      simp only [this, Option.bind, hl]
      rfl

/-- Every text can be encoded. -/
def Spec.EncodesAll (env : PEnv) : Prop := ∀ f s, ∃ b, env.encode f s = .ok b

theorem drawString_all {strict : Bool} {env : PEnv} (he : Spec.EncodesAll env) (q : Pntr) (f : Nat) {s : Bytes} (hs : utf8Decode s ≠ none) (x y : Rat) :
    ∃ l, q.drawString env f s x y = (q.put l, .ok ()) ∧ Spec.objNest strict true l = some true := by
  obtain ⟨t, ht⟩ := expandTabs_ok q.tab s hs
  obtain ⟨b, hb⟩ := he f t
  exact ⟨[.Td x y, .Tj b], by simp [Pntr.drawString, ht, Pntr.putString, hb, Pntr.put], rfl⟩

/-- What a code point becomes. -/
def tabOut (n : Nat) (c : Nat) : List Nat := (if c = 9 then List.replicate n 32 else []) ++ [c]

theorem expandTabs_decode (n : Nat) (s : Bytes) (cps : List Nat) (h : utf8Decode s = some cps) : ∃ t, expandTabs n s = .ok t ∧ utf8Decode t = some (cps.flatMap (tabOut n)) := by
  obtain ⟨hs, he⟩ := utf8_encode_decode h
  unfold expandTabs
  rw [h]
  simp only
  split
  · refine ⟨_, rfl, utf8_decode_encode _ ?_⟩
    intro c hc
    obtain ⟨d, hd, hcd⟩ := List.mem_flatMap.1 hc
    rcases List.mem_append.1 hcd with h1 | h1
    · split at h1
      · rw [(List.mem_replicate.1 h1).2]; left; omega
      · cases h1
    · rw [List.mem_singleton.1 h1]; exact hs d hd
  · rename_i hn
    refine ⟨s, rfl, ?_⟩
    rw [h]
    congr 1
    have : ∀ l : List Nat, 9 ∉ l → l = l.flatMap (tabOut n) := by
      intro l
      induction l with
      | nil => intro _; rfl
      | cons c l ih =>
        intro h9
        simp only [List.mem_cons, not_or] at h9
        rw [List.flatMap_cons, ← ih h9.2]
        simp [tabOut, Ne.symm h9.1]
    exact this cps hn

theorem utf8Decode_expand (n : Nat) (s t : Bytes) (hs : utf8Decode s ≠ none) (h : expandTabs n s = .ok t) : utf8Decode t ≠ none := by
  cases hd : utf8Decode s with
  | none => exact absurd hd hs
  | some cps =>
    obtain ⟨t', e1, e2⟩ := expandTabs_decode n s cps hd
    rw [h] at e1; cases e1
    rw [e2]; exact Option.some_ne_none _

theorem drawMulti_all {env : PEnv} (he : Spec.EncodesAll env) (q : Pntr) (f : Nat) {s : Bytes} (hs : utf8Decode s ≠ none) (x y w h : Rat) (a : HAlign) (v : VAlign) (c : Bool) :
    ∃ l, q.drawMulti env f s x y w h a v c = (q.put l, .ok ()) ∧ Spec.objNest false true l = some true := by
  obtain ⟨t, ht⟩ := expandTabs_ok q.tab s hs
  have ht2 := utf8Decode_expand q.tab s t hs ht
  unfold Pntr.drawMulti
  have hm : Spec.objNest false true (.q :: if c then [PntOp.path (.rect x y w h), .paint .clip] else []) = some true := by cases c <;> rfl
  generalize (if c then [PntOp.path (.rect x y w h), .paint .clip] else []) = m at hm ⊢
  simp only
  have ht' : expandTabs (q.put (.q :: m)).tab s = .ok t := ht
  rw [ht']
  cases t with
  | nil => exact ⟨(.q :: m) ++ [.Q], by simp [Pntr.put], by rw [nest_append, hm]; rfl⟩
  | cons b t =>
    simp only [Pntr.drawAligned]
    obtain ⟨l, e, hl⟩ := drawString_all (strict := false) he (q.put (.q :: m)) f ht2 (alignX env (q.put (.q :: m)).ts f (b :: t) x w a) (multiY env (q.put (.q :: m)).ts f y h v)
    rw [e]
    refine ⟨((.q :: m) ++ l) ++ [.Q], by simp [Pntr.put], ?_⟩
    rw [nest_append, nest_append, hm]
    simp only [Option.bind, hl]
    rfl

/-- The calls after which the text may be open or not. -/
def openAfter (o : Bool) : PCall → Bool
  | .beginText _ _ => true
  | .endText => false
  | _ => o

/-- What holds after every program. -/
structure NestInv (strict : Bool) (p : Pntr) (o : Bool) : Prop where
  open_le : p.textOpen = true → o = true
  canvas : p.textOpen = true → p.canvas ≠ none
  opened : p.opened = true → p.canvas ≠ none
  out : Spec.objNest strict false p.out = some p.textOpen
  done : ∀ d ∈ p.done, Spec.objNest strict false d.2 = some false

theorem NestInv.of_nested {strict : Bool} {p : Pntr} {o : Bool} (hi : NestInv strict p o) {r : Pntr × Res Unit} (h : Nested strict p r) (o' : Bool) (ho : r.1.textOpen = true → o' = true)
    (hc : r.1.textOpen = true → p.canvas ≠ none) : NestInv strict r.1 o' := by
  obtain ⟨l, e1, e2, e3, e4, e5⟩ := h
  refine ⟨ho, by rw [e4]; exact hc, by rw [e4]; exact fun h => (e5 h).elim hi.opened id, ?_, by rw [e3]; exact hi.done⟩
  rw [e1, nest_append, hi.out]
  exact e2

theorem NestInv.same {strict : Bool} {p : Pntr} {o : Bool} (hi : NestInv strict p o) {r : Pntr × Res Unit} (h : Nested strict p r) (ht : r.1.textOpen = p.textOpen) : NestInv strict r.1 o :=
  hi.of_nested h o (by rw [ht]; exact hi.open_le) (by rw [ht]; exact hi.canvas)

theorem checked_textOpen {p : Pntr} {k : Pntr → Pntr × Res Unit} (h : ∀ q : Pntr, q.textOpen = p.textOpen → (k q).1.textOpen = p.textOpen) : (p.checked k).1.textOpen = p.textOpen := by
  unfold Pntr.checked
  split
  · exact h p rfl
  · split
    · rfl
    · exact h _ rfl

theorem endObject_textOpen (r : Pntr × Res Unit) : (endObject r).1.textOpen = r.1.textOpen := by
  unfold endObject; split <;> rfl

theorem drawString_textOpen (env : PEnv) (q : Pntr) (f : Nat) (s : Bytes) (x y : Rat) : (q.drawString env f s x y).1.textOpen = q.textOpen := by
  unfold Pntr.drawString
  split
  · rfl
  · unfold Pntr.putString; split <;> rfl

theorem drawMulti_textOpen (env : PEnv) (q : Pntr) (f : Nat) (s : Bytes) (x y w h : Rat) (a : HAlign) (v : VAlign) (c : Bool) : (q.drawMulti env f s x y w h a v c).1.textOpen = q.textOpen := by
  unfold Pntr.drawMulti
  simp only
  split
  · rfl
  · rfl
  · unfold Pntr.drawAligned
    generalize hm : (q.put (.q :: if c then [PntOp.path (.rect x y w h), .paint .clip] else [])) = q'
    have hq : q'.textOpen = q.textOpen := by rw [← hm]; rfl
    rename_i b t _
    have := drawString_textOpen env q' f (b :: t) (alignX env q'.ts f (b :: t) x w a) (multiY env q'.ts f y h v)
    split
    · rename_i p2 e heq; rw [heq] at this; exact this.trans hq
    · rename_i p2 u heq; rw [heq] at this; exact this.trans hq

theorem inObject_textOpen {p : Pntr} {k : Pntr → Nat → Pntr × Res Unit} (h : ∀ q f, (k q f).1.textOpen = q.textOpen) : (p.inObject k).1.textOpen = p.textOpen := by
  refine checked_textOpen ?_
  intro q hq
  split
  · exact hq
  · split
    · exact hq
    · rw [endObject_textOpen, h]; exact hq

theorem write_textOpen (p : Pntr) (l : List PntOp) : (p.write l).1.textOpen = p.textOpen := checked_textOpen fun _ h => h

theorem set_nested {strict : Bool} {p : Pntr} {a : GArg} (ha : strict = true → p.textOpen = true → ∀ m, a ≠ .ctm m) : Nested strict p (p.set a) ∧ (p.set a).1.textOpen = p.textOpen := by
  cases a with
  | ctm m =>
    simp only [Pntr.set]
    split
    · exact ⟨Nested.refl, rfl⟩
    · refine ⟨write_nested rfl rfl rfl rfl rfl ?_, write_textOpen _ _⟩
      cases hs : strict <;> cases ho : p.textOpen <;> simp [Spec.objNest, Spec.nestStep]
      exact absurd rfl (ha hs ho m)
  | fill c =>
    simp only [Pntr.set]
    split
    · exact ⟨Nested.refl, rfl⟩
    · have hn : Nested strict { p with gs := { p.gs with fill := c } } (Pntr.writeColor { p with gs := { p.gs with fill := c } } c .fill) := by
        refine checked_nested ?_
        split
        · exact Nested.put (by simp [Spec.objNest, Spec.nestStep])
        · exact Nested.refl
      refine ⟨hn, checked_textOpen ?_⟩
      intro q hq; split <;> exact hq
  | stroke c =>
    simp only [Pntr.set]
    split
    · exact ⟨Nested.refl, rfl⟩
    · have hn : Nested strict { p with gs := { p.gs with stroke := c } } (Pntr.writeColor { p with gs := { p.gs with stroke := c } } c .stroke) := by
        refine checked_nested ?_
        split
        · exact Nested.put (by simp [Spec.objNest, Spec.nestStep])
        · exact Nested.refl
      refine ⟨hn, checked_textOpen ?_⟩
      intro q hq; split <;> exact hq
  | width x => 
    simp only [Pntr.set]
    split
    · exact ⟨Nested.refl, rfl⟩
    · exact ⟨write_nested rfl rfl rfl rfl rfl (by simp [Spec.objNest, Spec.nestStep]), write_textOpen _ _⟩
  | miter x =>
    simp only [Pntr.set]
    split
    · exact ⟨Nested.refl, rfl⟩
    · exact ⟨write_nested rfl rfl rfl rfl rfl (by simp [Spec.objNest, Spec.nestStep]), write_textOpen _ _⟩
  | cap x =>
    simp only [Pntr.set]
    split
    · exact ⟨Nested.refl, rfl⟩
    · exact ⟨write_nested rfl rfl rfl rfl rfl (by simp [Spec.objNest, Spec.nestStep]), write_textOpen _ _⟩
  | join x =>
    simp only [Pntr.set]
    split
    · exact ⟨Nested.refl, rfl⟩
    · exact ⟨write_nested rfl rfl rfl rfl rfl (by simp [Spec.objNest, Spec.nestStep]), write_textOpen _ _⟩
  | intent x =>
    simp only [Pntr.set]
    split
    · exact ⟨Nested.refl, rfl⟩
    · exact ⟨write_nested rfl rfl rfl rfl rfl (by simp [Spec.objNest, Spec.nestStep]), write_textOpen _ _⟩

theorem writeOpen_textOpen (p : Pntr) (l : List PntOp) : (p.writeOpen l).1.textOpen = p.textOpen := by
  unfold Pntr.writeOpen; split
  · exact write_textOpen p l
  · rfl

theorem setText_nested {strict : Bool} {p : Pntr} (a : TArg) : Nested strict p (p.setText a) ∧ (p.setText a).1.textOpen = p.textOpen := by
  cases a <;> simp only [Pntr.setText] <;> split
  all_goals first
    | exact ⟨Nested.refl, rfl⟩
    | exact ⟨writeOpen_nested rfl rfl rfl rfl rfl (by simp [Spec.objNest, Spec.nestStep]), writeOpen_textOpen _ _⟩
    | skip
  split
  · exact ⟨⟨[], by simp, rfl, rfl, rfl, Or.inl⟩, rfl⟩
  · exact ⟨writeOpen_nested rfl rfl rfl rfl rfl (by simp [Spec.objNest, Spec.nestStep]), writeOpen_textOpen _ _⟩

theorem flush_done {strict : Bool} {p : Pntr} (h : Spec.objNest strict false p.out = some false) (hd : ∀ d ∈ p.done, Spec.objNest strict false d.2 = some false) :
    ∀ d ∈ p.flush.done, Spec.objNest strict false d.2 = some false := by
  intro d hd'
  simp only [Pntr.flush] at hd'
  split at hd'
  · rcases List.mem_append.1 hd' with h1 | h1
    · exact hd d h1
    · rw [List.mem_singleton.1 h1]; exact h
  · exact hd d hd'

/-- One call of a program keeps the text objects apart. -/
theorem call_nest {strict : Bool} {env : PEnv} (he : Spec.EncodesAll env) {p : Pntr} {o : Bool} (hi : NestInv strict p o) (c : PCall) (hu : Spec.Utf8Texts [c]) (hsw : Spec.Switches o [c])
    (hst : strict = true → Spec.TextOnly o [c]) : NestInv strict (p.call env c).1 (openAfter o c) := by
  have hu' := hu c (by simp)
  have hof : strict = true → o = false → p.textOpen = false := by
    intro _ h
    cases ht : p.textOpen with
    | false => rfl
    | true => have := hi.open_le ht; rw [h] at this; cases this
  have hplain : ∀ op : PntOp, (∀ b, Spec.nestStep false b op = some b) → (strict = true → Spec.nestStep true false op = some false) → (strict = true → o = false) →
      NestInv strict (p.write [op]).1 o := by
    intro op h1 h2 h3
    refine hi.same (write_nested rfl rfl rfl rfl rfl ?_) (write_textOpen _ _)
    cases hs : strict with
    | false => simp [Spec.objNest, h1]
    | true => rw [hof hs (h3 hs)]; simp [Spec.objNest, h2 hs]
  cases c with
  | setCanvas n =>
    obtain ⟨ho, -⟩ := hsw
    have ht : p.textOpen = false := by
      cases ht : p.textOpen with
      | false => rfl
      | true => have := hi.open_le ht; rw [ho] at this; cases this
    show NestInv strict (p.setCanvas n) o
    unfold Pntr.setCanvas
    split
    · exact hi
    · refine ⟨?_, fun _ => by simp, fun _ => by simp, ?_, flush_done (by rw [hi.out, ht]) hi.done⟩
      · intro h; exact absurd (show p.textOpen = true from h) (by rw [ht]; decide)
      · show some false = some p.textOpen; rw [ht]
  | finish =>
    obtain ⟨ho, -⟩ := hsw
    have ht : p.textOpen = false := by
      cases ht : p.textOpen with
      | false => rfl
      | true => have := hi.open_le ht; rw [ho] at this; cases this
    refine ⟨?_, ?_, (fun h => by cases h), ?_, flush_done (by rw [hi.out, ht]) hi.done⟩
    · intro h; exact absurd (show p.textOpen = true from h) (by rw [ht]; decide)
    · intro h; exact absurd (show p.textOpen = true from h) (by rw [ht]; decide)
    · show some false = some p.textOpen; rw [ht]
  | save => exact hplain .q (fun b => by cases b <;> rfl) (fun _ => rfl) (fun h => (hst h).1)
  | restore => exact hplain .Q (fun b => by cases b <;> rfl) (fun _ => rfl) (fun h => (hst h).1)
  | path x => exact hplain (.path x) (fun b => by cases b <;> rfl) (fun _ => rfl) (fun h => (hst h).1)
  | paint x => exact hplain (.paint x) (fun b => by cases b <;> rfl) (fun _ => rfl) (fun h => (hst h).1)
  | set a =>
    obtain ⟨h1, h2⟩ := set_nested (strict := strict) (p := p) (a := a) (by
      rintro hs ho m rfl
      have := (hst hs).1
      rw [this] at hi
      exact absurd (hi.open_le ho) (by decide))
    exact hi.same h1 h2
  | setText a =>
    obtain ⟨h1, h2⟩ := setText_nested (strict := strict) (p := p) a
    exact hi.same h1 h2
  | setTab n => exact hi.same ⟨[], by simp [Pntr.call], rfl, rfl, rfl, Or.inl⟩ rfl
  | drawText s x y => exact hi.same (inObject_nested fun q f => drawString_all he q f hu' x y) (inObject_textOpen fun q f => drawString_textOpen env q f s x y)
  | aligned s x y w h =>
    show NestInv strict (p.drawTextAligned env s x y w h).1 o
    unfold Pntr.drawTextAligned
    split
    · exact hi
    · exact hi.same (inObject_nested fun q f => drawString_all he q f hu' _ y) (inObject_textOpen fun q f => drawString_textOpen env q f s _ y)
  | multi s x y w h a v cl =>
    have hs : strict = false := by
      cases hs : strict with
      | false => rfl
      | true => exact (hst hs).elim
    subst hs
    refine hi.same (checked_nested ?_) (checked_textOpen ?_)
    · split
      · exact Nested.refl
      · split
        · exact Nested.refl
        · split
          · exact Nested.refl
          · exact inObject_nested fun q f => drawMulti_all he q f hu' x y w h a v cl
    · intro q hq
      split
      · exact hq
      · split
        · exact hq
        · split
          · exact hq
          · rw [inObject_textOpen fun q f => drawMulti_textOpen env q f s x y w h a v cl]; exact hq
  | beginText x y =>
    refine hi.of_nested (checked_nested ?_) true (fun _ => rfl) ?_
    · split
      · exact Nested.refl
      · rename_i ho
        have ho' : p.textOpen = false := by simpa using ho
        refine ⟨[.BT, .Td x y], rfl, ?_, rfl, rfl, Or.inl⟩
        show Spec.objNest strict p.textOpen _ = _
        rw [ho']; rfl
    · intro h hc
      by_cases ht : p.textOpen = true
      · exact hi.canvas ht hc
      · by_cases hop : p.opened
        · exact hi.opened hop hc
        · have : (p.call env (.beginText x y)).1 = p := by
            show (p.beginText x y).1 = p
            unfold Pntr.beginText Pntr.checked
            rw [if_neg hop, hc]
          exact ht ((congrArg Pntr.textOpen this).symm.trans h)
  | moveText x y =>
    refine hi.same (checked_nested ?_) (checked_textOpen ?_)
    · split
      · rename_i ho; exact Nested.put (by rw [ho]; rfl)
      · exact Nested.refl
    · intro q hq; split <;> exact hq
  | addText s =>
    refine hi.same (checked_nested ?_) (checked_textOpen ?_)
    · split
      · exact Nested.refl
      · split
        · rename_i f hf ho
          obtain ⟨t, ht⟩ := expandTabs_ok p.tab s hu'
          obtain ⟨b, hb⟩ := he f t
          simp only [ht, Pntr.putString, hb]
          exact Nested.put (by rw [ho]; rfl)
        · exact Nested.refl
    · intro q hq
      split
      · exact hq
      · split
        · split
          · exact hq
          · unfold Pntr.putString; split <;> exact hq
        · exact hq
  | endText =>
    have hn : Nested strict p (p.endText) := by
      refine checked_nested ?_
      split
      · rename_i ho
        refine ⟨[.ET], rfl, ?_, rfl, rfl, Or.inl⟩
        show Spec.objNest strict p.textOpen _ = _
        have : p.textOpen = true := ho
        rw [this]; rfl
      · exact Nested.refl
    have hclosed : (p.endText).1.textOpen = false := by
      by_cases ht : p.textOpen = true
      · unfold Pntr.endText
        rw [checked_canvas (hi.canvas ht)]
        simp only [ht, if_true]
      · have ht' : p.textOpen = false := by simpa using ht
        unfold Pntr.endText Pntr.checked
        split
        · simp [ht']
        · split
          · exact ht'
          · simp [ht']
    refine hi.of_nested hn false ?_ ?_
    · intro h; rw [hclosed] at h; cases h
    · intro h; rw [hclosed] at h; cases h

theorem run_nest {strict : Bool} {env : PEnv} (he : Spec.EncodesAll env) (h : List PCall) : ∀ {p : Pntr} {o : Bool}, NestInv strict p o → Spec.Utf8Texts h → Spec.Switches o h →
    (strict = true → Spec.TextOnly o h) → ∃ o', NestInv strict (p.run env h) o' := by
  induction h with
  | nil => intro p o hi _ _ _; exact ⟨o, hi⟩
  | cons c h ih =>
    intro p o hi hu hs ht
    have h1 : Spec.Switches o [c] ∧ Spec.Switches (openAfter o c) h := by
      cases c <;> first | exact ⟨⟨hs.1, trivial⟩, hs.2⟩ | exact ⟨trivial, hs⟩
    have h2 : strict = true → Spec.TextOnly o [c] ∧ Spec.TextOnly (openAfter o c) h := by
      intro e
      have ht := ht e
      cases c with
      | set a => cases a <;> first | exact ⟨⟨ht.1, trivial⟩, ht.2⟩ | exact ⟨trivial, ht⟩
      | multi => exact ht.elim
      | _ => first | exact ⟨⟨ht.1, trivial⟩, ht.2⟩ | exact ⟨trivial, ht⟩
    have := call_nest he hi c (fun d hd => hu d (by simp at hd; simp [hd])) h1.1 (fun e => (h2 e).1)
    exact ih this (fun d hd => hu d (List.mem_cons_of_mem _ hd)) h1.2 (fun e => (h2 e).2)

theorem fresh_nest (strict : Bool) : NestInv strict ({} : Pntr) false := ⟨(fun h => by cases h), (fun h => by cases h), (fun h => by cases h), rfl, (fun _ h => by cases h)⟩

/-- Whatever the program, if texts are UTF-8 and can be encoded and the canvas is not changed between `BeginText` and `EndText`, text objects are not nested in each other, text is
shown and moved in text objects only, every canvas that was finished has all of its text objects closed, and the current one has an open one only if `BeginText` opened it. -/
theorem C170_text_partial (env : PEnv) (he : Spec.EncodesAll env) (h : List PCall) (hu : Spec.Utf8Texts h) (hs : Spec.Switches false h) :
    Spec.objNest false false (({} : Pntr).run env h).out = some (({} : Pntr).run env h).textOpen ∧ ∀ d ∈ (({} : Pntr).run env h).done, Spec.objNest false false d.2 = some false := by
  obtain ⟨o, hi⟩ := run_nest (strict := false) he h (fresh_nest false) hu hs (by intro e; cases e)
  exact ⟨hi.out, hi.done⟩

/-- And if nothing is drawn, saved or restored between `BeginText` and `EndText`, and `DrawMultiLineText` is not used, no operator that text objects do not allow is in one. -/
theorem C170_strict_partial (env : PEnv) (he : Spec.EncodesAll env) (h : List PCall) (hu : Spec.Utf8Texts h) (hs : Spec.Switches false h) (ht : Spec.TextOnly false h) :
    Spec.objNest true false (({} : Pntr).run env h).out = some (({} : Pntr).run env h).textOpen ∧ ∀ d ∈ (({} : Pntr).run env h).done, Spec.objNest true false d.2 = some false := by
  obtain ⟨o, hi⟩ := run_nest (strict := true) he h (fresh_nest true) hu hs (fun _ => ht)
  exact ⟨hi.out, hi.done⟩

/-- A painter with a text open may be given another canvas: the first one keeps a text object that is never closed, and what is shown in the second one is not in a text object. -/
theorem C170_switch_false (env : PEnv) (p : Pntr) (c c' : Nat) (hc : p.canvas = some c) (hne : c ≠ c') (ho : p.textOpen = false) (hn : Spec.objNest false false p.out = some false) (f : Nat)
    (hf : p.ts.font = some f) (x y : Rat) (s b : Bytes) (hd : Spec.Drawable env f p.tab s b) :
    ∃ a d, (p.run env [.beginText x y, .setCanvas c', .addText s, .endText, .finish]).done = p.done ++ [(c, a), (c', d)]
      ∧ Spec.objNest false false a = some true ∧ Spec.objNest false false d = none
      ∧ (((p.run env [.beginText x y, .setCanvas c']).addText env s).2 = .ok ()) := by
  have hcan : Spec.HasCanvas p := by unfold Spec.HasCanvas; rw [hc]; exact Option.some_ne_none c
  obtain ⟨t, h1, h2⟩ := hd
  have e1 : (p.call env (.beginText x y)).1 = { p with opened := true, textOpen := true, out := p.out ++ [.BT, .Td x y] } := by
    show (p.beginText x y).1 = _
    rw [beginText_ok p hcan ho]
  have hcc : ¬ (some c = some c') := by simpa using hne
  have e2 : p.run env [.beginText x y, .setCanvas c'] = { p with canvas := some c', opened := false, textOpen := true, out := [], done := p.done ++ [(c, p.out ++ [.BT, .Td x y])] } := by
    show ((p.call env (.beginText x y)).1.call env (.setCanvas c')).1 = _
    rw [e1]
    simp [Pntr.call, Pntr.setCanvas, Pntr.flush, hc, hcc]
  refine ⟨p.out ++ [.BT, .Td x y], [.Tj b, .ET], ?_, ?_, rfl, ?_⟩
  · have : ∀ q, q = p.run env [.beginText x y, .setCanvas c'] → p.run env [.beginText x y, .setCanvas c', .addText s, .endText, .finish] = q.run env [.addText s, .endText, .finish] := by
      intro q hq; rw [hq]; rfl
    rw [this _ e2.symm]
    simp [Pntr.run, Pntr.call, Pntr.addText, Pntr.endText, Pntr.checked, hf, h1, Pntr.putString, h2, Pntr.put, Pntr.finish, Pntr.flush]
  · rw [nest_append, hn]; rfl
  · rw [e2]
    simp [Pntr.addText, Pntr.checked, hf, h1, Pntr.putString, h2]

/-- `FinishDrawing` leaves an open text object unclosed in the canvas. -/
theorem C170_finish_false (p : Pntr) (c : Nat) (hc : p.canvas = some c) (hp : p.opened = true) (ho : Spec.objNest false false p.out = some true) :
    p.finish.done = p.done ++ [(c, p.out)] ∧ Spec.objNest false false p.out ≠ some false := by
  refine ⟨by simp [Pntr.finish, Pntr.flush, hp, hc], by rw [ho]; decide⟩

theorem nest_lt (strict b : Bool) (l : List PntOp) : Spec.objNest strict b (l ++ [.lt]) = none := by
  rw [nest_append]; cases Spec.objNest strict b l <;> rfl

/-- A text that cannot be encoded leaves a lone bracket in the contents, after which nothing makes them well formed. -/
theorem C170_encode_false (env : PEnv) (p : Pntr) (hc : Spec.HasCanvas p) (ho : p.textOpen = false) (f : Nat) (hf : p.ts.font = some f) (s t : Bytes) (e : Fault) (x y : Rat)
    (ht : expandTabs p.tab s = .ok t) (he : env.encode f t = .error e) :
    (p.drawText env s x y).2 = .error e ∧ ∀ l, Spec.objNest false false ((p.drawText env s x y).1.out ++ l) = none := by
  have : p.drawText env s x y = ({ p with opened := true, out := (p.out ++ .BT :: p.ts.ops ++ [.Td x y]) ++ [.lt] }, .error e) := by
    unfold Pntr.drawText Pntr.inObject
    rw [checked_canvas hc]
    simp [ho, hf, Pntr.drawString, ht, Pntr.putString, he, endObject, Pntr.put]
  rw [this]
  refine ⟨rfl, fun l => ?_⟩
  simp only
  rw [nest_append, nest_lt]; rfl

/-- A text that is not UTF-8 leaves its text object open: the next text, whatever it is, is in a text object in another. -/
theorem C170_utf8_false (env : PEnv) (p : Pntr) (hc : Spec.HasCanvas p) (ho : p.textOpen = false) (f : Nat) (hf : p.ts.font = some f) (s s' b' : Bytes) (x y x' y' : Rat)
    (hs : utf8Decode s = none) (hd : Spec.Drawable env f p.tab s' b') :
    (p.drawText env s x y).2 = .error .exn ∧ ((p.drawText env s x y).1.drawText env s' x' y').2 = .ok ()
      ∧ (Spec.objNest false false p.out = some false → Spec.objNest false false ((p.drawText env s x y).1.drawText env s' x' y').1.out = none) := by
  have e1 : p.drawText env s x y = ({ p with opened := true, out := p.out ++ .BT :: p.ts.ops ++ [.Td x y] }, .error .exn) := by
    unfold Pntr.drawText Pntr.inObject
    rw [checked_canvas hc]
    simp [ho, hf, Pntr.drawString, expandTabs, hs, endObject, Pntr.put]
  rw [e1]
  have e2 := drawText_ok env { p with opened := true, out := p.out ++ .BT :: p.ts.ops ++ [.Td x y] } hc ho f hf s' b' x' y' hd
  refine ⟨rfl, ?_, ?_⟩
  · simp only; rw [e2]
  · intro hn
    simp only
    rw [e2]
    simp only [List.append_assoc]
    rw [nest_append, hn]
    show Spec.objNest false true (p.ts.ops ++ _) = none
    rw [nest_append, nest_ops]
    rfl

/-- `DrawMultiLineText` always saves and restores the state inside of its text object. -/
theorem C170_multi_false (env : PEnv) (p : Pntr) (hc : Spec.HasCanvas p) (ho : p.textOpen = false) (f : Nat) (hf : p.ts.font = some f) (s : Bytes) (x y w h : Rat) (hw : 0 < w) (hh : 0 < h)
    (a : HAlign) (v : VAlign) (cl : Bool) (hn : Spec.objNest true false p.out = some false) : Spec.objNest true false (p.drawMultiLine env s x y w h a v cl).1.out = none := by
  have hex : ∀ (q : Pntr), ∃ l, (endObject (q.drawMulti env f s x y w h a v cl)).1.out = q.out ++ .q :: l := by
    intro q
    unfold Pntr.drawMulti
    simp only
    generalize (if cl then [PntOp.path (.rect x y w h), .paint .clip] else []) = m
    split
    · exact ⟨m, rfl⟩
    · exact ⟨m ++ [.Q] ++ [.ET], by simp [endObject, Pntr.put]⟩
    · unfold Pntr.drawAligned Pntr.drawString
      split
      · rename_i p2 e heq
        revert heq
        split
        · intro heq; cases heq; exact ⟨_, by simp [endObject, Pntr.put]; rfl⟩
        · unfold Pntr.putString
          split
          · intro heq; cases heq; exact ⟨_, by simp [endObject, Pntr.put]; rfl⟩
          · intro heq; cases heq
      · rename_i p2 u heq
        revert heq
        split
        · intro heq; cases heq
        · unfold Pntr.putString
          split
          · intro heq; cases heq
          · intro heq; cases heq; exact ⟨_, by simp [endObject, Pntr.put]; rfl⟩
  unfold Pntr.drawMultiLine
  rw [checked_canvas hc]
  have hwh : ¬ (w ≤ 0 ∨ h ≤ 0) := by
    rintro (h1 | h1)
    · exact absurd h1 (Rat.not_le.2 hw)
    · exact absurd h1 (Rat.not_le.2 hh)
  simp only [hf, ho, Bool.false_eq_true, if_false]
  rw [if_neg hwh]
  unfold Pntr.inObject
  rw [checked_canvas (show Spec.HasCanvas { p with opened := true, textOpen := false } from hc)]
  simp only [hf, Bool.false_eq_true, if_false]
  obtain ⟨l, hl⟩ := hex (({ p with opened := true, textOpen := false } : Pntr).put (.BT :: p.ts.ops))
  rw [hl]
  simp only [Pntr.put]
  rw [List.append_assoc, nest_append, hn]
  show Spec.objNest true true (p.ts.ops ++ _) = none
  rw [nest_append, nest_ops]
  rfl

/-- Saving, restoring and drawing are accepted between `BeginText` and `EndText`. -/
theorem C170_inside_false (p : Pntr) (hc : Spec.HasCanvas p) (ho : Spec.objNest true false p.out = some true) (env : PEnv) (c : PCall)
    (h : match c with | .save | .restore | .path _ | .paint _ => True | _ => False) : (p.call env c).2 = .ok () ∧ Spec.objNest true false (p.call env c).1.out = none := by
  have key : ∀ o : PntOp, Spec.nestStep true true o = none → (p.write [o]).2 = .ok () ∧ Spec.objNest true false (p.write [o]).1.out = none := by
    intro o h
    unfold Pntr.write
    rw [checked_canvas hc]
    refine ⟨rfl, ?_⟩
    simp only [Pntr.put]
    rw [nest_append, ho]
    simp [Spec.objNest, h]
  cases c <;> first | exact h.elim | exact key _ rfl

/-- How many saved states there are, if no operator restores one that was not saved. -/
def Spec.depth : Nat → List PntOp → Option Nat
  | n, [] => some n
  | n, .q :: l => Spec.depth (n + 1) l
  | 0, .Q :: _ => none
  | n + 1, .Q :: l => Spec.depth n l
  | n, _ :: l => Spec.depth n l

/-- `Restore` is accepted, and written, when nothing was saved. -/
theorem C170_restore_false (env : PEnv) (p : Pntr) (hc : Spec.HasCanvas p) (hd : Spec.depth 0 p.out = some 0) :
    (p.call env .restore).2 = .ok () ∧ Spec.depth 0 (p.call env .restore).1.out = none := by
  have key : ∀ (l : List PntOp) (n : Nat), Spec.depth n l = some 0 → Spec.depth n (l ++ [.Q]) = none := by
    intro l
    induction l with
    | nil => intro n h; cases h; rfl
    | cons o l ih =>
      intro n h
      cases n <;> cases o <;> first | (exact ih _ h) | (cases h)
  show (p.write [.Q]).2 = _ ∧ Spec.depth 0 (p.write [.Q]).1.out = none
  unfold Pntr.write
  rw [checked_canvas hc]
  exact ⟨rfl, key p.out 0 hd⟩

/-- A program that draws a text, shows two others in an open text, changes the canvas and draws again. -/
def exTexts : List PCall := [.setCanvas 1, .setText (.font 7 12), .drawText [72] 1 2, .beginText 3 4, .addText [105], .moveText 0 5, .setText (.scale 2), .addText [9, 106], .endText, .save, .path (.move 1 1),
  .restore, .setCanvas 2, .aligned [72, 105] 0 0 100 .center, .finish]

example : Spec.EncodesAll exPEnv ∧ Spec.Utf8Texts exTexts ∧ Spec.Switches false exTexts ∧ Spec.TextOnly false exTexts ∧ (({} : Pntr).run exPEnv exTexts).done
    = [(1, [.BT, .Tf 7 12, .Td 1 2, .Tj [72], .ET, .BT, .Td 3 4, .Tj [105], .Td 0 5, .Tz 200, .Tj [32, 32, 32, 32, 9, 106], .ET, .q, .path (.move 1 1), .Q]),
      (2, [.BT, .Tf 7 12, .Tz 200, .Td 49 0, .Tj [72, 105], .ET])] := by
  refine ⟨fun _ s => ⟨s, rfl⟩, ?_, by simp [exTexts, Spec.Switches], by simp [exTexts, Spec.TextOnly], by decide +kernel⟩
  intro c hc
  simp only [exTexts, List.mem_cons, List.not_mem_nil, or_false] at hc
  rcases hc with h | h | h | h | h | h | h | h | h | h | h | h | h | h | h <;> subst h <;> first | trivial | (show _ ≠ _; decide +kernel)

/-- And one with a text that is not UTF-8, and an encoding that has no such text. -/
example : utf8Decode [255] = none ∧ (exTextPainter.drawText exPEnv [255] 1 2).1.out = [.BT, .Tf 7 12, .Tz 200, .Tr 2, .Td 1 2]
    ∧ (exTextPainter.drawText { exPEnv with encode := fun _ _ => raise .InvalidFontFile } [72] 1 2).1.out = [.BT, .Tf 7 12, .Tz 200, .Tr 2, .Td 1 2, .lt] := by decide +kernel

end Pdfmm
