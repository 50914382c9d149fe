import Verif.Contents.PainterText
set_option autoImplicit false

/-!
# C172: tabulators, alignment and lines of drawn texts

The model is in `Verif/Contents/Painter.lean`; the theorems say which text is shown, and where.
-/

namespace Pdfmm

/-- `src/pdfmm/base/PdfPainter.h:628-637`: every tabulator is replaced by so many spaces. -/
def Spec.untab (n : Nat) (cps : List Nat) : List Nat := cps.flatMap fun c => if c = 9 then List.replicate n 32 else [c]

/-- The texts that are shown by operators. -/
def Spec.shownTexts (l : List PntOp) : List Bytes := l.filterMap fun o => match o with | .Tj b => some b | _ => none

/-- Where texts are moved to. -/
def Spec.textPositions (l : List PntOp) : List (Rat × Rat) := l.filterMap fun o => match o with | .Td x y => some (x, y) | _ => none

theorem shownTexts_append (a b : List PntOp) : Spec.shownTexts (a ++ b) = Spec.shownTexts a ++ Spec.shownTexts b := List.filterMap_append
theorem positions_append (a b : List PntOp) : Spec.textPositions (a ++ b) = Spec.textPositions a ++ Spec.textPositions b := List.filterMap_append

theorem shownTexts_ops (t : TSet) : Spec.shownTexts t.ops = [] := by
  obtain ⟨font, size, scale, charSp, wordSp, mode⟩ := t
  unfold TSet.ops
  cases font <;> by_cases h1 : scale = 1 <;> by_cases h2 : charSp = 0 <;> by_cases h3 : wordSp = 0 <;> by_cases h4 : mode = .fill <;> simp [h1, h2, h3, h4, Spec.shownTexts]

theorem positions_ops (t : TSet) : Spec.textPositions t.ops = [] := by
  obtain ⟨font, size, scale, charSp, wordSp, mode⟩ := t
  unfold TSet.ops
  cases font <;> by_cases h1 : scale = 1 <;> by_cases h2 : charSp = 0 <;> by_cases h3 : wordSp = 0 <;> by_cases h4 : mode = .fill <;> simp [h1, h2, h3, h4, Spec.textPositions]

/-- A font for which the encoding can be read off: what is shown is what was to be encoded. -/
def Spec.PlainFont (env : PEnv) : Prop := ∀ f s, env.encode f s = .ok s

theorem drawText_plain {env : PEnv} (he : Spec.PlainFont env) (p : Pntr) (hc : Spec.HasCanvas p) (ho : p.textOpen = false) (f : Nat) (hf : p.ts.font = some f) (s t : Bytes) (ht : expandTabs p.tab s = .ok t) (x y : Rat) :
    ∃ l, (p.drawText env s x y).1.out = p.out ++ l ∧ Spec.shownTexts l = [t] ∧ Spec.textPositions l = [(x, y)] := by
  rw [drawText_ok env p hc ho f hf s t x y ⟨t, ht, he f t⟩]
  refine ⟨.BT :: p.ts.ops ++ [.Td x y, .Tj t, .ET], by simp, ?_, ?_⟩
  · show Spec.shownTexts (p.ts.ops ++ _) = _
    rw [shownTexts_append, shownTexts_ops]; rfl
  · show Spec.textPositions (p.ts.ops ++ _) = _
    rw [positions_append, positions_ops]; rfl

/-- What is left of a text with tabulators when these are taken away is the text with spaces in their place. -/
theorem tabOut_filter (n : Nat) (cps : List Nat) : (cps.flatMap (tabOut n)).filter (· ≠ 9) = Spec.untab n cps := by
  induction cps with
  | nil => rfl
  | cons c l ih =>
    unfold Spec.untab at ih ⊢
    rw [List.flatMap_cons, List.filter_append, ih, List.flatMap_cons]
    congr 1
    unfold tabOut
    by_cases h : c = 9
    · subst h
      simp only [if_true, List.filter_append]
      have : (List.replicate n 32).filter (fun x => decide (x ≠ 9)) = List.replicate n 32 := by
        rw [List.filter_eq_self]; intro a ha; rw [(List.mem_replicate.1 ha).2]; rfl
      rw [this]; simp
    · simp [h]

/-- `DrawText` shows a text at the position that was asked for, with as many spaces for every tabulator as were set; but the tabulators are shown, too. -/
theorem C172_tabs_partial (env : PEnv) (he : Spec.PlainFont env) (p : Pntr) (hc : Spec.HasCanvas p) (ho : p.textOpen = false) (f : Nat) (hf : p.ts.font = some f) (s : Bytes) (cps : List Nat)
    (hs : utf8Decode s = some cps) (x y : Rat) :
    ∃ l t ds, (p.drawText env s x y).2 = .ok () ∧ (p.drawText env s x y).1.out = p.out ++ l ∧ Spec.shownTexts l = [t] ∧ Spec.textPositions l = [(x, y)] ∧ utf8Decode t = some ds
      ∧ ds.filter (· ≠ 9) = Spec.untab p.tab cps ∧ ds.count 9 = cps.count 9 ∧ (9 ∉ cps → t = s) := by
  obtain ⟨t, h1, h2⟩ := expandTabs_decode p.tab s cps hs
  obtain ⟨l, e1, e2, e3⟩ := drawText_plain he p hc ho f hf s t h1 x y
  refine ⟨l, t, cps.flatMap (tabOut p.tab), ?_, e1, e2, e3, h2, tabOut_filter _ _, ?_, ?_⟩
  · rw [drawText_ok env p hc ho f hf s t x y ⟨t, h1, he f t⟩]
  · clear h1 h2 hs
    induction cps with
    | nil => rfl
    | cons c r ih =>
      rw [List.flatMap_cons, List.count_append, ih, List.count_cons]
      unfold tabOut
      by_cases h : c = 9
      · subst h; simp [List.count_append, List.count_replicate]; omega
      · simp [h]
  · intro hn
    unfold expandTabs at h1
    rw [hs] at h1
    simp only [hn, if_false] at h1
    cases h1; rfl

theorem untab_no9 (n : Nat) (cps : List Nat) : 9 ∉ Spec.untab n cps := by
  unfold Spec.untab
  intro h
  obtain ⟨c, -, h⟩ := List.mem_flatMap.1 h
  split at h
  · have := (List.mem_replicate.1 h).2; omega
  · rename_i hc; exact hc (List.mem_singleton.1 h).symm

/-- A text with a tabulator is never shown with the tabulators replaced. -/
theorem C172_tabs_false (env : PEnv) (he : Spec.PlainFont env) (p : Pntr) (hc : Spec.HasCanvas p) (ho : p.textOpen = false) (f : Nat) (hf : p.ts.font = some f) (s : Bytes) (cps : List Nat)
    (hs : utf8Decode s = some cps) (h9 : 9 ∈ cps) (x y : Rat) (l : List PntOp) (hl : (p.drawText env s x y).1.out = p.out ++ l) :
    Spec.shownTexts l ≠ [utf8Encode (Spec.untab p.tab cps)] := by
  obtain ⟨l', t, ds, -, e1, e2, -, e4, e5, e6, -⟩ := C172_tabs_partial env he p hc ho f hf s cps hs x y
  rw [hl] at e1
  rw [List.append_cancel_left e1, e2]
  intro h
  cases h
  obtain ⟨hsc, -⟩ := utf8_encode_decode hs
  rw [utf8_decode_encode _ (by
    intro c hc
    obtain ⟨d, hd, hcd⟩ := List.mem_flatMap.1 hc
    split at hcd
    · rw [(List.mem_replicate.1 hcd).2]; left; omega
    · rw [List.mem_singleton.1 hcd]; exact hsc d hd)] at e4
  cases e4
  have := List.count_eq_zero.2 (untab_no9 p.tab cps)
  rw [this] at e6
  exact absurd h9 (List.count_eq_zero.1 e6.symm)

theorem drawAligned_ok (env : PEnv) (p : Pntr) (hc : Spec.HasCanvas p) (ho : p.textOpen = false) (f : Nat) (hf : p.ts.font = some f) (s b : Bytes) (x y w : Rat) (a : HAlign) (hw : 0 < w)
    (hd : Spec.Drawable env f p.tab s b) :
    p.drawTextAligned env s x y w a = ({ p with opened := true, out := p.out ++ .BT :: p.ts.ops ++ [.Td (alignX env p.ts f s x w a) y, .Tj b, .ET] }, .ok ()) := by
  obtain ⟨t, h1, h2⟩ := hd
  unfold Pntr.drawTextAligned
  rw [if_neg (Rat.not_le.2 hw)]
  unfold Pntr.inObject
  rw [checked_canvas hc]
  simp [ho, hf, Pntr.drawAligned, Pntr.put, Pntr.drawString, Pntr.putString, endObject, h1, h2]

/-- How a text with a left edge and a length is placed in a box. -/
def Spec.Placed (x width left len : Rat) : HAlign → Prop
  | .left => left = x
  | .right => left + len = x + width
  | .center => left - x = x + width - (left + len)

/-- `DrawTextAligned` places a text without tabulators as it was asked to, by the length that the font gives for it, on the line that was asked for. -/
theorem C172_align_partial (env : PEnv) (he : Spec.PlainFont env) (p : Pntr) (hc : Spec.HasCanvas p) (ho : p.textOpen = false) (f : Nat) (hf : p.ts.font = some f) (s : Bytes) (cps : List Nat)
    (hs : utf8Decode s = some cps) (h9 : 9 ∉ cps) (x y w : Rat) (a : HAlign) (hw : 0 < w) :
    ∃ l left, (p.drawTextAligned env s x y w a).2 = .ok () ∧ (p.drawTextAligned env s x y w a).1.out = p.out ++ l ∧ Spec.shownTexts l = [s] ∧ Spec.textPositions l = [(left, y)]
      ∧ Spec.Placed x w left (env.len f s p.ts) a := by
  have ht : expandTabs p.tab s = .ok s := by unfold expandTabs; rw [hs]; simp [h9]
  rw [drawAligned_ok env p hc ho f hf s s x y w a hw ⟨s, ht, he f s⟩]
  refine ⟨.BT :: p.ts.ops ++ [.Td (alignX env p.ts f s x w a) y, .Tj s, .ET], alignX env p.ts f s x w a, rfl, by simp, ?_, ?_, ?_⟩
  · show Spec.shownTexts (p.ts.ops ++ _) = _
    rw [shownTexts_append, shownTexts_ops]; rfl
  · show Spec.textPositions (p.ts.ops ++ _) = _
    rw [positions_append, positions_ops]; rfl
  · cases a
    · rfl
    · show x + (w - env.len f s p.ts) / 2 - x = x + w - (x + (w - env.len f s p.ts) / 2 + env.len f s p.ts); grind
    · show x + (w - env.len f s p.ts) + env.len f s p.ts = x + w; grind

/-- A text with tabulators is placed by the length of the text before the spaces were added: if they have a length, neither its right edge nor its centre is where it should be. -/
theorem C172_align_false (env : PEnv) (he : Spec.PlainFont env) (p : Pntr) (hc : Spec.HasCanvas p) (ho : p.textOpen = false) (f : Nat) (hf : p.ts.font = some f) (s t : Bytes)
    (ht : expandTabs p.tab s = .ok t) (hlen : env.len f t p.ts ≠ env.len f s p.ts) (x y w : Rat) (a : HAlign) (ha : a ≠ .left) (hw : 0 < w) :
    ∃ l left, (p.drawTextAligned env s x y w a).2 = .ok () ∧ (p.drawTextAligned env s x y w a).1.out = p.out ++ l ∧ Spec.shownTexts l = [t] ∧ Spec.textPositions l = [(left, y)]
      ∧ ¬ Spec.Placed x w left (env.len f t p.ts) a := by
  rw [drawAligned_ok env p hc ho f hf s t x y w a hw ⟨t, ht, he f t⟩]
  refine ⟨.BT :: p.ts.ops ++ [.Td (alignX env p.ts f s x w a) y, .Tj t, .ET], alignX env p.ts f s x w a, rfl, by simp, ?_, ?_, ?_⟩
  · show Spec.shownTexts (p.ts.ops ++ _) = _
    rw [shownTexts_append, shownTexts_ops]; rfl
  · show Spec.textPositions (p.ts.ops ++ _) = _
    rw [positions_append, positions_ops]; rfl
  · cases a
    · exact absurd rfl ha
    · show ¬ (x + (w - env.len f s p.ts) / 2 - x = x + w - (x + (w - env.len f s p.ts) / 2 + env.len f t p.ts)); grind
    · show ¬ (x + (w - env.len f s p.ts) + env.len f t p.ts = x + w); grind

theorem drawMultiLine_ok (env : PEnv) (p : Pntr) (hc : Spec.HasCanvas p) (ho : p.textOpen = false) (f : Nat) (hf : p.ts.font = some f) (s t u b : Bytes) (x y w h : Rat) (hw : 0 < w) (hh : 0 < h)
    (a : HAlign) (v : VAlign) (cl : Bool) (ht : expandTabs p.tab s = .ok t) (hne : t ≠ []) (hu : expandTabs p.tab t = .ok u) (hb : env.encode f u = .ok b) :
    p.drawMultiLine env s x y w h a v cl = ({ p with opened := true, out := p.out ++ .BT :: p.ts.ops ++ (.q :: (if cl then [.path (.rect x y w h), .paint .clip] else []))
      ++ [.Td (alignX env p.ts f t x w a) (multiY env p.ts f y h v), .Tj b, .Q, .ET] }, .ok ()) := by
  unfold Pntr.drawMultiLine
  rw [checked_canvas hc]
  have hwh : ¬ (w ≤ 0 ∨ h ≤ 0) := by
    rintro (h1 | h1)
    · exact absurd h1 (Rat.not_le.2 hw)
    · exact absurd h1 (Rat.not_le.2 hh)
  simp only [hf, ho, Bool.false_eq_true, if_false]
  rw [if_neg hwh]
  unfold Pntr.inObject
  rw [checked_canvas (show Spec.HasCanvas { p with opened := true, textOpen := false } from hc)]
  cases t with
  | nil => exact absurd rfl hne
  | cons c t => simp [hf, Pntr.drawMulti, Pntr.put, ht, Pntr.drawAligned, Pntr.drawString, hu, Pntr.putString, hb, endObject]

/-- The top of a line whose base line is given: half of the gap between lines is above the ascent, the other half below the descent, which is negative. -/
def Spec.lineTop (env : PEnv) (t : TSet) (f : Nat) (base : Rat) : Rat := base + env.ascent f t + (env.spacing f t - (env.ascent f t - env.descent f t)) / 2

/-- How a line is placed in a box of some height. -/
def Spec.PlacedV (y height top spacing : Rat) : VAlign → Prop
  | .top => top = y + height
  | .bottom => top - spacing = y
  | .center => y + height - top = top - spacing - y

/-- `DrawMultiLineText` shows a text without tabulators, which may be longer than the box is wide and have line ends, on one line, placed as it was asked to. -/
theorem C172_multi_partial (env : PEnv) (he : Spec.PlainFont env) (p : Pntr) (hc : Spec.HasCanvas p) (ho : p.textOpen = false) (f : Nat) (hf : p.ts.font = some f) (s : Bytes) (cps : List Nat)
    (hs : utf8Decode s = some cps) (hne : s ≠ []) (h9 : 9 ∉ cps) (x y w h : Rat) (hw : 0 < w) (hh : 0 < h) (a : HAlign) (v : VAlign) (cl : Bool) :
    ∃ l left base, (p.drawMultiLine env s x y w h a v cl).2 = .ok () ∧ (p.drawMultiLine env s x y w h a v cl).1.out = p.out ++ l ∧ Spec.shownTexts l = [s] ∧ Spec.textPositions l = [(left, base)]
      ∧ Spec.Placed x w left (env.len f s p.ts) a ∧ Spec.PlacedV y h (Spec.lineTop env p.ts f base) (env.spacing f p.ts) v := by
  have ht : expandTabs p.tab s = .ok s := by unfold expandTabs; rw [hs]; simp [h9]
  rw [drawMultiLine_ok env p hc ho f hf s s s s x y w h hw hh a v cl ht hne ht (he f s)]
  refine ⟨.BT :: p.ts.ops ++ (.q :: (if cl then [.path (.rect x y w h), .paint .clip] else [])) ++ [.Td (alignX env p.ts f s x w a) (multiY env p.ts f y h v), .Tj s, .Q, .ET], alignX env p.ts f s x w a, multiY env p.ts f y h v, rfl, by simp, ?_, ?_, ?_, ?_⟩
  · show Spec.shownTexts ((p.ts.ops ++ _) ++ _) = _
    rw [shownTexts_append, shownTexts_append, shownTexts_ops]; cases cl <;> rfl
  · show Spec.textPositions ((p.ts.ops ++ _) ++ _) = _
    rw [positions_append, positions_append, positions_ops]; cases cl <;> rfl
  · cases a
    · rfl
    · show x + (w - env.len f s p.ts) / 2 - x = x + w - (x + (w - env.len f s p.ts) / 2 + env.len f s p.ts); grind
    · show x + (w - env.len f s p.ts) + env.len f s p.ts = x + w; grind
  · cases v <;> simp only [Spec.PlacedV, Spec.lineTop, multiY] <;> grind

/-- A text that has a line end, or is longer than the box is wide, is not broken into lines. -/
theorem C172_wrap_false (env : PEnv) (he : Spec.PlainFont env) (p : Pntr) (hc : Spec.HasCanvas p) (ho : p.textOpen = false) (f : Nat) (hf : p.ts.font = some f) (s : Bytes) (cps : List Nat)
    (hs : utf8Decode s = some cps) (hne : s ≠ []) (h9 : 9 ∉ cps) (x y w h : Rat) (hw : 0 < w) (hh : 0 < h) (_hb : 10 ∈ cps ∨ w < env.len f s p.ts) (a : HAlign) (v : VAlign) (cl : Bool) (l : List PntOp)
    (hl : (p.drawMultiLine env s x y w h a v cl).1.out = p.out ++ l) : Spec.shownTexts l = [s] ∧ (Spec.textPositions l).length = 1 := by
  obtain ⟨l', _, _, -, e1, e2, e3, -⟩ := C172_multi_partial env he p hc ho f hf s cps hs hne h9 x y w h hw hh a v cl
  rw [hl] at e1
  rw [List.append_cancel_left e1, e2, e3]
  exact ⟨rfl, rfl⟩

/-- `DrawMultiLineText` expands tabulators twice: there are twice as many spaces as were set for each, and the tabulator. -/
theorem C172_double_false (env : PEnv) (he : Spec.PlainFont env) (p : Pntr) (hc : Spec.HasCanvas p) (ho : p.textOpen = false) (f : Nat) (hf : p.ts.font = some f) (s : Bytes) (cps : List Nat)
    (hs : utf8Decode s = some cps) (h9 : 9 ∈ cps) (x y w h : Rat) (hw : 0 < w) (hh : 0 < h) (a : HAlign) (v : VAlign) (cl : Bool) :
    ∃ l t ds, (p.drawMultiLine env s x y w h a v cl).1.out = p.out ++ l ∧ Spec.shownTexts l = [t] ∧ utf8Decode t = some ds ∧ ds.filter (· ≠ 9) = Spec.untab (2 * p.tab) cps ∧ 9 ∈ ds := by
  obtain ⟨t, h1, h2⟩ := expandTabs_decode p.tab s cps hs
  obtain ⟨u, h3, h4⟩ := expandTabs_decode p.tab t _ h2
  have hmem : 9 ∈ cps.flatMap (tabOut p.tab) := List.mem_flatMap.2 ⟨9, h9, by simp [tabOut]⟩
  have hne : t ≠ [] := by
    rintro rfl
    have : utf8Decode [] = some [] := by decide +kernel
    rw [this] at h2
    cases h2' : cps.flatMap (tabOut p.tab) with
    | nil => rw [h2'] at hmem; cases hmem
    | cons c r => rw [h2'] at h2; cases h2
  rw [drawMultiLine_ok env p hc ho f hf s t u u x y w h hw hh a v cl h1 hne h3 (he f u)]
  refine ⟨.BT :: p.ts.ops ++ (.q :: (if cl then [.path (.rect x y w h), .paint .clip] else [])) ++ [.Td (alignX env p.ts f t x w a) (multiY env p.ts f y h v), .Tj u, .Q, .ET], u, (cps.flatMap (tabOut p.tab)).flatMap (tabOut p.tab), by simp, ?_, h4, ?_, ?_⟩
  · show Spec.shownTexts ((p.ts.ops ++ _) ++ _) = _
    rw [shownTexts_append, shownTexts_append, shownTexts_ops]; cases cl <;> rfl
  · rw [tabOut_filter]
    clear h1 h2 h3 h4 hs hmem h9
    induction cps with
    | nil => rfl
    | cons c r ih =>
      unfold Spec.untab at ih ⊢
      rw [List.flatMap_cons, List.flatMap_append, ih, List.flatMap_cons]
      congr 1
      unfold tabOut
      by_cases hc9 : c = 9
      · subst hc9
        have : ∀ m k : Nat, (List.replicate m 32).flatMap (fun c => if c = 9 then List.replicate k 32 else [c]) = List.replicate m 32 := by
          intro m k
          induction m with
          | zero => rfl
          | succ m ih => rw [List.replicate_succ, List.flatMap_cons, ih]; rfl
        simp only [if_true, List.flatMap_append, this, List.flatMap_cons, List.flatMap_nil, List.append_nil]
        rw [List.replicate_append_replicate, show p.tab + p.tab = 2 * p.tab by omega]
      · simp [hc9]
  · exact List.mem_flatMap.2 ⟨9, hmem, by simp [tabOut]⟩

/-- A text with a tabulator and one with a line end meet the hypotheses. -/
example : Spec.PlainFont exPEnv ∧ utf8Decode [65, 9, 66] = some [65, 9, 66] ∧ (exTextPainter.drawText exPEnv [65, 9, 66] 1 2).1.out = [.BT, .Tf 7 12, .Tz 200, .Tr 2, .Td 1 2, .Tj [65, 32, 32, 32, 32, 9, 66], .ET]
    ∧ expandTabs 4 [65, 9, 66] = .ok [65, 32, 32, 32, 32, 9, 66] ∧ exPEnv.len 7 [65, 32, 32, 32, 32, 9, 66] exTextPainter.ts ≠ exPEnv.len 7 [65, 9, 66] exTextPainter.ts
    ∧ (exTextPainter.drawMultiLine exPEnv [65, 10, 66] 0 0 2 50 .right .top true).1.out = [.BT, .Tf 7 12, .Tz 200, .Tr 2, .q, .path (.rect 0 0 2 50), .paint .clip, .Td (-1) 38, .Tj [65, 10, 66], .Q, .ET] := by
  refine ⟨fun _ _ => rfl, ?_⟩
  decide +kernel

end Pdfmm
