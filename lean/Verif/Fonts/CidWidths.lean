import Verif.Syntax.TokModel
set_option autoImplicit false
/-
Glyph widths of CID fonts: the `/W` array written by `src/pdfmm/base/PdfFontCID.cpp` and read by `src/pdfmm/base/PdfFontMetricsObject.cpp`.
Properties C127 and C128.
-/
namespace Pdfmm

/-! ### Model of the writer -/

/-- The state of `WidthExporter`, `src/pdfmm/base/PdfFontCID.cpp:38-43`: the output array, the widths waiting for an array, the first CID of
the current range, its last width and the number of its CIDs. -/
structure WExp where
  out : List Var
  widths : List Nat
  start : Nat
  width : Nat
  count : Nat

/-- `reset`, `src/pdfmm/base/PdfFontCID.cpp:225-230`. -/
def WExp.reset (x : WExp) (cid w : Nat) : WExp := { x with start := cid, width := w, count := 1 }

/-- `emitSameWidth`, `src/pdfmm/base/PdfFontCID.cpp:232-237`. -/
def WExp.emitSame (x : WExp) : WExp :=
  { x with out := x.out ++ [.num x.start, .num ((x.start + x.count - 1 : Nat) % 4294967296 : Nat), .num x.width] }

/-- `emitArrayWidths`, `src/pdfmm/base/PdfFontCID.cpp:239-244`. -/
def WExp.emitArr (x : WExp) : WExp :=
  { x with out := x.out ++ [.num x.start, .arr (x.widths.map (fun n : Nat => Var.num n))], widths := [] }

/-- `finish`, `src/pdfmm/base/PdfFontCID.cpp:197-209`. -/
def WExp.finish (x : WExp) : WExp :=
  if x.widths ≠ [] ∨ x.count = 1 then { x with widths := x.widths ++ [x.width] }.emitArr else x.emitSame

/-- `update`, `src/pdfmm/base/PdfFontCID.cpp:160-195`. -/
def WExp.update (x : WExp) (cid w : Nat) : WExp :=
  if cid = (x.start + x.count) % 4294967296 then
    if w ≠ x.width then
      if x.count ≠ 1 ∧ x.widths = [] then x.emitSame.reset cid w
      else { x with widths := x.widths ++ [x.width], width := w, count := x.count + 1 }
    else if x.widths ≠ [] then { x.emitArr with start := x.start + x.count - 1, count := 2 }
    else { x with count := x.count + 1 }
  else x.finish.reset cid w

/-- `GetPdfWidths`, `src/pdfmm/base/PdfFontCID.cpp:211-223`, for a map from CIDs to glyphs in order of the CIDs and the widths `w` of the
glyphs, which `getPdfWidth` (`245-251`) has already rounded to whole thousandths. -/
def getPdfWidths (m : List (Nat × Nat)) (w : Nat → Nat) : List Var :=
  if m = [] then [] else (m.foldl (fun (x : WExp) p => x.update p.1 (w p.2)) ⟨[], [], 0, w 0, 1⟩).finish.out

/-- The entries `/W` and `/DW` of a CID font dictionary. -/
structure CidFontDict where
  w : Option (List Var)
  dw : Option Var

/-- `createWidths`, `src/pdfmm/base/PdfFontCID.cpp:114-129`; the default width in thousandths is absent when it is negative. -/
def createWidths (m : List (Nat × Nat)) (w : Nat → Nat) (dw : Option Nat) : CidFontDict :=
  if getPdfWidths m w = [] then ⟨none, none⟩ else ⟨some (getPdfWidths m w), dw.map (fun n : Nat => Var.num n)⟩

/-! ### Model of the reader -/

/-- `std::round` of `m / 10^s`: halves away from zero. -/
def roundDec (m s : Nat) : Nat := (2 * m + 10 ^ s) / (2 * 10 ^ s)

/-- `GetNumberLenient`, `src/pdfmm/base/PdfVariant.cpp:520-544`, and the conversion to `unsigned`; a real that does not fit into 64 bits cannot be
converted. -/
def lenientU32 : Var → Res Nat
  | .num n => .ok (truncTo 32 n)
  | .real neg m s =>
    if roundDec m s < 9223372036854775808 then .ok (truncTo 32 (if neg then -(roundDec m s : Int) else roundDec m s)) else .error .ub
  | _ => raise .InvalidDataType

/-- `GetReal`, `src/pdfmm/base/PdfVariant.cpp:565-591`.  The number object stands for its value; the multiplication by the font matrix, the
same for every width, is left out. -/
def asReal : Var → Res Var
  | .num n => .ok (.num n)
  | .real a b c => .ok (.real a b c)
  | _ => raise .InvalidDataType

/-- `m_Widths[i] = v`: outside of the vector it is undefined. -/
def wSet (ws : List Var) (i : Nat) (v : Var) : Res (List Var) := if i < ws.length then .ok (ws.set i v) else .error .ub

/-- `if (length > m_Widths.size()) m_Widths.resize(length, m_DefaultWidth)`, `src/pdfmm/base/PdfFontMetricsObject.cpp:215-216`.  Running
out of memory is not modelled. -/
def wGrow (dw : Var) (ws : List Var) (len : Nat) : List Var := ws ++ List.replicate (len - ws.length) dw

/-- The loop over an array of widths, `src/pdfmm/base/PdfFontMetricsObject.cpp:218-219`; `i` is `start + i` in 32 bits. -/
def wList (i : Nat) : List Var → List Var → Res (List Var)
  | [], ws => .ok ws
  | v :: l, ws => do
    let r ← asReal v
    let ws ← wSet ws (i % 4294967296) r
    wList (i + 1) l ws

/-- The loop over a range of CIDs, `src/pdfmm/base/PdfFontMetricsObject.cpp:230-231`, with `n` rounds to go. -/
def wSpan (v : Var) : Nat → Nat → List Var → Res (List Var)
  | 0, _, ws => .ok ws
  | n + 1, i, ws => do
    let ws ← wSet ws i v
    wSpan v n (i + 1) ws

/-- One range, `src/pdfmm/base/PdfFontMetricsObject.cpp:223-231`, for a first and a last CID in 32 bits: with the largest last CID the
condition `i <= end` is always true. -/
def wRange (dw : Var) (start last : Nat) (third : Var) (ws : List Var) : Res (List Var) := do
  let v ← asReal third
  let ws ← wSpan v (last + 1 - start) start (wGrow dw ws ((last + 1) % 4294967296))
  if last = 4294967295 then .error .diverge else .ok ws

/-- The second object of an entry, looked up when it is a reference, `src/pdfmm/base/PdfFontMetricsObject.cpp:202-208`. -/
def wSecond (deref : Nat → Nat → Option Var) : Var → Res Var
  | .ref n g => (match deref n g with | none => raise .NoObject | some v => .ok v)
  | v => .ok v

/-- The loop over the `/W` array, `src/pdfmm/base/PdfFontMetricsObject.cpp:199-233`; `deref` looks up indirect objects.  Reading past the end
of the array raises (`src/pdfmm/base/PdfArray.cpp:245-251`).  The assertions are not compiled into a release build. -/
def readW (deref : Nat → Nat → Option Var) (dw : Var) : List Var → List Var → Res (List Var)
  | [], ws => .ok ws
  | [a], _ => do
    let _ ← lenientU32 a
    raise .ValueOutOfRange
  | a :: b :: rest, ws => do
    let start ← lenientU32 a
    let second ← wSecond deref b
    match second with
    | .arr l =>
      let ws ← wList start l (wGrow dw ws ((start + l.length) % 4294967296))
      readW deref dw rest ws
    | _ => do
      let last ← lenientU32 b
      match rest with
      | [] => raise .ValueOutOfRange
      | c :: rest' =>
        let ws ← wRange dw start last c ws
        readW deref dw rest' ws

/-- The metrics of a loaded CID font: the default width and the widths by CID. -/
structure CidMetrics where
  dw : Var
  ws : List Var

/-- `/DW`, `src/pdfmm/base/PdfFontMetricsObject.cpp:191` over `FindKeyAs`, `src/pdfmm/base/PdfDictionary.h:351-359`: what is no number raises. -/
def cidDefault : Option Var → Res Var
  | none => .ok (.num 1000)
  | some v => asReal v

/-- The widths of a CID font, `src/pdfmm/base/PdfFontMetricsObject.cpp:191-235`. -/
def loadCidMetrics (deref : Nat → Nat → Option Var) (f : CidFontDict) : Res CidMetrics :=
  match cidDefault f.dw with
  | .error e => .error e
  | .ok dw =>
    match f.w with
    | none => .ok ⟨dw, []⟩
    | some w =>
      match readW deref dw w [] with
      | .error e => .error e
      | .ok ws => .ok ⟨dw, ws⟩

/-- `GetDefaultWidth`, `src/pdfmm/base/PdfFontMetrics.cpp:167-174`. -/
def CidMetrics.default (c : CidMetrics) : Var :=
  match c.dw with
  | .num n => if n < 0 then .num 0 else .num n
  | .real true _ _ => .num 0
  | v => v

/-- `GetGlyphWidth` over `TryGetGlyphWidth`, `src/pdfmm/base/PdfFontMetrics.cpp:29-36` and
`src/pdfmm/base/PdfFontMetricsObject.cpp:360-370`. -/
def CidMetrics.glyphWidth (c : CidMetrics) (gid : Nat) : Var := c.ws.getD gid c.default

/-- `GetCIDLengthRaw` of a loaded CID font, `src/pdfmm/base/PdfFont.cpp:408-416`, `873-879` and `src/pdfmm/base/PdfFontObject.cpp:34-56`: with a
`/CIDToGIDMap` stream the CID is mapped first. -/
def CidMetrics.cidWidth (c : CidMetrics) (map : Option (List (Nat × Nat))) (cid : Nat) : Var :=
  match map with
  | none => c.glyphWidth cid
  | some m =>
    match m.lookup cid with
    | none => c.default
    | some g => c.glyphWidth g

/-! ### Specification -/

namespace Spec

/-- One entry of a `/W` array (PDF 32000-1, 9.7.4.3): `c [w1 ... wn]` gives widths to consecutive CIDs, `first last w` gives one width to a
range of CIDs.  The list may be an indirect object. -/
inductive WEntry
  | list (c : Nat) (ws : List Var)
  | listAt (c : Nat) (obj gen : Nat) (ws : List Var)
  | span (first last : Nat) (w : Var)

/-- Consecutive CIDs from `c` with the widths `l`. -/
def numbered : Nat → List Var → List (Nat × Var)
  | _, [] => []
  | c, v :: l => (c, v) :: numbered (c + 1) l

/-- The CIDs and widths that an entry states. -/
def WEntry.says : WEntry → List (Nat × Var)
  | .list c ws => numbered c ws
  | .listAt c _ _ ws => numbered c ws
  | .span a b w => numbered a (List.replicate (b + 1 - a) w)

/-- How an entry is written in the array. -/
def WEntry.objs : WEntry → List Var
  | .list c ws => [.num c, .arr ws]
  | .listAt c n g _ => [.num c, .ref n g]
  | .span a b w => [.num a, .num b, w]

/-- A width is a number. -/
def IsNumber (v : Var) : Prop := (∃ n, v = .num n) ∨ ∃ a m s, v = .real a m s

/-- The entry is well formed: the widths are numbers, the CIDs fit, and an indirect list is in the document. -/
def WEntry.Ok (deref : Nat → Nat → Option Var) : WEntry → Prop
  | .list c ws => c + ws.length < 4294967296 ∧ ∀ v ∈ ws, IsNumber v
  | .listAt c n g ws => c + ws.length < 4294967296 ∧ (∀ v ∈ ws, IsNumber v) ∧ deref n g = some (.arr ws)
  | .span a b w => a < 4294967296 ∧ b + 1 < 4294967296 ∧ IsNumber w

/-- The width that a list of statements gives to a CID: the last statement counts. -/
def widthIn (l : List (Nat × Var)) (cid : Nat) : Option Var := (l.reverse.find? (fun p => p.1 == cid)).map (·.2)

end Spec

open Spec

/-! ### The writer states the widths of the map -/

theorem numbered_append (c : Nat) (l r : List Var) : numbered c (l ++ r) = numbered c l ++ numbered (c + l.length) r := by
  induction l generalizing c with
  | nil => simp [numbered]
  | cons v l ih =>
    simp only [List.cons_append, numbered, ih, List.length_cons, List.cons.injEq, true_and]
    rw [show c + 1 + l.length = c + (l.length + 1) by omega]

/-- The widths of the current range. -/
def WExp.pending (x : WExp) : List Var :=
  if x.widths = [] then List.replicate x.count (.num x.width) else (x.widths ++ [x.width]).map (fun n : Nat => Var.num n)

/-- The invariant of the exporter: what was written and what is pending are the statements made so far. -/
structure WExp.Inv (x : WExp) (hist : List (Nat × Var)) : Prop where
  out : ∃ es : List WEntry, x.out = es.flatMap WEntry.objs ∧ es.flatMap WEntry.says ++ numbered x.start x.pending = hist ∧
    ∀ e ∈ es, ∀ d, e.Ok d
  count : 1 ≤ x.count
  widths : x.widths ≠ [] → x.widths.length + 1 = x.count
  small : x.start + x.count < 4294967296

theorem WExp.pending_length {x : WExp} {h : List (Nat × Var)} (i : x.Inv h) : x.pending.length = x.count := by
  rw [WExp.pending]
  split
  · simp
  · rename_i hw
    simp [i.widths hw]

theorem num_all (l : List Nat) : ∀ v ∈ l.map (fun n : Nat => Var.num n), IsNumber v := by
  intro v hv
  obtain ⟨n, _, rfl⟩ := List.mem_map.1 hv
  exact Or.inl ⟨n, rfl⟩

/-- Writing the current range as a whole. -/
theorem WExp.finish_spec {x : WExp} {h : List (Nat × Var)} (i : x.Inv h) :
    ∃ es : List WEntry, x.finish.out = es.flatMap WEntry.objs ∧ es.flatMap WEntry.says = h ∧ (∀ e ∈ es, ∀ d, e.Ok d) ∧ x.finish.widths = [] := by
  obtain ⟨es, h1, h2, h3⟩ := i.out
  have hc := i.count
  have hs := i.small
  by_cases hf : x.widths ≠ [] ∨ x.count = 1
  · refine ⟨es ++ [.list x.start ((x.widths ++ [x.width]).map (fun n : Nat => Var.num n))], ?_, ?_, ?_, ?_⟩
    · rw [WExp.finish, if_pos hf]
      simp only [WExp.emitArr, h1, List.flatMap_append, List.flatMap_cons, List.flatMap_nil, WEntry.objs, List.append_nil]
    · rw [← h2, List.flatMap_append]
      simp only [List.flatMap_cons, List.flatMap_nil, WEntry.says, List.append_nil]
      congr 2
      rw [WExp.pending]
      split
      · rename_i hw
        rcases hf with hf | hf
        · exact absurd hw hf
        · simp [hw, hf]
      · rfl
    · intro e he d
      simp only [List.mem_append, List.mem_singleton] at he
      rcases he with he | he
      · exact h3 e he d
      · subst he
        refine ⟨?_, num_all _⟩
        simp only [List.length_map, List.length_append, List.length_singleton]
        by_cases hw : x.widths = []
        · rw [hw]; simp; omega
        · have := i.widths hw; omega
    · rw [WExp.finish, if_pos hf]; rfl
  · have hw : x.widths = [] := by
      by_cases hw : x.widths = []
      · exact hw
      · exact absurd (Or.inl hw) hf
    have hmod : (x.start + x.count - 1) % 4294967296 = x.start + x.count - 1 := Nat.mod_eq_of_lt (by omega)
    refine ⟨es ++ [.span x.start (x.start + x.count - 1) (.num x.width)], ?_, ?_, ?_, ?_⟩
    · rw [WExp.finish, if_neg hf]
      simp only [WExp.emitSame, h1, List.flatMap_append, List.flatMap_cons, List.flatMap_nil, WEntry.objs, List.append_nil, hmod]
    · rw [← h2, List.flatMap_append]
      simp only [List.flatMap_cons, List.flatMap_nil, WEntry.says, List.append_nil]
      rw [WExp.pending, if_pos hw, show x.start + x.count - 1 + 1 - x.start = x.count by omega]
    · intro e he d
      simp only [List.mem_append, List.mem_singleton] at he
      rcases he with he | he
      · exact h3 e he d
      · subst he
        exact ⟨by omega, by omega, Or.inl ⟨_, rfl⟩⟩
    · rw [WExp.finish, if_neg hf]; exact hw

theorem replicate_snoc (n : Nat) (v : Var) : List.replicate (n + 1) v = List.replicate n v ++ [v] := by
  rw [← List.replicate_append_replicate (n := n) (m := 1)]; rfl

theorem WExp.update_spec {x : WExp} {h : List (Nat × Var)} (i : x.Inv h) (cid w : Nat) (hcid : cid + 1 < 4294967296) :
    (x.update cid w).Inv (h ++ [(cid, .num w)]) := by
  have hc := i.count
  have hs := i.small
  have hpl := WExp.pending_length i
  rw [WExp.update, Nat.mod_eq_of_lt hs]
  by_cases e : cid = x.start + x.count
  · rw [if_pos e]
    by_cases ew : w ≠ x.width
    · rw [if_pos ew]
      by_cases ec : x.count ≠ 1 ∧ x.widths = []
      · rw [if_pos ec]
        obtain ⟨es, h1, h2, h3, _⟩ := WExp.finish_spec i
        have hf : ¬ (x.widths ≠ [] ∨ x.count = 1) := by
          intro hc; rcases hc with hc | hc
          · exact hc ec.2
          · exact ec.1 hc
        rw [WExp.finish, if_neg hf] at h1
        refine ⟨⟨es, h1, ?_, h3⟩, by simp [WExp.reset], ?_, by simp only [WExp.reset]; omega⟩
        · rw [h2]
          simp [WExp.pending, WExp.reset, WExp.emitSame, ec.2, numbered]
        · intro hw; exact absurd ec.2 hw
      · rw [if_neg ec]
        obtain ⟨es, h1, h2, h3⟩ := i.out
        refine ⟨⟨es, h1, ?_, h3⟩, by simp, ?_, by simp only; omega⟩
        · have hp : ({ x with widths := x.widths ++ [x.width], width := w, count := x.count + 1 } : WExp).pending = x.pending ++ [.num w] := by
            rw [WExp.pending, WExp.pending]
            simp only [List.append_eq_nil_iff, List.cons_ne_self, and_false, if_false, List.map_append, List.map_cons, List.map_nil]
            by_cases hw : x.widths = []
            · have : x.count = 1 := by
                by_cases hx : x.count = 1
                · exact hx
                · exact absurd ⟨hx, hw⟩ ec
              simp [hw, this]
            · rw [if_neg hw]
          rw [hp, numbered_append, ← List.append_assoc]
          simp only
          rw [h2, hpl, e]; rfl
        · intro _
          simp only [List.length_append, List.length_singleton]
          by_cases hw : x.widths = []
          · have : x.count = 1 := by
              by_cases hx : x.count = 1
              · exact hx
              · exact absurd ⟨hx, hw⟩ ec
            simp [hw, this]
          · have := i.widths hw; omega
    · rw [if_neg ew]
      have ew' : w = x.width := by simpa using ew
      by_cases hw : x.widths ≠ []
      · rw [if_pos hw]
        obtain ⟨es, h1, h2, h3⟩ := i.out
        have hl := i.widths hw
        refine ⟨⟨es ++ [.list x.start (x.widths.map (fun n : Nat => Var.num n))], ?_, ?_, ?_⟩, by simp, ?_, by simp only [WExp.emitArr]; omega⟩
        · simp only [WExp.emitArr, h1, List.flatMap_append, List.flatMap_cons, List.flatMap_nil, WEntry.objs, List.append_nil]
        · rw [← h2, List.flatMap_append]
          simp only [List.flatMap_cons, List.flatMap_nil, WEntry.says, List.append_nil, WExp.emitArr, WExp.pending, if_true]
          rw [if_neg hw, List.map_append, numbered_append, List.append_assoc, List.append_assoc, List.length_map]
          simp only [List.map_cons, List.map_nil, List.replicate, numbered, List.append_cancel_left_eq]
          rw [show x.start + x.count - 1 = x.start + x.widths.length by omega, ew', e, ← hl]
          simp [Nat.add_assoc]
        · intro e' he d
          simp only [List.mem_append, List.mem_singleton] at he
          rcases he with he | he
          · exact h3 e' he d
          · subst he
            exact ⟨by simp only [List.length_map]; omega, num_all _⟩
        · intro hc; exact absurd rfl hc
      · rw [if_neg hw]
        have hw' : x.widths = [] := by simpa using hw
        obtain ⟨es, h1, h2, h3⟩ := i.out
        refine ⟨⟨es, h1, ?_, h3⟩, by simp, ?_, by simp only; omega⟩
        · rw [← h2, WExp.pending, WExp.pending]
          simp only [hw', if_true]
          rw [replicate_snoc, numbered_append, List.length_replicate, ← List.append_assoc, e, ew']; rfl
        · intro hc; exact absurd hw' hc
  · rw [if_neg e]
    obtain ⟨es, h1, h2, h3, h4⟩ := WExp.finish_spec i
    refine ⟨⟨es, h1, ?_, h3⟩, by simp [WExp.reset], ?_, by simp only [WExp.reset]; omega⟩
    · rw [h2]; simp [WExp.pending, WExp.reset, h4, numbered]
    · intro hc; exact absurd h4 hc

theorem WExp.fold_spec (w : Nat → Nat) (m : List (Nat × Nat)) (hm : ∀ p ∈ m, p.1 + 1 < 4294967296) (x : WExp) (h : List (Nat × Var)) (i : x.Inv h) :
    (m.foldl (fun x p => x.update p.1 (w p.2)) x).Inv (h ++ m.map (fun p => (p.1, Var.num (w p.2)))) := by
  induction m generalizing x h with
  | nil => simpa using i
  | cons p m ih =>
    have := ih (fun q hq => hm q (List.mem_cons_of_mem _ hq)) _ _ (WExp.update_spec i p.1 (w p.2) (hm p (List.mem_cons_self ..)))
    simpa [List.append_assoc] using this

/-- The `/W` array of a map from CIDs to glyphs is a well formed one, and it states width by width, in the order of the CIDs, exactly what the
map and the font say, after a statement for CID 0. -/
theorem getPdfWidths_spec (m : List (Nat × Nat)) (hne : m ≠ []) (w : Nat → Nat) (hm : ∀ p ∈ m, p.1 + 1 < 4294967296) :
    ∃ es : List WEntry, getPdfWidths m w = es.flatMap WEntry.objs ∧ (∀ e ∈ es, ∀ d, e.Ok d) ∧
      es.flatMap WEntry.says = (0, .num (w 0)) :: m.map (fun p => (p.1, Var.num (w p.2))) := by
  have i0 : WExp.Inv ⟨[], [], 0, w 0, 1⟩ [(0, .num (w 0))] :=
    ⟨⟨[], rfl, by simp [WExp.pending, numbered], by simp⟩, by simp, by simp, by simp⟩
  obtain ⟨es, h1, h2, h3, _⟩ := WExp.finish_spec (WExp.fold_spec w m hm _ _ i0)
  exact ⟨es, by rw [getPdfWidths, if_neg hne]; exact h1, h3, h2⟩

/-! ### The reader takes the last statement -/

theorem asReal_ok {v : Var} (h : IsNumber v) : asReal v = .ok v := by
  rcases h with ⟨n, rfl⟩ | ⟨a, m, s, rfl⟩ <;> rfl

theorem getD_grow (dw : Var) (ws : List Var) (len i : Nat) : (wGrow dw ws len).getD i dw = ws.getD i dw := by
  simp only [wGrow, List.getD_eq_getElem?_getD]
  by_cases h : i < ws.length
  · rw [List.getElem?_append_left h]
  · rw [List.getElem?_append_right (by omega), List.getElem?_eq_none (by omega : ws.length ≤ i)]
    by_cases h2 : i - ws.length < len - ws.length
    · rw [List.getElem?_replicate, if_pos h2]; rfl
    · rw [List.getElem?_replicate, if_neg h2]

theorem grow_length (dw : Var) (ws : List Var) (len : Nat) : (wGrow dw ws len).length = max ws.length len := by
  simp only [wGrow, List.length_append, List.length_replicate]; omega

theorem widthIn_append (l r : List (Nat × Var)) (c : Nat) : widthIn (l ++ r) c = (widthIn r c).or (widthIn l c) := by
  simp only [widthIn, List.reverse_append, List.find?_append]
  cases List.find? (fun p => p.1 == c) r.reverse <;> simp

theorem widthIn_cons (p : Nat × Var) (r : List (Nat × Var)) (c : Nat) :
    widthIn (p :: r) c = (widthIn r c).or (if p.1 = c then some p.2 else none) := by
  rw [show p :: r = [p] ++ r from rfl, widthIn_append]
  congr 1
  simp only [widthIn, List.reverse_singleton, List.find?_cons, List.find?_nil]
  by_cases h : p.1 = c
  · simp [h]
  · have : (p.1 == c) = false := by simpa using h
    simp [this, h]

theorem wList_ok (dw : Var) (l : List Var) (i : Nat) (ws : List Var) (hl : ∀ v ∈ l, IsNumber v) (hi : i + l.length ≤ ws.length)
    (hb : i + l.length < 4294967296) :
    ∃ ws', wList i l ws = .ok ws' ∧ ws'.length = ws.length ∧ ∀ c, ws'.getD c dw = (widthIn (numbered i l) c).getD (ws.getD c dw) := by
  induction l generalizing i ws with
  | nil => exact ⟨ws, rfl, rfl, fun c => by simp [numbered, widthIn]⟩
  | cons v l ih =>
    simp only [List.length_cons] at hi hb
    obtain ⟨ws', h1, h2, h3⟩ := ih (i + 1) (ws.set i v) (fun u hu => hl u (List.mem_cons_of_mem _ hu))
      (by simp only [List.length_set]; omega) (by omega)
    refine ⟨ws', ?_, by simpa using h2, ?_⟩
    · rw [wList, asReal_ok (hl v (List.mem_cons_self ..)), Nat.mod_eq_of_lt (by omega)]
      show (do let ws ← wSet ws i v; wList (i + 1) l ws) = _
      rw [wSet, if_pos (by omega)]
      exact h1
    · intro c
      rw [h3, numbered, widthIn_cons]
      cases widthIn (numbered (i + 1) l) c with
      | some u => rfl
      | none =>
        simp only [Option.none_or, Option.getD_none]
        by_cases hc : i = c
        · subst hc
          simp only [if_true, Option.getD_some, List.getD_eq_getElem?_getD]
          rw [List.getElem?_set_self (by omega)]; rfl
        · rw [if_neg hc, List.getD_eq_getElem?_getD, List.getElem?_set_ne hc, ← List.getD_eq_getElem?_getD]; rfl

theorem wSpan_list (v : Var) (hv : IsNumber v) (n i : Nat) (ws : List Var) (hb : i + n ≤ 4294967296) :
    wSpan v n i ws = wList i (List.replicate n v) ws := by
  induction n generalizing i ws with
  | zero => rfl
  | succ n ih =>
    rw [wSpan, List.replicate_succ, wList, asReal_ok hv, Nat.mod_eq_of_lt (by omega)]
    show _ = (do let ws ← wSet ws i v; wList (i + 1) (List.replicate n v) ws)
    cases h : wSet ws i v with
    | error e => rfl
    | ok ws => exact ih _ _ (by omega)

theorem truncTo32 {n : Nat} (h : n < 4294967296) : truncTo 32 (n : Int) = n := by
  rw [truncTo]
  have : ((2 ^ 32 : Nat) : Int) = 4294967296 := by decide
  rw [this]; omega

theorem readW_ok (deref : Nat → Nat → Option Var) (dw : Var) (es : List WEntry) (h : ∀ e ∈ es, e.Ok deref) (ws : List Var) :
    ∃ ws', readW deref dw (es.flatMap WEntry.objs) ws = .ok ws' ∧ ws.length ≤ ws'.length ∧
      (∀ p ∈ es.flatMap WEntry.says, p.1 < ws'.length) ∧
      ∀ c, ws'.getD c dw = (widthIn (es.flatMap WEntry.says) c).getD (ws.getD c dw) := by
  have key : ∀ (c : Nat) (l : List Var), (∀ v ∈ l, IsNumber v) → c + l.length < 4294967296 → ∀ (ws : List Var),
      ∃ ws', wList c l (wGrow dw ws ((c + l.length) % 4294967296)) = .ok ws' ∧ ws.length ≤ ws'.length ∧
        (∀ p ∈ numbered c l, p.1 < ws'.length) ∧ ∀ k, ws'.getD k dw = (widthIn (numbered c l) k).getD (ws.getD k dw) := by
    intro c l hl hb ws
    rw [Nat.mod_eq_of_lt hb]
    obtain ⟨ws', h1, h2, h3⟩ := wList_ok dw l c (wGrow dw ws (c + l.length)) hl (by rw [grow_length]; omega) hb
    refine ⟨ws', h1, by rw [h2, grow_length]; omega, ?_, fun k => by rw [h3, getD_grow]⟩
    have hn : ∀ (l : List Var) (c : Nat), ∀ p ∈ numbered c l, p.1 < c + l.length := by
      intro l
      induction l with
      | nil => intro c p hp; cases hp
      | cons v l ih =>
        intro c p hp
        simp only [numbered, List.mem_cons] at hp
        rcases hp with rfl | hp
        · simp
        · have := ih _ p hp; simp only [List.length_cons]; omega
    intro p hp
    have := hn l c p hp
    rw [h2, grow_length]; omega
  induction es generalizing ws with
  | nil => exact ⟨ws, by simp [readW], Nat.le_refl _, by simp, fun c => by simp [widthIn]⟩
  | cons e es ih =>
    have he := h e (List.mem_cons_self ..)
    have step : ∃ ws1, (∀ rest, readW deref dw (e.objs ++ rest) ws = readW deref dw rest ws1) ∧ ws.length ≤ ws1.length ∧
        (∀ p ∈ e.says, p.1 < ws1.length) ∧ ∀ k, ws1.getD k dw = (widthIn e.says k).getD (ws.getD k dw) := by
      cases e with
      | list c l =>
        obtain ⟨ws1, h1, h2, h3, h4⟩ := key c l he.2 he.1 ws
        refine ⟨ws1, fun rest => ?_, h2, h3, h4⟩
        simp only [WEntry.objs, List.cons_append, List.nil_append, readW, lenientU32]
        rw [truncTo32 (by have := he.1; omega)]
        show (do let ws ← wList c l (wGrow dw ws ((c + l.length) % 4294967296)); readW deref dw rest ws) = _
        rw [h1]; rfl
      | listAt c n g l =>
        obtain ⟨ws1, h1, h2, h3, h4⟩ := key c l he.2.1 he.1 ws
        refine ⟨ws1, fun rest => ?_, h2, h3, h4⟩
        simp only [WEntry.objs, List.cons_append, List.nil_append, readW, lenientU32]
        rw [truncTo32 (by have := he.1; omega), wSecond, he.2.2]
        show (do let ws ← wList c l (wGrow dw ws ((c + l.length) % 4294967296)); readW deref dw rest ws) = _
        rw [h1]; rfl
      | span a b w =>
        obtain ⟨ha, hb, hw⟩ := he
        by_cases hab : a ≤ b
        · obtain ⟨ws1, h1, h2, h3, h4⟩ := key a (List.replicate (b + 1 - a) w) (fun v hv => by rw [List.eq_of_mem_replicate hv]; exact hw)
            (by simp only [List.length_replicate]; omega) ws
          refine ⟨ws1, fun rest => ?_, h2, h3, h4⟩
          simp only [List.length_replicate, show a + (b + 1 - a) = b + 1 by omega] at h1
          simp only [WEntry.objs, List.cons_append, List.nil_append, readW, lenientU32]
          rw [truncTo32 ha, truncTo32 (show b < 4294967296 by omega)]
          show (do let ws ← wRange dw a b w ws; readW deref dw rest ws) = _
          rw [wRange, asReal_ok hw]
          show (do
            let ws ← (do
              let ws ← wSpan w (b + 1 - a) a (wGrow dw ws ((b + 1) % 4294967296))
              if b = 4294967295 then Except.error Fault.diverge else .ok ws)
            readW deref dw rest ws) = _
          rw [wSpan_list w hw _ _ _ (by omega), h1]
          show (do
            let ws ← (if b = 4294967295 then Except.error Fault.diverge else .ok ws1)
            readW deref dw rest ws) = _
          rw [if_neg (by omega)]; rfl
        · refine ⟨wGrow dw ws (b + 1), fun rest => ?_, by rw [grow_length]; omega, ?_, ?_⟩
          · simp only [WEntry.objs, List.cons_append, List.nil_append, readW, lenientU32]
            rw [truncTo32 ha, truncTo32 (show b < 4294967296 by omega)]
            show (do let ws ← wRange dw a b w ws; readW deref dw rest ws) = _
            rw [wRange, asReal_ok hw]
            show (do
              let ws ← (do
                let ws ← wSpan w (b + 1 - a) a (wGrow dw ws ((b + 1) % 4294967296))
                if b = 4294967295 then Except.error Fault.diverge else .ok ws)
              readW deref dw rest ws) = _
            rw [show b + 1 - a = 0 by omega, Nat.mod_eq_of_lt hb]
            show (do
              let ws ← (if b = 4294967295 then Except.error Fault.diverge else .ok (wGrow dw ws (b + 1)))
              readW deref dw rest ws) = _
            rw [if_neg (by omega)]; rfl
          · intro p hp
            rw [WEntry.says, show b + 1 - a = 0 by omega] at hp
            cases hp
          · intro k
            rw [WEntry.says, show b + 1 - a = 0 by omega, getD_grow]
            rfl
    obtain ⟨ws1, s1, s2, s3, s4⟩ := step
    obtain ⟨ws2, r1, r2, r3, r4⟩ := ih (fun e' he' => h e' (List.mem_cons_of_mem _ he')) ws1
    refine ⟨ws2, ?_, by omega, ?_, ?_⟩
    · rw [List.flatMap_cons, s1]; exact r1
    · intro p hp
      rw [List.flatMap_cons, List.mem_append] at hp
      rcases hp with hp | hp
      · have := s3 p hp; omega
      · exact r3 p hp
    · intro c
      rw [r4, List.flatMap_cons, widthIn_append, s4]
      cases widthIn (es.flatMap WEntry.says) c <;> simp

/-! ### C128: any array of widths -/

/-- C128.  Any well formed `/W` array, with entries of both kinds in any order, overlapping or not, gives each CID the last width it states,
and all other CIDs the default width. -/
theorem C128_widths_partial (deref : Nat → Nat → Option Var) (dw : Nat) (es : List WEntry) (h : ∀ e ∈ es, e.Ok deref) :
    ∃ c, loadCidMetrics deref ⟨some (es.flatMap WEntry.objs), some (.num dw)⟩ = .ok c ∧
      ∀ cid, c.cidWidth none cid = (widthIn (es.flatMap WEntry.says) cid).getD (.num dw) := by
  obtain ⟨ws, h1, _, _, h4⟩ := readW_ok deref (.num dw) es h []
  refine ⟨⟨.num dw, ws⟩, by simp only [loadCidMetrics, cidDefault, asReal, h1], fun cid => ?_⟩
  have := h4 cid
  have hd : CidMetrics.default ⟨.num (dw : Int), ws⟩ = .num dw := by
    simp only [CidMetrics.default]; rw [if_neg (by omega)]
  simp only [CidMetrics.cidWidth, CidMetrics.glyphWidth, hd]
  rw [this]; simp

example : ∃ c, loadCidMetrics (fun n _ => if n = 9 then some (.arr [.num 7, .real false 25 1]) else none)
      ⟨some [.num 3, .num 5, .num 500, .num 4, .ref 9 0, .num 8, .arr [.num 1]], some (.num 600)⟩ = .ok c ∧
    ∀ cid, c.cidWidth none cid =
      (widthIn [(3, .num 500), (4, .num 500), (5, .num 500), (4, .num 7), (5, .real false 25 1), (8, .num 1)] cid).getD (.num 600) :=
  C128_widths_partial (fun n _ => if n = 9 then some (.arr [.num 7, .real false 25 1]) else none) 600
    [.span 3 5 (.num 500), .listAt 4 9 0 [.num 7, .real false 25 1], .list 8 [.num 1]] (by
      intro e he
      simp only [List.mem_cons, List.not_mem_nil, or_false] at he
      rcases he with rfl | rfl | rfl
      · exact ⟨by omega, by omega, Or.inl ⟨_, rfl⟩⟩
      · refine ⟨by simp, ?_, rfl⟩
        intro v hv
        simp only [List.mem_cons, List.not_mem_nil, or_false] at hv
        rcases hv with rfl | rfl
        · exact Or.inl ⟨_, rfl⟩
        · exact Or.inr ⟨_, _, _, rfl⟩
      · refine ⟨by simp, ?_⟩
        intro v hv
        simp only [List.mem_cons, List.not_mem_nil, or_false] at hv
        subst hv
        exact Or.inl ⟨_, rfl⟩)

/-- A call that returns or raises a `PdfError`: no undefined behaviour, no endless loop. -/
def Spec.NoFault {α : Type} (r : Res α) : Prop := (∃ a, r = .ok a) ∨ ∃ c, r = raise c

theorem asReal_safe (v : Var) : NoFault (asReal v) := by
  cases v <;> first | exact Or.inl ⟨_, rfl⟩ | exact Or.inr ⟨_, rfl⟩

theorem Spec.NoFault.bind {α β : Type} {r : Res α} {f : α → Res β} (h : NoFault r) (hf : ∀ a, r = .ok a → NoFault (f a)) : NoFault (r >>= f) := by
  rcases h with ⟨a, rfl⟩ | ⟨c, rfl⟩
  · exact hf a rfl
  · exact Or.inr ⟨c, rfl⟩

theorem wList_safe (l : List Var) (i : Nat) (ws : List Var) (hi : i + l.length ≤ ws.length) (hb : i + l.length < 4294967296) :
    NoFault (wList i l ws) := by
  induction l generalizing i ws with
  | nil => exact Or.inl ⟨ws, rfl⟩
  | cons v l ih =>
    simp only [List.length_cons] at hi hb
    rw [wList]
    refine (asReal_safe v).bind (fun r _ => ?_)
    rw [Nat.mod_eq_of_lt (by omega), wSet, if_pos (by omega)]
    exact ih (i + 1) (ws.set i r) (by simp only [List.length_set]; omega) (by omega)

theorem wRange_safe (dw : Var) (a b : Nat) (v : Var) (ws : List Var) (ha : a < 4294967296) (hb : b + 1 < 4294967296) : NoFault (wRange dw a b v ws) := by
  rw [wRange]
  refine (asReal_safe v).bind (fun r hr => ?_)
  have hn : IsNumber r := by
    cases v <;> first | cases hr; exact Or.inl ⟨_, rfl⟩ | (cases hr; exact Or.inr ⟨_, _, _, rfl⟩) | cases hr
  have he : ∀ ws : List Var, (if b = 4294967295 then Except.error Fault.diverge else Except.ok ws : Res (List Var)) = .ok ws :=
    fun ws => if_neg (by omega)
  simp only [he, Nat.mod_eq_of_lt hb]
  by_cases hab : a ≤ b
  · rw [wSpan_list r hn _ _ _ (by omega)]
    exact (wList_safe _ _ _ (by rw [grow_length, List.length_replicate]; omega) (by rw [List.length_replicate]; omega)).bind (fun a _ => Or.inl ⟨a, rfl⟩)
  · rw [show b + 1 - a = 0 by omega]
    exact Or.inl ⟨_, rfl⟩

/-- C128, safety.  Reading any `/W` array at all, of any objects, either succeeds or raises an error, as long as no number in the place of a
CID exceeds 2^31 - 1 or is negative and no list in it is longer than 2^31. -/
theorem C128_safe_partial (deref : Nat → Nat → Option Var) (dw : Var) (w : List Var)
    (hnum : ∀ v ∈ w, lenientU32 v ≠ .error .ub ∧ ∀ k, lenientU32 v = .ok k → k < 2147483648)
    (hlist : ∀ l, Var.arr l ∈ w → l.length < 2147483648)
    (href : ∀ n g l, deref n g = some (.arr l) → l.length < 2147483648) (ws : List Var) : NoFault (readW deref dw w ws) := by
  have hl : ∀ v ∈ w, NoFault (lenientU32 v) := by
    intro v hv
    have := (hnum v hv).1
    cases v with
    | num n => exact Or.inl ⟨_, rfl⟩
    | real a m s =>
      rw [lenientU32] at this ⊢
      split
      · exact Or.inl ⟨_, rfl⟩
      · rename_i hc; rw [if_neg hc] at this; exact absurd rfl this
    | _ => exact Or.inr ⟨_, rfl⟩
  induction hn : w.length using Nat.strongRecOn generalizing w ws with
  | ind n ih =>
    match w, hn with
    | [], _ => exact Or.inl ⟨ws, by simp [readW]⟩
    | [a], _ =>
      simp only [readW]
      exact (hl a (by simp)).bind (fun _ _ => Or.inr ⟨_, rfl⟩)
    | a :: b :: rest, hn =>
      simp only [List.length_cons] at hn
      simp only [readW]
      refine (hl a (by simp)).bind (fun start hs => ?_)
      have hstart := (hnum a (by simp)).2 start hs
      have tail : ∀ (r : List Var) (_ : r.length < n) (_ : ∀ v ∈ r, v ∈ a :: b :: rest) ws, NoFault (readW deref dw r ws) := fun r hr hm ws =>
        ih r.length hr r (fun v hv => hnum v (hm v hv)) (fun l hv => hlist l (hm _ hv)) ws (fun v hv => hl v (hm v hv)) rfl
      have hrest : ∀ ws, NoFault (readW deref dw rest ws) := tail rest (by omega) (fun v hv => by simp [hv])
      have hspan : NoFault (do
          let last ← lenientU32 b
          match rest with
          | [] => (raise .ValueOutOfRange : Res (List Var))
          | c :: rest' =>
            let ws ← wRange dw start last c ws
            readW deref dw rest' ws) := by
        refine (hl b (by simp)).bind (fun last hb => ?_)
        have hlast := (hnum b (by simp)).2 last hb
        cases rest with
        | nil => exact Or.inr ⟨_, rfl⟩
        | cons c rest' =>
          refine (wRange_safe dw start last c ws (by omega) (by omega)).bind (fun ws _ => ?_)
          exact tail rest' (by simp only [List.length_cons] at hn; omega) (fun v hv => by simp [hv]) ws
      have harr : ∀ l : List Var, l.length < 2147483648 → NoFault (do
          let ws ← wList start l (wGrow dw ws ((start + l.length) % 4294967296))
          readW deref dw rest ws) := by
        intro l hlen
        refine Spec.NoFault.bind (wList_safe l start _ ?_ (by omega)) (fun ws _ => hrest ws)
        rw [grow_length, Nat.mod_eq_of_lt (by omega)]; omega
      cases b with
      | ref k g =>
        cases hd : deref k g with
        | none => rw [wSecond, hd]; exact Or.inr ⟨_, rfl⟩
        | some v =>
          rw [wSecond, hd]
          cases v with
          | arr l => exact harr l (href k g l hd)
          | _ => exact hspan
      | arr l => exact harr l (hlist l (by simp))
      | _ => exact hspan

example (deref : Nat → Nat → Option Var) (h : ∀ n g, deref n g = none) : NoFault (readW deref (.num 1000) [.num 3, .name [65], .num 1] []) :=
  C128_safe_partial deref (.num 1000) _ (by
    intro v hv
    simp only [List.mem_cons, List.not_mem_nil, or_false] at hv
    rcases hv with rfl | rfl | rfl
    · exact ⟨by decide, fun k hk => by cases hk; decide⟩
    · exact ⟨by decide, fun k hk => by cases hk⟩
    · exact ⟨by decide, fun k hk => by cases hk; decide⟩) (by simp) (by simp [h]) []

theorem wSpan_ub (v : Var) (n i : Nat) (ws : List Var) (h : ws.length < i + n) (hn : n ≠ 0) : wSpan v n i ws = .error .ub := by
  induction n generalizing i ws with
  | zero => exact absurd rfl hn
  | succ n ih =>
    rw [wSpan, wSet]
    by_cases hi : i < ws.length
    · rw [if_pos hi]
      exact ih (i + 1) (ws.set i v) (by simp only [List.length_set]; omega) (by omega)
    · rw [if_neg hi]; rfl

/-- C128 is false for the last CID -1, whatever the first one and the width: memory after the vector is written. -/
theorem C128_last_false (deref : Nat → Nat → Option Var) (dw : Var) (a : Int) (w : Var) (hw : IsNumber w) (rest ws : List Var)
    (hs : ws.length < 4294967296) : readW deref dw (.num a :: .num (-1) :: w :: rest) ws = .error .ub := by
  have ha : truncTo 32 a < 4294967296 := by
    rw [truncTo]
    have : ((2 ^ 32 : Nat) : Int) = 4294967296 := by decide
    rw [this]; omega
  have h1 : truncTo 32 (-1) = 4294967295 := by decide
  simp only [readW, lenientU32, h1]
  show (do let ws ← wRange dw (truncTo 32 a) 4294967295 w ws; readW deref dw rest ws) = _
  have : wRange dw (truncTo 32 a) 4294967295 w ws = .error .ub := by
    rw [wRange, asReal_ok hw]
    show (do
      let ws ← wSpan w (4294967295 + 1 - truncTo 32 a) (truncTo 32 a) (wGrow dw ws ((4294967295 + 1) % 4294967296))
      if 4294967295 = 4294967295 then Except.error Fault.diverge else .ok ws) = _
    rw [wSpan_ub _ _ _ _ (by rw [grow_length]; omega) (by omega)]; rfl
  rw [this]; rfl

/-- C128 is false for a list at the CID -1, whatever the widths. -/
theorem C128_list_false (deref : Nat → Nat → Option Var) (dw : Var) (v : Var) (hv : IsNumber v) (rest ws : List Var)
    (hs : ws.length < 4294967295) : readW deref dw (.num (-1) :: .arr [v] :: rest) ws = .error .ub := by
  have h1 : truncTo 32 (-1) = 4294967295 := by decide
  simp only [readW, lenientU32, h1]
  show (do let ws ← wList 4294967295 [v] (wGrow dw ws ((4294967295 + [v].length) % 4294967296)); readW deref dw rest ws) = _
  have : wList 4294967295 [v] (wGrow dw ws ((4294967295 + [v].length) % 4294967296)) = .error .ub := by
    rw [wList, asReal_ok hv]
    show (do let ws ← wSet (wGrow dw ws ((4294967295 + [v].length) % 4294967296)) (4294967295 % 4294967296) v; wList (4294967295 + 1) [] ws) = _
    rw [wSet, if_neg (by rw [grow_length]; simp only [List.length_singleton]; omega)]; rfl
  rw [this]; rfl

/-! ### C127: widths of an embedded font -/

theorem widthIn_map {m : List (Nat × Nat)} (hd : (m.map Prod.fst).Nodup) (w : Nat → Nat) (cid : Nat) :
    widthIn (m.map (fun p => (p.1, Var.num (w p.2)))) cid = (m.lookup cid).map (fun g => Var.num (w g)) := by
  induction m with
  | nil => rfl
  | cons p m ih =>
    simp only [List.map_cons, List.nodup_cons] at hd
    rw [List.map_cons, widthIn_cons, ih hd.2, List.lookup_cons]
    by_cases h : p.1 = cid
    · subst h
      have : m.lookup p.1 = none := by
        rw [List.lookup_eq_none_iff]
        intro q hq
        simp only [bne_iff_ne, ne_eq, beq_eq_false_iff_ne]
        intro hc
        exact hd.1 (List.mem_map.2 ⟨q, hq, hc.symm⟩)
      simp [this]
    · have h' : (cid == p.1) = false := by simpa using fun hc => h hc.symm
      rw [if_neg h, h']
      cases m.lookup cid <;> rfl

/-- C127.  After a CID font is embedded with any map from CIDs to glyphs, the font loaded from the file gives each CID of the map the width of its
glyph and every other CID but 0 the default width; CID 0, when it is not in the map, has the width of glyph 0. -/
theorem C127_widths_partial (deref : Nat → Nat → Option Var) (m : List (Nat × Nat)) (hne : m ≠ []) (hd : (m.map Prod.fst).Nodup)
    (hm : ∀ p ∈ m, p.1 + 1 < 4294967296) (w : Nat → Nat) (dw : Option Nat) :
    ∃ c, loadCidMetrics deref (createWidths m w dw) = .ok c ∧
      (∀ cid g, (cid, g) ∈ m → c.cidWidth none cid = .num (w g)) ∧
      (∀ cid, cid ∉ m.map Prod.fst → cid ≠ 0 → c.cidWidth none cid = .num (dw.getD 1000)) ∧
      (0 ∉ m.map Prod.fst → c.cidWidth none 0 = .num (w 0)) := by
  obtain ⟨es, h1, h2, h3⟩ := getPdfWidths_spec m hne w hm
  have hout : getPdfWidths m w ≠ [] := by
    intro hc
    rw [hc] at h1
    have : es = [] := by
      cases es with
      | nil => rfl
      | cons e es => rw [List.flatMap_cons] at h1; cases e <;> simp [WEntry.objs] at h1
    subst this
    cases h3
  have hload : ∃ c, loadCidMetrics deref (createWidths m w dw) = .ok c ∧
      ∀ cid, c.cidWidth none cid = (widthIn (es.flatMap WEntry.says) cid).getD (.num (dw.getD 1000)) := by
    cases dw with
    | some n =>
      have := C128_widths_partial deref n es (fun e he => h2 e he deref)
      rw [createWidths, if_neg hout, h1]
      exact this
    | none =>
      have := C128_widths_partial deref 1000 es (fun e he => h2 e he deref)
      rw [createWidths, if_neg hout, h1]
      exact this
  obtain ⟨c, hc1, hc2⟩ := hload
  have hw : ∀ cid, c.cidWidth none cid =
      (((m.lookup cid).map (fun g => Var.num (w g))).or (if 0 = cid then some (.num (w 0)) else none)).getD (.num (dw.getD 1000)) := by
    intro cid
    rw [hc2, h3, widthIn_cons, widthIn_map hd]
  have hnone : ∀ cid, cid ∉ m.map Prod.fst → m.lookup cid = none := by
    intro cid hn
    rw [List.lookup_eq_none_iff]
    intro q hq
    simp only [beq_eq_false_iff_ne, bne_iff_ne, ne_eq]
    intro hc
    exact hn (List.mem_map.2 ⟨q, hq, hc.symm⟩)
  refine ⟨c, hc1, ?_, ?_, ?_⟩
  · intro cid g hg
    have hl : m.lookup cid = some g := by
      clear hne hm h1 h2 h3 hout hc1 hc2 hw hnone
      induction m with
      | nil => cases hg
      | cons p m ih =>
        simp only [List.map_cons, List.nodup_cons] at hd
        rw [List.lookup_cons]
        rcases List.mem_cons.1 hg with rfl | hg
        · simp
        · have : (cid == p.1) = false := by
            simp only [beq_eq_false_iff_ne, ne_eq]
            intro hc
            exact hd.1 (List.mem_map.2 ⟨(cid, g), hg, hc⟩)
          rw [this]
          exact ih hd.2 hg
    rw [hw, hl]; rfl
  · intro cid hn h0
    rw [hw, hnone cid hn, if_neg (fun h => h0 h.symm)]; rfl
  · intro hn
    rw [hw, hnone 0 hn, if_pos rfl]; rfl

example : ∃ c, loadCidMetrics (fun _ _ => none) (createWidths [(1, 7), (2, 9), (3, 9), (6, 2)] (fun g => 100 * g) (some 600)) = .ok c ∧
    (∀ cid g, (cid, g) ∈ [(1, 7), (2, 9), (3, 9), (6, 2)] → c.cidWidth none cid = .num (100 * g : Nat)) :=
  let ⟨c, h1, h2, _⟩ := C127_widths_partial (fun _ _ => none) [(1, 7), (2, 9), (3, 9), (6, 2)] (by simp) (by decide) (by decide) (fun g => 100 * g) (some 600)
  ⟨c, h1, h2⟩

/-- C127 is false for a font with a `/CIDToGIDMap` stream: the width of a CID is looked up under the number of its glyph, and so it is
the width stated for another CID, whenever that one differs. -/
theorem C127_mapped_false (c : CidMetrics) (m : List (Nat × Nat)) (cid g : Nat) (h : m.lookup cid = some g)
    (hne : c.cidWidth none g ≠ c.cidWidth none cid) : c.cidWidth (some m) cid ≠ c.cidWidth none cid := by
  simp only [CidMetrics.cidWidth, h] at hne ⊢
  exact hne

example : ∃ c, loadCidMetrics (fun _ _ => none) ⟨some [.num 1, .arr [.num 500, .num 600]], none⟩ = .ok c ∧
    c.cidWidth (some [(1, 2), (2, 1)]) 1 = .num 600 ∧ c.cidWidth none 1 = .num 500 :=
  ⟨⟨.num 1000, [.num 1000, .num 500, .num 600]⟩, by simp only [loadCidMetrics, cidDefault, readW]; rfl, rfl, rfl⟩

/-- C127 is false for the default width of a font embedded with no CIDs: `/DW` is not written, and 1000 is read. -/
theorem C127_default_false (deref : Nat → Nat → Option Var) (w : Nat → Nat) (dw : Nat) (cid : Nat) :
    ∃ c, loadCidMetrics deref (createWidths [] w (some dw)) = .ok c ∧ c.cidWidth none cid = .num 1000 :=
  ⟨⟨.num 1000, []⟩, rfl, rfl⟩

/-- **C128** A default width that is no number is refused, whatever the widths are. -/
theorem C128_bad_default (deref : Nat → Nat → Option Var) (w : Option (List Var)) (v : Var) (hn : ∀ n, v ≠ .num n) (hr : ∀ a b c, v ≠ .real a b c) :
    loadCidMetrics deref ⟨w, some v⟩ = raise .InvalidDataType := by
  cases v <;> simp_all [loadCidMetrics, cidDefault, asReal, raise]

example : loadCidMetrics (fun _ _ => none) ⟨some [.num 1, .arr [.num 500]], some (.name [49])⟩ = raise .InvalidDataType :=
  C128_bad_default _ _ _ (by simp) (by simp)

end Pdfmm
