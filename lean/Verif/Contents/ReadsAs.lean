import Verif.Contents.ReaderText
set_option autoImplicit false
/-
What the reader delivers for texts that are put together from several streams.
-/
namespace Pdfmm

open Spec

/-- The reader, whatever was read before, delivers exactly these contents for the text and then answers that it has ended. -/
def Spec.ReadsAs (env : CEnv) (a : CArgs) (canvas contents : Option Nat) (t : Bytes) (r : List Content) : Prop :=
  ∀ (n : Nat) (c : Content) (T : Bytes), c.imgDict = [] → lex psCfg.cap T = lex psCfg.cap t → r.length < n →
    readAllContent env a n c ⟨[⟨canvas, contents, T⟩], [], false⟩ = .ok r

/-- The text shows the pieces: operators with their operands, and images, with white space between and after them. -/
inductive Spec.ShowsPieces (f : WFlags) (canvas : Option Nat) : Bytes → List Spec.Piece → Prop
  | nil : Spec.ShowsPieces f canvas [] []
  | ws (w : Byte) (t : Bytes) (l : List Spec.Piece) : isWhitespace w = true → Spec.ShowsPieces f canvas t l → Spec.ShowsPieces f canvas (w :: t) l
  | op (o : PdfOp) (args : List Var) (t : Bytes) (l : List Spec.Piece) : (Spec.Piece.op o args).Ok canvas →
      (t = [] ∨ ∃ w r, t = w :: r ∧ isWhitespace w = true) → Spec.ShowsPieces f canvas t l →
      Spec.ShowsPieces f canvas (operandsText f args ++ (opName o ++ t)) (.op o args :: l)
  | image (dict : List (Bytes × Var)) (data t : Bytes) (l : List Spec.Piece) : (Spec.Piece.image dict data).Ok canvas → Spec.ShowsPieces f canvas t l →
      Spec.ShowsPieces f canvas ((Spec.Piece.image dict data).text f ++ t) (.image dict data :: l)

/-- The text ends with white space. -/
def Spec.EndsWs (t : Bytes) : Prop := ∃ w, t.getLast? = some w ∧ isWhitespace w = true

section
variable {env : CEnv} {a : CArgs} {cv ct : Option Nat}

theorem step_op' (ha : a.throwOnWarnings = false) (hb : ∀ x, env.body x ≠ .error .diverge)
    {f : WFlags} (hf : f.Sep) (o : PdfOp) (args : List Var) (hok : (Spec.Piece.op o args).Ok cv) (rest : Bytes) (hr : StartsOk rest) (c : Content)
    (T : Bytes) (hT : lex psCfg.cap T = lex psCfg.cap (operandsText f args ++ (opName o ++ rest))) :
    tryReadNext env a c (oneInput cv ct T []) =
      .ok (true, { type := .operator, op := some o, keyword := opName o, stack := args, warnings := countWarn o args.length {} },
        oneInput cv ct rest []) := by
  obtain ⟨h1, h2, h3⟩ := hok
  rw [tryReadNext_plain]
  rw [readPlain]
  have := readNext_operator (a := a) hb hf o args h3 rest hr cv ct c.reset T hT
  simp only [oneInput] at this
  rw [this]
  have hh : tryHandleOperator env a o (opContent o args c.reset) ⟨[⟨cv, ct, rest⟩], [], false⟩ =
      .ok (true, opContent o args c.reset, ⟨[⟨cv, ct, rest⟩], [], false⟩) := by
    unfold tryHandleOperator
    by_cases hdo : o = .opDo
    · rw [if_pos hdo]
      rcases h2 with h2 | h2
      · simp only [h2]
      · exact absurd hdo h2
    · rw [if_neg hdo, if_neg h1]
  rw [hh]
  simp only [handleContent, handleWarnings, ha, Bool.false_eq_true, if_false]
  simp [opContent, Content.clear, Content.reset, oneInput]

theorem step_word (ha : a.throwOnWarnings = false) (w : Bytes) (hw : IsWord w) (hno : opOfName w = none) (rest : Bytes) (hr : StartsOk rest) (c : Content)
    (T : Bytes) (hT : lex psCfg.cap T = lex psCfg.cap (w ++ rest)) :
    tryReadNext env a c (oneInput cv ct T []) = .ok (true, { type := .unexpectedKeyword, keyword := w }, oneInput cv ct rest []) := by
  obtain ⟨s', h1, h2, _⟩ := psNext_keyword (s := ⟨[], T, 0⟩) hw (Or.inl ⟨rfl, rfl⟩) hr hT
  rw [tryReadNext_plain, readPlain, tryReadNextContent, readContentLoop]
  have := next_of (cv := cv) (ct := ct) h1
  simp only [oneInput] at this
  rw [this]
  simp only [hno]
  rw [h2.1, h2.2]
  simp only [handleContent, handleWarnings, ha, Bool.false_eq_true, if_false]
  simp [Content.clear, Content.reset, oneInput]

theorem ReadsAs.nil : Spec.ReadsAs env a cv ct [] [] := by
  intro n c T _ hT hn
  obtain ⟨n, rfl⟩ : ∃ m, n = m + 1 := ⟨n - 1, by omega⟩
  rw [lex_nil] at hT
  obtain ⟨c', st', h⟩ := step_end (env := env) (a := a) cv ct c T hT
  rw [oneInput] at h
  rw [readAllContent, h]

theorem ReadsAs.ws {w : Byte} {t : Bytes} {r : List Content} (hw : isWhitespace w = true) (h : Spec.ReadsAs env a cv ct t r) : Spec.ReadsAs env a cv ct (w :: t) r := by
  intro n c T hc hT hn
  exact h n c T hc (hT.trans (lex_ws (by decide) hw)) hn

theorem ReadsAs.op (ha : a.throwOnWarnings = false) (hb : ∀ x, env.body x ≠ .error .diverge) {f : WFlags} (hf : f.Sep) {o : PdfOp} {args : List Var}
    (hok : (Spec.Piece.op o args).Ok cv) {t : Bytes} (ht : t = [] ∨ ∃ w r, t = w :: r ∧ isWhitespace w = true) {r : List Content}
    (h : Spec.ReadsAs env a cv ct t r) : Spec.ReadsAs env a cv ct (operandsText f args ++ (opName o ++ t)) ((Spec.Piece.op o args).contents ++ r) := by
  intro n c T hc hT hn
  have hs : StartsOk t := by
    rcases ht with rfl | ⟨w, r, rfl, hw⟩
    · exact Or.inl rfl
    · exact StartsOk.cons_ws hw
  simp only [Spec.Piece.contents, List.cons_append, List.nil_append, List.length_cons] at hn
  obtain ⟨n, rfl⟩ : ∃ m, n = m + 1 := ⟨n - 1, by omega⟩
  have hstep := step_op' (ct := ct) ha hb hf o args hok t hs c T hT
  rw [oneInput] at hstep
  rw [readAllContent, hstep]
  simp only [oneInput]
  rw [h n _ t rfl rfl (by omega)]
  rfl

theorem ReadsAs.image (ha : a.throwOnWarnings = false) (hh : a.handler = none) (hb : ∀ x, env.body x ≠ .error .diverge) {f : WFlags} (hf : f.Sep)
    {dict : List (Bytes × Var)} {data : Bytes} (hok : (Spec.Piece.image dict data).Ok cv) {t : Bytes} {r : List Content}
    (h : Spec.ReadsAs env a cv ct t r) : Spec.ReadsAs env a cv ct ((Spec.Piece.image dict data).text f ++ t) ((Spec.Piece.image dict data).contents ++ r) := by
  intro n c T hc hT hn
  simp only [Spec.Piece.contents, List.cons_append, List.nil_append, List.length_cons] at hn
  obtain ⟨n, rfl⟩ : ∃ m, n = m + 2 := ⟨n - 2, by omega⟩
  have h1 := step_image ha hb hf dict data cv ct hok t c hc T hT
  rw [oneInput] at h1
  rw [readAllContent, h1]
  simp only
  rw [readAllContent, step_data hh data hok.2.2 cv ct t]
  simp only [oneInput]
  rw [h n _ t rfl rfl (by omega)]
  rfl

theorem ReadsAs.word (ha : a.throwOnWarnings = false) {w : Bytes} (hw : IsWord w) (hno : opOfName w = none) {t : Bytes} (ht : StartsOk t) {r : List Content}
    (h : Spec.ReadsAs env a cv ct t r) : Spec.ReadsAs env a cv ct (w ++ t) ({ type := .unexpectedKeyword, keyword := w } :: r) := by
  intro n c T hc hT hn
  simp only [List.length_cons] at hn
  obtain ⟨n, rfl⟩ : ∃ m, n = m + 1 := ⟨n - 1, by omega⟩
  have hstep := step_word (env := env) (cv := cv) (ct := ct) ha w hw hno t ht c T hT
  rw [oneInput] at hstep
  rw [readAllContent, hstep]
  simp only [oneInput]
  rw [h n _ t rfl rfl (by omega)]

end

theorem Spec.EndsWs.tail {a b : Bytes} (h : Spec.EndsWs (a ++ b)) (hb : b ≠ []) : Spec.EndsWs b := by
  obtain ⟨w, h1, h2⟩ := h
  rw [List.getLast?_append] at h1
  refine ⟨w, ?_, h2⟩
  cases hl : b.getLast? with
  | none => exact absurd (List.getLast?_eq_none_iff.1 hl) hb
  | some x =>
    rw [hl] at h1
    simpa using h1

theorem opName_last (o : PdfOp) : ∃ w, (opName o).getLast? = some w ∧ isWhitespace w = false := by
  have h : ∀ o : PdfOp, (match (opName o).getLast? with
    | some w => !isWhitespace w
    | none => false) = true := by
    intro o
    cases o <;> decide +kernel
  have := h o
  cases hl : (opName o).getLast? with
  | none =>
    rw [hl] at this
    cases this
  | some w =>
    rw [hl] at this
    exact ⟨w, rfl, by simpa using this⟩

/-- What follows a text that ends with white space is read after it. -/
theorem ShowsPieces.then {env : CEnv} {a : CArgs} {cv ct : Option Nat} (ha : a.throwOnWarnings = false) (hh : a.handler = none)
    (hb : ∀ x, env.body x ≠ .error .diverge) {f : WFlags} (hf : f.Sep) {t : Bytes} {l : List Spec.Piece} (h : Spec.ShowsPieces f cv t l)
    {x : Bytes} {r : List Content} (hx : Spec.ReadsAs env a cv ct x r) (he : t = [] ∨ Spec.EndsWs t ∨ x = [] ∨ ∃ w y, x = w :: y ∧ isWhitespace w = true) :
    Spec.ReadsAs env a cv ct (t ++ x) (l.flatMap (·.contents) ++ r) := by
  induction h with
  | nil => exact hx
  | ws w t l hw _ ih =>
    refine ReadsAs.ws hw (ih ?_)
    rcases he with h | h | h
    · cases h
    · by_cases ht : t = []
      · exact Or.inl ht
      · exact Or.inr (Or.inl (Spec.EndsWs.tail (a := [w]) h ht))
    · exact Or.inr (Or.inr h)
  | op o args t l hok ht _ ih =>
    have key : (t = [] ∨ Spec.EndsWs t ∨ x = [] ∨ ∃ w y, x = w :: y ∧ isWhitespace w = true) := by
      rcases he with h | h | h
      · by_cases ht : t = []
        · exact Or.inl ht
        · exact absurd (List.append_eq_nil_iff.1 (List.append_eq_nil_iff.1 h).2).2 ht
      · by_cases ht : t = []
        · exact Or.inl ht
        · refine Or.inr (Or.inl ?_)
          rw [← List.append_assoc] at h
          exact h.tail ht
      · exact Or.inr (Or.inr h)
    have hstart : t ++ x = [] ∨ ∃ w r, t ++ x = w :: r ∧ isWhitespace w = true := by
      rcases ht with rfl | ⟨w, r, rfl, hw⟩
      · rcases he with h | h | h | h
        · have := (List.append_eq_nil_iff.1 (List.append_eq_nil_iff.1 h).2).1
          obtain ⟨w, h1, _⟩ := opName_last o
          rw [this] at h1
          cases h1
        · rw [List.append_nil] at h
          obtain ⟨w, h1, h2⟩ := opName_last o
          obtain ⟨w', h3, h4⟩ := h
          rw [List.getLast?_append, h1] at h3
          have : w = w' := by simpa using h3
          rw [this, h4] at h2
          cases h2
        · exact Or.inl h
        · exact Or.inr h
      · exact Or.inr ⟨w, r ++ x, rfl, hw⟩
    have := ReadsAs.op ha hb hf hok hstart (ih key)
    simpa [List.append_assoc] using this
  | image dict data t l hok _ ih =>
    have key : (t = [] ∨ Spec.EndsWs t ∨ x = [] ∨ ∃ w y, x = w :: y ∧ isWhitespace w = true) := by
      by_cases ht : t = []
      · exact Or.inl ht
      · rcases he with h | h | h
        · exact absurd (List.append_eq_nil_iff.1 h).2 ht
        · exact Or.inr (Or.inl (h.tail ht))
        · exact Or.inr (Or.inr h)
    have := ReadsAs.image ha hh hb hf hok (ih key)
    simpa [List.append_assoc] using this

end Pdfmm
