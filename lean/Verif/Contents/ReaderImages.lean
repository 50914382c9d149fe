import Verif.Contents.ReaderText
set_option autoImplicit false
/-
Inline images and warnings in the reader of content streams: what goes wrong.  Properties C124 and C125.
-/
namespace Pdfmm
open Spec

/-! ### The end of the data -/

/-- C124 (partial).  The data of an inline image is what stands between the one byte after `ID` and the first `EI` followed by white space
(any white space the writer put before `EI` included), and reading goes on right after that white space, provided the data does not end
with `E` or `I`. -/
theorem C124_image_data_partial (c0 w : Byte) (hw : isWhitespace w = true) (d rest : Bytes)
    (h1 : ∀ a w b, d = a ++ 69 :: 73 :: w :: b → isWhitespace w = false) (h2 : d.getLast? ≠ some 69) (h3 : d.getLast? ≠ some 73) :
    tryReadImgData (c0 :: (d ++ 69 :: 73 :: w :: rest)) = some (d, rest) := by
  rw [tryReadImgData]
  exact eiLoop_data .readE [] d rest w hw h1 h2 h3 (by simp) (by simp)

/-- Non-vacuity: data with `E`, with `EI` inside a word and with a line feed at its end. -/
example : tryReadImgData (asciiB " xE EIx\nEI\nQ") = some (asciiB "xE EIx\n", asciiB "Q") := by decide +kernel

theorem eiLoop_none (t acc : Bytes) (h : 69 ∉ t) : eiLoop .readE t acc = none := by
  induction t generalizing acc with
  | nil => rw [eiLoop]
  | cons c t ih =>
    simp only [List.mem_cons, not_or] at h
    rw [eiLoop, if_neg (Ne.symm h.1)]
    exact ih _ h.2

theorem eiLoop_skip (d t acc : Bytes) (h : 69 ∉ d) : eiLoop .readE (d ++ t) acc = eiLoop .readE t (acc ++ d) := by
  induction d generalizing acc with
  | nil => simp
  | cons c d ih =>
    simp only [List.mem_cons, not_or] at h
    rw [List.cons_append, eiLoop, if_neg (Ne.symm h.1), ih _ h.2]
    simp

/-- C124 is false for data that ends with `E`: the `EI` after it is overlooked.  Whatever the data (here without another `E`) and whatever
follows (without `E`), the image and everything after it are lost. -/
theorem C124_ends_with_E_false (c0 w : Byte) (d rest : Bytes) (hd : 69 ∉ d) (hr : 69 ∉ rest) (hw : isWhitespace w = true) :
    tryReadImgData (c0 :: ((d ++ [69]) ++ 69 :: 73 :: w :: rest)) = none := by
  rw [tryReadImgData, List.append_assoc, eiLoop_skip _ _ _ hd]
  have hw' : w ≠ 69 := by intro h; subst h; simp [isWhitespace] at hw
  simp only [List.cons_append, List.nil_append]
  rw [eiLoop, if_pos rfl, eiLoop, if_neg (by decide), eiLoop, if_neg (by decide), eiLoop, if_neg hw']
  exact eiLoop_none _ _ hr

example : (69 : Byte) ∉ asciiB "abc" ∧ tryReadImgData (asciiB " abcEEI Q f") = none := by decide +kernel

/-- C124 is false for an image at the end of its stream: when nothing follows `EI`, the image is lost, whatever its data (here without
`E`). -/
theorem C124_ends_stream_false (c0 : Byte) (d : Bytes) (hd : 69 ∉ d) : tryReadImgData (c0 :: (d ++ [69, 73])) = none := by
  rw [tryReadImgData, eiLoop_skip _ _ _ hd, eiLoop, if_pos rfl, eiLoop, if_pos rfl, eiLoop]

/-- C124 is false for an image in a form that is not ended there: the reader keeps on looking for `EI` in what invoked the form.  From then
on nothing of it is delivered, whatever it is, as long as it has no `E`. -/
theorem C124_unended_image_false (env : CEnv) (a : CArgs) (ha : a.throwOnWarnings = false) (hh : a.handler = none) (c : Content)
    (cv ct cv' ct' : Option Nat) (t page : Bytes) (ht : 69 ∉ t) (hpage : 69 ∉ page) (n : Nat) :
    ∃ c', readAllContent env a (n + 2) c ⟨[⟨cv, ct, t⟩, ⟨cv', ct', page⟩], [], true⟩ = .ok [c'] ∧ c'.type = .endXObjectForm := by
  have hnone : ∀ t : Bytes, 69 ∉ t → tryReadImgData t = none := by
    intro t ht
    cases t with
    | nil => rfl
    | cons x t => rw [tryReadImgData]; simp only [List.mem_cons, not_or] at ht; exact eiLoop_none _ _ ht.2
  have h1 : ∃ c1, tryReadNext env a c ⟨[⟨cv, ct, t⟩, ⟨cv', ct', page⟩], [], true⟩ = .ok (true, c1, ⟨[⟨cv', ct', page⟩], [], true⟩) ∧
      c1.type = .endXObjectForm := by
    rw [tryReadNext]
    simp only [if_true, hh, hnone t ht, popDevice, handleContent, handleWarnings, ha, Bool.false_eq_true, if_false]
    exact ⟨_, rfl, by rw [type_clear]⟩
  obtain ⟨c1, h1, h1'⟩ := h1
  have h2 : ∃ c2 st2, tryReadNext env a c1 ⟨[⟨cv', ct', page⟩], [], true⟩ = .ok (false, c2, st2) := by
    rw [tryReadNext]
    simp only [if_true, hh, hnone page hpage, popDevice]
    exact ⟨_, _, rfl⟩
  obtain ⟨c2, st2, h2⟩ := h2
  refine ⟨c1, ?_, h1'⟩
  rw [readAllContent, h1]
  simp only
  rw [readAllContent, h2]

/-- The page paints a form whose inline image is not ended; what the page paints afterwards is not seen. -/
example : summary (readAllContent ⟨fun _ _ => some 1, fun _ => true, fun _ => .ok (asciiB "BI /W 1 ID x")⟩ {} 20 {}
      ⟨[⟨some 0, some 7, asciiB "/A Do q f Q"⟩], [], false⟩) =
    [(.doXObject, false), (.imageDictionary, false), (.endXObjectForm, false)] := by decide +kernel

/-! ### The dictionary -/

/-- What one image dictionary holds. -/
def dictsOf (r : Res (List Content)) : List (List Bytes) :=
  match r with
  | .ok l => (l.filter fun c => c.type == .imageDictionary).map fun c => c.imgDict.map (·.1)
  | .error _ => []

/-- C124 is false for a dictionary with a key and no value, or a word instead of the value: the rest of the stream is silently dropped. -/
theorem C124_bad_value_false : ∃ env : CEnv, summary (readAllContent env {} 20 {} ⟨[⟨none, none, asciiB "q BI /W x ID 1 EI f f Q"⟩], [], false⟩) =
    [(.operator, false)] := ⟨⟨fun _ _ => none, fun _ => false, fun _ => .ok []⟩, by decide +kernel⟩

/-- C124 is false for two images in a row when a handler takes the data: the keys of the first dictionary are in the second too. -/
theorem C124_handler_dictionary_false : ∃ (env : CEnv) (a : CArgs), Consumes a ∧
    dictsOf (readAllContent env a 20 {} ⟨[⟨none, none, asciiB "BI /W 1 ID  EI BI /H 2 ID  EI Q"⟩], [], false⟩) = [[[87]], [[72], [87]]] := by
  refine ⟨⟨fun _ _ => none, fun _ => false, fun _ => .ok []⟩, { handler := some oneSpace }, ?_, by decide +kernel⟩
  intro h hh d t
  simp only [Option.some.injEq] at hh
  rw [← hh]; simp [oneSpace]

/-! ### Warnings -/

/-- No warning at all. -/
def Spec.NoWarnings (c : Content) : Prop := c.warnings = {}

/-- C125 is false: with `ThrowOnWarnings` the reader raises at the first thing it finds, warnings or not — whatever the sequence of
operators and images, all of them in order. -/
theorem C125_throw_on_warnings_false (env : CEnv) (a : CArgs) (ha : a.throwOnWarnings = true)
    (hbody : ∀ x, env.body x ≠ .error .diverge) (f : WFlags) (hf : f.clean = true ∨ f.noInline = false) (canvas contents : Option Nat)
    (p : Spec.Piece) (l : List Spec.Piece) (hl : ∀ q ∈ p :: l, q.Ok canvas) (n : Nat) :
    readAllContent env a (n + 1) {} ⟨[⟨canvas, contents, contentText f (p :: l)⟩], [], false⟩ = raise .InvalidContentStream := by
  have hp := hl p List.mem_cons_self
  have key : tryReadNext env a {} (oneInput canvas contents (contentText f (p :: l)) []) = raise .InvalidContentStream := by
    rw [tryReadNext_plain, readPlain]
    cases p with
    | op o args =>
      obtain ⟨h1, h2, h3⟩ := hp
      have := readNext_operator (a := a) hbody hf o args h3 (10 :: contentText f l) (StartsOk.cons_ws (by decide)) canvas contents
        (Content.reset {}) (contentText f (.op o args :: l)) (by rw [contentText, Spec.Piece.text]; simp)
      simp only [oneInput] at this
      rw [this]
      have hh : tryHandleOperator env a o (opContent o args (Content.reset {})) ⟨[⟨canvas, contents, 10 :: contentText f l⟩], [], false⟩ =
          .ok (true, opContent o args (Content.reset {}), ⟨[⟨canvas, contents, 10 :: contentText f l⟩], [], false⟩) := by
        unfold tryHandleOperator
        by_cases hdo : o = .opDo
        · rw [if_pos hdo]
          rcases h2 with h2 | h2
          · simp only [h2]
          · exact absurd hdo h2
        · rw [if_neg hdo, if_neg h1]
      rw [hh]
      simp only [handleContent, handleWarnings, ha, if_true, raise]
    | image dict data =>
      obtain ⟨h1, h2, h3⟩ := hp
      obtain ⟨R, hR⟩ : ∃ R, R = imageDictText f dict ++ (opName .opID ++ 32 :: (data ++ (opName .opEI ++ (10 :: contentText f l)))) := ⟨_, rfl⟩
      have := readNext_operator (a := a) hbody hf .opBI [] (by simp) (10 :: R) (StartsOk.cons_ws (by decide)) canvas contents
        (Content.reset {}) (contentText f (.image dict data :: l)) (by rw [contentText, Spec.Piece.text, operandsText, hR]; simp)
      simp only [oneInput] at this
      rw [this]
      have hd := imgDict_read hf dict h2 (32 :: (data ++ (opName .opEI ++ (10 :: contentText f l)))) (StartsOk.cons_ws (by decide)) canvas contents
        (opContent .opBI [] (Content.reset {})) (10 :: R) (by rw [lex_ws (by decide) (by decide), hR])
      rw [tryHandleOperator, if_neg (by decide), if_pos rfl]
      simp only [oneInput] at hd
      rw [hd]
      simp only [handleContent, handleWarnings, ha, if_true, raise]
  rw [readAllContent]
  simp only [oneInput] at key
  rw [key]

/-- Non-vacuity: `q` alone, which has no operand and takes none. -/
example : (∀ q ∈ [Spec.Piece.op .opq []], q.Ok none) ∧ countWarn .opq 0 {} = {} := by
  refine ⟨?_, by decide +kernel⟩
  intro q hq
  simp only [List.mem_cons, List.not_mem_nil, or_false] at hq
  subst hq
  exact ⟨by decide, Or.inl rfl, by simp⟩

/-- C125 (partial).  The warning about operands is exact: it is given when, and only when, the operator takes a fixed number of operands and
finds another, one kind for too few and one for too many. -/
theorem C125_operand_warning_partial (o : PdfOp) (k : Nat) :
    ((countWarn o k {}).invalidOperator = true ↔ ∃ m, Spec.countOf (opCount o) = some m ∧ k < m) ∧
    ((countWarn o k {}).spuriousStack = true ↔ ∃ m, Spec.countOf (opCount o) = some m ∧ m < k) := by
  have hc : opCount o = -1 ∨ 0 ≤ opCount o := by cases o <;> decide
  rcases hc with h | h
  · have h2 : Spec.countOf (opCount o) = none := by rw [h]; rfl
    rw [h2]
    simp [countWarn, h]
  · obtain ⟨m, hm⟩ : ∃ m : Nat, opCount o = (m : Int) := ⟨(opCount o).toNat, by omega⟩
    have h2 : Spec.countOf (opCount o) = some m := by
      rw [hm]; unfold Spec.countOf; split <;> simp_all <;> omega
    rw [h2, countWarn, hm]
    constructor
    · constructor
      · intro hh
        refine ⟨m, rfl, ?_⟩
        split at hh
        · split at hh
          · rename_i hlt; omega
          · simp at hh
        · simp at hh
      · rintro ⟨m', h3, h4⟩
        simp only [Option.some.injEq] at h3
        subst h3
        rw [if_pos ⟨by omega, by omega⟩, if_pos (by omega)]
    · constructor
      · intro hh
        refine ⟨m, rfl, ?_⟩
        split at hh
        · split at hh
          · simp at hh
          · rename_i h5 hlt; have := h5.2; omega
        · simp at hh
      · rintro ⟨m', h3, h4⟩
        simp only [Option.some.injEq] at h3
        subst h3
        rw [if_pos ⟨by omega, by omega⟩, if_neg (by omega)]

example : (countWarn .opre 3 {}).invalidOperator = true ∧ (countWarn .opre 5 {}).spuriousStack = true ∧ countWarn .opre 4 {} = {} := by decide +kernel

end Pdfmm
