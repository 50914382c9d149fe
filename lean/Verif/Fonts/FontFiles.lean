import Verif.Document.Annots
/-
C185: font programs written into the file: their dictionaries and the lengths of Type 1 programs.
-/
set_option autoImplicit false
namespace Pdfmm

/-- `PdfFontFileType`, `src/pdfmm/base/PdfFontMetricsFreetype.cpp:76-85`, with Type 3 and an unknown type. -/
inductive FontFileKind
  | type1 | cidType1 | type1CCF | trueType | openType | type3 | unknown
  deriving DecidableEq

/-- What follows the first place `p` occurs at (`string_view::find`). -/
def afterSub (p : Bytes) : Bytes → Option Bytes
  | [] => if p = [] then some [] else none
  | c :: cs => if p.isPrefixOf (c :: cs) then some ((c :: cs).drop p.length) else afterSub p cs

/-- The loop over the blanks after `eexec`, `src/pdfmm/base/PdfFontMetricsFreetype.cpp:260-278`, over the bytes not passed yet; the number of blanks.  The
`break` of the default case leaves the `switch` and not the loop: at any other byte the loop goes on with nothing changed, for ever. -/
def skipBlanks : Bytes → Res Nat
  | [] => .ok 0
  | c :: cs =>
    if c = 10 ∨ c = 13 ∨ c = 9 ∨ c = 32 then
      match skipBlanks cs with
      | .ok n => .ok (n + 1)
      | .error e => .error e
    else .error .diverge

/-- `initType1Lengths`, `src/pdfmm/base/PdfFontMetricsFreetype.cpp:248-317`: the new `m_Length1`; the lines after the loop are never reached.  Simplified: sizes
are below 2^32. -/
def type1Length1 (data : Bytes) : Res Nat :=
  match afterSub (litBytes "eexec") data with
  | none => .ok 0
  | some rest => match skipBlanks rest with
    | .error e => .error e
    | .ok n => .ok (data.length - rest.length + n)

/-- `ensureLengthsReady`: the value of `m_Length1`, `src/pdfmm/base/PdfFontMetricsFreetype.cpp:227-246`. -/
def ftLength1 (k : FontFileKind) (data : Bytes) : Res Nat :=
  match k with
  | .type1 => type1Length1 data
  | .trueType => .ok data.length
  | _ => .ok 0

/-- `GetFontFileLength1`, `GetFontFileLength2` and `GetFontFileLength3`, `src/pdfmm/base/PdfFontMetricsFreetype.cpp:463-485`. -/
def ftLengths (k : FontFileKind) (data : Bytes) : Res (Nat × Nat × Nat) :=
  match ftLength1 k data with
  | .error e => .error e
  | .ok n => .ok ((match k with | .type1 | .trueType => data.length | _ => 0), n, n)

/-- What `EmbedFontFile` leaves: the key of the font descriptor, the entries of the new stream besides those of its filter, and its data. -/
structure EmbeddedFile where
  key : Bytes
  dict : FDict
  data : Bytes

/-- `PdfFont::EmbedFontFile`, `src/pdfmm/base/PdfFont.cpp:501-565`, for the metrics of a font file; `cid` says whether the font is CID keyed.  The /Subtype of an
OpenType program goes to a copy of the object (`auto contents`, line 555). -/
def embedFontFile (cid : Bool) (k : FontFileKind) (data : Bytes) : Res EmbeddedFile :=
  if data = [] then raise .InternalLogic
  else match k with
  | .type1 | .cidType1 =>
    match ftLengths k data with
    | .error e => .error e
    | .ok (a, b, c) => .ok ⟨litBytes "FontFile", SMap.insert (litBytes "Length3") (.num c) (SMap.insert (litBytes "Length2") (.num b)
        (SMap.insert (litBytes "Length1") (.num a) [])), data⟩
  | .type1CCF => .ok ⟨litBytes "FontFile3", SMap.insert (litBytes "Subtype") (.name (if cid then litBytes "CIDFontType0C" else litBytes "Type1C")) [], data⟩
  | .trueType => .ok ⟨litBytes "FontFile2", SMap.insert (litBytes "Length1") (.num data.length) [], data⟩
  | .openType => .ok ⟨litBytes "FontFile3", [], data⟩
  | _ => raise .InvalidEnumValue

namespace Spec

/-- ISO 32000-1, table 126 and table 127: the key, and the entries the stream must have. -/
def FontFileRight (cid : Bool) (k : FontFileKind) (data : Bytes) (e : EmbeddedFile) : Prop :=
  e.data = data ∧
  match k with
  | .type1 => e.key = litBytes "FontFile" ∧ ∃ a b c : Nat, SMap.find? (litBytes "Length1") e.dict = some (.num a) ∧
      SMap.find? (litBytes "Length2") e.dict = some (.num b) ∧ SMap.find? (litBytes "Length3") e.dict = some (.num c) ∧ a + b + c = data.length
  | .trueType => e.key = litBytes "FontFile2" ∧ SMap.find? (litBytes "Length1") e.dict = some (.num data.length)
  | .type1CCF => e.key = litBytes "FontFile3" ∧
      SMap.find? (litBytes "Subtype") e.dict = some (.name (if cid then litBytes "CIDFontType0C" else litBytes "Type1C"))
  | .openType => e.key = litBytes "FontFile3" ∧ SMap.find? (litBytes "Subtype") e.dict = some (.name (litBytes "OpenType"))
  | _ => False

/-- Blanks between `eexec` and the encrypted part. -/
def FontBlank (c : UInt8) : Prop := c = 10 ∨ c = 13 ∨ c = 9 ∨ c = 32

end Spec

/-- **C185.** TrueType and CFF programs of any content are written with the key and the entries they need; an empty program is refused. -/
theorem C185_embed_partial (cid : Bool) (k : FontFileKind) (data : Bytes) (hk : k = .trueType ∨ k = .type1CCF) (hd : data ≠ []) :
    ∃ e, embedFontFile cid k data = .ok e ∧ Spec.FontFileRight cid k data e := by
  rcases hk with rfl | rfl
  · exact ⟨_, by simp only [embedFontFile, hd, if_false]; rfl, rfl, rfl, SMap.find_insert_self _ _ _⟩
  · exact ⟨_, by simp only [embedFontFile, hd, if_false]; rfl, rfl, rfl, SMap.find_insert_self _ _ _⟩

theorem C185_empty (cid : Bool) (k : FontFileKind) : embedFontFile cid k [] = raise .InternalLogic := by simp [embedFontFile]

theorem skipBlanks_stuck {l : Bytes} (h : ∃ c ∈ l, ¬ Spec.FontBlank c) : skipBlanks l = .error .diverge := by
  induction l with
  | nil => simp at h
  | cons c cs ih =>
    unfold skipBlanks
    by_cases hc : c = 10 ∨ c = 13 ∨ c = 9 ∨ c = 32
    · rw [if_pos hc, ih]
      obtain ⟨x, hx, hn⟩ := h
      rcases List.mem_cons.1 hx with rfl | hx
      · exact absurd hc hn
      · exact ⟨x, hx, hn⟩
    · rw [if_neg hc]

theorem skipBlanks_ok {l : Bytes} (h : ∀ c ∈ l, Spec.FontBlank c) : skipBlanks l = .ok l.length := by
  induction l with
  | nil => rfl
  | cons c cs ih =>
    unfold skipBlanks
    rw [if_pos (show c = 10 ∨ c = 13 ∨ c = 9 ∨ c = 32 from h c (by simp)), ih (fun x hx => h x (by simp [hx]))]; rfl

/-- The first occurrence leaves at least what follows any occurrence. -/
theorem afterSub_suffix {p : Bytes} (hp : p ≠ []) (a b : Bytes) : ∃ r, afterSub p (a ++ p ++ b) = some r ∧ b <:+ r := by
  induction a with
  | nil =>
    cases p with
    | nil => exact absurd rfl hp
    | cons x xs =>
      refine ⟨b, ?_, List.suffix_refl b⟩
      simp only [List.nil_append, List.cons_append, afterSub]
      rw [if_pos (by simp)]
      simp
  | cons x a ih =>
    simp only [List.cons_append, afterSub]
    split
    · refine ⟨_, rfl, ?_⟩
      have e : x :: (a ++ p ++ b) = (x :: (a ++ p)) ++ b := by simp
      rw [e, List.drop_append_of_le_length (by simp; omega)]
      exact List.suffix_append _ _
    · exact ih

/-- **C185, refuted.** No Type 1 program can be written: at any program in which something that is no blank follows `eexec` (as in all of them) the search for
the lengths never ends. -/
theorem C185_type1_false (cid : Bool) (a b : Bytes) (h : ∃ c ∈ b, ¬ Spec.FontBlank c) :
    embedFontFile cid .type1 (a ++ litBytes "eexec" ++ b) = .error .diverge := by
  obtain ⟨r, hr, t, ht⟩ := afterSub_suffix (p := litBytes "eexec") (by decide) a b
  have hs : skipBlanks r = .error .diverge := skipBlanks_stuck (by
    obtain ⟨c, hc, hn⟩ := h
    exact ⟨c, by rw [← ht]; simp [hc], hn⟩)
  have hne : a ++ litBytes "eexec" ++ b ≠ [] := by
    intro e
    have := congrArg List.length e
    simp [litBytes] at this
  simp only [embedFontFile, hne, if_false, ftLengths, ftLength1, type1Length1, hr, hs]

/-- A program in which `eexec` ends the text, with nothing but blanks after it: the three lengths written are each the size of the program. -/
theorem C185_type1_lengths_false (cid : Bool) (a b : Bytes) (ha : afterSub (litBytes "eexec") (a ++ litBytes "eexec" ++ b) = some b)
    (hb : ∀ c ∈ b, Spec.FontBlank c) :
    ∃ e, embedFontFile cid .type1 (a ++ litBytes "eexec" ++ b) = .ok e ∧ ¬ Spec.FontFileRight cid .type1 (a ++ litBytes "eexec" ++ b) e := by
  have hne : a ++ litBytes "eexec" ++ b ≠ [] := by
    intro e
    have := congrArg List.length e
    simp [litBytes] at this
  refine ⟨_, by simp only [embedFontFile, hne, if_false, ftLengths, ftLength1, type1Length1, ha, skipBlanks_ok hb]; rfl, ?_⟩
  rintro ⟨_, _, x, y, z, h1, h2, h3, hs⟩
  rw [SMap.find_insert_self] at h3
  rw [SMap.find_insert_ne _ _ (by decide), SMap.find_insert_self] at h2
  rw [SMap.find_insert_ne _ _ (by decide), SMap.find_insert_ne _ _ (by decide), SMap.find_insert_self] at h1
  have hl : 5 ≤ (a ++ litBytes "eexec" ++ b).length := by
    have : (litBytes "eexec").length = 5 := by decide
    simp only [List.length_append]; omega
  simp only [Option.some.injEq, Var.num.injEq] at h1 h2 h3
  omega

/-- **C185, refuted.** An OpenType program is written without its /Subtype, whatever it holds. -/
theorem C185_opentype_false (cid : Bool) (data : Bytes) (hd : data ≠ []) :
    ∃ e, embedFontFile cid .openType data = .ok e ∧ e.key = litBytes "FontFile3" ∧ e.data = data ∧ SMap.find? (litBytes "Subtype") e.dict = none ∧
      ¬ Spec.FontFileRight cid .openType data e := by
  refine ⟨_, by simp only [embedFontFile, hd, if_false]; rfl, rfl, rfl, rfl, ?_⟩
  rintro ⟨_, _, h⟩
  cases h

example : (∃ c ∈ (litBytes "\nabc"), ¬ Spec.FontBlank c) ∧ afterSub (litBytes "eexec") (litBytes "x eexec" ++ [10]) = some [10] := by
  refine ⟨⟨97, by decide, by unfold Spec.FontBlank; decide⟩, by decide⟩

end Pdfmm
