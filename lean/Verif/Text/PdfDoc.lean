import Verif.Text.Utf
/-
PDFDocEncoding: the table and the two conversions.
-/
set_option autoImplicit false
namespace Pdfmm
open Spec

/-! ### Model -/

/-- `s_cEncoding`, `src/pdfmm/private/PdfEncodingPrivate.cpp:17-274`. -/
def docTable : List Nat := [
  0x0000, 0x0001, 0x0002, 0x0003, 0x0004, 0x0005, 0x0006, 0x0007, 0x0008, 0x0009, 0x000A, 0x000B, 0x000C, 0x000D, 0x000E, 0x000F,
  0x0010, 0x0011, 0x0012, 0x0013, 0x0014, 0x0015, 0x0017, 0x0017, 0x02D8, 0x02C7, 0x02C6, 0x02D9, 0x02DD, 0x02DB, 0x02DA, 0x02DC,
  0x0020, 0x0021, 0x0022, 0x0023, 0x0024, 0x0025, 0x0026, 0x0027, 0x0028, 0x0029, 0x002A, 0x002B, 0x002C, 0x002D, 0x002E, 0x002F,
  0x0030, 0x0031, 0x0032, 0x0033, 0x0034, 0x0035, 0x0036, 0x0037, 0x0038, 0x0039, 0x003A, 0x003B, 0x003C, 0x003D, 0x003E, 0x003F,
  0x0040, 0x0041, 0x0042, 0x0043, 0x0044, 0x0045, 0x0046, 0x0047, 0x0048, 0x0049, 0x004A, 0x004B, 0x004C, 0x004D, 0x004E, 0x004F,
  0x0050, 0x0051, 0x0052, 0x0053, 0x0054, 0x0055, 0x0056, 0x0057, 0x0058, 0x0059, 0x005A, 0x005B, 0x005C, 0x005D, 0x005E, 0x005F,
  0x0060, 0x0061, 0x0062, 0x0063, 0x0064, 0x0065, 0x0066, 0x0067, 0x0068, 0x0069, 0x006A, 0x006B, 0x006C, 0x006D, 0x006E, 0x006F,
  0x0070, 0x0071, 0x0072, 0x0073, 0x0074, 0x0075, 0x0076, 0x0077, 0x0078, 0x0079, 0x007A, 0x007B, 0x007C, 0x007D, 0x007E, 0x0000,
  0x2022, 0x2020, 0x2021, 0x2026, 0x2014, 0x2013, 0x0192, 0x2044, 0x2039, 0x203A, 0x2212, 0x2030, 0x201E, 0x201C, 0x201D, 0x2018,
  0x2019, 0x201A, 0x2122, 0xFB01, 0xFB02, 0x0141, 0x0152, 0x0160, 0x0178, 0x017D, 0x0131, 0x0142, 0x0153, 0x0161, 0x017E, 0x0000,
  0x20AC, 0x00A1, 0x00A2, 0x00A3, 0x00A4, 0x00A5, 0x00A6, 0x00A7, 0x00A8, 0x00A9, 0x00AA, 0x00AB, 0x00AC, 0x0000, 0x00AE, 0x00AF,
  0x00B0, 0x00B1, 0x00B2, 0x00B3, 0x00B4, 0x00B5, 0x00B6, 0x00B7, 0x00B8, 0x00B9, 0x00BA, 0x00BB, 0x00BC, 0x00BD, 0x00BE, 0x00BF,
  0x00C0, 0x00C1, 0x00C2, 0x00C3, 0x00C4, 0x00C5, 0x00C6, 0x00C7, 0x00C8, 0x00C9, 0x00CA, 0x00CB, 0x00CC, 0x00CD, 0x00CE, 0x00CF,
  0x00D0, 0x00D1, 0x00D2, 0x00D3, 0x00D4, 0x00D5, 0x00D6, 0x00D7, 0x00D8, 0x00D9, 0x00DA, 0x00DB, 0x00DC, 0x00DD, 0x00DE, 0x00DF,
  0x00E0, 0x00E1, 0x00E2, 0x00E3, 0x00E4, 0x00E5, 0x00E6, 0x00E7, 0x00E8, 0x00E9, 0x00EA, 0x00EB, 0x00EC, 0x00ED, 0x00EE, 0x00EF,
  0x00F0, 0x00F1, 0x00F2, 0x00F3, 0x00F4, 0x00F5, 0x00F6, 0x00F7, 0x00F8, 0x00F9, 0x00FA, 0x00FB, 0x00FC, 0x00FD, 0x00FE, 0x00FF]

/-- An entry of the table; all indexes used are bytes. -/
def docAt (b : Byte) : Nat := docTable.getD b.toNat 0

/-- `getUTF8ToPdfEncodingMap`, `src/pdfmm/private/PdfEncodingPrivate.cpp:374-394`, looked up at `cp`: the last
assignment wins. -/
def docFind (cp : Nat) : Option Byte :=
  docTable.zipIdx.foldl (fun acc e => if e.1 = 0 ∧ e.2 ≠ 0 then acc else if e.1 = cp then some (UInt8.ofNat e.2) else acc) none

/-- The loop of `CheckValidUTF8ToPdfDocEcondingChars`, `src/pdfmm/private/PdfEncodingPrivate.cpp:276-303`, with the
flag so far.  The result is the returned value and the flag; `none` when the text is no UTF-8 (exception of the
library).  As in the code the characters after the first one that is not in the map are not looked at. -/
def docCheckLoop : Nat → Bytes → Bool → Option (Bool × Bool)
  | _, [], a => some (true, a)
  | 0, _, _ => none
  | f + 1, bs, a => match utf8Next bs with
    | none => none
    | some (cp, r) =>
      if cp > 0xFFFF then some (false, false)
      else match docFind cp with
        | none => some (false, false)
        | some c => docCheckLoop f r (if cp ≥ 0x80 ∨ c.toNat ≠ cp % 256 then false else a)

/-- `CheckValidUTF8ToPdfDocEcondingChars`, `src/pdfmm/private/PdfEncodingPrivate.cpp:276-303`. -/
def docCheck (text : Bytes) : Option (Bool × Bool) := docCheckLoop text.length text true

/-- The loop of `TryConvertUTF8ToPdfDocEncoding`, `src/pdfmm/private/PdfEncodingPrivate.cpp:326-350`: outer `none`
for the exception of the library, inner `none` for the result false. -/
def toDocLoop : Nat → Bytes → Bytes → Option (Option Bytes)
  | _, [], out => some (some out)
  | 0, _, _ => none
  | f + 1, bs, out => match utf8Next bs with
    | none => none
    | some (cp, r) =>
      if cp > 0xFFFF then some none
      else match docFind cp with
        | none => some none
        | some c => toDocLoop f r (out ++ [c])

/-- `TryConvertUTF8ToPdfDocEncoding`, `src/pdfmm/private/PdfEncodingPrivate.cpp:326-350`. -/
def toDoc (text : Bytes) : Option (Option Bytes) := toDocLoop text.length text []

/-- `ConvertUTF8ToPdfDocEncoding`, `src/pdfmm/private/PdfEncodingPrivate.cpp:317-324`. -/
def toDocOrRaise (text : Bytes) : Res Bytes :=
  match toDoc text with
  | none => .error .exn
  | some none => raise .InvalidHandle
  | some (some b) => .ok b

/-- `ConvertPdfDocEncodingToUTF8`, `src/pdfmm/private/PdfEncodingPrivate.cpp:359-372`: the text and the flag. -/
def fromDoc (b : Bytes) : Bytes × Bool :=
  b.foldl (fun acc ch => (acc.1 ++ utf8Append (docAt ch),
    if docAt ch ≥ 0x80 ∨ ch.toNat ≠ docAt ch % 256 then false else acc.2)) ([], true)

/-! ### Specification -/

namespace Spec

/-- PDFDocEncoding, ISO 32000-1 Annex D.2 (its table gives U+0017 for both 0x16 and 0x17). -/
def pdfDoc (b : Nat) : Option Nat :=
  if b ≤ 0x15 then some b
  else if b = 0x16 then some 0x17
  else if b = 0x17 then some 0x17
  else if b ≤ 0x1F then [0x02D8, 0x02C7, 0x02C6, 0x02D9, 0x02DD, 0x02DB, 0x02DA, 0x02DC][b - 0x18]?
  else if b ≤ 0x7E then some b
  else if b = 0x7F then none
  else if b ≤ 0x9E then
    [0x2022, 0x2020, 0x2021, 0x2026, 0x2014, 0x2013, 0x0192, 0x2044, 0x2039, 0x203A, 0x2212, 0x2030, 0x201E, 0x201C,
     0x201D, 0x2018, 0x2019, 0x201A, 0x2122, 0xFB01, 0xFB02, 0x0141, 0x0152, 0x0160, 0x0178, 0x017D, 0x0131, 0x0142,
     0x0153, 0x0161, 0x017E][b - 0x80]?
  else if b = 0x9F then none
  else if b = 0xA0 then some 0x20AC
  else if b = 0xAD then none
  else if b ≤ 0xFF then some b
  else none

/-- The character can be written in PDFDocEncoding. -/
def InPdfDoc (cp : Nat) : Prop := ∃ b, pdfDoc b = some cp

/-- The meaning of a byte string in PDFDocEncoding; an undefined code stands for U+0000. -/
def docText (b : Bytes) : List Nat := b.map (fun c => (pdfDoc c.toNat).getD 0)

end Spec

/-! ### The table -/

theorem docAt_spec (b : Byte) : docAt b = (pdfDoc b.toNat).getD 0 :=
  forall_byte (P := fun b => docAt b = (pdfDoc b.toNat).getD 0) (by decide +kernel) b

/-- The code found for the meaning of a defined code is this code, but for the aliased one. -/
theorem docFind_at (b : Byte) : pdfDoc b.toNat = none ∨
    docFind (docAt b) = some (if b = 0x16 then 0x17 else b) :=
  forall_byte (P := fun b => pdfDoc b.toNat = none ∨ docFind (docAt b) = some (if b = 0x16 then 0x17 else b))
    (by decide +kernel) b

theorem docFind_none_at (b : Byte) : pdfDoc b.toNat = none → docAt b = 0 := fun h => by rw [docAt_spec, h]; rfl

theorem docAt_scalar (b : Byte) : IsScalar (docAt b) ∧ docAt b ≤ 0xFFFF := by
  have h : decide (docAt b < 0xD800 ∨ (0xDFFF < docAt b ∧ docAt b ≤ 0xFFFF)) = true :=
    forall_byte (P := fun b => decide (docAt b < 0xD800 ∨ (0xDFFF < docAt b ∧ docAt b ≤ 0xFFFF)) = true) (by decide +kernel) b
  have := of_decide_eq_true h
  exact ⟨by unfold IsScalar; omega, by omega⟩

theorem docAt_def (b : Byte) : (docAt b = 0 ∧ b ≠ 0) ∨ pdfDoc b.toNat = some (docAt b) :=
  forall_byte (P := fun b => (docAt b = 0 ∧ b ≠ 0) ∨ pdfDoc b.toNat = some (docAt b)) (by decide +kernel) b

theorem docTable_mem (v i : Nat) (h : (v, i) ∈ docTable.zipIdx) : i < 256 ∧ docAt (UInt8.ofNat i) = v := by
  have h := List.mem_zipIdx h
  have hl : docTable.length = 256 := by decide +kernel
  have hi : i < 256 := by omega
  refine ⟨hi, ?_⟩
  have ht : (UInt8.ofNat i).toNat = i := by rw [UInt8.toNat_ofNat']; omega
  rw [docAt, ht, List.getD_eq_getElem?_getD, List.getElem?_eq_getElem (by omega)]
  exact h.2.2.symm

theorem docFold_some (l : List (Nat × Nat)) (cp : Nat) (acc : Option Byte) (c : Byte)
    (h : l.foldl (fun acc e => if e.1 = 0 ∧ e.2 ≠ 0 then acc else if e.1 = cp then some (UInt8.ofNat e.2) else acc) acc = some c) :
    acc = some c ∨ ∃ i, (cp, i) ∈ l ∧ ¬ (cp = 0 ∧ i ≠ 0) ∧ c = UInt8.ofNat i := by
  induction l generalizing acc with
  | nil => exact Or.inl h
  | cons e l ih =>
    rw [List.foldl_cons] at h
    rcases ih _ h with h | ⟨i, h1, h2, h3⟩
    · split at h
      · exact Or.inl h
      · rename_i hn
        split at h
        · rename_i he
          rw [he] at hn
          exact Or.inr ⟨e.2, by rw [← he]; simp, hn, (Option.some.inj h).symm⟩
        · exact Or.inl h
    · exact Or.inr ⟨i, by simp [h1], h2, h3⟩

/-- A code is found only for its meaning. -/
theorem docFind_some {cp : Nat} {c : Byte} (h : docFind cp = some c) : pdfDoc c.toNat = some cp ∧ docAt c = cp := by
  rcases docFold_some _ _ _ _ h with h | ⟨i, h1, h2, rfl⟩
  · exact absurd h (by simp)
  · obtain ⟨hi, he⟩ := docTable_mem _ _ h1
    rcases docAt_def (UInt8.ofNat i) with h | h
    · refine absurd ⟨he ▸ h.1, ?_⟩ h2
      intro e; subst e; exact h.2 rfl
    · rw [he] at h; exact ⟨h, he⟩

theorem pdfDoc_byte {b cp : Nat} (h : pdfDoc b = some cp) : b < 256 := by
  refine Decidable.byContradiction fun hb => ?_
  simp only [pdfDoc] at h
  rw [if_neg (by omega), if_neg (by omega), if_neg (by omega), if_neg (by omega), if_neg (by omega), if_neg (by omega),
    if_neg (by omega), if_neg (by omega), if_neg (by omega), if_neg (by omega), if_neg (by omega)] at h
  exact absurd h (by simp)

/-- A character is found exactly when the encoding has it. -/
theorem docFind_iff (cp : Nat) : (∃ c, docFind cp = some c) ↔ InPdfDoc cp := by
  constructor
  · rintro ⟨c, h⟩
    exact ⟨_, (docFind_some h).1⟩
  · rintro ⟨b, h⟩
    have hb := pdfDoc_byte h
    have ht : (UInt8.ofNat b).toNat = b := by rw [UInt8.toNat_ofNat']; omega
    have ha := docFind_at (UInt8.ofNat b)
    rw [docAt_spec, ht, h] at ha
    rcases ha with ha | ha
    · exact absurd ha (by simp)
    · exact ⟨_, ha⟩

theorem docFind_le {cp : Nat} {c : Byte} (h : docFind cp = some c) : cp ≤ 0xFFFF :=
  (docFind_some h).2 ▸ (docAt_scalar c).2

/-! ### The conversions -/

theorem fromDoc_fold (b : Bytes) (t : Bytes) (a : Bool) :
    b.foldl (fun acc ch => (acc.1 ++ utf8Append (docAt ch),
      if docAt ch ≥ 0x80 ∨ ch.toNat ≠ docAt ch % 256 then false else acc.2)) (t, a) =
    (t ++ utf8Encode (docText b), a && b.all (fun ch => docAt ch < 0x80 && ch.toNat = docAt ch)) := by
  induction b generalizing t a with
  | nil => simp [utf8Encode, docText]
  | cons c b ih =>
    rw [List.foldl_cons, ih]
    refine Prod.ext ?_ ?_
    · simp [utf8Encode, docText, docAt_spec]
    · simp only [List.all_cons]
      by_cases h : docAt c < 0x80 ∧ c.toNat = docAt c
      · rw [if_neg (by omega)]; simp only [h.1, h.2, decide_true, Bool.and_self, Bool.true_and]
      · rw [if_pos (by omega)]
        have : (decide (docAt c < 0x80) && decide (c.toNat = docAt c)) = false := by simp; omega
        simp [this]

/-- The text returned for bytes in PDFDocEncoding is the UTF-8 form of their meaning. -/
theorem fromDoc_text (b : Bytes) : (fromDoc b).1 = utf8Encode (docText b) := by
  rw [fromDoc, fromDoc_fold]; simp

theorem fromDoc_flag (b : Bytes) : (fromDoc b).2 = b.all (fun ch => docAt ch < 0x80 && ch.toNat = docAt ch) := by
  rw [fromDoc, fromDoc_fold]; simp

theorem docText_scalar (b : Bytes) : ∀ c ∈ docText b, IsScalar c := by
  intro c hc
  simp only [docText, List.mem_map] at hc
  obtain ⟨x, _, rfl⟩ := hc
  rw [← docAt_spec]; exact (docAt_scalar x).1

theorem utf8Append_ascii {c : Nat} (h : c < 0x80) : utf8Append c = [UInt8.ofNat c] := by simp [utf8Append, h]

theorem utf8Append_head {c : Nat} (h : ¬ c < 0x80) (hs : IsScalar c) : ∃ x y r, utf8Append c = x :: y :: r := by
  have hl := utf8Append_spec c (scalar_le hs)
  rw [utf8Of, if_neg (by omega)] at hl
  split at hl
  · obtain ⟨b0, _, e, _, hl⟩ := List.map_eq_cons_iff.1 hl
    obtain ⟨b1, _, rfl, _, hl⟩ := List.map_eq_cons_iff.1 hl
    exact ⟨_, _, _, e⟩
  · split at hl
    all_goals
      obtain ⟨b0, _, e, _, hl⟩ := List.map_eq_cons_iff.1 hl
      obtain ⟨b1, _, rfl, _, hl⟩ := List.map_eq_cons_iff.1 hl
      exact ⟨_, _, _, e⟩

theorem utf8Encode_length : ∀ (cps : List Nat), cps.length ≤ (utf8Encode cps).length
  | [] => by simp
  | c :: cps => by
    have := utf8Encode_length cps
    have := utf8Append_length c
    simp only [utf8Encode, List.flatMap_cons, List.length_append, List.length_cons] at *
    omega

/-- The flag says whether the text has the same bytes. -/
theorem fromDoc_flag_iff (b : Bytes) : (fromDoc b).2 = true ↔ (fromDoc b).1 = b := by
  rw [fromDoc_flag, fromDoc_text]
  induction b with
  | nil => simp [docText, utf8Encode]
  | cons c b ih =>
    have e : utf8Encode (docText (c :: b)) = utf8Append (docAt c) ++ utf8Encode (docText b) := by
      simp [utf8Encode, docText, docAt_spec]
    rw [List.all_cons, Bool.and_eq_true, ih, e]
    have hc := (docAt_scalar c).1
    constructor
    · rintro ⟨h1, h2⟩
      simp only [Bool.and_eq_true, decide_eq_true_eq] at h1
      rw [utf8Append_ascii h1.1, h2, ← h1.2]; simp
    · intro h
      by_cases h1 : docAt c < 0x80
      · rw [utf8Append_ascii h1, List.cons_append, List.nil_append, List.cons.injEq] at h
        refine ⟨?_, h.2⟩
        have := congrArg UInt8.toNat h.1
        rw [UInt8.toNat_ofNat'] at this
        simp only [Bool.and_eq_true, decide_eq_true_eq]
        omega
      · obtain ⟨x, y, r, hx⟩ := utf8Append_head h1 hc
        have hl := congrArg List.length h
        have := utf8Encode_length (docText b)
        rw [hx] at hl
        simp only [docText, List.length_map, List.length_append, List.length_cons] at *
        omega

theorem utf8Encode_cons (c : Nat) (cps : List Nat) : utf8Encode (c :: cps) = utf8Append c ++ utf8Encode cps := by
  simp [utf8Encode]

theorem toDocLoop_step (f : Nat) (c : Nat) (r out : Bytes) (hc : IsScalar c) :
    toDocLoop (f + 1) (utf8Append c ++ r) out =
      if c > 0xFFFF then some none
      else match docFind c with
        | none => some none
        | some x => toDocLoop f r (out ++ [x]) := by
  have hn := utf8Next_append hc r
  cases ha : utf8Append c ++ r with
  | nil => rw [ha] at hn; simp [utf8Next] at hn
  | cons x xs => rw [ha] at hn; rw [toDocLoop, hn]; simp

/-- All characters can be written. -/
theorem toDocLoop_ok : ∀ (cps : List Nat) (f : Nat) (out : Bytes), (∀ c ∈ cps, IsScalar c) →
    (utf8Encode cps).length ≤ f → (∀ c ∈ cps, InPdfDoc c) →
    ∃ b, toDocLoop f (utf8Encode cps) out = some (some (out ++ b)) ∧ docText b = cps ∧
      (∀ x ∈ b, docFind (docAt x) = some x)
  | [], f, out, _, _, _ => ⟨[], by cases f <;> simp [utf8Encode, toDocLoop], rfl, by simp⟩
  | c :: cps, f, out, hs, hf, hin => by
    have hl := utf8Append_length c
    rw [utf8Encode_cons, List.length_append] at hf
    cases f with
    | zero => omega
    | succ f =>
      obtain ⟨x, hx⟩ := (docFind_iff c).2 (hin c (by simp))
      obtain ⟨b, h1, h2, h3⟩ := toDocLoop_ok cps f (out ++ [x]) (fun c hc => hs c (by simp [hc])) (by omega)
        (fun c hc => hin c (by simp [hc]))
      refine ⟨x :: b, ?_, ?_, ?_⟩
      · rw [utf8Encode_cons, toDocLoop_step _ _ _ _ (hs c (by simp)), if_neg (by have := docFind_le hx; omega), hx]
        simp only; rw [h1]; simp
      · have : docText (x :: b) = docAt x :: docText b := by simp [docText, docAt_spec]
        rw [this, (docFind_some hx).2, h2]
      · intro y hy
        rw [List.mem_cons] at hy
        rcases hy with rfl | hy
        · rw [(docFind_some hx).2]; exact hx
        · exact h3 y hy

/-- Some character cannot be written. -/
theorem toDocLoop_no : ∀ (cps : List Nat) (f : Nat) (out : Bytes), (∀ c ∈ cps, IsScalar c) →
    (utf8Encode cps).length ≤ f → (∃ c ∈ cps, ¬ InPdfDoc c) → toDocLoop f (utf8Encode cps) out = some none
  | [], _, _, _, _, h => by simp at h
  | c :: cps, f, out, hs, hf, hin => by
    have hl := utf8Append_length c
    rw [utf8Encode_cons, List.length_append] at hf
    cases f with
    | zero => omega
    | succ f =>
      rw [utf8Encode_cons, toDocLoop_step _ _ _ _ (hs c (by simp))]
      split
      · rfl
      · cases hx : docFind c with
        | none => rfl
        | some x =>
          have hc := (docFind_iff c).1 ⟨x, hx⟩
          obtain ⟨y, hy, hn⟩ := hin
          rw [List.mem_cons] at hy
          rcases hy with rfl | hy
          · exact absurd hc hn
          · exact toDocLoop_no cps f _ (fun c hc => hs c (by simp [hc])) (by omega) ⟨y, hy, hn⟩

theorem toDocLoop_inv : ∀ (f : Nat) (bs out b : Bytes), toDocLoop f bs out = some (some b) →
    ∃ d, b = out ++ d ∧ bs = utf8Encode (docText d)
  | f, [], out, b, h => by
    have : b = out := by cases f <;> (rw [toDocLoop] at h; simpa using h.symm)
    exact ⟨[], by simp [this], rfl⟩
  | 0, x :: bs, out, b, h => by simp [toDocLoop] at h
  | f + 1, x :: bs, out, b, h => by
    rw [toDocLoop] at h
    · cases hn : utf8Next (x :: bs) with
      | none => rw [hn] at h; simp at h
      | some y =>
        obtain ⟨cp, r⟩ := y
        rw [hn] at h
        simp only at h
        split at h
        · simp at h
        · cases hx : docFind cp with
          | none => rw [hx] at h; simp at h
          | some c =>
            rw [hx] at h
            simp only at h
            obtain ⟨d, h1, h2⟩ := toDocLoop_inv f r _ b h
            obtain ⟨s1, p, s2, s3⟩ := utf8Next_inv hn
            refine ⟨c :: d, by simp [h1], ?_⟩
            have hp : p = utf8Append cp := map_toNat_inj (by rw [s3, utf8Append_spec cp (scalar_le s1)])
            have e : docText (c :: d) = docAt c :: docText d := by simp [docText, docAt_spec]
            rw [e, utf8Encode_cons, (docFind_some hx).2, s2, hp, h2]
    · simp

/-! ### C55 -/

/-- C55, first part: a text of Unicode characters is converted exactly when PDFDocEncoding has all of them, and
converting the result back returns the text. -/
theorem C55_text_round_trip (cps : List Nat) (hs : ∀ c ∈ cps, IsScalar c) :
    ((∀ c ∈ cps, InPdfDoc c) → ∃ b, toDoc (utf8Encode cps) = some (some b) ∧ docText b = cps ∧
      (fromDoc b).1 = utf8Encode cps) ∧
    ((∃ c ∈ cps, ¬ InPdfDoc c) → toDoc (utf8Encode cps) = some none) := by
  refine ⟨fun h => ?_, fun h => toDocLoop_no cps _ [] hs (Nat.le_refl _) h⟩
  obtain ⟨b, h1, h2, _⟩ := toDocLoop_ok cps (utf8Encode cps).length [] hs (Nat.le_refl _) h
  exact ⟨b, h1, h2, by rw [fromDoc_text, h2]⟩

/-- C55, first part for any bytes given as a text: what is converted is returned by converting back. -/
theorem C55_text_bytes (text b : Bytes) (h : toDoc text = some (some b)) : (fromDoc b).1 = text := by
  obtain ⟨d, h1, h2⟩ := toDocLoop_inv _ _ _ _ h
  rw [List.nil_append] at h1
  rw [fromDoc_text, h1, h2]

/-- C55, second part: bytes that are defined codes, without 0x16, come back from their text; the codes 0x16 come
back as 0x17, which has the same meaning. -/
theorem C55_bytes_round_trip (b : Bytes) (h : ∀ c ∈ b, c ≠ 0x7F ∧ c ≠ 0x9F ∧ c ≠ 0xAD) :
    toDoc (fromDoc b).1 = some (some (b.map (fun c => if c = 0x16 then 0x17 else c))) := by
  have hdef : ∀ c : Byte, c ≠ 0x7F ∧ c ≠ 0x9F ∧ c ≠ 0xAD → pdfDoc c.toNat ≠ none := fun c =>
    forall_byte (P := fun c => c ≠ 0x7F ∧ c ≠ 0x9F ∧ c ≠ 0xAD → pdfDoc c.toNat ≠ none) (by decide +kernel) c
  have gen : ∀ (b : Bytes) (f : Nat) (out : Bytes), (∀ c ∈ b, c ≠ 0x7F ∧ c ≠ 0x9F ∧ c ≠ 0xAD) →
      (utf8Encode (docText b)).length ≤ f →
      toDocLoop f (utf8Encode (docText b)) out =
        some (some (out ++ b.map (fun c => if c = 0x16 then 0x17 else c))) := by
    intro b
    induction b with
    | nil => intro f out _ _; cases f <;> simp [docText, utf8Encode, toDocLoop]
    | cons c b ih =>
      intro f out h hf
      have e : docText (c :: b) = docAt c :: docText b := by simp [docText, docAt_spec]
      have hl := utf8Append_length (docAt c)
      rw [e, utf8Encode_cons, List.length_append] at hf
      have hc := docFind_at c
      rcases hc with hc | hc
      · exact absurd hc (hdef c (h c (by simp)))
      · cases f with
        | zero => omega
        | succ f =>
          rw [e, utf8Encode_cons, toDocLoop_step _ _ _ _ (docAt_scalar c).1,
            if_neg (by have := (docAt_scalar c).2; omega), hc]
          simp only
          rw [ih f _ (fun x hx => h x (by simp [hx])) (by omega)]
          simp
  rw [fromDoc_text]
  simpa [toDoc] using gen b _ [] h (Nat.le_refl _)

example : InPdfDoc 0x20AC ∧ ¬ InPdfDoc 0x16 ∧ (∀ c ∈ [0x41, 0x20AC, 0xE9], IsScalar c) ∧
    utf8Encode [0x41, 0x20AC, 0xE9] = [0x41, 0xE2, 0x82, 0xAC, 0xC3, 0xA9] ∧
    toDoc [0x41, 0xE2, 0x82, 0xAC, 0xC3, 0xA9] = some (some [0x41, 0xA0, 0xE9]) ∧
    fromDoc [0x41, 0xA0, 0xE9] = ([0x41, 0xE2, 0x82, 0xAC, 0xC3, 0xA9], false) := by
  refine ⟨⟨0xA0, by decide⟩, ?_, by simp [IsScalar], by decide +kernel, by decide +kernel, by decide +kernel⟩
  rw [← docFind_iff]; rintro ⟨c, h⟩; revert h
  have : docFind 0x16 = none := by decide +kernel
  rw [this]; simp

end Pdfmm
