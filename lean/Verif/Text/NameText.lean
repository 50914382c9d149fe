import Verif.Text.TextString
import Verif.Base.SMap
/-
Texts of names, the lookup of dictionary entries by name, and lists of keywords.
-/
set_option autoImplicit false
namespace Pdfmm
open Spec

/-! ### Model -/

/-- `PdfName::NameData`, `src/pdfmm/base/PdfName.h:128-138`: the bytes and the text once it is known to differ. -/
structure PName where
  raw : Bytes
  expanded : Bool
  text : Option Bytes := none
deriving DecidableEq, Repr

/-- `initFromUtf8String`, `src/pdfmm/base/PdfName.cpp:65-84`. -/
def PName.ofText (text : Bytes) : Res PName :=
  if text = [] then .ok { raw := [], expanded := true }
  else match docCheck text with
    | none => .error .exn
    | some (false, _) => raise .InvalidName
    | some (true, true) => .ok { raw := text, expanded := true }
    | some (true, false) => match toDocOrRaise text with
      | .error e => .error e
      | .ok b => .ok { raw := b, expanded := true, text := some text }

/-- `FromRaw`, `src/pdfmm/base/PdfName.cpp:91-94`. -/
def PName.ofRaw (raw : Bytes) : PName := { raw := raw, expanded := false }

/-- `FromEscaped`, `src/pdfmm/base/PdfName.cpp:86-89`: what the tokenizer makes of a name. -/
def PName.ofEscaped (e : Bytes) : PName := PName.ofRaw (unescapeName e)

/-- `expandUtf8String`, `src/pdfmm/base/PdfName.cpp:119-131`. -/
def PName.expand (n : PName) : PName :=
  if n.expanded then n
  else { n with text := if (fromDoc n.raw).2 then n.text else some (fromDoc n.raw).1, expanded := true }

/-- `GetString`, `src/pdfmm/base/PdfName.cpp:223-230`. -/
def PName.getString (n : PName) : Bytes := (n.expand.text).getD n.expand.raw

/-- `operator==(const string_view&)`, `src/pdfmm/base/PdfName.cpp:273-277`. -/
def PName.eqText (n : PName) (t : Bytes) : Bool := n.getString == t

/-- A dictionary: `std::map` with `PdfDictionaryComparator`, `src/pdfmm/base/PdfDictionary.h:20-37`.  All its
comparisons are comparisons of bytes, those of the names being their raw data. -/
abbrev NDict (V : Type) := List (Bytes × V)

/-- `AddKey(const PdfName&, ..)`, `src/pdfmm/base/PdfDictionary.cpp:105-121`. -/
def NDict.addKey {V : Type} (d : NDict V) (n : PName) (v : V) : NDict V := SMap.insert n.raw v d

/-- `getKey`, `src/pdfmm/base/PdfDictionary.cpp:123-132`, given a plain string. -/
def NDict.getByText {V : Type} (d : NDict V) (t : Bytes) : Option V := SMap.find? t d

/-- The same given a `PdfName`: it converts to a view of its raw data, `src/pdfmm/base/PdfName.cpp:291-294`. -/
def NDict.getByName {V : Type} (d : NDict V) (n : PName) : Option V := SMap.find? n.raw d

/-- The loop of `ToPdfKeywordsList`, `src/pdfmm/private/PdfDeclarationsPrivate.cpp:456-485`: `tok` is what lies
between `tokenStart` and `it`.  `none` is the exception of the library for a text that is no UTF-8. -/
def keywordsLoop : Nat → Bytes → Bytes → List Bytes → Option (List Bytes)
  | _, [], tok, ret => some (if tok ≠ [] then ret ++ [tok] else ret)
  | 0, _, _, _ => none
  | f + 1, bs, tok, ret => match utf8Next bs with
    | none => none
    | some (cp, r) =>
      if cp = 13 ∨ cp = 10 then
        keywordsLoop f r [] (if tok ++ bs.take (bs.length - r.length) ≠ [] then ret ++ [tok ++ bs.take (bs.length - r.length)] else ret)
      else keywordsLoop f r (tok ++ bs.take (bs.length - r.length)) ret

/-- `ToPdfKeywordsList`, `src/pdfmm/private/PdfDeclarationsPrivate.cpp:456-485`. -/
def toKeywordsList (text : Bytes) : Option (List Bytes) := keywordsLoop text.length text [] []

/-- `ToPdfKeywordsString`, `src/pdfmm/private/PdfDeclarationsPrivate.cpp:487-502`. -/
def toKeywordsString : List Bytes → Bytes
  | [] => []
  | k :: ks => k ++ ks.flatMap (fun k => 13 :: 10 :: k)

/-! ### C72 -/

theorem ofText_raw {text : Bytes} {n : PName} (h : PName.ofText text = .ok n) :
    toDoc text = some (some n.raw) ∧ n.expanded = true ∧ n.getString = text := by
  rw [PName.ofText] at h
  split at h
  · rename_i he
    cases h; subst he
    exact ⟨rfl, rfl, rfl⟩
  · cases hc : docCheck text with
    | none => rw [hc] at h; simp at h
    | some x =>
      obtain ⟨r, a⟩ := x
      rw [hc] at h
      cases r with
      | false => simp [raise] at h
      | true =>
        obtain ⟨b, g1, g2⟩ := docCheck_true hc
        cases a with
        | true =>
          simp only [Except.ok.injEq] at h
          subst h
          rw [g2 rfl] at g1
          exact ⟨g1, rfl, rfl⟩
        | false =>
          simp only [toDocOrRaise, g1, Except.ok.injEq] at h
          subst h
          exact ⟨g1, rfl, rfl⟩

theorem plain_iff (b : Bytes) : PlainText b ↔ (fromDoc b).1 = b := by
  rw [← fromDoc_flag_iff, fromDoc_flag, List.all_eq_true]
  constructor
  · intro h c hc
    obtain ⟨h1, h2⟩ := h c hc
    have : docAt c = c.toNat := by rw [docAt_spec, h1]; rfl
    simp [this, h2]
  · intro h c hc
    have := h c hc
    simp only [Bool.and_eq_true, decide_eq_true_eq] at this
    refine ⟨?_, by omega⟩
    rcases docAt_def c with hd | hd
    · exfalso
      apply hd.2
      have : c.toNat = 0 := by omega
      exact UInt8.toNat_inj.1 (by simpa using this)
    · rw [hd, this.2]

/-- The bytes of a name are those of its text exactly for plain texts. -/
theorem raw_eq_text {text : Bytes} {n : PName} (h : PName.ofText text = .ok n) : n.raw = text ↔ PlainText text := by
  obtain ⟨h1, _, _⟩ := ofText_raw h
  have hb := C55_text_bytes text n.raw h1
  constructor
  · intro e
    rw [plain_iff]
    rw [e] at hb
    exact hb
  · intro hp
    obtain ⟨d, hd1, hd2⟩ := toDocLoop_inv _ _ _ _ h1
    have hdef : ∀ c ∈ text, c ≠ 0x7F ∧ c ≠ 0x9F ∧ c ≠ 0xAD := by
      intro c hc
      obtain ⟨g1, g2⟩ := hp c hc
      refine ⟨?_, ?_, ?_⟩ <;> (rintro rfl; revert g1; decide)
    have hr := C55_bytes_round_trip text hdef
    rw [(plain_iff text).1 hp, h1] at hr
    have hr : n.raw = text.map (fun c => if c = 0x16 then 0x17 else c) := by simpa using hr
    rw [hr]
    refine (List.map_congr_left (g := id) fun c hc => ?_).trans (List.map_id text)
    have := (hp c hc).1
    rw [if_neg]
    · rfl
    · rintro rfl; revert this; decide

/-- C72. An entry stored under a name made from a text is found with a name made from the same text, and with the
plain text when this is made of plain characters; nothing else is changed. -/
theorem C72_lookup_partial {V : Type} (d : NDict V) (text : Bytes) (n : PName) (v : V)
    (h : PName.ofText text = .ok n) :
    (∀ m, PName.ofText text = .ok m → (d.addKey n v).getByName m = some v) ∧
    (PlainText text → (d.addKey n v).getByText text = some v) ∧
    (∀ text' m, text' ≠ text → PName.ofText text' = .ok m → (d.addKey n v).getByName m = d.getByName m) := by
  refine ⟨fun m hm => ?_, fun hp => ?_, fun text' m hne hm => ?_⟩
  · rw [h] at hm; cases hm
    exact SMap.find_insert_self _ _ _
  · rw [← raw_eq_text h] at hp
    rw [NDict.getByText, NDict.addKey, hp]
    exact SMap.find_insert_self _ _ _
  · refine SMap.find_insert_ne _ _ fun e => hne ?_
    have h1 := C55_text_bytes text n.raw (ofText_raw h).1
    have h2 := C55_text_bytes text' m.raw (ofText_raw hm).1
    rw [← h1, ← h2, e]

/-- C72 is false for all other texts: the entry is not seen under the plain text. -/
theorem C72_text_false {V : Type} (d : NDict V) (text : Bytes) (n : PName) (v : V)
    (h : PName.ofText text = .ok n) (hp : ¬ PlainText text) :
    (d.addKey n v).getByText text = d.getByText text := by
  refine SMap.find_insert_ne _ _ fun e => hp ?_
  exact (raw_eq_text h).1 e.symm

example : PName.ofText [0xC3, 0xA9] = .ok { raw := [0xE9], expanded := true, text := some [0xC3, 0xA9] } ∧
    ¬ PlainText [0xC3, 0xA9] ∧
    (NDict.addKey ([] : NDict Nat) { raw := [0xE9], expanded := true, text := some [0xC3, 0xA9] } 5).getByText [0xC3, 0xA9] = none := by
  refine ⟨by decide +kernel, ?_, by decide +kernel⟩
  intro h
  have := (h 0xC3 (by simp)).2
  revert this; decide

/-! ### Names keep their text -/

theorem zero_mem_of_raw {raw : Bytes} (h : 0 ∈ raw) : 0 ∈ utf8Encode (docText raw) := by
  rw [utf8Encode, List.mem_flatMap]
  refine ⟨0, ?_, by simp [utf8Append]⟩
  rw [docText, List.mem_map]
  exact ⟨0, h, rfl⟩

/-- C82. A name made from a text without NUL can be written, and the name read from what was written has this text
and is equal to it; a text with characters outside PDFDocEncoding is refused. -/
theorem C82_name_text (text : Bytes) (n : PName) (h : PName.ofText text = .ok n) :
    n.getString = text ∧ (∀ t, n.eqText t = (text == t)) ∧
    (0 ∉ text → ∃ e, escapeName n.raw = .ok e ∧ (PName.ofEscaped e).raw = n.raw ∧ (PName.ofEscaped e).getString = text) := by
  obtain ⟨h1, h2, h3⟩ := ofText_raw h
  have hb := C55_text_bytes text n.raw h1
  refine ⟨h3, fun t => by rw [PName.eqText, h3], fun h0 => ?_⟩
  have hz : 0 ∉ n.raw := by
    intro hz
    apply h0
    rw [← hb, fromDoc_text]
    exact zero_mem_of_raw hz
  obtain ⟨e, he1, he2⟩ := (C14_name_escape_roundtrip n.raw).1 hz
  refine ⟨e, he1, he2, ?_⟩
  rw [PName.ofEscaped, he2, PName.getString, PName.expand]
  show (if (fromDoc n.raw).2 = true then none else some (fromDoc n.raw).1 : Option Bytes).getD n.raw = text
  by_cases hf : (fromDoc n.raw).2 = true
  · rw [if_pos hf]
    rw [fromDoc_flag_iff, hb] at hf
    exact hf.symm
  · rw [if_neg hf]; exact hb

/-- The other direction: a text of Unicode characters makes a name exactly when all are in PDFDocEncoding. -/
theorem C82_name_accepted (cps : List Nat) (hs : ∀ c ∈ cps, IsScalar c) :
    ((∀ c ∈ cps, InPdfDoc c) → ∃ n, PName.ofText (utf8Encode cps) = .ok n) ∧
    ((∃ c ∈ cps, ¬ InPdfDoc c) → PName.ofText (utf8Encode cps) = raise .InvalidName) := by
  have hx := docCheckLoop_some cps _ true hs (Nat.le_refl _)
  obtain ⟨⟨r, a⟩, hx⟩ := hx
  have hx : docCheck (utf8Encode cps) = some (r, a) := hx
  have hc := C55_text_round_trip cps hs
  refine ⟨fun h => ?_, fun h => ?_⟩
  · by_cases hn : utf8Encode cps = []
    · exact ⟨_, by rw [PName.ofText, if_pos hn]⟩
    · obtain ⟨b, hb, _⟩ := hc.1 h
      cases r with
      | false => rw [docCheck_false hx] at hb; simp at hb
      | true => cases a with
        | true => exact ⟨_, by rw [PName.ofText, if_neg hn, hx]⟩
        | false => exact ⟨_, by rw [PName.ofText, if_neg hn, hx]; simp only; rw [toDocOrRaise, hb]⟩
  · have hn : utf8Encode cps ≠ [] := by
      intro hn
      rw [encode_eq_nil hn] at h
      simp at h
    have hb := hc.2 h
    cases r with
    | false => rw [PName.ofText, if_neg hn, hx]
    | true =>
      obtain ⟨b, g1, _⟩ := docCheck_true hx
      rw [hb] at g1; simp at g1

example : PName.ofText [0x41, 0xE2, 0x82, 0xAC] = .ok { raw := [0x41, 0xA0], expanded := true, text := some [0x41, 0xE2, 0x82, 0xAC] } ∧
    escapeName [0x41, 0xA0] = .ok [0x41, 0x23, 0x41, 0x30] ∧
    (PName.ofEscaped [0x41, 0x23, 0x41, 0x30]).getString = [0x41, 0xE2, 0x82, 0xAC] := by decide +kernel

/-! ### Keywords -/

theorem keywordsLoop_flatten : ∀ (f : Nat) (bs tok : Bytes) (ret res : List Bytes),
    keywordsLoop f bs tok ret = some res → res.flatten = ret.flatten ++ tok ++ bs
  | f, [], tok, ret, res, h => by
    have e : keywordsLoop f [] tok ret = some (if tok ≠ [] then ret ++ [tok] else ret) := by cases f <;> rfl
    rw [e] at h
    have h := (Option.some.inj h).symm
    subst h
    split
    · simp
    · rename_i ht
      have : tok = [] := by simpa using ht
      simp [this]
  | 0, x :: bs, tok, ret, res, h => by simp [keywordsLoop] at h
  | f + 1, x :: bs, tok, ret, res, h => by
    rw [keywordsLoop] at h <;> try (intro e; simp at e; done)
    cases hn : utf8Next (x :: bs) with
    | none => rw [hn] at h; simp at h
    | some y =>
      obtain ⟨cp, r⟩ := y
      rw [hn] at h
      simp only at h
      obtain ⟨_, p, s2, _⟩ := utf8Next_inv hn
      have ht : (x :: bs).take ((x :: bs).length - r.length) = p := by
        rw [s2, List.length_append, Nat.add_sub_cancel]; simp
      rw [ht] at h
      split at h
      · rw [keywordsLoop_flatten f r _ _ res h, s2]
        split
        · simp
        · rename_i he
          have : tok ++ p = [] := by simpa using he
          simp at this
          simp [this]
      · rw [keywordsLoop_flatten f r _ _ res h, s2]; simp

/-- C83 is false for every list of two or more keywords: it is not what is read from the text made of it. -/
theorem C83_keywords_false (k k' : Bytes) (ks : List Bytes) :
    toKeywordsList (toKeywordsString (k :: k' :: ks)) ≠ some (k :: k' :: ks) := by
  intro h
  have := keywordsLoop_flatten _ _ _ _ _ h
  have hl := congrArg List.length this
  have hg : ∀ ks : List Bytes, (ks.flatMap (fun k => 13 :: 10 :: k)).length = 2 * ks.length + ks.flatten.length := by
    intro ks
    induction ks with
    | nil => rfl
    | cons a ks ih => simp only [List.flatMap_cons, List.length_append, List.length_cons, List.flatten_cons, ih]; omega
  simp only [toKeywordsString, List.flatMap_cons, List.flatten_nil, List.nil_append, List.flatten_cons, List.length_append,
    List.length_cons, hg] at hl
  omega

theorem keywordsLoop_plain : ∀ (cps : List Nat) (f : Nat) (tok : Bytes) (ret : List Bytes), (∀ c ∈ cps, IsScalar c) →
    (∀ c ∈ cps, c ≠ 13 ∧ c ≠ 10) → (utf8Encode cps).length ≤ f →
    keywordsLoop f (utf8Encode cps) tok ret =
      some (if tok ++ utf8Encode cps ≠ [] then ret ++ [tok ++ utf8Encode cps] else ret)
  | [], f, tok, ret, _, _, _ => by
    have e : utf8Encode [] = [] := rfl
    rw [e, List.append_nil]
    cases f <;> rfl
  | c :: cps, f, tok, ret, hs, hc, hf => by
    have hl := utf8Append_length c
    rw [utf8Encode_cons, List.length_append] at hf
    cases f with
    | zero => omega
    | succ f =>
      have hn := utf8Next_append (hs c (by simp)) (utf8Encode cps)
      rw [utf8Encode_cons]
      have ht : (utf8Append c ++ utf8Encode cps).take ((utf8Append c ++ utf8Encode cps).length - (utf8Encode cps).length) =
          utf8Append c := by
        rw [List.length_append, Nat.add_sub_cancel]; simp
      have hstep : keywordsLoop (f + 1) (utf8Append c ++ utf8Encode cps) tok ret =
          keywordsLoop f (utf8Encode cps) (tok ++ utf8Append c) ret := by
        cases ha : utf8Append c ++ utf8Encode cps with
        | nil => rw [ha] at hn; simp [utf8Next] at hn
        | cons x xs =>
          rw [ha] at hn ht
          rw [keywordsLoop, hn] <;> try (intro e; simp at e; done)
          simp only
          rw [if_neg (by have := hc c (by simp); omega), ht]
      rw [hstep, keywordsLoop_plain cps f _ ret (fun c hc => hs c (by simp [hc])) (fun x hx => hc x (by simp [hx])) (by omega),
        List.append_assoc]

/-- C83, the part that holds: no keyword, and one keyword that is not empty and has no line break. -/
theorem C83_keywords_partial (cps : List Nat) (hs : ∀ c ∈ cps, IsScalar c) (hc : ∀ c ∈ cps, c ≠ 13 ∧ c ≠ 10)
    (hne : cps ≠ []) :
    toKeywordsList (toKeywordsString [utf8Encode cps]) = some [utf8Encode cps] ∧
    toKeywordsList (toKeywordsString []) = some [] := by
  refine ⟨?_, rfl⟩
  have e : toKeywordsString [utf8Encode cps] = utf8Encode cps := by simp [toKeywordsString]
  rw [e, toKeywordsList, keywordsLoop_plain cps _ [] [] hs hc (Nat.le_refl _), List.nil_append, if_pos]
  · rfl
  · intro h; exact hne (encode_eq_nil h)

/-- The two keywords "a" and "b" become three, with the line break in them. -/
example : toKeywordsString [[97], [98]] = [97, 13, 10, 98] ∧
    toKeywordsList [97, 13, 10, 98] = some [[97, 13], [10], [98]] := by decide +kernel

end Pdfmm
