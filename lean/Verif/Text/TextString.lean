import Verif.Text.PdfDoc
import Verif.Syntax.Strings
import Verif.Syntax.Name
/-
Text in strings and names: what a text given to the API becomes in the file, and what is read back.
-/
set_option autoImplicit false
namespace Pdfmm
open Spec

/-! ### Model -/

/-- `PdfStringState`, `src/pdfmm/base/PdfDeclarations.h`. -/
inductive StrState where
  | raw | ascii | pdfDoc | unicode
deriving DecidableEq, Repr

/-- `PdfString`, `src/pdfmm/base/PdfString.h:139-153`. -/
structure PStr where
  state : StrState
  chars : Bytes
  hex : Bool := false
deriving DecidableEq, Repr

/-- `initFromUtf8String`, `src/pdfmm/base/PdfString.cpp:304-320`. -/
def PStr.ofText (text : Bytes) : Res PStr :=
  if text = [] then .ok { state := .ascii, chars := [] }
  else match docCheck text with
    | none => .error .exn
    | some (true, a) => .ok { state := if a then .ascii else .pdfDoc, chars := text }
    | some (false, _) => .ok { state := .unicode, chars := text }

/-- `PdfString(charbuff&&, bool)`, `src/pdfmm/base/PdfString.cpp:38-41`: what the tokenizer makes of a string. -/
def PStr.ofRaw (data : Bytes) (hex : Bool) : PStr := { state := .raw, chars := data, hex := hex }

/-- The bytes of UTF-16 code units, big-endian: `src/pdfmm/base/PdfString.cpp:145-153` swaps the units on
little-endian hosts and leaves them on big-endian ones, so that the bytes are the same on both. -/
def be16 (us : List Nat) : Bytes := us.flatMap (fun u => [UInt8.ofNat (u / 256), UInt8.ofNat (u % 256)])

/-- The bytes that are written, `src/pdfmm/base/PdfString.cpp:110-156`, without encryption.  The failure of the
conversion to PDFDocEncoding is ignored in the code and leaves the empty string. -/
def PStr.data (s : PStr) : Res Bytes :=
  match s.state with
  | .raw => .ok s.chars
  | .ascii => .ok s.chars
  | .pdfDoc => match toDoc s.chars with
    | none => .error .exn
    | some none => .ok []
    | some (some b) => .ok b
  | .unicode => match utf8To16 s.chars with
    | none => .error .exn
    | some us => .ok (be16 (0xFEFF :: us))

/-- `PdfString::Write`, `src/pdfmm/base/PdfString.cpp:116-209`. -/
def PStr.write (s : PStr) : Res Bytes := s.data.map (fun d => writeString d s.hex)

/-- The code units of a byte string read two by two, `src/pdfmm/private/utfcpp_extensions.h:13-89,95-171`; an odd
number of bytes raises `range_error`. -/
def units (be : Bool) : Bytes → Option (List Nat)
  | [] => some []
  | [_] => none
  | x :: y :: r => (units be r).map ((if be then x.toNat * 256 + y.toNat else y.toNat * 256 + x.toNat) :: ·)

/-- `getEncoding`, `src/pdfmm/base/PdfString.cpp:416-432`. -/
inductive StrEncoding where
  | utf16be | utf16le | utf8 | pdfDoc
deriving DecidableEq, Repr

/-- `getEncoding`, `src/pdfmm/base/PdfString.cpp:416-432`. -/
def strEncoding (b : Bytes) : StrEncoding :=
  if b.take 2 = [0xFE, 0xFF] then .utf16be
  else if b.take 2 = [0xFF, 0xFE] then .utf16le
  else if b.take 3 = [0xEF, 0xBB, 0xBF] then .utf8
  else .pdfDoc

/-- `ReadUtf16BEString` and `ReadUtf16LEString`, `src/pdfmm/private/PdfDeclarationsPrivate.cpp:921-925`. -/
def readUtf16 (be : Bool) (b : Bytes) : Res Bytes :=
  match (units be b).bind utf16To8 with
  | none => .error .exn
  | some t => .ok t

/-- `evaluateString`, `src/pdfmm/base/PdfString.cpp:322-379`. -/
def PStr.eval (s : PStr) : Res PStr :=
  match s.state with
  | .raw => match strEncoding s.chars with
    | .utf16be => (readUtf16 true (s.chars.drop 2)).map (fun t => { s with state := .unicode, chars := t })
    | .utf16le => (readUtf16 false (s.chars.drop 2)).map (fun t => { s with state := .unicode, chars := t })
    | .utf8 => .ok { s with state := .unicode, chars := s.chars.drop 3 }
    | .pdfDoc => .ok { s with state := if (fromDoc s.chars).2 then .ascii else .pdfDoc, chars := (fromDoc s.chars).1 }
  | _ => .ok s

/-- `GetString`, `src/pdfmm/base/PdfString.cpp:216-220`: the text. -/
def PStr.getString (s : PStr) : Res Bytes := s.eval.map (·.chars)

/-- `isValidText`, `src/pdfmm/base/PdfString.cpp:401-414`. -/
def PStr.isValidText (s : PStr) : Bool := s.state ≠ .raw

/-- `operator==` for two strings, `src/pdfmm/base/PdfString.cpp:234-246,381-390`. -/
def PStr.eq (a b : PStr) : Bool :=
  if a.state = b.state ∨ a.isValidText ∨ b.isValidText then a.chars == b.chars else false

/-! ### Specification -/

namespace Spec

/-- The text starts with characters whose codes in PDFDocEncoding are a byte order mark. -/
def StartsLikeMark (cps : List Nat) : Prop :=
  [0xFE, 0xFF] <+: cps ∨ [0xFF, 0xFE] <+: cps ∨ [0xEF, 0xBB, 0xBF] <+: cps

/-- A string written with the given bytes, as a literal or hexadecimal string, and read by the tokenizer. -/
def ReadAs (written data : Bytes) (hex : Bool) : Prop :=
  ∀ rest, ∃ body, written ++ rest = (if hex then 60 else 40) :: body ∧
    (if hex then readHex body else readString body) = (data, rest)

end Spec

/-! ### Proofs -/

theorem readAs_write (data : Bytes) (hex : Bool) : ReadAs (writeString data hex) data hex := by
  intro rest
  cases hex
  · simpa using C16_literal_string_roundtrip data rest
  · simpa using C17_hex_string_roundtrip data rest

/-- What is read from a written string is what was written. -/
theorem readAs_inj {w a b : Bytes} {hex : Bool} (h1 : ReadAs w a hex) (h2 : ReadAs w b hex) : a = b := by
  obtain ⟨x, e1, r1⟩ := h1 []
  obtain ⟨y, e2, r2⟩ := h2 []
  rw [e1] at e2
  have : x = y := (List.cons.inj e2).2
  rw [this, r2] at r1
  exact ((Prod.mk.inj r1).1).symm

theorem docCheckLoop_step (f : Nat) (c : Nat) (r : Bytes) (a : Bool) (hc : IsScalar c) :
    docCheckLoop (f + 1) (utf8Append c ++ r) a =
      if c > 0xFFFF then some (false, false)
      else match docFind c with
        | none => some (false, false)
        | some x => docCheckLoop f r (if c ≥ 0x80 ∨ x.toNat ≠ c % 256 then false else a) := by
  have hn := utf8Next_append hc r
  cases ha : utf8Append c ++ r with
  | nil => rw [ha] at hn; simp [utf8Next] at hn
  | cons x xs =>
    rw [ha] at hn
    rw [docCheckLoop, hn]
    · simp only
      split
      · rfl
      · cases docFind c <;> rfl
    · simp

/-- The check agrees with the conversion. -/
theorem docCheckLoop_eq : ∀ (f : Nat) (bs : Bytes) (a : Bool) (out : Bytes), (out : Bytes) = out →
    (∀ r, docCheckLoop f bs a = some (false, r) → toDocLoop f bs out = some none) ∧
    (∀ r, docCheckLoop f bs a = some (true, r) → ∃ b, toDocLoop f bs out = some (some (out ++ b)) ∧
      (r = true → a = true ∧ b = bs))
  | f, [], a, out, _ => by
    have e1 : docCheckLoop f [] a = some (true, a) := by cases f <;> rfl
    have e2 : toDocLoop f [] out = some (some out) := by cases f <;> rfl
    rw [e1, e2]
    refine ⟨by simp, fun r h => ⟨[], by simp, ?_⟩⟩
    simp at h; rintro rfl; simp [h]
  | 0, x :: bs, a, out, _ => by simp [docCheckLoop]
  | f + 1, x :: bs, a, out, _ => by
    rw [docCheckLoop, toDocLoop] <;> try (intro h; simp at h; done)
    cases hn : utf8Next (x :: bs) with
    | none => simp
    | some y =>
      obtain ⟨cp, r⟩ := y
      simp only
      split
      · simp
      · cases hx : docFind cp with
        | none => simp
        | some c =>
          simp only
          obtain ⟨h1, h2⟩ := docCheckLoop_eq f r (if cp ≥ 0x80 ∨ c.toNat ≠ cp % 256 then false else a) (out ++ [c]) rfl
          refine ⟨h1, fun q hq => ?_⟩
          obtain ⟨b, g1, g2⟩ := h2 q hq
          refine ⟨c :: b, by rw [g1]; simp, fun hqt => ?_⟩
          obtain ⟨g3, g4⟩ := g2 hqt
          split at g3
          · simp at g3
          · rename_i hcp
            have hlt : cp < 0x80 := by omega
            have hcc : c.toNat = cp := by omega
            obtain ⟨s1, p, s2, s3⟩ := utf8Next_inv hn
            have hp : p = utf8Append cp := map_toNat_inj (by rw [s3, utf8Append_spec cp (scalar_le s1)])
            rw [utf8Append_ascii hlt] at hp
            refine ⟨g3, ?_⟩
            rw [s2, hp, g4, ← hcc, UInt8.ofNat_toNat]; rfl

theorem docCheck_true {text : Bytes} {a : Bool} (h : docCheck text = some (true, a)) :
    ∃ b, toDoc text = some (some b) ∧ (a = true → b = text) := by
  obtain ⟨b, h1, h2⟩ := (docCheckLoop_eq text.length text true [] rfl).2 a h
  exact ⟨b, by simpa [toDoc] using h1, fun ha => (h2 ha).2⟩

theorem docCheck_false {text : Bytes} {a : Bool} (h : docCheck text = some (false, a)) : toDoc text = some none :=
  (docCheckLoop_eq text.length text true [] rfl).1 a h

theorem docCheckLoop_some : ∀ (cps : List Nat) (f : Nat) (a : Bool), (∀ c ∈ cps, IsScalar c) →
    (utf8Encode cps).length ≤ f → ∃ x, docCheckLoop f (utf8Encode cps) a = some x
  | [], f, a, _, _ => ⟨(true, a), by cases f <;> simp [utf8Encode, docCheckLoop]⟩
  | c :: cps, f, a, hs, hf => by
    have hl := utf8Append_length c
    rw [utf8Encode_cons, List.length_append] at hf
    cases f with
    | zero => omega
    | succ f =>
      rw [utf8Encode_cons, docCheckLoop_step _ _ _ _ (hs c (by simp))]
      split
      · exact ⟨_, rfl⟩
      · cases docFind c with
        | none => exact ⟨_, rfl⟩
        | some x => exact docCheckLoop_some cps f _ (fun c hc => hs c (by simp [hc])) (by omega)

theorem units_be16 : ∀ (us : List Nat), (∀ u ∈ us, u < 65536) → units true (be16 us) = some us
  | [], _ => rfl
  | u :: us, h => by
    have hu := h u (by simp)
    have e : be16 (u :: us) = UInt8.ofNat (u / 256) :: UInt8.ofNat (u % 256) :: be16 us := by simp [be16]
    rw [e, units, units_be16 us (fun x hx => h x (by simp [hx]))]
    have h1 : (UInt8.ofNat (u / 256)).toNat = u / 256 := by rw [UInt8.toNat_ofNat']; omega
    have h2 : (UInt8.ofNat (u % 256)).toNat = u % 256 := by rw [UInt8.toNat_ofNat']; omega
    rw [h1, h2, if_pos rfl, show u / 256 * 256 + u % 256 = u by omega]; rfl

theorem utf16Append_lt (c u : Nat) (h : u ∈ utf16Append c) : u < 65536 := by
  simp only [utf16Append] at h
  split at h <;> simp only [List.mem_cons, List.not_mem_nil, or_false] at h
  · rcases h with h | h <;> (rw [h]; exact Nat.mod_lt _ (by omega))
  · rw [h]; exact Nat.mod_lt _ (by omega)

/-- The codes of a text in PDFDocEncoding start with a mark exactly when the text looks like it. -/
theorem mark_iff (b : Bytes) (h : ∀ x ∈ b, docFind (docAt x) = some x) :
    StartsLikeMark (docText b) ↔ strEncoding b ≠ .pdfDoc := by
  have hs : ∀ (m x : Byte), 0xE0 ≤ m.toNat ∨ m = 0xBB ∨ m = 0xBF → docAt x = m.toNat → x = m ∨ docFind (docAt x) ≠ some x := by
    intro m x hm hx
    by_cases hd : docFind (docAt x) = some x
    · left
      have h1 : decide (0xE0 ≤ m.toNat ∨ m = 0xBB ∨ m = 0xBF → docFind m.toNat = some m) = true :=
        forall_byte (P := fun m => decide (0xE0 ≤ m.toNat ∨ m = 0xBB ∨ m = 0xBF → docFind m.toNat = some m) = true)
          (by decide +kernel) m
      have h1 := of_decide_eq_true h1 hm
      rw [hx, h1] at hd
      exact (Option.some.inj hd).symm
    · exact Or.inr hd
  have back : ∀ m : Byte, 0xE0 ≤ m.toNat ∨ m = 0xBB ∨ m = 0xBF → docAt m = m.toNat := by
    intro m hm
    have h1 : decide (0xE0 ≤ m.toNat ∨ m = 0xBB ∨ m = 0xBF → docAt m = m.toNat) = true :=
      forall_byte (P := fun m => decide (0xE0 ≤ m.toNat ∨ m = 0xBB ∨ m = 0xBF → docAt m = m.toNat) = true)
        (by decide +kernel) m
    exact of_decide_eq_true h1 hm
  have step : ∀ (m : Byte) (l : List Nat) (b : Bytes), 0xE0 ≤ m.toNat ∨ m = 0xBB ∨ m = 0xBF →
      (∀ x ∈ b, docFind (docAt x) = some x) →
      (m.toNat :: l <+: docText b ↔ ∃ r, b = m :: r ∧ l <+: docText r) := by
    intro m l b hm hb
    cases b with
    | nil => simp [docText]
    | cons x r =>
      have e : docText (x :: r) = docAt x :: docText r := by simp [docText, docAt_spec]
      rw [e, List.cons_prefix_cons]
      constructor
      · rintro ⟨h1, h2⟩
        rcases hs m x hm h1.symm with rfl | hx
        · exact ⟨r, rfl, h2⟩
        · exact absurd (hb x (by simp)) hx
      · rintro ⟨r', h1, h2⟩
        obtain ⟨rfl, rfl⟩ := List.cons.inj h1
        exact ⟨(back _ hm).symm, h2⟩
  have tl : ∀ (m : Byte) (r b : Bytes), b = m :: r → (∀ x ∈ b, docFind (docAt x) = some x) →
      ∀ x ∈ r, docFind (docAt x) = some x := fun m r b e hb x hx => hb x (by rw [e]; simp [hx])
  have two : ∀ m1 m2 : Byte, (0xE0 ≤ m1.toNat ∨ m1 = 0xBB ∨ m1 = 0xBF) → (0xE0 ≤ m2.toNat ∨ m2 = 0xBB ∨ m2 = 0xBF) →
      ([m1.toNat, m2.toNat] <+: docText b ↔ b.take 2 = [m1, m2]) := by
    intro m1 m2 h1 h2
    rw [step m1 _ b h1 h]
    constructor
    · rintro ⟨r, rfl, hr⟩
      rw [step m2 _ r h2 (tl _ _ _ rfl h)] at hr
      obtain ⟨r', rfl, _⟩ := hr
      simp
    · intro hb
      match b, hb, h with
      | x :: y :: r, hb, h =>
        simp only [List.take_succ_cons, List.take_zero, List.cons.injEq, and_true] at hb
        obtain ⟨rfl, rfl⟩ := hb
        exact ⟨_, rfl, (step _ _ _ h2 (tl _ _ _ rfl h)).2 ⟨_, rfl, List.nil_prefix⟩⟩
      | [x], hb, _ => simp at hb
      | [], hb, _ => simp at hb
  have three : ([0xEF, 0xBB, 0xBF] <+: docText b ↔ b.take 3 = [0xEF, 0xBB, 0xBF]) := by
    rw [show ([0xEF, 0xBB, 0xBF] : List Nat) = (0xEF : Byte).toNat :: [(0xBB : Byte).toNat, (0xBF : Byte).toNat] from rfl,
      step 0xEF _ b (by decide) h]
    constructor
    · rintro ⟨r, rfl, hr⟩
      rw [step 0xBB _ r (by decide) (tl _ _ _ rfl h)] at hr
      obtain ⟨r', rfl, hr⟩ := hr
      rw [step 0xBF _ r' (by decide) (tl _ _ _ rfl (tl _ _ _ rfl h))] at hr
      obtain ⟨r'', rfl, _⟩ := hr
      simp
    · intro hb
      match b, hb, h with
      | x :: y :: z :: r, hb, h =>
        simp only [List.take_succ_cons, List.take_zero, List.cons.injEq, and_true] at hb
        obtain ⟨rfl, rfl, rfl⟩ := hb
        exact ⟨_, rfl, (step _ _ _ (by decide) (tl _ _ _ rfl h)).2 ⟨_, rfl,
          (step _ _ _ (by decide) (tl _ _ _ rfl (tl _ _ _ rfl h))).2 ⟨_, rfl, List.nil_prefix⟩⟩⟩
      | [x, y], hb, _ => simp at hb
      | [x], hb, _ => simp at hb
      | [], hb, _ => simp at hb
  have a1 := two 0xFE 0xFF (by decide) (by decide)
  have a2 := two 0xFF 0xFE (by decide) (by decide)
  unfold StartsLikeMark
  rw [show ([0xFE, 0xFF] : List Nat) = [(0xFE : Byte).toNat, (0xFF : Byte).toNat] from rfl, a1,
    show ([0xFF, 0xFE] : List Nat) = [(0xFF : Byte).toNat, (0xFE : Byte).toNat] from rfl, a2, three, strEncoding]
  repeat' split
  all_goals simp_all

theorem utf16Decode_length : ∀ (n : Nat) (us : List Nat), us.length ≤ n → ∀ cps, utf16Decode us = some cps →
    cps.length ≤ us.length ∧ ∀ c ∈ cps, IsScalar c
  | _, [], _, cps, h => by simp [utf16Decode] at h; simp [h]
  | 0, u :: r, hn, cps, h => by simp at hn
  | n + 1, u :: r, hn, cps, h => by
    have key : ∀ (q : List Nat) (cp : Nat), cpValid cp = true → q.length ≤ n → q.length ≤ r.length →
        (utf16Decode q).map (cp :: ·) = some cps → cps.length ≤ (u :: r).length ∧ ∀ c ∈ cps, IsScalar c := by
      intro q cp hv hq hq2 hm
      cases hd : utf16Decode q with
      | none => rw [hd] at hm; simp at hm
      | some cs =>
        rw [hd] at hm
        obtain ⟨g1, g2⟩ := utf16Decode_length n q hq cs hd
        simp only [Option.map_some, Option.some.injEq] at hm
        subst hm
        refine ⟨by simp only [List.length_cons]; omega, fun c hc => ?_⟩
        rw [List.mem_cons] at hc
        rcases hc with rfl | hc
        · exact (cpValid_iff c).1 hv
        · exact g2 c hc
    simp only [List.length_cons] at hn
    rw [utf16Decode.eq_def] at h
    simp only at h
    split at h
    · split at h
      · simp at h
      · rename_i t r'
        split at h
        · split at h
          · rename_i hv
            exact key r' _ hv (by simp only [List.length_cons] at hn; omega) (by simp) h
          · simp at h
        · simp at h
    · split at h
      · simp at h
      · split at h
        · rename_i hv
          exact key r _ hv (by omega) (Nat.le_refl _) h
        · simp at h

theorem units_length (be : Bool) : ∀ (n : Nat) (b : Bytes), b.length ≤ n → ∀ us, units be b = some us → 2 * us.length = b.length
  | _, [], _, us, h => by simp [units] at h; simp [h]
  | _, [x], _, us, h => by simp [units] at h
  | 0, x :: y :: r, hn, us, h => by simp at hn
  | n + 1, x :: y :: r, hn, us, h => by
    rw [units] at h
    cases hd : units be r with
    | none => rw [hd] at h; simp at h
    | some c =>
      rw [hd] at h
      have := units_length be n r (by simp only [List.length_cons] at hn; omega) c hd
      simp only [Option.map_some, Option.some.injEq] at h
      rw [← h]; simp only [List.length_cons]; omega

/-- A text in UTF-16 has at most half as many characters as bytes. -/
theorem readUtf16_chars {be : Bool} {b t : Bytes} (h : readUtf16 be b = .ok t) :
    ∃ cps, t = utf8Encode cps ∧ (∀ c ∈ cps, IsScalar c) ∧ 2 * cps.length ≤ b.length := by
  rw [readUtf16] at h
  cases hu : units be b with
  | none => rw [hu] at h; simp at h
  | some us =>
    rw [hu] at h
    cases hd : utf16Decode us with
    | none => rw [Option.bind_some, utf16To8, hd] at h; simp at h
    | some cps =>
      rw [Option.bind_some, utf16To8, hd] at h
      simp only [Option.map_some, Except.ok.injEq] at h
      have := units_length be _ b (Nat.le_refl _) us hu
      have g := utf16Decode_length _ us (Nat.le_refl _) cps hd
      exact ⟨cps, h.symm, g.2, by have := g.1; omega⟩

theorem encode_eq_nil {cps : List Nat} (h : utf8Encode cps = []) : cps = [] := by
  have := utf8Encode_length cps
  rw [h] at this
  exact List.length_eq_zero_iff.1 (by simpa using this)

/-- A text of characters of PDFDocEncoding is written in it. -/
theorem ofText_doc (cps : List Nat) (hs : ∀ c ∈ cps, IsScalar c) (hin : ∀ c ∈ cps, InPdfDoc c) :
    ∃ s b, PStr.ofText (utf8Encode cps) = .ok s ∧ s.data = .ok b ∧ s.hex = false ∧ docText b = cps ∧
      toDoc (utf8Encode cps) = some (some b) ∧ (∀ x ∈ b, docFind (docAt x) = some x) := by
  obtain ⟨b, h1, h2, h3⟩ := toDocLoop_ok cps _ [] hs (Nat.le_refl _) hin
  rw [List.nil_append] at h1
  have h1 : toDoc (utf8Encode cps) = some (some b) := h1
  by_cases hn : utf8Encode cps = []
  · have hc := encode_eq_nil hn
    subst hc
    have hb : b = [] := by simpa [docText] using h2
    subst hb
    exact ⟨_, [], by rw [PStr.ofText, if_pos hn], rfl, rfl, rfl, h1, by simp⟩
  · obtain ⟨⟨r, a⟩, hx⟩ := docCheckLoop_some cps _ true hs (Nat.le_refl _)
    have hx : docCheck (utf8Encode cps) = some (r, a) := hx
    cases r with
    | false => rw [docCheck_false hx] at h1; simp at h1
    | true =>
      obtain ⟨b', g1, g2⟩ := docCheck_true hx
      rw [h1] at g1
      obtain rfl : b = b' := by simpa using g1
      refine ⟨_, b, by rw [PStr.ofText, if_neg hn, hx], ?_, rfl, h2, h1, h3⟩
      cases a with
      | true => simp only [if_true, PStr.data]; rw [g2 rfl]
      | false =>
        rw [PStr.data]
        simp only [Bool.false_eq_true, if_false]
        rw [h1]

/-- Another text is written in UTF-16. -/
theorem ofText_unicode (cps : List Nat) (hs : ∀ c ∈ cps, IsScalar c) (hin : ∃ c ∈ cps, ¬ InPdfDoc c) :
    ∃ s, PStr.ofText (utf8Encode cps) = .ok s ∧ s.hex = false ∧
      s.data = .ok (be16 (0xFEFF :: cps.flatMap utf16Append)) := by
  have h1 : toDoc (utf8Encode cps) = some none := toDocLoop_no cps _ [] hs (Nat.le_refl _) hin
  have hn : utf8Encode cps ≠ [] := by
    intro h
    rw [encode_eq_nil h] at hin
    simp at hin
  obtain ⟨⟨r, a⟩, hx⟩ := docCheckLoop_some cps _ true hs (Nat.le_refl _)
  have hx : docCheck (utf8Encode cps) = some (r, a) := hx
  cases r with
  | true =>
    obtain ⟨b', g1, g2⟩ := docCheck_true hx
    rw [h1] at g1; simp at g1
  | false =>
    refine ⟨_, by rw [PStr.ofText, if_neg hn, hx], rfl, ?_⟩
    rw [PStr.data]
    simp only
    rw [utf8To16, utf8_decode_encode cps hs]
    rfl

theorem be16_cons (u : Nat) (us : List Nat) :
    be16 (u :: us) = UInt8.ofNat (u / 256) :: UInt8.ofNat (u % 256) :: be16 us := by simp [be16]

theorem getString_utf16 (cps : List Nat) (hs : ∀ c ∈ cps, IsScalar c) (hex : Bool) :
    (PStr.ofRaw (be16 (0xFEFF :: cps.flatMap utf16Append)) hex).getString = .ok (utf8Encode cps) := by
  have e : be16 (0xFEFF :: cps.flatMap utf16Append) = 0xFE :: 0xFF :: be16 (cps.flatMap utf16Append) := be16_cons _ _
  have hu : units true (be16 (cps.flatMap utf16Append)) = some (cps.flatMap utf16Append) := by
    refine units_be16 _ fun u hu => ?_
    rw [List.mem_flatMap] at hu
    obtain ⟨c, _, hu⟩ := hu
    exact utf16Append_lt c u hu
  have hr : readUtf16 true (be16 (cps.flatMap utf16Append)) = .ok (utf8Encode cps) := by
    rw [readUtf16, hu, Option.bind_some, utf16To8, utf16_decode_encode cps hs]; rfl
  rw [e, PStr.getString, PStr.eval]
  simp only [PStr.ofRaw, strEncoding, List.take_succ_cons, List.take_zero, if_true, List.drop_succ_cons, List.drop_zero]
  rw [hr]; rfl

theorem strEncoding_length {b : Bytes} (h : strEncoding b ≠ .pdfDoc) : 2 ≤ b.length := by
  match b, h with
  | [], h => exact absurd rfl h
  | [x], h => exact absurd (by simp [strEncoding]) h
  | _ :: _ :: _, _ => simp

/-- C80. A text given to a string is what `GetString` returns after the string has been written, as a literal or as
a hexadecimal string, and read again, unless all its characters are in PDFDocEncoding and it starts like a mark. -/
theorem C80_text_survives_partial (cps : List Nat) (hs : ∀ c ∈ cps, IsScalar c) (hex : Bool)
    (h : ¬ ((∀ c ∈ cps, InPdfDoc c) ∧ StartsLikeMark cps)) :
    ∃ s w data, PStr.ofText (utf8Encode cps) = .ok s ∧ PStr.write { s with hex := hex } = .ok w ∧
      ReadAs w data hex ∧ (PStr.ofRaw data hex).getString = .ok (utf8Encode cps) := by
  by_cases hin : ∀ c ∈ cps, InPdfDoc c
  · obtain ⟨s, b, h1, h2, h3, h4, h5, h6⟩ := ofText_doc cps hs hin
    have hm : strEncoding b = .pdfDoc := Decidable.byContradiction fun he =>
      h ⟨hin, h4 ▸ (mark_iff b h6).2 he⟩
    have hd : PStr.data { s with hex := hex } = .ok b := h2
    refine ⟨s, writeString b hex, b, h1, ?_, readAs_write b hex, ?_⟩
    · rw [PStr.write, hd]; rfl
    · rw [PStr.getString, PStr.eval]
      simp only [PStr.ofRaw, hm]
      rw [← h4, ← fromDoc_text]; rfl
  · have hin : ∃ c ∈ cps, ¬ InPdfDoc c := by simpa using hin
    obtain ⟨s, h1, h2, h3⟩ := ofText_unicode cps hs hin
    have hd : PStr.data { s with hex := hex } = .ok (be16 (0xFEFF :: cps.flatMap utf16Append)) := h3
    refine ⟨s, _, _, h1, ?_, readAs_write _ hex, getString_utf16 cps hs hex⟩
    rw [PStr.write, hd]; rfl

/-- C80 is false for the other texts: none of them is returned after writing and reading. -/
theorem C80_mark_false (cps : List Nat) (hs : ∀ c ∈ cps, IsScalar c) (hex : Bool)
    (hin : ∀ c ∈ cps, InPdfDoc c) (hm : StartsLikeMark cps) :
    ∃ s w, PStr.ofText (utf8Encode cps) = .ok s ∧ PStr.write { s with hex := hex } = .ok w ∧
      ∀ data, ReadAs w data hex → (PStr.ofRaw data hex).getString ≠ .ok (utf8Encode cps) := by
  obtain ⟨s, b, h1, h2, h3, h4, h5, h6⟩ := ofText_doc cps hs hin
  have hm : strEncoding b ≠ .pdfDoc := (mark_iff b h6).1 (h4 ▸ hm)
  have hd : PStr.data { s with hex := hex } = .ok b := h2
  refine ⟨s, writeString b hex, h1, by rw [PStr.write, hd]; rfl, fun data hr hg => ?_⟩
  have := readAs_inj hr (readAs_write b hex)
  subst this
  have hl := strEncoding_length hm
  have hcl : cps.length = data.length := by rw [← h4]; simp [docText]
  have hel := utf8Encode_length cps
  have key : ∀ be, readUtf16 be (data.drop 2) = .ok (utf8Encode cps) → False := by
    intro be hu
    obtain ⟨cps', e, hs', hc⟩ := readUtf16_chars hu
    have hdl := utf8_decode_encode cps hs
    rw [e, utf8_decode_encode cps' hs'] at hdl
    obtain rfl : cps' = cps := by simpa using hdl
    rw [List.length_drop] at hc
    omega
  rw [PStr.getString, PStr.eval] at hg
  simp only [PStr.ofRaw] at hg
  cases he : strEncoding data with
  | pdfDoc => exact hm he
  | utf16be =>
    rw [he] at hg
    simp only at hg
    cases hu : readUtf16 true (data.drop 2) with
    | error e => rw [hu] at hg; cases hg
    | ok t => rw [hu] at hg; exact key true (by rw [hu]; cases hg; rfl)
  | utf16le =>
    rw [he] at hg
    simp only at hg
    cases hu : readUtf16 false (data.drop 2) with
    | error e => rw [hu] at hg; cases hg
    | ok t => rw [hu] at hg; exact key false (by rw [hu]; cases hg; rfl)
  | utf8 =>
    rw [he] at hg
    have e : data.drop 3 = utf8Encode cps := by simpa [Except.map] using hg
    have := congrArg List.length e
    rw [List.length_drop] at this
    omega

example : (∀ c ∈ [0x41, 0x4E2D], IsScalar c) ∧
    PStr.ofText (utf8Encode [0x41, 0x4E2D]) = .ok { state := .unicode, chars := [0x41, 0xE4, 0xB8, 0xAD] } ∧
    PStr.data { state := .unicode, chars := [0x41, 0xE4, 0xB8, 0xAD] } = .ok [0xFE, 0xFF, 0, 0x41, 0x4E, 0x2D] ∧
    (PStr.ofRaw [0xFE, 0xFF, 0, 0x41, 0x4E, 0x2D] false).getString = .ok [0x41, 0xE4, 0xB8, 0xAD] := by
  refine ⟨by simp [IsScalar], by decide +kernel, by decide +kernel, by decide +kernel⟩

/-- The text "þÿ" followed by "ab" is one of those that are not read back. -/
example : (∀ c ∈ [0xFE, 0xFF, 0x61, 0x62], InPdfDoc c) ∧ StartsLikeMark [0xFE, 0xFF, 0x61, 0x62] ∧
    (PStr.ofRaw [0xFE, 0xFF, 0x61, 0x62] false).getString = .ok [0xE6, 0x85, 0xA2] := by
  refine ⟨?_, Or.inl ⟨[0x61, 0x62], rfl⟩, by decide +kernel⟩
  intro c hc
  refine ⟨c, ?_⟩
  simp only [List.mem_cons, List.not_mem_nil, or_false] at hc
  rcases hc with rfl | rfl | rfl | rfl <;> decide

/-! ### Equality and the evaluation of a string -/

/-- C81 is false: two strings that are different become equal by asking the first for its text. -/
theorem C81_evaluation_false : ∃ a b a' : PStr, a.eval = .ok a' ∧ a.eq b = false ∧ a'.eq b = true :=
  ⟨PStr.ofRaw [0xFE, 0xFF, 0, 0x41] false, { state := .ascii, chars := [0x41] }, { state := .unicode, chars := [0x41] },
    by decide +kernel, by decide +kernel, by decide +kernel⟩

/-- The bytes have the same meaning as text: plain characters without a mark. -/
def Spec.PlainText (b : Bytes) : Prop := ∀ c ∈ b, pdfDoc c.toNat = some c.toNat ∧ c.toNat < 0x80

theorem strEncoding_plain {b : Bytes} (h : PlainText b) : strEncoding b = .pdfDoc := by
  have nb : ∀ (m : Byte) (l r : Bytes), 0x80 ≤ m.toNat → ∀ n, b.take n ≠ m :: l := by
    intro m l _ hm n he
    have : m ∈ b := List.mem_of_mem_take (by rw [he]; simp : m ∈ b.take n)
    have := (h m this).2
    omega
  rw [strEncoding, if_neg (nb _ _ [] (by decide) _), if_neg (nb _ _ [] (by decide) _), if_neg (nb _ _ [] (by decide) _)]

/-- C81, the part that holds: for strings of plain characters asking for the text changes neither the characters nor
the result of any comparison with a string of known text, and in all cases asking twice is the same as once. -/
theorem C81_evaluation_partial (a b : PStr) (ha : PlainText a.chars) (hb : b.isValidText = true) :
    ∃ a', a.eval = .ok a' ∧ a'.chars = a.chars ∧ a'.eq b = a.eq b ∧ b.eq a' = b.eq a := by
  cases hst : a.state with
  | raw =>
    have hfl : (fromDoc a.chars).2 = true := by
      rw [fromDoc_flag, List.all_eq_true]
      intro c hc
      obtain ⟨h1, h2⟩ := ha c hc
      have : docAt c = c.toNat := by rw [docAt_spec, h1]; rfl
      simp [this, h2]
    have hch := (fromDoc_flag_iff a.chars).1 hfl
    refine ⟨{ a with state := .ascii }, ?_, rfl, ?_, ?_⟩
    · rw [PStr.eval, hst]
      simp only [strEncoding_plain ha]
      rw [hfl, hch]; rfl
    · simp [PStr.eq, hb]
    · simp [PStr.eq, hb]
  | ascii => exact ⟨a, by rw [PStr.eval, hst], rfl, rfl, rfl⟩
  | pdfDoc => exact ⟨a, by rw [PStr.eval, hst], rfl, rfl, rfl⟩
  | unicode => exact ⟨a, by rw [PStr.eval, hst], rfl, rfl, rfl⟩

/-- Evaluating twice is the same as evaluating once. -/
theorem C81_evaluation_idempotent (a a' : PStr) (h : a.eval = .ok a') : a'.eval = .ok a' := by
  have hv : a'.state ≠ .raw := by
    rw [PStr.eval] at h
    split at h
    · split at h
      · cases hu : readUtf16 true (a.chars.drop 2) with
        | error e => rw [hu] at h; cases h
        | ok t => rw [hu] at h; cases h; simp
      · cases hu : readUtf16 false (a.chars.drop 2) with
        | error e => rw [hu] at h; cases h
        | ok t => rw [hu] at h; cases h; simp
      · cases h; simp
      · cases h
        simp only
        split <;> simp
    · rename_i hne
      cases h
      exact hne
  rw [PStr.eval]
  split
  · rename_i hr; exact absurd hr hv
  · rfl

example : PlainText [0x41, 0x20, 0x7E] := by
  intro c hc
  simp only [List.mem_cons, List.not_mem_nil, or_false] at hc
  rcases hc with rfl | rfl | rfl <;> decide

end Pdfmm
