import Verif.Base.Basic
/-
Finding the header, the end-of-file marker and the `startxref` keyword: `PdfParser::IsPdfFile`, `ReadMagicWord`,
`CheckEOFMarker`, `FindTokenBackward`.
-/
set_option autoImplicit false
namespace Pdfmm

/-! ### Model -/

/-- `%PDF-`. -/
def magicWord : Bytes := [37, 80, 68, 70, 45]

/-- `ReadMagicWord`, `src/pdfmm/base/PdfParser.cpp:1005-1044`: `none` is "found", otherwise the new cursor.  A cursor
above 4, which the code answers with an error, is never passed. -/
def readMagicWord (ch : Byte) (cursor : Nat) : Option Nat :=
  match cursor with
  | 0 => if ch = 37 then some 1 else some 0
  | 1 => if ch = 80 then some 2 else some 0
  | 2 => if ch = 68 then some 3 else some 0
  | 3 => if ch = 70 then some 4 else some 0
  | _ => if ch = 45 then none else some 0

/-- The loop of `IsPdfFile`, `src/pdfmm/base/PdfParser.cpp:165-175`: the position behind the magic word. -/
def scanMagic : Bytes → Nat → Nat → Option Nat
  | [], _, _ => none
  | c :: r, pos, cursor =>
    match readMagicWord c cursor with
    | none => some (pos + 1)
    | some k => scanMagic r (pos + 1) k

/-- The version strings `GetPdfVersion` knows, `src/pdfmm/private/PdfDeclarationsPrivate.cpp:66-132`, oldest first. -/
def versionNames : List Bytes :=
  [[49, 46, 48], [49, 46, 49], [49, 46, 50], [49, 46, 51], [49, 46, 52], [49, 46, 53], [49, 46, 54], [49, 46, 55], [50, 46, 48]]

/-- `IsPdfFile`, `src/pdfmm/base/PdfParser.cpp:163-189`: the version string and `m_magicOffset`, if it returns true. -/
def isPdfFile (file : Bytes) : Option (Bytes × Nat) :=
  match scanMagic file 0 0 with
  | none => none
  | some pos =>
    let v := (file.drop pos).take 3
    if v.length ≠ 3 then none
    else if v ∈ versionNames then some (v, pos + 3 - 8) else none

/-- `strncmp(buffer + i, token, tokenLen) == 0` for a token without zero bytes. -/
def matchesAt (tok buf : Bytes) (i : Nat) : Bool := (buf.drop i).take tok.length = tok

/-- The search loop, `src/pdfmm/base/PdfParser.cpp:847-854`: the index counts down from `i` to 0; `none` is -1. -/
def searchDown (tok buf : Bytes) : Nat → Option Nat
  | 0 => if matchesAt tok buf 0 then some 0 else none
  | i + 1 => if matchesAt tok buf (i + 1) then some (i + 1) else searchDown tok buf i

/-- `StreamDevice::SeekPosition` from the end, `src/pdfmm/base/PdfStreamDevice.cpp:124-132`: `back` bytes back. -/
def seekFromEnd (size : Nat) (back : Int) : Res Nat :=
  if back < 0 then raise .InvalidDeviceOperation
  else if back > size then raise .ValueOutOfRange
  else .ok (size - back.toNat)

/-- `FindTokenBackward`, `src/pdfmm/base/PdfParser.cpp:834-861`; `last` is `m_LastEOFOffset`.  The result is the
position of the device. -/
def findTokenBackward (file tok : Bytes) (range last : Nat) : Res Nat :=
  match seekFromEnd file.length last with
  | .error e => .error e
  | .ok cur =>
    let n := min cur range
    let buf := (file.drop (cur - n)).take n
    let i : Int :=
      if n < tok.length then (n : Int) - tok.length
      else match searchDown tok buf (n - tok.length) with
        | none => -1
        | some i => i
    if i = 0 then raise .InternalLogic
    else seekFromEnd file.length ((n : Int) - i + last)

/-- `%%EOF`. -/
def eofMarker : Bytes := [37, 37, 69, 79, 70]

/-- `CheckEOFMarker`, `src/pdfmm/base/PdfParser.cpp:930-974`: the new `m_LastEOFOffset`. -/
def checkEOF (strict : Bool) (file : Bytes) : Res Nat :=
  match seekFromEnd file.length 5 with
  | .error e => .error e
  | .ok pos =>
    if strict then (if matchesAt eofMarker file pos then .ok 0 else raise .NoEOFToken)
    else match searchDown eofMarker file pos with
      | some i => .ok (file.length - (i + 5 - 1) + 5)
      | none => raise .NoEOFToken

/-! ### The header -/

theorem scanMagic_append (a b : Bytes) : ∀ (pos c : Nat),
    scanMagic (a ++ b) pos c = (match scanMagic a pos c with
      | some p => some p
      | none => scanMagic b (pos + a.length) (a.foldl (fun k x => (readMagicWord x k).getD 0) c)) := by
  induction a with
  | nil => intro pos c; simp [scanMagic]
  | cons x r ih =>
    intro pos c
    rw [List.cons_append, scanMagic, scanMagic]
    cases h : readMagicWord x c with
    | none => rfl
    | some k =>
      dsimp only
      rw [ih, List.foldl_cons, h, Option.getD_some, List.length_cons]
      rw [show pos + 1 + r.length = pos + (r.length + 1) by omega]

/-- The cursor after some bytes is the number of bytes of the magic word they end with. -/
theorem cursor_spec (a : Bytes) : ∀ (c : Nat), c ≤ 4 → ∃ k, k ≤ 4 ∧
    a.foldl (fun k x => (readMagicWord x k).getD 0) c = k ∧ (∃ p, magicWord.take c ++ a = p ++ magicWord.take k) := by
  induction a with
  | nil => intro c hc; exact ⟨c, hc, rfl, [], by simp⟩
  | cons x r ih =>
    intro c hc
    have key : ∃ k, k ≤ 4 ∧ (readMagicWord x c).getD 0 = k ∧ ∃ p, magicWord.take c ++ [x] = p ++ magicWord.take k := by
      match c, hc with
      | 0, _ =>
        by_cases h : x = 37
        · subst h; exact ⟨1, by decide, rfl, [], rfl⟩
        · exact ⟨0, by decide, by simp [readMagicWord, h], [x], by simp⟩
      | 1, _ =>
        by_cases h : x = 80
        · subst h; exact ⟨2, by decide, rfl, [], rfl⟩
        · exact ⟨0, by decide, by simp [readMagicWord, h], _, by rw [List.take_zero, List.append_nil]⟩
      | 2, _ =>
        by_cases h : x = 68
        · subst h; exact ⟨3, by decide, rfl, [], rfl⟩
        · exact ⟨0, by decide, by simp [readMagicWord, h], _, by rw [List.take_zero, List.append_nil]⟩
      | 3, _ =>
        by_cases h : x = 70
        · subst h; exact ⟨4, by decide, rfl, [], rfl⟩
        · exact ⟨0, by decide, by simp [readMagicWord, h], _, by rw [List.take_zero, List.append_nil]⟩
      | 4, _ => exact ⟨0, by decide, by simp only [readMagicWord]; split <;> rfl, _, by rw [List.take_zero, List.append_nil]⟩
    obtain ⟨k, hk, h1, p, h2⟩ := key
    obtain ⟨k', hk', h3, p', h4⟩ := ih k hk
    refine ⟨k', hk', by rw [List.foldl_cons, h1, h3], p ++ p', ?_⟩
    rw [show magicWord.take c ++ x :: r = (magicWord.take c ++ [x]) ++ r by simp, h2, List.append_assoc, h4,
      List.append_assoc]

/-- If the scan stops, the bytes contain the magic word. -/
theorem scanMagic_found (a : Bytes) : ∀ (pos c p : Nat), c ≤ 4 → scanMagic a pos c = some p →
    ∃ l r, magicWord.take c ++ a = l ++ (magicWord ++ r) := by
  induction a with
  | nil => intro pos c p _ h; cases h
  | cons x r ih =>
    intro pos c p hc h
    rw [scanMagic] at h
    cases hx : readMagicWord x c with
    | none =>
      have : c = 4 ∧ x = 45 := by
        match c, hc with
        | 0, _ => simp [readMagicWord] at hx; split at hx <;> cases hx
        | 1, _ => simp [readMagicWord] at hx; split at hx <;> cases hx
        | 2, _ => simp [readMagicWord] at hx; split at hx <;> cases hx
        | 3, _ => simp [readMagicWord] at hx; split at hx <;> cases hx
        | 4, _ => simp only [readMagicWord] at hx; split at hx
                  · exact ⟨rfl, by assumption⟩
                  · cases hx
      obtain ⟨rfl, rfl⟩ := this
      exact ⟨[], r, rfl⟩
    | some k =>
      rw [hx] at h
      obtain ⟨k', hk', h1, p1, h2⟩ := cursor_spec [x] c hc
      simp only [List.foldl_cons, List.foldl_nil, hx, Option.getD_some] at h1
      subst h1
      obtain ⟨l, r', h3⟩ := ih (pos + 1) k p hk' h
      refine ⟨p1 ++ l, r', ?_⟩
      rw [show magicWord.take c ++ x :: r = (magicWord.take c ++ [x]) ++ r by simp, h2, List.append_assoc, h3,
        List.append_assoc]

/-- The versions of PDF, 1.0 to 1.7 and 2.0, as text. -/
def Spec.IsPdfVersion (v : Bytes) : Prop :=
  (∃ d : Byte, 48 ≤ d.toNat ∧ d.toNat ≤ 55 ∧ v = [ch '1', ch '.', d]) ∨ v = [ch '2', ch '.', ch '0']

theorem versionNames_spec (v : Bytes) : v ∈ versionNames ↔ Spec.IsPdfVersion v := by
  constructor
  · intro h
    simp only [versionNames, List.mem_cons, List.not_mem_nil, or_false] at h
    rcases h with h | h | h | h | h | h | h | h | h <;> subst h
    · exact Or.inl ⟨48, by decide, by decide, by decide⟩
    · exact Or.inl ⟨49, by decide, by decide, by decide⟩
    · exact Or.inl ⟨50, by decide, by decide, by decide⟩
    · exact Or.inl ⟨51, by decide, by decide, by decide⟩
    · exact Or.inl ⟨52, by decide, by decide, by decide⟩
    · exact Or.inl ⟨53, by decide, by decide, by decide⟩
    · exact Or.inl ⟨54, by decide, by decide, by decide⟩
    · exact Or.inl ⟨55, by decide, by decide, by decide⟩
    · exact Or.inr (by decide)
  · rintro (⟨d, h1, h2, h⟩ | h)
    · subst h
      exact forall_byte (P := fun d => 48 ≤ d.toNat → d.toNat ≤ 55 → [ch '1', ch '.', d] ∈ versionNames)
        (by decide +kernel) d h1 h2
    · subst h; decide

instance (v : Bytes) : Decidable (Spec.IsPdfVersion v) := decidable_of_iff _ (versionNames_spec v)

/-- C43: a header preceded by bytes that do not contain `%PDF-` themselves and whose last four bytes have no `%` is
recognised, with its version and offset.  Missing: other prefixes, see `C43_partial_match_false` and
`C43_other_version_false`. -/
theorem C43_header_partial (pre ver rest : Bytes) (hpre : ¬ ∃ l r, pre = l ++ (magicWord ++ r))
    (hend : (37 : Byte) ∉ pre.drop (pre.length - 4)) (hver : Spec.IsPdfVersion ver) :
    isPdfFile (pre ++ (magicWord ++ (ver ++ rest))) = some (ver, pre.length) := by
  rw [← versionNames_spec] at hver
  have hv3 : ver.length = 3 := by
    have : ∀ v ∈ versionNames, v.length = 3 := by decide
    exact this ver hver
  have h1 : scanMagic pre 0 0 = none := by
    cases h : scanMagic pre 0 0 with
    | none => rfl
    | some p => exact absurd (scanMagic_found pre 0 0 p (by omega) h) (by simpa using hpre)
  have h2 : pre.foldl (fun k x => (readMagicWord x k).getD 0) 0 = 0 := by
    obtain ⟨k, hk, h, p, hp⟩ := cursor_spec pre 0 (by omega)
    rw [List.take_zero, List.nil_append] at hp
    match k, hk with
    | 0, _ => exact h
    | k + 1, hk =>
      exfalso
      apply hend
      have hm : magicWord.take (k + 1) = 37 :: (magicWord.drop 1).take k := rfl
      have hlen : ((magicWord.drop 1).take k).length = k := by simp [magicWord]; omega
      rw [hp, hm, List.length_append, List.length_cons, hlen, List.drop_append]
      apply List.mem_append_right
      rw [show p.length + (k + 1) - 4 - p.length = 0 by omega]
      simp
  have h3 : scanMagic (pre ++ (magicWord ++ (ver ++ rest))) 0 0 = some (pre.length + 5) := by
    rw [scanMagic_append, h1, h2]
    simp [magicWord, scanMagic, readMagicWord]
  unfold isPdfFile
  rw [h3]
  have h4 : ((pre ++ (magicWord ++ (ver ++ rest))).drop (pre.length + 5)).take 3 = ver := by
    rw [← List.append_assoc, List.drop_left' (by simp [magicWord]), List.take_left' hv3]
  dsimp only
  rw [h4, if_neg (by omega), if_pos hver]
  simp

theorem scan_no_percent (a : Bytes) (h : (37 : Byte) ∉ a) (pos : Nat) :
    scanMagic a pos 0 = none ∧ a.foldl (fun k x => (readMagicWord x k).getD 0) 0 = 0 := by
  induction a generalizing pos with
  | nil => exact ⟨rfl, rfl⟩
  | cons x r ih =>
    rw [List.mem_cons, not_or] at h
    have hx : readMagicWord x 0 = some 0 := by simp [readMagicWord, Ne.symm h.1]
    rw [scanMagic, List.foldl_cons, hx]
    exact ih h.2 (pos + 1)

/-- C43 is false: when the bytes before the header end with the beginning of a header, such as another `%`, the
header is not seen. -/
theorem C43_partial_match_false (pre ver rest : Bytes) (k : Nat) (hk : 1 ≤ k ∧ k ≤ 4) (hpre : (37 : Byte) ∉ pre)
    (hver : Spec.IsPdfVersion ver) (hrest : (37 : Byte) ∉ rest) :
    isPdfFile (pre ++ (magicWord.take k ++ (magicWord ++ (ver ++ rest)))) = none := by
  rw [← versionNames_spec] at hver
  have hv : (37 : Byte) ∉ ver := by
    have : ∀ v ∈ versionNames, (37 : Byte) ∉ v := by decide
    exact this ver hver
  have h3 : scanMagic (pre ++ (magicWord.take k ++ (magicWord ++ (ver ++ rest)))) 0 0 = none := by
    rw [scanMagic_append, (scan_no_percent pre hpre 0).1, (scan_no_percent pre hpre 0).2]
    dsimp only
    rw [← List.append_assoc, scanMagic_append]
    have : k = 1 ∨ k = 2 ∨ k = 3 ∨ k = 4 := by omega
    have hr := fun pos => (scan_no_percent (ver ++ rest) (by simp [hv, hrest]) pos).1
    rcases this with h | h | h | h <;> subst h <;>
      simp [magicWord, scanMagic, readMagicWord, hr]
  unfold isPdfFile
  rw [h3]

/-- C43 is false: bytes that look like a header of an unknown version hide the header that follows. -/
theorem C43_other_version_false (pre ver rest : Bytes) (hpre : ¬ ∃ l r, pre = l ++ (magicWord ++ r))
    (hend : (37 : Byte) ∉ pre.drop (pre.length - 4)) (h3 : ver.length = 3) (hver : ¬ Spec.IsPdfVersion ver) :
    isPdfFile (pre ++ (magicWord ++ (ver ++ rest))) = none := by
  rw [← versionNames_spec] at hver
  have h1 : scanMagic pre 0 0 = none := by
    cases h : scanMagic pre 0 0 with
    | none => rfl
    | some p => exact absurd (scanMagic_found pre 0 0 p (by omega) h) (by simpa using hpre)
  have h2 : pre.foldl (fun k x => (readMagicWord x k).getD 0) 0 = 0 := by
    obtain ⟨k, hk, h, p, hp⟩ := cursor_spec pre 0 (by omega)
    rw [List.take_zero, List.nil_append] at hp
    match k, hk with
    | 0, _ => exact h
    | k + 1, hk =>
      exfalso
      apply hend
      have hm : magicWord.take (k + 1) = 37 :: (magicWord.drop 1).take k := rfl
      have hlen : ((magicWord.drop 1).take k).length = k := by simp [magicWord]; omega
      rw [hp, hm, List.length_append, List.length_cons, hlen, List.drop_append]
      apply List.mem_append_right
      rw [show p.length + (k + 1) - 4 - p.length = 0 by omega]
      simp
  have h4 : scanMagic (pre ++ (magicWord ++ (ver ++ rest))) 0 0 = some (pre.length + 5) := by
    rw [scanMagic_append, h1, h2]
    simp [magicWord, scanMagic, readMagicWord]
  unfold isPdfFile
  rw [h4]
  have h5 : ((pre ++ (magicWord ++ (ver ++ rest))).drop (pre.length + 5)).take 3 = ver := by
    rw [← List.append_assoc, List.drop_left' (by simp [magicWord]), List.take_left' h3]
  dsimp only
  rw [h5, if_neg (by omega), if_neg hver]

/-- `junk\n%PDF-1.7\n`. -/
example : isPdfFile ([106, 117, 110, 107, 10] ++ (magicWord ++ ([49, 46, 55] ++ [10]))) = some ([49, 46, 55], 5) :=
  C43_header_partial _ _ _ (by
    rintro ⟨l, r, h⟩
    have := congrArg List.length h
    simp [magicWord] at this
    have hl : l = [] := List.length_eq_zero_iff.1 (by omega)
    subst hl
    simp [magicWord] at h) (by decide) (by decide)

/-- `%%PDF-1.4`. -/
example : isPdfFile ([] ++ (magicWord.take 1 ++ (magicWord ++ ([49, 46, 52] ++ [10])))) = none :=
  C43_partial_match_false [] [49, 46, 52] [10] 1 (by decide) (by decide) (by decide) (by decide)

/-- `%PDF-9.9\n%PDF-1.4`. -/
example : isPdfFile ([] ++ (magicWord ++ ([57, 46, 57] ++ ([10] ++ magicWord ++ [49, 46, 52])))) = none :=
  C43_other_version_false [] [57, 46, 57] _ (by rintro ⟨l, r, h⟩; simp [magicWord] at h) (by decide) rfl (by decide)

/-! ### Searching backwards -/

namespace Spec

/-- The token stands at position `i` of the bytes. -/
def At (tok buf : Bytes) (i : Nat) : Prop := ∃ a b, buf = a ++ (tok ++ b) ∧ a.length = i

/-- The last place where the token stands. -/
def IsLastAt (tok buf : Bytes) (i : Nat) : Prop := At tok buf i ∧ ∀ j, At tok buf j → j ≤ i

end Spec

theorem matchesAt_iff (tok buf : Bytes) (i : Nat) (hi : i ≤ buf.length) :
    matchesAt tok buf i = true ↔ Spec.At tok buf i := by
  unfold matchesAt Spec.At
  rw [decide_eq_true_iff]
  constructor
  · intro h
    refine ⟨buf.take i, (buf.drop i).drop tok.length, ?_, by simp; omega⟩
    calc buf = buf.take i ++ buf.drop i := (List.take_append_drop i buf).symm
      _ = buf.take i ++ ((buf.drop i).take tok.length ++ (buf.drop i).drop tok.length) := by
        rw [List.take_append_drop tok.length]
      _ = _ := by rw [h]
  · rintro ⟨a, b, rfl, rfl⟩
    simp

theorem at_le {tok buf : Bytes} {i : Nat} (h : Spec.At tok buf i) : i + tok.length ≤ buf.length := by
  obtain ⟨a, b, rfl, rfl⟩ := h
  simp

theorem searchDown_spec (tok buf : Bytes) (n : Nat) (hn : n ≤ buf.length) :
    match searchDown tok buf n with
    | some i => i ≤ n ∧ Spec.At tok buf i ∧ ∀ j, j ≤ n → Spec.At tok buf j → j ≤ i
    | none => ∀ j, j ≤ n → ¬ Spec.At tok buf j := by
  induction n with
  | zero =>
    rw [searchDown]
    by_cases h : matchesAt tok buf 0 = true
    · rw [if_pos h]
      exact ⟨Nat.le_refl _, (matchesAt_iff tok buf 0 hn).1 h, fun j hj _ => hj⟩
    · rw [if_neg h]
      intro j hj hat
      obtain rfl : j = 0 := by omega
      exact h ((matchesAt_iff tok buf 0 hn).2 hat)
  | succ n ih =>
    rw [searchDown]
    by_cases h : matchesAt tok buf (n + 1) = true
    · rw [if_pos h]
      exact ⟨Nat.le_refl _, (matchesAt_iff tok buf _ hn).1 h, fun j hj _ => hj⟩
    · rw [if_neg h]
      have := ih (by omega)
      split
      · rename_i i hi
        rw [hi] at this
        refine ⟨by omega, this.2.1, fun j hj hat => ?_⟩
        by_cases hj' : j ≤ n
        · exact this.2.2 j hj' hat
        · obtain rfl : j = n + 1 := by omega
          exact absurd ((matchesAt_iff tok buf _ hn).2 hat) h
      · rename_i hi
        rw [hi] at this
        intro j hj hat
        by_cases hj' : j ≤ n
        · exact this j hj' hat
        · obtain rfl : j = n + 1 := by omega
          exact absurd ((matchesAt_iff tok buf _ hn).2 hat) h

theorem searchDown_last {tok buf : Bytes} {n i : Nat} (hn : n + tok.length = buf.length) (h : Spec.IsLastAt tok buf i) :
    searchDown tok buf n = some i := by
  have hs := searchDown_spec tok buf n (by omega)
  have hi := at_le h.1
  split at hs
  · rename_i j hj
    rw [hj]
    have a := h.2 j hs.2.1
    have b := hs.2.2 i (by omega) h.1
    rw [show j = i by omega]
  · exact absurd h.1 (hs i (by omega))

theorem searchDown_none {tok buf : Bytes} {n : Nat} (hn : n ≤ buf.length) (h : ∀ i, ¬ Spec.At tok buf i) :
    searchDown tok buf n = none := by
  have hs := searchDown_spec tok buf n hn
  split at hs
  · exact absurd hs.2.1 (h _)
  · assumption

/-- The part of the file that is searched: at most `range` bytes that end `last` bytes before the end. -/
def Spec.window (file : Bytes) (range last : Nat) : Bytes :=
  (file.drop (file.length - last - range)).take (min (file.length - last) range)

theorem window_length (file : Bytes) (range last : Nat) :
    (Spec.window file range last).length = min (file.length - last) range := by
  simp only [Spec.window, List.length_take, List.length_drop]
  omega

theorem findTokenBackward_eq (file tok : Bytes) (range last : Nat) (hlast : last ≤ file.length)
    (htok : tok.length ≤ (Spec.window file range last).length) :
    findTokenBackward file tok range last =
      (match searchDown tok (Spec.window file range last) ((Spec.window file range last).length - tok.length) with
        | some 0 => raise .InternalLogic
        | some (i + 1) => seekFromEnd file.length (((Spec.window file range last).length : Int) - (i + 1) + last)
        | none => seekFromEnd file.length (((Spec.window file range last).length : Int) + 1 + last)) := by
  unfold findTokenBackward
  have h1 : seekFromEnd file.length (last : Int) = .ok (file.length - last) := by
    unfold seekFromEnd
    rw [if_neg (by omega), if_neg (by omega)]
    simp
  have h2 : (file.drop (file.length - last - min (file.length - last) range)).take (min (file.length - last) range) =
      Spec.window file range last := by
    unfold Spec.window
    congr 2
    omega
  rw [h1]
  dsimp only
  rw [h2, ← window_length]
  simp only [if_neg (show ¬ (Spec.window file range last).length < tok.length by omega)]
  cases searchDown tok (Spec.window file range last) ((Spec.window file range last).length - tok.length) with
  | none => dsimp only; rw [if_neg (by omega)]; congr 1
  | some i =>
    cases i with
    | zero => rfl
    | succ i => dsimp only; rw [if_neg (by omega)]; congr 1

/-- C44: if the last occurrence of the token in the searched part of the file is not at its very beginning, the
device is moved there.  Missing: an occurrence at the beginning and no occurrence at all, see the next theorems. -/
theorem C44_last_partial (file tok : Bytes) (range last i : Nat) (hlast : last ≤ file.length)
    (h : Spec.IsLastAt tok (Spec.window file range last) i) (hi : 0 < i) :
    findTokenBackward file tok range last = .ok (file.length - last - range + i) := by
  have hle := at_le h.1
  rw [findTokenBackward_eq file tok range last hlast (by omega), searchDown_last (by omega) h]
  cases i with
  | zero => omega
  | succ i =>
    dsimp only
    have hw := window_length file range last
    unfold seekFromEnd
    rw [if_neg (by omega), if_neg (by omega)]
    congr 1
    omega

/-- The position is right: the token stands there in the file. -/
theorem window_at {file tok : Bytes} {range last i : Nat} (h : Spec.At tok (Spec.window file range last) i) :
    Spec.At tok file (file.length - last - range + i) := by
  obtain ⟨a, b, h1, h2⟩ := h
  have hle : i + tok.length ≤ (Spec.window file range last).length := at_le ⟨a, b, h1, h2⟩
  rw [window_length] at hle
  unfold Spec.window at h1
  refine ⟨file.take (file.length - last - range) ++ a,
    b ++ (file.drop (file.length - last - range)).drop (min (file.length - last) range), ?_, by simp; omega⟩
  have : file.drop (file.length - last - range) = a ++ (tok ++ b) ++
      (file.drop (file.length - last - range)).drop (min (file.length - last) range) := by
    rw [← h1, List.take_append_drop]
  rw [List.append_assoc]
  conv => lhs; rw [← List.take_append_drop (file.length - last - range) file, this]
  simp

/-- C44 is false: a token that is found at the very beginning of the searched part only is answered with an error. -/
theorem C44_first_false (file tok : Bytes) (range last : Nat) (hlast : last ≤ file.length)
    (h : Spec.IsLastAt tok (Spec.window file range last) 0) :
    findTokenBackward file tok range last = raise .InternalLogic := by
  have hle := at_le h.1
  rw [findTokenBackward_eq file tok range last hlast (by omega), searchDown_last (by omega) h]

/-- C44 is false: if the token does not occur, no error is raised; the device is left one byte before the searched
part. -/
theorem C44_missing_false (file tok : Bytes) (range last : Nat) (hlast : last ≤ file.length)
    (htok : tok.length ≤ range) (hr : range < file.length - last)
    (h : ∀ i, ¬ Spec.At tok (Spec.window file range last) i) :
    findTokenBackward file tok range last = .ok (file.length - last - range - 1) := by
  have hw := window_length file range last
  rw [findTokenBackward_eq file tok range last hlast (by omega), searchDown_none (by omega) h]
  dsimp only
  unfold seekFromEnd
  rw [if_neg (by omega), if_neg (by omega)]
  congr 1
  omega

/-- If all of the file was searched an error is raised, though not one that says so. -/
theorem C44_missing_whole_partial (file tok : Bytes) (range last : Nat) (hlast : last ≤ file.length)
    (htok : tok.length ≤ file.length - last) (hr : file.length - last ≤ range)
    (h : ∀ i, ¬ Spec.At tok (Spec.window file range last) i) :
    findTokenBackward file tok range last = raise .ValueOutOfRange := by
  have hw := window_length file range last
  rw [findTokenBackward_eq file tok range last hlast (by omega), searchDown_none (by omega) h]
  dsimp only
  unfold seekFromEnd
  rw [if_neg (by omega), if_pos (by omega)]

/-! ### The end of the file -/

/-- C76: whatever follows the last `%%EOF`, the part of the file that is searched for `startxref` ends one byte before
that marker (not in strict mode). -/
theorem C76_eof (file : Bytes) (e : Nat) (h : Spec.IsLastAt eofMarker file e) :
    checkEOF false file = .ok (file.length - e + 1) := by
  have hle := at_le h.1
  have h5 : eofMarker.length = 5 := rfl
  unfold checkEOF seekFromEnd
  rw [if_neg (by omega), if_neg (by omega)]
  dsimp only
  rw [if_neg (by decide), searchDown_last (by omega) h]
  dsimp only
  congr 1
  omega

/-- A file without the marker is refused. -/
theorem C76_no_eof (file : Bytes) (h : ∀ e, ¬ Spec.At eofMarker file e) (strict : Bool) (h5 : 5 ≤ file.length) :
    checkEOF strict file = raise .NoEOFToken := by
  unfold checkEOF seekFromEnd
  rw [if_neg (by omega), if_neg (by omega)]
  dsimp only
  cases strict with
  | false => rw [if_neg (by decide), searchDown_none (by omega) h]
  | true =>
    rw [if_pos rfl, if_neg]
    intro hm
    exact h _ ((matchesAt_iff _ _ _ (by omega)).1 hm)

/-- In strict mode the marker must be the last thing in the file. -/
theorem C76_strict (file : Bytes) (h5 : 5 ≤ file.length) :
    checkEOF true file = .ok 0 ↔ Spec.At eofMarker file (file.length - 5) := by
  rw [← matchesAt_iff eofMarker file (file.length - 5) (by omega)]
  unfold checkEOF seekFromEnd
  rw [if_neg (by omega), if_neg (by omega)]
  dsimp only
  rw [if_pos rfl]
  show (if matchesAt eofMarker file (file.length - 5) = true then _ else _) = _ ↔ _
  by_cases hm : matchesAt eofMarker file (file.length - 5) = true
  · simp [hm]
  · simp [hm]

/-- `startxref`. -/
def startXRef : Bytes := [115, 116, 97, 114, 116, 120, 114, 101, 102]

/-- The start of the search for the cross-reference section, `src/pdfmm/base/PdfParser.cpp:111-135, 293-297`. -/
def findStartXRef (file : Bytes) : Res Nat :=
  match checkEOF false file with
  | .error e => .error e
  | .ok last => findTokenBackward file startXRef 512 last

theorem at_append_right {tok a b : Bytes} {p : Nat} (h : Spec.At tok (a ++ b) p) (hp : a.length ≤ p) :
    Spec.At tok b (p - a.length) := by
  have hle := at_le h
  rw [List.length_append] at hle
  rw [← matchesAt_iff _ _ _ (by omega)]
  have := (matchesAt_iff _ _ _ (by rw [List.length_append]; omega)).2 h
  unfold matchesAt at this ⊢
  rw [List.drop_append, List.drop_of_length_le hp, List.nil_append] at this
  exact this

theorem at_append_left {tok a b : Bytes} {p : Nat} (h : Spec.At tok (a ++ b) p) (hp : p + tok.length ≤ a.length) :
    Spec.At tok a p := by
  rw [← matchesAt_iff _ _ _ (by omega)]
  have := (matchesAt_iff _ _ _ (by rw [List.length_append]; omega)).2 h
  unfold matchesAt at this ⊢
  rw [List.drop_append, List.take_append_of_le_length (by simp; omega)] at this
  exact this

/-- C76: in a file `body startxref value %%EOF trailing` the keyword is found, if `value` does not contain it again,
is shorter than 504 bytes, and nothing behind the marker looks like one. -/
theorem C76_startxref_partial (body value trailing : Bytes) (hb : 1 ≤ body.length) (hv : 1 ≤ value.length)
    (hr : value.length < 504) (hno : ∀ i, Spec.At startXRef (startXRef ++ value) i → i = 0)
    (heof : ∀ i, Spec.At eofMarker (eofMarker ++ trailing) i → i = 0) :
    findStartXRef (body ++ (startXRef ++ (value ++ (eofMarker ++ trailing)))) = .ok body.length := by
  have l9 : startXRef.length = 9 := rfl
  have l5 : eofMarker.length = 5 := rfl
  obtain ⟨file, hfile⟩ : ∃ file, file = body ++ (startXRef ++ (value ++ (eofMarker ++ trailing))) := ⟨_, rfl⟩
  have hlen : file.length = body.length + 9 + value.length + 5 + trailing.length := by
    rw [hfile]; simp only [List.length_append, l9, l5]; omega
  rw [← hfile]
  have he : Spec.IsLastAt eofMarker file (body.length + 9 + value.length) := by
    have e : file = (body ++ (startXRef ++ value)) ++ (eofMarker ++ trailing) := by rw [hfile]; simp
    refine ⟨⟨body ++ (startXRef ++ value), trailing, e, by simp only [List.length_append, l9]; omega⟩, fun j hj => ?_⟩
    by_cases hjle : j ≤ body.length + 9 + value.length
    · exact hjle
    · rw [e] at hj
      have hl : (body ++ (startXRef ++ value)).length = body.length + 9 + value.length := by
        simp only [List.length_append, l9]; omega
      have := heof _ (at_append_right hj (by omega))
      omega
  unfold findStartXRef
  rw [C76_eof file _ he]
  dsimp only
  have hw := window_length file 512 (file.length - (body.length + 9 + value.length) + 1)
  obtain ⟨last, hlast⟩ : ∃ last, last = file.length - (body.length + 9 + value.length) + 1 := ⟨_, rfl⟩
  rw [← hlast] at hw ⊢
  have hcut : Spec.At startXRef (Spec.window file 512 last) (body.length - (file.length - last - 512)) := by
    rw [← matchesAt_iff _ _ _ (by omega)]
    have h1 : Spec.At startXRef file body.length := ⟨body, _, hfile, rfl⟩
    rw [← matchesAt_iff _ _ _ (by omega)] at h1
    unfold matchesAt at h1 ⊢
    rw [decide_eq_true_iff] at h1 ⊢
    unfold Spec.window
    rw [List.drop_take, List.take_take, List.drop_drop,
      show file.length - last - 512 + (body.length - (file.length - last - 512)) = body.length by omega,
      Nat.min_eq_left (by rw [l9]; omega)]
    exact h1
  have hlastAt : Spec.IsLastAt startXRef (Spec.window file 512 last) (body.length - (file.length - last - 512)) := by
    refine ⟨hcut, fun j hj => ?_⟩
    have hjle := at_le hj
    have h1 := window_at hj
    by_cases hge : body.length ≤ file.length - last - 512 + j
    · have e : file = (body ++ (startXRef ++ value)) ++ (eofMarker ++ trailing) := by rw [hfile]; simp
      rw [e] at h1
      have h2 := at_append_left (a := body ++ (startXRef ++ value)) h1
        (by rw [← e]; simp only [List.length_append, l9] at hjle ⊢; omega)
      have h3 := hno _ (at_append_right h2 (by rw [← e]; exact hge))
      rw [← e] at h3
      omega
    · omega
  have := C44_last_partial file startXRef 512 last _ (by omega) hlastAt (by omega)
  rw [this, show file.length - last - 512 + (body.length - (file.length - last - 512)) = body.length by omega]

theorem at_prefix_ne {tok buf : Bytes} (h : ∀ i, i < buf.length → 0 < i → matchesAt tok buf i = false) (hne : tok ≠ []) :
    ∀ i, Spec.At tok buf i → i = 0 := by
  intro i hi
  have hle := at_le hi
  have : 0 < tok.length := List.length_pos_iff.2 hne
  by_cases h0 : i = 0
  · exact h0
  · have := h i (by omega) (by omega)
    rw [(matchesAt_iff _ _ _ (by omega)).2 hi] at this
    cases this

/-- `X startxref\n9\n%%EOF\njunk`. -/
example : findStartXRef ([88, 10] ++ (startXRef ++ ([10, 57, 10] ++ (eofMarker ++ [10, 106, 117, 110, 107])))) = .ok [88, 10].length :=
  C76_startxref_partial [88, 10] [10, 57, 10] [10, 106, 117, 110, 107] (by simp) (by simp) (by simp)
    (at_prefix_ne (by decide) (by decide)) (at_prefix_ne (by decide) (by decide))

/-- The keyword at the very beginning of the searched part. -/
example : findTokenBackward (startXRef ++ [10]) startXRef 10 0 = raise .InternalLogic :=
  C44_first_false _ _ _ _ (by decide) ⟨⟨[], [10], rfl, rfl⟩, fun j hj => by
    have := at_prefix_ne (tok := startXRef) (buf := startXRef ++ [10]) (by decide) (by decide) j hj
    omega⟩

/-- No keyword at all. -/
example : findTokenBackward [1, 2, 3, 4, 5] [9] 2 0 = .ok 2 :=
  C44_missing_false _ _ _ _ (by decide) (by decide) (by decide) (fun i h => by
    have hle := at_le h
    have hw : Spec.window [1, 2, 3, 4, 5] 2 0 = [4, 5] := rfl
    rw [hw] at h hle
    have h2 := (matchesAt_iff _ _ _ (by omega)).2 h
    have : i = 0 ∨ i = 1 := by simp at hle; omega
    rcases this with rfl | rfl <;> simp [matchesAt] at h2)

end Pdfmm
