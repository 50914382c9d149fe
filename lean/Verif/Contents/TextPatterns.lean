import Verif.Contents.TextEntries

set_option autoImplicit false

/-! # Which entries match the pattern given to `PdfPage::ExtractTextTo` -/

namespace Pdfmm

/-- `isStringDelimter` with the misspelt name, `src/pdfmm/private/PdfDeclarationsPrivate.cpp:559-603`, and `utls::IsStringDelimiter`, `:514-517`. -/
def isDelimCp (c : Nat) : Bool :=
  isWhiteCp c || [33, 34, 35, 36, 37, 38, 39, 40, 41, 42, 43, 44, 45, 46, 47, 58, 59, 60, 61, 62, 63, 64, 91, 92, 93, 94, 95, 96, 123, 124, 125, 126].contains c

/-- `utls::ToLower`, `src/pdfmm/private/PdfDeclarationsPrivate.cpp:989-996`: `std::tolower` of each byte in the C locale, which only changes ASCII letters. -/
def lowerCp (c : Nat) : Nat := if 65 ≤ c ∧ c ≤ 90 then c + 32 else c
def lowerStr (ic : Bool) (s : Cps) : Cps := if ic then s.map lowerCp else s

/-- `std::string::find`: the bytes of a code point never occur inside another one, so positions are counted in code points here. -/
def findSub (p : Cps) : Cps → Option Nat
  | [] => if p = [] then some 0 else none
  | c :: s => if p.isPrefixOf (c :: s) then some 0 else (findSub p s).map (· + 1)

/-- `isMatchWholeWordSubstring`, `src/pdfmm/base/PdfPage_TextExtraction.cpp:1327-1365`. -/
def findWord (p s : Cps) : Option Nat :=
  match findSub p s with
  | none => none
  | some i =>
    if (s.take i).foldl (fun _ c => isDelimCp c) true = false then none
    else match s.drop (i + p.length) with
      | [] => some i
      | c :: _ => if isDelimCp c then some i else none

/-- The flags of `PdfTextExtractFlags` about the pattern; regular expressions are not modelled. -/
structure MatchFlags where
  ignoreCase : Bool
  wholeWord : Bool
  substring : Bool

/-- The match, `src/pdfmm/base/PdfPage_TextExtraction.cpp:561-640`: the text of the entry, or nothing when it does not match. -/
def matchEntry (f : MatchFlags) (p s : Cps) : Option Cps :=
  if p = [] then some s
  else if f.substring then
    match (if f.wholeWord then findWord (lowerStr f.ignoreCase p) (lowerStr f.ignoreCase s) else findSub (lowerStr f.ignoreCase p) (lowerStr f.ignoreCase s)) with
    | none => none
    | some i => if i ≠ 0 ∨ s.length ≠ p.length then some ((s.drop i).take p.length) else some s
  else if f.wholeWord then (if lowerStr f.ignoreCase s = lowerStr f.ignoreCase p then some s else none)
  else match findSub (lowerStr f.ignoreCase p) (lowerStr f.ignoreCase s) with
    | none => none
    | some _ => some s

/-! ## The specification -/

/-- Two texts are the same, up to the case of ASCII letters if asked. -/
def Spec.SameLetters (ic : Bool) (a b : Cps) : Prop :=
  if ic then a.length = b.length ∧ ∀ (i x y : Nat), a[i]? = some x → b[i]? = some y → lowerCp x = lowerCp y else a = b

/-- The text splits around a piece that is the pattern. -/
structure Spec.Occurs (ic : Bool) (p s pre m post : Cps) : Prop where
  split : s = pre ++ m ++ post
  same : Spec.SameLetters ic m p

/-- The piece is a whole word: nothing or a delimiter on each side. -/
def Spec.WholeWord (pre post : Cps) : Prop :=
  (∀ c, pre.getLast? = some c → isDelimCp c = true) ∧ ∀ c, post.head? = some c → isDelimCp c = true

theorem findSub_some {p : Cps} : ∀ {s : Cps} {i : Nat}, findSub p s = some i →
    (∃ b, s = s.take i ++ p ++ b ∧ i ≤ s.length) ∧ ∀ a b, s = a ++ p ++ b → i ≤ a.length := by
  intro s
  induction s with
  | nil =>
    intro i h
    rw [findSub] at h
    split at h
    · rename_i hp; cases h; subst hp; exact ⟨⟨[], rfl, Nat.le_refl _⟩, fun _ _ _ => Nat.zero_le _⟩
    · cases h
  | cons c s ih =>
    intro i h
    rw [findSub] at h
    split at h
    · rename_i hp
      cases h
      obtain ⟨b, hb⟩ := List.isPrefixOf_iff_prefix.1 hp
      exact ⟨⟨b, by rw [← hb]; simp, Nat.zero_le _⟩, fun _ _ _ => Nat.zero_le _⟩
    · rename_i hp
      cases hf : findSub p s with
      | none => rw [hf] at h; cases h
      | some j =>
        rw [hf] at h; cases h
        obtain ⟨⟨b, hb, hl⟩, hm⟩ := ih hf
        refine ⟨⟨b, ?_, by simpa using hl⟩, ?_⟩
        · rw [List.take_succ_cons, List.cons_append, List.cons_append, ← hb]
        · intro a b h
          cases a with
          | nil => exact absurd (List.isPrefixOf_iff_prefix.2 ⟨b, by simpa using h.symm⟩) hp
          | cons x a =>
            rw [List.cons_append, List.cons_append] at h
            injection h with _ h
            have := hm a b h
            simp only [List.length_cons]; omega

theorem findSub_none {p : Cps} : ∀ {s : Cps}, findSub p s = none → ∀ a b, s ≠ a ++ p ++ b := by
  intro s
  induction s with
  | nil =>
    intro h a b e
    rw [findSub] at h
    split at h
    · cases h
    · rename_i hp
      have := List.append_eq_nil_iff.1 e.symm
      exact hp (List.append_eq_nil_iff.1 this.1).2
  | cons c s ih =>
    intro h a b e
    rw [findSub] at h
    split at h
    · cases h
    · rename_i hp
      cases hf : findSub p s with
      | some j => rw [hf] at h; cases h
      | none =>
        cases a with
        | nil => exact hp (List.isPrefixOf_iff_prefix.2 ⟨b, by simpa using e.symm⟩)
        | cons x a =>
          rw [List.cons_append, List.cons_append] at e
          injection e with _ e
          exact ih hf a b e

theorem lowerStr_length (ic : Bool) (s : Cps) : (lowerStr ic s).length = s.length := by cases ic <;> simp [lowerStr]
theorem lowerStr_append (ic : Bool) (a b : Cps) : lowerStr ic (a ++ b) = lowerStr ic a ++ lowerStr ic b := by cases ic <;> simp [lowerStr]
theorem lowerStr_take (ic : Bool) (n : Nat) (s : Cps) : lowerStr ic (s.take n) = (lowerStr ic s).take n := by cases ic <;> simp [lowerStr]
theorem lowerStr_drop (ic : Bool) (n : Nat) (s : Cps) : lowerStr ic (s.drop n) = (lowerStr ic s).drop n := by cases ic <;> simp [lowerStr]
theorem lowerStr_nil (ic : Bool) (s : Cps) : lowerStr ic s = [] ↔ s = [] := by cases ic <;> simp [lowerStr]

theorem same_iff (ic : Bool) (a b : Cps) : Spec.SameLetters ic a b ↔ lowerStr ic a = lowerStr ic b := by
  cases ic with
  | false => simp [Spec.SameLetters, lowerStr]
  | true =>
    simp only [Spec.SameLetters, lowerStr, if_true]
    constructor
    · intro ⟨hl, h⟩
      apply List.ext_getElem?
      intro i
      rw [List.getElem?_map, List.getElem?_map]
      cases ha : a[i]? with
      | none =>
        have : b[i]? = none := by rw [List.getElem?_eq_none_iff] at ha ⊢; omega
        rw [this]
      | some x =>
        cases hb : b[i]? with
        | none => rw [List.getElem?_eq_none_iff] at hb; have := (List.getElem?_eq_some_iff.1 ha).1; omega
        | some y => simp [h i x y ha hb]
    · intro h
      refine ⟨by simpa using congrArg List.length h, fun i x y hx hy => ?_⟩
      have := congrArg (·[i]?) h
      simpa [hx, hy] using this

theorem isDelim_lower (c : Nat) : isDelimCp (lowerCp c) = isDelimCp c := by
  unfold lowerCp
  split
  · rename_i h
    obtain ⟨h1, h2⟩ := h
    have : ∀ d : Fin 26, isDelimCp (65 + d.val + 32) = isDelimCp (65 + d.val) := by decide
    have := this ⟨c - 65, by omega⟩
    rw [show 65 + (c - 65) = c by omega] at this
    exact this
  · rfl

/-- An occurrence of the lowered pattern in the lowered text is an occurrence. -/
theorem occurs_iff (ic : Bool) (p s a b : Cps) : lowerStr ic s = a ++ lowerStr ic p ++ b ↔
    ∃ pre m post, Spec.Occurs ic p s pre m post ∧ lowerStr ic pre = a ∧ lowerStr ic post = b := by
  constructor
  · intro h
    have hl : s.length = a.length + p.length + b.length := by
      have := congrArg List.length h
      simp only [lowerStr_length, List.length_append] at this
      exact this
    refine ⟨s.take a.length, (s.drop a.length).take p.length, s.drop (a.length + p.length), ⟨?_, ?_⟩, ?_, ?_⟩
    · rw [List.append_assoc, ← List.drop_drop, List.take_append_drop, List.take_append_drop]
    · rw [same_iff, lowerStr_take, lowerStr_drop, h, List.append_assoc, List.drop_left, List.take_left' (lowerStr_length ic p)]
    · rw [lowerStr_take, h, List.append_assoc, List.take_left]
    · rw [lowerStr_drop, h, ← List.drop_drop, List.append_assoc, List.drop_left, List.drop_left' (lowerStr_length ic p)]
  · rintro ⟨pre, m, post, ⟨rfl, hs⟩, rfl, rfl⟩
    rw [lowerStr_append, lowerStr_append, (same_iff ic m p).1 hs]

/-- Without `MatchWholeWord` and `ExtractSubstring`: the whole entry is given exactly when the pattern occurs in it. -/
theorem C159_contains (ic : Bool) (p s : Cps) (hp : p ≠ []) (t : Cps) :
    matchEntry ⟨ic, false, false⟩ p s = some t ↔ t = s ∧ ∃ pre m post, Spec.Occurs ic p s pre m post := by
  have e : matchEntry ⟨ic, false, false⟩ p s = match findSub (lowerStr ic p) (lowerStr ic s) with | none => none | some _ => some s := by
    simp [matchEntry, hp]
  rw [e]
  cases h : findSub (lowerStr ic p) (lowerStr ic s) with
  | none =>
    simp only [reduceCtorEq, false_iff]
    rintro ⟨_, pre, m, post, ho⟩
    exact findSub_none h _ _ ((occurs_iff ic p s _ _).2 ⟨pre, m, post, ho, rfl, rfl⟩)
  | some i =>
    obtain ⟨⟨b, hb, _⟩, _⟩ := findSub_some h
    obtain ⟨pre, m, post, ho, _⟩ := (occurs_iff ic p s _ _).1 hb
    simp only [Option.some.injEq]
    exact ⟨fun h => ⟨h.symm, pre, m, post, ho⟩, fun h => h.1.symm⟩

/-- With `MatchWholeWord` only: exactly when the entry is the pattern. -/
theorem C159_equal (ic : Bool) (p s : Cps) (hp : p ≠ []) (t : Cps) :
    matchEntry ⟨ic, true, false⟩ p s = some t ↔ t = s ∧ Spec.SameLetters ic s p := by
  rw [same_iff]
  simp only [matchEntry, if_neg hp, Bool.false_eq_true, if_false, if_true]
  split
  · rename_i h; simp [h, eq_comm]
  · rename_i h; simp [h]

theorem sub_text (ic : Bool) (p s : Cps) (i : Nat) (b : Cps) (hb : lowerStr ic s = (lowerStr ic s).take i ++ lowerStr ic p ++ b) (hi : i ≤ s.length) :
    Spec.Occurs ic p s (s.take i) ((s.drop i).take p.length) (s.drop (i + p.length)) ∧
      (if i ≠ 0 ∨ s.length ≠ p.length then some ((s.drop i).take p.length) else some s) = some ((s.drop i).take p.length) := by
  have hli : ((lowerStr ic s).take i).length = i := by rw [List.length_take, lowerStr_length]; omega
  constructor
  · refine ⟨?_, ?_⟩
    · rw [List.append_assoc, ← List.drop_drop, List.take_append_drop, List.take_append_drop]
    · rw [same_iff, lowerStr_take, lowerStr_drop, hb, List.append_assoc, List.drop_left' hli, List.take_left' (lowerStr_length ic p)]
  · split
    · rfl
    · rename_i h
      have h1 : i = 0 := by omega
      have h2 : s.length = p.length := by omega
      subst h1
      rw [List.drop_zero, ← h2, List.take_length]

/-- With `ExtractSubstring` only: exactly when the pattern occurs, and what is given is its leftmost occurrence as it is written in the text. -/
theorem C159_substring (ic : Bool) (p s : Cps) (hp : p ≠ []) :
    (∀ t, matchEntry ⟨ic, false, true⟩ p s = some t →
      ∃ pre post, Spec.Occurs ic p s pre t post ∧ ∀ pre' m' post', Spec.Occurs ic p s pre' m' post' → pre.length ≤ pre'.length) ∧
    (matchEntry ⟨ic, false, true⟩ p s = none → ¬ ∃ pre m post, Spec.Occurs ic p s pre m post) := by
  have e : matchEntry ⟨ic, false, true⟩ p s = match findSub (lowerStr ic p) (lowerStr ic s) with
      | none => none
      | some i => if i ≠ 0 ∨ s.length ≠ p.length then some ((s.drop i).take p.length) else some s := by simp [matchEntry, hp]
  rw [e]
  cases h : findSub (lowerStr ic p) (lowerStr ic s) with
  | none =>
    refine ⟨fun t ht => (nomatch ht), fun _ => ?_⟩
    rintro ⟨pre, m, post, ho⟩
    exact findSub_none h _ _ ((occurs_iff ic p s _ _).2 ⟨pre, m, post, ho, rfl, rfl⟩)
  | some i =>
    obtain ⟨⟨b, hb, hi⟩, hm⟩ := findSub_some h
    rw [lowerStr_length] at hi
    obtain ⟨ho, ht⟩ := sub_text ic p s i b hb hi
    simp only [ht]
    refine ⟨?_, fun h => (nomatch h)⟩
    intro t ht
    cases ht
    refine ⟨_, _, ho, fun pre' m' post' ho' => ?_⟩
    have := hm _ _ ((occurs_iff ic p s _ _).2 ⟨pre', m', post', ho', rfl, rfl⟩)
    rw [lowerStr_length] at this
    rw [List.length_take]; omega

theorem foldl_delim (s : Cps) : ∀ b : Bool, s.foldl (fun _ c => isDelimCp c) b = match s.getLast? with | none => b | some c => isDelimCp c := by
  induction s with
  | nil => intro b; rfl
  | cons x s ih =>
    intro b
    rw [List.foldl_cons, ih]
    cases s with
    | nil => rfl
    | cons y s => rw [List.getLast?_cons_cons]; cases h : (y :: s).getLast? with
      | none => simp at h
      | some z => rfl

theorem findWord_iff (ic : Bool) (p s : Cps) (i j : Nat) (h : findSub (lowerStr ic p) (lowerStr ic s) = some i) :
    findWord (lowerStr ic p) (lowerStr ic s) = some j ↔ j = i ∧ Spec.WholeWord (s.take i) (s.drop (i + p.length)) := by
  have h1 : ((lowerStr ic s).take i).foldl (fun _ c => isDelimCp c) true = false ↔ ¬ ∀ c, (s.take i).getLast? = some c → isDelimCp c = true := by
    rw [foldl_delim, ← lowerStr_take]
    have hl : (lowerStr ic (s.take i)).getLast? = (s.take i).getLast?.map (fun c => if ic then lowerCp c else c) := by
      cases ic with
      | false => simp [lowerStr]
      | true => simp only [lowerStr, if_true]; exact List.getLast?_map ..
    rw [hl]
    cases (s.take i).getLast? with
    | none => simp
    | some c => cases ic <;> simp [isDelim_lower]
  have h2 : (lowerStr ic s).drop (i + (lowerStr ic p).length) = lowerStr ic (s.drop (i + p.length)) := by rw [lowerStr_drop, lowerStr_length]
  rw [findWord, h]
  simp only
  by_cases hd : ∀ c, (s.take i).getLast? = some c → isDelimCp c = true
  · rw [if_neg (fun e => h1.1 e hd), h2]
    cases hs : s.drop (i + p.length) with
    | nil =>
      have : lowerStr ic ([] : Cps) = [] := by cases ic <;> rfl
      rw [this]
      simp only [Option.some.injEq]
      exact ⟨fun e => ⟨e.symm, hd, fun c hc => by cases hc⟩, fun e => e.1.symm⟩
    | cons c r =>
      have : lowerStr ic (c :: r) = (if ic then lowerCp c else c) :: lowerStr ic r := by cases ic <;> rfl
      rw [this]
      have hc' : isDelimCp (if ic then lowerCp c else c) = isDelimCp c := by cases ic <;> simp [isDelim_lower]
      simp only [hc']
      cases hc : isDelimCp c with
      | true =>
        simp only [if_true, Option.some.injEq]
        exact ⟨fun e => ⟨e.symm, hd, fun x hx => by cases hx; exact hc⟩, fun e => e.1.symm⟩
      | false =>
        simp only [Bool.false_eq_true, if_false, reduceCtorEq, false_iff]
        intro ⟨_, hw⟩
        have := hw.2 c rfl
        rw [hc] at this; cases this
  · rw [if_pos (h1.2 hd)]
    simp only [reduceCtorEq, false_iff]
    intro ⟨_, hw⟩
    exact hd hw.1

/-- With both: an entry is given exactly when the leftmost occurrence of the pattern is a whole word, and what is given is that occurrence. -/
theorem C159_word_partial (ic : Bool) (p s : Cps) (hp : p ≠ []) (t : Cps) :
    matchEntry ⟨ic, true, true⟩ p s = some t ↔
      ∃ pre post, Spec.Occurs ic p s pre t post ∧ Spec.WholeWord pre post ∧ ∀ pre' m' post', Spec.Occurs ic p s pre' m' post' → pre.length ≤ pre'.length := by
  have e : matchEntry ⟨ic, true, true⟩ p s = match findWord (lowerStr ic p) (lowerStr ic s) with
      | none => none
      | some i => if i ≠ 0 ∨ s.length ≠ p.length then some ((s.drop i).take p.length) else some s := by simp [matchEntry, hp]
  rw [e]
  cases h : findSub (lowerStr ic p) (lowerStr ic s) with
  | none =>
    have hw : findWord (lowerStr ic p) (lowerStr ic s) = none := by rw [findWord, h]
    rw [hw]
    simp only [reduceCtorEq, false_iff]
    rintro ⟨pre, post, ho, _⟩
    exact findSub_none h _ _ ((occurs_iff ic p s _ _).2 ⟨pre, t, post, ho, rfl, rfl⟩)
  | some i =>
    obtain ⟨⟨b, hb, hi⟩, hm⟩ := findSub_some h
    rw [lowerStr_length] at hi
    obtain ⟨ho, ht⟩ := sub_text ic p s i b hb hi
    have hmin : ∀ pre' m' post', Spec.Occurs ic p s pre' m' post' → (s.take i).length ≤ pre'.length := by
      intro pre' m' post' ho'
      have := hm _ _ ((occurs_iff ic p s _ _).2 ⟨pre', m', post', ho', rfl, rfl⟩)
      rw [lowerStr_length] at this
      rw [List.length_take]; omega
    -- the leftmost occurrence is unique
    have huniq : ∀ pre m post, Spec.Occurs ic p s pre m post → (∀ pre' m' post', Spec.Occurs ic p s pre' m' post' → pre.length ≤ pre'.length) →
        pre = s.take i ∧ m = (s.drop i).take p.length ∧ post = s.drop (i + p.length) := by
      intro pre m post ho1 hmin1
      have hl : pre.length = i := by
        have h1 := hmin _ _ _ ho1
        have h2 := hmin1 _ _ _ ho
        rw [List.length_take] at h1 h2
        omega
      have hml : m.length = p.length := by
        have := congrArg List.length ((same_iff ic m p).1 ho1.same)
        simpa [lowerStr_length] using this
      rw [ho1.split, ← hl, ← hml]
      refine ⟨by rw [List.append_assoc, List.take_left], by rw [List.append_assoc, List.drop_left, List.take_left], ?_⟩
      rw [← List.drop_drop, List.append_assoc, List.drop_left, List.drop_left]
    by_cases hw : Spec.WholeWord (s.take i) (s.drop (i + p.length))
    · rw [(findWord_iff ic p s i i h).2 ⟨rfl, hw⟩]
      simp only [ht, Option.some.injEq]
      constructor
      · rintro rfl; exact ⟨_, _, ho, hw, hmin⟩
      · rintro ⟨pre, post, ho1, _, hmin1⟩; exact (huniq _ _ _ ho1 hmin1).2.1.symm
    · have hn : findWord (lowerStr ic p) (lowerStr ic s) = none := by
        cases hf : findWord (lowerStr ic p) (lowerStr ic s) with
        | none => rfl
        | some j => exact absurd ((findWord_iff ic p s i j h).1 hf).2 hw
      rw [hn]
      simp only [reduceCtorEq, false_iff]
      rintro ⟨pre, post, ho1, hw1, hmin1⟩
      obtain ⟨h1, _, h3⟩ := huniq _ _ _ ho1 hmin1
      rw [h1, h3] at hw1
      exact hw hw1

/-- A whole word is missed when the pattern also occurs earlier inside a longer word: for every pattern and every character that is no delimiter. -/
theorem C159_word_false (ic : Bool) (p : Cps) (hp : p ≠ []) (x : Nat) (hx : isDelimCp x = false) :
    matchEntry ⟨ic, true, true⟩ p (p ++ [x, 32] ++ p) = none ∧ Spec.Occurs ic p (p ++ [x, 32] ++ p) (p ++ [x, 32]) p [] ∧ Spec.WholeWord (p ++ [x, 32]) [] := by
  have h0 : Spec.Occurs ic p (p ++ [x, 32] ++ p) [] p ([x, 32] ++ p) := ⟨by simp, (same_iff ic p p).2 rfl⟩
  refine ⟨?_, ⟨by simp, (same_iff ic p p).2 rfl⟩, ?_, fun c hc => by cases hc⟩
  · cases h : matchEntry ⟨ic, true, true⟩ p (p ++ [x, 32] ++ p) with
    | none => rfl
    | some t =>
      obtain ⟨pre, post, ho, hw, hmin⟩ := (C159_word_partial ic p _ hp t).1 h
      have hpre : pre = [] := List.length_eq_zero_iff.1 (Nat.le_zero.1 (hmin _ _ _ h0))
      have htl : t.length = p.length := by
        have := congrArg List.length ((same_iff ic t p).1 ho.same)
        simpa [lowerStr_length] using this
      have hs := ho.split
      rw [hpre, List.nil_append, List.append_assoc] at hs
      have hpost : post = [x, 32] ++ p := (List.append_inj hs htl.symm).2.symm
      have := hw.2 x (by rw [hpost]; rfl)
      rw [hx] at this; cases this
  · intro c hc
    rw [List.getLast?_append] at hc
    have : c = 32 := by cases hc; rfl
    rw [this]; decide

/-- Without a pattern every entry is given as it is. -/
theorem C159_no_pattern (f : MatchFlags) (s : Cps) : matchEntry f [] s = some s := rfl

example : matchEntry ⟨true, false, true⟩ [99, 65] [65, 98, 67, 97, 32] = some [67, 97] := by decide
example : matchEntry ⟨false, true, true⟩ [99, 97, 116] [97, 32, 99, 97, 116, 46] = some [99, 97, 116] := by decide
example : matchEntry ⟨false, true, true⟩ [99, 97, 116] [99, 97, 116, 115, 32, 99, 97, 116] = none := by decide
example : matchEntry ⟨true, true, false⟩ [99, 97, 116] [67, 65, 84] = some [67, 65, 84] := by decide
example : matchEntry ⟨false, false, false⟩ [99, 97] [97, 99, 97, 98] = some [97, 99, 97, 98] := by decide

end Pdfmm
