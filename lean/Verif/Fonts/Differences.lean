import Verif.Fonts.GlyphNames
import Verif.Fonts.PredefTables
import Verif.Base.SMap
set_option autoImplicit false
/-
C138, C139, C141: predefined encodings and encodings with differences.
-/
namespace Pdfmm

/-! ### The model: predefined encodings -/

/-- The table that `InitEncodingTable` makes, `src/pdfmm/base/PdfEncodingMap.cpp:531-543`: the last code of a code point. -/
def topCode (decode : Nat → Option Nat) (cp : Nat) : Nat → Nat → Option Nat → Option Nat
  | 0, _, acc => acc
  | n + 1, c, acc => topCode decode cp n (c + 1) (if decode c = some cp then some c else acc)

/-- `PdfBuiltInEncoding::tryGetCodePoints`, `src/pdfmm/base/PdfEncodingMap.cpp:559-567`. -/
def builtinDecode (tab : List Nat) (code : Nat) : Option Nat := if 256 ≤ code then none else tab[code]?

/-- `PdfBuiltInEncoding::tryGetCharCode`, `src/pdfmm/base/PdfEncodingMap.cpp:545-557`. -/
def builtinEncode (tab : List Nat) (cp : Nat) : Option Nat := topCode (builtinDecode tab) cp 256 0 none

/-! ### The model: lists of differences -/

/-- `PdfDifferenceList`, `src/pdfmm/base/PdfDifferenceEncoding.h`: codes with code points and names, in the order of the codes. -/
abbrev Diffs := List (Nat × (Nat × Bytes))

/-- `addDifference`, `src/pdfmm/base/PdfDifferenceEncoding.cpp:2408-2427`: the difference with the code is replaced, or one is put at its place. -/
def Diffs.add (l : Diffs) (code cp : Nat) (name : Bytes) : Diffs := SMap.insert code (cp, name) l

/-- `contains`, `src/pdfmm/base/PdfDifferenceEncoding.cpp:2440-2457`. -/
def Diffs.get (l : Diffs) (code : Nat) : Option (Nat × Bytes) := SMap.find? code l

/-- `AddDifference` with a name, `src/pdfmm/base/PdfDifferenceEncoding.cpp:2393-2406`. -/
def Diffs.addName (explicit : Bool) (l : Diffs) (code : Nat) (name : Bytes) : Res Diffs :=
  if explicit then .ok (l.add code code name)
  else
    match nameToCode name with
    | .error e => .error e
    | .ok cp => .ok (l.add code cp name)

/-- An element of a `/Differences` array. -/
inductive DiffObj
  | num (n : Int)
  | name (b : Bytes)
  | other
  deriving DecidableEq

/-- `ToArray`, `src/pdfmm/base/PdfDifferenceEncoding.cpp:2459-2478`. -/
def diffArray : Diffs → Int → List DiffObj
  | [], _ => []
  | (c, (_, n)) :: r, last => if (c : Int) ≠ last + 1 then .num c :: .name n :: diffArray r c else .name n :: diffArray r (last + 1)

def Diffs.toArray (l : Diffs) : List DiffObj := diffArray l (-2)

/-- The loop over `/Differences` in `Create`, `src/pdfmm/base/PdfDifferenceEncoding.cpp:2528-2545`: the code is taken modulo 256, and counting on past the
greatest number is undefined. -/
def diffRead (explicit : Bool) : List DiffObj → Int → Diffs → Res Diffs
  | [], _, l => .ok l
  | .num n :: r, _, l => diffRead explicit r n l
  | .name b :: r, cur, l =>
    match Diffs.addName explicit l (cur % 256).toNat b with
    | .error e => .error e
    | .ok l => if cur = 9223372036854775807 then .error .ub else diffRead explicit r (cur + 1) l
  | .other :: r, cur, l => diffRead explicit r cur l

def readDiffs (explicit : Bool) (arr : List DiffObj) : Res Diffs := diffRead explicit arr (-1) []

/-! ### The model: encodings with differences -/

/-- `PdfDifferenceEncoding::tryGetCodePoints`, `src/pdfmm/base/PdfDifferenceEncoding.cpp:2592-2608`, for a base encoding that maps codes to code points. -/
def diffDecode (l : Diffs) (base : Nat → Option Nat) (code : Nat) : Option Nat :=
  if 256 ≤ code then none
  else
    match l.get code with
    | some d => some d.1
    | none => base code

/-- `PdfDifferenceEncoding::tryGetCharCode` and `buildReverseMap`, `src/pdfmm/base/PdfDifferenceEncoding.cpp:2578-2590` and `2610-2643`, for a base encoding with
codes from `first` to `last`, at most 255. -/
def diffEncode (l : Diffs) (base : Nat → Option Nat) (first last cp : Nat) : Option Nat := topCode (diffDecode l base) cp (last + 1 - first) first none

/-! ### Codes -/

namespace Spec

/-- `c` is the greatest code from `first` up to `last` that stands for the code point. -/
def GreatestCode (decode : Nat → Option Nat) (first last cp c : Nat) : Prop :=
  first ≤ c ∧ c ≤ last ∧ decode c = some cp ∧ ∀ d, c < d → d ≤ last → decode d ≠ some cp

end Spec

theorem topCode_spec (decode : Nat → Option Nat) (cp n : Nat) : ∀ c acc r, topCode decode cp n c acc = r →
    (r = acc ∧ ∀ d, c ≤ d → d < c + n → decode d ≠ some cp) ∨
      ∃ k, r = some k ∧ c ≤ k ∧ k < c + n ∧ decode k = some cp ∧ ∀ d, k < d → d < c + n → decode d ≠ some cp := by
  induction n with
  | zero =>
    intro c acc r h
    exact Or.inl ⟨h.symm, fun d h1 h2 => by omega⟩
  | succ n ih =>
    intro c acc r h
    rw [topCode] at h
    rcases ih _ _ _ h with ⟨e, hno⟩ | ⟨k, e, k1, k2, k3, k4⟩
    · by_cases hc : decode c = some cp
      · rw [if_pos hc] at e
        exact Or.inr ⟨c, e, Nat.le_refl _, by omega, hc, fun d d1 d2 => hno d (by omega) (by omega)⟩
      · rw [if_neg hc] at e
        refine Or.inl ⟨e, fun d d1 d2 => ?_⟩
        by_cases hd : d = c
        · rw [hd]
          exact hc
        · exact hno d (by omega) (by omega)
    · exact Or.inr ⟨k, e, by omega, by omega, k3, fun d d1 d2 => k4 d d1 (by omega)⟩

/-- The code is the greatest one that stands for the code point; there is none when no code does. -/
theorem topCode_iff (decode : Nat → Option Nat) (cp first last c : Nat) (h : first ≤ last) :
    topCode decode cp (last + 1 - first) first none = some c ↔ Spec.GreatestCode decode first last cp c := by
  constructor
  · intro hl
    rcases topCode_spec decode cp _ _ _ _ hl with ⟨e, _⟩ | ⟨k, e, k1, k2, k3, k4⟩
    · cases e
    · cases e
      exact ⟨k1, by omega, k3, fun d d1 d2 => k4 d d1 (by omega)⟩
  · intro ⟨h1, h2, h3, h4⟩
    rcases topCode_spec decode cp (last + 1 - first) first none _ rfl with ⟨e, hno⟩ | ⟨k, e, k1, k2, k3, k4⟩
    · exact absurd h3 (hno c h1 (by omega))
    · rw [e]
      congr 1
      rcases Nat.lt_trichotomy k c with hlt | heq | hgt
      · exact absurd h3 (k4 c hlt (by omega))
      · exact heq
      · exact absurd k3 (h4 k hgt (by omega))

theorem topCode_none (decode : Nat → Option Nat) (cp first last : Nat) (h : first ≤ last) :
    topCode decode cp (last + 1 - first) first none = none ↔ ∀ c, first ≤ c → c ≤ last → decode c ≠ some cp := by
  constructor
  · intro hl c c1 c2
    rcases topCode_spec decode cp _ _ _ _ hl with ⟨_, hno⟩ | ⟨k, e, _⟩
    · exact hno c c1 (by omega)
    · cases e
  · intro hno
    rcases topCode_spec decode cp (last + 1 - first) first none _ rfl with ⟨e, _⟩ | ⟨k, e, k1, k2, k3, _⟩
    · exact e
    · exact absurd k3 (hno k k1 (by omega))

/-! ### C138 -/

/-- The six predefined encodings. -/
def predefined : List (List Nat) := [tabWinAnsi, tabMacRoman, tabMacExpert, tabStandard, tabSymbol, tabZapfDingbats]

/-- Text that is converted into a predefined encoding is what the text converted back is: a code that is found for a code point stands for it, and
one is found whenever some code stands for it. -/
theorem C138_encode_decode (tab : List Nat) (cp : Nat) :
    (∀ c, builtinEncode tab cp = some c → c < 256 ∧ builtinDecode tab c = some cp) ∧
      (builtinEncode tab cp = none → ∀ c, builtinDecode tab c ≠ some cp) := by
  constructor
  · intro c hc
    obtain ⟨_, h2, h3, _⟩ := (topCode_iff (builtinDecode tab) cp 0 255 c (by decide)).1 hc
    exact ⟨by omega, h3⟩
  · intro hn c hc
    by_cases h : 256 ≤ c
    · rw [builtinDecode, if_pos h] at hc
      cases hc
    · exact (topCode_none (builtinDecode tab) cp 0 255 (by decide)).1 hn c (Nat.zero_le _) (by omega) hc

/-- No number but 0 is in the list twice, except for the one at the place `skip`. -/
def uniqB (skip : Nat) : List Nat → Nat → Bool
  | [], _ => true
  | x :: r, i =>
    match Nat.beq x 0 || Nat.beq i skip || !(fastMem x r) with
    | true => uniqB skip r (i + 1)
    | false => false

theorem fastMem_of_mem {k : Nat} {l : List Nat} (h : k ∈ l) : fastMem k l = true := by
  induction l with
  | nil => cases h
  | cons c r ih =>
    rw [fastMem]
    by_cases e : c = k
    · rw [e, Nat.beq_refl]
    · rw [beq_false e]
      exact ih ((List.mem_cons.1 h).resolve_left (fun h => e h.symm))

theorem uniqB_spec (skip : Nat) (l : List Nat) : ∀ i, uniqB skip l i = true → ∀ a b x, l[a]? = some x → x ≠ 0 → i + a ≠ skip → a < b → l[b]? ≠ some x := by
  induction l with
  | nil =>
    intro i _ a b x h
    cases h
  | cons y r ih =>
    intro i h a b x ha hx hs hab hb
    rw [uniqB] at h
    cases hc : Nat.beq y 0 || Nat.beq i skip || !(fastMem y r) with
    | false =>
      rw [hc] at h
      cases h
    | true =>
      rw [hc] at h
      obtain ⟨b, rfl⟩ : ∃ b', b = b' + 1 := ⟨b - 1, by omega⟩
      rw [List.getElem?_cons_succ] at hb
      cases a with
      | zero =>
        cases ha
        rw [beq_false hx, beq_false (by omega), fastMem_of_mem (List.mem_of_getElem? hb)] at hc
        cases hc
      | succ a =>
        rw [List.getElem?_cons_succ] at ha
        exact ih (i + 1) h a b x ha hx (by omega) (by omega) hb

theorem uniq_tables : uniqB 999 tabWinAnsi 0 = true ∧ uniqB 999 tabMacRoman 0 = true ∧ uniqB 999 tabMacExpert 0 = true ∧ uniqB 96 tabStandard 0 = true ∧
    uniqB 999 tabSymbol 0 = true ∧ uniqB 999 tabZapfDingbats 0 = true := by
  refine ⟨?_, ?_, ?_, ?_, ?_, ?_⟩ <;> decide +kernel

/-- In each predefined encoding, a code that stands for a character, which is a code point other than 0, is found again from it, with the exception of the code
96 of the standard encoding. -/
theorem C138_decode_encode_partial (tab : List Nat) (h : tab ∈ predefined) (c cp : Nat) (hcp : cp ≠ 0) (hd : builtinDecode tab c = some cp)
    (hx : ¬ (tab = tabStandard ∧ c = 96)) : builtinEncode tab cp = some c := by
  have hc : c < 256 := by
    rw [builtinDecode] at hd
    by_cases h : 256 ≤ c
    · rw [if_pos h] at hd
      cases hd
    · omega
  have hd' : tab[c]? = some cp := by
    rw [builtinDecode, if_neg (by omega)] at hd
    exact hd
  have key : ∀ d, c < d → tab[d]? ≠ some cp := by
    obtain ⟨u1, u2, u3, u4, u5, u6⟩ := uniq_tables
    intro d hcd
    simp only [predefined, List.mem_cons, List.not_mem_nil, or_false] at h
    rcases h with rfl | rfl | rfl | rfl | rfl | rfl
    · exact uniqB_spec 999 _ 0 u1 c d cp hd' hcp (by omega) hcd
    · exact uniqB_spec 999 _ 0 u2 c d cp hd' hcp (by omega) hcd
    · exact uniqB_spec 999 _ 0 u3 c d cp hd' hcp (by omega) hcd
    · exact uniqB_spec 96 _ 0 u4 c d cp hd' hcp (by rw [Nat.zero_add]; exact fun e => hx ⟨rfl, e⟩) hcd
    · exact uniqB_spec 999 _ 0 u5 c d cp hd' hcp (by omega) hcd
    · exact uniqB_spec 999 _ 0 u6 c d cp hd' hcp (by omega) hcd
  refine (topCode_iff (builtinDecode tab) cp 0 255 c (by decide)).2 ⟨Nat.zero_le _, by omega, hd, fun d d1 d2 he => ?_⟩
  rw [builtinDecode, if_neg (by omega)] at he
  exact key d d1 he

example : builtinDecode tabWinAnsi 0x80 = some 0x20ac ∧ builtinEncode tabWinAnsi 0x20ac = some 0x80 :=
  ⟨by decide +kernel, C138_decode_encode_partial tabWinAnsi List.mem_cons_self 0x80 0x20ac (by decide) (by decide +kernel) (fun h => by cases h.2)⟩

namespace Spec

/-- `WinAnsiEncoding` of the PDF reference from the code 32 on: the code page 1252. -/
def winAnsi : List (Nat × Nat) :=
  (List.range 95).map (fun i => (32 + i, 32 + i)) ++
  [(0x80, 0x20ac), (0x82, 0x201a), (0x83, 0x0192), (0x84, 0x201e), (0x85, 0x2026), (0x86, 0x2020), (0x87, 0x2021), (0x88, 0x02c6), (0x89, 0x2030),
    (0x8a, 0x0160), (0x8b, 0x2039), (0x8c, 0x0152), (0x8e, 0x017d), (0x91, 0x2018), (0x92, 0x2019), (0x93, 0x201c), (0x94, 0x201d), (0x95, 0x2022),
    (0x96, 0x2013), (0x97, 0x2014), (0x98, 0x02dc), (0x99, 0x2122), (0x9a, 0x0161), (0x9b, 0x203a), (0x9c, 0x0153), (0x9e, 0x017e), (0x9f, 0x0178)] ++
  (List.range 96).map (fun i => (160 + i, 160 + i))

/-- `MacRomanEncoding` of the PDF reference from the code 32 on, without the second space. -/
def macRoman : List (Nat × Nat) :=
  (List.range 95).map (fun i => (32 + i, 32 + i)) ++
  [(0x80, 0x00c4), (0x81, 0x00c5), (0x82, 0x00c7), (0x83, 0x00c9), (0x84, 0x00d1), (0x85, 0x00d6), (0x86, 0x00dc), (0x87, 0x00e1), (0x88, 0x00e0),
    (0x89, 0x00e2), (0x8a, 0x00e4), (0x8b, 0x00e3), (0x8c, 0x00e5), (0x8d, 0x00e7), (0x8e, 0x00e9), (0x8f, 0x00e8), (0x90, 0x00ea), (0x91, 0x00eb),
    (0x92, 0x00ed), (0x93, 0x00ec), (0x94, 0x00ee), (0x95, 0x00ef), (0x96, 0x00f1), (0x97, 0x00f3), (0x98, 0x00f2), (0x99, 0x00f4), (0x9a, 0x00f6),
    (0x9b, 0x00f5), (0x9c, 0x00fa), (0x9d, 0x00f9), (0x9e, 0x00fb), (0x9f, 0x00fc), (0xa0, 0x2020), (0xa1, 0x00b0), (0xa2, 0x00a2), (0xa3, 0x00a3),
    (0xa4, 0x00a7), (0xa5, 0x2022), (0xa6, 0x00b6), (0xa7, 0x00df), (0xa8, 0x00ae), (0xa9, 0x00a9), (0xaa, 0x2122), (0xab, 0x00b4), (0xac, 0x00a8),
    (0xae, 0x00c6), (0xaf, 0x00d8), (0xb1, 0x00b1), (0xb4, 0x00a5), (0xb5, 0x00b5), (0xbb, 0x00aa), (0xbc, 0x00ba), (0xbe, 0x00e6), (0xbf, 0x00f8),
    (0xc0, 0x00bf), (0xc1, 0x00a1), (0xc2, 0x00ac), (0xc4, 0x0192), (0xc7, 0x00ab), (0xc8, 0x00bb), (0xc9, 0x2026), (0xcb, 0x00c0), (0xcc, 0x00c3),
    (0xcd, 0x00d5), (0xce, 0x0152), (0xcf, 0x0153), (0xd0, 0x2013), (0xd1, 0x2014), (0xd2, 0x201c), (0xd3, 0x201d), (0xd4, 0x2018), (0xd5, 0x2019),
    (0xd6, 0x00f7), (0xd8, 0x00ff), (0xd9, 0x0178), (0xda, 0x2044), (0xdb, 0x00a4), (0xdc, 0x2039), (0xdd, 0x203a), (0xde, 0xfb01), (0xdf, 0xfb02),
    (0xe0, 0x2021), (0xe1, 0x00b7), (0xe2, 0x201a), (0xe3, 0x201e), (0xe4, 0x2030), (0xe5, 0x00c2), (0xe6, 0x00ca), (0xe7, 0x00c1), (0xe8, 0x00cb),
    (0xe9, 0x00c8), (0xea, 0x00cd), (0xeb, 0x00ce), (0xec, 0x00cf), (0xed, 0x00cc), (0xee, 0x00d3), (0xef, 0x00d4), (0xf1, 0x00d2), (0xf2, 0x00da),
    (0xf3, 0x00db), (0xf4, 0x00d9), (0xf5, 0x0131), (0xf6, 0x02c6), (0xf7, 0x02dc), (0xf8, 0x00af), (0xf9, 0x02d8), (0xfa, 0x02d9), (0xfb, 0x02da),
    (0xfc, 0x00b8), (0xfd, 0x02dd), (0xfe, 0x02db), (0xff, 0x02c7)]

/-- `StandardEncoding` of the PDF reference. -/
def standard : List (Nat × Nat) :=
  ((List.range 95).filter (fun i => i ≠ 7 ∧ i ≠ 64)).map (fun i => (32 + i, 32 + i)) ++
  [(0x27, 0x2019), (0x60, 0x2018), (0xa1, 0x00a1), (0xa2, 0x00a2), (0xa3, 0x00a3), (0xa4, 0x2044), (0xa5, 0x00a5), (0xa6, 0x0192), (0xa7, 0x00a7), (0xa8, 0x00a4),
    (0xa9, 0x0027), (0xaa, 0x201c), (0xab, 0x00ab), (0xac, 0x2039), (0xad, 0x203a), (0xae, 0xfb01), (0xaf, 0xfb02), (0xb1, 0x2013), (0xb2, 0x2020),
    (0xb3, 0x2021), (0xb4, 0x00b7), (0xb6, 0x00b6), (0xb7, 0x2022), (0xb8, 0x201a), (0xb9, 0x201e), (0xba, 0x201d), (0xbb, 0x00bb), (0xbc, 0x2026),
    (0xbd, 0x2030), (0xbf, 0x00bf), (0xc1, 0x0060), (0xc2, 0x00b4), (0xc3, 0x02c6), (0xc4, 0x02dc), (0xc5, 0x00af), (0xc6, 0x02d8), (0xc7, 0x02d9),
    (0xc8, 0x00a8), (0xca, 0x02da), (0xcb, 0x00b8), (0xcd, 0x02dd), (0xce, 0x02db), (0xcf, 0x02c7), (0xd0, 0x2014), (0xe1, 0x00c6), (0xe3, 0x00aa),
    (0xe8, 0x0141), (0xe9, 0x00d8), (0xea, 0x0152), (0xeb, 0x00ba), (0xf1, 0x00e6), (0xf5, 0x0131), (0xf8, 0x0142), (0xf9, 0x00f8), (0xfa, 0x0153),
    (0xfb, 0x00df)]

end Spec

/-- The tables are those of the PDF reference, except for the code 219 of the Mac encoding and the code 96 of the standard encoding. -/
theorem C138_standard_partial (code cp : Nat) :
    ((code, cp) ∈ Spec.winAnsi → builtinDecode tabWinAnsi code = some cp) ∧
      ((code, cp) ∈ Spec.macRoman → code ≠ 219 → builtinDecode tabMacRoman code = some cp) ∧
      ((code, cp) ∈ Spec.standard → code ≠ 96 → builtinDecode tabStandard code = some cp) := by
  have h1 : Spec.winAnsi.all (fun e => decide (builtinDecode tabWinAnsi e.1 = some e.2)) = true := by decide +kernel
  have h2 : Spec.macRoman.all (fun e => decide (e.1 = 219) || decide (builtinDecode tabMacRoman e.1 = some e.2)) = true := by decide +kernel
  have h3 : Spec.standard.all (fun e => decide (e.1 = 96) || decide (builtinDecode tabStandard e.1 = some e.2)) = true := by decide +kernel
  refine ⟨fun h => ?_, fun h hx => ?_, fun h hx => ?_⟩
  · simpa using List.all_eq_true.1 h1 _ h
  · have := List.all_eq_true.1 h2 _ h
    simpa [hx] using this
  · have := List.all_eq_true.1 h3 _ h
    simpa [hx] using this

/-- The code 219 of the Mac encoding is the currency sign in PDF, and the code 96 of the standard encoding the left quotation mark.  Neither character can be
converted at all. -/
theorem C138_standard_false : (0xdb, 0xa4) ∈ Spec.macRoman ∧ builtinDecode tabMacRoman 0xdb = some 0x20ac ∧ builtinEncode tabMacRoman 0xa4 = none ∧
    (0x60, 0x2018) ∈ Spec.standard ∧ builtinDecode tabStandard 0x60 = some 0x60 ∧ builtinEncode tabStandard 0x2018 = none := by
  refine ⟨?_, ?_, ?_, ?_, ?_, ?_⟩ <;> decide +kernel

/-- Codes that stand for nothing are read as the code point 0, and that code point is written as one of them. -/
theorem C138_undefined_false : builtinDecode tabWinAnsi 0x81 = some 0 ∧ builtinEncode tabWinAnsi 0 = some 0x9d ∧ builtinEncode tabStandard 0 = some 0xff := by
  refine ⟨?_, ?_, ?_⟩ <;> decide +kernel

/-! ### C139 -/

namespace Spec

/-- What was added last for a code. -/
def lastDiff (hist : List (Nat × Nat × Bytes)) (code : Nat) : Option (Nat × Bytes) := (hist.reverse.find? (fun h => h.1 == code)).map (·.2)

end Spec

/-- All differences of a history. -/
def diffsOf (hist : List (Nat × Nat × Bytes)) : Diffs := hist.foldl (fun (l : Diffs) h => l.add h.1 h.2.1 h.2.2) []

theorem diffsOf_get (hist : List (Nat × Nat × Bytes)) (l : Diffs) (code : Nat) :
    Diffs.get (hist.foldl (fun (l : Diffs) h => l.add h.1 h.2.1 h.2.2) l) code = (Spec.lastDiff hist code).or (l.get code) := by
  induction hist generalizing l with
  | nil => simp [Spec.lastDiff]
  | cons h r ih =>
    rw [List.foldl_cons, ih]
    simp only [Spec.lastDiff, List.reverse_cons, List.find?_append]
    cases hf : r.reverse.find? (fun h => h.1 == code) with
    | some x => simp
    | none =>
      rw [Diffs.add, Diffs.get, SMap.find_insert]
      by_cases e : h.1 = code
      · simp [e]
      · have : ¬ code = h.1 := fun h => e h.symm
        simp [e, this, Diffs.get]

/-- After any history, a code has the difference that was added for it last. -/
theorem C139_last_wins (hist : List (Nat × Nat × Bytes)) (code : Nat) : (diffsOf hist).get code = Spec.lastDiff hist code := by
  rw [diffsOf, diffsOf_get]
  simp [Diffs.get, SMap.find?]

example : (diffsOf [(65, 1, [1]), (66, 2, [2]), (65, 3, [3])]).get 65 = some (3, [3]) := by decide

/-- A list that reading makes: codes of one byte in ascending order, each with the code point of its name. -/
def Diffs.Ok (explicit : Bool) (l : Diffs) : Prop :=
  SMap.Sorted l ∧ ∀ x ∈ l, x.1 < 256 ∧ if explicit then x.2.1 = x.1 else nameToCode x.2.2 = .ok x.2.1

theorem addName_ok {explicit : Bool} {l : Diffs} {c cp : Nat} {n : Bytes} (h : if explicit then cp = c else nameToCode n = .ok cp) :
    Diffs.addName explicit l c n = .ok (l.add c cp n) := by
  rw [Diffs.addName]
  cases explicit with
  | true =>
    rw [if_pos rfl] at h ⊢
    rw [h]
  | false =>
    rw [if_neg (by decide)] at h ⊢
    rw [h]

theorem diffRead_array (explicit : Bool) (l : Diffs) (hok : ∀ x ∈ l, x.1 < 256 ∧ if explicit then x.2.1 = x.1 else nameToCode x.2.2 = .ok x.2.1) :
    ∀ (last cur : Int) (acc : Diffs), (cur = last + 1 ∨ ∀ x ∈ l.head?, (x.1 : Int) ≠ last + 1) →
      diffRead explicit (diffArray l last) cur acc = .ok (l.foldl (fun (a : Diffs) x => a.add x.1 x.2.1 x.2.2) acc) := by
  induction l with
  | nil =>
    intro last cur acc _
    rfl
  | cons x r ih =>
    intro last cur acc hcur
    obtain ⟨c, cp, n⟩ := x
    obtain ⟨hc, hn⟩ := hok (c, cp, n) List.mem_cons_self
    dsimp only at hc hn
    have ih' := ih (fun x hx => hok x (List.mem_cons_of_mem _ hx))
    rw [diffArray]
    by_cases h : (c : Int) ≠ last + 1
    · rw [if_pos h, diffRead, diffRead, show ((c : Int) % 256).toNat = c from by omega, addName_ok hn]
      dsimp only
      rw [if_neg (by omega), ih' c (c + 1) _ (Or.inl rfl)]
      rfl
    · rw [if_neg h, diffRead]
      have e : cur = c := by
        rcases hcur with e | e
        · omega
        · exact absurd (e (c, cp, n) rfl) (by omega)
      rw [e, show ((c : Int) % 256).toNat = c from by omega, addName_ok hn]
      dsimp only
      rw [if_neg (by omega), ih' (last + 1) (c + 1) _ (Or.inl (by omega))]
      rfl

theorem foldl_add_find (l : Diffs) : ∀ (acc : Diffs) (k : Nat), SMap.Sorted l →
    SMap.find? k (l.foldl (fun (a : Diffs) x => a.add x.1 x.2.1 x.2.2) acc) = (SMap.find? k l).or (SMap.find? k acc) := by
  induction l with
  | nil =>
    intro acc k _
    simp [SMap.find?]
  | cons x r ih =>
    intro acc k hs
    obtain ⟨c, cp, n⟩ := x
    rw [List.foldl_cons, ih _ _ hs.2, SMap.find?, Diffs.add, SMap.find_insert]
    dsimp only
    by_cases e : k = c
    · rw [if_pos e, if_pos e]
      have : SMap.find? k r = none := by
        cases hf : SMap.find? k r with
        | none => rfl
        | some v =>
          have := hs.1 _ (SMap.find_mem hf)
          exact absurd (by rw [e]) (SMap.lt_ne this)
      rw [this]
      rfl
    · rw [if_neg e, if_neg e]

theorem foldl_add_sorted (l : Diffs) : ∀ acc : Diffs, SMap.Sorted acc → SMap.Sorted (l.foldl (fun (a : Diffs) x => a.add x.1 x.2.1 x.2.2) acc) := by
  induction l with
  | nil => exact fun acc h => h
  | cons x r ih => exact fun acc h => ih _ (SMap.sorted_insert _ _ _ h)

/-- Differences that are written into a file are read back as they were: all of them, at their codes, with their names and code points. -/
theorem C139_round_trip (explicit : Bool) (l : Diffs) (h : l.Ok explicit) : readDiffs explicit l.toArray = .ok l := by
  rw [readDiffs, Diffs.toArray, diffRead_array explicit l h.2 (-2) (-1) [] (Or.inl (by omega))]
  congr 1
  refine SMap.ext (foldl_add_sorted l [] trivial) h.1 (fun k => ?_)
  rw [foldl_add_find l [] k h.1]
  simp [SMap.find?]

theorem addName_keeps {explicit : Bool} {l l' : Diffs} {c : Nat} {n : Bytes} (hc : c < 256) (h : Diffs.addName explicit l c n = .ok l') (hok : l.Ok explicit) : l'.Ok explicit := by
  have key : ∀ cp, (if explicit then cp = c else nameToCode n = .ok cp) → Diffs.Ok explicit (l.add c cp n) := by
    intro cp hcp
    refine ⟨SMap.sorted_insert _ _ _ hok.1, fun x hx => ?_⟩
    have hs := SMap.sorted_insert c (cp, n) l hok.1
    have hf := SMap.mem_find hs hx
    rw [SMap.find_insert] at hf
    by_cases e : x.1 = c
    · rw [if_pos e] at hf
      have : x.2 = (cp, n) := by injection hf with hf; exact hf.symm
      refine ⟨by omega, ?_⟩
      rw [this, e]
      exact hcp
    · rw [if_neg e] at hf
      exact hok.2 (x.1, x.2) (SMap.find_mem hf)
  rw [Diffs.addName] at h
  cases explicit with
  | true =>
    rw [if_pos rfl] at h
    cases h
    exact key c rfl
  | false =>
    rw [if_neg (by decide)] at h
    cases hn : nameToCode n with
    | error e =>
      rw [hn] at h
      cases h
    | ok cp =>
      rw [hn] at h
      cases h
      exact key cp hn

theorem diffRead_ok (explicit : Bool) (arr : List DiffObj) : ∀ cur (l l' : Diffs), l.Ok explicit → diffRead explicit arr cur l = .ok l' → l'.Ok explicit := by
  induction arr with
  | nil =>
    intro cur l l' h he
    cases he
    exact h
  | cons o r ih =>
    intro cur l l' h he
    cases o with
    | num n => exact ih _ _ _ h he
    | other => exact ih _ _ _ h he
    | name b =>
      rw [diffRead] at he
      cases ha : Diffs.addName explicit l (cur % 256).toNat b with
      | error e =>
        rw [ha] at he
        cases he
      | ok l1 =>
        rw [ha] at he
        dsimp only at he
        by_cases hc : cur = 9223372036854775807
        · rw [if_pos hc] at he
          cases he
        · rw [if_neg hc] at he
          exact ih _ _ _ (addName_keeps (by omega) ha h) he

/-- Differences that were read from a file, however they are written there, are the same after writing and reading again. -/
theorem C139_reread (explicit : Bool) (arr : List DiffObj) (l : Diffs) (h : readDiffs explicit arr = .ok l) : readDiffs explicit l.toArray = .ok l :=
  C139_round_trip explicit l (diffRead_ok explicit arr _ [] _ ⟨trivial, fun x hx => by cases hx⟩ h)

example : readDiffs false [.num 65, .name (asciiB "eacute"), .name (asciiB "uni4e2d"), .num 300, .name (asciiB "a")] =
    .ok [(44, (0x61, asciiB "a")), (65, (0xe9, asciiB "eacute")), (66, (0x4e2d, asciiB "uni4e2d"))] := by
  have h1 : nameToCode (asciiB "eacute") = .ok 0xe9 := by rw [nameToCode, byName_fast]; decide +kernel
  have h2 : nameToCode (asciiB "uni4e2d") = .ok 0x4e2d := by rw [nameToCode, byName_fast]; decide +kernel
  have h3 : nameToCode (asciiB "a") = .ok 0x61 := by rw [nameToCode, byName_fast]; decide +kernel
  simp only [readDiffs, diffRead, Diffs.addName, h1, h2, h3]
  decide

/-- Codes beyond 255 are not refused but wrap around: the difference is put at another code. -/
theorem C139_wrap_false (code : Nat) (h : 256 ≤ code) (hlt : code < 9223372036854775807) (name : Bytes) :
    readDiffs true [.num code, .name name] = .ok [(code % 256, (code % 256, name))] := by
  rw [readDiffs, diffRead, diffRead, Diffs.addName, if_pos rfl]
  dsimp only
  rw [if_neg (by omega), diffRead, show ((code : Int) % 256).toNat = code % 256 from by omega]
  rfl

/-- Counting on from the greatest code is undefined. -/
theorem C139_overflow_false (name : Bytes) (r : List DiffObj) : readDiffs true (.num 9223372036854775807 :: .name name :: r) = .error .ub := by
  rw [readDiffs, diffRead, diffRead, Diffs.addName, if_pos rfl]
  rfl

/-! ### The base encoding -/

/-- The encodings that differences can be based on: the predefined ones and that of a font program. -/
inductive BaseEnc
  | winAnsi
  | macRoman
  | macExpert
  | standard
  | symbol
  | zapfDingbats
  | program (k : Nat)
  deriving DecidableEq

/-- The name that is written for a base encoding, `getExportObject` in `src/pdfmm/base/PdfDifferenceEncoding.cpp:2551-2576` with that in
`src/pdfmm/base/PdfPredefinedEncoding.cpp:23-28`, which the last four do not have. -/
def exportBase : BaseEnc → Option Bytes
  | .winAnsi => some (asciiB "WinAnsiEncoding")
  | .macRoman => some (asciiB "MacRomanEncoding")
  | .macExpert => some (asciiB "MacExpertEncoding")
  | _ => none

/-- The base encoding in `Create`, `src/pdfmm/base/PdfDifferenceEncoding.cpp:2505-2526`. -/
def readBase (name : Option Bytes) (implicit : Option BaseEnc) : Res BaseEnc :=
  match name with
  | some n =>
    if n = asciiB "WinAnsiEncoding" then .ok .winAnsi
    else if n = asciiB "MacRomanEncoding" then .ok .macRoman
    else if n = asciiB "MacExpertEncoding" then .ok .macExpert
    else raise .InvalidFontFile
  | none =>
    match implicit with
    | some e => .ok e
    | none => .ok .standard

/-- The base encoding that was read for a font is found again after writing it, for the same font program. -/
theorem C139_base_reread (name : Option Bytes) (implicit : Option BaseEnc) (b : BaseEnc) (h : readBase name implicit = .ok b) :
    readBase (exportBase b) implicit = .ok b := by
  have named : ∀ b', b = b' → (exportBase b').isSome → readBase (exportBase b) implicit = .ok b := by
    intro b' e hs
    rw [e]
    cases b' <;> first | rfl | cases hs
  by_cases hs : (exportBase b).isSome
  · exact named b rfl hs
  · have hn : exportBase b = none := by
      cases he : exportBase b with
      | none => rfl
      | some x =>
        rw [he] at hs
        exact absurd rfl hs
    rw [hn]
    cases name with
    | none => exact h
    | some n =>
      rw [readBase] at h
      by_cases h1 : n = asciiB "WinAnsiEncoding"
      · rw [if_pos h1] at h
        cases h
        cases hn
      · rw [if_neg h1] at h
        by_cases h2 : n = asciiB "MacRomanEncoding"
        · rw [if_pos h2] at h
          cases h
          cases hn
        · rw [if_neg h2] at h
          by_cases h3 : n = asciiB "MacExpertEncoding"
          · rw [if_pos h3] at h
            cases h
            cases hn
          · rw [if_neg h3] at h
            cases h

example : readBase (some (asciiB "MacRomanEncoding")) (some (.program 1)) = .ok .macRoman ∧ readBase none (some (.program 1)) = .ok (.program 1) := by decide

/-- Differences that a program bases on the encoding of the symbols, or on the standard encoding for a font that has an encoding of its own, are read back with
another base. -/
theorem C139_base_false (k : Nat) : readBase (exportBase .symbol) none = .ok .standard ∧ readBase (exportBase .standard) (some (.program k)) = .ok (.program k) := by
  exact ⟨rfl, rfl⟩

/-! ### C141 -/

/-- An encoding with differences: a code stands for the code point of its difference when it has one and for that of the base encoding otherwise; the code
that is found for a code point is the greatest one that stands for it, and there is one whenever some code does.  The base encoding covers all codes, as the
predefined encodings do. -/
theorem C141_difference_encoding (l : Diffs) (base : Nat → Option Nat) (cp : Nat) :
    (∀ c, c < 256 → diffDecode l base c = match l.get c with
      | some d => some d.1
      | none => base c) ∧
      (∀ c, diffEncode l base 0 255 cp = some c ↔ Spec.GreatestCode (diffDecode l base) 0 255 cp c) ∧
      (diffEncode l base 0 255 cp = none ↔ ∀ c, diffDecode l base c ≠ some cp) := by
  refine ⟨fun c hc => by rw [diffDecode, if_neg (by omega)], fun c => topCode_iff _ _ 0 255 c (by decide), ?_⟩
  rw [diffEncode, topCode_none _ _ 0 255 (by decide)]
  constructor
  · intro h c
    by_cases hc : 256 ≤ c
    · rw [diffDecode, if_pos hc]
      exact fun h => by cases h
    · exact h c (Nat.zero_le _) (by omega)
  · exact fun h c _ _ => h c

/-- Text that is converted into an encoding with differences is what the text converted back is. -/
theorem C141_encode_decode (l : Diffs) (base : Nat → Option Nat) (first last cp c : Nat) (hfl : first ≤ last) (h : diffEncode l base first last cp = some c) :
    diffDecode l base c = some cp := ((topCode_iff _ _ _ _ _ hfl).1 h).2.2.1

example : diffEncode [(65, (0xe9, [])), (200, (0x41, []))] (builtinDecode tabWinAnsi) 0 255 0x41 = some 200 ∧
    diffDecode [(65, (0xe9, [])), (200, (0x41, []))] (builtinDecode tabWinAnsi) 200 = some 0x41 := by
  refine ⟨by decide +kernel, by decide +kernel⟩

/-- A difference for a code outside of the codes of the base encoding, which is that of the font program, can be read but not written. -/
theorem C141_limits_false (l : Diffs) (base : Nat → Option Nat) (first last code cp : Nat) (name : Bytes) (hfl : first ≤ last) (hc : code < 256) (hl : last < code)
    (hd : l.get code = some (cp, name)) (hno : ∀ c, c ≤ last → diffDecode l base c ≠ some cp) :
    diffDecode l base code = some cp ∧ diffEncode l base first last cp = none := by
  refine ⟨by rw [diffDecode, if_neg (by omega), hd], (topCode_none _ _ _ _ hfl).2 (fun c _ h => hno c h)⟩

example : diffEncode [(200, (0xe9, []))] (fun c => if c < 127 then some c else none) 32 126 0xe9 = none := by decide +kernel

end Pdfmm
