import Verif.Fonts.FontLoad
/-
C190: simple fonts written by a program, and the same fonts when the document is loaded again.
-/
set_option autoImplicit false
set_option linter.unusedSimpArgs false
namespace Pdfmm

/-- `std::round(x / matrix[0])` of a decimal, where the matrix is that of a font made from a file, `src/pdfmm/base/PdfFontMetrics.cpp:23` and
`src/pdfmm/base/PdfFontMetrics.cpp:212-216`: thousandths, halves away from zero.  The rounding of the division of doubles is not modelled, and values that
do not fit into 64 bits, which no font file has, are left out. -/
def toThousandths (x : Dec) : Int := if x.1 < 0 then -(roundDec (1000 * x.1.natAbs) x.2 : Int) else roundDec (1000 * x.1.natAbs) x.2

/-- `std::round` of a decimal. -/
def roundWhole (x : Dec) : Int := if x.1 < 0 then -(roundDec x.1.natAbs x.2 : Int) else roundDec x.1.natAbs x.2

/-- What a simple font is made of: the values its metrics give, the first and last code of its encoding and the width of each code (`GetCIDLengthRaw`,
`src/pdfmm/base/PdfFont.cpp:409-416`), and what the encoding exports (`src/pdfmm/base/PdfEncoding.cpp:311-354`).  Type 3 fonts cannot be made. -/
structure SimpleSrc where
  trueType : Bool
  name : Bytes
  family : Bytes
  stretch : Option Bytes
  flags : Int
  italic : Dec
  bbox : Dec × Dec × Dec × Dec
  weight : Int
  ascent : Dec
  descent : Dec
  capHeight : Dec
  stemV : Dec
  xHeight : Dec
  stemH : Dec
  dflt : Dec
  leading : Dec
  avgWidth : Dec
  maxWidth : Dec
  std : Bool
  embed : Bool
  first : Nat
  last : Nat
  width : Nat → Dec
  encoding : Var
  toUnicode : Var
  fileKey : Bytes
  fileDict : FDict

/-- Entries put one after the other; those without a value are not put. -/
def putEntries (d : FDict) : List (Bytes × Option Var) → FDict
  | [] => d
  | (_, none) :: l => putEntries d l
  | (k, some v) :: l => putEntries (SMap.insert k v d) l

def ifPos (x : Dec) : Option Var := if 0 < x.1 then some (.num (toThousandths x)) else none

/-- `GetBoundingBox`, `src/pdfmm/base/PdfFont.cpp:418-428`. -/
def SimpleSrc.boxArray (f : SimpleSrc) : List Var :=
  [.num (toThousandths f.bbox.1), .num (toThousandths f.bbox.2.1), .num (toThousandths f.bbox.2.2.1), .num (toThousandths f.bbox.2.2.2)]

/-- `FillDescriptor`, `src/pdfmm/base/PdfFont.cpp:430-499`, for fonts that are not Type 3 and not CID keyed, in a new object with a type; with the entry of the font
program when it is embedded (`src/pdfmm/base/PdfFontSimple.cpp:111`). -/
def SimpleSrc.descriptor (f : SimpleSrc) (rf : Ref) : FDict :=
  putEntries [] [(litBytes "Type", some (.name (litBytes "FontDescriptor"))),
    (litBytes "FontName", some (.name f.name)),
    (litBytes "FontFamily", if f.family = [] then none else some (.str f.family false)),
    (litBytes "FontStretch", f.stretch.map .name),
    (litBytes "Flags", some (.num f.flags)),
    (litBytes "ItalicAngle", some (.num (roundWhole f.italic))),
    (litBytes "FontWeight", if 0 < f.weight then some (.num f.weight) else none),
    (litBytes "FontBBox", some (.arr f.boxArray)),
    (litBytes "Ascent", some (.num (toThousandths f.ascent))),
    (litBytes "Descent", some (.num (toThousandths f.descent))),
    (litBytes "CapHeight", some (.num (toThousandths f.capHeight))),
    (litBytes "StemV", some (.num (toThousandths f.stemV))),
    (litBytes "XHeight", ifPos f.xHeight),
    (litBytes "StemH", ifPos f.stemH),
    (litBytes "MissingWidth", ifPos f.dflt),
    (litBytes "Leading", ifPos f.leading),
    (litBytes "AvgWidth", ifPos f.avgWidth),
    (litBytes "MaxWidth", ifPos f.maxWidth),
    (f.fileKey, if f.embed then some (.ref rf.num rf.gen) else none)]

/-- `getWidthsArray`, `src/pdfmm/base/PdfFontSimple.cpp:26-44`.  The last code is below 2³²−1: the loop counts in 32 bits. -/
def SimpleSrc.widthsArray (f : SimpleSrc) : List Var := (List.range' f.first (f.last + 1 - f.first)).map fun c => .num (toThousandths (f.width c))

/-- `PdfFontSimple::Init` and `embedFont`, `src/pdfmm/base/PdfFontSimple.cpp:56-112`: the font dictionary, whose new object has the type /Font
(`src/pdfmm/base/PdfFont.cpp:40-50`). -/
def SimpleSrc.dict (f : SimpleSrc) (rd rw : Ref) : FDict :=
  putEntries [] [(litBytes "Type", some (.name (litBytes "Font"))),
    (litBytes "Subtype", some (.name (if f.trueType then litBytes "TrueType" else litBytes "Type1"))),
    (litBytes "BaseFont", some (.name f.name)),
    (litBytes "Encoding", some f.encoding),
    (litBytes "ToUnicode", some f.toUnicode),
    (litBytes "FontDescriptor", if !f.std || f.embed then some (.ref rd.num rd.gen) else none),
    (litBytes "FirstChar", if f.embed then some (.num f.first) else none),
    (litBytes "LastChar", if f.embed then some (.num f.last) else none),
    (litBytes "Widths", if f.embed then some (.ref rw.num rw.gen) else none)]

/-- The document with the objects of the font: descriptor, widths and font program. -/
def SimpleSrc.written (f : SimpleSrc) (h : FDoc) (rd rw rf : Ref) : FDoc := fun r =>
  if r = rd then some (.dict (f.descriptor rf)) else if r = rw then some (.arr f.widthsArray) else if r = rf then some (.dict f.fileDict) else h r

namespace Spec

/-- A whole number of thousandths nearest to a value. -/
def NearestThousandths (x : Dec) (n : Int) : Prop := 2 * (1000 * x.1 - n * 10 ^ x.2).natAbs ≤ 10 ^ x.2

/-- Fonts as they come from files: angles and weights in their ranges, the font program under one of its keys, with a subtype that is a name if it has one, and objects that are not the
same. -/
structure FontOfFile (f : SimpleSrc) (rd rw rf : Ref) : Prop where
  angle : -1000 ≤ roundWhole f.italic ∧ roundWhole f.italic ≤ 1000
  weight : f.weight < 2147483648
  named : f.name ≠ []
  key : f.fileKey = litBytes "FontFile" ∨ f.fileKey = litBytes "FontFile2" ∨ f.fileKey = litBytes "FontFile3"
  sub : ∀ h : FDoc, h.findKey f.fileDict (litBytes "Subtype") = none ∨ ∃ n, h.findKey f.fileDict (litBytes "Subtype") = some (.name n)
  apart : rd ≠ rw ∧ rd ≠ rf ∧ rw ≠ rf

end Spec

/-! ### Proofs -/

theorem roundDec_near (m s : Nat) : 2 * m ≤ 2 * (roundDec m s * 10 ^ s) + 10 ^ s ∧ 2 * (roundDec m s * 10 ^ s) ≤ 2 * m + 10 ^ s := by
  unfold roundDec
  have hp : 0 < 10 ^ s := Nat.pow_pos (by decide)
  generalize 10 ^ s = p at *
  have h1 := Nat.div_add_mod (2 * m + p) (2 * p)
  have h2 := Nat.mod_lt (2 * m + p) (show 0 < 2 * p by omega)
  generalize (2 * m + p) / (2 * p) = q at *
  have e : 2 * p * q = 2 * (q * p) := by rw [Nat.mul_assoc, Nat.mul_comm p q]
  omega

theorem toThousandths_near (x : Dec) : Spec.NearestThousandths x (toThousandths x) := by
  obtain ⟨n, s⟩ := x
  unfold Spec.NearestThousandths toThousandths
  have h := roundDec_near (1000 * n.natAbs) s
  have hc : ((10 ^ s : Nat) : Int) = (10 : Int) ^ s := by simp
  generalize hp : 10 ^ s = p at *
  simp only
  rw [← hc]
  have e : ∀ a : Nat, ((a * p : Nat) : Int) = (a : Int) * p := by intro a; simp
  split
  · have := e (roundDec (1000 * n.natAbs) s)
    have e2 : -(roundDec (1000 * n.natAbs) s : Int) * (p : Int) = -((roundDec (1000 * n.natAbs) s : Int) * p) := by rw [Int.neg_mul]
    rw [e2, ← this]
    omega
  · rw [← e]
    omega

/-- The last value put under a key. -/
def lastPut (k : Bytes) (o : Option Var) : List (Bytes × Option Var) → Option Var
  | [] => o
  | (_, none) :: l => lastPut k o l
  | (k', some v) :: l => lastPut k (if k = k' then some v else o) l

theorem find_insert_any (k k' : Bytes) (v : Var) (d : FDict) : SMap.find? k (SMap.insert k' v d) = if k = k' then some v else SMap.find? k d := by
  split
  · next e => subst e; exact SMap.find_insert_self _ _ _
  · next e => exact SMap.find_insert_ne v d e

theorem find_putEntries (k : Bytes) (l : List (Bytes × Option Var)) (d : FDict) : SMap.find? k (putEntries d l) = lastPut k (SMap.find? k d) l := by
  induction l generalizing d with
  | nil => rfl
  | cons p l ih =>
    obtain ⟨k', o⟩ := p
    cases o with
    | none => simp only [putEntries, lastPut, ih]
    | some v => simp only [putEntries, lastPut, ih, find_insert_any]

theorem lastPut_eq (k : Bytes) (o : Option Var) (k' : Bytes) (v : Option Var) (l : List (Bytes × Option Var)) :
    lastPut k o ((k', v) :: l) = lastPut k (if k = k' then v.or o else o) l := by
  cases v with
  | none => simp [lastPut]
  | some v => simp [lastPut]

theorem lastPut_ne {k k' : Bytes} (h : k ≠ k') (o : Option Var) (v : Option Var) (l : List (Bytes × Option Var)) : lastPut k o ((k', v) :: l) = lastPut k o l := by
  rw [lastPut_eq, if_neg h]

theorem lastPut_self (k : Bytes) (v : Option Var) (l : List (Bytes × Option Var)) : lastPut k none ((k, v) :: l) = lastPut k v l := by
  rw [lastPut_eq, if_pos rfl, Option.or_none]

theorem lastPut_absent {k : Bytes} {o : Option Var} {l : List (Bytes × Option Var)} (h : ∀ p ∈ l, k ≠ p.1) : lastPut k o l = o := by
  induction l with
  | nil => rfl
  | cons p l ih =>
    obtain ⟨k', v⟩ := p
    rw [lastPut_ne (h _ List.mem_cons_self)]
    exact ih (fun q hq => h q (List.mem_cons_of_mem _ hq))

/-- A key put once. -/
theorem lastPut_once {k : Bytes} {v : Option Var} (l₁ l₂ : List (Bytes × Option Var)) (h₁ : ∀ p ∈ l₁, k ≠ p.1) (h₂ : ∀ p ∈ l₂, k ≠ p.1) :
    lastPut k none (l₁ ++ (k, v) :: l₂) = v := by
  induction l₁ with
  | nil => rw [List.nil_append, lastPut_self, lastPut_absent h₂]
  | cons p l ih =>
    obtain ⟨k', w⟩ := p
    rw [List.cons_append, lastPut_ne (h₁ _ List.mem_cons_self)]
    exact ih (fun q hq => h₁ q (List.mem_cons_of_mem _ hq))

theorem lastPut_at {k : Bytes} {v : Option Var} (l : List (Bytes × Option Var)) (i : Nat) (hi : l[i]? = some (k, v)) (h : ∀ j p, l[j]? = some p → j ≠ i → k ≠ p.1) :
    lastPut k none l = v := by
  induction l generalizing i with
  | nil => simp at hi
  | cons p l ih =>
    obtain ⟨k', w⟩ := p
    cases i with
    | zero =>
      simp at hi
      obtain ⟨rfl, rfl⟩ := hi
      rw [lastPut_self]
      apply lastPut_absent
      intro q hq
      obtain ⟨j, hj⟩ := List.mem_iff_getElem?.1 hq
      exact h (j + 1) q (by simpa using hj) (by omega)
    | succ i =>
      rw [lastPut_ne (h 0 _ rfl (by omega))]
      exact ih i (by simpa using hi) (fun j p hj hne => h (j + 1) p (by simpa using hj) (by omega))

/-- The keys of a descriptor. -/
theorem fileKey_ne {f : SimpleSrc} {k : Bytes} (hk : f.fileKey = litBytes "FontFile" ∨ f.fileKey = litBytes "FontFile2" ∨ f.fileKey = litBytes "FontFile3")
    (h : k ≠ litBytes "FontFile" ∧ k ≠ litBytes "FontFile2" ∧ k ≠ litBytes "FontFile3") : k ≠ f.fileKey := by
  rcases hk with e | e | e <;> rw [e]
  · exact h.1
  · exact h.2.1
  · exact h.2.2


theorem lastPut_nil (k : Bytes) (o : Option Var) : lastPut k o [] = o := rfl

theorem findKey_plain {h : FDoc} {d : FDict} {k : Bytes} {o : Option Var} (he : SMap.find? k d = o) (hn : ∀ n g, o ≠ some (.ref n g)) : h.findKey d k = o := by
  unfold FDoc.findKey
  rw [he]
  cases o with
  | none => rfl
  | some v =>
    cases v with
    | ref n g => exact absurd rfl (hn n g)
    | _ => rfl

theorem findKey_ref {h : FDoc} {d : FDict} {k : Bytes} {r : Ref} (he : SMap.find? k d = some (.ref r.num r.gen)) : h.findKey d k = h r := by
  unfold FDoc.findKey
  rw [he]

theorem ifPos_plain (x : Dec) (n g : Nat) : ifPos x ≠ some (.ref n g) := by
  unfold ifPos; split <;> simp

theorem ifPos_dec (x : Dec) (h : FDoc) (d : FDict) (k : Bytes) (hk : h.findKey d k = ifPos x) (a : Dec) : ∃ y, withKey h d k a decOf = .ok y := by
  unfold ifPos at hk
  split at hk
  · exact ⟨_, by rw [withKey_some hk]; rfl⟩
  · exact ⟨_, withKey_none hk⟩

theorem mapM_total {α β : Type} {g : α → Res β} {l : List α} (h : ∀ a ∈ l, ∃ b, g a = .ok b) : ∃ bs, l.mapM g = .ok bs := by
  induction l with
  | nil => exact ⟨[], rfl⟩
  | cons a l ih =>
    obtain ⟨b, hb⟩ := h a List.mem_cons_self
    obtain ⟨bs, hbs⟩ := ih (fun x hx => h x (List.mem_cons_of_mem _ hx))
    exact ⟨b :: bs, by rw [List.mapM_cons, hb, hbs]; rfl⟩

section
variable (f : SimpleSrc) (h : FDoc) (rd rw rf : Ref)

theorem castInt_num {n : Int} (h1 : -2147483648 ≤ n) (h2 : n < 2147483648) : castInt (n, 0) = .ok n := by
  have : (10 ^ (0 : Nat) : Nat) = 1 := rfl
  simp only [castInt, this]
  rw [if_pos (by simp; omega)]
  simp

theorem desc_tail (hf : Spec.FontOfFile f rd rw rf) :
    descTail h thousandth (some (.dict (f.descriptor rf))) = .ok (if 0 < f.weight then f.weight else -1, (toThousandths f.ascent * 1, 3), (toThousandths f.descent * 1, 3)) := by
  have hne := fun {k : Bytes} hk => @fileKey_ne f k hf.key hk
  have find : ∀ k, SMap.find? k (f.descriptor rf) = lastPut k none _ := fun k => find_putEntries k _ []
  have n1 := @hne (litBytes "FontStretch") (by decide)
  have n2 := @hne (litBytes "FontWeight") (by decide)
  have n3 := @hne (litBytes "Flags") (by decide)
  have n4 := @hne (litBytes "ItalicAngle") (by decide)
  have n5 := @hne (litBytes "Ascent") (by decide)
  have n6 := @hne (litBytes "Descent") (by decide)
  have n7 := @hne (litBytes "Leading") (by decide)
  have n8 := @hne (litBytes "CapHeight") (by decide)
  have n9 := @hne (litBytes "XHeight") (by decide)
  have n10 := @hne (litBytes "StemV") (by decide)
  have n11 := @hne (litBytes "StemH") (by decide)
  have n12 := @hne (litBytes "AvgWidth") (by decide)
  have n13 := @hne (litBytes "MaxWidth") (by decide)
  have e1 : h.findKey (f.descriptor rf) (litBytes "FontStretch") = f.stretch.map .name := by
    refine findKey_plain ?_ (by cases f.stretch <;> simp)
    rw [find]; simp (decide := true) only [lastPut_self, lastPut_ne, lastPut_nil, n1, ne_eq, not_false_eq_true]
  have e2 : h.findKey (f.descriptor rf) (litBytes "FontWeight") = if 0 < f.weight then some (.num f.weight) else none := by
    refine findKey_plain ?_ (by split <;> simp)
    rw [find]; simp (decide := true) only [lastPut_self, lastPut_ne, lastPut_nil, n2, ne_eq, not_false_eq_true]
  have e3 : h.findKey (f.descriptor rf) (litBytes "Flags") = some (.num f.flags) := by
    refine findKey_plain ?_ (by simp)
    rw [find]; simp (decide := true) only [lastPut_self, lastPut_ne, lastPut_nil, n3, ne_eq, not_false_eq_true]
  have e4 : h.findKey (f.descriptor rf) (litBytes "ItalicAngle") = some (.num (roundWhole f.italic)) := by
    refine findKey_plain ?_ (by simp)
    rw [find]; simp (decide := true) only [lastPut_self, lastPut_ne, lastPut_nil, n4, ne_eq, not_false_eq_true]
  have e5 : h.findKey (f.descriptor rf) (litBytes "Ascent") = some (.num (toThousandths f.ascent)) := by
    refine findKey_plain ?_ (by simp)
    rw [find]; simp (decide := true) only [lastPut_self, lastPut_ne, lastPut_nil, n5, ne_eq, not_false_eq_true]
  have e6 : h.findKey (f.descriptor rf) (litBytes "Descent") = some (.num (toThousandths f.descent)) := by
    refine findKey_plain ?_ (by simp)
    rw [find]; simp (decide := true) only [lastPut_self, lastPut_ne, lastPut_nil, n6, ne_eq, not_false_eq_true]
  have e7 : h.findKey (f.descriptor rf) (litBytes "Leading") = ifPos f.leading := by
    refine findKey_plain ?_ (ifPos_plain _)
    rw [find]; simp (decide := true) only [lastPut_self, lastPut_ne, lastPut_nil, n7, ne_eq, not_false_eq_true]
  have e8 : h.findKey (f.descriptor rf) (litBytes "CapHeight") = some (.num (toThousandths f.capHeight)) := by
    refine findKey_plain ?_ (by simp)
    rw [find]; simp (decide := true) only [lastPut_self, lastPut_ne, lastPut_nil, n8, ne_eq, not_false_eq_true]
  have e9 : h.findKey (f.descriptor rf) (litBytes "XHeight") = ifPos f.xHeight := by
    refine findKey_plain ?_ (ifPos_plain _)
    rw [find]; simp (decide := true) only [lastPut_self, lastPut_ne, lastPut_nil, n9, ne_eq, not_false_eq_true]
  have e10 : h.findKey (f.descriptor rf) (litBytes "StemV") = some (.num (toThousandths f.stemV)) := by
    refine findKey_plain ?_ (by simp)
    rw [find]; simp (decide := true) only [lastPut_self, lastPut_ne, lastPut_nil, n10, ne_eq, not_false_eq_true]
  have e11 : h.findKey (f.descriptor rf) (litBytes "StemH") = ifPos f.stemH := by
    refine findKey_plain ?_ (ifPos_plain _)
    rw [find]; simp (decide := true) only [lastPut_self, lastPut_ne, lastPut_nil, n11, ne_eq, not_false_eq_true]
  have e12 : h.findKey (f.descriptor rf) (litBytes "AvgWidth") = ifPos f.avgWidth := by
    refine findKey_plain ?_ (ifPos_plain _)
    rw [find]; simp (decide := true) only [lastPut_self, lastPut_ne, lastPut_nil, n12, ne_eq, not_false_eq_true]
  have e13 : h.findKey (f.descriptor rf) (litBytes "MaxWidth") = ifPos f.maxWidth := by
    refine findKey_plain ?_ (ifPos_plain _)
    rw [find]; simp (decide := true) only [lastPut_self, lastPut_ne, lastPut_nil, n13, ne_eq, not_false_eq_true]
  obtain ⟨xs, hxs⟩ := mapM_total (g := fun k => withKey h (f.descriptor rf) k (0, 0) decOf)
    (l := [litBytes "Leading", litBytes "CapHeight", litBytes "XHeight", litBytes "StemV", litBytes "StemH", litBytes "AvgWidth", litBytes "MaxWidth"]) (by
      intro k hk
      simp only [List.mem_cons, List.not_mem_nil, or_false] at hk
      rcases hk with rfl | rfl | rfl | rfl | rfl | rfl | rfl
      · exact ifPos_dec _ _ _ _ e7 _
      · exact ⟨_, by rw [withKey_some e8]; rfl⟩
      · exact ifPos_dec _ _ _ _ e9 _
      · exact ⟨_, by rw [withKey_some e10]; rfl⟩
      · exact ifPos_dec _ _ _ _ e11 _
      · exact ifPos_dec _ _ _ _ e12 _
      · exact ifPos_dec _ _ _ _ e13 _)
  have f2 : withKey h (f.descriptor rf) (litBytes "FontWeight") (-1, 0) decOf = .ok (if 0 < f.weight then f.weight else -1, 0) := by
    split at e2
    · next hw => rw [withKey_some e2, if_pos hw]; rfl
    · next hw => rw [withKey_none e2, if_neg hw]
  have f3 : castInt (if 0 < f.weight then f.weight else -1, 0) = .ok (if 0 < f.weight then f.weight else -1) := by
    have := hf.weight
    exact castInt_num (by split <;> omega) (by split <;> omega)
  have f4 : castInt (roundWhole f.italic, 0) = .ok (roundWhole f.italic) := by
    have := hf.angle
    exact castInt_num (by omega) (by omega)
  cases hs : f.stretch with
  | none =>
    rw [hs] at e1
    simp only [descTail, strictDict, bind, Except.bind, withKey_none e1, f2, f3, withKey_some e3, strictInt, withKey_some e4, decOf, f4, withKey_some e5, withKey_some e6]
    rw [show List.mapM (fun k => withKey h (f.descriptor rf) k (0, 0) decOf) _ = _ from hxs]
    simp only [decMul, thousandth, Nat.zero_add]
  | some n =>
    rw [hs] at e1
    simp only [descTail, strictDict, bind, Except.bind, withKey_some e1, f2, f3, withKey_some e3, strictInt, withKey_some e4, decOf, f4, withKey_some e5, withKey_some e6]
    rw [show List.mapM (fun k => withKey h (f.descriptor rf) k (0, 0) decOf) _ = _ from hxs]
    simp only [decMul, thousandth, Nat.zero_add]


theorem desc_head (hf : Spec.FontOfFile f rd rw rf) (n : Bytes) (hn : n ≠ []) (k : FontFileKind) (d : FDict)
    (hw : h rf = some (.dict f.fileDict)) :
    ∃ k', simpleHead h d k n (some (.dict (f.descriptor rf))) = .ok (n, [(toThousandths f.bbox.1 * 1, 3), (toThousandths f.bbox.2.1 * 1, 3), (toThousandths f.bbox.2.2.1 * 1, 3),
      (toThousandths f.bbox.2.2.2 * 1, 3)], k', if 0 < f.dflt.1 then (toThousandths f.dflt, 0) else (0, 0)) := by
  have hne := fun {k : Bytes} hk => @fileKey_ne f k hf.key hk
  have find : ∀ k, SMap.find? k (f.descriptor rf) = lastPut k none _ := fun k => find_putEntries k _ []
  have n1 := @hne (litBytes "FontBBox") (by decide)
  have n2 := @hne (litBytes "MissingWidth") (by decide)
  have e1 : h.findKey (f.descriptor rf) (litBytes "FontBBox") = some (.arr f.boxArray) := by
    refine findKey_plain ?_ (by simp)
    rw [find]; simp (decide := true) only [lastPut_self, lastPut_ne, lastPut_nil, n1, ne_eq, not_false_eq_true]
  have e2 : h.findKey (f.descriptor rf) (litBytes "MissingWidth") = ifPos f.dflt := by
    refine findKey_plain ?_ (ifPos_plain _)
    rw [find]; simp (decide := true) only [lastPut_self, lastPut_ne, lastPut_nil, n2, ne_eq, not_false_eq_true]
  have e3 : withKey h (f.descriptor rf) (litBytes "MissingWidth") (0, 0) decOf = .ok (if 0 < f.dflt.1 then (toThousandths f.dflt, 0) else (0, 0)) := by
    unfold ifPos at e2
    split at e2
    · next hp => rw [withKey_some e2, if_pos hp]; rfl
    · next hp => rw [withKey_none e2, if_neg hp]
  have e4 : ∃ k', simpleKind h k (f.descriptor rf) = .ok k' := by
    unfold simpleKind
    simp only
    generalize (if k = FontFileKind.type1 then litBytes "FontFile" else litBytes "FontFile2") = own
    split
    · exact ⟨_, rfl⟩
    · have e5 : h.findKey (f.descriptor rf) (litBytes "FontFile3") = none ∨ h.findKey (f.descriptor rf) (litBytes "FontFile3") = some (.dict f.fileDict) := by
        by_cases h3 : f.fileKey = litBytes "FontFile3"
        · have : SMap.find? (litBytes "FontFile3") (f.descriptor rf) = if f.embed = true then some (.ref rf.num rf.gen) else none := by
            rw [find]; simp (decide := true) only [lastPut_self, lastPut_ne, lastPut_nil, h3, ne_eq, not_false_eq_true]
          split at this
          · right; rw [findKey_ref this, hw]
          · left; exact findKey_plain this (by simp)
        · left
          refine findKey_plain (o := none) ?_ (by simp)
          have h3' : litBytes "FontFile3" ≠ f.fileKey := fun e => h3 e.symm
          rw [find]; simp (decide := true) only [lastPut_self, lastPut_ne, lastPut_nil, h3', ne_eq, not_false_eq_true]
      rcases e5 with e5 | e5
      · exact ⟨_, withKey_none e5⟩
      · rw [withKey_some e5]
        simp only [strictDict, bind, Except.bind]
        rcases hf.sub h with hs | ⟨m, hs⟩
        · rw [withKey_none hs]; exact ⟨_, rfl⟩
        · rw [withKey_some hs]; exact ⟨_, rfl⟩
  obtain ⟨k', e4⟩ := e4
  refine ⟨k', ?_⟩
  simp only [simpleHead, strictDict, bind, Except.bind, nameOr, if_neg hn, withKey_some e1, fontBBox, strictArr, SimpleSrc.boxArray, arrAt, List.getElem?_cons_zero,
    List.getElem?_cons_succ, lenientInt, e3, e4, decMul, thousandth, Nat.zero_add]

theorem widths_num (l : List Nat) (g : Nat → Int) : simpleWidths thousandth (l.map fun c => .num (g c)) = .ok (l.map fun c => (g c * 1, 3)) := by
  induction l with
  | nil => rfl
  | cons c l ih => 
    simp only [List.map_cons, simpleWidths, decOf, ih, bind, Except.bind]
    rfl

end

/-- The metrics of a written font when it is loaded. -/
theorem written_metrics (f : SimpleSrc) (h : FDoc) (rd rw rf : Ref) (hf : Spec.FontOfFile f rd rw rf) (hd : f.std = false ∨ f.embed = true) :
    ∃ k k' m, (f.written h rd rw rf).findKey (f.dict rd rw) (litBytes "Type") = some (.name (litBytes "Font")) ∧
      (∃ s, (f.written h rd rw rf).findKey (f.dict rd rw) (litBytes "Subtype") = some (.name s) ∧ simpleSub s = some k ∧ s ≠ litBytes "Type0") ∧
      (∃ dv, (f.written h rd rw rf).findKey (f.dict rd rw) (litBytes "FontDescriptor") = some dv ∧ simpleMetrics (f.written h rd rw rf) (f.dict rd rw) k (some dv) = .ok m) ∧
      m = ⟨f.name, k', [(toThousandths f.bbox.1 * 1, 3), (toThousandths f.bbox.2.1 * 1, 3), (toThousandths f.bbox.2.2.1 * 1, 3), (toThousandths f.bbox.2.2.2 * 1, 3)],
        thousandth, thousandth, if f.embed = true then (List.range' f.first (f.last + 1 - f.first)).map (fun c => (toThousandths (f.width c) * 1, 3)) else [],
        if 0 < f.dflt.1 then (toThousandths f.dflt, 0) else (0, 0), if 0 < f.weight then f.weight else -1,
        (toThousandths f.ascent * 1, 3), (toThousandths f.descent * 1, 3)⟩ ∧
      (f.written h rd rw rf).findKey (f.dict rd rw) (litBytes "FirstChar") = (if f.embed = true then some (.num f.first) else none) ∧
      (f.written h rd rw rf).findKey (f.dict rd rw) (litBytes "LastChar") = (if f.embed = true then some (.num f.last) else none) := by
  have find : ∀ k, SMap.find? k (f.dict rd rw) = lastPut k none _ := fun k => find_putEntries k _ []
  have hrd : f.written h rd rw rf rd = some (.dict (f.descriptor rf)) := by simp [SimpleSrc.written]
  have hrw : f.written h rd rw rf rw = some (.arr f.widthsArray) := by
    simp only [SimpleSrc.written]; rw [if_neg (fun e => hf.apart.1 e.symm), if_pos trivial]
  have hrf : f.written h rd rw rf rf = some (.dict f.fileDict) := by
    simp only [SimpleSrc.written]; rw [if_neg (fun e => hf.apart.2.1 e.symm), if_neg (fun e => hf.apart.2.2 e.symm), if_pos trivial]
  generalize hg : f.written h rd rw rf = g at *
  have e1 : g.findKey (f.dict rd rw) (litBytes "Type") = some (.name (litBytes "Font")) := by
    refine findKey_plain ?_ (by simp)
    rw [find]; simp (decide := true) only [lastPut_self, lastPut_ne, lastPut_nil, ne_eq, not_false_eq_true]
  have e2 : g.findKey (f.dict rd rw) (litBytes "Subtype") = some (.name (if f.trueType then litBytes "TrueType" else litBytes "Type1")) := by
    refine findKey_plain ?_ (by simp)
    rw [find]; simp (decide := true) only [lastPut_self, lastPut_ne, lastPut_nil, ne_eq, not_false_eq_true]
  have e3 : g.findKey (f.dict rd rw) (litBytes "BaseFont") = some (.name f.name) := by
    refine findKey_plain ?_ (by simp)
    rw [find]; simp (decide := true) only [lastPut_self, lastPut_ne, lastPut_nil, ne_eq, not_false_eq_true]
  have e4 : g.findKey (f.dict rd rw) (litBytes "FontDescriptor") = some (.dict (f.descriptor rf)) := by
    rw [← hrd]
    refine findKey_ref ?_
    have hb : (!f.std || f.embed) = true := by rcases hd with e | e <;> simp [e]
    rw [find]; simp (decide := true) only [lastPut_self, lastPut_ne, lastPut_nil, ne_eq, not_false_eq_true, hb, if_true]
  have e5 : g.findKey (f.dict rd rw) (litBytes "FirstChar") = (if f.embed = true then some (.num f.first) else none) := by
    refine findKey_plain ?_ (by split <;> simp)
    rw [find]; simp (decide := true) only [lastPut_self, lastPut_ne, lastPut_nil, ne_eq, not_false_eq_true]
  have e6 : g.findKey (f.dict rd rw) (litBytes "LastChar") = (if f.embed = true then some (.num f.last) else none) := by
    refine findKey_plain ?_ (by split <;> simp)
    rw [find]; simp (decide := true) only [lastPut_self, lastPut_ne, lastPut_nil, ne_eq, not_false_eq_true]
  have e7 : g.findKey (f.dict rd rw) (litBytes "Widths") = if f.embed = true then some (.arr f.widthsArray) else none := by
    have : SMap.find? (litBytes "Widths") (f.dict rd rw) = if f.embed = true then some (.ref rw.num rw.gen) else none := by
      rw [find]; simp (decide := true) only [lastPut_self, lastPut_ne, lastPut_nil, ne_eq, not_false_eq_true]
    split
    · next he => rw [if_pos he] at this; rw [findKey_ref this, hrw]
    · next he => rw [if_neg he] at this; exact findKey_plain this (by simp)
  have e8 : withKey g (f.dict rd rw) (litBytes "Widths") [] (fun v => do let l ← strictArr v; simpleWidths thousandth l) =
      .ok (if f.embed = true then (List.range' f.first (f.last + 1 - f.first)).map (fun c => (toThousandths (f.width c) * 1, 3)) else []) := by
    split at e7
    · next he =>
      rw [withKey_some e7, if_pos he]
      exact widths_num _ (fun c => toThousandths (f.width c))
    · next he => rw [withKey_none e7, if_neg he]
  have key : ∀ k, k = FontFileKind.type1 ∨ k = .trueType → ∃ k', simpleMetrics g (f.dict rd rw) k (some (.dict (f.descriptor rf))) = .ok ⟨f.name, k', [(toThousandths f.bbox.1 * 1, 3), (toThousandths f.bbox.2.1 * 1, 3), (toThousandths f.bbox.2.2.1 * 1, 3), (toThousandths f.bbox.2.2.2 * 1, 3)],
        thousandth, thousandth, if f.embed = true then (List.range' f.first (f.last + 1 - f.first)).map (fun c => (toThousandths (f.width c) * 1, 3)) else [],
        if 0 < f.dflt.1 then (toThousandths f.dflt, 0) else (0, 0), if 0 < f.weight then f.weight else -1,
        (toThousandths f.ascent * 1, 3), (toThousandths f.descent * 1, 3)⟩ := by
    intro k hk
    obtain ⟨k', hh⟩ := desc_head f g rd rw rf hf f.name hf.named k (f.dict rd rw) hrf
    have hm : fontMatrix g (f.dict rd rw) k = .ok (thousandth, thousandth) := by
      unfold fontMatrix; rw [if_pos (by rcases hk with rfl | rfl <;> simp)]
    have ht := desc_tail f g rd rw rf hf
    refine ⟨k', ?_⟩
    simp only [bind, Except.bind] at e8
    simp only [simpleMetrics, withKey_some e3, strictName, bind, Except.bind, hh, hm, e8, ht]
  cases ht : f.trueType with
  | true =>
    obtain ⟨k', hk⟩ := key .trueType (.inr rfl)
    rw [ht] at e2
    exact ⟨.trueType, k', _, e1, ⟨_, e2, by decide, by decide⟩, ⟨_, e4, hk⟩, rfl, e5, e6⟩
  | false =>
    obtain ⟨k', hk⟩ := key .type1 (.inl rfl)
    rw [ht] at e2
    exact ⟨.type1, k', _, e1, ⟨_, e2, by decide, by decide⟩, ⟨_, e4, hk⟩, rfl, e5, e6⟩

theorem load_written (w : FontWorld) (f : SimpleSrc) (h : FDoc) (rd rw rf : Ref) (hf : Spec.FontOfFile f rd rw rf) (hd : f.std = false ∨ f.embed = true) (e : MapLimits)
    (he : ∀ m, w.enc (f.dict rd rw) m = some e) (h1 : f.first < 4294967296) (h2 : f.last < 4294967296) :
    ∃ lf, loadFont w (f.written h rd rw rf) (f.dict rd rw) = .ok (.simple lf) ∧ lf.simple = e.simple ∧
      (f.embed = true → f.first < f.last → lf.first = f.first ∧ lf.last = f.last) ∧ (f.embed = false → lf.first = e.first ∧ lf.last = e.last) ∧
      ∃ k', lf.metrics = ⟨f.name, k', [(toThousandths f.bbox.1 * 1, 3), (toThousandths f.bbox.2.1 * 1, 3), (toThousandths f.bbox.2.2.1 * 1, 3), (toThousandths f.bbox.2.2.2 * 1, 3)],
        thousandth, thousandth, if f.embed = true then (List.range' f.first (f.last + 1 - f.first)).map (fun c => (toThousandths (f.width c) * 1, 3)) else [],
        if 0 < f.dflt.1 then (toThousandths f.dflt, 0) else (0, 0), if 0 < f.weight then f.weight else -1,
        (toThousandths f.ascent * 1, 3), (toThousandths f.descent * 1, 3)⟩ := by
  obtain ⟨k, k', m, g1, ⟨s, g2, g3, g4⟩, ⟨dv, g5, g6⟩, hm, g7, g8⟩ := written_metrics f h rd rw rf hf hd
  have hsub : loadFont w (f.written h rd rw rf) (f.dict rd rw) = simpleGot w (f.written h rd rw rf) (f.dict rd rw) k (some dv) := by
    rw [loadFont_font g1 g2]
    unfold subGot
    rw [if_neg g4, if_neg (by rw [g5]; simp), g3]
    simp only [g5]
  have hlim : ∃ lf, withLimits (f.written h rd rw rf) (f.dict rd rw) m e = .ok lf := by
    unfold withLimits
    split at g7
    · rw [withKey_some g7]
      split at g8
      · rw [withKey_some g8]; simp only [strictInt, Except.map, bind, Except.bind]; split <;> exact ⟨_, rfl⟩
      · contradiction
    · rw [withKey_none g7]
      split at g8
      · contradiction
      · rw [withKey_none g8]; simp only [bind, Except.bind]; split <;> exact ⟨_, rfl⟩
  obtain ⟨lf, hlf⟩ := hlim
  obtain ⟨p1, p2, p3⟩ := limits_parts hlf
  refine ⟨lf, ?_, p2, fun hb hab => ?_, fun hb => ?_, k', ?_⟩
  · rw [hsub]
    simp only [simpleGot, g6, bind, Except.bind, he, hlf]
  · rw [if_pos hb] at g7 g8
    exact (p3 _ _ g7 g8 h1 h2).1 hab
  · rw [if_neg (by simp [hb])] at g7 g8
    unfold withLimits at hlf
    rw [withKey_none g7, withKey_none g8] at hlf
    simp only [bind, Except.bind] at hlf
    rw [if_neg (by decide)] at hlf
    cases hlf
    exact ⟨rfl, rfl⟩
  · rw [p1, hm]

/-- **C190, embedded fonts.** A simple font made from a font file and embedded, with an encoding of more than one code: loaded again, it has the same name, and every code of the encoding has
its width to the nearest thousandth; so have the ascent, the descent and the four sides of the box, and the weight is the same. -/
theorem C190_embedded_partial (w : FontWorld) (f : SimpleSrc) (h : FDoc) (rd rw rf : Ref) (hf : Spec.FontOfFile f rd rw rf) (hemb : f.embed = true) (hab : f.first < f.last)
    (hlast : f.last < 4294967295) (e : MapLimits) (he : ∀ m, w.enc (f.dict rd rw) m = some e) (hs : e.simple = true) :
    ∃ lf, loadFont w (f.written h rd rw rf) (f.dict rd rw) = .ok (.simple lf) ∧ lf.metrics.name = f.name ∧
      (∀ c, f.first ≤ c → c ≤ f.last → ∃ n, lf.codeWidth c = .ok (n, 3) ∧ Spec.NearestThousandths (f.width c) n) ∧
      (∃ n, lf.metrics.ascent = (n, 3) ∧ Spec.NearestThousandths f.ascent n) ∧ (∃ n, lf.metrics.descent = (n, 3) ∧ Spec.NearestThousandths f.descent n) ∧
      (∃ a b c d, lf.metrics.bbox = [(a, 3), (b, 3), (c, 3), (d, 3)] ∧ Spec.NearestThousandths f.bbox.1 a ∧ Spec.NearestThousandths f.bbox.2.1 b ∧
        Spec.NearestThousandths f.bbox.2.2.1 c ∧ Spec.NearestThousandths f.bbox.2.2.2 d) ∧
      (0 < f.weight → lf.metrics.weight = f.weight) := by
  obtain ⟨lf, g1, g2, g3, -, k', g4⟩ := load_written w f h rd rw rf hf (.inr hemb) e he (by omega) (by omega)
  obtain ⟨g5, g6⟩ := g3 hemb hab
  refine ⟨lf, g1, by rw [g4], fun c hc hc' => ⟨toThousandths (f.width c), ?_, toThousandths_near _⟩, ⟨_, ?_, toThousandths_near _⟩, ⟨_, ?_, toThousandths_near _⟩,
    ⟨_, _, _, _, ?_, toThousandths_near _, toThousandths_near _, toThousandths_near _, toThousandths_near _⟩, fun hw => ?_⟩
  · unfold LoadedFont.codeWidth
    rw [if_neg (by omega)]
    have e1 : (c + 4294967296 - f.first) % 4294967296 = c - f.first := by omega
    have e2 : lf.metrics.widths[c - f.first]? = some (toThousandths (f.width c) * 1, 3) := by
      rw [g4]
      simp only [hemb, if_true, List.getElem?_map]
      rw [List.getElem?_range' (by omega)]
      simp only [Option.map_some, Nat.one_mul]
      rw [show f.first + (c - f.first) = c by omega]
    simp only [g2, hs, if_true, g5, e1, e2, Int.mul_one]
  · rw [g4]; simp only [Int.mul_one]
  · rw [g4]; simp only [Int.mul_one]
  · rw [g4]; simp only [Int.mul_one]
  · rw [g4]; simp only [if_pos hw]

/-- **C190, fonts that are not embedded, refuted.** A simple font made from a font file without embedding it, loaded again: every code has the same width, the whole number of thousandths in
the default width taken for a number of units, a thousand times too much, and 0 when there is none. -/
theorem C190_unembedded_false (w : FontWorld) (f : SimpleSrc) (h : FDoc) (rd rw rf : Ref) (hf : Spec.FontOfFile f rd rw rf) (hemb : f.embed = false) (hstd : f.std = false)
    (h1 : f.first < 4294967296) (h2 : f.last < 4294967296) (e : MapLimits) (he : ∀ m, w.enc (f.dict rd rw) m = some e) (hl : e.first ≤ e.last) :
    ∃ lf n, loadFont w (f.written h rd rw rf) (f.dict rd rw) = .ok (.simple lf) ∧ (∀ c, lf.codeWidth c = .ok (n, 0)) ∧
      (0 < f.dflt.1 → Spec.NearestThousandths f.dflt n) ∧ (f.dflt.1 ≤ 0 → n = 0) := by
  obtain ⟨lf, g1, g2, -, g3, k', g4⟩ := load_written w f h rd rw rf hf (.inl hstd) e he h1 h2
  obtain ⟨g5, g6⟩ := g3 hemb
  have hw : lf.metrics.widths = [] := by rw [g4]; simp [hemb]
  have hdd : lf.metrics.dflt = if 0 < f.dflt.1 then (toThousandths f.dflt, 0) else (0, 0) := by rw [g4]
  have hpos : 0 < f.dflt.1 → 0 ≤ toThousandths f.dflt := by
    intro hp; unfold toThousandths; rw [if_neg (by omega)]; omega
  by_cases hp : 0 < f.dflt.1
  · refine ⟨lf, toThousandths f.dflt, g1, fun c => ?_, fun _ => toThousandths_near _, fun hn => by omega⟩
    unfold LoadedFont.codeWidth
    rw [if_neg (by omega)]
    have := hpos hp
    simp only [hw, List.getElem?_nil, hdd, if_pos hp]
    rw [if_neg (by omega)]
  · refine ⟨lf, 0, g1, fun c => ?_, fun hn => absurd hn hp, fun _ => rfl⟩
    unfold LoadedFont.codeWidth
    rw [if_neg (by omega)]
    simp only [hw, List.getElem?_nil, hdd, if_neg hp]
    rfl

/-- **C190, the default width, refuted.** The same of embedded fonts for every code that is not in their encoding: written as the number of thousandths the default width has, it is read
as that number of units. -/
theorem C190_default_false (w : FontWorld) (f : SimpleSrc) (h : FDoc) (rd rw rf : Ref) (hf : Spec.FontOfFile f rd rw rf) (hemb : f.embed = true) (hab : f.first < f.last)
    (hlast : f.last < 4294967295) (hdf : 0 < f.dflt.1) (e : MapLimits) (he : ∀ m, w.enc (f.dict rd rw) m = some e) (hs : e.simple = true) :
    ∃ lf n, loadFont w (f.written h rd rw rf) (f.dict rd rw) = .ok (.simple lf) ∧ Spec.NearestThousandths f.dflt n ∧
      ∀ c, f.last < c → c < 4294967296 → lf.codeWidth c = .ok (n, 0) := by
  obtain ⟨lf, g1, g2, g3, -, k', g4⟩ := load_written w f h rd rw rf hf (.inr hemb) e he (by omega) (by omega)
  obtain ⟨g5, g6⟩ := g3 hemb hab
  refine ⟨lf, toThousandths f.dflt, g1, toThousandths_near _, fun c hc hc' => ?_⟩
  unfold LoadedFont.codeWidth
  rw [if_neg (by omega)]
  have e1 : (c + 4294967296 - f.first) % 4294967296 = c - f.first := by omega
  have e2 : lf.metrics.widths[c - f.first]? = none := by
    rw [g4]
    simp only [hemb, if_true]
    rw [List.getElem?_eq_none]
    simp; omega
  have hdd : lf.metrics.dflt = (toThousandths f.dflt, 0) := by rw [g4]; simp only [if_pos hdf]
  have : 0 ≤ toThousandths f.dflt := by unfold toThousandths; rw [if_neg (by omega)]; omega
  simp only [g2, hs, if_true, g5, e1, e2, hdd]
  rw [if_neg (by omega)]

/-- Not vacuous: a TrueType font of two codes with widths of a half and a third. -/
def simpleSrcExample : SimpleSrc where
  trueType := true
  name := litBytes "Sans"
  family := litBytes "Sans"
  stretch := none
  flags := 4
  italic := (0, 0)
  bbox := ((-5, 2), (-2, 1), (11, 1), (9, 1))
  weight := 400
  ascent := (92851, 5)
  descent := (-23633, 5)
  capHeight := (7, 1)
  stemV := (0, 0)
  xHeight := (0, 0)
  stemH := (-1, 0)
  dflt := (6, 1)
  leading := (-1, 0)
  avgWidth := (-1, 0)
  maxWidth := (-1, 0)
  std := false
  embed := true
  first := 65
  last := 66
  width := fun c => if c = 65 then (5, 1) else (3333, 4)
  encoding := .name (litBytes "WinAnsiEncoding")
  toUnicode := .ref 9 0
  fileKey := litBytes "FontFile2"
  fileDict := [(litBytes "Length1", .num 1000)]

example : Spec.FontOfFile simpleSrcExample ⟨5, 0⟩ ⟨6, 0⟩ ⟨7, 0⟩ :=
  ⟨by decide, by decide, by decide, .inr (.inl rfl), fun h => .inl rfl, by decide, by decide, by decide⟩

example : toThousandths (3333, 4) = 333 ∧ toThousandths (-23633, 5) = -236 ∧ toThousandths (-15, 4) = -2 := by decide

end Pdfmm
