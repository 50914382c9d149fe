import Verif.Fonts.DynamicEncoding
/-
The CMap that is written for the codes and CIDs of a subset font, and reading it.
`src/pdfmm/base/PdfEncoding.cpp`, `src/pdfmm/base/PdfCMapEncoding.cpp`.  Property C194.
-/
set_option autoImplicit false
namespace Pdfmm
open Spec

/-! ### Model -/

/-- The keyword behind the entries, `src/pdfmm/base/PdfEncoding.cpp:639`. -/
def kwEndCidChar : Bytes := asciiB "endcidchar"

/-- The beginning of the CMap, `src/pdfmm/base/PdfEncoding.cpp:559-571`; `548-550` add a suffix to the name of a subset font. -/
def cidHead (name suffix : Bytes) : Bytes :=
  asciiB "/CIDInit /ProcSet findresource begin
12 dict begin
begincmap
/CIDSystemInfo <<
   /Registry (pdfmm)
   /Ordering (" ++ (name ++ (asciiB ")
   /Supplement 0
>> def
/CMapName /" ++ (name ++ (suffix ++ asciiB " def
/CMapType 1 def
1 begincodespacerange
"))))

/-- The lines of the codes and CIDs, `src/pdfmm/base/PdfEncoding.cpp:630-638`. -/
def cidLines : List (CharCode × Nat) → Res Bytes
  | [] => .ok []
  | (c, cid) :: r =>
    hexCode c >>= fun t =>
    cidLines r >>= fun u =>
    .ok (t ++ 32 :: (fmtNat cid ++ 10 :: u))

/-- The content of the stream that `writeCIDMapping`, `src/pdfmm/base/PdfEncoding.cpp:544-651`, writes, given the ranges of codes and the entries. -/
def cidText (name suffix cs : Bytes) (es : List (CharCode × Nat)) : Res Bytes :=
  cidLines es >>= fun ls =>
  .ok (cidHead name suffix ++ (cs ++ 10 :: (kwEndCodeSpace ++ 10 :: (fmtNat es.length ++ 32 :: (kwBeginCidChar ++ 10 :: (ls ++ (kwEndCidChar ++ toUnicodeTail)))))))

/-- `writeCIDMapping` for a subset font: the entries are the codes and
CIDs of the glyphs in use, in the order of the glyphs; `order` is the order of the sizes in the hash table.  The ranges of
`src/pdfmm/base/PdfEncoding.cpp:575-615` are those of `AppendCodeSpaceRange` and depend on the codes only. -/
def cidMapText (name : Bytes) (es : List (CharCode × Nat)) (order : List Nat) : Res Bytes :=
  codeSpaceText (es.map fun e => (e.1, [0])) order >>= fun cs => cidText name (asciiB "-subset") cs es

/-- `writeCIDMapping` for a font that is embedded whole, with the map of a CMap: `AppendCIDMappingEntries` writes the first element behind each code,
`src/pdfmm/base/PdfEncodingMap.cpp:287-305`; the ranges depend on the codes only.  The numbers are written by `utls::FormatTo`, see `fmtU32`. -/
def wholeMapText (name : Bytes) (m : CodeMap) (order : List Nat) : Res Bytes :=
  if m.pairs.length < 1000000000 ∧ m.pairs.all (fun p => p.2.headD 0 < 1000000000) = true then
    codeSpaceText (m.pairs.map fun p => (p.1, [0])) order >>= fun cs => cidText name [] cs (m.pairs.map fun p => (p.1, p.2.headD 0))
  else .error .ub

/-- The mappings of an encoding of one byte, `src/pdfmm/base/PdfEncodingMap.cpp:449-465`: from `code` on, `k` of them.  `gid` gives the glyph of a character in
the font program; `z` is the size of the code zero, which is the conversion of an infinite number. -/
def oneByteCids (z : Nat) (look gid : Nat → Option Nat) : Nat → Nat → Res (List (CharCode × Nat))
  | _, 0 => .ok []
  | code, k + 1 =>
    match look code with
    | none => raise .InvalidFontFile
    | some cp =>
      oneByteCids z look gid (code + 1) k >>= fun r =>
      match gid cp with
      | none => .ok r
      | some g => .ok ((⟨code, if code = 0 then z else 1⟩, g) :: r)

/-- `writeCIDMapping` for a font that is embedded whole, with an encoding of one byte for the codes `first` to `last`, `src/pdfmm/base/PdfEncodingMap.cpp:273-280`
and `434-479`: the loop stops before the last code.  `look` gives the first character of a code.  Glyphs are taken to be below 1000000000, see `fmtU32`. -/
def oneByteMapText (z : Nat) (name : Bytes) (first last : Nat) (look gid : Nat → Option Nat) : Res Bytes :=
  hexCode ⟨first, if first = 0 then z else 1⟩ >>= fun a =>
  hexCode ⟨last, if last = 0 then z else 1⟩ >>= fun b =>
  oneByteCids z look gid first (last - first) >>= fun es =>
  if es.all (fun e => e.2 < 1000000000) = true then cidText name [] (a ++ b) es else .error .ub

/-- The codes and CIDs of the glyphs in use of a font made without an encoding, `src/pdfmm/base/PdfFont.cpp:770-782`. -/
def DynFont.entries (f : DynFont) : List (CharCode × Nat) := f.used.map fun x => (charCodeOf x.2, x.2)

/-- `TryConvertToCIDs` through a CMap that was read, `src/pdfmm/base/PdfEncoding.cpp:262-265`. -/
def CMapRead.toCids (r : CMapRead) (s : Bytes) : Res (Bool × List Nat) := Pdfmm.toCids r.limits r.codePoints s.length s

/-! ### Specification -/

namespace Spec

/-- A font name without whitespace, delimiters and backslashes that leaves room for the suffix. -/
def PlainFontName (name : Bytes) : Prop := (∀ c ∈ name, litChar c = true ∧ c ≠ 92 ∧ c ≠ 8) ∧ name.length ≤ 4088

/-- A code of one to four bytes and a CID. -/
def CidEntry (e : CharCode × Nat) : Prop := 1 ≤ e.1.size ∧ e.1.size ≤ 4 ∧ e.1.code < 256 ^ e.1.size ∧ e.2 < 4294967296

/-- The bytes that a number takes. -/
def bytesOfNumber (n : Nat) : Nat := if n < 256 then 1 else if n < 65536 then 2 else if n < 16777216 then 3 else 4

end Spec

/-! ### The entries -/

/-- An entry, after the end of the line before it. -/
def cidLine (e : CharCode × Nat) : Bytes := 10 :: (60 :: ((codeBytes e.1.code e.1.size).flatMap writeCharHex ++ [62]) ++ 32 :: fmtNat e.2)

theorem cidLines_ok (es : List (CharCode × Nat)) (h : ∀ e ∈ es, CidEntry e) :
    ∃ t, cidLines es = .ok t ∧ ∀ X : Bytes, 10 :: (t ++ X) = es.flatMap cidLine ++ 10 :: X := by
  induction es with
  | nil => exact ⟨[], rfl, fun X => rfl⟩
  | cons e r ih =>
    obtain ⟨c, cid⟩ := e
    obtain ⟨h1, h2, h3, h4⟩ := h (c, cid) List.mem_cons_self
    obtain ⟨t, ht, hX⟩ := ih (fun x hx => h x (List.mem_cons_of_mem _ hx))
    refine ⟨_, by rw [cidLines, hexCode_ok h1 h2 h3, ht]; rfl, fun X => ?_⟩
    have := hX X
    rw [List.flatMap_cons, List.append_assoc (cidLine _), ← this]
    simp [cidLine]

/-- What is known of the sizes while the entries are read. -/
structure CidSizes (a : List (CharCode × Nat)) (st : CMState) : Prop where
  low : 1 ≤ st.mn ∧ 1 ≤ st.map.limits.minSize
  codes : ∀ e ∈ a, st.mn ≤ e.1.size ∧ e.1.size ≤ st.mx
  nums : ∀ e ∈ a, st.mn ≤ numBytes e.2 ∧ numBytes e.2 ≤ st.mx

theorem numBytes_pos (n : Nat) : 1 ≤ numBytes n := by rw [numBytes]; (repeat' split) <;> omega

/-- The pushes of entries. -/
def cidPushes (es : List (CharCode × Nat)) : List (CharCode × List Nat) := es.map fun e => (e.1, [e.2])

theorem cidChar_entry {z : Nat} (a : List (CharCode × Nat)) (st : CMState) (e : CharCode × Nat) (h : CidEntry e)
    (hr : CodeMap.Reach z (cidPushes a) st.map) (hs : CidSizes a st) :
    ∃ st', cidChar st (.str (codeBytes e.1.code e.1.size) true) (.num e.2) = .ok st' ∧ CodeMap.Reach z (cidPushes (a ++ [e])) st'.map ∧ CidSizes (a ++ [e]) st' := by
  obtain ⟨⟨code, size⟩, cid⟩ := e
  obtain ⟨h1, h2, h3, h4⟩ := h
  dsimp only at h1 h2 h3 h4 ⊢
  rw [cidChar, code_str st _ true (by rw [codeBytes_length]; exact h2), valueOf_codeBytes, Nat.mod_eq_of_lt h3, codeBytes_length]
  simp only
  rw [CMState.code, codeOfVar, if_neg (by omega)]
  simp only [Int.toNat_natCast]
  rw [Nat.mod_eq_of_lt h4, CMState.push_ok _ (by show size ≠ 0; omega) (by simp)]
  have hnb := numBytes_pos cid
  obtain ⟨⟨l1, l2⟩, s2, s3⟩ := hs
  refine ⟨_, rfl, ?_, ⟨⟨?_, ?_⟩, ?_, ?_⟩⟩
  · rw [cidPushes, List.map_append]
    exact CodeMap.Reach.push hr (CodeMap.push_ok _ (by show size ≠ 0; omega) (by simp))
  · dsimp only
    (repeat' split) <;> omega
  · simp only [CodeLimits.push]
    split <;> omega
  · intro x hx
    dsimp only
    rcases List.mem_append.1 hx with hx | hx
    · have := s2 x hx
      constructor <;> (repeat' split) <;> omega
    · rw [List.mem_singleton] at hx
      subst hx
      dsimp only
      constructor <;> (repeat' split) <;> omega
  · intro x hx
    dsimp only
    rcases List.mem_append.1 hx with hx | hx
    · have := s3 x hx
      constructor <;> (repeat' split) <;> omega
    · rw [List.mem_singleton] at hx
      subst hx
      dsimp only
      constructor <;> (repeat' split) <;> omega

theorem cid_loop {z : Nat} (b : List (CharCode × Nat)) (hb : ∀ e ∈ b, CidEntry e) (rest : Bytes) (hrest : StartsOk rest) :
    ∀ (a : List (CharCode × Nat)) (cur : Var) (st : CMState), CodeMap.Reach z (cidPushes a) st.map → CidSizes a st →
      ∃ st', cidCharLoop b.length cur st ⟨[], b.flatMap cidLine ++ rest, 0⟩ = .ok (st', ⟨[], rest, 0⟩) ∧
        CodeMap.Reach z (cidPushes (a ++ b)) st'.map ∧ CidSizes (a ++ b) st' := by
  induction b with
  | nil => intro a cur st hr hs; exact ⟨st, rfl, by simpa using hr, by simpa using hs⟩
  | cons e r ih =>
    intro a cur st hr hs
    have he := hb e List.mem_cons_self
    obtain ⟨st1, e1, e2, e3⟩ := cidChar_entry a st e he hr hs
    obtain ⟨st2, f1, f2, f3⟩ := ih (fun x hx => hb x (List.mem_cons_of_mem _ hx)) (a ++ [e]) (.num e.2) st1 e2 e3
    refine ⟨st2, ?_, by simpa using f2, by simpa using f3⟩
    have hne : codeBytes e.1.code e.1.size ≠ [] := by
      intro h
      have := congrArg List.length h
      rw [codeBytes_length] at this
      have := he.1
      simp at *; omega
    have hst : StartsOk (r.flatMap cidLine ++ rest) := by
      cases r with
      | nil => exact hrest
      | cons x y => rw [List.flatMap_cons, cidLine, List.cons_append, List.cons_append]; exact StartsOk.cons_ws (by decide)
    have hh := readHex_write (codeBytes e.1.code e.1.size) (32 :: (fmtNat e.2 ++ (r.flatMap cidLine ++ rest)))
    obtain ⟨c, q, hq, hc⟩ := hexBody_head hne (62 :: (32 :: (fmtNat e.2 ++ (r.flatMap cidLine ++ rest))))
    rw [hq] at hh
    have ht : (e :: r).flatMap cidLine ++ rest = 10 :: 60 :: c :: q := by
      rw [← hq, List.flatMap_cons, cidLine]
      simp
    rw [ht, List.length_cons, cidCharLoop, psNext_ws (by decide), psNext_hex hc hh]
    simp only
    rw [psVariant_ws (by decide), psVariant_num (by have := he.2.2.2; omega) hst 0 (by decide)]
    simp only
    rw [e1]
    exact f1

/-! ### The whole text -/

/-- The dictionary at the beginning. -/
theorem psNext_cidInfo (ordering rest : Bytes) (os r2 : Bytes) (hs : ∀ X : Bytes, readString (ordering ++ X) = (os, X)) (_ : rest = 32 :: r2) :
    ∃ v, psNext ⟨[], asciiB "<<\n   /Registry (pdfmm)\n   /Ordering (" ++ (ordering ++ (asciiB "\n   /Supplement 0\n>>" ++ rest)), 0⟩ =
      .ok (some (.value v), ⟨[], rest, 0⟩) := by
  have e1 : asciiB "<<\n   /Registry (pdfmm)\n   /Ordering (" =
      60 :: 60 :: ([10, 32, 32, 32] ++ 47 :: (asciiB "Registry" ++ 32 :: 40 :: (asciiB "pdfmm)" ++ ([10, 32, 32, 32] ++ 47 :: (asciiB "Ordering" ++ [32, 40]))))) := by
    decide +kernel
  have e2 : asciiB "\n   /Supplement 0\n>>" = [10, 32, 32, 32] ++ 47 :: (asciiB "Supplement" ++ 32 :: (fmtNat 0 ++ [10, 62, 62])) := by decide +kernel
  have e3 : ∀ X : Bytes, readString (asciiB "pdfmm)" ++ X) = (asciiB "pdfmm", X) := by
    intro X
    have e : asciiB "pdfmm)" ++ X = (asciiB "pdfmm").flatMap wrLitByte ++ 41 :: X := by
      have : (asciiB "pdfmm").flatMap wrLitByte = asciiB "pdfmm" := by decide +kernel
      rw [this]
      have : asciiB "pdfmm)" = asciiB "pdfmm" ++ [41] := by decide +kernel
      rw [this, List.append_assoc]; rfl
    rw [e, readString, readString_lit]; rfl
  rw [e1, e2]
  simp only [List.cons_append, List.append_assoc, List.nil_append]
  rw [psNext, tok_of_lex 0 (lex_dangle (by decide) (Or.inl rfl))]
  simp only [if_true, reduceCtorEq, if_false, P.andThen, determine]
  generalize hf : 2 * PS.weight _ + 2 = f
  obtain ⟨g, hg⟩ : ∃ g, f = g + 1 + 1 + 1 + 1 + 1 := ⟨f - 5, by
    simp only [PS.weight, List.length_cons, List.map_nil, List.sum_nil] at hf
    omega⟩
  rw [hg]
  simp only [readDT]
  have sk : ∀ c ∈ ([10, 32, 32, 32] : Bytes), isWhitespace c = true := by decide
  have sk' : ∀ (f : Nat) (acc : List (Bytes × Var)) (r : Bytes),
      readDict psCfg (f + 1) acc none ⟨[], 10 :: 32 :: 32 :: 32 :: r, 0⟩ = readDict psCfg (f + 1) acc none ⟨[], r, 0⟩ :=
    fun f acc r => readDict_skip [10, 32, 32, 32] sk f acc r 0
  rw [sk', readDict_str _ _ (w := asciiB "Registry") (by decide) (by decide) (by decide) (by decide) (e3 _) 0 (by decide),
    sk', readDict_str _ _ (w := asciiB "Ordering") (by decide) (by decide) (by decide) (by decide) (hs _) 0 (by decide),
    sk', readDict_num _ _ (w := asciiB "Supplement") (by decide) (by decide) (by decide) (by decide) (by decide) (StartsOk.cons_ws (by decide)) 0 (by decide)]
  rw [show (10 :: 62 :: 62 :: rest : Bytes) = [10] ++ 62 :: 62 :: rest from rfl, readDict_skip [10] (by decide), readDict_end]
  exact ⟨_, rfl⟩

/-- The beginning of the text after the dictionary. -/
def cidItems (name suffix : Bytes) : List (CItem × Byte) :=
  [(.word (asciiB "def"), 10), (.name (asciiB "CMapName"), 32), (.name (name ++ suffix), 32), (.word (asciiB "def"), 10),
    (.name (asciiB "CMapType"), 32), (.num 1, 32), (.word (asciiB "def"), 10), (.num 1, 32)]

theorem cidHead_eq (name suffix : Bytes) : cidHead name suffix = itemsText headItems1 ++ (asciiB "<<\n   /Registry (pdfmm)\n   /Ordering (" ++ ((name ++ [41]) ++
    (asciiB "\n   /Supplement 0\n>>" ++ 32 :: (itemsText (cidItems name suffix) ++ (kwBeginCodeSpace ++ [10]))))) := by
  have e1 : asciiB "/CIDInit /ProcSet findresource begin
12 dict begin
begincmap
/CIDSystemInfo <<
   /Registry (pdfmm)
   /Ordering (" = itemsText headItems1 ++ asciiB "<<\n   /Registry (pdfmm)\n   /Ordering (" := by decide +kernel
  have e2 : asciiB ")
   /Supplement 0
>> def
/CMapName /" = 41 :: (asciiB "\n   /Supplement 0\n>>" ++ 32 :: (asciiB "def" ++ 10 :: 47 :: (asciiB "CMapName" ++ [32, 47]))) := by decide +kernel
  have e3 : asciiB " def
/CMapType 1 def
1 begincodespacerange
" = 32 :: (asciiB "def" ++ 10 :: 47 :: (asciiB "CMapType" ++ 32 :: (fmtNat 1 ++ 32 :: (asciiB "def" ++ 10 :: (fmtNat 1 ++ 32 :: (kwBeginCodeSpace ++ [10])))))) := by
    decide +kernel
  rw [cidHead, e1, e2, e3]
  simp [cidItems, itemsText, CItem.text]

theorem readString_plain {name : Bytes} (h : PlainFontName name) (X : Bytes) : readString ((name ++ [41]) ++ X) = (name, X) := by
  have e : name.flatMap wrLitByte = name := by
    obtain ⟨h, h2⟩ := h
    clear X h2
    induction name with
    | nil => rfl
    | cons c r ih =>
      rw [List.flatMap_cons, ih (fun x hx => h x (List.mem_cons_of_mem _ hx))]
      have hc : ∀ b : Byte, litChar b = true ∧ b ≠ 92 ∧ b ≠ 8 → wrLitByte b = [b] :=
        fun b => forall_byte (P := fun b => litChar b = true ∧ b ≠ 92 ∧ b ≠ 8 → wrLitByte b = [b]) (by decide +kernel) b
      rw [hc c (h c List.mem_cons_self)]; rfl
  have := readString_lit name X []
  rw [e] at this
  rw [List.append_assoc, List.singleton_append, readString, this]; rfl

/-- The suffixes. -/
def IsSuffixOf (suffix : Bytes) : Prop := (∀ c ∈ suffix, litChar c = true) ∧ suffix.length ≤ 7

theorem isSuffix_subset : IsSuffixOf (asciiB "-subset") := ⟨by decide +kernel, by decide +kernel⟩

theorem isSuffix_nil : IsSuffixOf [] := ⟨by simp, by decide⟩

theorem cidItems_ok {name suffix : Bytes} (h : PlainFontName name) (hs : IsSuffixOf suffix) : ∀ p ∈ cidItems name suffix, p.1.Ok ∧ isWhitespace p.2 = true := by
  intro p hp
  have hl : (∀ c ∈ name ++ suffix, litChar c = true) ∧ (name ++ suffix).length ≤ 4095 := by
    constructor
    · intro c hc
      rcases List.mem_append.1 hc with hc | hc
      · exact (h.1 c hc).1
      · exact hs.1 c hc
    · rw [List.length_append]
      have := h.2
      have := hs.2
      omega
  simp only [cidItems, List.mem_cons, List.not_mem_nil, or_false] at hp
  rcases hp with rfl | rfl | rfl | rfl | rfl | rfl | rfl | rfl
  · decide +kernel
  · decide +kernel
  · exact ⟨hl, by show isWhitespace 32 = true; decide⟩
  · decide +kernel
  · decide +kernel
  · decide +kernel
  · decide +kernel
  · decide +kernel

theorem cmapLoop_cidHead {name suffix : Bytes} (hname : PlainFontName name) (hs : IsSuffixOf suffix) (n : Nat) (st : CMState) (X : Bytes) {st2 : CMState} {s2 : PS}
    (h : pairLoop kwEndCodeSpace codeSpace n st ⟨[], 10 :: X, 0⟩ = .ok (st2, s2)) :
    cmapLoop (n + 19) [] st ⟨[], cidHead name suffix ++ X, 0⟩ = cmapLoop n [] st2 s2 := by
  rw [cidHead_eq, List.append_assoc, List.append_assoc, List.append_assoc, List.append_assoc]
  rw [show n + 19 = (n + 10) + headItems1.length from rfl, cmapLoop_items headItems1 (by decide +kernel)]
  obtain ⟨v, hv⟩ := psNext_cidInfo (name ++ [41]) (32 :: (itemsText (cidItems name suffix) ++ (kwBeginCodeSpace ++ 10 :: X))) name
    (itemsText (cidItems name suffix) ++ (kwBeginCodeSpace ++ 10 :: X)) (readString_plain hname) rfl
  simp only [List.append_assoc, List.cons_append, List.nil_append] at hv ⊢
  rw [cmapLoop_value hv, cmapLoop_ws (by decide), show n + 9 = (n + 1) + (cidItems name suffix).length from rfl, cmapLoop_items (cidItems name suffix) (cidItems_ok hname hs)]
  refine cmapLoop_keyword (psNext_word (by decide +kernel) (StartsOk.cons_ws (by decide)) 0) n _ st ?_
  rw [cmapSection, if_pos rfl]
  exact h

theorem cidText_read (z : Nat) {name suffix : Bytes} (hname : PlainFontName name) (hsf : IsSuffixOf suffix) (es : List (CharCode × Nat)) (he : ∀ e ∈ es, CidEntry e)
    (hn : es.length < 2147483648) (ps : List (CharCode × List Nat)) (hp : ∀ p ∈ ps, PairOK p) (order : List Nat) {cs : Bytes} (hcs' : codeSpaceText ps order = .ok cs) :
    ∃ text st, cidText name suffix cs es = .ok text ∧ parseCMap z text = .ok st ∧ CodeMap.Reach z (cidPushes es) st.map ∧ CidSizes es st := by
  obtain ⟨ls, hls, hX⟩ := cidLines_ok es he
  obtain ⟨cs', hcs, hl⟩ := codeSpace_loop ps hp
    (10 :: (fmtNat es.length ++ 32 :: (kwBeginCidChar ++ 10 :: (ls ++ (kwEndCidChar ++ toUnicodeTail)))))
    0 (by decide) (StartsOk.cons_ws (by decide)) order
  rw [hcs', Except.ok.injEq] at hcs
  subst hcs
  have hh : 20 ≤ (cidHead name suffix).length := by
    rw [cidHead, List.length_append]
    have : 20 ≤ (asciiB "/CIDInit /ProcSet findresource begin
12 dict begin
begincmap
/CIDSystemInfo <<
   /Registry (pdfmm)
   /Ordering (").length := by decide +kernel
    omega
  have htl : 12 ≤ toUnicodeTail.length := by decide +kernel
  generalize hB : cs ++ 10 :: (kwEndCodeSpace ++ 10 :: (fmtNat es.length ++ 32 :: (kwBeginCidChar ++ 10 :: (ls ++ (kwEndCidChar ++ toUnicodeTail))))) = B at hl
  have hBl : cs.length + 15 ≤ B.length := by
    rw [← hB]
    simp only [List.length_append, List.length_cons]
    omega
  have ht : cidText name suffix cs es = .ok (cidHead name suffix ++ B) := by
    rw [cidText, hls, ← hB]; rfl
  obtain ⟨k, hk⟩ : ∃ k, (cidHead name suffix).length - 18 + B.length = k + 3 := ⟨_, (Nat.sub_add_cancel (by omega)).symm⟩
  obtain ⟨st1, e1, e2, e3⟩ := hl (k + 3) ⟨.init z, 255, 0⟩ (by omega) ⟨Or.inl rfl, Or.inl rfl, Or.inl rfl, Or.inl rfl⟩
  have hlow : 1 ≤ st1.mn ∧ 1 ≤ st1.map.limits.minSize := by
    constructor
    · rcases e3.mn with h | ⟨p, hp', h⟩
      · omega
      · have := (hp p hp').1; omega
    · rcases e3.lmn with h | ⟨p, hp', h⟩
      · omega
      · have := (hp p hp').1; omega
  obtain ⟨st2, f1, f2, f3⟩ := cid_loop (z := z) es he (10 :: (kwEndCidChar ++ toUnicodeTail)) (StartsOk.cons_ws (by decide)) [] .null st1
    (by rw [e2]; exact CodeMap.Reach.init) ⟨hlow, by simp, by simp⟩
  refine ⟨_, st2, ht, ?_, by simpa using f2, by simpa using f3⟩
  rw [parseCMap_start z ((k + 3) + 19) _ (by rw [List.length_append]; omega)]
  rw [cmapLoop_cidHead hname hsf (k + 3) _ B (st2 := st1) (s2 := ⟨[], 10 :: (fmtNat es.length ++ 32 :: (kwBeginCidChar ++ 10 :: (ls ++ (kwEndCidChar ++ toUnicodeTail)))), 0⟩)]
  · rw [cmapLoop_ws (by decide), cmapLoop_value (psNext_num (by omega) (StartsOk.cons_ws (by decide)) 0), cmapLoop_ws (by decide),
      cmapLoop_keyword (psNext_word (by decide +kernel) (StartsOk.cons_ws (by decide)) 0) (k + 1) _ st1 (st2 := st2) (s2 := ⟨[], 10 :: (kwEndCidChar ++ toUnicodeTail), 0⟩),
      cmapLoop_ws (by decide),
      cmapLoop_keyword (psNext_word (by decide +kernel) (by rw [toUnicodeTail_eq]; exact StartsOk.cons_ws (by decide)) 0) k _ st2 (st2 := st2) (s2 := ⟨[], toUnicodeTail, 0⟩),
      cmapLoop_tail k (by omega)]
    · rw [cmapSection, if_neg (by decide +kernel), if_neg (by decide +kernel), if_neg (by decide +kernel), if_neg (by decide +kernel), if_neg (by decide +kernel)]
    · rw [cmapSection, if_neg (by decide +kernel), if_neg (by decide +kernel), if_neg (by decide +kernel), if_neg (by decide +kernel), if_pos rfl, cidCount]
      have : ((es.length : Int) % 4294967296) = es.length := by omega
      rw [this, if_pos (by omega)]
      simp only [Int.toNat_natCast]
      rw [hX]
      exact f1
  · rw [← e1, pairLoop, pairLoop, seqNext_ws (by decide)]

theorem codesOK {es : List (CharCode × Nat)} (he : ∀ e ∈ es, CidEntry e) : ∀ p ∈ es.map (fun e => (e.1, [0])), PairOK p := by
  intro p hp
  obtain ⟨e, hm, rfl⟩ := List.mem_map.1 hp
  obtain ⟨h1, h2, h3, _⟩ := he e hm
  exact ⟨h1, h2, h3, by simp, by simp [IsScalar]⟩

theorem codeSpaceText_ok (ps : List (CharCode × List Nat)) (hp : ∀ p ∈ ps, PairOK p) (order : List Nat) : ∃ cs, codeSpaceText ps order = .ok cs := by
  obtain ⟨cs, h, _⟩ := codeSpace_loop ps hp [] 0 (by decide) (Or.inl rfl) order
  exact ⟨cs, h⟩

theorem cidMap_read (z : Nat) {name : Bytes} (hname : PlainFontName name) (es : List (CharCode × Nat)) (he : ∀ e ∈ es, CidEntry e)
    (hn : es.length < 2147483648) (order : List Nat) :
    ∃ text st, cidMapText name es order = .ok text ∧ parseCMap z text = .ok st ∧ CodeMap.Reach z (cidPushes es) st.map ∧ CidSizes es st := by
  obtain ⟨cs, hcs⟩ := codeSpaceText_ok _ (codesOK he) order
  obtain ⟨text, st, h1, h⟩ := cidText_read z hname isSuffix_subset es he hn _ (codesOK he) order hcs
  exact ⟨text, st, by rw [cidMapText, hcs]; exact h1, h⟩

theorem bytesOfNumber_eq {n : Nat} (h : n < 4294967296) : bytesOfNumber n = numBytes n := by
  rw [bytesOfNumber, numBytes]
  (repeat' split) <;> omega

/-- What is read, given the pushes. -/
theorem cid_lookup {z : Nat} {text : Bytes} {st : CMState} (h2 : parseCMap z text = .ok st) {es : List (CharCode × Nat)}
    (h3 : CodeMap.Reach z (cidPushes es) st.map) (h4 : CidSizes es st) (hd : es.Pairwise fun x y => x.1.code ≠ y.1.code) :
    ∃ r, cmapFromText z text = .ok r ∧ (∀ e ∈ es, r.codePoints e.1 = some [e.2]) ∧
      1 ≤ r.limits.minSize ∧ ∀ e ∈ es, r.limits.minSize ≤ e.1.size ∧ e.1.size ≤ r.limits.maxSize := by
  obtain ⟨r, hr⟩ := cmapFromText_ok h2
  have inv := CodeMap.reach_inv h3
  have hinj : ∀ x ∈ es, ∀ y ∈ es, x.1.code = y.1.code → x = y := by
    have : ∀ l : List (CharCode × Nat), (l.Pairwise fun x y => x.1.code ≠ y.1.code) → ∀ x ∈ l, ∀ y ∈ l, x.1.code = y.1.code → x = y := by
      intro l hl
      induction hl with
      | nil => intro x hx; simp at hx
      | cons ha _ ih =>
        intro x hx y hy e
        rcases List.mem_cons.1 hx with h1 | h1 <;> rcases List.mem_cons.1 hy with h2 | h2
        · rw [h1, h2]
        · exact absurd (h1 ▸ e) (ha y h2)
        · exact absurd (h2 ▸ e.symm) (ha x h1)
        · exact ih x h1 y h2 e
    exact this es hd
  have hone : OneSize (cidPushes es) := by
    intro x hx y hy e
    obtain ⟨a, ha, rfl⟩ := List.mem_map.1 hx
    obtain ⟨b, hb, rfl⟩ := List.mem_map.1 hy
    rw [hinj a ha b hb e]
  refine ⟨r, hr, ?_, ?_, ?_⟩
  · intro e hm
    refine C100_listed_partial z text st r h2 hr e.1 [e.2] ?_
    have hmaps : Maps (cidPushes es) e.1 [e.2] := by
      obtain ⟨a, b, rfl⟩ := List.append_of_mem hm
      refine ⟨cidPushes a, cidPushes b, by simp [cidPushes], ?_⟩
      intro x hx hc
      obtain ⟨y, hy, rfl⟩ := List.mem_map.1 hx
      rw [List.pairwise_append] at hd
      exact (List.pairwise_cons.1 hd.2.1).1 y hy (by rw [← hc])
    rw [CodeMap.codePoints, (mem_pairs inv.sorted e.1 [e.2]).1 ((inv.maps hone e.1 [e.2]).2 hmaps)]
    rfl
  · rw [cmapFromText_limits h2 hr, CMState.limits]
    have := h4.low
    simp only
    split <;> omega
  · intro e hm
    rw [cmapFromText_limits h2 hr, CMState.limits]
    have := h4.codes e hm
    simp only
    constructor <;> split <;> omega

/-! ### Theorems -/

/-- **C194**.  For every set of codes and CIDs of the glyphs in use of a subset font, no two of them with the same code, the CMap is written without an
error, and reading it gives an encoding in which every code has its CID, and the size of every code is within the limits that are tried. -/
theorem C194_read_back (z : Nat) {name : Bytes} (hname : PlainFontName name) (es : List (CharCode × Nat)) (he : ∀ e ∈ es, CidEntry e)
    (hd : es.Pairwise fun x y => x.1.code ≠ y.1.code) (hn : es.length < 2147483648) (order : List Nat) :
    ∃ text r, cidMapText name es order = .ok text ∧ cmapFromText z text = .ok r ∧ (∀ e ∈ es, r.codePoints e.1 = some [e.2]) ∧
      1 ≤ r.limits.minSize ∧ ∀ e ∈ es, r.limits.minSize ≤ e.1.size ∧ e.1.size ≤ r.limits.maxSize := by
  obtain ⟨text, st, h1, h2, h3, h4⟩ := cidMap_read z hname es he hn order
  obtain ⟨r, h⟩ := cid_lookup h2 h3 h4 hd
  exact ⟨text, r, h1, h⟩

/-- **C194**, the sizes of codes: the CIDs that follow the codes are counted as codes too, so that the sizes of the codes of the font that is
loaded range over the sizes of its CIDs. -/
theorem C194_sizes (z : Nat) {name : Bytes} (hname : PlainFontName name) (es : List (CharCode × Nat)) (he : ∀ e ∈ es, CidEntry e)
    (hn : es.length < 2147483648) (order : List Nat) {text : Bytes} {r : CMapRead} (ht : cidMapText name es order = .ok text)
    (hr : cmapFromText z text = .ok r) : ∀ e ∈ es, r.limits.minSize ≤ bytesOfNumber e.2 ∧ bytesOfNumber e.2 ≤ r.limits.maxSize := by
  obtain ⟨text', st, h1, h2, h3, h4⟩ := cidMap_read z hname es he hn order
  rw [ht, Except.ok.injEq] at h1
  subst h1
  intro e hm
  rw [bytesOfNumber_eq (he e hm).2.2.2, cmapFromText_limits h2 hr, CMState.limits]
  have := h4.nums e hm
  simp only
  constructor <;> split <;> omega

/-- **C194** is false of the sizes of codes: when all codes have the same size and a CID takes another number of bytes, the font that is loaded is not taken to
have codes of that size only. -/
theorem C194_sizes_false (z : Nat) {name : Bytes} (hname : PlainFontName name) (es : List (CharCode × Nat)) (he : ∀ e ∈ es, CidEntry e)
    (hn : es.length < 2147483648) (order : List Nat) {text : Bytes} {r : CMapRead} (ht : cidMapText name es order = .ok text)
    (hr : cmapFromText z text = .ok r) {k : Nat} (hk : ∀ e ∈ es, e.1.size = k) (hc : ∃ e ∈ es, bytesOfNumber e.2 ≠ k) :
    ¬ (r.limits.minSize = k ∧ r.limits.maxSize = k) := by
  obtain ⟨e, hm, hne⟩ := hc
  have := C194_sizes z hname es he hn order ht hr e hm
  have := hk e hm
  rintro ⟨h1, h2⟩
  omega

theorem entries_mem {z : Nat} {f : DynFont} {L : List (Nat × Nat)} (inv : DynInv z f L) {e : CharCode × Nat} :
    e ∈ f.entries ↔ ∃ n, 1 ≤ n ∧ n ≤ L.length ∧ e = (charCodeOf n, n) := by
  rw [DynFont.entries, List.mem_map]
  constructor
  · rintro ⟨⟨g, n⟩, hx, rfl⟩
    obtain ⟨h1, h2⟩ := (inv.used.find g n).1 (SMap.mem_find inv.used.sorted hx)
    have := (List.getElem?_eq_some_iff.1 h2).1
    rw [List.length_map] at this
    exact ⟨n, h1, by omega, rfl⟩
  · rintro ⟨n, h1, h2, rfl⟩
    have hlt : n - 1 < (L.map (·.1)).length := by rw [List.length_map]; omega
    exact ⟨((L.map (·.1))[n - 1], n), SMap.find_mem ((inv.used.find _ n).2 ⟨h1, List.getElem?_eq_getElem hlt⟩), rfl⟩

theorem entries_distinct {z : Nat} {f : DynFont} {L : List (Nat × Nat)} (inv : DynInv z f L) :
    f.entries.Pairwise fun x y => x.1.code ≠ y.1.code := by
  rw [DynFont.entries, List.pairwise_map]
  have hf := inv.used.find
  have hs := inv.used.sorted
  have key : ∀ m : List (Nat × Nat), SMap.Sorted m → (∀ x ∈ m, (L.map (·.1))[x.2 - 1]? = some x.1) → m.Pairwise fun x y => x.2 ≠ y.2 := by
    intro m
    induction m with
    | nil => intro _ _; exact List.Pairwise.nil
    | cons x r ih =>
      intro hm hx
      refine List.Pairwise.cons ?_ (ih hm.2 fun y hy => hx y (List.mem_cons_of_mem _ hy))
      intro y hy e
      have h1 := hx x List.mem_cons_self
      have h2 := hx y (List.mem_cons_of_mem _ hy)
      rw [e, h2, Option.some.injEq] at h1
      have := hm.1 y hy
      rw [h1] at this
      simp [StrictOrd.lt] at this
  exact key f.used hs fun x hx => ((hf x.1 x.2).1 (SMap.mem_find hs hx)).2

/-- **C194** for fonts made without an encoding.  While at most 255 glyphs are in use, the CMap of the font is written without an error, and the CIDs of every
text encoded so far are the same through it, after it was read, as before. -/
theorem C194_dynamic_partial {z : Nat} {gid : Nat → Option Nat} {texts : List (List Nat)} {f : DynFont} {outs : List (Option Bytes)}
    (h : (DynFont.init z).encodeAll gid texts = .ok (f, outs)) (hn : (drawnGlyphs gid texts).length ≤ 255) {name : Bytes} (hname : PlainFontName name)
    (order : List Nat) :
    ∃ text r, cidMapText name f.entries order = .ok text ∧ cmapFromText z text = .ok r ∧
      ∀ (i : Nat) (t : List Nat) (s : Bytes), texts[i]? = some t → outs[i]? = some (some s) →
        r.toCids s = f.toCids s ∧ ∃ ids, r.toCids s = .ok (true, ids) ∧ ids.map (fun c => (drawnGlyphs gid texts)[c - 1]?) = t.map gid := by
  obtain ⟨f', h', inv⟩ := encodeAll_new z gid texts
  rw [h] at h'
  have e := h'
  simp only [Except.ok.injEq, Prod.mk.injEq] at e
  obtain ⟨rfl, _⟩ := e
  have hlen : (firstPairs gid texts).length ≤ 255 := by rw [← List.length_map (f := (·.1)), firstPairs_fst]; exact hn
  have hent : ∀ e ∈ f.entries, CidEntry e ∧ e.1.size = 1 := by
    intro e he
    obtain ⟨n, h1, h2, rfl⟩ := (entries_mem inv).1 he
    have hs : (charCodeOf n).size = 1 := by
      show charCodeSize n = 1
      rw [charCodeSize, if_pos (by omega)]
    refine ⟨⟨by rw [hs]; decide, by rw [hs]; decide, ?_, ?_⟩, hs⟩
    · rw [hs]
      show n < 256 ^ 1
      omega
    · show n < 4294967296
      omega
  have hul : f.entries.length ≤ 255 := by
    rw [DynFont.entries, List.length_map, inv.used.length, List.length_map]; exact hlen
  obtain ⟨text, r, h1, h2, h3, h4, h5⟩ := C194_read_back z hname f.entries (fun e he => (hent e he).1) (entries_distinct inv) (by omega) order
  refine ⟨text, r, h1, h2, fun i t s ht hs => ?_⟩
  obtain ⟨ids, c1, c2, c3⟩ := C193_cids_partial h hn ht hs
  obtain ⟨_, hm, rfl⟩ := encodeAll_at h ht hs
  have hflat : (t.flatMap fun cp => bytesFor (firstPairs gid texts) ((gid cp).getD 0, cp)) =
      (t.map fun cp => (⟨numOf (firstPairs gid texts) ((gid cp).getD 0), 1⟩ : CharCode)).flatMap fun c => codeBytes c.code c.size := by
    rw [List.flatMap_map]
    clear ht hs c1 c3
    induction t with
    | nil => rfl
    | cons cp q ih =>
      rw [List.flatMap_cons, List.flatMap_cons, ih (fun x hx => hm x (by simp [hx]))]
      have hle := numOf_le (hm cp (by simp))
      rw [bytesFor]
      simp only
      rw [charCodeSize, if_pos (by omega)]
  have both : ∀ (l : CodeLimits) (look : CharCode → Option (List Nat)), (drawnChars gid texts ≠ [] → l.minSize = 1 ∧ 1 ≤ l.maxSize) →
      (∀ cp ∈ drawnChars gid texts, look ⟨numOf (firstPairs gid texts) ((gid cp).getD 0), 1⟩ = some [numOf (firstPairs gid texts) ((gid cp).getD 0)]) →
      toCids l look (t.flatMap fun cp => bytesFor (firstPairs gid texts) ((gid cp).getD 0, cp)).length
        (t.flatMap fun cp => bytesFor (firstPairs gid texts) ((gid cp).getD 0, cp)) =
        .ok (true, (t.map fun cp => (⟨numOf (firstPairs gid texts) ((gid cp).getD 0), 1⟩ : CharCode)).map (·.code)) := by
    intro l look hl hlook
    rw [hflat]
    refine C193_code_cids l look (·.code) _ ?_ _ (Nat.le_refl _)
    intro c hc
    obtain ⟨cp, hcp, rfl⟩ := List.mem_map.1 hc
    have hd := hm cp hcp
    have hle := numOf_le hd
    obtain ⟨l1, l2⟩ := hl (List.ne_nil_of_mem hd)
    exact ⟨Nat.le_refl _, (by decide : 1 ≤ 4), by show numOf _ _ < 256 ^ 1; omega, by show l.minSize ≤ 1; omega, l2, hlook cp hd, fun i h1 h2 => by
      have : i < 1 := h2
      omega⟩
  have hat : ∀ cp ∈ drawnChars gid texts, (charCodeOf (numOf (firstPairs gid texts) ((gid cp).getD 0)), numOf (firstPairs gid texts) ((gid cp).getD 0)) ∈ f.entries := by
    intro cp hcp
    have hle := numOf_le hcp
    rw [← firstPairs_fst, List.length_map] at hle
    exact (entries_mem inv).2 ⟨_, by rw [numOf]; omega, hle, rfl⟩
  have hsz : ∀ cp ∈ drawnChars gid texts, charCodeOf (numOf (firstPairs gid texts) ((gid cp).getD 0)) = ⟨numOf (firstPairs gid texts) ((gid cp).getD 0), 1⟩ := by
    intro cp hcp
    have hle := numOf_le hcp
    rw [charCodeOf, charCodeSize, if_pos (by omega)]
  have b1 := both f.cids.limits f.cids.codePoints
    (fun hne => by rw [inv.cmin, inv.cmax, if_neg (firstPairs_ne hne), if_neg (firstPairs_ne hne)]; exact ⟨rfl, charCodeSize_pos _⟩)
    (fun cp hcp => (codePoints_num inv 1 hcp).2)
  have b2 := both r.limits r.codePoints
    (fun hne => by
      obtain ⟨cp, hcp⟩ := List.exists_mem_of_ne_nil _ hne
      have hs := h5 _ (hat cp hcp)
      rw [(hent _ (hat cp hcp)).2] at hs
      omega)
    (fun cp hcp => by rw [← hsz cp hcp]; exact h3 _ (hat cp hcp))
  have heq : r.toCids (t.flatMap fun cp => bytesFor (firstPairs gid texts) ((gid cp).getD 0, cp)) =
      f.toCids (t.flatMap fun cp => bytesFor (firstPairs gid texts) ((gid cp).getD 0, cp)) := by
    rw [CMapRead.toCids, DynFont.toCids, b1, b2]
  exact ⟨heq, ids, by rw [heq]; exact c1, c3⟩

/-- **C194** for fonts that are embedded whole, with the map of a CMap: every code of the map has the CID it had. -/
theorem C194_whole {z : Nat} {ps : List (CharCode × List Nat)} {m : CodeMap} (h : CodeMap.Reach z ps m) {name : Bytes} (hname : PlainFontName name)
    (hp : ∀ p ∈ m.pairs, CidEntry (p.1, p.2.headD 0) ∧ p.2.headD 0 < 1000000000) (hn : m.pairs.length < 1000000000) (order : List Nat) :
    ∃ text r, wholeMapText name m order = .ok text ∧ cmapFromText z text = .ok r ∧
      ∀ c cid rest, m.codePoints c = some (cid :: rest) → r.codePoints c = some [cid] := by
  have inv := CodeMap.reach_inv h
  have he : ∀ e ∈ m.pairs.map (fun p => (p.1, p.2.headD 0)), CidEntry e := by
    intro e hm
    obtain ⟨p, hpm, rfl⟩ := List.mem_map.1 hm
    exact (hp p hpm).1
  have hmap : (m.pairs.map fun p => (p.1, p.2.headD 0)).map (fun e => (e.1, [0])) = m.pairs.map fun p => (p.1, [0]) := by rw [List.map_map]; rfl
  obtain ⟨cs, hcs⟩ := codeSpaceText_ok _ (codesOK he) order
  obtain ⟨text, st, h1, h2, h3, h4⟩ := cidText_read z hname isSuffix_nil (m.pairs.map fun p => (p.1, p.2.headD 0)) he (by rw [List.length_map]; omega) _
    (codesOK he) order hcs
  rw [hmap] at hcs
  obtain ⟨r, hr, hl, _⟩ := cid_lookup h2 h3 h4 (by
    rw [List.pairwise_map]
    exact (pairs_pairwise m inv.sorted).imp (fun hlt => Nat.ne_of_lt hlt))
  refine ⟨text, r, ?_, hr, ?_⟩
  · rw [wholeMapText, if_pos ⟨hn, by rw [List.all_eq_true]; intro p hm; simpa using (hp p hm).2⟩, hcs]
    exact h1
  · intro c cid rest hc
    rw [CodeMap.codePoints] at hc
    cases hf : SMap.find? c.code m.units with
    | none => rw [hf] at hc; simp at hc
    | some v =>
      rw [hf] at hc
      simp only [Option.map_some, Option.some.injEq] at hc
      have hm : ((⟨c.code, v.1⟩ : CharCode), v.2) ∈ m.pairs := (mem_pairs inv.sorted _ _).2 hf
      have := hl (⟨c.code, v.1⟩, cid) (List.mem_map.2 ⟨_, hm, by rw [hc]; rfl⟩)
      rw [← this]
      cases r <;> rfl

theorem oneByteCids_ok (z : Nat) (look gid : Nat → Option Nat) (k code : Nat) (hlook : ∀ i, code ≤ i → i < code + k → (look i).isSome)
    (hz : code = 0 → z = 1) :
    ∃ es, oneByteCids z look gid code k = .ok es ∧ es.length ≤ k ∧ (es.Pairwise fun x y => x.1.code ≠ y.1.code) ∧
      ∀ e, e ∈ es ↔ ∃ i cp, code ≤ i ∧ i < code + k ∧ look i = some cp ∧ gid cp = some e.2 ∧ e.1 = ⟨i, 1⟩ := by
  induction k generalizing code with
  | zero =>
    refine ⟨[], rfl, Nat.le_refl _, List.Pairwise.nil, fun e => ?_⟩
    constructor
    · intro h; simp at h
    · rintro ⟨i, cp, h1, h2, _⟩; omega
  | succ k ih =>
    obtain ⟨es, h1, h2, h3, h4⟩ := ih (code + 1) (fun i a b => hlook i (by omega) (by omega)) (by omega)
    obtain ⟨cp, hcp⟩ := Option.isSome_iff_exists.1 (hlook code (Nat.le_refl _) (by omega))
    have hsz : (if code = 0 then z else 1) = 1 := by
      split
      · exact hz (by assumption)
      · rfl
    rw [oneByteCids, hcp, h1, hsz]
    cases hg : gid cp with
    | none =>
      refine ⟨es, by simp only [hg]; rfl, by omega, h3, fun e => ?_⟩
      rw [h4]
      constructor
      · rintro ⟨i, q, a, b, c⟩; exact ⟨i, q, by omega, by omega, c⟩
      · rintro ⟨i, q, a, b, c, d, f⟩
        refine ⟨i, q, ?_, by omega, c, d, f⟩
        by_cases hi : i = code
        · subst hi
          rw [hcp, Option.some.injEq] at c
          subst c
          rw [hg] at d; simp at d
        · omega
    | some g =>
      refine ⟨(⟨code, 1⟩, g) :: es, by simp only [hg]; rfl, by simp only [List.length_cons]; omega, List.Pairwise.cons ?_ h3, fun e => ?_⟩
      · intro y hy
        obtain ⟨i, q, a, b, _, _, f⟩ := (h4 y).1 hy
        rw [f]
        show code ≠ i
        omega
      · rw [List.mem_cons, h4]
        constructor
        · rintro (rfl | ⟨i, q, a, b, c⟩)
          · exact ⟨code, cp, Nat.le_refl _, by omega, hcp, hg, rfl⟩
          · exact ⟨i, q, by omega, by omega, c⟩
        · rintro ⟨i, q, a, b, c, d, f⟩
          by_cases hi : i = code
          · left
            subst hi
            rw [hcp, Option.some.injEq] at c
            subst c
            rw [hg, Option.some.injEq] at d
            rw [Prod.ext_iff]
            exact ⟨f, d.symm⟩
          · right
            exact ⟨i, q, by omega, by omega, c, d, f⟩

theorem oneByteMap_read (z : Nat) {name : Bytes} (hname : PlainFontName name) {first last : Nat} (hf : first < last) (hl : last < 256) (hz : first = 0 → z = 1)
    {look gid : Nat → Option Nat} (hlook : ∀ i, first ≤ i → i < last → (look i).isSome) (hg : ∀ cp g, gid cp = some g → g < 1000000000) :
    ∃ text st es, oneByteMapText z name first last look gid = .ok text ∧ parseCMap z text = .ok st ∧ CodeMap.Reach z (cidPushes es) st.map ∧ CidSizes es st ∧
      (es.Pairwise fun x y => x.1.code ≠ y.1.code) ∧
      ∀ e, e ∈ es ↔ ∃ i cp, first ≤ i ∧ i < last ∧ look i = some cp ∧ gid cp = some e.2 ∧ e.1 = ⟨i, 1⟩ := by
  obtain ⟨es, h1, h2, h3, h4⟩ := oneByteCids_ok z look gid (last - first) first (fun i a b => hlook i a (by omega)) hz
  have hfl : first + (last - first) = last := by omega
  rw [hfl] at h4
  have he : ∀ e ∈ es, CidEntry e := by
    intro e hm
    obtain ⟨i, cp, a, b, _, d, f⟩ := (h4 e).1 hm
    have := hg _ _ d
    refine ⟨?_, ?_, ?_, by omega⟩ <;> rw [f]
    · exact Nat.le_refl _
    · show 1 ≤ 4; decide
    · show i < 256 ^ 1; omega
  have s1 : (if first = 0 then z else 1) = 1 := by
    split
    · exact hz (by assumption)
    · rfl
  have s2 : (if last = 0 then z else 1) = 1 := if_neg (by omega)
  have ha := hexCode_ok (c := ⟨first, 1⟩) (Nat.le_refl 1) (show 1 ≤ 4 by decide) (by show first < 256 ^ 1; omega)
  have hb := hexCode_ok (c := ⟨last, 1⟩) (Nat.le_refl 1) (show 1 ≤ 4 by decide) (by show last < 256 ^ 1; omega)
  have hps : ∀ p ∈ [((⟨first, 1⟩, [0]) : CharCode × List Nat), (⟨last, 1⟩, [0])], PairOK p := by
    intro p hm
    simp only [List.mem_cons, List.not_mem_nil, or_false] at hm
    rcases hm with rfl | rfl
    · exact ⟨Nat.le_refl _, by show 1 ≤ 4; decide, by show first < 256 ^ 1; omega, by simp, by simp [IsScalar]⟩
    · exact ⟨Nat.le_refl _, by show 1 ≤ 4; decide, by show last < 256 ^ 1; omega, by simp, by simp [IsScalar]⟩
  have hsr : sizeRange [((⟨first, 1⟩, [0]) : CharCode × List Nat), (⟨last, 1⟩, [0])] 1 = some (⟨first, 1⟩, ⟨last, 1⟩) := by
    simp only [sizeRange, List.filter_cons, beq_self_eq_true, if_true, List.filter_nil, List.foldl_cons, List.foldl_nil]
    rw [if_neg (by omega), if_pos hf]
  generalize hexA : (60 :: ((codeBytes (CharCode.mk first 1).code (CharCode.mk first 1).size).flatMap writeCharHex ++ [62]) : Bytes) = ta at ha
  generalize hexB : (60 :: ((codeBytes (CharCode.mk last 1).code (CharCode.mk last 1).size).flatMap writeCharHex ++ [62]) : Bytes) = tb at hb
  have hcs : codeSpaceText [(⟨first, 1⟩, [0]), (⟨last, 1⟩, [0])] [1] = .ok (ta ++ tb) := by
    rw [codeSpaceText, hsr]
    simp only
    rw [ha, hb]
    simp only [codeSpaceText, if_true, List.append_nil]
  obtain ⟨text, st, t1, t2, t3, t4⟩ := cidText_read z hname isSuffix_nil es he (by omega) _ hps [1] hcs
  refine ⟨text, st, es, ?_, t2, t3, t4, h3, h4⟩
  rw [oneByteMapText, s1, s2, ha, hb, h1]
  show (if es.all (fun e => e.2 < 1000000000) = true then cidText name [] (ta ++ tb) es else .error .ub) = _
  rw [if_pos, t1]
  rw [List.all_eq_true]
  intro e hm
  obtain ⟨i, cp, _, _, _, d, _⟩ := (h4 e).1 hm
  simpa using hg _ _ d

/-- **C194** for fonts that are embedded whole, with an encoding of one byte: every code but the last whose character has a glyph has the glyph as its CID. -/
theorem C194_one_byte_partial (z : Nat) {name : Bytes} (hname : PlainFontName name) {first last : Nat} (hf : first < last) (hl : last < 256) (hz : first = 0 → z = 1)
    {look gid : Nat → Option Nat} (hlook : ∀ i, first ≤ i → i < last → (look i).isSome) (hg : ∀ cp g, gid cp = some g → g < 1000000000) :
    ∃ text r, oneByteMapText z name first last look gid = .ok text ∧ cmapFromText z text = .ok r ∧
      ∀ i cp g, first ≤ i → i < last → look i = some cp → gid cp = some g → r.codePoints ⟨i, 1⟩ = some [g] := by
  obtain ⟨text, st, es, h1, h2, h3, h4, h5, h6⟩ := oneByteMap_read z hname hf hl hz hlook hg
  obtain ⟨r, hr, hlk, _⟩ := cid_lookup h2 h3 h4 h5
  exact ⟨text, r, h1, hr, fun i cp g a b c d => hlk (⟨i, 1⟩, g) ((h6 _).2 ⟨i, cp, a, b, c, d, rfl⟩)⟩

theorem oneByteCids_none (z : Nat) (look gid : Nat → Option Nat) (k code : Nat) {i : Nat} (h1 : code ≤ i) (h2 : i < code + k) (h : look i = none) :
    oneByteCids z look gid code k = raise .InvalidFontFile := by
  induction k generalizing code with
  | zero => omega
  | succ k ih =>
    rw [oneByteCids]
    cases hc : look code with
    | none => rfl
    | some cp =>
      simp only
      rw [ih (code + 1) (by
        have : i ≠ code := by rintro rfl; rw [h] at hc; simp at hc
        omega) (by omega)]
      rfl

/-- **C194**: an encoding of one byte with a code that has no character, other than the last, is refused. -/
theorem C194_no_character (z : Nat) (name : Bytes) {first last : Nat} (hl : last < 256) (hz : first = 0 → z = 1) {look gid : Nat → Option Nat} {i : Nat}
    (h1 : first ≤ i) (h2 : i < last) (h : look i = none) : oneByteMapText z name first last look gid = raise .InvalidFontFile := by
  have s1 : (if first = 0 then z else 1) = 1 := by
    split
    · exact hz (by assumption)
    · rfl
  have s2 : (if last = 0 then z else 1) = 1 := if_neg (by omega)
  rw [oneByteMapText, s1, s2, hexCode_ok (c := ⟨first, 1⟩) (Nat.le_refl 1) (show 1 ≤ 4 by decide) (by show first < 256 ^ 1; omega),
    hexCode_ok (c := ⟨last, 1⟩) (Nat.le_refl 1) (show 1 ≤ 4 by decide) (by show last < 256 ^ 1; omega),
    oneByteCids_none z look gid (last - first) first h1 (by omega) h]
  rfl

/-- **C194** is false of the last code of an encoding of one byte: whatever glyph its character has, it is not its CID in the font that is loaded (unless the glyph
has the number of the code). -/
theorem C194_last_false (z : Nat) {name : Bytes} (hname : PlainFontName name) {first last : Nat} (hf : first < last) (hl : last < 256) (hz : first = 0 → z = 1)
    {look gid : Nat → Option Nat} (hlook : ∀ i, first ≤ i → i < last → (look i).isSome) (hg : ∀ cp g, gid cp = some g → g < 1000000000)
    {text : Bytes} {r : CMapRead} (ht : oneByteMapText z name first last look gid = .ok text) (hr : cmapFromText z text = .ok r) {g : Nat} (hne : g ≠ last) :
    r.codePoints ⟨last, 1⟩ ≠ some [g] := by
  obtain ⟨text', st, es, h1, h2, h3, h4, h5, h6⟩ := oneByteMap_read z hname hf hl hz hlook hg
  rw [ht, Except.ok.injEq] at h1
  subst h1
  have inv := CodeMap.reach_inv h3
  have hnone : st.map.codePoints ⟨last, 1⟩ = none := by
    rw [CodeMap.codePoints]
    cases hfd : SMap.find? (CharCode.mk last 1).code st.map.units with
    | none => rfl
    | some v =>
      obtain ⟨x, hx, e⟩ := inv.from_ps _ v.1 v.2 hfd
      obtain ⟨y, hy, rfl⟩ := List.mem_map.1 hx
      obtain ⟨i, cp, a, b, _, _, f⟩ := (h6 y).1 hy
      have : y.1.code = last := congrArg CharCode.code e
      rw [f] at this
      have : i = last := this
      omega
  rw [cmapFromText, h2] at hr
  simp only at hr
  split at hr
  · simp only [Except.ok.injEq] at hr
    subst hr
    rw [CMapRead.codePoints, hnone]; simp
  · split at hr
    · simp only [Except.ok.injEq] at hr
      subst hr
      rw [CMapRead.codePoints]
      simp only [ne_eq, Option.some.injEq, List.cons.injEq, and_true]
      exact fun e => hne e.symm
    · simp only [Except.ok.injEq] at hr
      subst hr
      rw [CMapRead.codePoints, hnone]; simp

/-! ### Cases -/

/-- An encoding of the codes 32 to 255, whose characters are glyphs three less. -/
example : ∃ text r, oneByteMapText 0 (asciiB "DejaVuSans") 32 255 some (fun cp => if cp < 256 then some (cp - 3) else none) = .ok text ∧
    cmapFromText 0 text = .ok r ∧ r.codePoints ⟨65, 1⟩ = some [62] ∧ r.codePoints ⟨255, 1⟩ ≠ some [252] := by
  have hn : PlainFontName (asciiB "DejaVuSans") := ⟨by decide +kernel, by decide +kernel⟩
  have hg : ∀ cp g, (if cp < 256 then some (cp - 3) else none) = some g → g < 1000000000 := by
    intro cp g h
    split at h
    · simp only [Option.some.injEq] at h; omega
    · simp at h
  have hl : ∀ i, 32 ≤ i → i < 255 → (some i).isSome := fun _ _ _ => rfl
  obtain ⟨text, r, h1, h2, h3⟩ := C194_one_byte_partial 0 hn (first := 32) (last := 255) (by decide) (by decide) (by decide) hl hg
  exact ⟨text, r, h1, h2, h3 65 65 62 (by decide) (by decide) rfl rfl,
    C194_last_false 0 hn (by decide) (by decide) (by decide) hl hg h1 h2 (by decide)⟩

example : oneByteMapText 0 (asciiB "DejaVuSans") 32 255 (fun c => if c = 127 then none else some c) some = raise .InvalidFontFile :=
  C194_no_character 0 _ (by decide) (by decide) (i := 127) (by decide) (by decide) rfl

/-- A map of a CMap with two codes of two bytes. -/
example (z : Nat) (order : List Nat) : ∃ m text r, CodeMap.Reach z [(⟨258, 2⟩, [7]), (⟨513, 2⟩, [300])] m ∧ wholeMapText (asciiB "DejaVuSans") m order = .ok text ∧
    cmapFromText z text = .ok r ∧ r.codePoints ⟨513, 2⟩ = some [300] := by
  have h : CodeMap.Reach z ([] ++ [(⟨258, 2⟩, [7])] ++ [(⟨513, 2⟩, [300])]) ⟨[(258, (2, [7])), (513, (2, [300]))], ((CodeMap.init z).limits.push ⟨258, 2⟩).push ⟨513, 2⟩, (CodeMap.init z).tree, true⟩ :=
    CodeMap.Reach.push (CodeMap.Reach.push CodeMap.Reach.init rfl) rfl
  obtain ⟨text, r, h1, h2, h3⟩ := C194_whole h (name := asciiB "DejaVuSans") ⟨by decide +kernel, by decide +kernel⟩ (by
    intro p hp
    simp only [CodeMap.pairs, List.map_cons, List.map_nil, List.mem_cons, List.not_mem_nil, or_false] at hp
    rcases hp with rfl | rfl
    · exact ⟨⟨by decide, by decide, by decide, by decide⟩, by decide⟩
    · exact ⟨⟨by decide, by decide, by decide, by decide⟩, by decide⟩) (by simp [CodeMap.pairs]) order
  exact ⟨_, text, r, h, h1, h2, h3 ⟨513, 2⟩ 300 [] rfl⟩

/-- Codes of two bytes, with CIDs of one byte and of two. -/
example : PlainFontName (asciiB "DejaVuSans") ∧ (∀ e ∈ [((⟨65, 2⟩, 1) : CharCode × Nat), (⟨7, 2⟩, 300)], CidEntry e) ∧
    ([((⟨65, 2⟩, 1) : CharCode × Nat), (⟨7, 2⟩, 300)].Pairwise fun x y => x.1.code ≠ y.1.code) := by
  refine ⟨⟨by decide +kernel, by decide +kernel⟩, ?_, by simp⟩
  intro e he
  simp only [List.mem_cons, List.not_mem_nil, or_false] at he
  rcases he with rfl | rfl <;> exact ⟨by decide, by decide, by decide, by decide⟩

/-- The font that is loaded is taken to have codes of one byte. -/
example (z : Nat) (order : List Nat) : ∃ text r, cidMapText (asciiB "DejaVuSans") [(⟨65, 2⟩, 1), (⟨7, 2⟩, 300)] order = .ok text ∧ cmapFromText z text = .ok r ∧
    r.codePoints ⟨65, 2⟩ = some [1] ∧ r.codePoints ⟨7, 2⟩ = some [300] ∧ r.limits.minSize = 1 := by
  have hn : PlainFontName (asciiB "DejaVuSans") := ⟨by decide +kernel, by decide +kernel⟩
  have he : ∀ e ∈ [((⟨65, 2⟩, 1) : CharCode × Nat), (⟨7, 2⟩, 300)], CidEntry e := by
    intro e he
    simp only [List.mem_cons, List.not_mem_nil, or_false] at he
    rcases he with rfl | rfl <;> exact ⟨by decide, by decide, by decide, by decide⟩
  obtain ⟨text, r, h1, h2, h3, h4, _⟩ := C194_read_back z hn _ he (by simp) (by decide) order
  have h5 := (C194_sizes z hn _ he (by decide) order h1 h2 (⟨65, 2⟩, 1) (by simp)).1
  have h6 : r.limits.minSize ≤ 1 := h5
  exact ⟨text, r, h1, h2, h3 _ List.mem_cons_self, h3 (⟨7, 2⟩, 300) (by simp), by omega⟩

/-- The texts of C193. -/
example (order : List Nat) : ∃ f outs text r, (DynFont.init 0).encodeAll exampleGlyphs [[98, 97], [99], [225, 98]] = .ok (f, outs) ∧
    cidMapText (asciiB "DejaVuSans") f.entries order = .ok text ∧ cmapFromText 0 text = .ok r ∧ r.toCids [2, 1] = .ok (true, [2, 1]) := by
  have h : ∃ f outs, (DynFont.init 0).encodeAll exampleGlyphs [[98, 97], [99], [225, 98]] = .ok (f, outs) ∧ outs = [some [1, 2], none, some [2, 1]] ∧
      f.toCids [2, 1] = .ok (true, [2, 1]) := ⟨_, _, rfl, by decide +kernel, by decide +kernel⟩
  obtain ⟨f, outs, h, ho, hc⟩ := h
  obtain ⟨text, r, h1, h2, h3⟩ := C194_dynamic_partial h (by decide +kernel) (name := asciiB "DejaVuSans") ⟨by decide +kernel, by decide +kernel⟩ order
  refine ⟨f, outs, text, r, h, h1, h2, ?_⟩
  rw [(h3 2 [225, 98] [2, 1] rfl (by rw [ho]; rfl)).1]
  exact hc

end Pdfmm
