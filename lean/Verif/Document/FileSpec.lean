import Verif.Forms.Inherit
/-
C166: file specifications and attached files.
-/
set_option autoImplicit false
namespace Pdfmm

/-! ### The portable file name -/

/-- `char buff[5]`, `src/pdfmm/base/PdfFileSpec.cpp:76`: a cell that was never written is `none`. -/
abbrev CharBuf := List (Option UInt8)

/-- A digit as `{:02X}` writes it. -/
def upperHex (n : UInt8) : UInt8 := if n < 10 then 48 + n else 55 + n

/-- `FormatTo(buff, 5, "{:02X}", ch & 0xFF)`, `src/pdfmm/private/Format.h:27-31`: `std::format_to_n` writes the two digits, and no zero byte after them. -/
def formatHex (buf : CharBuf) (c : UInt8) : CharBuf := [some (upperHex (c / 16)), some (upperHex (c % 16))] ++ buf.drop 2

/-- `str << buff`, `src/pdfmm/base/PdfFileSpec.cpp:101`: characters up to the first zero byte.  Reading a cell that was never written, or one behind the last, is undefined. -/
def putBuf : CharBuf → Res Bytes
  | [] => .error .ub
  | none :: _ => .error .ub
  | some b :: l => if b = 0 then .ok [] else (putBuf l).map fun r => b :: r

/-- The characters that are kept, `src/pdfmm/base/PdfFileSpec.cpp:85-88`. -/
def keptChar (c : UInt8) : Bool := (97 ≤ c ∧ c ≤ 122) ∨ (65 ≤ c ∧ c ≤ 90) ∨ (48 ≤ c ∧ c ≤ 57) ∨ c = 95

/-- `ch` after `src/pdfmm/base/PdfFileSpec.cpp:83-84`. -/
def slashed (c : UInt8) : UInt8 := if c = 58 ∨ c = 92 then 47 else c

/-- The loop of `CreateFileSpecification`, `src/pdfmm/base/PdfFileSpec.cpp:80-103`. -/
def fileSpecLoop (buf : CharBuf) : Bytes → Res Bytes
  | [] => .ok []
  | c :: l =>
    if keptChar (slashed c) then (fileSpecLoop buf l).map fun r => slashed c :: r
    else if slashed c = 47 then (fileSpecLoop buf l).map fun r => 92 :: 92 :: 47 :: r
    else (putBuf (formatHex buf (slashed c))).bind fun s => (fileSpecLoop (formatHex buf (slashed c)) l).map fun r => s ++ r

/-- `PdfFileSpec::CreateFileSpecification`, `src/pdfmm/base/PdfFileSpec.cpp:71-106`. -/
def fileSpecString (f : Bytes) : Res Bytes := fileSpecLoop [none, none, none, none, none] f

/-- Letters of the ASCII alphabet, digits and the underscore. -/
def Spec.PlainChar (c : UInt8) : Prop := (∃ n, n < 26 ∧ (c.toNat = 97 + n ∨ c.toNat = 65 + n)) ∨ (∃ n, n < 10 ∧ c.toNat = 48 + n) ∨ c.toNat = 95

/-- What separates the parts of a path: `/`, `:` and `\`. -/
def Spec.PathSeparator (c : UInt8) : Prop := c ∈ asciiB "/:\\"

instance (c : UInt8) : Decidable (Spec.PathSeparator c) := inferInstanceAs (Decidable (c ∈ asciiB "/:\\"))

theorem keptChar_iff (c : UInt8) : keptChar c = true ↔ Spec.PlainChar c := by
  rw [keptChar, Spec.PlainChar]
  simp only [decide_eq_true_eq, UInt8.le_iff_toNat_le, ← UInt8.toNat_inj]
  constructor
  · rintro (h | h | h | h)
    · exact Or.inl ⟨c.toNat - 97, by simp at h; omega, by simp at h; omega⟩
    · exact Or.inl ⟨c.toNat - 65, by simp at h; omega, by simp at h; omega⟩
    · exact Or.inr (Or.inl ⟨c.toNat - 48, by simp at h; omega, by simp at h; omega⟩)
    · exact Or.inr (Or.inr h)
  · rintro (⟨n, hn, h | h⟩ | ⟨n, hn, h⟩ | h)
    · left; simp; omega
    · right; left; simp; omega
    · right; right; left; simp; omega
    · right; right; right; exact h

theorem separator_iff (c : UInt8) : Spec.PathSeparator c ↔ slashed c = 47 := by
  rw [Spec.PathSeparator, slashed, show asciiB "/:\\" = [47, 58, 92] from by decide]
  simp only [List.mem_cons, List.not_mem_nil, or_false]
  by_cases h : c = 58 ∨ c = 92
  · rw [if_pos h]; simp [h]
  · rw [if_neg h]
    constructor
    · rintro (e | e); · exact e
      exact absurd e h
    · exact Or.inl

theorem slashed_plain (c : UInt8) (h : ¬ Spec.PathSeparator c) : slashed c = c := by
  rw [separator_iff] at h
  rw [slashed] at h ⊢
  split
  · rename_i h'; rw [if_pos h'] at h; exact absurd rfl h
  · rfl

theorem plain_not_separator (c : UInt8) (h : Spec.PlainChar c) : ¬ Spec.PathSeparator c := by
  rw [Spec.PathSeparator, show asciiB "/:\\" = [47, 58, 92] from by decide]
  simp only [List.mem_cons, List.not_mem_nil, or_false]
  rintro (rfl | rfl | rfl) <;> simp [Spec.PlainChar] at h <;> omega

/-- What is written for a character of the kinds that are not written in hexadecimal. -/
def Spec.specChar (c : UInt8) : Bytes := if Spec.PathSeparator c then asciiB "\\\\/" else [c]

/-- C166: a name of letters, digits, underscores and separators is written with every separator as two backslashes and a slash. -/
theorem C166_written (f : Bytes) (h : ∀ c ∈ f, Spec.PlainChar c ∨ Spec.PathSeparator c) : fileSpecString f = .ok (f.flatMap Spec.specChar) := by
  rw [fileSpecString]
  generalize [none, none, none, none, none] = buf
  induction f with
  | nil => rfl
  | cons c l ih =>
    have ih := ih fun x hx => h x (List.mem_cons_of_mem _ hx)
    rw [fileSpecLoop, List.flatMap_cons, Spec.specChar]
    rcases h c (List.mem_cons_self ..) with hc | hc
    · have hs := plain_not_separator c hc
      rw [slashed_plain c hs, if_pos ((keptChar_iff c).2 hc), ih, if_neg hs]; rfl
    · rw [(separator_iff c).1 hc, if_neg (by decide), if_pos rfl, ih, if_pos hc]; rfl

/-- C166, `_partial`: a name of letters, digits and underscores is written as it is; missing are all other names. -/
theorem C166_plain_partial (f : Bytes) (h : ∀ c ∈ f, Spec.PlainChar c) : fileSpecString f = .ok f := by
  rw [C166_written f fun c hc => Or.inl (h c hc)]
  congr 1
  induction f with
  | nil => rfl
  | cons c l ih =>
    rw [List.flatMap_cons, ih fun x hx => h x (List.mem_cons_of_mem _ hx), Spec.specChar, if_neg (plain_not_separator c (h c (List.mem_cons_self ..)))]
    rfl

/-- The form of a path that PDF defines: its parts with a single slash between them. -/
def Spec.portable (f : Bytes) : Bytes := f.map fun c => if Spec.PathSeparator c then 47 else c

/-- C166: a path is not written in the portable form, but longer by two backslashes for every separator. -/
theorem C166_path_false (f : Bytes) (h : ∀ c ∈ f, Spec.PlainChar c ∨ Spec.PathSeparator c) (hs : ∃ c ∈ f, Spec.PathSeparator c) :
    ∃ s, fileSpecString f = .ok s ∧ s.length = f.length + 2 * f.countP (fun c => Spec.PathSeparator c) ∧ s ≠ Spec.portable f := by
  refine ⟨_, C166_written f h, ?_⟩
  have e : (f.flatMap Spec.specChar).length = f.length + 2 * f.countP (fun c => Spec.PathSeparator c) := by
    clear h hs
    induction f with
    | nil => rfl
    | cons c l ih =>
      rw [List.flatMap_cons, List.length_append, ih, List.countP_cons, List.length_cons, Spec.specChar]
      by_cases hc : Spec.PathSeparator c
      · rw [if_pos hc]; simp [hc, asciiB]; omega
      · rw [if_neg hc]; simp [hc]; omega
  refine ⟨e, fun e' => ?_⟩
  have : 0 < f.countP (fun c => Spec.PathSeparator c) := by
    rw [List.countP_pos_iff]
    obtain ⟨c, h1, h2⟩ := hs
    exact ⟨c, h1, by simpa using h2⟩
  rw [e', Spec.portable, List.length_map] at e
  omega

theorem putBuf_ub (buf : CharBuf) (c : UInt8) (h : none ∈ buf.drop 2) (h0 : some 0 ∉ buf) : putBuf (formatHex buf c) = .error .ub ∧ some 0 ∉ formatHex buf c ∧
    none ∈ (formatHex buf c).drop 2 := by
  have nz : ∀ n : UInt8, n < 16 → upperHex n ≠ 0 := by
    intro n hn
    rw [upperHex]
    split
    · rename_i h; intro e; rw [← UInt8.toNat_inj] at e; simp [UInt8.lt_iff_toNat_lt] at *; omega
    · intro e; rw [← UInt8.toNat_inj] at e; simp [UInt8.lt_iff_toNat_lt] at *; omega
  have a := nz (c / 16) (by rw [UInt8.lt_iff_toNat_lt, UInt8.toNat_div]; have := c.toNat_lt; simp; omega)
  have b := nz (c % 16) (by rw [UInt8.lt_iff_toNat_lt, UInt8.toNat_mod]; simp; omega)
  have key : ∀ l : CharBuf, none ∈ l → some 0 ∉ l → putBuf l = .error .ub := by
    intro l
    induction l with
    | nil => intro _ _; rfl
    | cons x l ih =>
      intro h1 h2
      cases x with
      | none => rfl
      | some v =>
        rw [List.mem_cons, not_or] at h2
        rw [putBuf, if_neg (fun e => h2.1 (by rw [e])), ih (by simpa using h1) h2.2]
        rfl
  have hz : some 0 ∉ formatHex buf c := by
    rw [formatHex]
    simp only [List.cons_append, List.nil_append, List.mem_cons, Option.some.injEq, not_or]
    exact ⟨fun e => a e.symm, fun e => b e.symm, fun e => h0 (List.mem_of_mem_drop e)⟩
  refine ⟨key _ ?_ hz, hz, ?_⟩
  · rw [formatHex]; simp [h]
  · rw [formatHex]; simpa using h

/-- C166: every name with any other character, such as the dot of an extension, a space or a letter outside ASCII, is undefined behaviour: memory that was never written is
read, up to the first zero byte that happens to be there. -/
theorem C166_other_false (f : Bytes) (h : ∃ c ∈ f, ¬ Spec.PlainChar c ∧ ¬ Spec.PathSeparator c) : fileSpecString f = .error .ub := by
  have key : ∀ (f : Bytes) (buf : CharBuf), none ∈ buf.drop 2 → some 0 ∉ buf → (∃ c ∈ f, ¬ Spec.PlainChar c ∧ ¬ Spec.PathSeparator c) → fileSpecLoop buf f = .error .ub := by
    intro f
    induction f with
    | nil => rintro _ _ _ ⟨c, hc, _⟩; cases hc
    | cons c l ih =>
      rintro buf h1 h2 ⟨x, hx, hx1, hx2⟩
      rw [fileSpecLoop]
      rcases List.mem_cons.1 hx with rfl | hx
      · rw [slashed_plain x hx2, if_neg (by rw [keptChar_iff]; exact hx1), if_neg (by rw [← slashed_plain x hx2, ← separator_iff]; exact hx2),
          (putBuf_ub buf x h1 h2).1]
        rfl
      · split
        · rw [ih buf h1 h2 ⟨x, hx, hx1, hx2⟩]; rfl
        · split
          · rw [ih buf h1 h2 ⟨x, hx, hx1, hx2⟩]; rfl
          · rw [(putBuf_ub buf _ h1 h2).1]; rfl
  exact key f _ (by decide) (by decide) h

/-! ### The name without its path -/

/-- `MaybeStripPath(filename, true)`, `src/pdfmm/base/PdfFileSpec.cpp:122-143`, other than on Windows: `last` is `lastFrom`. -/
def lastPartLoop (last : Bytes) : Bytes → Bytes
  | [] => last
  | c :: l => if c = 47 then lastPartLoop l l else lastPartLoop last l

/-- `PdfFileSpec::MaybeStripPath`, `src/pdfmm/base/PdfFileSpec.cpp:122-143`. -/
def maybeStrip (f : Bytes) (strip : Bool) : Bytes := if strip then lastPartLoop f f else f

/-- `n` is what follows the last slash of `f`, or all of `f` when it has none. -/
def Spec.LastPart (f n : Bytes) : Prop := 47 ∉ n ∧ (f = n ∨ ∃ d, f = d ++ 47 :: n)

theorem lastPart_unique {f n m : Bytes} (hn : Spec.LastPart f n) (hm : Spec.LastPart f m) : n = m := by
  obtain ⟨n0, hn⟩ := hn
  obtain ⟨m0, hm⟩ := hm
  have tw : ∀ (d x : Bytes), 47 ∉ x → ((d ++ 47 :: x).reverse.takeWhile (· ≠ 47)).reverse = x := by
    intro d x hx
    rw [List.reverse_append, List.reverse_cons, List.append_assoc, List.takeWhile_append_of_pos]
    · simp
    · intro a ha; simp; rintro rfl; exact hx (List.mem_reverse.1 ha)
  rcases hn with rfl | ⟨d, rfl⟩ <;> rcases hm with hm | ⟨e, he⟩
  · exact hm
  · rw [he] at n0; simp at n0
  · rw [← hm] at m0; simp at m0
  · rw [← tw d n n0, ← tw e m m0, he]

/-- C166: stripping gives the last part of the path, whatever the path is. -/
theorem C166_strip (f n : Bytes) : maybeStrip f true = n ↔ Spec.LastPart f n := by
  have key : ∀ (l p last : Bytes), f = p ++ l → Spec.LastPart p last ∨ True →
      (∀ q, Spec.LastPart (p ++ l) q → lastPartLoop last l = q ∨ (47 ∉ l ∧ lastPartLoop last l = last)) := by
    intro l
    induction l with
    | nil => intro p last _ _ q hq; exact Or.inr ⟨by simp, rfl⟩
    | cons c l ih =>
      intro p last hf _ q hq
      rw [lastPartLoop]
      have e : p ++ c :: l = (p ++ [c]) ++ l := by simp
      rw [e] at hf hq
      by_cases hc : c = 47
      · rw [if_pos hc]
        rcases ih (p ++ [c]) l hf (Or.inr trivial) q hq with h | ⟨h1, h2⟩
        · exact Or.inl h
        · left
          rw [h2]
          exact lastPart_unique (f := (p ++ [c]) ++ l) ⟨h1, Or.inr ⟨p, by simp [hc]⟩⟩ hq
      · rw [if_neg hc]
        rcases ih (p ++ [c]) last hf (Or.inr trivial) q hq with h | ⟨h1, h2⟩
        · exact Or.inl h
        · refine Or.inr ⟨?_, h2⟩
          rw [List.mem_cons, not_or]
          exact ⟨fun e => hc e.symm, h1⟩
  have hex : ∃ q, Spec.LastPart f q := by
    have : ∀ f : Bytes, ∃ q, Spec.LastPart f q := by
      intro f
      induction f with
      | nil => exact ⟨[], by simp, Or.inl rfl⟩
      | cons c f ih =>
        obtain ⟨q, hq, rfl | ⟨d, rfl⟩⟩ := ih
        · by_cases hc : c = 47
          · exact ⟨f, hq, Or.inr ⟨[], by simp [hc]⟩⟩
          · exact ⟨c :: f, by rw [List.mem_cons, not_or]; exact ⟨fun e => hc e.symm, hq⟩, Or.inl rfl⟩
        · exact ⟨q, hq, Or.inr ⟨c :: d, rfl⟩⟩
    exact this f
  have main : ∀ q, Spec.LastPart f q → maybeStrip f true = q := by
    intro q hq
    rw [maybeStrip, if_pos rfl]
    rcases key f [] f rfl (Or.inr trivial) q hq with h | ⟨h1, h2⟩
    · exact h
    · rw [h2]
      exact lastPart_unique (f := f) ⟨h1, Or.inl rfl⟩ hq
  constructor
  · intro e
    obtain ⟨q, hq⟩ := hex
    rw [main q hq] at e
    exact e ▸ hq
  · exact main n

/-! ### The dictionary and the embedded file -/

/-- The objects of a document and the data of its streams.  What filters do to the data is C12. -/
structure FileDoc where
  objs : FDoc
  data : Ref → Option Bytes

/-- The entries every file specification gets first, `src/pdfmm/base/PdfFileSpec.cpp:40-41` and `58-59`, on the dictionary `/Type /Filespec` made by the constructor,
`src/pdfmm/base/PdfElement.cpp:43-48`.  Strings are texts here; how they are encoded is C80. -/
def nameEntries (f : Bytes) (strip : Bool) : Res FDict :=
  (fileSpecString (maybeStrip f strip)).map fun s =>
    SMap.insert (asciiB "UF") (.str (maybeStrip f true) false) (SMap.insert (asciiB "F") (.str s false) [(asciiB "Type", .name (asciiB "Filespec"))])

/-- An embedded file with its size, `EmbeddFileFromMem`, `src/pdfmm/base/PdfFileSpec.cpp:145-153`, on the object made at line 63; `size` is what `/Size` says. -/
def FileDoc.embed (h : FileDoc) (e : Ref) (data : Bytes) (size : Nat) : FileDoc :=
  ⟨h.objs.set e (.dict [(asciiB "Params", .dict [(asciiB "Size", .num size)]), (asciiB "Type", .name (asciiB "EmbeddedFile"))]),
    fun q => if q = e then some data else h.data q⟩

/-- `Init` from memory, `src/pdfmm/base/PdfFileSpec.cpp:56-69`; `r` is the object of the specification and `e` that of the embedded file, both new.  Sizes of `2^63` and
more are left out. -/
def FileDoc.specFromMem (h : FileDoc) (r e : Ref) (f data : Bytes) (strip : Bool) : Res FileDoc :=
  (nameEntries f strip).map fun d =>
    { h.embed e data data.length with
      objs := (h.embed e data data.length).objs.set r (.dict (SMap.insert (asciiB "EF") (.dict [(asciiB "F", .ref e.num e.gen)]) d)) }

/-- `Init` from a file with `embed`, `src/pdfmm/base/PdfFileSpec.cpp:38-54`, with `EmbeddFile`, lines 108-120, and `FileSize`,
`src/pdfmm/private/PdfDeclarationsPrivate.cpp:730-749`: the file is looked at twice, first for its size, then for its content; `none` is a file that cannot be opened
(`getFileStream`, `src/pdfmm/base/PdfStreamDevice.cpp:358-451`).  The document is
given back as it is when the error is raised. -/
def FileDoc.specFromFile (h : FileDoc) (r e : Ref) (f : Bytes) (first second : Option Bytes) (strip : Bool) : FileDoc × Res Unit :=
  match nameEntries f strip with
  | .error x => ({ h with objs := h.objs.set r (.dict [(asciiB "Type", .name (asciiB "Filespec"))]) }, .error x)
  | .ok d =>
    let made : FileDoc := { h with objs := (h.objs.set r (.dict d)).set e (.dict [(asciiB "Type", .name (asciiB "EmbeddedFile"))]) }
    match first, second with
    | none, _ => (made, raise .InvalidDeviceOperation)
    | some _, none => (made, raise .InvalidDeviceOperation)
    | some a, some b =>
      ({ h.embed e b a.length with
        objs := (h.embed e b a.length).objs.set r (.dict (SMap.insert (asciiB "EF") (.dict [(asciiB "F", .ref e.num e.gen)]) d)) }, .ok ())

/-- `MustFindKey(key).GetString()`. -/
def FDoc.mustString (h : FDoc) (d : FDict) (k : Bytes) : Res Bytes := match h.findKey d k with
  | none => raise .NoObject
  | some (.str s _) => .ok s
  | some _ => raise .InvalidDataType

/-- `PdfFileSpec::GetFilename`, `src/pdfmm/base/PdfFileSpec.cpp:155-164`. -/
def FDoc.getFilename (h : FDoc) (r : Ref) (unicode : Bool) : Res Bytes :=
  if unicode ∧ (SMap.find? (asciiB "UF") (h.dict r)).isSome then h.mustString (h.dict r) (asciiB "UF")
  else if (SMap.find? (asciiB "F") (h.dict r)).isSome then h.mustString (h.dict r) (asciiB "F")
  else raise .InvalidDataType

theorem dict_set (h : FDoc) (r q : Ref) (d : FDict) : (h.set r (.dict d)).dict q = if q = r then d else h.dict q := by
  by_cases e : q = r <;> simp [FDoc.dict, FDoc.set, e]

theorem nameEntries_find (f : Bytes) (strip : Bool) (d : FDict) (h : nameEntries f strip = .ok d) :
    ∃ s, fileSpecString (maybeStrip f strip) = .ok s ∧ SMap.find? (asciiB "F") d = some (.str s false) ∧ SMap.find? (asciiB "UF") d = some (.str (maybeStrip f true) false) := by
  rw [nameEntries] at h
  cases e : fileSpecString (maybeStrip f strip) with
  | error x => rw [e] at h; cases h
  | ok s =>
    rw [e] at h
    have h := Except.ok.inj h
    refine ⟨s, rfl, ?_, ?_⟩
    · rw [← h, SMap.find_insert_ne _ _ (by decide), SMap.find_insert_self]
    · rw [← h, SMap.find_insert_self]

theorem filename_of (h : FDoc) (r : Ref) (s u : Bytes) (hF : SMap.find? (asciiB "F") (h.dict r) = some (.str s false))
    (hU : SMap.find? (asciiB "UF") (h.dict r) = some (.str u false)) : h.getFilename r true = .ok u ∧ h.getFilename r false = .ok s := by
  simp only [FDoc.getFilename, FDoc.mustString, FDoc.findKey, hF, hU]
  simp

/-- C166: a specification made from memory has as its name the last part of the path, as its portable name what is written for it, and an embedded file with exactly the
data and their length; all other objects stay as they are. -/
theorem C166_memory (h h' : FileDoc) (r e : Ref) (f data : Bytes) (strip : Bool) (hre : r ≠ e) (hs : h.specFromMem r e f data strip = .ok h') :
    Spec.LastPart f (maybeStrip f true) ∧ h'.objs.getFilename r true = .ok (maybeStrip f true) ∧
    h'.objs.getFilename r false = fileSpecString (maybeStrip f strip) ∧
    SMap.find? (asciiB "EF") (h'.objs.dict r) = some (.dict [(asciiB "F", .ref e.num e.gen)]) ∧ h'.data e = some data ∧
    SMap.find? (asciiB "Params") (h'.objs.dict e) = some (.dict [(asciiB "Size", .num data.length)]) ∧
    ∀ q, q ≠ r → q ≠ e → h'.objs q = h.objs q ∧ h'.data q = h.data q := by
  rw [FileDoc.specFromMem] at hs
  cases en : nameEntries f strip with
  | error x => rw [en] at hs; cases hs
  | ok d =>
    rw [en] at hs
    have hs := Except.ok.inj hs
    subst hs
    obtain ⟨s, h1, h2, h3⟩ := nameEntries_find f strip d en
    have hd : ∀ g : FDoc, (g.set r (.dict (SMap.insert (asciiB "EF") (.dict [(asciiB "F", .ref e.num e.gen)]) d))).dict r =
        SMap.insert (asciiB "EF") (.dict [(asciiB "F", .ref e.num e.gen)]) d := fun g => by rw [dict_set, if_pos rfl]
    obtain ⟨n1, n2⟩ := filename_of ((h.embed e data data.length).objs.set r (.dict (SMap.insert (asciiB "EF") (.dict [(asciiB "F", .ref e.num e.gen)]) d))) r s (maybeStrip f true)
      (by rw [hd, SMap.find_insert_ne _ _ (by decide), h2]) (by rw [hd, SMap.find_insert_ne _ _ (by decide), h3])
    refine ⟨(C166_strip f _).1 rfl, n1, by rw [h1]; exact n2, by rw [hd, SMap.find_insert_self], ?_, ?_, ?_⟩
    · simp [FileDoc.embed]
    · rw [dict_set, if_neg hre.symm, FileDoc.embed, dict_set, if_pos rfl]
      rfl
    · intro q h1 h2
      simp [FileDoc.embed, FDoc.set, h1, h2]

/-- C166: the name of a specification for which the path was to be kept has lost it, when there is one. -/
theorem C166_kept_false (h h' : FileDoc) (r e : Ref) (f data : Bytes) (hre : r ≠ e) (hs : h.specFromMem r e f data false = .ok h') (hf : 47 ∈ f) :
    ∃ n, h'.objs.getFilename r true = .ok n ∧ Spec.LastPart f n ∧ n ≠ f := by
  obtain ⟨h1, h2, _⟩ := C166_memory h h' r e f data false hre hs
  exact ⟨_, h2, h1, fun e => h1.1 (by rw [e]; exact hf)⟩

/-- C166: no specification can be made for a file whose name has a dot in it. -/
theorem C166_dot_false (h : FileDoc) (r e : Ref) (f data : Bytes) (strip : Bool) (d n : Bytes) (hf : f = d ++ 46 :: n) (hn : 47 ∉ n) :
    h.specFromMem r e f data strip = .error .ub := by
  have hm : (46 : UInt8) ∈ maybeStrip f strip := by
    cases strip with
    | false => rw [maybeStrip, if_neg (by decide), hf]; simp
    | true =>
      have := (C166_strip f _).1 rfl
      obtain ⟨a, b⟩ := this
      rcases b with b | ⟨p, b⟩
      · rw [← b, hf]; simp
      · generalize maybeStrip f true = m at a b
        rw [hf] at b
        rcases List.append_eq_append_iff.1 b with ⟨x, h1, h2⟩ | ⟨x, h1, h2⟩
        · cases x with
          | nil => simp at h2
          | cons y x =>
            rw [List.cons_append, List.cons.injEq] at h2
            exact absurd (by rw [h2.2]; simp) hn
        · cases x with
          | nil => simp at h2
          | cons y x =>
            rw [List.cons_append, List.cons.injEq] at h2
            rw [h2.2]; simp
  rw [FileDoc.specFromMem, nameEntries, C166_other_false _ ⟨46, hm, (fun hp => absurd ((keptChar_iff 46).2 hp) (by decide)), by decide⟩]
  rfl

/-- C166, `_partial`: a specification made from a file that does not change meanwhile has its content and its size. -/
theorem C166_file_partial (h : FileDoc) (r e : Ref) (f content : Bytes) (strip : Bool) (hf : ∀ c ∈ f, Spec.PlainChar c ∨ Spec.PathSeparator c) :
    ∃ h', h.specFromFile r e f (some content) (some content) strip = (h', .ok ()) ∧ h.specFromMem r e f content strip = .ok h' := by
  have hm : ∀ c ∈ maybeStrip f strip, Spec.PlainChar c ∨ Spec.PathSeparator c := by
    cases strip with
    | false => rw [maybeStrip, if_neg (by decide)]; exact hf
    | true =>
      obtain ⟨_, b | ⟨p, b⟩⟩ := (C166_strip f _).1 rfl
      · rw [← b]; exact hf
      · intro c hc; exact hf c (by rw [b]; simp [hc])
  have e1 := C166_written _ hm
  refine ⟨{ h.embed e content content.length with
      objs := (h.embed e content content.length).objs.set r (.dict (SMap.insert (asciiB "EF") (.dict [(asciiB "F", .ref e.num e.gen)])
        (SMap.insert (asciiB "UF") (.str (maybeStrip f true) false) (SMap.insert (asciiB "F") (.str ((maybeStrip f strip).flatMap Spec.specChar) false)
          [(asciiB "Type", .name (asciiB "Filespec"))])))) }, ?_, ?_⟩
  · simp only [FileDoc.specFromFile, nameEntries, e1, Except.map]
  · simp only [FileDoc.specFromMem, nameEntries, e1, Except.map]

/-- C166: a file that changes between the two looks gets the size it had, not the one of its data. -/
theorem C166_changed_false (h h' : FileDoc) (r e : Ref) (f a b : Bytes) (strip : Bool) (hre : r ≠ e)
    (hs : h.specFromFile r e f (some a) (some b) strip = (h', .ok ())) (hl : a.length ≠ b.length) :
    h'.data e = some b ∧ ∃ n : Nat, SMap.find? (asciiB "Params") (h'.objs.dict e) = some (.dict [(asciiB "Size", .num n)]) ∧ n ≠ b.length := by
  rw [FileDoc.specFromFile] at hs
  cases en : nameEntries f strip with
  | error x => rw [en] at hs; cases (Prod.mk.inj hs).2
  | ok d =>
    rw [en] at hs
    have hs := (Prod.mk.inj hs).1
    subst hs
    refine ⟨by simp [FileDoc.embed], a.length, ?_, hl⟩
    rw [dict_set, if_neg hre.symm, FileDoc.embed, dict_set, if_pos rfl]
    rfl

/-- C166: when the file cannot be read, an error is raised, but the document keeps a specification and an embedded file without data. -/
theorem C166_failed_false (h : FileDoc) (r e : Ref) (f : Bytes) (first second : Option Bytes) (strip : Bool) (hre : r ≠ e)
    (hf : ∀ c ∈ f, Spec.PlainChar c) (hn : first = none ∨ second = none) :
    (h.specFromFile r e f first second strip).2 = raise .InvalidDeviceOperation ∧
    (h.specFromFile r e f first second strip).1.objs.getFilename r true = .ok f ∧
    SMap.find? (asciiB "EF") ((h.specFromFile r e f first second strip).1.objs.dict r) = none ∧
    (h.specFromFile r e f first second strip).1.objs e = some (.dict [(asciiB "Type", .name (asciiB "EmbeddedFile"))]) ∧
    (h.specFromFile r e f first second strip).1.data = h.data := by
  have hp : 47 ∉ f := fun hc => plain_not_separator 47 (hf 47 hc) (by decide)
  have hu : maybeStrip f true = f := (C166_strip f f).2 ⟨hp, Or.inl rfl⟩
  have hu' : maybeStrip f strip = f := by cases strip with
    | true => exact hu
    | false => rfl
  have e1 : nameEntries f strip = .ok (SMap.insert (asciiB "UF") (.str f false) (SMap.insert (asciiB "F") (.str f false) [(asciiB "Type", .name (asciiB "Filespec"))])) := by
    rw [nameEntries, hu', C166_plain_partial f hf, hu]; rfl
  have e2 : h.specFromFile r e f first second strip =
      ({ h with objs := (h.objs.set r (.dict (SMap.insert (asciiB "UF") (.str f false) (SMap.insert (asciiB "F") (.str f false)
        [(asciiB "Type", .name (asciiB "Filespec"))])))).set e (.dict [(asciiB "Type", .name (asciiB "EmbeddedFile"))]) }, raise .InvalidDeviceOperation) := by
    rw [FileDoc.specFromFile, e1]
    cases first with
    | none => rfl
    | some a => cases second with
      | none => rfl
      | some b => rcases hn with hn | hn <;> cases hn
  rw [e2]
  refine ⟨rfl, ?_, ?_, ?_, rfl⟩
  · refine (filename_of _ r f f ?_ ?_).1
    · rw [dict_set, if_neg hre, dict_set, if_pos rfl]; rfl
    · rw [dict_set, if_neg hre, dict_set, if_pos rfl]; rfl
  · show SMap.find? (asciiB "EF") (((h.objs.set r _).set e _).dict r) = none
    rw [dict_set, if_neg hre, dict_set, if_pos rfl]; rfl
  · simp [FDoc.set]

/-! ### Attached files -/

/-- `PdfDocument::AttachFile`, `src/pdfmm/base/PdfDocument.cpp:527-531`: the table of attached files is the finite map that name trees are by C49; the key is the portable name. -/
def FDoc.attachFile (h : FDoc) (t : List (Bytes × Ref)) (r : Ref) : Res (List (Bytes × Ref)) := (h.getFilename r false).map fun n => SMap.insert n r t

/-- `PdfDocument::GetAttachment`, `src/pdfmm/base/PdfDocument.cpp:533-543`. -/
def getAttachment (t : List (Bytes × Ref)) (n : Bytes) : Option Ref := SMap.find? n t

/-- C166: an attached file is found under its portable name, and those with other names are still found. -/
theorem C166_attach (h : FDoc) (t t' : List (Bytes × Ref)) (r : Ref) (n : Bytes) (hn : h.getFilename r false = .ok n) (ht : h.attachFile t r = .ok t') :
    getAttachment t' n = some r ∧ ∀ m, m ≠ n → getAttachment t' m = getAttachment t m := by
  rw [FDoc.attachFile, hn] at ht
  have ht := Except.ok.inj ht
  subst ht
  exact ⟨SMap.find_insert_self _ _ _, fun m hm => SMap.find_insert_ne _ _ hm⟩

/-- C166: attaching a second file with the same name, even from another directory, takes the first one away without an error. -/
theorem C166_same_false (h : FDoc) (t t' t'' : List (Bytes × Ref)) (r q : Ref) (n : Bytes) (hrq : r ≠ q) (hr : h.getFilename r false = .ok n)
    (hq : h.getFilename q false = .ok n) (ht : h.attachFile t r = .ok t') (ht' : h.attachFile t' q = .ok t'') :
    getAttachment t'' n = some q ∧ (∀ m, getAttachment t'' m = some r → getAttachment t m = some r) := by
  obtain ⟨a, b⟩ := C166_attach h t t' r n hr ht
  obtain ⟨c, d⟩ := C166_attach h t' t'' q n hq ht'
  refine ⟨c, fun m hm => ?_⟩
  by_cases e : m = n
  · rw [e, c] at hm; exact absurd (Option.some.inj hm).symm hrq
  · rw [d m e, b m e] at hm; exact hm

/-! ### Witnesses -/

example : (∀ c ∈ asciiB "dir/file_1", Spec.PlainChar c ∨ Spec.PathSeparator c) ∧ fileSpecString (asciiB "dir/file_1") = .ok (asciiB "dir\\\\/file_1") := by
  refine ⟨?_, by decide⟩
  intro c hc
  have : ∀ c ∈ asciiB "dir/file_1", keptChar c = true ∨ Spec.PathSeparator c := by decide
  rcases this c hc with h | h
  · exact Or.inl ((keptChar_iff c).1 h)
  · exact Or.inr h
example : fileSpecString (asciiB "report.pdf") = .error .ub := by decide
example : maybeStrip (asciiB "/home/a/report") true = asciiB "report" := by decide

/-- An empty document. -/
def noFiles : FileDoc := ⟨fun _ => none, fun _ => none⟩
example : ∃ h', noFiles.specFromMem ⟨1, 0⟩ ⟨2, 0⟩ (asciiB "a/notes") (asciiB "hello") false = .ok h' := ⟨_, rfl⟩
example : ∃ h', noFiles.specFromFile ⟨1, 0⟩ ⟨2, 0⟩ (asciiB "notes") (some (asciiB "hello")) (some (asciiB "hello you")) true = (h', .ok ()) := ⟨_, rfl⟩

/-- Two specifications, of `a/notes` and `b/notes`, both stripped. -/
def twoNotes : FDoc := fun q => if q = ⟨1, 0⟩ ∨ q = ⟨2, 0⟩ then some (.dict [(asciiB "F", .str (asciiB "notes") false), (asciiB "UF", .str (asciiB "notes") false)]) else none
example : twoNotes.getFilename ⟨1, 0⟩ false = .ok (asciiB "notes") ∧ twoNotes.getFilename ⟨2, 0⟩ false = .ok (asciiB "notes") := ⟨rfl, rfl⟩
example : ((twoNotes.attachFile [] ⟨1, 0⟩).bind fun t => twoNotes.attachFile t ⟨2, 0⟩).map (getAttachment · (asciiB "notes")) = .ok (some ⟨2, 0⟩) := rfl

end Pdfmm
