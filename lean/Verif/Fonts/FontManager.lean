import Verif.Document.Annots
/-
C184: the fonts of a document: names, the cache, requests and embedding.
-/
set_option autoImplicit false
namespace Pdfmm

/-! ### Names -/

/-- `regex_search` for `[,-]` followed by `suf`, and the removal of what was found (the first match): the name without it. -/
def cutStyle (suf : Bytes) : Bytes → Option Bytes
  | [] => none
  | c :: cs => if (c = 44 ∨ c = 45) ∧ suf.isPrefixOf cs then some (cs.drop suf.length) else (cutStyle suf cs).map (c :: ·)

/-- One of the blocks of `ExtractBaseName`: the name and the flags after it. -/
def cutBlock (suf : Bytes) (b i : Bool) (s : Bytes × Bool × Bool) : Bytes × Bool × Bool :=
  match cutStyle suf s.1 with
  | none => s
  | some n => (n, s.2.1 || b, s.2.2 || i)

/-- Six capital letters and a plus sign, `src/pdfmm/base/PdfFont.cpp:905-911`. -/
def cutSubset (name : Bytes) : Bytes :=
  if 7 ≤ name.length ∧ (name.take 6).all (fun c => 65 ≤ c && c ≤ 90) ∧ name[6]? = some 43 then name.drop 7 else name

/-- `PdfFont::ExtractBaseName`: the base name, bold and italic, `src/pdfmm/base/PdfFont.cpp:896-960`. -/
def extractBase (name : Bytes) : Bytes × Bool × Bool :=
  let s := cutBlock (litBytes "Regular") false false <| cutBlock (litBytes "Oblique") false true <| cutBlock (litBytes "Italic") false true <|
    cutBlock (litBytes "Bold") true false <| cutBlock (litBytes "BoldOblique") true true <| cutBlock (litBytes "BoldItalic") true true (cutSubset name, false, false)
  (s.1.filter (· ≠ 32), s.2)

/-! ### The manager -/

/-- A style: bold, italic (`PdfFontStyle`). -/
abbrev FStyle := Bool × Bool

/-- The metrics of a font program: its name and style; the base name is made of the name (`src/pdfmm/base/PdfFontMetricsFreetype.cpp:87-93`). -/
structure FMetrics where
  name : Bytes
  style : FStyle
  deriving DecidableEq

def FMetrics.base (m : FMetrics) : Bytes := (extractBase m.name).1

/-- A font made by the manager: the number of its object, metrics, encoding, which of the 14 standard fonts it is, if one was asked for, the flags it was made
with, and whether its own name is the base name (it has no subset tag and no style word, `src/pdfmm/base/PdfFont.cpp:189-217`). -/
structure MFont where
  ref : Nat
  metrics : FMetrics
  enc : Nat
  std : Option Nat
  flags : Nat
  plain : Bool
  deriving DecidableEq

/-- `PdfFontManager::Descriptor`, `src/pdfmm/base/PdfFontManager.cpp:464-469`. -/
structure FDesc where
  name : Bytes
  std : Option Nat
  enc : Nat
  style : FStyle
  deriving DecidableEq

/-- `EqualElement`, `src/pdfmm/base/PdfFontManager.cpp:478-481`: the standard type is not compared. -/
def FDesc.same (a b : FDesc) : Bool := a.enc == b.enc && a.style == b.style && a.name == b.name

/-- What the manager takes from outside: the fonts of the system by base name and style, the metrics and names of the standard fonts, which fonts are subset
with which flags, and which pairs of keys the hash table compares at all (those in one bucket, or of one hash, as the library has it). -/
structure FontEnv where
  sys : Bytes → FStyle → Option FMetrics
  stdMetrics : Nat → FMetrics
  std14 : Bytes → Bool → Option Nat
  subset : FMetrics → Nat → Bool
  meets : FDesc → FDesc → Bool

/-- A key of the table is taken for the one asked for. -/
def FontEnv.hit (env : FontEnv) (a d : FDesc) : Bool := env.meets a d && a.same d

/-- `PdfFont::Create` and `PdfFont::CreateStandard14`, `src/pdfmm/base/PdfFontFactory.cpp:27-40` and `src/pdfmm/base/PdfFontFactory.cpp:181-208`, as far as the manager can see. -/
def FontEnv.make (env : FontEnv) (ref : Nat) (mt : FMetrics) (enc : Nat) (std : Option Nat) (flags : Nat) : MFont :=
  ⟨ref, mt, enc, std, flags, !env.subset mt flags && mt.style == (false, false)⟩

/-- The cache of imported fonts, `src/pdfmm/base/PdfFontManager.h:211-212`. -/
abbrev FCache := List (FDesc × List MFont)

/-- The manager: the cache, the fonts by object number with whether they were loaded, the next object number and the fonts embedded so far
(`src/pdfmm/base/PdfFontManager.h:207-215`). -/
structure FManager where
  imported : FCache
  fonts : List (Nat × Bool)
  next : Nat
  embedded : List Nat

/-- A new manager, in a document whose next object number is `n`. -/
def FManager.start (n : Nat) : FManager := ⟨[], [], n, []⟩

/-- `m_importedFonts.find`. -/
def lookFonts (env : FontEnv) (d : FDesc) : FCache → Option (List MFont)
  | [] => none
  | e :: es => if env.hit e.1 d then some e.2 else lookFonts env d es

/-- The entry of a key given new fonts; a new entry if there is none (`operator[]` and what is done to the vector). -/
def putFonts (env : FontEnv) (d : FDesc) (fs : List MFont) : FCache → FCache
  | [] => [(d, fs)]
  | e :: es => if env.hit e.1 d then (e.1, fs) :: es else e :: putFonts env d fs es

/-- `addImported`, `src/pdfmm/base/PdfFontManager.cpp:90-95`, to the entry of a key, with the font made just before under the next number. -/
def FManager.add (env : FontEnv) (m : FManager) (d : FDesc) (f : MFont) : FManager :=
  ⟨putFonts env d ((lookFonts env d m.imported).getD [] ++ [f]) m.imported, (f.ref, false) :: m.fonts, m.next + 1, m.embedded⟩

/-- `matchFont`, `src/pdfmm/base/PdfFontManager.cpp:515-551`, as built without assertions: the first of an empty vector is undefined. -/
def matchFont (fonts : List MFont) (name : Bytes) (exact : Bool) : Res (Option MFont) :=
  if exact then .ok (fonts.find? (fun f => f.metrics.name == name))
  else match fonts with
    | [] => .error .ub
    | f :: fs => .ok (some (if fs = [] then f else ((f :: fs).find? (fun g => g.plain)).getD f))

/-- The first font of an entry, if there is one. -/
def firstFont (o : Option (List MFont)) : Option MFont := (o.getD []).head?

/-- `GetStandard14Font`, `src/pdfmm/base/PdfFontManager.cpp:142-159`. -/
def FManager.getStd (env : FontEnv) (m : FManager) (f enc flags : Nat) : FManager × Res (Option MFont) :=
  let d : FDesc := ⟨[], some f, enc, (false, false)⟩
  let new := env.make m.next (env.stdMetrics f) enc (some f) flags
  match firstFont (lookFonts env d m.imported) with
  | some g => (m, .ok (some g))
  | none => (m.add env d new, .ok (some new))

/-- `getImportedFont` for metrics, `src/pdfmm/base/PdfFontManager.cpp:412-429`: the entry is made first, and stays when no font is. -/
def FManager.getMetrics (env : FontEnv) (m : FManager) (mt : FMetrics) (name : Bytes) (exact : Bool) (enc flags : Nat) : FManager × Res (Option MFont) :=
  let d : FDesc := ⟨mt.base, none, enc, mt.style⟩
  let new := env.make m.next mt enc none flags
  if (lookFonts env d m.imported).getD [] ≠ [] then (m, matchFont ((lookFonts env d m.imported).getD []) name exact)
  else if exact = true ∧ mt.name ≠ name then ({ m with imported := putFonts env d [] m.imported, next := m.next + 1 }, .ok none)
  else (m.add env d new, .ok (some new))

/-- The base name and the style asked for, `adaptSearchParams`, `src/pdfmm/base/PdfFontManager.cpp:161-171`. -/
def askedStyle (name : Bytes) (style : FStyle) : FStyle := (style.1 || (extractBase name).2.1, style.2 || (extractBase name).2.2)

/-- `GetFont` by name, `src/pdfmm/base/PdfFontManager.cpp:127-140` and `src/pdfmm/base/PdfFontManager.cpp:161-194`; `auto` is none, or whether other names of
the standard fonts count. -/
def FManager.getName (env : FontEnv) (m : FManager) (name : Bytes) (style : FStyle) (auto : Option Bool) (exact : Bool) (enc flags : Nat) :
    FManager × Res (Option MFont) :=
  match auto.bind (env.std14 name) with
  | some f => m.getStd env f enc flags
  | none =>
    match lookFonts env ⟨(extractBase name).1, none, enc, askedStyle name style⟩ m.imported with
    | some fs => (m, matchFont fs name exact)
    | none => match env.sys (extractBase name).1 (askedStyle name style) with
      | none => (m, .ok none)
      | some mt => m.getMetrics env mt name exact enc flags

/-- `AddImported` (as `TryGetSubstituteFont` calls it, `src/pdfmm/base/PdfFont.cpp:71-127`), `src/pdfmm/base/PdfFontManager.cpp:67-74`, with a font made of
`mt`; `enc` is the encoding the font has. -/
def FManager.addNew (env : FontEnv) (m : FManager) (mt : FMetrics) (enc flags : Nat) : FManager × Res (Option MFont) :=
  (m.add env ⟨mt.base, none, enc, mt.style⟩ (env.make m.next mt enc none flags), .ok (some (env.make m.next mt enc none flags)))

/-- `EmbedFonts`, `src/pdfmm/base/PdfFontManager.cpp:315-327`. -/
def FManager.embed (m : FManager) : FManager :=
  { m with embedded := m.embedded ++ (m.imported.flatMap (·.2)).map (·.ref), imported := [] }

/-- `GetLoadedFont` for an object the manager knows, `src/pdfmm/base/PdfFontManager.cpp:97-111`: true when it has the font, false when it does not know the
object. -/
def FManager.known (m : FManager) (r : Nat) : Res Bool :=
  match m.fonts.find? (fun e => e.1 == r) with
  | none => .ok false
  | some e => if e.2 then .ok true else raise .InvalidFontFile

/-- The calls. -/
inductive FmCall
  | std (f enc flags : Nat)
  | name (n : Bytes) (style : FStyle) (auto : Option Bool) (exact : Bool) (enc flags : Nat)
  | subst (mt : FMetrics) (enc flags : Nat)
  | embed

def FManager.call (env : FontEnv) (m : FManager) : FmCall → FManager × Res (Option MFont)
  | .std f enc fl => m.getStd env f enc fl
  | .name n st a ex enc fl => m.getName env n st a ex enc fl
  | .subst mt enc fl => m.addNew env mt enc fl
  | .embed => (m.embed, .ok none)

/-- A program: the manager after its calls and what they gave. -/
def FManager.run (env : FontEnv) (m : FManager) : List FmCall → FManager × List (Res (Option MFont))
  | [] => (m, [])
  | c :: cs => (((m.call env c).1.run env cs).1, (m.call env c).2 :: ((m.call env c).1.run env cs).2)

/-! ### Names, proved -/

theorem cutStyle_none {suf n : Bytes} (h : ∀ c ∈ n, c ≠ 44 ∧ c ≠ 45) : cutStyle suf n = none := by
  induction n with
  | nil => rfl
  | cons c cs ih =>
    have hc := h c (by simp)
    simp [cutStyle, hc.1, hc.2, ih (fun x hx => h x (by simp [hx]))]

theorem cutStyle_end {suf n t : Bytes} {sep : UInt8} (h : ∀ c ∈ n, c ≠ 44 ∧ c ≠ 45) (hs : sep = 44 ∨ sep = 45) (hp : suf.isPrefixOf t = true) :
    cutStyle suf (n ++ sep :: t) = some (n ++ t.drop suf.length) := by
  induction n with
  | nil => simp [cutStyle, hs, hp]
  | cons c cs ih =>
    have hc := h c (by simp)
    simp [cutStyle, hc.1, hc.2, ih (fun x hx => h x (by simp [hx]))]

theorem cutStyle_end_none {suf n t : Bytes} {sep : UInt8} (h : ∀ c ∈ n, c ≠ 44 ∧ c ≠ 45) (ht : ∀ c ∈ t, c ≠ 44 ∧ c ≠ 45) (hp : suf.isPrefixOf t = false) :
    cutStyle suf (n ++ sep :: t) = none := by
  induction n with
  | nil => simp [cutStyle, hp, cutStyle_none ht]
  | cons c cs ih =>
    have hc := h c (by simp)
    simp [cutStyle, hc.1, hc.2, ih (fun x hx => h x (by simp [hx]))]

namespace Spec

/-- A plain family name: no comma, hyphen, plus sign or blank. -/
def FamilyName (n : Bytes) : Prop := ∀ c ∈ n, c ≠ 44 ∧ c ≠ 45 ∧ c ≠ 43 ∧ c ≠ 32

/-- The words for styles, each with bold and italic. -/
def styleWords : List (Bytes × Bool × Bool) :=
  [(litBytes "BoldItalic", true, true), (litBytes "BoldOblique", true, true), (litBytes "Bold", true, false), (litBytes "Italic", false, true),
   (litBytes "Oblique", false, true), (litBytes "Regular", false, false)]

/-- A tag of six capital letters and a plus sign. -/
def SubsetTag (t : Bytes) : Prop := ∃ l, t = l ++ [43] ∧ l.length = 6 ∧ ∀ c ∈ l, 65 ≤ c ∧ c ≤ 90

/-- A hash table that compares a key with itself, and never compares keys of two standard types. -/
def FairTable (env : FontEnv) : Prop := (∀ a : FDesc, env.meets a a = true) ∧ ∀ a b : FDesc, env.meets a b = true → a.std = b.std

/-- What a program may be given for a name: a standard font of that name, a font with the base name and the style asked for, or one with the base name and the
style of the font the system has for these. -/
def FitsName (env : FontEnv) (n : Bytes) (style : FStyle) (auto : Option Bool) (g : MFont) : Prop :=
  (∃ a f, auto = some a ∧ env.std14 n a = some f ∧ g.std = some f ∧ g.metrics = env.stdMetrics f) ∨
  (g.std = none ∧ (extractBase g.metrics.name).1 = (extractBase n).1 ∧
    g.metrics.style = (style.1 || (extractBase n).2.1, style.2 || (extractBase n).2.2)) ∨
  (g.std = none ∧ ∃ mt, env.sys (extractBase n).1 (style.1 || (extractBase n).2.1, style.2 || (extractBase n).2.2) = some mt ∧
    (extractBase g.metrics.name).1 = (extractBase mt.name).1 ∧ g.metrics.style = mt.style)

end Spec

theorem cutSubset_family {n t : Bytes} (h : ∀ c ∈ n, c ≠ 43) (ht : ∀ c ∈ t, c ≠ 43) : cutSubset (n ++ t) = n ++ t := by
  unfold cutSubset
  rw [if_neg]
  rintro ⟨_, _, h6⟩
  have := List.mem_of_getElem? h6
  rcases List.mem_append.1 this with h1 | h1
  · exact h _ h1 rfl
  · exact ht _ h1 rfl

theorem cutSubset_tag {t n : Bytes} (h : Spec.SubsetTag t) : cutSubset (t ++ n) = n := by
  obtain ⟨l, rfl, hl, hc⟩ := h
  unfold cutSubset
  rw [if_pos]
  · simp [hl, List.drop_append]
  · refine ⟨by simp [hl]; omega, ?_, ?_⟩
    · rw [List.append_assoc, List.take_append_of_le_length (by omega), List.take_of_length_le (by omega)]
      simpa using hc
    · simp [hl]

theorem filter_blank {n : Bytes} (h : Spec.FamilyName n) : n.filter (fun c => decide (c ≠ 32)) = n := by
  apply List.filter_eq_self.2
  intro c hc
  simp [(h c hc).2.2.2]

theorem extract_of_cut {name n : Bytes} {sep : UInt8} {w : Bytes × Bool × Bool} (hn : Spec.FamilyName n) (hs : sep = 44 ∨ sep = 45) (hw : w ∈ Spec.styleWords)
    (hcut : cutSubset name = n ++ sep :: w.1) : extractBase name = (n, w.2) := by
  have hn' : ∀ c ∈ n, c ≠ 44 ∧ c ≠ 45 := fun c hc => ⟨(hn c hc).1, (hn c hc).2.1⟩
  unfold extractBase
  rw [hcut]
  have hnone : ∀ suf, cutStyle suf n = none := fun suf => cutStyle_none hn'
  have hE : ∀ suf u : Bytes, (∀ c ∈ u, c ≠ 44 ∧ c ≠ 45) → suf.isPrefixOf u = false → cutStyle suf (n ++ sep :: u) = none :=
    fun suf u hu hp => cutStyle_end_none hn' hu hp
  have hY : ∀ suf u : Bytes, suf.isPrefixOf u = true → cutStyle suf (n ++ sep :: u) = some (n ++ u.drop suf.length) :=
    fun suf u hp => cutStyle_end hn' hs hp
  have hf := filter_blank hn
  simp only [Spec.styleWords, List.mem_cons, List.not_mem_nil, or_false] at hw
  rcases hw with rfl | rfl | rfl | rfl | rfl | rfl
  · simp only [cutBlock]
    rw [hY _ _ (by decide)]
    have : (litBytes "BoldItalic").drop (litBytes "BoldItalic").length = [] := by decide
    simp only [this, List.append_nil, hnone, hf]; rfl
  · simp only [cutBlock]
    rw [hE (litBytes "BoldItalic") _ (by decide) (by decide)]
    simp only []
    rw [hY _ _ (by decide)]
    have : (litBytes "BoldOblique").drop (litBytes "BoldOblique").length = [] := by decide
    simp only [this, List.append_nil, hnone, hf]; rfl
  · simp only [cutBlock]
    rw [hE (litBytes "BoldItalic") _ (by decide) (by decide)]
    simp only []
    rw [hE (litBytes "BoldOblique") _ (by decide) (by decide)]
    simp only []
    rw [hY _ _ (by decide)]
    have : (litBytes "Bold").drop (litBytes "Bold").length = [] := by decide
    simp only [this, List.append_nil, hnone, hf]; rfl
  · simp only [cutBlock]
    rw [hE (litBytes "BoldItalic") _ (by decide) (by decide)]
    simp only []
    rw [hE (litBytes "BoldOblique") _ (by decide) (by decide)]
    simp only []
    rw [hE (litBytes "Bold") _ (by decide) (by decide)]
    simp only []
    rw [hY _ _ (by decide)]
    have : (litBytes "Italic").drop (litBytes "Italic").length = [] := by decide
    simp only [this, List.append_nil, hnone, hf]; rfl
  · simp only [cutBlock]
    rw [hE (litBytes "BoldItalic") _ (by decide) (by decide)]
    simp only []
    rw [hE (litBytes "BoldOblique") _ (by decide) (by decide)]
    simp only []
    rw [hE (litBytes "Bold") _ (by decide) (by decide)]
    simp only []
    rw [hE (litBytes "Italic") _ (by decide) (by decide)]
    simp only []
    rw [hY _ _ (by decide)]
    have : (litBytes "Oblique").drop (litBytes "Oblique").length = [] := by decide
    simp only [this, List.append_nil, hnone, hf]; rfl
  · simp only [cutBlock]
    rw [hE (litBytes "BoldItalic") _ (by decide) (by decide)]
    simp only []
    rw [hE (litBytes "BoldOblique") _ (by decide) (by decide)]
    simp only []
    rw [hE (litBytes "Bold") _ (by decide) (by decide)]
    simp only []
    rw [hE (litBytes "Italic") _ (by decide) (by decide)]
    simp only []
    rw [hE (litBytes "Oblique") _ (by decide) (by decide)]
    simp only []
    rw [hY _ _ (by decide)]
    have : (litBytes "Regular").drop (litBytes "Regular").length = [] := by decide
    simp only [this, List.append_nil, hnone, hf]; rfl

/-- **C184, names.** Any family name, followed by a comma or a hyphen and one of the six words, with or without a subset tag before it: the base name is the
family name, and the flags are those of the word. -/
theorem C184_names (n tag : Bytes) (sep : UInt8) (w : Bytes × Bool × Bool) (hn : Spec.FamilyName n) (ht : tag = [] ∨ Spec.SubsetTag tag)
    (hs : sep = 44 ∨ sep = 45) (hw : w ∈ Spec.styleWords) : extractBase (tag ++ (n ++ sep :: w.1)) = (n, w.2) := by
  apply extract_of_cut hn hs hw
  rcases ht with rfl | ht
  · rw [List.nil_append]
    apply cutSubset_family (fun c hc => (hn c hc).2.2.1)
    intro c hc
    rcases List.mem_cons.1 hc with rfl | hc
    · rcases hs with rfl | rfl <;> decide
    · have : ∀ w ∈ Spec.styleWords, ∀ c ∈ w.1, c ≠ 43 := by decide
      exact this w hw c hc
  · exact cutSubset_tag ht

/-- The same without a word: the name alone. -/
theorem C184_names_plain (n tag : Bytes) (hn : Spec.FamilyName n) (ht : tag = [] ∨ Spec.SubsetTag tag) :
    extractBase (tag ++ n) = (n, false, false) := by
  have hcut : cutSubset (tag ++ n) = n := by
    rcases ht with rfl | ht
    · have := cutSubset_family (n := n) (t := []) (fun c hc => (hn c hc).2.2.1) (by simp)
      simpa using this
    · exact cutSubset_tag ht
  have hnone : ∀ suf, cutStyle suf n = none := fun suf => cutStyle_none (fun c hc => ⟨(hn c hc).1, (hn c hc).2.1⟩)
  simp only [extractBase, hcut, cutBlock, hnone, filter_blank hn]


/-! ### The cache, proved -/

theorem hit_fair {env : FontEnv} (h : Spec.FairTable env) (a d : FDesc) : env.hit a d = true ↔ a = d := by
  constructor
  · intro h1
    simp only [FontEnv.hit, FDesc.same, Bool.and_eq_true, beq_iff_eq] at h1
    have := h.2 _ _ h1.1
    cases a; cases d; simp_all
  · rintro rfl; simp [FontEnv.hit, FDesc.same, h.1]

theorem look_mem {env : FontEnv} {d : FDesc} {l : FCache} {fs : List MFont} (h : lookFonts env d l = some fs) : ∃ k, env.hit k d = true ∧ (k, fs) ∈ l := by
  induction l with
  | nil => simp [lookFonts] at h
  | cons e es ih =>
    simp only [lookFonts] at h
    split at h
    · next hh => exact ⟨e.1, hh, by simp at h; simp [← h]⟩
    · obtain ⟨k, h1, h2⟩ := ih h; exact ⟨k, h1, by simp [h2]⟩

theorem put_mem {env : FontEnv} {d : FDesc} {l : FCache} {fs : List MFont} {e : FDesc × List MFont} (h : e ∈ putFonts env d fs l) :
    (e.2 = fs ∧ (e.1 = d ∨ env.hit e.1 d = true)) ∨ e ∈ l := by
  induction l with
  | nil => simp [putFonts] at h; subst h; simp
  | cons x xs ih =>
    simp only [putFonts] at h
    split at h
    · next hh =>
      rcases List.mem_cons.1 h with rfl | h
      · left; exact ⟨rfl, Or.inr hh⟩
      · right; simp [h]
    · rcases List.mem_cons.1 h with rfl | h
      · right; simp
      · rcases ih h with h | h
        · left; exact h
        · right; simp [h]

theorem put_perm (env : FontEnv) (d : FDesc) (f : MFont) (l : FCache) :
    ((putFonts env d ((lookFonts env d l).getD [] ++ [f]) l).flatMap (·.2)).Perm (f :: l.flatMap (·.2)) := by
  induction l with
  | nil => simp [putFonts, lookFonts]
  | cons e es ih =>
    by_cases hh : env.hit e.1 d = true
    · simp only [putFonts, lookFonts, hh, if_true, Option.getD_some, List.flatMap_cons, List.append_assoc]
      exact List.perm_middle
    · simp only [putFonts, lookFonts, if_neg hh, List.flatMap_cons]
      exact (List.Perm.append_left _ ih).trans List.perm_middle

theorem put_nil (env : FontEnv) (d : FDesc) (l : FCache) (h : (lookFonts env d l).getD [] = []) :
    (putFonts env d [] l).flatMap (·.2) = l.flatMap (·.2) := by
  induction l with
  | nil => simp [putFonts]
  | cons e es ih =>
    by_cases hh : env.hit e.1 d = true
    · simp only [lookFonts, hh, if_true, Option.getD_some] at h
      simp [putFonts, hh, h]
    · simp only [lookFonts, if_neg hh] at h
      simp [putFonts, if_neg hh, ih h]

theorem look_put {env : FontEnv} (hf : Spec.FairTable env) (d : FDesc) (fs : List MFont) (l : FCache) : lookFonts env d (putFonts env d fs l) = some fs := by
  induction l with
  | nil => simp [putFonts, lookFonts, (hit_fair hf d d).2 rfl]
  | cons e es ih =>
    by_cases hh : env.hit e.1 d = true
    · simp [putFonts, lookFonts, hh]
    · simp [putFonts, lookFonts, if_neg hh, ih]

theorem look_put_ne {env : FontEnv} (hf : Spec.FairTable env) {d k : FDesc} (hne : k ≠ d) (fs : List MFont) (l : FCache) :
    lookFonts env k (putFonts env d fs l) = lookFonts env k l := by
  have hn : env.hit d k ≠ true := fun h => hne ((hit_fair hf d k).1 h).symm
  induction l with
  | nil => simp [putFonts, lookFonts, if_neg hn]
  | cons e es ih =>
    by_cases hh : env.hit e.1 d = true
    · have := (hit_fair hf _ _).1 hh
      have hn' : env.hit e.1 k ≠ true := this ▸ hn
      simp only [putFonts, lookFonts, hh, if_true, if_neg hn']
    · simp [putFonts, lookFonts, if_neg hh, ih]

/-- What holds of the numbers in every manager, whatever the table does. -/
structure FmBooks (m : FManager) : Prop where
  fresh : ∀ r ∈ m.embedded ++ (m.imported.flatMap (·.2)).map (·.ref), r < m.next ∧ (r, false) ∈ m.fonts
  once : (m.embedded ++ (m.imported.flatMap (·.2)).map (·.ref)).Nodup
  imp : ∀ e ∈ m.fonts, e.2 = false

theorem books_add {env : FontEnv} {m : FManager} (h : FmBooks m) (d : FDesc) (f : MFont) (hr : f.ref = m.next) : FmBooks (m.add env d f) := by
  have hp := (put_perm env d f m.imported).map (·.ref)
  have hp' : (m.embedded ++ ((m.add env d f).imported.flatMap (·.2)).map (·.ref)).Perm (f.ref :: (m.embedded ++ (m.imported.flatMap (·.2)).map (·.ref))) := by
    refine (List.Perm.append_left _ hp).trans ?_
    exact List.perm_middle
  refine ⟨?_, ?_, ?_⟩
  · intro r hr'
    have := hp'.mem_iff.1 hr'
    rcases List.mem_cons.1 this with rfl | h1
    · simp [FManager.add, hr]
    · have := h.fresh r h1
      simp only [FManager.add]
      exact ⟨by omega, by simp [this.2]⟩
  · refine hp'.nodup_iff.2 (List.nodup_cons.2 ⟨?_, h.once⟩)
    intro h1
    have := (h.fresh _ h1).1
    omega
  · intro e he
    rcases List.mem_cons.1 he with rfl | he
    · rfl
    · exact h.imp e he

theorem books_skip {env : FontEnv} {m : FManager} (h : FmBooks m) (d : FDesc) (hn : (lookFonts env d m.imported).getD [] = []) :
    FmBooks { m with imported := putFonts env d [] m.imported, next := m.next + 1 } := by
  refine ⟨?_, ?_, h.imp⟩
  · simp only [put_nil env d _ hn]
    intro r hr
    have := h.fresh r hr
    exact ⟨by omega, this.2⟩
  · simp only [put_nil env d _ hn]; exact h.once

theorem books_std {env : FontEnv} {m : FManager} (h : FmBooks m) (f enc fl : Nat) : FmBooks (m.getStd env f enc fl).1 := by
  simp only [FManager.getStd]
  cases firstFont (lookFonts env ⟨[], some f, enc, (false, false)⟩ m.imported) with
  | some g => exact h
  | none => exact books_add h _ _ rfl

theorem books_metrics {env : FontEnv} {m : FManager} (h : FmBooks m) (mt : FMetrics) (n : Bytes) (ex : Bool) (enc fl : Nat) :
    FmBooks (m.getMetrics env mt n ex enc fl).1 := by
  unfold FManager.getMetrics
  simp only []
  split
  · exact h
  · next hn =>
    split
    · exact books_skip h _ (Decidable.not_not.1 hn)
    · exact books_add h _ _ rfl

theorem books_call {env : FontEnv} {m : FManager} (h : FmBooks m) (c : FmCall) : FmBooks (m.call env c).1 := by
  cases c with
  | std f enc fl => exact books_std h f enc fl
  | name n st a ex enc fl =>
    simp only [FManager.call, FManager.getName]
    cases a.bind (env.std14 n) with
    | some f => exact books_std h f enc fl
    | none =>
      simp only []
      cases lookFonts env ⟨(extractBase n).1, none, enc, askedStyle n st⟩ m.imported with
      | some fs => exact h
      | none =>
        simp only []
        cases env.sys (extractBase n).1 (askedStyle n st) with
        | none => exact h
        | some mt => exact books_metrics h mt n ex enc fl
  | subst mt enc fl => exact books_add h _ _ rfl
  | embed => exact ⟨by simpa [FManager.call, FManager.embed] using h.fresh, by simpa [FManager.call, FManager.embed] using h.once, h.imp⟩

theorem books_run {env : FontEnv} (cs : List FmCall) {m : FManager} (h : FmBooks m) : FmBooks (m.run env cs).1 := by
  induction cs generalizing m with
  | nil => exact h
  | cons c cs ih => exact ih (books_call h c)

theorem books_start (n : Nat) : FmBooks (FManager.start n) := ⟨by simp [FManager.start], by simp [FManager.start], by simp [FManager.start]⟩

/-- All the numbers a manager has given fonts under. -/
def FManager.refs (m : FManager) : List Nat := m.embedded ++ (m.imported.flatMap (·.2)).map (·.ref)

theorem refs_add {env : FontEnv} {m : FManager} {d : FDesc} {f : MFont} {r : Nat} : r ∈ (m.add env d f).refs ↔ r = f.ref ∨ r ∈ m.refs := by
  have hp := ((put_perm env d f m.imported).map (·.ref)).mem_iff (a := r)
  simp only [FManager.refs, List.mem_append]
  simp only [FManager.add] at hp ⊢
  rw [hp]; simp only [List.map_cons, List.mem_cons]; grind

theorem look_refs {env : FontEnv} {m : FManager} {d : FDesc} {fs : List MFont} (h : lookFonts env d m.imported = some fs) {g : MFont} (hg : g ∈ fs) : g.ref ∈ m.refs := by
  obtain ⟨k, _, hk⟩ := look_mem h
  exact List.mem_append.2 (Or.inr (List.mem_map.2 ⟨g, List.mem_flatMap.2 ⟨_, hk, hg⟩, rfl⟩))

theorem match_mem {fs : List MFont} {n : Bytes} {ex : Bool} {g : MFont} (h : matchFont fs n ex = .ok (some g)) : g ∈ fs ∧ (ex = true → g.metrics.name = n) := by
  unfold matchFont at h
  split at h
  · next he =>
    simp only [Except.ok.injEq] at h
    exact ⟨List.mem_of_find?_eq_some h, fun _ => by simpa using List.find?_some h⟩
  · next he =>
    refine ⟨?_, fun h' => absurd h' he⟩
    cases fs with
    | nil => simp at h
    | cons f fs =>
      simp only [Except.ok.injEq, Option.some.injEq] at h
      subst h
      split
      · simp
      · cases hq : (f :: fs).find? (fun g => g.plain) with
        | none => simp
        | some q => simpa using List.mem_of_find?_eq_some hq

theorem first_mem {o : Option (List MFont)} {g : MFont} (h : firstFont o = some g) : ∃ fs, o = some fs ∧ g ∈ fs := by
  cases o with
  | none => simp [firstFont] at h
  | some fs => exact ⟨fs, rfl, List.mem_of_head? (by simpa [firstFont] using h)⟩

theorem std_refs {env : FontEnv} {m : FManager} (f enc fl : Nat) : (∀ r ∈ m.refs, r ∈ (m.getStd env f enc fl).1.refs) ∧
    ∀ g, (m.getStd env f enc fl).2 = .ok (some g) → g.ref ∈ (m.getStd env f enc fl).1.refs := by
  simp only [FManager.getStd]
  cases hk : firstFont (lookFonts env ⟨[], some f, enc, (false, false)⟩ m.imported) with
  | some g =>
    refine ⟨fun r h => h, fun g' h => ?_⟩
    simp only [Except.ok.injEq, Option.some.injEq] at h
    obtain ⟨fs, h1, h2⟩ := first_mem hk
    exact look_refs h1 (h ▸ h2)
  | none =>
    refine ⟨fun r h => refs_add.2 (Or.inr h), fun g' h => ?_⟩
    simp only [Except.ok.injEq, Option.some.injEq] at h
    exact refs_add.2 (Or.inl (by rw [h]))

theorem metrics_refs {env : FontEnv} {m : FManager} (mt : FMetrics) (n : Bytes) (ex : Bool) (enc fl : Nat) :
    (∀ r ∈ m.refs, r ∈ (m.getMetrics env mt n ex enc fl).1.refs) ∧
    ∀ g, (m.getMetrics env mt n ex enc fl).2 = .ok (some g) → g.ref ∈ (m.getMetrics env mt n ex enc fl).1.refs := by
  unfold FManager.getMetrics
  simp only []
  split
  · refine ⟨fun r h => h, fun g h => ?_⟩
    have := (match_mem h).1
    cases hl : lookFonts env ⟨mt.base, none, enc, mt.style⟩ m.imported with
    | none => simp [hl] at this
    | some fs => exact look_refs hl (by simpa [hl] using this)
  · next hn =>
    split
    · refine ⟨fun r h => ?_, fun g h => by simp at h⟩
      simp only [FManager.refs, put_nil env _ _ (Decidable.not_not.1 hn)]
      exact h
    · refine ⟨fun r h => refs_add.2 (Or.inr h), fun g' h => ?_⟩
      simp only [Except.ok.injEq, Option.some.injEq] at h
      exact refs_add.2 (Or.inl (by rw [h]))

theorem call_refs {env : FontEnv} {m : FManager} (c : FmCall) : (∀ r ∈ m.refs, r ∈ (m.call env c).1.refs) ∧
    ∀ g, (m.call env c).2 = .ok (some g) → g.ref ∈ (m.call env c).1.refs := by
  cases c with
  | std f enc fl => exact std_refs f enc fl
  | name n st a ex enc fl =>
    simp only [FManager.call, FManager.getName]
    cases a.bind (env.std14 n) with
    | some f => exact std_refs f enc fl
    | none =>
      simp only []
      cases hl : lookFonts env ⟨(extractBase n).1, none, enc, askedStyle n st⟩ m.imported with
      | some fs => exact ⟨fun r h => h, fun g h => look_refs hl (match_mem h).1⟩
      | none =>
        simp only []
        cases env.sys (extractBase n).1 (askedStyle n st) with
        | none => exact ⟨fun r h => h, fun g h => by simp at h⟩
        | some mt => exact metrics_refs mt n ex enc fl
  | subst mt enc fl =>
    refine ⟨fun r h => refs_add.2 (Or.inr h), fun g' h => ?_⟩
    simp only [FManager.call, FManager.addNew, Except.ok.injEq, Option.some.injEq] at h
    exact refs_add.2 (Or.inl (by rw [h]))
  | embed => exact ⟨fun r h => by simpa [FManager.call, FManager.embed, FManager.refs] using h, fun g h => by simp [FManager.call] at h⟩

theorem run_refs {env : FontEnv} (cs : List FmCall) {m : FManager} : (∀ r ∈ m.refs, r ∈ (m.run env cs).1.refs) ∧
    ∀ g, .ok (some g) ∈ (m.run env cs).2 → g.ref ∈ (m.run env cs).1.refs := by
  induction cs generalizing m with
  | nil => exact ⟨fun r h => h, fun g h => by simp [FManager.run] at h⟩
  | cons c cs ih =>
    refine ⟨fun r h => ih.1 r ((call_refs c).1 r h), fun g h => ?_⟩
    rcases List.mem_cons.1 h with h | h
    · exact ih.1 _ ((call_refs c).2 g h.symm)
    · exact ih.2 g h

/-- **C184, embedding.** After any program, with any hash table: embedding the fonts embeds every font any call gave since the document was made, each of them
once and no other twice, and it leaves none behind. -/
theorem C184_embed (env : FontEnv) (n : Nat) (cs : List FmCall) :
    (((FManager.start n).run env cs).1.embed).embedded.Nodup ∧
    (∀ g, .ok (some g) ∈ ((FManager.start n).run env cs).2 → g.ref ∈ (((FManager.start n).run env cs).1.embed).embedded) ∧
    (((FManager.start n).run env cs).1.embed).imported = [] :=
  ⟨(books_run cs (books_start n)).once, (run_refs cs).2, rfl⟩

/-- The table of an implementation that compares whole hashes, taken to tell all keys apart. -/
def sampleEnv (meets : FDesc → FDesc → Bool) : FontEnv :=
  ⟨fun b st => some ⟨b, st⟩, fun f => ⟨[UInt8.ofNat f], (false, false)⟩, fun _ _ => none, fun _ _ => true, meets⟩

theorem sample_fair : Spec.FairTable (sampleEnv (fun a b => a == b)) := ⟨fun a => by simp [sampleEnv], fun a b h => by simp [sampleEnv] at h; rw [h]⟩

/-- Not vacuous: two fonts asked for, one of them twice, are both embedded, once each. -/
example : (((FManager.start 5).run (sampleEnv (fun a b => a == b)) [.std 1 0 0, .std 2 0 0, .std 1 0 0]).1.embed).embedded = [5, 6] := by decide

/-- **C184, importing is not loading.** After any program: the object of any font a call gave is refused when it is loaded as a font — also when the fonts
have been embedded since, and the object is a complete font. -/
theorem C184_known_false (env : FontEnv) (n : Nat) (cs : List FmCall) (g : MFont) (h : .ok (some g) ∈ ((FManager.start n).run env cs).2) :
    ((FManager.start n).run env cs).1.known g.ref = raise .InvalidFontFile := by
  have hb := books_run (env := env) cs (books_start n)
  have hm := (hb.fresh _ ((run_refs cs).2 g h)).2
  unfold FManager.known
  cases hq : ((FManager.start n).run env cs).1.fonts.find? (fun e => e.1 == g.ref) with
  | none =>
    rw [List.find?_eq_none] at hq
    simpa using hq _ hm
  | some e => simp [hb.imp e (List.mem_of_find?_eq_some hq)]

/-! ### What a request gives -/

/-- What holds of the entries, with a fair table. -/
def FmEntries (env : FontEnv) (m : FManager) : Prop :=
  ∀ e ∈ m.imported, ∀ f ∈ e.2, f.enc = e.1.enc ∧ f.std = e.1.std ∧ (e.1.std = none → f.metrics.base = e.1.name ∧ f.metrics.style = e.1.style) ∧
    ∀ s, e.1.std = some s → f.metrics = env.stdMetrics s

theorem entries_put {env : FontEnv} (hf : Spec.FairTable env) {m : FManager} (h : FmEntries env m) {d : FDesc} {fs : List MFont} {m' : FManager}
    (hi : m'.imported = putFonts env d fs m.imported)
    (hfs : ∀ f ∈ fs, f.enc = d.enc ∧ f.std = d.std ∧ (d.std = none → f.metrics.base = d.name ∧ f.metrics.style = d.style) ∧
      ∀ s, d.std = some s → f.metrics = env.stdMetrics s) : FmEntries env m' := by
  intro e he f hfe
  rw [hi] at he
  rcases put_mem he with ⟨h1, h2⟩ | h1
  · have : e.1 = d := h2.elim id (fun h => (hit_fair hf _ _).1 h)
    rw [this]; exact hfs f (h1 ▸ hfe)
  · exact h e h1 f hfe

theorem entries_look {env : FontEnv} (hf : Spec.FairTable env) {m : FManager} (h : FmEntries env m) {d : FDesc} {fs : List MFont}
    (hl : lookFonts env d m.imported = some fs) : ∀ f ∈ fs, f.enc = d.enc ∧ f.std = d.std ∧
      (d.std = none → f.metrics.base = d.name ∧ f.metrics.style = d.style) ∧ ∀ s, d.std = some s → f.metrics = env.stdMetrics s := by
  obtain ⟨k, hk, hm⟩ := look_mem hl
  have := (hit_fair hf _ _).1 hk
  subst this
  exact h _ hm

theorem entries_add {env : FontEnv} (hf : Spec.FairTable env) {m : FManager} (h : FmEntries env m) (d : FDesc) (g : MFont)
    (hg : g.enc = d.enc ∧ g.std = d.std ∧ (d.std = none → g.metrics.base = d.name ∧ g.metrics.style = d.style) ∧
      ∀ s, d.std = some s → g.metrics = env.stdMetrics s) : FmEntries env (m.add env d g) := by
  apply entries_put hf h rfl
  intro f hfm
  rcases List.mem_append.1 hfm with h1 | h1
  · cases hl : lookFonts env d m.imported with
    | none => simp [hl] at h1
    | some fs => exact entries_look hf h hl f (by simpa [hl] using h1)
  · rw [List.mem_singleton.1 h1]; exact hg

theorem entries_std {env : FontEnv} (hf : Spec.FairTable env) {m : FManager} (h : FmEntries env m) (f enc fl : Nat) :
    FmEntries env (m.getStd env f enc fl).1 ∧
    ∃ g, (m.getStd env f enc fl).2 = .ok (some g) ∧ g.std = some f ∧ g.enc = enc ∧ g.metrics = env.stdMetrics f := by
  simp only [FManager.getStd]
  cases hk : firstFont (lookFonts env ⟨[], some f, enc, (false, false)⟩ m.imported) with
  | some g =>
    obtain ⟨fs, h1, h2⟩ := first_mem hk
    have := entries_look hf h h1 g h2
    exact ⟨h, g, rfl, this.2.1, this.1, this.2.2.2 f rfl⟩
  | none =>
    refine ⟨entries_add hf h _ _ ?_, _, rfl, rfl, rfl, rfl⟩
    exact ⟨rfl, rfl, fun h => by simp at h, fun s h => by simp at h; subst h; rfl⟩

theorem entries_metrics {env : FontEnv} (hf : Spec.FairTable env) {m : FManager} (h : FmEntries env m) (mt : FMetrics) (n : Bytes) (ex : Bool) (enc fl : Nat) :
    FmEntries env (m.getMetrics env mt n ex enc fl).1 ∧
    ∀ g, (m.getMetrics env mt n ex enc fl).2 = .ok (some g) →
      g.std = none ∧ g.enc = enc ∧ g.metrics.base = mt.base ∧ g.metrics.style = mt.style ∧ (ex = true → g.metrics.name = n) := by
  unfold FManager.getMetrics
  simp only []
  split
  · refine ⟨h, fun g hg => ?_⟩
    have hm := match_mem hg
    cases hl : lookFonts env ⟨mt.base, none, enc, mt.style⟩ m.imported with
    | none => simp [hl] at hm
    | some fs =>
      have := entries_look hf h hl g (by simpa [hl] using hm.1)
      exact ⟨this.2.1, this.1, (this.2.2.1 rfl).1, (this.2.2.1 rfl).2, hm.2⟩
  · split
    · exact ⟨entries_put hf h rfl (by simp), fun g hg => by simp at hg⟩
    · next he =>
      refine ⟨entries_add hf h _ _ ⟨rfl, rfl, fun _ => ⟨rfl, rfl⟩, fun s h => by simp at h⟩, fun g hg => ?_⟩
      simp only [Except.ok.injEq, Option.some.injEq] at hg
      subst hg
      refine ⟨rfl, rfl, rfl, rfl, fun hex => ?_⟩
      exact Decidable.byContradiction (fun hn => he ⟨hex, hn⟩)

theorem entries_name {env : FontEnv} (hf : Spec.FairTable env) {m : FManager} (h : FmEntries env m) (n : Bytes) (st : FStyle) (a : Option Bool) (ex : Bool)
    (enc fl : Nat) : FmEntries env (m.getName env n st a ex enc fl).1 ∧
    ∀ g, (m.getName env n st a ex enc fl).2 = .ok (some g) →
      g.enc = enc ∧ Spec.FitsName env n st a g ∧ (ex = true → g.std = none → g.metrics.name = n) := by
  unfold FManager.getName
  cases ha : a.bind (env.std14 n) with
  | some f =>
    obtain ⟨h1, g, h2, h3, h4, h5⟩ := entries_std hf h f enc fl
    refine ⟨h1, fun g' hg => ?_⟩
    rw [h2] at hg
    simp only [Except.ok.injEq, Option.some.injEq] at hg
    subst hg
    refine ⟨h4, Or.inl ?_, fun _ hs => by simp [h3] at hs⟩
    cases a with
    | none => simp at ha
    | some b => exact ⟨b, f, rfl, ha, h3, h5⟩
  | none =>
    simp only []
    cases hl : lookFonts env ⟨(extractBase n).1, none, enc, askedStyle n st⟩ m.imported with
    | some fs =>
      refine ⟨h, fun g hg => ?_⟩
      have hm := match_mem hg
      have := entries_look hf h hl g hm.1
      exact ⟨this.1, Or.inr (Or.inl ⟨this.2.1, (this.2.2.1 rfl).1, (this.2.2.1 rfl).2⟩), fun he _ => hm.2 he⟩
    | none =>
      simp only []
      cases hs : env.sys (extractBase n).1 (askedStyle n st) with
      | none => exact ⟨h, fun g hg => by simp at hg⟩
      | some mt =>
        obtain ⟨h1, h2⟩ := entries_metrics hf h mt n ex enc fl
        refine ⟨h1, fun g hg => ?_⟩
        obtain ⟨h3, h4, h5, h6, h7⟩ := h2 g hg
        exact ⟨h4, Or.inr (Or.inr ⟨h3, mt, hs, h5, h6⟩), fun he _ => h7 he⟩

theorem entries_run {env : FontEnv} (hf : Spec.FairTable env) (cs : List FmCall) {m : FManager} (h : FmEntries env m) : FmEntries env (m.run env cs).1 := by
  induction cs generalizing m with
  | nil => exact h
  | cons c cs ih =>
    apply ih
    cases c with
    | std f enc fl => exact (entries_std hf h f enc fl).1
    | name n st a ex enc fl => exact (entries_name hf h n st a ex enc fl).1
    | subst mt enc fl => exact entries_add hf h _ _ ⟨rfl, rfl, fun _ => ⟨rfl, rfl⟩, fun s h => by simp at h⟩
    | embed => intro e he; simp [FManager.call, FManager.embed] at he

theorem entries_start (env : FontEnv) (n : Nat) : FmEntries env (FManager.start n) := by simp [FmEntries, FManager.start]

/-- **C184, standard fonts, with a fair table.** After any program, asking for a standard font gives a font of that type and encoding, with its metrics. -/
theorem C184_std_partial (env : FontEnv) (hf : Spec.FairTable env) (n : Nat) (cs : List FmCall) (f enc fl : Nat) :
    ∃ g, (((FManager.start n).run env cs).1.getStd env f enc fl).2 = .ok (some g) ∧ g.std = some f ∧ g.enc = enc ∧ g.metrics = env.stdMetrics f :=
  (entries_std hf (entries_run hf cs (entries_start env n)) f enc fl).2

/-- **C184, fonts by name, with a fair table.** After any program, a font given for a name has the encoding asked for and fits the name; when the exact name was
asked for, and it is not one of the standard fonts, it has that name. -/
theorem C184_name_partial (env : FontEnv) (hf : Spec.FairTable env) (n : Nat) (cs : List FmCall) (name : Bytes) (st : FStyle) (a : Option Bool) (ex : Bool)
    (enc fl : Nat) (g : MFont) (h : (((FManager.start n).run env cs).1.getName env name st a ex enc fl).2 = .ok (some g)) :
    g.enc = enc ∧ Spec.FitsName env name st a g ∧ (ex = true → g.std = none → g.metrics.name = name) :=
  (entries_name hf (entries_run hf cs (entries_start env n)) name st a ex enc fl).2 g h

/-- Not vacuous: a bold font is found by its name. -/
example : (((FManager.start 5).run (sampleEnv (fun a b => a == b)) [.std 1 0 0]).1.getName (sampleEnv (fun a b => a == b)) (litBytes "Arial-Bold") (false, false)
    none false 3 0).2 = .ok (some ⟨6, ⟨litBytes "Arial", (true, false)⟩, 3, none, 0, false⟩) := by decide

/-- The calls that keep the cache. -/
def FmCall.keeps : FmCall → Prop
  | .embed => False
  | _ => True

/-- The first font of an entry stays the first. -/
theorem first_add {env : FontEnv} (hf : Spec.FairTable env) {m : FManager} {k : FDesc} {g : MFont} (h : firstFont (lookFonts env k m.imported) = some g)
    (d : FDesc) (f : MFont) : firstFont (lookFonts env k (m.add env d f).imported) = some g := by
  unfold FManager.add
  by_cases hk : k = d
  · subst hk
    simp only [look_put hf]
    obtain ⟨fs, h1, h2⟩ := first_mem h
    simp only [h1, firstFont, Option.getD_some] at h ⊢
    cases fs with
    | nil => simp at h2
    | cons x xs => simpa using h
  · simpa only [look_put_ne hf hk] using h

theorem first_std {env : FontEnv} (hf : Spec.FairTable env) {m : FManager} {k : FDesc} {g : MFont} (h : firstFont (lookFonts env k m.imported) = some g)
    (f enc fl : Nat) : firstFont (lookFonts env k (m.getStd env f enc fl).1.imported) = some g := by
  simp only [FManager.getStd]
  cases firstFont (lookFonts env ⟨[], some f, enc, (false, false)⟩ m.imported) with
  | some _ => exact h
  | none => exact first_add hf h _ _

theorem first_metrics {env : FontEnv} (hf : Spec.FairTable env) {m : FManager} {k : FDesc} {g : MFont} (h : firstFont (lookFonts env k m.imported) = some g)
    (mt : FMetrics) (n : Bytes) (ex : Bool) (enc fl : Nat) : firstFont (lookFonts env k (m.getMetrics env mt n ex enc fl).1.imported) = some g := by
  unfold FManager.getMetrics
  simp only []
  split
  · exact h
  · next hn =>
    split
    · have hk : k ≠ ⟨mt.base, none, enc, mt.style⟩ := by
        rintro rfl
        simp only [ne_eq, Decidable.not_not] at hn
        simp [firstFont, hn] at h
      simpa only [look_put_ne hf hk] using h
    · exact first_add hf h _ _

theorem first_run {env : FontEnv} (hf : Spec.FairTable env) (cs : List FmCall) (hc : ∀ c ∈ cs, c.keeps) {m : FManager} {k : FDesc} {g : MFont}
    (h : firstFont (lookFonts env k m.imported) = some g) : firstFont (lookFonts env k (m.run env cs).1.imported) = some g := by
  induction cs generalizing m with
  | nil => exact h
  | cons c cs ih =>
    apply ih (fun x hx => hc x (by simp [hx]))
    cases c with
    | std f enc fl => exact first_std hf h f enc fl
    | name n st a ex enc fl =>
      simp only [FManager.call, FManager.getName]
      cases a.bind (env.std14 n) with
      | some f => exact first_std hf h f enc fl
      | none =>
        simp only []
        cases lookFonts env ⟨(extractBase n).1, none, enc, askedStyle n st⟩ m.imported with
        | some fs => exact h
        | none =>
          simp only []
          cases env.sys (extractBase n).1 (askedStyle n st) with
          | none => exact h
          | some mt => exact first_metrics hf h mt n ex enc fl
    | subst mt enc fl => exact first_add hf h _ _
    | embed => exact absurd (hc .embed (by simp)) (by simp [FmCall.keeps])

/-- **C184, one font for one request.** After any program: a standard font asked for, then any calls that do not embed the fonts, then the same standard font
with the same encoding asked for, with whatever flags: the same font, the flags of the first request kept. -/
theorem C184_std_again_partial (env : FontEnv) (hf : Spec.FairTable env) (m : FManager) (cs : List FmCall) (hc : ∀ c ∈ cs, c.keeps) (f enc fl fl' : Nat) (g : MFont)
    (h : (m.getStd env f enc fl).2 = .ok (some g)) : (((m.getStd env f enc fl).1.run env cs).1.getStd env f enc fl').2 = .ok (some g) := by
  have hg : firstFont (lookFonts env ⟨[], some f, enc, (false, false)⟩ (m.getStd env f enc fl).1.imported) = some g := by
    simp only [FManager.getStd] at h ⊢
    cases hk : firstFont (lookFonts env ⟨[], some f, enc, (false, false)⟩ m.imported) with
    | some g' => simp only [hk, Except.ok.injEq, Option.some.injEq] at h; subst h; exact hk
    | none =>
      simp only [hk, Except.ok.injEq, Option.some.injEq] at h
      subst h
      simp only [FManager.add, look_put hf, firstFont, Option.getD_some]
      cases hl : (lookFonts env ⟨[], some f, enc, (false, false)⟩ m.imported).getD [] with
      | nil => rfl
      | cons x xs => simp [firstFont, hl] at hk
  have := first_run hf cs hc hg
  rw [FManager.getStd, this]

/-- Not vacuous, and the flags that differ: the font made with the first flags is given to the request with others. -/
example : ((FManager.start 5).run (sampleEnv (fun a b => a == b)) [.std 1 0 4, .subst ⟨[65], (false, false)⟩ 0 0, .std 1 0 7]).2 =
    [.ok (some ⟨5, ⟨[1], (false, false)⟩, 0, some 1, 4, false⟩), .ok (some ⟨6, ⟨[65], (false, false)⟩, 0, none, 0, false⟩),
      .ok (some ⟨5, ⟨[1], (false, false)⟩, 0, some 1, 4, false⟩)] := by decide

/-- **C184, flags.** A standard font asked for again with other flags — to be embedded whole, say, where it was first asked for without embedding — is the font
with the first flags, whatever they are. -/
theorem C184_flags_false (env : FontEnv) (hf : Spec.FairTable env) (n f enc fl fl' : Nat) (hne : fl ≠ fl') :
    ∃ g, ((FManager.start n).run env [.std f enc fl, .std f enc fl']).2[1]? = some (.ok (some g)) ∧ g.flags ≠ fl' := by
  refine ⟨env.make n (env.stdMetrics f) enc (some f) fl, ?_, hne⟩
  have := C184_std_again_partial env hf (FManager.start n) [] (by simp) f enc fl fl' (env.make n (env.stdMetrics f) enc (some f) fl) rfl
  simp only [FManager.run, FManager.call]
  simpa [FManager.run] using this

/-- **C184, standard fonts in one bucket.** Keys of two standard types compare equal; so when the table compares them — a library that does not compare hashes
first, and two fonts in one bucket — the second font asked for is the first one. -/
theorem C184_std_false (env : FontEnv) (n f f' enc fl fl' : Nat) (hne : f ≠ f')
    (hm : env.meets ⟨[], some f, enc, (false, false)⟩ ⟨[], some f', enc, (false, false)⟩ = true) :
    ∃ g, ((FManager.start n).run env [.std f enc fl, .std f' enc fl']).2[1]? = some (.ok (some g)) ∧ g.std ≠ some f' := by
  refine ⟨env.make n (env.stdMetrics f) enc (some f) fl, ?_, by simpa [FontEnv.make] using hne⟩
  simp [FManager.run, FManager.call, FManager.getStd, FManager.start, lookFonts, firstFont, FManager.add, putFonts, FontEnv.hit, FDesc.same, hm]

/-- **C184, a name that fails.** A system font found for a name, under another name, and the exact name asked for: null, and rightly.  But the request leaves an
empty entry.  The next request for the name, exact or not mattering no more, reads the first of no fonts; and asking for the exact name the system font does have
gives null, where a new manager gives the font. -/
theorem C184_poison_false (env : FontEnv) (hf : Spec.FairTable env) (n : Nat) (name : Bytes) (st : FStyle) (enc fl : Nat) (mt : FMetrics)
    (hs : env.sys (extractBase name).1 (askedStyle name st) = some mt) (hb : mt.base = (extractBase name).1) (hst : mt.style = askedStyle name st)
    (hname : mt.name ≠ name) :
    ((FManager.start n).run env [.name name st none true enc fl, .name name st none false enc fl]).2 = [.ok none, .error .ub] ∧
    (askedStyle mt.name st = askedStyle name st →
      ((FManager.start n).run env [.name name st none true enc fl, .name mt.name st none true enc fl]).2 = [.ok none, .ok none] ∧
      ∃ g, ((FManager.start n).run env [.name mt.name st none true enc fl]).2 = [.ok (some g)] ∧ g.metrics = mt) := by
  have hh : env.hit ⟨(extractBase name).1, none, enc, askedStyle name st⟩ ⟨(extractBase name).1, none, enc, askedStyle name st⟩ = true := (hit_fair hf _ _).2 rfl
  have hb' : (extractBase mt.name).1 = (extractBase name).1 := hb
  have h1 : (FManager.start n).getName env name st none true enc fl =
      (⟨[(⟨(extractBase name).1, none, enc, askedStyle name st⟩, [])], [], n + 1, []⟩, .ok none) := by
    simp [FManager.getName, FManager.start, lookFonts, hs, FManager.getMetrics, hname, putFonts, hb, hst]
  refine ⟨?_, fun ha => ⟨?_, env.make n mt enc none fl, ?_, rfl⟩⟩
  · simp only [FManager.run, FManager.call, h1]
    simp [FManager.getName, lookFonts, hh, matchFont]
  · simp only [FManager.run, FManager.call, h1]
    simp [FManager.getName, lookFonts, hb', ha, hh, matchFont]
  · simp only [FManager.run, FManager.call]
    simp [FManager.getName, FManager.start, lookFonts, hb', ha, hs, FManager.getMetrics, putFonts]

/-- Not vacuous: the name with a hyphen and the word for no style, and the system font of the plain name. -/
example : ((FManager.start 5).run (sampleEnv (fun a b => a == b)) [.name (litBytes "Arial-Regular") (false, false) none true 0 0,
    .name (litBytes "Arial-Regular") (false, false) none false 0 0]).2 = [.ok none, .error .ub] :=
  (C184_poison_false _ sample_fair 5 (litBytes "Arial-Regular") (false, false) 0 0 ⟨litBytes "Arial", (false, false)⟩ (by decide) (by decide) (by decide)
    (by decide)).1

end Pdfmm
