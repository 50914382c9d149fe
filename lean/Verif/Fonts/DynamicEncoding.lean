import Verif.Fonts.CodeSpace
import Verif.Fonts.CMapRoundTrip
import Verif.Fonts.GidMap
/-
Fonts made without an encoding: the codes that are given to the glyphs as texts are encoded, and reading these texts back.
`src/pdfmm/base/PdfFont.cpp`, `src/pdfmm/base/PdfEncoding.cpp`.  Property C193.
-/
set_option autoImplicit false
namespace Pdfmm
open Spec

/-! ### Model -/

/-- `GetCharCodeSize`, `src/pdfmm/private/PdfDeclarationsPrivate.cpp:1064-1067`, for codes other than zero: the quotient of the logarithms
is taken to be exact. -/
def charCodeSize (code : Nat) : Nat :=
  if code < 256 then 1 else if code < 65536 then 2 else if code < 16777216 then 3 else 4

/-- `PdfCharCode(unsigned)`, `src/pdfmm/base/PdfEncodingCommon.cpp:18-21`, and the code of `PdfCID(unsigned)`, `97-100`. -/
def charCodeOf (n : Nat) : CharCode := ⟨n, charCodeSize n⟩

/-- What a font made without an encoding keeps of the texts, `src/pdfmm/base/PdfFont.h:429-437`, with `initBase`,
`src/pdfmm/base/PdfFont.cpp:136-141`.  The glyphs in use are kept with their CIDs; the code of a CID is the CID itself. -/
structure DynFont where
  used : List (Nat × Nat)
  cids : CodeMap
  points : CodeMap

/-- A new font. -/
def DynFont.init (z : Nat) : DynFont := ⟨[], .init z, .init z⟩

/-- `AddSubsetGIDSafe` and `tryAddSubsetGID` with a dynamic encoding, `src/pdfmm/base/PdfFont.cpp:656-671` and `766-782`.  The number of
glyphs is taken to fit in an `unsigned`. -/
def DynFont.add (f : DynFont) (gid : Nat) (cps : List Nat) : Res (DynFont × CharCode) :=
  match SMap.find? gid f.used with
  | some c => .ok (f, charCodeOf c)
  | none =>
    (f.cids.push (charCodeOf (f.used.length + 1)) [f.used.length + 1]) >>= fun cids =>
    (f.points.push (charCodeOf (f.used.length + 1)) cps) >>= fun points =>
    .ok (⟨SMap.insert gid (f.used.length + 1) f.used, cids, points⟩, charCodeOf (f.used.length + 1))

/-- The glyphs of a text, `src/pdfmm/base/PdfEncoding.cpp:117-139`, with the characters they are for; `none` when a character has none.
The text is given by its characters.  `SubstituteGIDs` does nothing, `src/pdfmm/base/PdfFontMetrics.cpp:38-43`. -/
def glyphsOf (gid : Nat → Option Nat) : List Nat → Option (List (Nat × Nat))
  | [] => some []
  | cp :: r =>
    match gid cp with
    | none => none
    | some g =>
      match glyphsOf gid r with
      | none => none
      | some ps => some ((g, cp) :: ps)

/-- The loop over the glyphs, `src/pdfmm/base/PdfEncoding.cpp:141-154`, with `tryGetCharCode`, `160-166`, of a subset font. -/
def DynFont.codes : DynFont → List (Nat × Nat) → Res (DynFont × Bytes)
  | f, [] => .ok (f, [])
  | f, p :: r =>
    f.add p.1 [p.2] >>= fun x =>
    x.1.codes r >>= fun y =>
    .ok (y.1, codeBytes x.2.code x.2.size ++ y.2)

/-- `TryConvertToEncoded` for a font that was not loaded, `src/pdfmm/base/PdfEncoding.cpp:87-158`: the font afterwards and, if the result is
true, the encoded text. -/
def DynFont.encode (gid : Nat → Option Nat) (f : DynFont) (text : List Nat) : Res (DynFont × Option Bytes) :=
  match glyphsOf gid text with
  | none => .ok (f, none)
  | some ps => f.codes ps >>= fun x => .ok (x.1, some x.2)

/-- Texts encoded one after the other. -/
def DynFont.encodeAll (gid : Nat → Option Nat) : DynFont → List (List Nat) → Res (DynFont × List (Option Bytes))
  | f, [] => .ok (f, [])
  | f, t :: r =>
    f.encode gid t >>= fun x =>
    x.1.encodeAll gid r >>= fun y =>
    .ok (y.1, x.2 :: y.2)

/-- `TryConvertToUtf8`, `src/pdfmm/base/PdfEncoding.cpp:73-76`, through the map to Unicode of the font. -/
def DynFont.decode (f : DynFont) (s : Bytes) : Res (Bool × Bytes) := toUtf8 f.points.limits f.points.codePoints s.length s

/-- The same through a CMap that was read, as for a font that was loaded. -/
def CMapRead.decode (r : CMapRead) (s : Bytes) : Res (Bool × Bytes) := toUtf8 r.limits r.codePoints s.length s

/-- `tryConvertEncodedToCIDs`, `src/pdfmm/base/PdfEncoding.cpp:267-291`, with `TryGetNextCID` of a CMap,
`src/pdfmm/base/PdfEncodingMap.cpp:110-127`: the result and the CIDs.  After a code with several CIDs the fallback starts behind the code,
which may be the end of the string.  The number bounds the rounds. -/
def toCids (l : CodeLimits) (look : CharCode → Option (List Nat)) : Nat → Bytes → Res (Bool × List Nat)
  | _, [] => .ok (true, [])
  | 0, _ :: _ => .error .diverge
  | n + 1, b :: r =>
    match scanCode l.minSize l.maxSize look 0 1 (b :: r) with
    | some ([c], rest) => toCids l look n rest >>= fun x => .ok (x.1, c :: x.2)
    | some (_, []) => .error .ub
    | some (_, b' :: r') => toCids l look n (fetchRest l.minSize b'.toNat 1 r').2 >>= fun x => .ok (false, (fetchRest l.minSize b'.toNat 1 r').1.code :: x.2)
    | none => toCids l look n (fetchRest l.minSize b.toNat 1 r).2 >>= fun x => .ok (false, (fetchRest l.minSize b.toNat 1 r).1.code :: x.2)

/-- `TryConvertToCIDs`, `src/pdfmm/base/PdfEncoding.cpp:262-265`. -/
def DynFont.toCids (f : DynFont) (s : Bytes) : Res (Bool × List Nat) := Pdfmm.toCids f.cids.limits f.cids.codePoints s.length s

/-! ### Specification -/

namespace Spec

/-- The characters of the texts that the font has all glyphs for, in their order. -/
def drawnChars (gid : Nat → Option Nat) (texts : List (List Nat)) : List Nat :=
  (texts.filter fun t => t.all fun cp => (gid cp).isSome).flatten

/-- The different glyphs drawn, in the order of their first use. -/
def drawnGlyphs (gid : Nat → Option Nat) (texts : List (List Nat)) : List Nat := firstUses ((drawnChars gid texts).filterMap gid)

/-- The first of some characters that has the glyph of a character. -/
def standIn (gid : Nat → Option Nat) (chars : List Nat) (cp : Nat) : Nat := (chars.find? fun x => gid x = gid cp).getD cp

end Spec

/-! ### Proofs -/

/-- A glyph and a character are noted when the glyph is new. -/
def noteFirst (L : List (Nat × Nat)) (p : Nat × Nat) : List (Nat × Nat) := if p.1 ∈ L.map (·.1) then L else L ++ [p]

/-- The number of a glyph. -/
def numOf (L : List (Nat × Nat)) (g : Nat) : Nat := (L.map (·.1)).idxOf g + 1

/-- The bytes for a glyph. -/
def bytesFor (L : List (Nat × Nat)) (p : Nat × Nat) : Bytes := codeBytes (numOf L p.1) (charCodeSize (numOf L p.1))

/-- The mappings pushed for the glyphs in use. -/
def pushesOf (L : List (Nat × Nat)) : List (CharCode × List Nat) := (L.zipIdx 1).map fun x => (charCodeOf x.2, [x.1.2])

theorem pushesOf_append (L : List (Nat × Nat)) (p : Nat × Nat) : pushesOf (L ++ [p]) = pushesOf L ++ [(charCodeOf (L.length + 1), [p.2])] := by
  simp [pushesOf, List.zipIdx_append, Nat.add_comm]

/-- What holds of a font when `L` are the glyphs in use with their characters. -/
structure DynInv (z : Nat) (f : DynFont) (L : List (Nat × Nat)) : Prop where
  used : UsedInv f.used (L.map (·.1))
  cids : ∀ k, (SMap.find? k f.cids.units).map (·.2) = if k = 0 then none else (L[k - 1]?).map fun _ => [k]
  points : ∀ k, (SMap.find? k f.points.units).map (·.2) = if k = 0 then none else (L[k - 1]?).map fun p => [p.2]
  cmin : f.cids.limits.minSize = if L = [] then 255 else 1
  cmax : f.cids.limits.maxSize = if L = [] then 0 else charCodeSize L.length
  pmin : f.points.limits.minSize = if L = [] then 255 else 1
  pmax : f.points.limits.maxSize = if L = [] then 0 else charCodeSize L.length
  reach : CodeMap.Reach z (pushesOf L) f.points

theorem DynInv.init (z : Nat) : DynInv z (DynFont.init z) [] := by
  refine ⟨⟨trivial, List.nodup_nil, rfl, by intro g c; simp [DynFont.init, SMap.find?]⟩, ?_, ?_, rfl, rfl, rfl, rfl, CodeMap.Reach.init⟩ <;>
    intro k <;> simp [DynFont.init, CodeMap.init, SMap.find?]

theorem charCodeSize_pos (n : Nat) : 1 ≤ charCodeSize n := by rw [charCodeSize]; (repeat' split) <;> omega

theorem charCodeSize_mono {a b : Nat} (h : a ≤ b) : charCodeSize a ≤ charCodeSize b := by
  simp only [charCodeSize]; (repeat' split) <;> omega

theorem charCodeSize_le (n : Nat) : charCodeSize n ≤ 4 := by rw [charCodeSize]; (repeat' split) <;> omega

theorem numOf_append {L : List (Nat × Nat)} {g : Nat} (h : g ∈ L.map (·.1)) (R : List (Nat × Nat)) : numOf (L ++ R) g = numOf L g := by
  rw [numOf, numOf, List.map_append, List.idxOf_append, if_pos h]

theorem UsedInv.find_num {m : List (Nat × Nat)} {L : List (Nat × Nat)} (i : UsedInv m (L.map (·.1))) {g c : Nat} (h : SMap.find? g m = some c) :
    c = numOf L g := by
  obtain ⟨h1, h2⟩ := (i.find g c).1 h
  have hm : g ∈ L.map (·.1) := List.mem_of_getElem? h2
  have h3 : (L.map (·.1))[(L.map (·.1)).idxOf g]? = some g := by
    rw [List.getElem?_eq_getElem (List.idxOf_lt_length_of_mem hm)]
    simp
  have := (List.getElem?_inj (List.getElem?_eq_some_iff.1 h2).1 i.nodup).1 (h2.trans h3.symm)
  rw [numOf]; omega

theorem push_limits_min {L : List (Nat × Nat)} {l : CodeLimits} (p : Nat × Nat) (c : CharCode) (hc : c.size = charCodeSize (L.length + 1))
    (h : l.minSize = if L = [] then 255 else 1) :
    (l.push c).minSize = if L ++ [p] = [] then 255 else 1 := by
  rw [if_neg (by simp)]
  simp only [CodeLimits.push, hc]
  by_cases e : L = []
  · subst e
    rw [if_pos rfl] at h
    rw [h]; decide
  · rw [if_neg e] at h
    rw [h]
    have := charCodeSize_pos (L.length + 1)
    rw [if_neg (by omega)]

theorem push_limits_max {L : List (Nat × Nat)} {l : CodeLimits} (p : Nat × Nat) (c : CharCode) (hc : c.size = charCodeSize (L.length + 1))
    (h : l.maxSize = if L = [] then 0 else charCodeSize L.length) :
    (l.push c).maxSize = if L ++ [p] = [] then 0 else charCodeSize (L ++ [p]).length := by
  rw [if_neg (by simp)]
  simp only [CodeLimits.push, hc, List.length_append, List.length_singleton]
  by_cases e : L = []
  · subst e
    rw [if_pos rfl] at h
    rw [h]; decide
  · rw [if_neg e] at h
    rw [h]
    have := charCodeSize_mono (Nat.le_succ L.length)
    simp only [Nat.succ_eq_add_one] at this
    split <;> omega

theorem push_units {L : List (Nat × Nat)} {us : List (Nat × (Nat × List Nat))} (F : Nat → Nat × Nat → List Nat) (p : Nat × Nat)
    (c : CharCode) (hc : c.code = L.length + 1)
    (h : ∀ k, (SMap.find? k us).map (·.2) = if k = 0 then none else (L[k - 1]?).map (F k)) :
    ∀ k, (SMap.find? k (setUnit us c (F (L.length + 1) p))).map (·.2) =
      if k = 0 then none else ((L ++ [p])[k - 1]?).map (F k) := by
  intro k
  rw [setUnit_find]
  by_cases e : k = c.code
  · rw [if_pos e, if_neg (by omega), e, hc]
    simp
  · rw [if_neg e, h k]
    split
    · rfl
    · congr 1
      by_cases hk : k - 1 < L.length
      · rw [List.getElem?_append_left hk]
      · rw [List.getElem?_eq_none (by omega), List.getElem?_eq_none (by simp; omega)]

/-- One glyph. -/
theorem DynInv.add {z : Nat} {f : DynFont} {L : List (Nat × Nat)} (i : DynInv z f L) (p : Nat × Nat) :
    ∃ f', f.add p.1 [p.2] = .ok (f', charCodeOf (numOf (noteFirst L p) p.1)) ∧ DynInv z f' (noteFirst L p) := by
  rw [DynFont.add]
  cases hf : SMap.find? p.1 f.used with
  | some c =>
    have hm : p.1 ∈ L.map (·.1) := List.mem_of_getElem? ((i.used.find _ _).1 hf).2
    rw [noteFirst, if_pos hm, ← i.used.find_num hf]
    exact ⟨f, rfl, i⟩
  | none =>
    have hm : p.1 ∉ L.map (·.1) := (i.used.none_iff _).1 hf
    have hlen : f.used.length = L.length := by rw [i.used.length]; simp
    have hn : numOf (L ++ [p]) p.1 = L.length + 1 := by
      rw [numOf, List.map_append, List.idxOf_append, if_neg hm]; simp
    have hs : (charCodeOf (L.length + 1)).size ≠ 0 := by
      have := charCodeSize_pos (L.length + 1)
      simp only [charCodeOf]; omega
    have hu := i.used.add p.1
    rw [addSubsetGid, hf, if_neg hm] at hu
    simp only at hu
    rw [noteFirst, if_neg hm, hn, hlen]
    rw [hlen] at hu
    simp only [CodeMap.push]
    rw [if_neg (by simp), if_neg hs, if_neg (by simp), if_neg hs]
    refine ⟨_, rfl, ?_, ?_, ?_, ?_, ?_, ?_, ?_, ?_⟩
    · rw [List.map_append]; exact hu
    · exact push_units (fun k _ => [k]) p _ rfl i.cids
    · exact push_units (fun _ q => [q.2]) p _ rfl i.points
    · exact push_limits_min p _ rfl i.cmin
    · exact push_limits_max p _ rfl i.cmax
    · exact push_limits_min p _ rfl i.pmin
    · exact push_limits_max p _ rfl i.pmax
    · rw [pushesOf_append]
      refine CodeMap.Reach.push i.reach ?_
      rw [CodeMap.push, if_neg (by simp), if_neg hs]

theorem noteFirst_ext (L : List (Nat × Nat)) (p : Nat × Nat) : ∃ R, noteFirst L p = L ++ R := by
  rw [noteFirst]; split
  · exact ⟨[], by simp⟩
  · exact ⟨[p], rfl⟩

theorem noteAll_ext (ps L : List (Nat × Nat)) : ∃ R, ps.foldl noteFirst L = L ++ R := by
  induction ps generalizing L with
  | nil => exact ⟨[], by simp⟩
  | cons p r ih =>
    obtain ⟨R, h⟩ := noteFirst_ext L p
    obtain ⟨R', h'⟩ := ih (noteFirst L p)
    exact ⟨R ++ R', by rw [List.foldl_cons, h', h, List.append_assoc]⟩

theorem noteFirst_mem (L : List (Nat × Nat)) (p : Nat × Nat) : p.1 ∈ (noteFirst L p).map (·.1) := by
  rw [noteFirst]; split
  · assumption
  · simp

theorem noteAll_mem (ps L : List (Nat × Nat)) : ∀ p ∈ ps, p.1 ∈ (ps.foldl noteFirst L).map (·.1) := by
  induction ps generalizing L with
  | nil => simp
  | cons p r ih =>
    intro q hq
    rw [List.foldl_cons]
    rcases List.mem_cons.1 hq with rfl | hq
    · obtain ⟨R, h⟩ := noteAll_ext r (noteFirst L q)
      rw [h, List.map_append]
      exact List.mem_append_left _ (noteFirst_mem L q)
    · exact ih _ q hq

/-- The glyphs of a text. -/
theorem DynInv.codes {z : Nat} {f : DynFont} {L : List (Nat × Nat)} (i : DynInv z f L) (ps : List (Nat × Nat)) :
    ∃ f', f.codes ps = .ok (f', ps.flatMap (bytesFor (ps.foldl noteFirst L))) ∧ DynInv z f' (ps.foldl noteFirst L) := by
  induction ps generalizing f L with
  | nil => exact ⟨f, rfl, i⟩
  | cons p r ih =>
    obtain ⟨f1, h1, i1⟩ := i.add p
    obtain ⟨f2, h2, i2⟩ := ih i1
    refine ⟨f2, ?_, i2⟩
    rw [DynFont.codes, h1]
    show (f1.codes r >>= _) = _
    rw [h2]
    obtain ⟨R, hR⟩ := noteAll_ext r (noteFirst L p)
    rw [List.foldl_cons, List.flatMap_cons]
    show Except.ok _ = Except.ok _
    congr 2
    rw [bytesFor, hR, numOf_append (noteFirst_mem L p)]
    rfl

/-- The glyphs of the texts that are drawn. -/
def allGlyphs (gid : Nat → Option Nat) (texts : List (List Nat)) : List (Nat × Nat) := (texts.filterMap (glyphsOf gid)).flatten

theorem DynInv.encodeAll {z : Nat} {gid : Nat → Option Nat} {f : DynFont} {L : List (Nat × Nat)} (i : DynInv z f L) (texts : List (List Nat)) :
    ∃ f', f.encodeAll gid texts = .ok (f', texts.map fun t => (glyphsOf gid t).map fun ps =>
        ps.flatMap (bytesFor ((allGlyphs gid texts).foldl noteFirst L))) ∧
      DynInv z f' ((allGlyphs gid texts).foldl noteFirst L) := by
  induction texts generalizing f L with
  | nil => exact ⟨f, rfl, i⟩
  | cons t r ih =>
    rw [DynFont.encodeAll, DynFont.encode]
    cases ht : glyphsOf gid t with
    | none =>
      obtain ⟨f2, h2, i2⟩ := ih i
      have he : allGlyphs gid (t :: r) = allGlyphs gid r := by simp [allGlyphs, ht]
      rw [he]
      refine ⟨f2, ?_, i2⟩
      show (f.encodeAll gid r >>= _) = _
      rw [h2]
      simp only [List.map_cons, ht, Option.map_none]
      rfl
    | some ps =>
      obtain ⟨f1, h1, i1⟩ := i.codes ps
      obtain ⟨f2, h2, i2⟩ := ih i1
      have he : allGlyphs gid (t :: r) = ps ++ allGlyphs gid r := by simp [allGlyphs, ht]
      rw [he, List.foldl_append]
      refine ⟨f2, ?_, i2⟩
      show ((f.codes ps >>= _) >>= _) = _
      rw [h1]
      show (f1.encodeAll gid r >>= _) = _
      rw [h2]
      simp only [List.map_cons, ht, Option.map_some]
      show Except.ok _ = Except.ok _
      congr 4
      obtain ⟨R, hR⟩ := noteAll_ext (allGlyphs gid r) (ps.foldl noteFirst L)
      rw [hR]
      have hm := noteAll_mem ps L
      revert hm
      generalize ps.foldl noteFirst L = M
      intro hm
      clear h1 ht i1 h2 he hR i2
      induction ps with
      | nil => rfl
      | cons p ps ih' =>
        rw [List.flatMap_cons, List.flatMap_cons, bytesFor, bytesFor, numOf_append (hm p (by simp)), ih' (fun q hq => hm q (by simp [hq]))]

theorem glyphsOf_eq (gid : Nat → Option Nat) (t : List Nat) :
    glyphsOf gid t = if t.all (fun cp => (gid cp).isSome) then some (t.map fun cp => ((gid cp).getD 0, cp)) else none := by
  induction t with
  | nil => rfl
  | cons cp r ih =>
    rw [glyphsOf, ih]
    cases h : gid cp with
    | none => simp [h]
    | some g => by_cases e : r.all (fun cp => (gid cp).isSome) <;> simp [h, e]

theorem allGlyphs_eq (gid : Nat → Option Nat) (texts : List (List Nat)) :
    allGlyphs gid texts = (drawnChars gid texts).map fun cp => ((gid cp).getD 0, cp) := by
  induction texts with
  | nil => rfl
  | cons t r ih =>
    rw [allGlyphs, drawnChars, List.filterMap_cons, glyphsOf_eq]
    by_cases e : t.all (fun cp => (gid cp).isSome)
    · rw [if_pos e, List.filter_cons, if_pos e]
      simp only [List.flatten_cons, List.map_append]
      rw [← drawnChars, ← ih]; rfl
    · rw [if_neg e, List.filter_cons, if_neg e]
      exact ih

theorem drawnChars_some {gid : Nat → Option Nat} {texts : List (List Nat)} {cp : Nat} (h : cp ∈ drawnChars gid texts) :
    gid cp = some ((gid cp).getD 0) := by
  obtain ⟨t, ht, hm⟩ := List.mem_flatten.1 h
  have := (List.mem_filter.1 ht).2
  rw [List.all_eq_true] at this
  obtain ⟨g, hg⟩ := Option.isSome_iff_exists.1 (this cp hm)
  rw [hg]; rfl

theorem noteAll_fst (ps L : List (Nat × Nat)) :
    (ps.foldl noteFirst L).map (·.1) = (ps.map (·.1)).foldl (fun l g => if g ∈ l then l else l ++ [g]) (L.map (·.1)) := by
  induction ps generalizing L with
  | nil => rfl
  | cons p r ih =>
    rw [List.foldl_cons, ih, List.map_cons, List.foldl_cons]
    congr 1
    rw [noteFirst]
    split
    · rfl
    · simp

theorem filterMap_some (gid : Nat → Option Nat) (cs : List Nat) (h : ∀ cp ∈ cs, gid cp = some ((gid cp).getD 0)) :
    cs.filterMap gid = cs.map fun cp => (gid cp).getD 0 := by
  induction cs with
  | nil => rfl
  | cons c r ih =>
    rw [List.filterMap_cons, h c (by simp), ih (fun x hx => h x (by simp [hx]))]; rfl

/-- The glyphs in use, with the characters they were first used for. -/
def firstPairs (gid : Nat → Option Nat) (texts : List (List Nat)) : List (Nat × Nat) := (allGlyphs gid texts).foldl noteFirst []

theorem firstPairs_fst (gid : Nat → Option Nat) (texts : List (List Nat)) : (firstPairs gid texts).map (·.1) = drawnGlyphs gid texts := by
  rw [firstPairs, noteAll_fst, drawnGlyphs, firstUses, allGlyphs_eq, filterMap_some _ _ (fun cp h => drawnChars_some h), List.map_map]
  rfl

theorem noteAll_find (ps L : List (Nat × Nat)) (g : Nat) : (ps.foldl noteFirst L).find? (fun p => p.1 = g) = (L ++ ps).find? fun p => p.1 = g := by
  induction ps generalizing L with
  | nil => simp
  | cons p r ih =>
    rw [List.foldl_cons, ih, noteFirst]
    split
    · rename_i hm
      rw [List.find?_append, List.find?_append, List.find?_cons]
      by_cases e : p.1 = g
      · have : (L.find? fun p => p.1 = g).isSome := by
          rw [List.find?_isSome]
          obtain ⟨q, hq, hg⟩ := List.mem_map.1 hm
          exact ⟨q, hq, by simp [hg, e]⟩
        obtain ⟨x, hx⟩ := Option.isSome_iff_exists.1 this
        rw [hx]; rfl
      · simp [e]
    · rw [List.append_assoc]; rfl

theorem find_index (L : List (Nat × Nat)) (g : Nat) : L[(L.map (·.1)).idxOf g]? = L.find? fun p => p.1 = g := by
  induction L with
  | nil => rfl
  | cons p r ih =>
    rw [List.map_cons, List.idxOf_cons, List.find?_cons]
    by_cases e : p.1 = g
    · simp [e]
    · have : (p.1 == g) = false := by simp [e]
      rw [this]
      simp only [cond_false, List.getElem?_cons_succ, ih]
      simp [e]

theorem find_pairs (gid : Nat → Option Nat) (cs : List Nat) (g : Nat) (h : ∀ cp ∈ cs, gid cp = some ((gid cp).getD 0)) :
    (cs.map fun cp => ((gid cp).getD 0, cp)).find? (fun p => p.1 = g) = (cs.find? fun x => gid x = some g).map fun c => (g, c) := by
  induction cs with
  | nil => rfl
  | cons c r ih =>
    rw [List.map_cons, List.find?_cons, List.find?_cons]
    have hc := h c (by simp)
    by_cases e : (gid c).getD 0 = g
    · rw [e] at hc
      simp [hc]
    · have : gid c ≠ some g := by intro e'; rw [e'] at e; exact e rfl
      simp only [e, this, decide_false]
      exact ih (fun x hx => h x (by simp [hx]))

/-- The number of the glyph of a character, and the character it was first used for. -/
theorem firstPairs_at {gid : Nat → Option Nat} {texts : List (List Nat)} {cp : Nat} (h : cp ∈ drawnChars gid texts) :
    (firstPairs gid texts)[numOf (firstPairs gid texts) ((gid cp).getD 0) - 1]? =
      some ((gid cp).getD 0, standIn gid (drawnChars gid texts) cp) := by
  rw [numOf, Nat.add_sub_cancel, find_index, firstPairs, noteAll_find, List.nil_append, allGlyphs_eq,
    find_pairs _ _ _ (fun x hx => drawnChars_some hx), ← drawnChars_some h, standIn]
  have : ((drawnChars gid texts).find? fun x => gid x = gid cp).isSome := by
    rw [List.find?_isSome]; exact ⟨cp, h, by simp⟩
  obtain ⟨x, hx⟩ := Option.isSome_iff_exists.1 this
  rw [hx]; rfl

theorem standIn_mem {gid : Nat → Option Nat} {cs : List Nat} {cp : Nat} (h : cp ∈ cs) :
    standIn gid cs cp ∈ cs ∧ gid (standIn gid cs cp) = gid cp := by
  have : (cs.find? fun x => gid x = gid cp).isSome := by
    rw [List.find?_isSome]; exact ⟨cp, h, by simp⟩
  obtain ⟨x, hx⟩ := Option.isSome_iff_exists.1 this
  rw [standIn, hx]
  exact ⟨List.mem_of_find?_eq_some hx, by simpa using List.find?_some hx⟩

/-- All texts encoded with a new font. -/
theorem encodeAll_new (z : Nat) (gid : Nat → Option Nat) (texts : List (List Nat)) :
    ∃ f, (DynFont.init z).encodeAll gid texts = .ok (f, texts.map fun t => (glyphsOf gid t).map fun ps =>
        ps.flatMap (bytesFor (firstPairs gid texts))) ∧ DynInv z f (firstPairs gid texts) :=
  (DynInv.init z).encodeAll texts

/-- The bytes of one text. -/
theorem encodeAll_at {z : Nat} {gid : Nat → Option Nat} {texts : List (List Nat)} {f : DynFont} {outs : List (Option Bytes)}
    (h : (DynFont.init z).encodeAll gid texts = .ok (f, outs)) {i : Nat} {t : List Nat} {s : Bytes} (ht : texts[i]? = some t) (hs : outs[i]? = some (some s)) :
    DynInv z f (firstPairs gid texts) ∧ (∀ cp ∈ t, cp ∈ drawnChars gid texts) ∧
      s = t.flatMap fun cp => bytesFor (firstPairs gid texts) ((gid cp).getD 0, cp) := by
  obtain ⟨f', h', inv⟩ := encodeAll_new z gid texts
  rw [h] at h'
  simp only [Except.ok.injEq, Prod.mk.injEq] at h'
  obtain ⟨rfl, rfl⟩ := h'
  rw [List.getElem?_map, ht, Option.map_some, Option.some.injEq, glyphsOf_eq] at hs
  by_cases e : t.all (fun cp => (gid cp).isSome)
  · rw [if_pos e, Option.map_some, Option.some.injEq] at hs
    refine ⟨inv, ?_, ?_⟩
    · intro cp hcp
      exact List.mem_flatten.2 ⟨t, List.mem_filter.2 ⟨List.mem_of_getElem? ht, e⟩, hcp⟩
    · rw [← hs, List.flatMap_map]
  · rw [if_neg e] at hs; simp at hs

theorem numOf_le {gid : Nat → Option Nat} {texts : List (List Nat)} {cp : Nat} (h : cp ∈ drawnChars gid texts) :
    numOf (firstPairs gid texts) ((gid cp).getD 0) ≤ (drawnGlyphs gid texts).length := by
  obtain ⟨h1, _⟩ := List.getElem?_eq_some_iff.1 (firstPairs_at h)
  rw [← firstPairs_fst, List.length_map]
  have : 1 ≤ numOf (firstPairs gid texts) ((gid cp).getD 0) := by rw [numOf]; omega
  omega

theorem codePoints_num {z : Nat} {f : DynFont} {gid : Nat → Option Nat} {texts : List (List Nat)} (i : DynInv z f (firstPairs gid texts)) (size : Nat) {cp : Nat}
    (h : cp ∈ drawnChars gid texts) :
    f.points.codePoints ⟨numOf (firstPairs gid texts) ((gid cp).getD 0), size⟩ = some [standIn gid (drawnChars gid texts) cp] ∧
    f.cids.codePoints ⟨numOf (firstPairs gid texts) ((gid cp).getD 0), size⟩ = some [numOf (firstPairs gid texts) ((gid cp).getD 0)] := by
  have h0 : numOf (firstPairs gid texts) ((gid cp).getD 0) ≠ 0 := by rw [numOf]; omega
  constructor
  · rw [CodeMap.codePoints]
    simp only
    rw [i.points, if_neg h0, firstPairs_at h]; rfl
  · rw [CodeMap.codePoints]
    simp only
    rw [i.cids, if_neg h0, firstPairs_at h]; rfl

theorem scan_first {mn mx : Nat} (look : CharCode → Option (List Nat)) (hmn : mn = 1) (hmx : 1 ≤ mx) (b : Byte) (rest : Bytes) (cps : List Nat)
    (h : look ⟨b.toNat, 1⟩ = some cps) : scanCode mn mx look 0 1 (b :: rest) = some (cps, rest) := by
  have hb : (0 * 256 + b.toNat) % 4294967296 = b.toNat := by
    have := b.toNat_lt
    omega
  rw [scanCode, if_neg (by omega), if_neg (by omega), hb, h]

/-- **C193**.  Every text can be encoded with a font made without an encoding exactly when the font has a glyph for each of its characters, whatever was encoded before. -/
theorem C193_encode (z : Nat) (gid : Nat → Option Nat) (texts : List (List Nat)) :
    ∃ f outs, (DynFont.init z).encodeAll gid texts = .ok (f, outs) ∧ outs.length = texts.length ∧
      ∀ (i : Nat) (t : List Nat), texts[i]? = some t → ((∃ s, outs[i]? = some (some s)) ↔ ∀ cp ∈ t, ∃ g, gid cp = some g) := by
  obtain ⟨f, h, _⟩ := encodeAll_new z gid texts
  refine ⟨f, _, h, by simp, ?_⟩
  intro i t ht
  rw [List.getElem?_map, ht, Option.map_some, glyphsOf_eq]
  by_cases e : t.all (fun cp => (gid cp).isSome)
  · rw [if_pos e]
    rw [List.all_eq_true] at e
    exact ⟨fun _ cp hcp => Option.isSome_iff_exists.1 (e cp hcp), fun _ => ⟨_, rfl⟩⟩
  · rw [if_neg e]
    constructor
    · rintro ⟨s, hs⟩; simp at hs
    · intro h
      exact absurd (List.all_eq_true.2 fun cp hcp => Option.isSome_iff_exists.2 (h cp hcp)) e

/-- The bytes for a glyph when there are at most 255. -/
theorem bytesFor_one {gid : Nat → Option Nat} {texts : List (List Nat)} {cp : Nat} (hcp : cp ∈ drawnChars gid texts)
    (hn : (drawnGlyphs gid texts).length ≤ 255) :
    bytesFor (firstPairs gid texts) ((gid cp).getD 0, cp) = [UInt8.ofNat (numOf (firstPairs gid texts) ((gid cp).getD 0))] := by
  have hle := numOf_le hcp
  rw [bytesFor]
  simp only
  rw [charCodeSize, if_pos (by omega), codeBytes, codeBytes, Nat.pow_zero, Nat.div_one, Nat.mod_eq_of_lt (by omega)]

/-- Reading a text through any map that has the codes of its glyphs. -/
theorem decode_through (l : CodeLimits) (look : CharCode → Option (List Nat)) {gid : Nat → Option Nat} {texts : List (List Nat)}
    (hn : (drawnGlyphs gid texts).length ≤ 255) (htext : IsText (drawnChars gid texts)) (hmin : drawnChars gid texts ≠ [] → l.minSize = 1 ∧ 1 ≤ l.maxSize)
    (hlook : ∀ cp ∈ drawnChars gid texts, look ⟨numOf (firstPairs gid texts) ((gid cp).getD 0), 1⟩ = some [standIn gid (drawnChars gid texts) cp])
    (t : List Nat) (n : Nat) (hm : ∀ cp ∈ t, cp ∈ drawnChars gid texts)
    (hl : (t.flatMap fun cp => bytesFor (firstPairs gid texts) ((gid cp).getD 0, cp)).length ≤ n) :
    toUtf8 l look n (t.flatMap fun cp => bytesFor (firstPairs gid texts) ((gid cp).getD 0, cp)) =
      .ok (true, utf8Encode (t.map (standIn gid (drawnChars gid texts)))) := by
  induction t generalizing n with
  | nil => rw [List.flatMap_nil, toUtf8]; rfl
  | cons cp r ih =>
    have hcp := hm cp (by simp)
    have hle := numOf_le hcp
    have hb := bytesFor_one hcp hn
    have hmm := hmin (List.ne_nil_of_mem hcp)
    rw [List.flatMap_cons, hb, List.length_append, List.length_singleton] at hl
    obtain ⟨n, rfl⟩ : ∃ k, n = k + 1 := ⟨n - 1, by omega⟩
    rw [List.flatMap_cons, hb, List.singleton_append]
    rw [toUtf8_round _ _ n _ (r.flatMap fun cp => bytesFor (firstPairs gid texts) ((gid cp).getD 0, cp)) [standIn gid (drawnChars gid texts) cp] (by simp)]
    · rw [ih n (fun x hx => hm x (by simp [hx])) (by omega)]
      simp only
      rw [List.map_cons, keptText, filter_text, ← utf8Encode_append]
      · rfl
      intro x hx
      rw [List.mem_singleton] at hx
      subst hx
      exact htext _ (standIn_mem hcp).1
    · refine scan_first _ hmm.1 hmm.2 _ _ _ ?_
      rw [toNat_ofNat_lt (by omega)]
      exact hlook cp hcp

theorem firstPairs_ne {gid : Nat → Option Nat} {texts : List (List Nat)} (h : drawnChars gid texts ≠ []) : firstPairs gid texts ≠ [] := by
  obtain ⟨cp, hcp⟩ := List.exists_mem_of_ne_nil _ h
  intro e
  have := firstPairs_at hcp
  rw [e] at this; simp at this

/-- **C193**.  While at most 255 glyphs are in use, every text encoded so far is read back, with each character replaced by the first one
that was drawn with its glyph. -/
theorem C193_read_back_partial {z : Nat} {gid : Nat → Option Nat} {texts : List (List Nat)} {f : DynFont} {outs : List (Option Bytes)}
    (h : (DynFont.init z).encodeAll gid texts = .ok (f, outs)) (hn : (drawnGlyphs gid texts).length ≤ 255) (htext : IsText (drawnChars gid texts))
    {i : Nat} {t : List Nat} {s : Bytes} (ht : texts[i]? = some t) (hs : outs[i]? = some (some s)) :
    f.decode s = .ok (true, utf8Encode (t.map (standIn gid (drawnChars gid texts)))) := by
  obtain ⟨inv, hm, rfl⟩ := encodeAll_at h ht hs
  refine decode_through _ _ hn htext (fun hne => ?_) (fun cp hcp => (codePoints_num inv 1 hcp).1) t _ hm (Nat.le_refl _)
  rw [inv.pmin, inv.pmax, if_neg (firstPairs_ne hne), if_neg (firstPairs_ne hne)]
  exact ⟨rfl, charCodeSize_pos _⟩

theorem pushesOf_mem {L : List (Nat × Nat)} {x : CharCode × List Nat} : x ∈ pushesOf L ↔ ∃ k p, L[k]? = some p ∧ x = (charCodeOf (k + 1), [p.2]) := by
  rw [pushesOf, List.mem_map]
  constructor
  · rintro ⟨⟨p, k⟩, hk, rfl⟩
    rw [List.mem_zipIdx_iff_le_and_getElem?_sub] at hk
    exact ⟨k - 1, p, hk.2, by rw [Nat.sub_add_cancel hk.1]⟩
  · rintro ⟨k, p, hk, rfl⟩
    exact ⟨(p, k + 1), by rw [List.mem_zipIdx_iff_le_and_getElem?_sub]; exact ⟨by omega, by simpa using hk⟩, rfl⟩

theorem pushesOf_maps {L : List (Nat × Nat)} {k : Nat} {p : Nat × Nat} (h : L[k]? = some p) : Maps (pushesOf L) (charCodeOf (k + 1)) [p.2] := by
  obtain ⟨hk, rfl⟩ := List.getElem?_eq_some_iff.1 h
  refine ⟨pushesOf (L.take k), ((L.drop (k + 1)).zipIdx (k + 2)).map (fun x => (charCodeOf x.2, [x.1.2])), ?_, ?_⟩
  · have : L = L.take k ++ (L[k] :: L.drop (k + 1)) := by rw [← List.drop_eq_getElem_cons hk, List.take_append_drop]
    conv => lhs; rw [this]
    rw [pushesOf, List.zipIdx_append, List.map_append, List.zipIdx_cons, List.map_cons, List.length_take, Nat.min_eq_left (by omega)]
    rw [show 1 + k = k + 1 by omega]
    rfl
  · intro x hx e
    obtain ⟨⟨p, j⟩, hj, rfl⟩ := List.mem_map.1 hx
    rw [List.mem_zipIdx_iff_le_and_getElem?_sub] at hj
    have : j = k + 1 := congrArg CharCode.code e
    have := hj.1
    simp only at this
    omega

/-- **C193**, saved and loaded.  While at most 255 glyphs are in use, the `ToUnicode` CMap of the font is written without an error, and every text
encoded so far is read through it, after it was read, as it is read before. -/
theorem C193_reloaded_partial {z : Nat} {gid : Nat → Option Nat} {texts : List (List Nat)} {f : DynFont} {outs : List (Option Bytes)}
    (h : (DynFont.init z).encodeAll gid texts = .ok (f, outs)) (hn : (drawnGlyphs gid texts).length ≤ 255) (htext : IsText (drawnChars gid texts))
    (hne : drawnChars gid texts ≠ []) (order : List Nat) :
    ∃ text r, toUnicodeText f.points order = .ok text ∧ cmapFromText z text = .ok r ∧
      ∀ (i : Nat) (t : List Nat) (s : Bytes), texts[i]? = some t → outs[i]? = some (some s) →
        r.decode s = .ok (true, utf8Encode (t.map (standIn gid (drawnChars gid texts)))) := by
  obtain ⟨f', h', inv⟩ := encodeAll_new z gid texts
  rw [h] at h'
  have e := h'
  simp only [Except.ok.injEq, Prod.mk.injEq] at e
  obtain ⟨rfl, _⟩ := e
  have hlen : (firstPairs gid texts).length ≤ 255 := by rw [← List.length_map (f := (·.1)), firstPairs_fst]; exact hn
  have hfirst : ∀ (k : Nat) (p : Nat × Nat), (firstPairs gid texts)[k]? = some p → p.2 ∈ drawnChars gid texts := by
    intro k p hk
    have h1 : (drawnGlyphs gid texts)[k]? = some p.1 := by rw [← firstPairs_fst, List.getElem?_map, hk]; rfl
    have h0 : ∀ (ps L : List (Nat × Nat)) (x : Nat × Nat), x ∈ ps.foldl noteFirst L → x ∈ L ∨ x ∈ ps := by
      intro ps
      induction ps with
      | nil => intro L x hx; exact Or.inl hx
      | cons p r ih =>
        intro L x hx
        rw [List.foldl_cons] at hx
        rcases ih _ x hx with hx | hx
        · rw [noteFirst] at hx
          split at hx
          · exact Or.inl hx
          · rcases List.mem_append.1 hx with hx | hx
            · exact Or.inl hx
            · right; rw [List.mem_singleton] at hx; simp [hx]
        · exact Or.inr (List.mem_cons_of_mem _ hx)
    rcases h0 _ [] p (List.mem_of_getElem? hk) with hx | hx
    · simp at hx
    · rw [allGlyphs_eq] at hx
      obtain ⟨c, hc, rfl⟩ := List.mem_map.1 hx
      exact hc
  have hpos := List.length_pos_iff.2 (firstPairs_ne hne)
  have hsz : ∀ k, k < (firstPairs gid texts).length → charCodeSize (k + 1) = 1 := by
    intro k hk
    rw [charCodeSize, if_pos (by omega)]
  obtain ⟨text, r, h1, h2, h3, h4, h5, h6, h7⟩ := C101_read_back inv.reach
    (by
      intro x hx y hy e
      obtain ⟨k, p, _, rfl⟩ := pushesOf_mem.1 hx
      obtain ⟨j, q, _, rfl⟩ := pushesOf_mem.1 hy
      have : k + 1 = j + 1 := e
      rw [this])
    (by
      intro x hx
      obtain ⟨k, p, hk, rfl⟩ := pushesOf_mem.1 hx
      have hkl := (List.getElem?_eq_some_iff.1 hk).1
      have hs1 : (charCodeOf (k + 1)).size = 1 := hsz k hkl
      refine ⟨by rw [hs1]; decide, by rw [hs1]; decide, ?_, by simp, ?_⟩
      · rw [hs1]
        show k + 1 < 256 ^ 1
        omega
      · intro c hc
        simp only [List.mem_singleton] at hc
        subst hc
        exact (htext _ (hfirst k p hk)).1)
    (by
      intro e
      have := congrArg List.length e
      simp only [pushesOf, List.length_map, List.length_zipIdx, List.length_nil] at this
      omega)
    (by simp only [pushesOf, List.length_map, List.length_zipIdx]; omega) order
  refine ⟨text, r, h1, h2, fun i t s ht hs => ?_⟩
  obtain ⟨_, hm, rfl⟩ := encodeAll_at h ht hs
  refine decode_through _ _ hn htext (fun _ => ?_) (fun cp hcp => ?_) t _ hm (Nat.le_refl _)
  · obtain ⟨x, hx, e⟩ := h4
    obtain ⟨k, p, hk, rfl⟩ := pushesOf_mem.1 hx
    have hs1 : (charCodeOf (k + 1)).size = 1 := hsz k (List.getElem?_eq_some_iff.1 hk).1
    refine ⟨by rw [← e]; exact hs1, ?_⟩
    have := h7 _ hx
    rw [hs1] at this
    exact this
  · have hat := firstPairs_at hcp
    have hle := numOf_le hcp
    have := h3 _ _ (pushesOf_maps hat)
    have hn1 : numOf (firstPairs gid texts) ((gid cp).getD 0) - 1 + 1 = numOf (firstPairs gid texts) ((gid cp).getD 0) := by rw [numOf]; omega
    rw [hn1, charCodeOf, charCodeSize, if_pos (by omega)] at this
    exact this

/-- **C193**, codes of any size.  When no shorter code begins a code of the string, the CIDs of a string are those of its codes, in order. -/
theorem C193_code_cids (l : CodeLimits) (look : CharCode → Option (List Nat)) (cidOf : CharCode → Nat) (cs : List CharCode)
    (h : ∀ c ∈ cs, 1 ≤ c.size ∧ c.size ≤ 4 ∧ c.code < 256 ^ c.size ∧ l.minSize ≤ c.size ∧ c.size ≤ l.maxSize ∧ look c = some [cidOf c] ∧
      ∀ i, l.minSize ≤ i → i < c.size → look ⟨c.code / 256 ^ (c.size - i), i⟩ = none) (n : Nat)
    (hn : (cs.flatMap fun c => codeBytes c.code c.size).length ≤ n) :
    toCids l look n (cs.flatMap fun c => codeBytes c.code c.size) = .ok (true, cs.map cidOf) := by
  induction cs generalizing n with
  | nil => cases n <;> rfl
  | cons c r ih =>
    obtain ⟨h1, h2, h3, h4, h5, h6, h7⟩ := h c List.mem_cons_self
    rw [List.flatMap_cons, List.length_append, codeBytes_length] at hn
    obtain ⟨n, rfl⟩ : ∃ k, n = k + 1 := ⟨n - 1, by omega⟩
    have h32 : c.code < 4294967296 := Nat.lt_of_lt_of_le h3 (Nat.pow_le_pow_right (n := 256) (by decide) h2)
    have hs := scan_code l.minSize l.maxSize look c.code c.size [cidOf c] (r.flatMap fun c => codeBytes c.code c.size) h32 h4 h5 h6 h7
      c.size 1 (by omega) (by decide) (by omega)
    rw [Nat.div_eq_of_lt h3] at hs
    have hr := ih (fun x hx => h x (List.mem_cons_of_mem _ hx)) n (by omega)
    rw [List.flatMap_cons]
    generalize hq : codeBytes c.code c.size ++ r.flatMap (fun c => codeBytes c.code c.size) = q at hs
    cases q with
    | nil =>
      have := congrArg List.length hq
      rw [List.length_append, codeBytes_length] at this
      simp at this; omega
    | cons b t =>
      rw [toCids, hs]
      simp only
      rw [hr]
      rfl

example : toCids ⟨2, 2, ⟨0, 2⟩, ⟨65535, 2⟩⟩ (fun c => if c.size = 2 then some [c.code + 7] else none) 4 [1, 2, 3, 4] = .ok (true, [265, 779]) :=
  C193_code_cids _ _ (fun c => c.code + 7) [⟨258, 2⟩, ⟨772, 2⟩] (by
    intro c hc
    simp only [List.mem_cons, List.not_mem_nil, or_false] at hc
    rcases hc with rfl | rfl <;> refine ⟨by decide, by decide, by decide, by decide, by decide, rfl, fun i h1 h2 => ?_⟩ <;> simp at h1 h2 <;> omega) 4 (by decide)

/-- **C193**.  If moreover no two different characters drawn have the same glyph, every text is read back as it was. -/
theorem C193_same_text_partial {z : Nat} {gid : Nat → Option Nat} {texts : List (List Nat)} {f : DynFont} {outs : List (Option Bytes)}
    (h : (DynFont.init z).encodeAll gid texts = .ok (f, outs)) (hn : (drawnGlyphs gid texts).length ≤ 255) (htext : IsText (drawnChars gid texts))
    (hd : ∀ a ∈ drawnChars gid texts, ∀ b ∈ drawnChars gid texts, gid a = gid b → a = b)
    {i : Nat} {t : List Nat} {s : Bytes} (ht : texts[i]? = some t) (hs : outs[i]? = some (some s)) :
    f.decode s = .ok (true, utf8Encode t) := by
  rw [C193_read_back_partial h hn htext ht hs]
  have hm := (encodeAll_at h ht hs).2.1
  congr 3
  clear ht hs
  induction t with
  | nil => rfl
  | cons c r ih =>
    have hc := hm c (by simp)
    have := standIn_mem (gid := gid) hc
    rw [List.map_cons, ih (fun x hx => hm x (by simp [hx])), hd _ this.1 _ hc this.2]

/-- **C193**, what is drawn.  While at most 255 glyphs are in use, the CIDs of every text encoded so far are those of the glyphs of its characters:
the glyph with CID `c` is the `c`-th that was used. -/
theorem C193_cids_partial {z : Nat} {gid : Nat → Option Nat} {texts : List (List Nat)} {f : DynFont} {outs : List (Option Bytes)}
    (h : (DynFont.init z).encodeAll gid texts = .ok (f, outs)) (hn : (drawnGlyphs gid texts).length ≤ 255)
    {i : Nat} {t : List Nat} {s : Bytes} (ht : texts[i]? = some t) (hs : outs[i]? = some (some s)) :
    ∃ ids, f.toCids s = .ok (true, ids) ∧ (∀ c ∈ ids, 1 ≤ c) ∧ ids.map (fun c => (drawnGlyphs gid texts)[c - 1]?) = t.map gid := by
  obtain ⟨inv, hm, rfl⟩ := encodeAll_at h ht hs
  rw [DynFont.toCids]
  have key : ∀ (t : List Nat) (n : Nat), (∀ cp ∈ t, cp ∈ drawnChars gid texts) →
      (t.flatMap fun cp => bytesFor (firstPairs gid texts) ((gid cp).getD 0, cp)).length ≤ n →
      toCids f.cids.limits f.cids.codePoints n (t.flatMap fun cp => bytesFor (firstPairs gid texts) ((gid cp).getD 0, cp)) =
        .ok (true, t.map fun cp => numOf (firstPairs gid texts) ((gid cp).getD 0)) := by
    intro t
    induction t with
    | nil => intro n _ _; rw [List.flatMap_nil, Pdfmm.toCids]; rfl
    | cons cp r ih =>
      intro n hm hl
      have hcp := hm cp (by simp)
      have hle := numOf_le hcp
      have hne : firstPairs gid texts ≠ [] := by
        intro e
        have := firstPairs_at hcp
        rw [e] at this; simp at this
      have hb : bytesFor (firstPairs gid texts) ((gid cp).getD 0, cp) = [UInt8.ofNat (numOf (firstPairs gid texts) ((gid cp).getD 0))] := by
        rw [bytesFor]
        simp only
        rw [charCodeSize, if_pos (by omega), codeBytes, codeBytes, Nat.pow_zero, Nat.div_one, Nat.mod_eq_of_lt (by omega)]
      rw [List.flatMap_cons, hb, List.length_append, List.length_singleton] at hl
      obtain ⟨n, rfl⟩ : ∃ k, n = k + 1 := ⟨n - 1, by omega⟩
      rw [List.flatMap_cons, hb, List.singleton_append, Pdfmm.toCids,
        scan_first (cps := [numOf (firstPairs gid texts) ((gid cp).getD 0)])]
      · simp only
        rw [ih n (fun x hx => hm x (by simp [hx])) (by omega)]
        rfl
      · rw [inv.cmin, if_neg hne]
      · rw [inv.cmax, if_neg hne]; exact charCodeSize_pos _
      · rw [toNat_ofNat_lt (by omega)]
        exact (codePoints_num inv 1 hcp).2
  refine ⟨_, key t _ hm (Nat.le_refl _), ?_, ?_⟩
  · intro c hc
    obtain ⟨cp, _, rfl⟩ := List.mem_map.1 hc
    rw [numOf]; omega
  · rw [List.map_map]
    refine List.map_congr_left fun cp hcp => ?_
    have := firstPairs_at (hm cp hcp)
    rw [Function.comp, ← firstPairs_fst, List.getElem?_map, this, Option.map_some, ← drawnChars_some (hm cp hcp)]

theorem utf8Encode_inj {a b : List Nat} (ha : IsText a) (hb : IsText b) (h : utf8Encode a = utf8Encode b) : a = b := by
  have h1 := utf8_decode_encode a (fun c hc => (ha c hc).1)
  have h2 := utf8_decode_encode b (fun c hc => (hb c hc).1)
  rw [h, h2, Option.some.injEq] at h1
  exact h1.symm

/-- **C193 is false** for characters that share a glyph: a text with a character for whose glyph another one was drawn first is read back as another text. -/
theorem C193_shared_false {z : Nat} {gid : Nat → Option Nat} {texts : List (List Nat)} {f : DynFont} {outs : List (Option Bytes)}
    (h : (DynFont.init z).encodeAll gid texts = .ok (f, outs)) (hn : (drawnGlyphs gid texts).length ≤ 255) (htext : IsText (drawnChars gid texts))
    {i : Nat} {t : List Nat} {s : Bytes} (ht : texts[i]? = some t) (hs : outs[i]? = some (some s))
    {cp : Nat} (hcp : cp ∈ t) (hfirst : standIn gid (drawnChars gid texts) cp ≠ cp) (ok : Bool) :
    f.decode s ≠ .ok (ok, utf8Encode t) := by
  rw [C193_read_back_partial h hn htext ht hs]
  obtain ⟨_, hm, _⟩ := encodeAll_at h ht hs
  intro e
  simp only [Except.ok.injEq, Prod.mk.injEq] at e
  have := utf8Encode_inj (fun x hx => by
    obtain ⟨c, hc, rfl⟩ := List.mem_map.1 hx
    exact htext _ (standIn_mem (hm c hc)).1) (fun x hx => htext x (hm x hx)) e.2
  have h2 : ∀ t : List Nat, t.map (standIn gid (drawnChars gid texts)) = t → ∀ c ∈ t, standIn gid (drawnChars gid texts) c = c := by
    intro t
    induction t with
    | nil => simp
    | cons a r ih =>
      intro e c hc
      rw [List.map_cons, List.cons.injEq] at e
      rcases List.mem_cons.1 hc with rfl | hc
      · exact e.1
      · exact ih e.2 c hc
  exact hfirst (h2 t this cp hcp)

theorem decode_valid (l : CodeLimits) (m : CodeMap) (n : Nat) (s : Bytes) (h : s.length ≤ n) :
    ∃ ok t, toUtf8 l m.codePoints n s = .ok (ok, utf8Encode t) ∧ IsText t := by
  induction n generalizing s with
  | zero =>
    have : s = [] := List.eq_nil_of_length_eq_zero (by omega)
    subst this
    exact ⟨true, [], rfl, by intro cp hcp; simp at hcp⟩
  | succ n ih =>
    cases s with
    | nil => exact ⟨true, [], rfl, by intro cp hcp; simp at hcp⟩
    | cons b r =>
      rw [toUtf8]
      cases hs : scanCode l.minSize l.maxSize m.codePoints 0 1 (b :: r) with
      | some x =>
        obtain ⟨cps, rest⟩ := x
        have hl := scanCode_length _ _ _ _ _ _ _ _ hs
        obtain ⟨ok, t, h1, h2⟩ := ih rest (by omega)
        obtain ⟨t', h3, h4⟩ := keptText_valid cps
        simp only
        rw [h1]
        refine ⟨ok, t' ++ t, by simp only; rw [h3, utf8Encode_append], ?_⟩
        intro cp hcp
        rcases List.mem_append.1 hcp with hcp | hcp
        · exact h4 cp hcp
        · exact h2 cp hcp
      | none =>
        have hl := fetchRest_length l.minSize r b.toNat 1
        obtain ⟨ok, t, h1, h2⟩ := ih (fetchRest l.minSize b.toNat 1 r).2 (by
          simp only [List.length_cons] at h; omega)
        obtain ⟨t', h3, h4⟩ := keptText_valid [(fetchRest l.minSize b.toNat 1 r).1.code]
        simp only
        rw [h1]
        refine ⟨false, t' ++ t, by simp only; rw [h3, utf8Encode_append], ?_⟩
        intro cp hcp
        rcases List.mem_append.1 hcp with hcp | hcp
        · exact h4 cp hcp
        · exact h2 cp hcp

/-- The numbers of the glyphs of two characters. -/
theorem numOf_glyph {gid : Nat → Option Nat} {texts : List (List Nat)} {n g : Nat} (h : (drawnGlyphs gid texts)[n]? = some g) :
    ∃ cp ∈ drawnChars gid texts, gid cp = some g ∧ numOf (firstPairs gid texts) ((gid cp).getD 0) = n + 1 := by
  have hm : g ∈ drawnGlyphs gid texts := List.mem_of_getElem? h
  have inv := (encodeAll_new 0 gid texts).choose_spec.2
  rw [← firstPairs_fst] at h
  have hg : g ∈ (allGlyphs gid texts).map (·.1) := by
    have h0 : ∀ (ps L : List (Nat × Nat)) (x : Nat), x ∈ (ps.foldl noteFirst L).map (·.1) → x ∈ L.map (·.1) ∨ x ∈ ps.map (·.1) := by
      intro ps
      induction ps with
      | nil => intro L x hx; exact Or.inl hx
      | cons p r ih =>
        intro L x hx
        rw [List.foldl_cons] at hx
        rcases ih _ x hx with hx | hx
        · rw [noteFirst] at hx
          split at hx
          · exact Or.inl hx
          · rw [List.map_append, List.mem_append] at hx
            rcases hx with hx | hx
            · exact Or.inl hx
            · right; simp only [List.map_cons, List.map_nil, List.mem_singleton] at hx; simp [hx]
        · right; simp only [List.map_cons, List.mem_cons]; exact Or.inr hx
    rcases h0 _ [] g (List.mem_of_getElem? h) with hx | hx
    · simp at hx
    · exact hx
  rw [allGlyphs_eq, List.map_map] at hg
  obtain ⟨cp, hcp, e⟩ := List.mem_map.1 hg
  simp only [Function.comp] at e
  refine ⟨cp, hcp, by rw [drawnChars_some hcp, e], ?_⟩
  rw [e]
  have := inv.used.find_num ((inv.used.find g (n + 1)).2 ⟨by omega, by simpa using h⟩)
  exact this.symm

/-- **C193 is false** for more than 255 glyphs: the text of one character with the `n`-th glyph used, `n` from 256 to 65535, is read back as a text that
begins with another character, the one drawn first with glyph number `n / 256`; and the CIDs it is measured and drawn with begin with that glyph's. -/
theorem C193_many_false {z : Nat} {gid : Nat → Option Nat} {texts : List (List Nat)} {f : DynFont} {outs : List (Option Bytes)}
    (h : (DynFont.init z).encodeAll gid texts = .ok (f, outs)) (htext : IsText (drawnChars gid texts))
    {i cp g n : Nat} {s : Bytes} (ht : texts[i]? = some [cp]) (hs : outs[i]? = some (some s)) (hg : gid cp = some g)
    (hn : (drawnGlyphs gid texts)[n - 1]? = some g) (h1 : 256 ≤ n) (h2 : n < 65536) :
    (∃ ok other r, f.decode s = .ok (ok, utf8Encode (other :: r)) ∧ other ≠ cp ∧ gid other = (drawnGlyphs gid texts)[n / 256 - 1]?) ∧
    (∀ ok, f.decode s ≠ .ok (ok, utf8Encode [cp])) ∧
    (∀ ok ids, f.toCids s = .ok (ok, ids) → ids.head? = some (n / 256)) := by
  obtain ⟨inv, hm, rfl⟩ := encodeAll_at h ht hs
  have hcp := hm cp (by simp)
  have hlen : n - 1 < (drawnGlyphs gid texts).length := (List.getElem?_eq_some_iff.1 hn).1
  have hnum : numOf (firstPairs gid texts) ((gid cp).getD 0) = n := by
    have hgd : (gid cp).getD 0 = g := by rw [hg]; rfl
    obtain ⟨c, _, hc1, hc2⟩ := numOf_glyph hn
    rw [hc1] at hc2
    rw [hgd]
    simp only [Option.getD_some] at hc2
    omega
  obtain ⟨g', hg'⟩ : ∃ g', (drawnGlyphs gid texts)[n / 256 - 1]? = some g' :=
    ⟨_, List.getElem?_eq_getElem (by omega)⟩
  obtain ⟨other, ho, ho1, ho2⟩ := numOf_glyph hg'
  have hso := standIn_mem (gid := gid) ho
  have hne : firstPairs gid texts ≠ [] := by
    intro e
    have := firstPairs_at hcp
    rw [e] at this; simp at this
  have hb : ([cp].flatMap fun cp => bytesFor (firstPairs gid texts) ((gid cp).getD 0, cp)) = [UInt8.ofNat (n / 256), UInt8.ofNat (n % 256)] := by
    simp only [List.flatMap_cons, List.flatMap_nil, List.append_nil, bytesFor, hnum]
    rw [charCodeSize, if_neg (by omega), if_pos h2]
    simp only [codeBytes, Nat.pow_zero, Nat.pow_one, Nat.div_one]
    rw [Nat.mod_eq_of_lt (show n / 256 < 256 by omega)]
  have hpos : n / 256 - 1 + 1 = n / 256 := by omega
  rw [hpos] at ho2
  have hscanP : scanCode f.points.limits.minSize f.points.limits.maxSize f.points.codePoints 0 1 [UInt8.ofNat (n / 256), UInt8.ofNat (n % 256)] =
      some ([standIn gid (drawnChars gid texts) other], [UInt8.ofNat (n % 256)]) := by
    refine scan_first _ ?_ ?_ _ _ _ ?_
    · rw [inv.pmin, if_neg hne]
    · rw [inv.pmax, if_neg hne]; exact charCodeSize_pos _
    · rw [toNat_ofNat_lt (by omega), ← ho2]
      exact (codePoints_num inv 1 ho).1
  have hscanC : scanCode f.cids.limits.minSize f.cids.limits.maxSize f.cids.codePoints 0 1 [UInt8.ofNat (n / 256), UInt8.ofNat (n % 256)] =
      some ([n / 256], [UInt8.ofNat (n % 256)]) := by
    refine scan_first _ ?_ ?_ _ _ _ ?_
    · rw [inv.cmin, if_neg hne]
    · rw [inv.cmax, if_neg hne]; exact charCodeSize_pos _
    · rw [toNat_ofNat_lt (by omega)]
      have := (codePoints_num inv 1 ho).2
      rw [ho2] at this; exact this
  have hdiff : standIn gid (drawnChars gid texts) other ≠ cp := by
    intro e
    have e2 := hso.2
    rw [e, hg, ho1, Option.some.injEq] at e2
    rw [e2, ← ho1] at hg
    rw [hg] at hnum
    omega
  obtain ⟨ok, t, d1, d2⟩ := decode_valid f.points.limits f.points 1 [UInt8.ofNat (n % 256)] (by simp)
  have hdec : f.decode [UInt8.ofNat (n / 256), UInt8.ofNat (n % 256)] =
      .ok (ok, utf8Encode (standIn gid (drawnChars gid texts) other :: t)) := by
    rw [DynFont.decode]
    show toUtf8 _ _ (1 + 1) _ = _
    rw [toUtf8_round _ _ 1 _ _ _ (by simp) hscanP, d1]
    simp only
    rw [keptText, filter_text, ← utf8Encode_append]
    · rfl
    · intro x hx
      rw [List.mem_singleton] at hx
      subst hx
      exact htext _ hso.1
  rw [hb]
  refine ⟨⟨ok, _, t, hdec, hdiff, by rw [hso.2, ho1, hg']⟩, ?_, ?_⟩
  · intro ok' e
    rw [hdec] at e
    simp only [Except.ok.injEq, Prod.mk.injEq] at e
    have := utf8Encode_inj (a := standIn gid (drawnChars gid texts) other :: t) (b := [cp]) (by
      intro x hx
      rcases List.mem_cons.1 hx with rfl | hx
      · exact htext _ hso.1
      · exact d2 x hx) (by
      intro x hx
      rw [List.mem_singleton] at hx
      subst hx
      exact htext _ hcp) e.2
    rw [List.cons.injEq] at this
    exact hdiff this.1
  · intro ok' ids e
    rw [DynFont.toCids] at e
    have : toCids f.cids.limits f.cids.codePoints (1 + 1) [UInt8.ofNat (n / 256), UInt8.ofNat (n % 256)] = .ok (ok', ids) := e
    rw [toCids, hscanC] at this
    simp only at this
    cases hr : toCids f.cids.limits f.cids.codePoints 1 [UInt8.ofNat (n % 256)] with
    | error x => rw [hr] at this; cases this
    | ok x =>
      rw [hr] at this
      have : Except.ok (x.1, n / 256 :: x.2) = (Except.ok (ok', ids) : Res (Bool × List Nat)) := this
      simp only [Except.ok.injEq, Prod.mk.injEq] at this
      rw [← this.2]; rfl

/-! ### Examples -/

/-- Two texts, with characters 97 and 225 sharing a glyph, and one text with a character the font has no glyph for. -/
def exampleGlyphs (cp : Nat) : Option Nat := if cp = 97 then some 7 else if cp = 225 then some 7 else if cp = 98 then some 5 else none

example : ∃ f outs, (DynFont.init 0).encodeAll exampleGlyphs [[98, 97], [99], [225, 98]] = .ok (f, outs) ∧
    outs = [some [1, 2], none, some [2, 1]] ∧ (drawnGlyphs exampleGlyphs [[98, 97], [99], [225, 98]]).length ≤ 255 ∧
    IsText (drawnChars exampleGlyphs [[98, 97], [99], [225, 98]]) ∧
    standIn exampleGlyphs (drawnChars exampleGlyphs [[98, 97], [99], [225, 98]]) 225 = 97 ∧
    f.decode [2, 1] = .ok (true, [97, 98]) ∧ f.toCids [2, 1] = .ok (true, [2, 1]) := by
  refine ⟨_, _, rfl, by decide +kernel, by decide +kernel, ?_, by decide +kernel, by decide +kernel, by decide +kernel⟩
  show ∀ cp ∈ [98, 97, 225, 98], IsScalar cp ∧ cp ≠ 0
  simp [IsScalar]

/-- The same texts after the font was saved and loaded. -/
example (order : List Nat) : ∃ f outs text r, (DynFont.init 0).encodeAll exampleGlyphs [[98, 97], [99], [225, 98]] = .ok (f, outs) ∧
    toUnicodeText f.points order = .ok text ∧ cmapFromText 0 text = .ok r ∧ r.decode [1, 2] = .ok (true, [98, 97]) ∧ r.decode [2, 1] = .ok (true, [97, 98]) := by
  have h : ∃ f outs, (DynFont.init 0).encodeAll exampleGlyphs [[98, 97], [99], [225, 98]] = .ok (f, outs) ∧ outs = [some [1, 2], none, some [2, 1]] :=
    ⟨_, _, rfl, by decide +kernel⟩
  obtain ⟨f, outs, h, ho⟩ := h
  have ht : IsText (drawnChars exampleGlyphs [[98, 97], [99], [225, 98]]) := by
    show ∀ cp ∈ [98, 97, 225, 98], IsScalar cp ∧ cp ≠ 0
    simp [IsScalar]
  obtain ⟨text, r, h1, h2, h3⟩ := C193_reloaded_partial h (by decide +kernel) ht (by decide) order
  exact ⟨f, outs, text, r, h, h1, h2, h3 0 [98, 97] [1, 2] rfl (by rw [ho]; rfl), h3 2 [225, 98] [2, 1] rfl (by rw [ho]; rfl)⟩

/-- Three hundred characters with glyphs of their own: the text of the one with the glyph 266 is read back as something else. -/
example : ∃ f outs s, (DynFont.init 0).encodeAll some [(List.range 300).map (· + 32), [297]] = .ok (f, outs) ∧
    outs[1]? = some (some s) ∧ (drawnGlyphs some [(List.range 300).map (· + 32), [297]])[266 - 1]? = some 297 ∧
    f.decode s ≠ .ok (true, utf8Encode [297]) := by
  obtain ⟨f, h, _⟩ := encodeAll_new 0 some [(List.range 300).map (· + 32), [297]]
  have hg : (drawnGlyphs some [(List.range 300).map (· + 32), [297]])[266 - 1]? = some 297 := by decide +kernel
  refine ⟨f, _, _, h, rfl, hg, ?_⟩
  refine (C193_many_false h ?_ (i := 1) (cp := 297) (g := 297) (n := 266) rfl rfl rfl hg (by decide) (by decide)).2.1 true
  intro cp hcp
  have : ∀ cp ∈ drawnChars some [(List.range 300).map (· + 32), [297]], 32 ≤ cp ∧ cp ≤ 400 := by decide +kernel
  have := this cp hcp
  simp only [IsScalar]
  omega

end Pdfmm
