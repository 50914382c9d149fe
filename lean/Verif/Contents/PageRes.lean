import Verif.Contents.FormPage
import Verif.Contents.ResourceDict
/-
C165: the resources of a page.
-/
set_option autoImplicit false
namespace Pdfmm

/-- Where `FindKey` finds the resources of a node: the entry itself, or the object it refers to, `src/pdfmm/base/PdfDictionary.cpp:133-146`. -/
def FDoc.resLoc (h : FDoc) (r : Ref) : Option BoxLoc :=
  match SMap.find? keyResources (h.dict r) with
  | some (.ref n g) => if (h ⟨n, g⟩).isSome then some (.object ⟨n, g⟩) else none
  | some _ => some (.entry r)
  | none => none

/-- `getResources`, `src/pdfmm/base/PdfPage.cpp:513-527`, when a page is made from its object; `parents` are the nodes above the page, from the root to the parent
(`getPageNode`, `src/pdfmm/base/PdfPageCollection.cpp:294` and `314`).  The loop keeps what the last of them gives. -/
def FDoc.pageRes (h : FDoc) (r : Ref) (parents : List Ref) : Option BoxLoc :=
  match h.resLoc r with
  | some l => some l
  | none => parents.foldl (fun _ p => h.resLoc p) none

/-- `PdfPage::GetOrCreateResources`, `src/pdfmm/base/PdfPage.cpp:440-444`, with `ensureResourcesCreated`, `src/pdfmm/base/PdfPage.cpp:80-86`, and
`PdfResources(PdfDictionary&)`, `src/pdfmm/base/PdfResources.cpp:19-23`. -/
def FDoc.getOrCreateRes (h : FDoc) (r : Ref) (parents : List Ref) : FDoc × BoxLoc :=
  match h.pageRes r parents with
  | some l => (h, l)
  | none => (h.addKey r keyResources newResources, .entry r)

/-- The value at a place. -/
def FDoc.resAt (h : FDoc) (l : BoxLoc) : Option Var := h.valueAt keyResources l

/-- What PDF says: the resources of the page are its own, or else those of the nearest node above that has some. -/
def Spec.resources (h : FDoc) (line : List Ref) : Option Var := line.findSome? fun a => h.findKey (h.dict a) keyResources

theorem resAt_loc (h : FDoc) (r : Ref) : (h.resLoc r).bind h.resAt = h.findKey (h.dict r) keyResources := by
  rw [FDoc.resLoc, FDoc.findKey]
  cases e : SMap.find? keyResources (h.dict r) with
  | none => rfl
  | some v =>
    cases v with
    | ref n g =>
      simp only
      cases e' : h ⟨n, g⟩ with
      | none => rfl
      | some w => exact e'
    | null => exact e
    | bool b => exact e
    | num n => exact e
    | real a b c => exact e
    | str s => exact e
    | name n => exact e
    | arr l => exact e
    | dict d => exact e

theorem resLoc_none (h : FDoc) (r : Ref) : h.resLoc r = none ↔ h.findKey (h.dict r) keyResources = none := by
  rw [FDoc.resLoc, FDoc.findKey]
  cases e : SMap.find? keyResources (h.dict r) with
  | none => simp
  | some v => cases v <;> simp

theorem pageRes_last (h : FDoc) (r p : Ref) (above : List Ref) (hr : h.resLoc r = none) : h.pageRes r (above ++ [p]) = h.resLoc p := by
  rw [FDoc.pageRes, hr, List.foldl_append]; rfl

/-- C165, `_partial`: the resources of a page are those PDF says, when the page or its parent has some, or when no node has any. -/
theorem C165_resources_partial (h : FDoc) (r p : Ref) (above : List Ref)
    (hn : h.findKey (h.dict r) keyResources ≠ none ∨ h.findKey (h.dict p) keyResources ≠ none ∨ ∀ a ∈ above, h.findKey (h.dict a) keyResources = none) :
    (h.pageRes r (above.reverse ++ [p])).bind h.resAt = Spec.resources h (r :: p :: above) := by
  rw [Spec.resources, List.findSome?_cons]
  cases hr : h.resLoc r with
  | some l =>
    have := resAt_loc h r
    rw [hr] at this
    cases e : h.findKey (h.dict r) keyResources with
    | none => rw [← resLoc_none, hr] at e; cases e
    | some v =>
      rw [e] at this
      rw [FDoc.pageRes, hr]
      exact this
  | none =>
    rw [(resLoc_none h r).1 hr, pageRes_last h r p _ hr, resAt_loc, List.findSome?_cons]
    cases e : h.findKey (h.dict p) keyResources with
    | some v => rfl
    | none =>
      rw [(resLoc_none h r).1 hr, e] at hn
      simp only [ne_eq, not_true_eq_false, false_or] at hn
      exact (List.findSome?_eq_none_iff.2 hn).symm

/-- C165: resources of a node above the parent are not found, when the parent has none. -/
theorem C165_resources_false (h : FDoc) (r p : Ref) (above : List Ref) (v : Var) (hr : h.findKey (h.dict r) keyResources = none)
    (hp : h.findKey (h.dict p) keyResources = none) (ha : above.findSome? (fun a => h.findKey (h.dict a) keyResources) = some v) :
    h.pageRes r (above.reverse ++ [p]) = none ∧ Spec.resources h (r :: p :: above) = some v := by
  refine ⟨?_, ?_⟩
  · rw [pageRes_last h r p _ ((resLoc_none h r).2 hr), (resLoc_none h p).2 hp]
  · rw [Spec.resources, List.findSome?_cons, hr, List.findSome?_cons, hp]
    exact ha

/-- C165: drawing on such a page hides the resources its contents use: after it, they are an empty dictionary of the page itself, for the library and for every
other reader, while before they were those of the node above. -/
theorem C165_draw_false (h : FDoc) (r p : Ref) (above : List Ref) (v : Var) (hr : h.findKey (h.dict r) keyResources = none)
    (hp : h.findKey (h.dict p) keyResources = none) (ha : above.findSome? (fun a => h.findKey (h.dict a) keyResources) = some v) :
    Spec.resources h (r :: p :: above) = some v ∧
    Spec.resources (h.getOrCreateRes r (above.reverse ++ [p])).1 (r :: p :: above) = some newResources := by
  obtain ⟨h1, h2⟩ := C165_resources_false h r p above v hr hp ha
  refine ⟨h2, ?_⟩
  rw [FDoc.getOrCreateRes, h1, Spec.resources, List.findSome?_cons]
  simp only [FDoc.findKey, addKey_dict, if_true, SMap.find_insert_self, newResources]

/-- C165: asking for the resources of a page that has some, or whose parent has some, changes nothing; and a page without any gets its own, empty ones, with which all
other objects stay as they are. -/
theorem C165_create (h : FDoc) (r : Ref) (parents : List Ref) :
    (h.pageRes r parents ≠ none → (h.getOrCreateRes r parents).1 = h ∧ some (h.getOrCreateRes r parents).2 = h.pageRes r parents) ∧
    (h.pageRes r parents = none → (h.getOrCreateRes r parents).1.resAt (h.getOrCreateRes r parents).2 = some newResources ∧
      (∀ q, q ≠ r → (h.getOrCreateRes r parents).1 q = h q) ∧
      (∀ k, k ≠ keyResources → SMap.find? k ((h.getOrCreateRes r parents).1.dict r) = SMap.find? k (h.dict r))) := by
  constructor
  · intro hn
    rw [FDoc.getOrCreateRes]
    cases e : h.pageRes r parents with
    | none => exact absurd e hn
    | some l => exact ⟨rfl, rfl⟩
  · intro hn
    rw [FDoc.getOrCreateRes, hn]
    refine ⟨?_, ?_, ?_⟩
    · show SMap.find? keyResources ((h.addKey r keyResources newResources).dict r) = _
      rw [addKey_dict, if_pos rfl, SMap.find_insert_self]
    · intro q hq
      show h.addKey r keyResources newResources q = h q
      rw [FDoc.addKey, FDoc.set, if_neg hq]
    · intro k hk
      show SMap.find? k ((h.addKey r keyResources newResources).dict r) = _
      rw [addKey_dict, if_pos rfl, SMap.find_insert_ne _ _ hk]

/-- C165: two pages that inherit the resources of their parent draw with the same dictionary: what is added for one is added for the other. -/
theorem C165_shared_false (h : FDoc) (r r' p q : Ref) (above : List Ref) (hr : h.findKey (h.dict r) keyResources = none)
    (hr' : h.findKey (h.dict r') keyResources = none) (hp : SMap.find? keyResources (h.dict p) = some (.ref q.num q.gen)) (hq : (h q).isSome) :
    h.pageRes r (above ++ [p]) = some (.object q) ∧ h.pageRes r' (above ++ [p]) = some (.object q) := by
  have e : h.resLoc p = some (.object q) := by rw [FDoc.resLoc, hp]; exact if_pos hq
  exact ⟨by rw [pageRes_last h r p _ ((resLoc_none h r).2 hr), e], by rw [pageRes_last h r' p _ ((resLoc_none h r').2 hr'), e]⟩

/-- The resources part of `PdfPage::SetICCProfile`, `src/pdfmm/base/PdfPage.cpp:404-413`; `q` is the object of the resources and `icc` that of the profile.  Pages whose
resources are no object of their own are left out. -/
def FDoc.setIcc (h : FDoc) (q icc : Ref) (tag : Bytes) : FDoc :=
  h.addKey q keyColorSpace (.dict [(tag, .arr [.name (asciiB "ICCBased"), .ref icc.num icc.gen])])

/-- C165: the profile is found under its name, and the other kinds of resources stay. -/
theorem C165_icc (h : FDoc) (q icc : Ref) (tag : Bytes) :
    Spec.slot (h.setIcc q icc tag) q keyColorSpace tag = some (.arr [.name (asciiB "ICCBased"), .ref icc.num icc.gen]) ∧
    (∀ t, t ≠ keyColorSpace → SMap.find? t ((h.setIcc q icc tag).dict q) = SMap.find? t (h.dict q)) := by
  constructor
  · simp only [Spec.slot, FDoc.kindDict, FDoc.setIcc, addKey_dict, if_true, SMap.find_insert_self, Option.bind_some]
    simp [SMap.find?]
  · intro t ht
    rw [FDoc.setIcc, addKey_dict, if_pos rfl, SMap.find_insert_ne _ _ ht]

/-- C165: setting a profile takes away all other colour spaces, whatever they were, although the contents of the page may use them. -/
theorem C165_icc_false (h : FDoc) (q icc : Ref) (tag name : Bytes) (hn : name ≠ tag) : Spec.slot (h.setIcc q icc tag) q keyColorSpace name = none := by
  simp only [Spec.slot, FDoc.kindDict, FDoc.setIcc, addKey_dict, if_true, SMap.find_insert_self, Option.bind_some]
  simp only [SMap.find?]
  grind

/-! ### Witnesses -/

/-- A page (3) below a node without resources (2) below a root with resources (1). -/
def deepResDoc : FDoc := fun q =>
  if q = ⟨1, 0⟩ then some (.dict [(asciiB "Resources", .ref 9 0)]) else if q = ⟨2, 0⟩ then some (.dict [(asciiB "Parent", .ref 1 0)])
  else if q = ⟨3, 0⟩ then some (.dict [(asciiB "Parent", .ref 2 0)]) else if q = ⟨4, 0⟩ then some (.dict [(asciiB "Parent", .ref 1 0)])
  else if q = ⟨9, 0⟩ then some (.dict [(asciiB "Font", .dict [])]) else none

example : deepResDoc.findKey (deepResDoc.dict ⟨3, 0⟩) keyResources = none ∧ deepResDoc.findKey (deepResDoc.dict ⟨2, 0⟩) keyResources = none ∧
    [(⟨1, 0⟩ : Ref)].findSome? (fun a => deepResDoc.findKey (deepResDoc.dict a) keyResources) = some (.dict [(asciiB "Font", .dict [])]) := ⟨rfl, rfl, rfl⟩
example : deepResDoc.pageRes ⟨4, 0⟩ [⟨1, 0⟩] = some (.object ⟨9, 0⟩) ∧ deepResDoc.pageRes ⟨3, 0⟩ [⟨1, 0⟩, ⟨2, 0⟩] = none := ⟨rfl, rfl⟩
example : SMap.find? keyResources (deepResDoc.dict ⟨1, 0⟩) = some (.ref 9 0) ∧ (deepResDoc ⟨9, 0⟩).isSome := ⟨rfl, rfl⟩

end Pdfmm
