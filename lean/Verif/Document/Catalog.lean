import Verif.Images.ImageObj
/-
C180: the catalog: page mode, page layout, viewer preferences, full screen and metadata.
-/
set_option autoImplicit false
namespace Pdfmm

/-- A document with its catalog: the objects, where the catalog is, and the reference the next new object gets (`PdfIndirectObjectList::getNextFreeObject`, C29). -/
structure CatDoc where
  objs : IDoc
  root : Ref
  next : Ref

/-- An object put under a reference. -/
def IDoc.put (doc : IDoc) (r : Ref) (l : Loaded) : IDoc := fun q => if q = r then some l else doc q

/-- The object with another dictionary. -/
def Loaded.withDict (l : Loaded) (d : FDict) : Loaded :=
  match l with
  | .plain _ => .plain (.dict d)
  | .stream o => .stream { o with dict := d }

/-- The dictionary of the catalog, `PdfDictionaryElement::GetDictionary`. -/
def CatDoc.cat (c : CatDoc) : FDict :=
  match (c.objs c.root).map Loaded.var with
  | some (.dict d) => d
  | _ => []

/-- The catalog with another dictionary. -/
def CatDoc.setCat (c : CatDoc) (d : FDict) : CatDoc := { c with objs := c.objs.put c.root (.plain (.dict d)) }

def kPageMode : Bytes := litBytes "PageMode"
def kPageLayout : Bytes := litBytes "PageLayout"
def kViewerPreferences : Bytes := litBytes "ViewerPreferences"
def kNonFullScreen : Bytes := litBytes "NonFullScreenPageMode"
def kMetadata : Bytes := litBytes "Metadata"

/-! ## Page mode and page layout -/

/-- `enum class PdfPageMode`, `src/pdfmm/base/PdfDeclarations.h:460-469`. -/
inductive PageMode
  | DontCare | UseNone | UseThumbs | UseBookmarks | FullScreen | UseOC | UseAttachments
  deriving DecidableEq

/-- `GetPageMode`, `src/pdfmm/base/PdfCatalog.cpp:103-129`. -/
def CatDoc.getPageMode (c : CatDoc) : Res PageMode :=
  match (c.objs.find c.cat kPageMode).map Loaded.var with
  | none => .ok .UseNone
  | some (.name n) =>
    if n = litBytes "UseNone" then .ok .UseNone
    else if n = litBytes "UseThumbs" then .ok .UseThumbs
    else if n = litBytes "UseOutlines" then .ok .UseBookmarks
    else if n = litBytes "FullScreen" then .ok .FullScreen
    else if n = litBytes "UseOC" then .ok .UseOC
    else if n = litBytes "UseAttachments" then .ok .UseAttachments
    else raise .InvalidName
  | some _ => raise .InvalidDataType

/-- `SetPageMode`, `src/pdfmm/base/PdfCatalog.cpp:131-163`. -/
def CatDoc.setPageMode (c : CatDoc) : PageMode → CatDoc
  | .DontCare => c
  | .UseNone => c.setCat (SMap.insert kPageMode (.name (litBytes "UseNone")) c.cat)
  | .UseThumbs => c.setCat (SMap.insert kPageMode (.name (litBytes "UseThumbs")) c.cat)
  | .UseBookmarks => c.setCat (SMap.insert kPageMode (.name (litBytes "UseOutlines")) c.cat)
  | .FullScreen => c.setCat (SMap.insert kPageMode (.name (litBytes "FullScreen")) c.cat)
  | .UseOC => c.setCat (SMap.insert kPageMode (.name (litBytes "UseOC")) c.cat)
  | .UseAttachments => c.setCat (SMap.insert kPageMode (.name (litBytes "UseAttachments")) c.cat)

/-- `enum class PdfPageLayout`, `src/pdfmm/base/PdfDeclarations.h:478-488`. -/
inductive PageLayout
  | Ignore | Default | SinglePage | OneColumn | TwoColumnLeft | TwoColumnRight | TwoPageLeft | TwoPageRight
  deriving DecidableEq

/-- `SetPageLayout`, `src/pdfmm/base/PdfCatalog.cpp:251-280`. -/
def CatDoc.setPageLayout (c : CatDoc) : PageLayout → CatDoc
  | .Ignore => c
  | .Default => c.setCat (SMap.erase kPageLayout c.cat)
  | .SinglePage => c.setCat (SMap.insert kPageLayout (.name (litBytes "SinglePage")) c.cat)
  | .OneColumn => c.setCat (SMap.insert kPageLayout (.name (litBytes "OneColumn")) c.cat)
  | .TwoColumnLeft => c.setCat (SMap.insert kPageLayout (.name (litBytes "TwoColumnLeft")) c.cat)
  | .TwoColumnRight => c.setCat (SMap.insert kPageLayout (.name (litBytes "TwoColumnRight")) c.cat)
  | .TwoPageLeft => c.setCat (SMap.insert kPageLayout (.name (litBytes "TwoPageLeft")) c.cat)
  | .TwoPageRight => c.setCat (SMap.insert kPageLayout (.name (litBytes "TwoPageRight")) c.cat)

/-! ## Viewer preferences -/

/-- `setViewerPreference`, `src/pdfmm/base/PdfCatalog.cpp:177-192`. -/
def CatDoc.setPref (c : CatDoc) (w : Bytes) (v : Var) : Res CatDoc :=
  match SMap.find? kViewerPreferences c.cat with
  | none => .ok (c.setCat (SMap.insert kViewerPreferences (.dict [(w, v)]) c.cat))
  | some (.ref n g) =>
    match c.objs ⟨n, g⟩ with
    | none => .ok (c.setCat (SMap.insert kViewerPreferences (.dict [(w, v)]) c.cat))
    | some l =>
      match l.var with
      | .dict p => .ok { c with objs := c.objs.put ⟨n, g⟩ (l.withDict (SMap.insert w v p)) }
      | _ => raise .InvalidDataType
  | some (.dict p) => .ok (c.setCat (SMap.insert kViewerPreferences (.dict (SMap.insert w v p)) c.cat))
  | some _ => raise .InvalidDataType

/-- The calls that set a preference, `src/pdfmm/base/PdfCatalog.cpp:199-232` and `:246-249`. -/
inductive PrefCall
  | HideToolbar | HideMenubar | HideWindowUI | FitWindow | CenterWindow | DisplayDocTitle
  | PrintScaling (n : Bytes) | BindingDirection (n : Bytes)

/-- See `PrefCall`. -/
def CatDoc.prefCall (c : CatDoc) : PrefCall → Res CatDoc
  | .HideToolbar => c.setPref (litBytes "HideToolbar") (.bool true)
  | .HideMenubar => c.setPref (litBytes "HideMenubar") (.bool true)
  | .HideWindowUI => c.setPref (litBytes "HideWindowUI") (.bool true)
  | .FitWindow => c.setPref (litBytes "FitWindow") (.bool true)
  | .CenterWindow => c.setPref (litBytes "CenterWindow") (.bool true)
  | .DisplayDocTitle => c.setPref (litBytes "DisplayDocTitle") (.bool true)
  | .PrintScaling n => c.setPref (litBytes "PrintScaling") (.name n)
  | .BindingDirection n => c.setPref (litBytes "Direction") (.name n)

/-- `SetUseFullScreen`, `src/pdfmm/base/PdfCatalog.cpp:165-175`; `MustFindKey`, `src/pdfmm/base/PdfDictionary.cpp:263-270`. -/
def CatDoc.setUseFullScreen (c : CatDoc) : Res CatDoc :=
  c.getPageMode.bind fun cur =>
    if cur ≠ .DontCare then
      match (c.objs.find c.cat kPageMode).map Loaded.var with
      | none => raise .NoObject
      | some v => (c.setPref kNonFullScreen v).map fun c1 => c1.setPageMode .FullScreen
    else .ok (c.setPageMode .FullScreen)

/-! ## Metadata -/

/-- `GetMetadataStreamValue`, `src/pdfmm/base/PdfCatalog.cpp:41-55`. -/
def CatDoc.getMetadata (flate : Filt) (c : CatDoc) : Res Bytes :=
  match c.objs.find c.cat kMetadata with
  | none => .ok []
  | some (.plain _) => .ok []
  | some (.stream o) => o.copyTo flate

/-- The dictionary of a new metadata object, `CreateDictionaryObject("Metadata", "XML")`, `src/pdfmm/base/PdfIndirectObjectList.cpp:212-226`. -/
def newMetadata : FDict := SMap.insert (litBytes "Subtype") (.name (litBytes "XML")) [(litBytes "Type", .name (litBytes "Metadata"))]

/-- The metadata object that is there or a new one with the raw data, `src/pdfmm/base/PdfCatalog.cpp:29-39` and `:58-71`, with `forceCreateStream`, `src/pdfmm/base/PdfObject.cpp:324-345`.
Simplified: a direct dictionary gets a stream that the document does not hold (only indirect objects are written with their streams), so here only its entry `/Filter` goes. -/
def CatDoc.setMetadata (flate : Filt) (c : CatDoc) (value : Bytes) : Res CatDoc :=
  let fresh : CatDoc :=
    { (c.setCat (SMap.insert kMetadata (.ref c.next.num c.next.gen) c.cat)) with
      objs := ((c.setCat (SMap.insert kMetadata (.ref c.next.num c.next.gen) c.cat)).objs).put c.next (.stream ⟨SMap.erase kFilter newMetadata, value, [], false⟩) }
  match SMap.find? kMetadata c.cat with
  | none => .ok fresh
  | some (.ref n g) =>
    match c.objs ⟨n, g⟩ with
    | none => .ok fresh
    | some (.plain (.dict d)) => .ok { c with objs := c.objs.put ⟨n, g⟩ (.stream ⟨SMap.erase kFilter d, value, [], false⟩) }
    | some (.plain _) => raise .InvalidDataType
    | some (.stream o) =>
      match o.output flate [] false [value] with
      | (.error e, _) => .error e
      | (.ok _, o') => .ok { c with objs := c.objs.put ⟨n, g⟩ (.stream { o' with dict := SMap.erase kFilter o'.dict }) }
  | some (.dict d) => .ok (c.setCat (SMap.insert kMetadata (.dict (SMap.erase kFilter d)) c.cat))
  | some _ => raise .InvalidDataType

/-! ## What is expected -/

/-- The catalog is a dictionary, in order. -/
structure Spec.IsCatalog (c : CatDoc) (d : FDict) : Prop where
  at_ : c.objs c.root = some (.plain (.dict d))
  sorted : SMap.Sorted d

/-- The names of the page modes, ISO 32000-1, table 28. -/
inductive Spec.ModeName : PageMode → Bytes → Prop
  | none : Spec.ModeName .UseNone (litBytes "UseNone")
  | thumbs : Spec.ModeName .UseThumbs (litBytes "UseThumbs")
  | outlines : Spec.ModeName .UseBookmarks (litBytes "UseOutlines")
  | full : Spec.ModeName .FullScreen (litBytes "FullScreen")
  | oc : Spec.ModeName .UseOC (litBytes "UseOC")
  | attachments : Spec.ModeName .UseAttachments (litBytes "UseAttachments")

/-- The names of the page layouts, ISO 32000-1, table 28. -/
inductive Spec.LayoutName : PageLayout → Bytes → Prop
  | single : Spec.LayoutName .SinglePage (litBytes "SinglePage")
  | one : Spec.LayoutName .OneColumn (litBytes "OneColumn")
  | columnLeft : Spec.LayoutName .TwoColumnLeft (litBytes "TwoColumnLeft")
  | columnRight : Spec.LayoutName .TwoColumnRight (litBytes "TwoColumnRight")
  | pageLeft : Spec.LayoutName .TwoPageLeft (litBytes "TwoPageLeft")
  | pageRight : Spec.LayoutName .TwoPageRight (litBytes "TwoPageRight")

/-- An entry of the catalog is `v`, directly or through a reference. -/
inductive Spec.CatEntry (c : CatDoc) (d : FDict) (k : Bytes) : Var → Prop
  | direct {v : Var} : SMap.find? k d = some v → (∀ n g, v ≠ .ref n g) → Spec.CatEntry c d k v
  | indirect {n g : Nat} {l : Loaded} {v : Var} : SMap.find? k d = some (.ref n g) → c.objs ⟨n, g⟩ = some l → l.var = v → Spec.CatEntry c d k v

/-- The entry of the viewer preferences each call is about and its value, ISO 32000-1, table 150. -/
inductive Spec.PrefEntry : PrefCall → Bytes → Var → Prop
  | toolbar : Spec.PrefEntry .HideToolbar (litBytes "HideToolbar") (.bool true)
  | menubar : Spec.PrefEntry .HideMenubar (litBytes "HideMenubar") (.bool true)
  | windowUI : Spec.PrefEntry .HideWindowUI (litBytes "HideWindowUI") (.bool true)
  | fit : Spec.PrefEntry .FitWindow (litBytes "FitWindow") (.bool true)
  | center : Spec.PrefEntry .CenterWindow (litBytes "CenterWindow") (.bool true)
  | title : Spec.PrefEntry .DisplayDocTitle (litBytes "DisplayDocTitle") (.bool true)
  | scaling {n : Bytes} : Spec.PrefEntry (.PrintScaling n) (litBytes "PrintScaling") (.name n)
  | direction {n : Bytes} : Spec.PrefEntry (.BindingDirection n) (litBytes "Direction") (.name n)

/-- Only the entry `k` of the catalog may differ, and no other object. -/
structure Spec.OnlyEntry (k : Bytes) (c c' : CatDoc) (d d' : FDict) : Prop where
  root : c'.root = c.root
  cat : Spec.IsCatalog c' d'
  entries : ∀ k', k' ≠ k → SMap.find? k' d' = SMap.find? k' d
  objects : ∀ r, r ≠ c.root → c'.objs r = c.objs r

theorem cat_eq {c : CatDoc} {d : FDict} (h : Spec.IsCatalog c d) : c.cat = d := by
  simp only [CatDoc.cat, h.at_, Option.map_some, Loaded.var]

theorem find_entry (c : CatDoc) (d : FDict) (k : Bytes) (v : Var) : (c.objs.find d k).map Loaded.var = some v ↔ Spec.CatEntry c d k v := by
  constructor
  · intro h
    unfold IDoc.find at h
    split at h
    · cases h
    · rename_i n g e
      cases e2 : c.objs ⟨n, g⟩ with
      | none => rw [e2] at h; cases h
      | some l => rw [e2] at h; cases h; exact .indirect e e2 rfl
    · rename_i w hw e
      cases h
      exact .direct e (fun n g h => hw n g h)
  · rintro (⟨h1, h2⟩ | ⟨h1, h2, h3⟩)
    · unfold IDoc.find
      rw [h1]
      cases v <;> first | rfl | (rename_i n g; exact absurd rfl (h2 n g))
    · simp only [IDoc.find, h1, h2, h3, Option.map_some]

theorem setCat_only (c : CatDoc) (d : FDict) (h : Spec.IsCatalog c d) (k : Bytes) (v : Var) :
    Spec.OnlyEntry k c (c.setCat (SMap.insert k v d)) d (SMap.insert k v d) :=
  ⟨rfl, ⟨by simp [CatDoc.setCat, IDoc.put], SMap.sorted_insert _ _ _ h.sorted⟩, fun k' hk => SMap.find_insert_ne _ _ hk,
    fun r hr => by simp [CatDoc.setCat, IDoc.put, hr]⟩

theorem setPageMode_eq (c : CatDoc) (m : PageMode) (n : Bytes) (h : Spec.ModeName m n) : c.setPageMode m = c.setCat (SMap.insert kPageMode (.name n) c.cat) := by
  cases h <;> rfl

theorem modeName_iff (n : Bytes) (m : PageMode) :
    (if n = litBytes "UseNone" then .ok .UseNone
    else if n = litBytes "UseThumbs" then .ok .UseThumbs
    else if n = litBytes "UseOutlines" then .ok .UseBookmarks
    else if n = litBytes "FullScreen" then .ok .FullScreen
    else if n = litBytes "UseOC" then .ok .UseOC
    else if n = litBytes "UseAttachments" then .ok .UseAttachments
    else raise .InvalidName : Res PageMode) = .ok m ↔ Spec.ModeName m n := by
  constructor
  · intro h
    repeat' split at h
    all_goals first | (cases h; rename_i e; rw [e]; constructor) | cases h
  · rintro (_ | _) <;> decide

/-- **C180.** Reading the page mode gives the mode whose name the catalog has, directly or through a reference, and `UseNone` when it has none (or the reference leads to nothing): for every catalog and
mode, nothing else is ever given. -/
theorem C180_page_mode_read (c : CatDoc) (d : FDict) (h : Spec.IsCatalog c d) (m : PageMode) :
    c.getPageMode = .ok m ↔ (∃ n, Spec.CatEntry c d kPageMode (.name n) ∧ Spec.ModeName m n) ∨ ((∀ v, ¬ Spec.CatEntry c d kPageMode v) ∧ m = .UseNone) := by
  unfold CatDoc.getPageMode
  rw [cat_eq h]
  cases e : (c.objs.find d kPageMode).map Loaded.var with
  | none =>
    have hn : ∀ v, ¬ Spec.CatEntry c d kPageMode v := by
      intro v hv; rw [(find_entry c d kPageMode v).2 hv] at e; cases e
    constructor
    · intro hm; cases hm; exact Or.inr ⟨hn, rfl⟩
    · rintro (⟨n, h1, -⟩ | ⟨-, rfl⟩)
      · exact absurd h1 (hn _)
      · rfl
  | some v =>
    have hv := (find_entry c d kPageMode v).1 e
    have hu : ∀ w, Spec.CatEntry c d kPageMode w → w = v := by
      intro w hw; have := (find_entry c d kPageMode w).2 hw; rw [e] at this; cases this; rfl
    cases v with
    | name n =>
      dsimp only
      rw [modeName_iff]
      constructor
      · intro hm; exact Or.inl ⟨n, hv, hm⟩
      · rintro (⟨n', h1, h2⟩ | ⟨h1, -⟩)
        · cases hu _ h1; exact h2
        · exact absurd hv (h1 _)
    | _ =>
      constructor
      · intro hm; cases hm
      · rintro (⟨n', h1, -⟩ | ⟨h1, -⟩)
        · cases hu _ h1
        · exact absurd hv (h1 _)

/-- **C180.** Setting a page mode writes its name under /PageMode of the catalog and nothing else, and the mode is read back; `DontCare` changes nothing. -/
theorem C180_page_mode_set (c : CatDoc) (d : FDict) (h : Spec.IsCatalog c d) :
    c.setPageMode .DontCare = c ∧
    ∀ m, m ≠ .DontCare → ∃ n d', Spec.ModeName m n ∧ Spec.OnlyEntry kPageMode c (c.setPageMode m) d d' ∧ SMap.find? kPageMode d' = some (.name n) ∧ (c.setPageMode m).getPageMode = .ok m := by
  refine ⟨rfl, ?_⟩
  intro m hm
  obtain ⟨n, hn⟩ : ∃ n, Spec.ModeName m n := by
    cases m
    · exact absurd rfl hm
    all_goals exact ⟨_, by constructor⟩
  have hs := setCat_only c d h kPageMode (.name n)
  rw [setPageMode_eq c m n hn, cat_eq h]
  refine ⟨n, _, hn, hs, SMap.find_insert_self _ _ _, ?_⟩
  refine (C180_page_mode_read _ _ hs.cat m).2 (Or.inl ⟨n, .direct (SMap.find_insert_self _ _ _) (by intro _ _ h; cases h), hn⟩)

/-- **C180.** Setting a page layout writes its name under /PageLayout of the catalog, `Default` removes the entry, `Ignore` changes nothing; no other entry and no other object changes. -/
theorem C180_page_layout (c : CatDoc) (d : FDict) (h : Spec.IsCatalog c d) :
    c.setPageLayout .Ignore = c ∧
    (∃ d', Spec.OnlyEntry kPageLayout c (c.setPageLayout .Default) d d' ∧ SMap.find? kPageLayout d' = none) ∧
    ∀ l n, Spec.LayoutName l n → ∃ d', Spec.OnlyEntry kPageLayout c (c.setPageLayout l) d d' ∧ SMap.find? kPageLayout d' = some (.name n) := by
  refine ⟨rfl, ⟨SMap.erase kPageLayout d, ⟨rfl, ⟨?_, SMap.sorted_erase _ h.sorted⟩, ?_, ?_⟩, ?_⟩, ?_⟩
  · simp [CatDoc.setPageLayout, CatDoc.setCat, IDoc.put, cat_eq h]
  · intro k' hk; rw [SMap.find_erase _ _ h.sorted, if_neg hk]
  · intro r hr; simp [CatDoc.setPageLayout, CatDoc.setCat, IDoc.put, hr]
  · rw [SMap.find_erase _ _ h.sorted, if_pos rfl]
  · intro l n hl
    refine ⟨SMap.insert kPageLayout (.name n) d, ?_, SMap.find_insert_self _ _ _⟩
    have e : c.setPageLayout l = c.setCat (SMap.insert kPageLayout (.name n) c.cat) := by cases hl <;> rfl
    rw [e, cat_eq h]
    exact setCat_only c d h kPageLayout (.name n)

/-- Every layout has a name but `Ignore` and `Default`. -/
example (l : PageLayout) (h1 : l ≠ .Ignore) (h2 : l ≠ .Default) : ∃ n, Spec.LayoutName l n := by
  cases l <;> first | exact absurd rfl h1 | exact absurd rfl h2 | exact ⟨_, by constructor⟩

/-- The viewer preferences after one was set. -/
structure Spec.PrefSet (w : Bytes) (v : Var) (c c' : CatDoc) (d : FDict) : Prop where
  root : c'.root = c.root
  now : ∃ d' p', Spec.IsCatalog c' d' ∧ Spec.CatEntry c' d' kViewerPreferences (.dict p') ∧ SMap.find? w p' = some v ∧
    (∀ p, Spec.CatEntry c d kViewerPreferences (.dict p) → ∀ k, k ≠ w → SMap.find? k p' = SMap.find? k p) ∧
    ((∀ x, ¬ Spec.CatEntry c d kViewerPreferences x) → ∀ k, k ≠ w → SMap.find? k p' = none) ∧
    (∀ k, k ≠ kViewerPreferences → k ≠ w → SMap.find? k d' = SMap.find? k d)
  objects : ∀ r, r ≠ c.root → (∀ n g, SMap.find? kViewerPreferences d = some (.ref n g) → r ≠ ⟨n, g⟩) → c'.objs r = c.objs r

theorem setPref_ok (c : CatDoc) (d : FDict) (h : Spec.IsCatalog c d) (w : Bytes) (v : Var) (hw : w ≠ kViewerPreferences)
    (hv : (∀ x, ¬ Spec.CatEntry c d kViewerPreferences x) ∨ ∃ p, Spec.CatEntry c d kViewerPreferences (.dict p)) :
    ∃ c', c.setPref w v = .ok c' ∧ Spec.PrefSet w v c c' d := by
  unfold CatDoc.setPref
  rw [cat_eq h]
  have fresh : (∀ x, ¬ Spec.CatEntry c d kViewerPreferences x) → Spec.PrefSet w v c (c.setCat (SMap.insert kViewerPreferences (.dict [(w, v)]) d)) d := by
    intro hn
    have hs := setCat_only c d h kViewerPreferences (.dict [(w, v)])
    refine ⟨rfl, ⟨_, [(w, v)], hs.cat, .direct (SMap.find_insert_self _ _ _) (by intro _ _ h; cases h), by simp [SMap.find?], ?_, ?_, ?_⟩, fun r hr _ => hs.objects r hr⟩
    · intro p hp; exact absurd hp (hn _)
    · intro _ k hk; simp [SMap.find?, hk]
    · intro k hk _; exact hs.entries k hk
  cases e : SMap.find? kViewerPreferences d with
  | none =>
    refine ⟨_, rfl, fresh ?_⟩
    rintro x (⟨h1, -⟩ | ⟨h1, -⟩) <;> rw [e] at h1 <;> cases h1
  | some x =>
    have hdir : ∀ p, x = .dict p → ∃ c', (Except.ok (c.setCat (SMap.insert kViewerPreferences (.dict (SMap.insert w v p)) d)) : Res CatDoc) = .ok c' ∧ Spec.PrefSet w v c c' d := by
      intro p hp
      subst hp
      have hs := setCat_only c d h kViewerPreferences (.dict (SMap.insert w v p))
      refine ⟨_, rfl, rfl, ⟨_, SMap.insert w v p, hs.cat, .direct (SMap.find_insert_self _ _ _) (by intro _ _ h; cases h), SMap.find_insert_self _ _ _, ?_, ?_, ?_⟩, fun r hr _ => hs.objects r hr⟩
      · intro q hq k hk
        have : q = p := by
          rcases hq with ⟨h1, -⟩ | ⟨h1, -⟩
          · rw [e] at h1; cases h1; rfl
          · rw [e] at h1; cases h1
        rw [this]; exact SMap.find_insert_ne _ _ hk
      · intro hn; exact absurd (Spec.CatEntry.direct e (by intro _ _ h; cases h)) (hn _)
      · intro k hk _; exact hs.entries k hk
    cases x with
    | ref n g =>
      dsimp only
      cases e2 : c.objs ⟨n, g⟩ with
      | none =>
        refine ⟨_, rfl, fresh ?_⟩
        rintro x (⟨h1, h2⟩ | ⟨h1, h2⟩)
        · rw [e] at h1; cases h1; exact h2 _ _ rfl
        · rw [e] at h1; cases h1; rw [e2] at h2; cases h2
      | some l =>
        have hen : Spec.CatEntry c d kViewerPreferences l.var := .indirect e e2 rfl
        have hu : ∀ x, Spec.CatEntry c d kViewerPreferences x → x = l.var := by
          rintro x (⟨h1, h2⟩ | ⟨h1, h2, h3⟩)
          · rw [e] at h1; cases h1; exact absurd rfl (h2 _ _)
          · rw [e] at h1; cases h1; rw [e2] at h2; cases h2; exact h3.symm
        obtain ⟨p, hp⟩ : ∃ p, l.var = .dict p := by
          rcases hv with hv | ⟨p, hp⟩
          · exact absurd hen (hv _)
          · exact ⟨p, (hu _ hp).symm⟩
        simp only [hp]
        refine ⟨_, rfl, rfl, ?_, ?_⟩
        · have hl' : (l.withDict (SMap.insert w v p)).var = .dict (SMap.insert w v p) := by cases l <;> rfl
          have hent : ∀ d', SMap.find? kViewerPreferences d' = some (.ref n g) →
              Spec.CatEntry { c with objs := c.objs.put ⟨n, g⟩ (l.withDict (SMap.insert w v p)) } d' kViewerPreferences (.dict (SMap.insert w v p)) := by
            intro d' hd'
            exact .indirect hd' (by simp [IDoc.put]) hl'
          have hold : ∀ q, Spec.CatEntry c d kViewerPreferences (.dict q) → ∀ k, k ≠ w → SMap.find? k (SMap.insert w v p) = SMap.find? k q := by
            intro q hq k hk
            have := hu _ hq
            rw [hp] at this
            cases this
            exact SMap.find_insert_ne _ _ hk
          by_cases hr : c.root = ⟨n, g⟩
          · have hl : l = .plain (.dict d) := by
              have := h.at_
              rw [hr, e2] at this; cases this; rfl
            have hpd : p = d := by rw [hl] at hp; simp only [Loaded.var] at hp; cases hp; rfl
            refine ⟨SMap.insert w v p, SMap.insert w v p, ⟨by simp [IDoc.put, hr, hl, Loaded.withDict], SMap.sorted_insert _ _ _ (hpd ▸ h.sorted)⟩,
              hent _ (by rw [SMap.find_insert_ne _ _ (Ne.symm hw), hpd, e]), SMap.find_insert_self _ _ _, hold, ?_, ?_⟩
            · intro hn; exact absurd hen (hn _)
            · intro k _ hk; rw [SMap.find_insert_ne _ _ hk, hpd]
          · refine ⟨d, SMap.insert w v p, ⟨by simp [IDoc.put, hr, h.at_], h.sorted⟩, hent _ e, SMap.find_insert_self _ _ _, hold, ?_, fun _ _ _ => rfl⟩
            intro hn; exact absurd hen (hn _)
        · intro r _ h2
          have := h2 n g e
          simp [IDoc.put, this]
    | dict p => exact hdir p rfl
    | _ =>
      exfalso
      rcases hv with hv | ⟨p, hp⟩
      · exact hv _ (.direct e (by intro _ _ h; cases h))
      · rcases hp with ⟨h1, -⟩ | ⟨h1, -⟩
        · rw [e] at h1; cases h1
        · rw [e] at h1; cases h1

/-- **C180.** Each call that sets a viewer preference writes its entry with its value into the viewer preferences of the catalog, wherever they are, leaves the other preferences and the other entries of the
catalog alone, and makes the preferences when there are none. -/
theorem C180_preference (c : CatDoc) (d : FDict) (h : Spec.IsCatalog c d) (pc : PrefCall) (w : Bytes) (v : Var) (hp : Spec.PrefEntry pc w v)
    (hv : (∀ x, ¬ Spec.CatEntry c d kViewerPreferences x) ∨ ∃ p, Spec.CatEntry c d kViewerPreferences (.dict p)) :
    ∃ c', c.prefCall pc = .ok c' ∧ Spec.PrefSet w v c c' d := by
  have e : c.prefCall pc = c.setPref w v ∧ w ≠ kViewerPreferences := by cases hp <;> exact ⟨rfl, by decide⟩
  rw [e.1]
  exact setPref_ok c d h w v e.2 hv

/-- What the names of the mode after full screen may be, ISO 32000-1, table 150. -/
inductive Spec.AfterFullScreen : Bytes → Prop
  | none : Spec.AfterFullScreen (litBytes "UseNone")
  | outlines : Spec.AfterFullScreen (litBytes "UseOutlines")
  | thumbs : Spec.AfterFullScreen (litBytes "UseThumbs")
  | oc : Spec.AfterFullScreen (litBytes "UseOC")

/-- **C180** (proved part). With a page mode in the catalog, asking for full screen makes full screen the page mode and the old mode the one to return to.  Missing: `C180_full_screen_false`,
`C180_full_screen_twice_false`. -/
theorem C180_full_screen_partial (c : CatDoc) (d : FDict) (h : Spec.IsCatalog c d) (n : Bytes) (m : PageMode) (hm : Spec.ModeName m n) (he : Spec.CatEntry c d kPageMode (.name n))
    (hv : (∀ x, ¬ Spec.CatEntry c d kViewerPreferences x) ∨ ∃ p, Spec.CatEntry c d kViewerPreferences (.dict p)) :
    ∃ c' d' p, c.setUseFullScreen = .ok c' ∧ c'.getPageMode = .ok .FullScreen ∧ Spec.IsCatalog c' d' ∧ Spec.CatEntry c' d' kViewerPreferences (.dict p) ∧
      SMap.find? kNonFullScreen p = some (.name n) := by
  have hg : c.getPageMode = .ok m := (C180_page_mode_read c d h m).2 (Or.inl ⟨n, he, hm⟩)
  have hmd : m ≠ .DontCare := by cases hm <;> decide
  have hf : (c.objs.find c.cat kPageMode).map Loaded.var = some (.name n) := by rw [cat_eq h]; exact (find_entry c d _ _).2 he
  obtain ⟨c1, e1, hp⟩ := setPref_ok c d h kNonFullScreen (.name n) (by decide) hv
  obtain ⟨d1, p1, hc1, hv1, hw1, -, -, -⟩ := hp.now
  have hs := setCat_only c1 d1 hc1 kPageMode (.name (litBytes "FullScreen"))
  have hset : c.setUseFullScreen = .ok (c1.setPageMode .FullScreen) := by
    simp only [CatDoc.setUseFullScreen, hg, Except.bind, if_pos hmd, hf, e1, Except.map]
  have hmode : (c1.setPageMode .FullScreen).getPageMode = .ok .FullScreen := by
    obtain ⟨_, _, -, -, -, h4⟩ := (C180_page_mode_set c1 d1 hc1).2 .FullScreen (by decide)
    exact h4
  have hq : ∃ p, Spec.CatEntry (c1.setPageMode .FullScreen) (SMap.insert kPageMode (.name (litBytes "FullScreen")) d1) kViewerPreferences (.dict p) ∧
      SMap.find? kNonFullScreen p = some (.name n) := by
    rw [setPageMode_eq c1 .FullScreen _ .full, cat_eq hc1]
    have hk : SMap.find? kViewerPreferences (SMap.insert kPageMode (.name (litBytes "FullScreen")) d1) = SMap.find? kViewerPreferences d1 :=
      SMap.find_insert_ne _ _ (by decide)
    rcases hv1 with ⟨h1, h2⟩ | ⟨h1, h2, h3⟩
    · exact ⟨p1, .direct (hk.trans h1) h2, hw1⟩
    · rename_i n' g l
      by_cases hr : (⟨n', g⟩ : Ref) = c1.root
      · have hl : l = .plain (.dict d1) := by
          have := hc1.at_
          rw [← hr, h2] at this; cases this; rfl
        have hpd : p1 = d1 := by rw [hl] at h3; simp only [Loaded.var] at h3; cases h3; rfl
        refine ⟨_, .indirect (hk.trans h1) (by rw [hr]; exact hs.cat.at_) rfl, ?_⟩
        rw [SMap.find_insert_ne _ _ (by decide), ← hpd]; exact hw1
      · exact ⟨p1, .indirect (hk.trans h1) (by rw [hs.objects _ hr]; exact h2) h3, hw1⟩
  obtain ⟨p, hp1, hp2⟩ := hq
  refine ⟨_, _, p, hset, hmode, ?_, hp1, hp2⟩
  rw [setPageMode_eq c1 .FullScreen _ .full, cat_eq hc1]; exact hs.cat

/-- **C180** fails: for every catalog without a page mode, such as that of every new document, asking for full screen raises an error. -/
theorem C180_full_screen_false (c : CatDoc) (d : FDict) (h : Spec.IsCatalog c d) (hn : ∀ v, ¬ Spec.CatEntry c d kPageMode v) : c.setUseFullScreen = raise .NoObject := by
  have hg : c.getPageMode = .ok .UseNone := (C180_page_mode_read c d h .UseNone).2 (Or.inr ⟨hn, rfl⟩)
  have hf : (c.objs.find c.cat kPageMode).map Loaded.var = none := by
    rw [cat_eq h]
    cases e : (c.objs.find d kPageMode).map Loaded.var with
    | none => rfl
    | some v => exact absurd ((find_entry c d _ _).1 e) (hn v)
  simp only [CatDoc.setUseFullScreen, hg, Except.bind, hf]
  rfl

/-- **C180** fails: with the page mode full screen or attachments (after `SetUseFullScreen` was called before, or `SetPageMode`), asking for full screen names a mode to return to that is not allowed. -/
theorem C180_full_screen_twice_false (c : CatDoc) (d : FDict) (h : Spec.IsCatalog c d) (n : Bytes) (hm : n = litBytes "FullScreen" ∨ n = litBytes "UseAttachments")
    (he : Spec.CatEntry c d kPageMode (.name n))
    (hv : (∀ x, ¬ Spec.CatEntry c d kViewerPreferences x) ∨ ∃ p, Spec.CatEntry c d kViewerPreferences (.dict p)) :
    ∃ c' d' p, c.setUseFullScreen = .ok c' ∧ Spec.IsCatalog c' d' ∧ Spec.CatEntry c' d' kViewerPreferences (.dict p) ∧ SMap.find? kNonFullScreen p = some (.name n) ∧ ¬ Spec.AfterFullScreen n := by
  obtain ⟨m, hmn⟩ : ∃ m, Spec.ModeName m n := by
    rcases hm with rfl | rfl
    · exact ⟨_, .full⟩
    · exact ⟨_, .attachments⟩
  obtain ⟨c', d', p, h1, -, h3, h4, h5⟩ := C180_full_screen_partial c d h n m hmn he hv
  refine ⟨c', d', p, h1, h3, h4, h5, ?_⟩
  intro ha
  have key : ∀ a, Spec.AfterFullScreen a → a = litBytes "UseNone" ∨ a = litBytes "UseOutlines" ∨ a = litBytes "UseThumbs" ∨ a = litBytes "UseOC" := by
    intro a h; cases h <;> simp
  rcases hm with rfl | rfl <;> exact absurd (key _ ha) (by decide)

/-- **C180** (proved part). Metadata set is read back and stored without a filter, in the metadata object of the catalog if it is an object of its own, in a new one if there is none; no other object but the
catalog changes.  Missing: `C180_metadata_direct_false`. -/
theorem C180_metadata_partial (flate : Filt) (c : CatDoc) (d : FDict) (h : Spec.IsCatalog c d) (value : Bytes) (hnew : c.objs c.next = none)
    (hm : SMap.find? kMetadata d = none ∨
      ∃ n g, SMap.find? kMetadata d = some (.ref n g) ∧ (⟨n, g⟩ : Ref) ≠ c.root ∧
        (c.objs ⟨n, g⟩ = none ∨ (∃ q, c.objs ⟨n, g⟩ = some (.plain (.dict q)) ∧ SMap.Sorted q) ∨ ∃ o, c.objs ⟨n, g⟩ = some (.stream o) ∧ o.locked = false ∧ SMap.Sorted o.dict)) :
    ∃ c' d' r o, c.setMetadata flate value = .ok c' ∧ c'.getMetadata flate = .ok value ∧ Spec.IsCatalog c' d' ∧ SMap.find? kMetadata d' = some (.ref r.num r.gen) ∧ c'.objs r = some (.stream o) ∧
      o.buf = value ∧ SMap.find? kFilter o.dict = none ∧ (∀ k, k ≠ kMetadata → SMap.find? k d' = SMap.find? k d) ∧ (∀ q, q ≠ c.root → q ≠ r → c'.objs q = c.objs q) := by
  have hne : c.next ≠ c.root := by
    intro e; have := h.at_; rw [← e, hnew] at this; cases this
  have hs := setCat_only c d h kMetadata (.ref c.next.num c.next.gen)
  have done : ∀ (c' : CatDoc) (d' : FDict) (r : Ref) (o : StObj), c.setMetadata flate value = .ok c' → Spec.IsCatalog c' d' → SMap.find? kMetadata d' = some (.ref r.num r.gen) →
      c'.objs r = some (.stream o) → o.buf = value → o.filters = [] → SMap.find? kFilter o.dict = none → (∀ k, k ≠ kMetadata → SMap.find? k d' = SMap.find? k d) →
      (∀ q, q ≠ c.root → q ≠ r → c'.objs q = c.objs q) →
      ∃ c' d' r o, c.setMetadata flate value = .ok c' ∧ c'.getMetadata flate = .ok value ∧ Spec.IsCatalog c' d' ∧ SMap.find? kMetadata d' = some (.ref r.num r.gen) ∧ c'.objs r = some (.stream o) ∧
      o.buf = value ∧ SMap.find? kFilter o.dict = none ∧ (∀ k, k ≠ kMetadata → SMap.find? k d' = SMap.find? k d) ∧ (∀ q, q ≠ c.root → q ≠ r → c'.objs q = c.objs q) := by
    intro c' d' r o h1 h2 h3 h4 h5 h6 h7 h8 h9
    refine ⟨c', d', r, o, h1, ?_, h2, h3, h4, h5, h7, h8, h9⟩
    have e : c'.objs.find c'.cat kMetadata = some (.stream o) := by
      rw [cat_eq h2]; simp only [IDoc.find, h3]; exact h4
    simp only [CatDoc.getMetadata, e, StObj.copyTo, h6, if_true, h5]
  have fresh : c.setMetadata flate value = .ok
      { (c.setCat (SMap.insert kMetadata (.ref c.next.num c.next.gen) d)) with
        objs := ((c.setCat (SMap.insert kMetadata (.ref c.next.num c.next.gen) d)).objs).put c.next (.stream ⟨SMap.erase kFilter newMetadata, value, [], false⟩) } →
      ∃ c' d' r o, c.setMetadata flate value = .ok c' ∧ c'.getMetadata flate = .ok value ∧ Spec.IsCatalog c' d' ∧ SMap.find? kMetadata d' = some (.ref r.num r.gen) ∧ c'.objs r = some (.stream o) ∧
      o.buf = value ∧ SMap.find? kFilter o.dict = none ∧ (∀ k, k ≠ kMetadata → SMap.find? k d' = SMap.find? k d) ∧ (∀ q, q ≠ c.root → q ≠ r → c'.objs q = c.objs q) := by
    intro e
    refine done _ _ c.next _ e ⟨?_, hs.cat.sorted⟩ (SMap.find_insert_self _ _ _) (by simp [IDoc.put]; rfl) rfl rfl (show SMap.find? kFilter (SMap.erase kFilter newMetadata) = none from rfl) hs.entries ?_
    · simp only [IDoc.put, CatDoc.setCat]
      rw [if_neg (Ne.symm hne), if_pos trivial]
    · intro q h1 h2; simp [IDoc.put, CatDoc.setCat, h1, h2]
  rcases hm with hm | ⟨n, g, hm, hr, hm2⟩
  · exact fresh (by simp only [CatDoc.setMetadata, cat_eq h, hm])
  · rcases hm2 with hm2 | ⟨q, hm2, hq⟩ | ⟨o, hm2, ho, hq⟩
    · exact fresh (by simp only [CatDoc.setMetadata, cat_eq h, hm, hm2])
    · refine done { c with objs := c.objs.put ⟨n, g⟩ (.stream ⟨SMap.erase kFilter q, value, [], false⟩) } d ⟨n, g⟩ _ ?_ ⟨?_, h.sorted⟩ hm (by simp [IDoc.put]; rfl) rfl rfl ?_ (fun _ _ => rfl) ?_
      · simp only [CatDoc.setMetadata, cat_eq h, hm, hm2]
      · simp only [IDoc.put, if_neg (Ne.symm hr), h.at_]
      · rw [SMap.find_erase _ _ hq, if_pos rfl]
      · intro q' h1 h2; simp [IDoc.put, h2]
    · have eo : o.output flate [] false [value] = (.ok (), ⟨SMap.erase kFilter o.dict, value, [], false⟩) := by
        simp [StObj.output, ho, encodePieces, setFilterKey, filterNames]
      refine done { c with objs := c.objs.put ⟨n, g⟩ (.stream ⟨SMap.erase kFilter (SMap.erase kFilter o.dict), value, [], false⟩) } d ⟨n, g⟩ _ ?_ ⟨?_, h.sorted⟩ hm (by simp [IDoc.put]; rfl) rfl rfl ?_ (fun _ _ => rfl) ?_
      · simp only [CatDoc.setMetadata, cat_eq h, hm, hm2, eo]
      · simp only [IDoc.put, if_neg (Ne.symm hr), h.at_]
      · rw [SMap.find_erase _ _ (SMap.sorted_erase _ hq), if_pos rfl]
      · intro q' h1 h2; simp [IDoc.put, h2]

/-- **C180** (proved part). Whatever filters the metadata stream is written with, the metadata read are the bytes that were written, not the encoded ones. -/
theorem C180_metadata_read_partial (flate : Filt) (hfl : RoundTrips flate.enc flate.dec) (c : CatDoc) (d : FDict) (h : Spec.IsCatalog c d) (n g : Nat)
    (hm : SMap.find? kMetadata d = some (.ref n g)) (hr : (⟨n, g⟩ : Ref) ≠ c.root) (o : StObj) (hlk : o.locked = false) (hs : SMap.Sorted o.dict)
    (hp : SMap.find? kDecodeParms o.dict = none) (old : Bytes) (hold : o.copyTo flate = .ok old) (u : StreamUse) (hu : ∀ f ∈ u.filters, Spec.Encodable f) :
    ∃ o', o.output flate u.filters u.append u.pieces = (.ok (), o') ∧
      ({ c with objs := c.objs.put ⟨n, g⟩ (.stream o') } : CatDoc).getMetadata flate = .ok ((if u.append then old else []) ++ u.pieces.flatten) := by
  obtain ⟨o', e1, e2, -⟩ := C88_use_partial flate hfl o hlk hs hp u hu old hold
  refine ⟨o', e1, ?_⟩
  have hc : Spec.IsCatalog ({ c with objs := c.objs.put ⟨n, g⟩ (.stream o') } : CatDoc) d :=
    ⟨by simp only [IDoc.put]; rw [if_neg (Ne.symm hr)]; exact h.at_, h.sorted⟩
  have e : (c.objs.put ⟨n, g⟩ (.stream o')).find ({ c with objs := c.objs.put ⟨n, g⟩ (.stream o') } : CatDoc).cat kMetadata = some (.stream o') := by
    rw [cat_eq hc]; simp only [IDoc.find, hm, IDoc.put, if_true]
  simp only [CatDoc.getMetadata, e, e2]

/-- **C180** fails: when the catalog holds its metadata as a direct dictionary, the metadata that is set is in no object of the document: what a reader of the document finds is empty. -/
theorem C180_metadata_direct_false (flate : Filt) (c : CatDoc) (d : FDict) (h : Spec.IsCatalog c d) (q : FDict) (hm : SMap.find? kMetadata d = some (.dict q)) (value : Bytes) (hv : value ≠ []) :
    ∃ c', c.setMetadata flate value = .ok c' ∧ (∀ r, r ≠ c.root → c'.objs r = c.objs r) ∧ c'.getMetadata flate = .ok [] ∧ c'.getMetadata flate ≠ .ok value := by
  have hs := setCat_only c d h kMetadata (.dict (SMap.erase kFilter q))
  have e : (c.setCat (SMap.insert kMetadata (.dict (SMap.erase kFilter q)) d)).getMetadata flate = .ok [] := by
    simp only [CatDoc.getMetadata, cat_eq hs.cat, IDoc.find, SMap.find_insert_self]
  refine ⟨_, by simp only [CatDoc.setMetadata, cat_eq h, hm], hs.objects, e, ?_⟩
  rw [e]
  intro h; cases h; exact hv rfl

/-- Non-vacuity: a catalog with a page mode, preferences in an object of their own and a metadata stream. -/
example : let c : CatDoc := ⟨fun r => if r = ⟨1, 0⟩ then some (.plain (.dict [(kMetadata, .ref 3 0), (kPageMode, .name (litBytes "UseOutlines")), (kViewerPreferences, .ref 2 0)]))
      else if r = ⟨2, 0⟩ then some (.plain (.dict [(litBytes "FitWindow", .bool false)])) else if r = ⟨3, 0⟩ then some (.stream ⟨[], [1], [], false⟩) else none, ⟨1, 0⟩, ⟨4, 0⟩⟩
    let d : FDict := [(kMetadata, .ref 3 0), (kPageMode, .name (litBytes "UseOutlines")), (kViewerPreferences, .ref 2 0)]
    Spec.IsCatalog c d ∧ Spec.CatEntry c d kPageMode (.name (litBytes "UseOutlines")) ∧ Spec.CatEntry c d kViewerPreferences (.dict [(litBytes "FitWindow", .bool false)]) ∧ c.objs c.next = none := by
  refine ⟨⟨by simp, by decide⟩, .direct (by rfl) (by intro _ _ h; cases h), .indirect (n := 2) (g := 0) (by rfl) (by simp; rfl) rfl, by simp⟩

end Pdfmm
