import Verif.Save.Save
/-
C118: `SetPdfVersion`, `Save` and `SaveUpdate`.
-/
set_option autoImplicit false
namespace Pdfmm

open Spec

/-- The enumerator of a version, `src/pdfmm/base/PdfDeclarations.h:67-79`: `1.4` is 14. -/
def verCode : Bytes → Nat
  | [a, _, b] => 10 * (a.toNat - 48) + (b.toNat - 48)
  | _ => 0

/-- `AddKey` on the dictionary of an object with a dictionary, which makes the object dirty
(`src/pdfmm/base/PdfDictionary.cpp:96-121`). -/
def DocObj.addKey (k : Bytes) (v : Var) (o : DocObj) : DocObj :=
  match o.obj with
  | .plain (.dict c) => { o with obj := .plain (.dict (SMap.insert k v c)), dirty := true }
  | .stream s => { o with obj := .stream { s with dict := SMap.insert k v s.dict }, dirty := true }
  | .plain _ => o

/-- `GetCatalog().GetDictionary().AddKey("Version", …)`, `src/pdfmm/base/PdfMemDocument.cpp:284`, for a catalog that is
an indirect object. -/
def setCatalogVersion (d : SaveIn) : SaveIn :=
  match SMap.find? kRoot d.trailer with
  | some (.ref n g) =>
    { d with objs := d.objs.map (fun o => if o.ref = ⟨n, g⟩ then o.addKey nVersion (.name d.version) else o) }
  | _ => d

/-- The version step of `SaveUpdate`, `src/pdfmm/base/PdfMemDocument.cpp:279-285`; `init` is `m_InitialVersion`. -/
def versionStep (init : Bytes) (d : SaveIn) : Res SaveIn :=
  if verCode init < verCode d.version then
    if verCode d.version < 10 ∨ verCode d.version > 17 then raise .ValueOutOfRange
    else .ok (setCatalogVersion d)
  else .ok d

/-- `SaveUpdate`, `src/pdfmm/base/PdfMemDocument.cpp:265-297`, from the creation of the writer on; the device holds
`start` bytes. -/
def saveUpdate (env : SaveEnv) (init : Bytes) (start : Nat) (d : SaveIn) : Res Bytes :=
  match versionStep init d with
  | .error e => .error e
  | .ok d' => writeFile env true start d'

/-! ### Lemmas -/

theorem DocObj.addKey_ref (k : Bytes) (v : Var) (o : DocObj) : (o.addKey k v).ref = o.ref := by
  unfold DocObj.addKey
  split <;> rfl

theorem setCatalogVersion_refs (d : SaveIn) : (setCatalogVersion d).objs.map (·.ref) = d.objs.map (·.ref) := by
  unfold setCatalogVersion
  split
  · simp only [List.map_map]
    apply List.map_congr_left
    intro o _
    simp only [Function.comp_apply]
    split
    · exact DocObj.addKey_ref _ _ _
    · rfl
  · rfl

theorem setCatalogVersion_fields (d : SaveIn) : (setCatalogVersion d).free = d.free ∧ (setCatalogVersion d).trailer = d.trailer ∧
    (setCatalogVersion d).prev = d.prev := by
  unfold setCatalogVersion
  split <;> exact ⟨rfl, rfl, rfl⟩

theorem DocObj.addKey_clean {k : Bytes} {v : Var} {o : DocObj} (h : (o.addKey k v).dirty = false) : o.addKey k v = o := by
  unfold DocObj.addKey at h ⊢
  split at h
  · cases h
  · cases h
  · rfl

/-- What was clean afterwards is as it was before. -/
theorem setCatalogVersion_clean {d : SaveIn} {o : DocObj} (ho : o ∈ (setCatalogVersion d).objs) (hd : o.dirty = false) :
    o ∈ d.objs := by
  unfold setCatalogVersion at ho
  split at ho
  · obtain ⟨o', ho', e⟩ := List.mem_map.1 ho
    split at e
    · subst e
      rw [DocObj.addKey_clean hd]
      exact ho'
    · rw [← e]; exact ho'
  · exact ho

theorem setCatalogVersion_change {file : Bytes} {ld : LDoc} {d : SaveIn} (h : ChangeOf file ld d) :
    ChangeOf file ld (setCatalogVersion d) := by
  obtain ⟨h1, h2, h3⟩ := setCatalogVersion_fields d
  refine ⟨by rw [h3]; exact h.prev, fun o ho hd => h.clean o (setCatalogVersion_clean ho hd) hd, ?_⟩
  intro r x hx
  have := h.gone r x hx
  have e : (setCatalogVersion d).objs.map (·.ref.num) = d.objs.map (·.ref.num) := by
    have := congrArg (List.map Ref.num) (setCatalogVersion_refs d)
    simpa [List.map_map, Function.comp_def] using this
  rw [e, h1]
  exact this

theorem find_map_ref (f : DocObj → DocObj) (hf : ∀ o, (f o).ref = o.ref) (r : Ref) : ∀ l : List DocObj,
    (l.map f).find? (fun o => decide (o.ref = r)) = (l.find? (fun o => decide (o.ref = r))).map f
  | [] => rfl
  | o :: l => by
    rw [List.map_cons, List.find?_cons, List.find?_cons, hf o]
    split
    · rfl
    · exact find_map_ref f hf r l

theorem setCatalogVersion_catalog {d : SaveIn} {n g : Nat} (hr : SMap.find? kRoot d.trailer = some (.ref n g))
    {c : List (Bytes × Var)} (hc : catalogOf d = some c) :
    catalogOf (setCatalogVersion d) = some (SMap.insert nVersion (.name d.version) c) := by
  have hr' : SMap.find? kRoot (setCatalogVersion d).trailer = some (.ref n g) := by
    rw [(setCatalogVersion_fields d).2.1]; exact hr
  rw [catalogOf, hr] at hc
  rw [catalogOf, hr']
  have ho : (setCatalogVersion d).objs = d.objs.map (fun o => if o.ref = ⟨n, g⟩ then o.addKey nVersion (.name d.version) else o) := by
    unfold setCatalogVersion
    rw [hr]
  dsimp only at hc ⊢
  rw [ho, find_map_ref _ (by intro o; split; exact DocObj.addKey_ref _ _ _; rfl)]
  cases hf : d.objs.find? (fun o => decide (o.ref = ⟨n, g⟩)) with
  | none => rw [hf] at hc; cases hc
  | some o =>
    rw [hf] at hc
    have hoe : o.ref = ⟨n, g⟩ := by simpa using List.find?_some hf
    simp only [Option.map_some] at hc ⊢
    rw [if_pos hoe]
    unfold DocObj.addKey
    cases hob : o.obj with
    | plain v =>
      rw [hob] at hc
      cases v with
      | dict c' => cases hc; rfl
      | _ => cases hc
    | stream s => rw [hob] at hc; cases hc; rfl

/-! ### C118 -/

/-- C118: a full save keeps the version of the document if the catalog gives none or the same. -/
theorem C118_save_version_partial (env : SaveEnv) (d : SaveIn) (hd : CanSave env false d) (hp : d.prev = 0) (txt : Bytes)
    (hw : writeFile env false 0 d = .ok txt) (hlen : txt.length < 10000000000)
    (hc : ∀ w, (catalogOf d).bind ownVersion = some w → w = d.version) :
    ∃ ld, loadFile {} txt = .ok ld ∧ ld.version = d.version := by
  obtain ⟨txt', h1, h2⟩ := C116_save_load_partial env d hd hp
  rw [hw] at h1
  cases h1
  obtain ⟨ld, h3, h4⟩ := h2 hlen
  refine ⟨ld, h3, ?_⟩
  rw [h4.version]
  cases h : (catalogOf d).bind ownVersion with
  | none => rfl
  | some w => exact hc w h

/-- Version 1.5 in the catalog and the document. -/
example : ∃ txt, CanSave (exEnv hexFilt) false (exDoc 53 true 0 [65]) ∧ writeFile (exEnv hexFilt) false 0 (exDoc 53 true 0 [65]) = .ok txt ∧
    txt.length < 10000000000 ∧ ∀ w, (catalogOf (exDoc 53 true 0 [65])).bind ownVersion = some w → w = [49, 46, 53] := by
  obtain ⟨t, ht, hl⟩ := exDoc_length hexFilt 53
  refine ⟨t, exDoc_canSave _ _ (by decide) (by decide) _ _ _ (by omega) _, ht, by omega, ?_⟩
  have : (catalogOf (exDoc 53 true 0 [65])).bind ownVersion = some [49, 46, 53] := by rfl
  rw [this]
  rintro w h
  cases h
  rfl

/-- C118 is false of a full save with another version in the catalog: that one is loaded. -/
theorem C118_save_version_false (env : SaveEnv) (d : SaveIn) (hd : CanSave env false d) (hp : d.prev = 0) (txt : Bytes)
    (hw : writeFile env false 0 d = .ok txt) (hlen : txt.length < 10000000000) (w : Bytes)
    (hc : (catalogOf d).bind ownVersion = some w) (hne : w ≠ d.version) :
    ∃ ld, loadFile {} txt = .ok ld ∧ ld.version = w ∧ ld.version ≠ d.version := by
  obtain ⟨txt', h1, h2⟩ := C116_save_load_partial env d hd hp
  rw [hw] at h1
  cases h1
  obtain ⟨ld, h3, h4⟩ := h2 hlen
  have : ld.version = w := by rw [h4.version, hc]; rfl
  exact ⟨ld, h3, this, by rw [this]; exact hne⟩

example : ∃ txt, CanSave (exEnv hexFilt) false (exDoc 52 true 0 [65]) ∧ writeFile (exEnv hexFilt) false 0 (exDoc 52 true 0 [65]) = .ok txt ∧
    txt.length < 10000000000 ∧ (catalogOf (exDoc 52 true 0 [65])).bind ownVersion = some [49, 46, 53] := by
  obtain ⟨t, ht, hl⟩ := exDoc_length hexFilt 52
  exact ⟨t, exDoc_canSave _ _ (by decide) (by decide) _ _ _ (by omega) _, ht, by omega, rfl⟩

/-- C118: when the version is raised (up to 1.7) and the document updated, the new version is loaded. -/
theorem C118_update_version_partial (env : SaveEnv) {file : Bytes} {d0 : SaveIn} {n : Nat} {v0 : Bytes}
    (h : History file d0 n v0) (hn : n ≤ 125) {ld : LDoc} (hld : loadFile {} file = .ok ld) (d : SaveIn)
    (hch : ChangeOf file ld d) (hd : CanSave env true (setCatalogVersion d)) (hv : IsPdfVersion d.version)
    (hlt : verCode ld.version < verCode d.version) (hle : d.version ≠ [50, 46, 48]) (num gen : Nat)
    (hroot : SMap.find? kRoot d.trailer = some (.ref num gen)) (hcat : catalogOf d ≠ none) :
    ∃ upd, saveUpdate env ld.version file.length d = .ok upd ∧ ((file ++ upd).length < 10000000000 →
      ∃ ld2, loadFile {} (file ++ upd) = .ok ld2 ∧ ld2.version = d.version) := by
  have hcode : 10 ≤ verCode d.version ∧ verCode d.version ≤ 17 := by
    rcases hv with ⟨k, h1, h2, e⟩ | e
    · rw [e]
      have e1 : (ch '1').toNat = 49 := by decide
      simp only [verCode, e1]
      omega
    · exact absurd e hle
  have hpos : 0 < file.length := by
    obtain ⟨_, off, E, F, offs, hc⟩ := history_chain h
    have := hc.range off hc.mem
    omega
  obtain ⟨upd, _, _, _, hw, _⟩ := rev_write env true file.length (setCatalogVersion d) hd (fun _ => hpos)
  refine ⟨upd, ?_, fun hlen => ?_⟩
  · rw [saveUpdate, versionStep, if_pos hlt, if_neg (by omega)]
    exact hw
  · obtain ⟨ld2, k1, k2⟩ := C117_history_partial
      (.update env file d0 n v0 ld _ upd h hld (setCatalogVersion_change hch) hd hw hlen) (by omega)
    refine ⟨ld2, k1, ?_⟩
    cases hc : catalogOf d with
    | none => exact absurd hc hcat
    | some c =>
      rw [k2.version, setCatalogVersion_catalog hroot hc, Option.bind_some, ownVersion, SMap.find_insert_self]
      show (if IsPdfVersion d.version then some d.version else none).getD v0 = d.version
      rw [if_pos hv]
      rfl

/-- From 1.5 to 1.7. -/
example : ∃ file ld d, History file (exDoc 52 true 0 [65]) 0 [49, 46, 52] ∧ loadFile {} file = .ok ld ∧ ChangeOf file ld d ∧
    CanSave (exEnv hexFilt) true (setCatalogVersion d) ∧ verCode ld.version < verCode d.version ∧
    d.version = [49, 46, 55] ∧ catalogOf d ≠ none := by
  obtain ⟨file, ld, h, hl, hld, h2, ⟨l1, h1⟩, hx0, hx1, honly⟩ := exSecond
  obtain ⟨ld', hld', has⟩ := C117_history_partial h (by omega)
  rw [hld] at hld'
  cases hld'
  refine ⟨file, ld, exDoc 55 true ld.xref [66], h, hld, ⟨rfl, ?_, ?_⟩, ?_, ?_, rfl, by simp [exDoc, catalogOf, SMap.find?, exCatalog, kRoot, kInfo]⟩
  · intro o ho hd
    simp only [exDoc, List.mem_cons, List.not_mem_nil, or_false] at ho
    rcases ho with rfl | rfl <;> cases hd
  · intro r x hrx
    rcases honly r x hrx with rfl | rfl <;> simp [exDoc]
  · have hb := exDoc_canSave hexFilt 55 (by decide) (by decide) true true ld.xref (by omega) [66]
    have e : (setCatalogVersion (exDoc 55 true ld.xref [66])) = { exDoc 55 true ld.xref [66] with
        objs := [⟨⟨1, 0⟩, .plain (.dict [([84, 121, 112, 101], .name [67, 97, 116, 97, 108, 111, 103]), (nVersion, .name [49, 46, 55])]), true⟩,
          ⟨⟨2, 0⟩, .plain (.str [66] false), true⟩] } := by rfl
    rw [e]
    refine ⟨hb.version, hb.sep, ?_, hb.free, hb.distinct, hb.runs, ?_, by simp, hb.root, hb.info, ⟨some [], rfl⟩, hb.hasRoot, ⟨none, rfl⟩, hb.prev⟩
    · intro o ho
      simp only [List.mem_cons, List.not_mem_nil, or_false] at ho
      rcases ho with rfl | rfl <;> exact ⟨by simp, by simp, by simp⟩
    · intro o ho _
      simp only [List.mem_cons, List.not_mem_nil, or_false] at ho
      rcases ho with rfl | rfl
      · refine ⟨.dict _ ⟨by intro p hp; simp only [List.mem_singleton] at hp; subst hp; decide, by simp [SMap.Sorted]⟩ ?_ ?_, by decide⟩
        · intro p hp
          simp only [List.mem_cons, List.not_mem_nil, or_false] at hp
          rcases hp with rfl | rfl <;> exact ⟨by decide, by decide⟩
        · intro p hp
          simp only [List.mem_cons, List.not_mem_nil, or_false] at hp
          rcases hp with rfl | rfl <;> exact .name _ (by decide) (by decide)
      · exact ⟨.str _ _, by simp [nest]⟩
  · have e : (catalogOf (exDoc 52 true 0 [65])).bind ownVersion = some [49, 46, 53] := by rfl
    rw [has.version, e]
    show 15 < 17
    decide

/-- C118 is false of 2.0: the update raises, and nothing is written. -/
theorem C118_update_v20_false (env : SaveEnv) (init : Bytes) (start : Nat) (d : SaveIn) (hv : d.version = [50, 46, 48])
    (hi : IsPdfVersion init) (hne : init ≠ [50, 46, 48]) :
    saveUpdate env init start d = raise .ValueOutOfRange := by
  have h1 : verCode d.version = 20 := by rw [hv]; decide
  have h2 : verCode init ≤ 17 := by
    rcases hi with ⟨k, h1, h2, e⟩ | e
    · rw [e]
      have e1 : (ch '1').toNat = 49 := by decide
      simp only [verCode, e1]
      omega
    · exact absurd e hne
  rw [saveUpdate, versionStep, if_pos (by omega), if_pos (by omega)]

/-- C118 is false of a lower version: the update keeps the old one. -/
theorem C118_update_lower_false (env : SaveEnv) {file : Bytes} {d0 : SaveIn} {n : Nat} {v0 : Bytes}
    (h : History file d0 n v0) (hn : n ≤ 125) {ld : LDoc} (hld : loadFile {} file = .ok ld) (d : SaveIn)
    (hch : ChangeOf file ld d) (hd : CanSave env true d) (hlt : verCode d.version < verCode ld.version)
    (hcat : (catalogOf d).bind ownVersion = (catalogOf d0).bind ownVersion) :
    ∃ upd, saveUpdate env ld.version file.length d = .ok upd ∧ ((file ++ upd).length < 10000000000 →
      ∃ ld2, loadFile {} (file ++ upd) = .ok ld2 ∧ ld2.version = ld.version ∧ ld2.version ≠ d.version) := by
  have hpos : 0 < file.length := by
    obtain ⟨_, off, E, F, offs, hc⟩ := history_chain h
    have := hc.range off hc.mem
    omega
  obtain ⟨upd, _, _, _, hw, _⟩ := rev_write env true file.length d hd (fun _ => hpos)
  refine ⟨upd, ?_, fun hlen => ?_⟩
  · rw [saveUpdate, versionStep, if_neg (by omega)]
    exact hw
  · obtain ⟨ld2, k1, k2⟩ := C117_history_partial (.update env file d0 n v0 ld _ upd h hld hch hd hw hlen) (by omega)
    obtain ⟨ld', k3, k4⟩ := C117_history_partial h (by omega)
    rw [hld] at k3
    cases k3
    have e : ld2.version = ld.version := by rw [k2.version, k4.version, hcat]
    refine ⟨ld2, k1, e, ?_⟩
    rw [e]
    intro e'
    rw [e'] at hlt
    omega

/-- From 1.5 to 1.4. -/
example : ∃ file ld d, History file (exDoc 52 true 0 [65]) 0 [49, 46, 52] ∧ loadFile {} file = .ok ld ∧ ChangeOf file ld d ∧
    CanSave (exEnv hexFilt) true d ∧ verCode d.version < verCode ld.version ∧
    (catalogOf d).bind ownVersion = (catalogOf (exDoc 52 true 0 [65])).bind ownVersion := by
  obtain ⟨file, ld, h, hl, hld, h2, ⟨l1, h1⟩, hx0, hx1, honly⟩ := exSecond
  obtain ⟨ld', hld', has⟩ := C117_history_partial h (by omega)
  rw [hld] at hld'
  cases hld'
  refine ⟨file, ld, exDoc 52 true ld.xref [66], h, hld, ⟨rfl, ?_, ?_⟩,
    exDoc_canSave hexFilt 52 (by decide) (by decide) true true ld.xref (by omega) [66], ?_, rfl⟩
  · intro o ho hd
    simp only [exDoc, List.mem_cons, List.not_mem_nil, or_false] at ho
    rcases ho with rfl | rfl <;> cases hd
  · intro r x hrx
    rcases honly r x hrx with rfl | rfl <;> simp [exDoc]
  · have e : (catalogOf (exDoc 52 true 0 [65])).bind ownVersion = some [49, 46, 53] := by rfl
    rw [has.version, e]
    show 14 < 15
    decide

end Pdfmm
