import Verif.Syntax.TokModel
import Verif.Parser.Header
import Verif.Objects.Refs
/-
C119: the vendor extensions of a document, `AddPdfExtension` and its companions.
-/
set_option autoImplicit false
namespace Pdfmm

/-- `Extensions`, `BaseVersion`, `ExtensionLevel` and `ns`. -/
def xExtensions : Bytes := [69, 120, 116, 101, 110, 115, 105, 111, 110, 115]
def xBaseVersion : Bytes := [66, 97, 115, 101, 86, 101, 114, 115, 105, 111, 110]
def xLevel : Bytes := [69, 120, 116, 101, 110, 115, 105, 111, 110, 76, 101, 118, 101, 108]
def xNs : Bytes := [110, 115]

/-- What the calls see: the catalog, the indirect objects and `m_Version`. -/
structure ExtDoc where
  catalog : List (Bytes × Var)
  objs : List (Ref × Var)
  version : Bytes

/-- The object with a reference. -/
def extObj (r : Ref) : List (Ref × Var) → Option Var
  | [] => none
  | p :: l => if p.1 = r then some p.2 else extObj r l

/-- The object with a reference gets another value. -/
def extSet (r : Ref) (v : Var) : List (Ref × Var) → List (Ref × Var)
  | [] => []
  | p :: l => if p.1 = r then (p.1, v) :: l else p :: extSet r v l

/-- `FindKey`, `src/pdfmm/base/PdfDictionary.cpp:133-146`. -/
def ExtDoc.findKey (d : ExtDoc) (k : Bytes) (l : List (Bytes × Var)) : Option Var :=
  match SMap.find? k l with
  | none => none
  | some (.ref n g) => extObj ⟨n, g⟩ d.objs
  | some v => some v

/-- `GetDictionary`. -/
def Var.getDict : Var → Res (List (Bytes × Var))
  | .dict l => .ok l
  | _ => raise .InvalidDataType

/-- Whether `/ExtensionLevel` is the level, `src/pdfmm/base/PdfMemDocument.cpp:184-186`. -/
def isLevel (level : Int) : Option Var → Bool
  | some (.num n) => n = level
  | _ => false

/-- `HasPdfExtension`, `src/pdfmm/base/PdfMemDocument.cpp:176-191`. -/
def ExtDoc.has (d : ExtDoc) (ns : Bytes) (level : Int) : Res Bool :=
  match d.findKey xExtensions d.catalog with
  | none => .ok false
  | some v =>
    match v.getDict with
    | .error e => .error e
    | .ok l =>
      match d.findKey ns l with
      | none => .ok false
      | some w =>
        match w.getDict with
        | .error e => .error e
        | .ok x => .ok (isLevel level (d.findKey xLevel x))

/-- The dictionary behind `/Extensions` gets another content: the indirect object or the entry of the catalog. -/
def ExtDoc.setExtensions (d : ExtDoc) (l : List (Bytes × Var)) : ExtDoc :=
  match SMap.find? xExtensions d.catalog with
  | some (.ref n g) => { d with objs := extSet ⟨n, g⟩ (.dict l) d.objs }
  | _ => { d with catalog := SMap.insert xExtensions (.dict l) d.catalog }

/-- The new extension, `src/pdfmm/base/PdfMemDocument.cpp:158-161`. -/
def newExtension (version : Bytes) (level : Int) : Var := .dict [(xBaseVersion, .name version), (xLevel, .num level)]

/-- `AddPdfExtension`, `src/pdfmm/base/PdfMemDocument.cpp:152-174`; the version is a known one. -/
def ExtDoc.add (d : ExtDoc) (ns : Bytes) (level : Int) : Res ExtDoc :=
  match d.has ns level with
  | .error e => .error e
  | .ok true => .ok d
  | .ok false =>
    match d.findKey xExtensions d.catalog with
    | some (.dict l) => .ok (d.setExtensions (SMap.insert ns (newExtension d.version level) l))
    | _ => .ok { d with catalog := SMap.insert xExtensions (.dict [(ns, newExtension d.version level)]) d.catalog }

/-- `PdfExtension`. -/
structure Ext where
  ns : Bytes
  version : Bytes
  level : Int
  deriving DecidableEq, Repr

/-- One round of the loop of `GetPdfExtensions`, `src/pdfmm/base/PdfMemDocument.cpp:207-216`. -/
def ExtDoc.extOf (d : ExtDoc) (ns : Bytes) (x : List (Bytes × Var)) : List Ext :=
  match d.findKey xBaseVersion x, d.findKey xLevel x with
  | some (.name v), some (.num n) => if v ∈ versionNames then [⟨ns, v, n⟩] else []
  | _, _ => []

/-- The loop of `GetPdfExtensions`, `src/pdfmm/base/PdfMemDocument.cpp:205-217`. -/
def ExtDoc.listLoop (d : ExtDoc) : List (Bytes × Var) → Res (List Ext)
  | [] => .ok []
  | p :: l =>
    match p.2.getDict with
    | .error e => .error e
    | .ok x =>
      match d.listLoop l with
      | .error e => .error e
      | .ok r => .ok (d.extOf p.1 x ++ r)

/-- `GetPdfExtensions`, `src/pdfmm/base/PdfMemDocument.cpp:197-219`. -/
def ExtDoc.list (d : ExtDoc) : Res (List Ext) :=
  match d.findKey xExtensions d.catalog with
  | none => .ok []
  | some v =>
    match v.getDict with
    | .error e => .error e
    | .ok l => d.listLoop l

/-- `RemovePdfExtension`, `src/pdfmm/base/PdfMemDocument.cpp:225-229`: the key is the literal `"ns"`. -/
def ExtDoc.remove (d : ExtDoc) (ns : Bytes) (level : Int) : Res ExtDoc :=
  match d.has ns level with
  | .error e => .error e
  | .ok false => .ok d
  | .ok true =>
    match d.findKey xExtensions d.catalog with
    | some (.dict l) => .ok (d.setExtensions (SMap.erase xNs l))
    | _ => .error .ub

/-! ### Specification -/

namespace Spec

/-- The extensions of a document in which every extension is stored directly and complete. -/
structure Extensions (d : ExtDoc) (m : List (Bytes × (Bytes × Int))) : Prop where
  sorted : SMap.Sorted m
  versions : ∀ p ∈ m, IsPdfVersion p.2.1
  stored : (SMap.find? xExtensions d.catalog = none ∧ m = []) ∨
    ∃ v, (SMap.find? xExtensions d.catalog = some v) ∧
      (v = .dict (m.map fun p => (p.1, newExtension p.2.1 p.2.2)) ∨
        ∃ n g, v = .ref n g ∧ extObj ⟨n, g⟩ d.objs = some (.dict (m.map fun p => (p.1, newExtension p.2.1 p.2.2))))

/-- What a call of `AddPdfExtension` does to the extensions: a level replaces another level of the same name. -/
def addExt (ns : Bytes) (version : Bytes) (level : Int) (m : List (Bytes × (Bytes × Int))) : List (Bytes × (Bytes × Int)) :=
  if (SMap.find? ns m).map Prod.snd = some level then m else SMap.insert ns (version, level) m

end Spec

open Spec

/-! ### Lemmas -/

def extVar (p : Bytes × (Bytes × Int)) : Bytes × Var := (p.1, newExtension p.2.1 p.2.2)

theorem find_extVar (ns : Bytes) : ∀ m : List (Bytes × (Bytes × Int)),
    SMap.find? ns (m.map extVar) = (SMap.find? ns m).map (fun q => newExtension q.1 q.2)
  | [] => rfl
  | (k, q) :: m => by
    show (if ns = k then some (newExtension q.1 q.2) else SMap.find? ns (m.map extVar)) =
      (if ns = k then some q else SMap.find? ns m).map (fun q => newExtension q.1 q.2)
    by_cases h : ns = k
    · rw [if_pos h, if_pos h]; rfl
    · rw [if_neg h, if_neg h]; exact find_extVar ns m

theorem insert_extVar (ns : Bytes) (v : Bytes) (n : Int) : ∀ m : List (Bytes × (Bytes × Int)),
    SMap.insert ns (newExtension v n) (m.map extVar) = (SMap.insert ns (v, n) m).map extVar
  | [] => rfl
  | (k, q) :: m => by
    show (if ns = k then (ns, newExtension v n) :: m.map extVar else if StrictOrd.lt ns k = true then
        (ns, newExtension v n) :: (k, newExtension q.1 q.2) :: m.map extVar
        else (k, newExtension q.1 q.2) :: SMap.insert ns (newExtension v n) (m.map extVar)) =
      (if ns = k then (ns, (v, n)) :: m else if StrictOrd.lt ns k = true then (ns, (v, n)) :: (k, q) :: m
        else (k, q) :: SMap.insert ns (v, n) m).map extVar
    by_cases h : ns = k
    · rw [if_pos h, if_pos h]; rfl
    · rw [if_neg h, if_neg h]
      by_cases h2 : StrictOrd.lt ns k = true
      · rw [if_pos h2, if_pos h2]; rfl
      · rw [if_neg h2, if_neg h2, List.map_cons]
        exact congrArg _ (insert_extVar ns v n m)

theorem erase_extVar (ns : Bytes) : ∀ m : List (Bytes × (Bytes × Int)),
    SMap.erase ns (m.map extVar) = (SMap.erase ns m).map extVar
  | [] => rfl
  | (k, q) :: m => by
    show (if ns = k then m.map extVar else (k, newExtension q.1 q.2) :: SMap.erase ns (m.map extVar)) =
      (if ns = k then m else (k, q) :: SMap.erase ns m).map extVar
    by_cases h : ns = k
    · rw [if_pos h, if_pos h]
    · rw [if_neg h, if_neg h, List.map_cons]
      exact congrArg _ (erase_extVar ns m)

theorem Spec.Extensions.found {d : ExtDoc} {m : List (Bytes × (Bytes × Int))} (h : Extensions d m) :
    (d.findKey xExtensions d.catalog = none ∧ m = [] ∧ SMap.find? xExtensions d.catalog = none) ∨
      d.findKey xExtensions d.catalog = some (.dict (m.map extVar)) := by
  rcases h.stored with ⟨h1, h2⟩ | ⟨v, h1, h2 | ⟨n, g, h2, h3⟩⟩
  · exact .inl ⟨by rw [ExtDoc.findKey, h1], h2, h1⟩
  · right; rw [ExtDoc.findKey, h1, h2]; rfl
  · right; rw [ExtDoc.findKey, h1, h2]; exact h3

theorem findKey_version (d : ExtDoc) (v : Bytes) (n : Int) :
    d.findKey xBaseVersion [(xBaseVersion, .name v), (xLevel, .num n)] = some (.name v) := by
  have : SMap.find? xBaseVersion [(xBaseVersion, Var.name v), (xLevel, .num n)] = some (.name v) := by rfl
  rw [ExtDoc.findKey, this]

theorem findKey_level (d : ExtDoc) (v : Bytes) (n : Int) :
    d.findKey xLevel [(xBaseVersion, .name v), (xLevel, .num n)] = some (.num n) := by
  have : SMap.find? xLevel [(xBaseVersion, Var.name v), (xLevel, .num n)] = some (.num n) := by rfl
  rw [ExtDoc.findKey, this]

theorem ext_has {d : ExtDoc} {m : List (Bytes × (Bytes × Int))} (h : Extensions d m) (ns : Bytes) (level : Int) :
    d.has ns level = .ok (decide ((SMap.find? ns m).map Prod.snd = some level)) := by
  rw [ExtDoc.has]
  rcases h.found with ⟨h1, h2, _⟩ | h1
  · rw [h1, h2]; rfl
  · rw [h1]
    have e : d.findKey ns (m.map extVar) = (SMap.find? ns m).map (fun q => newExtension q.1 q.2) := by
      rw [ExtDoc.findKey, find_extVar]
      cases SMap.find? ns m with
      | none => rfl
      | some q => rfl
    simp only [Var.getDict]
    rw [e]
    cases SMap.find? ns m with
    | none => rfl
    | some q =>
      show Except.ok (isLevel level (d.findKey xLevel _)) = _
      rw [findKey_level]
      simp [isLevel]

theorem ext_list {d : ExtDoc} {m : List (Bytes × (Bytes × Int))} (h : Extensions d m) :
    d.list = .ok (m.map fun p => ⟨p.1, p.2.1, p.2.2⟩) := by
  have key : ∀ m : List (Bytes × (Bytes × Int)), (∀ p ∈ m, IsPdfVersion p.2.1) →
      d.listLoop (m.map extVar) = .ok (m.map fun p => ⟨p.1, p.2.1, p.2.2⟩) := by
    intro m
    induction m with
    | nil => intro _; rfl
    | cons p m ih =>
      intro hv
      rw [List.map_cons, ExtDoc.listLoop, ih (fun q hq => hv q (List.mem_cons_of_mem _ hq))]
      show (Except.ok (d.extOf p.1 [(xBaseVersion, .name p.2.1), (xLevel, .num p.2.2)] ++ _) : Res (List Ext)) = _
      rw [ExtDoc.extOf, findKey_version, findKey_level]
      have := (versionNames_spec p.2.1).2 (hv p (List.mem_cons_self ..))
      dsimp only
      rw [if_pos this]
      rfl
  rw [ExtDoc.list]
  rcases h.found with ⟨h1, h2, _⟩ | h1
  · rw [h1, h2]; rfl
  · rw [h1]; exact key m h.versions

theorem extObj_set_self {r : Ref} {v w : Var} : ∀ {l : List (Ref × Var)}, extObj r l = some w → extObj r (extSet r v l) = some v
  | [], h => by cases h
  | p :: l, h => by
    rw [extSet]
    split
    · next hp => rw [extObj, if_pos hp]
    · next hp =>
      rw [extObj, if_neg hp] at h
      rw [extObj, if_neg hp]
      exact extObj_set_self h

theorem ext_set {d : ExtDoc} {m m' : List (Bytes × (Bytes × Int))} (h : Extensions d m) (hs : SMap.Sorted m')
    (hv : ∀ p ∈ m', IsPdfVersion p.2.1) (hf : d.findKey xExtensions d.catalog = some (.dict (m.map extVar))) :
    Extensions (d.setExtensions (m'.map extVar)) m' := by
  refine ⟨hs, hv, .inr ?_⟩
  rcases h.stored with ⟨h1, h2⟩ | ⟨v, h1, h2 | ⟨n, g, h2, h3⟩⟩
  · rw [ExtDoc.findKey, h1] at hf; cases hf
  · rw [ExtDoc.setExtensions, h1, h2]
    exact ⟨_, SMap.find_insert_self _ _ _, .inl rfl⟩
  · subst h2
    rw [ExtDoc.setExtensions, h1]
    exact ⟨_, h1, .inr ⟨n, g, rfl, extObj_set_self h3⟩⟩

theorem setExtensions_version (d : ExtDoc) (l : List (Bytes × Var)) : (d.setExtensions l).version = d.version := by
  unfold ExtDoc.setExtensions
  split <;> rfl

/-! ### C119 -/

/-- C119: adding an extension adds or replaces the one of this name; `HasPdfExtension` and `GetPdfExtensions` then
report exactly the extensions of the document. -/
theorem C119_add (d : ExtDoc) (m : List (Bytes × (Bytes × Int))) (h : Extensions d m) (hv : IsPdfVersion d.version)
    (ns : Bytes) (level : Int) :
    ∃ d', d.add ns level = .ok d' ∧ d'.version = d.version ∧ Extensions d' (addExt ns d.version level m) ∧
      d'.list = .ok ((addExt ns d.version level m).map fun p => ⟨p.1, p.2.1, p.2.2⟩) ∧
      d'.has ns level = .ok true ∧
      ∀ ns' level', ns' ≠ ns → d'.has ns' level' = d.has ns' level' := by
  have main : ∃ d', d.add ns level = .ok d' ∧ d'.version = d.version ∧ Extensions d' (addExt ns d.version level m) := by
    rw [ExtDoc.add, ext_has h]
    by_cases hl : (SMap.find? ns m).map Prod.snd = some level
    · rw [addExt, if_pos hl, decide_eq_true hl]
      exact ⟨d, rfl, rfl, h⟩
    · rw [addExt, if_neg hl, decide_eq_false hl]
      have hs := SMap.sorted_insert ns (d.version, level) m h.sorted
      have hvs : ∀ p ∈ SMap.insert ns (d.version, level) m, IsPdfVersion p.2.1 := by
        intro p hp
        rcases SMap.mem_insert hp with rfl | hp
        · exact hv
        · exact h.versions p hp
      dsimp only
      rcases h.found with ⟨h1, h2, h3⟩ | h1
      · rw [h1]
        refine ⟨_, rfl, rfl, hs, hvs, .inr ⟨_, SMap.find_insert_self _ _ _, .inl ?_⟩⟩
        rw [h2]; rfl
      · rw [h1]
        refine ⟨_, rfl, setExtensions_version _ _, ?_⟩
        rw [insert_extVar]
        exact ext_set h hs hvs h1
  obtain ⟨d', h1, h2, h3⟩ := main
  refine ⟨d', h1, h2, h3, ext_list h3, ?_, ?_⟩
  · rw [ext_has h3, addExt]
    split
    · next hl => rw [decide_eq_true hl]
    · rw [SMap.find_insert_self]; simp
  · intro ns' level' hne
    rw [ext_has h3, ext_has h, addExt]
    split
    · rfl
    · rw [SMap.find_insert_ne _ _ hne]

example : Extensions ⟨[], [], [49, 46, 55]⟩ [] := ⟨trivial, by simp, .inl ⟨rfl, rfl⟩⟩

/-- Extensions in an indirect object. -/
example : Extensions ⟨[(xExtensions, .ref 4 0)], [(⟨4, 0⟩, .dict [([65], newExtension [49, 46, 55] 3)])], [49, 46, 55]⟩
    [([65], ([49, 46, 55], 3))] :=
  ⟨⟨by simp, trivial⟩, by simp; exact .inl ⟨55, by decide, by decide, rfl⟩, .inr ⟨_, rfl, .inr ⟨4, 0, rfl, rfl⟩⟩⟩

/-- C119: `HasPdfExtension` says whether the level of the name is the given one. -/
theorem C119_has (d : ExtDoc) (m : List (Bytes × (Bytes × Int))) (h : Extensions d m) (ns : Bytes) (level : Int) :
    ∃ b, d.has ns level = .ok b ∧ (b = true ↔ ∃ v, SMap.find? ns m = some (v, level)) := by
  refine ⟨_, ext_has h ns level, ?_⟩
  cases SMap.find? ns m with
  | none => simp
  | some q => obtain ⟨v, n⟩ := q; simp

/-- C119 is false of `RemovePdfExtension`: the extension stays, unless its name is `ns`. -/
theorem C119_remove_false (d : ExtDoc) (m : List (Bytes × (Bytes × Int))) (h : Extensions d m) (ns : Bytes) (level : Int)
    (hns : ns ≠ [110, 115]) (hh : d.has ns level = .ok true) :
    ∃ d', d.remove ns level = .ok d' ∧ d'.has ns level = .ok true := by
  have hl := hh
  rw [ext_has h] at hl
  rw [ExtDoc.remove, hh]
  dsimp only
  rcases h.found with ⟨h1, h2, h3⟩ | h1
  · rw [h2] at hl; simp [SMap.find?] at hl
  · rw [h1]
    have hx : Extensions (d.setExtensions ((SMap.erase xNs m).map extVar)) (SMap.erase xNs m) :=
      ext_set h (SMap.sorted_erase _ h.sorted) (fun p hp => h.versions p (SMap.mem_erase hp)) h1
    refine ⟨_, rfl, ?_⟩
    rw [erase_extVar, ext_has hx, SMap.find_erase _ _ h.sorted, if_neg (show ¬ ns = xNs from hns)]
    exact hl

/-- ...and the extension `ns`, if there is one, is removed instead. -/
theorem C119_remove_other_false (d : ExtDoc) (m : List (Bytes × (Bytes × Int))) (h : Extensions d m) (ns : Bytes)
    (level level' : Int) (hh : d.has ns level = .ok true) :
    ∃ d', d.remove ns level = .ok d' ∧ d'.has [110, 115] level' = .ok false := by
  have hl := hh
  rw [ext_has h] at hl
  rw [ExtDoc.remove, hh]
  dsimp only
  rcases h.found with ⟨h1, h2, h3⟩ | h1
  · rw [h2] at hl; simp [SMap.find?] at hl
  · rw [h1]
    have hx : Extensions (d.setExtensions ((SMap.erase xNs m).map extVar)) (SMap.erase xNs m) :=
      ext_set h (SMap.sorted_erase _ h.sorted) (fun p hp => h.versions p (SMap.mem_erase hp)) h1
    refine ⟨_, rfl, ?_⟩
    rw [erase_extVar, ext_has hx, SMap.find_erase _ _ h.sorted, if_pos (show [110, 115] = xNs from rfl)]
    rfl

/-- C119 is false of an extension that is an indirect object: `HasPdfExtension` finds it, `GetPdfExtensions` raises. -/
theorem C119_indirect_false (d : ExtDoc) (l : List (Bytes × Var)) (ns : Bytes) (n g : Nat) (x : List (Bytes × Var)) (level : Int)
    (h1 : SMap.find? xExtensions d.catalog = some (.dict l)) (hl : l = [(ns, .ref n g)])
    (h2 : extObj ⟨n, g⟩ d.objs = some (.dict x)) (h3 : SMap.find? xLevel x = some (.num level)) :
    d.has ns level = .ok true ∧ d.list = raise .InvalidDataType := by
  subst hl
  have e : d.findKey xExtensions d.catalog = some (.dict [(ns, .ref n g)]) := by rw [ExtDoc.findKey, h1]
  have e2 : d.findKey ns [(ns, Var.ref n g)] = some (.dict x) := by
    rw [ExtDoc.findKey, show SMap.find? ns [(ns, Var.ref n g)] = some (.ref n g) by simp [SMap.find?]]
    exact h2
  have e3 : d.findKey xLevel x = some (.num level) := by rw [ExtDoc.findKey, h3]
  constructor
  · rw [ExtDoc.has, e]
    simp only [Var.getDict]
    rw [e2]
    simp only [Var.getDict]
    rw [e3]
    simp [isLevel]
  · rw [ExtDoc.list, e]
    rfl

example : ∃ d : ExtDoc, SMap.find? xExtensions d.catalog = some (.dict [([65], .ref 4 0)]) ∧
    extObj ⟨4, 0⟩ d.objs = some (newExtension [49, 46, 55] 3) :=
  ⟨⟨[(xExtensions, .dict [([65], .ref 4 0)])], [(⟨4, 0⟩, newExtension [49, 46, 55] 3)], [49, 46, 55]⟩, rfl, rfl⟩

end Pdfmm
