import Verif.Syntax.TokModel
import Verif.Objects.Refs
import Verif.Base.SMap
import Verif.Fonts.CMapModel
/-
C146: entries of a dictionary inherited through `/Parent`.
-/
set_option autoImplicit false
namespace Pdfmm

/-- The content of a dictionary, `PdfDictionaryMap`, `src/pdfmm/base/PdfDictionary.h:38`. -/
abbrev FDict := List (Bytes × Var)

/-- The indirect objects of the document, by reference (`PdfIndirectObjectList::GetObject`); what the list itself does is the subject of C29 to C32. -/
abbrev FDoc := Ref → Option Var

def keyParent : Bytes := asciiB "Parent"

/-- `FindKey`, `src/pdfmm/base/PdfDictionary.cpp:133-146`: one reference is followed.  The dictionary has an owner in a document. -/
def FDoc.findKey (h : FDoc) (d : FDict) (k : Bytes) : Option Var :=
  match SMap.find? k d with
  | none => none
  | some (.ref n g) => h ⟨n, g⟩
  | some v => some v

/-- `FindKeyParent`, `src/pdfmm/base/PdfDictionary.cpp:148-170`.  `stack` is the number of calls the stack has room for:
there is no other limit in the code, and running out of it is the fault `diverge`. -/
def FDoc.findKeyParent (h : FDoc) (k : Bytes) : Nat → FDict → Res (Option Var)
  | 0, _ => .error .diverge
  | stack + 1, d =>
    match h.findKey d k with
    | some v => .ok (some v)
    | none =>
      match h.findKey d keyParent with
      | some (.dict p) => h.findKeyParent k stack p
      | _ => .ok none

/-- The line of a dictionary: itself, its parent, the parent of that, up to one without a parent. -/
inductive Spec.Lineage (h : FDoc) : FDict → List FDict → Prop
  | root {d : FDict} : (∀ p : FDict, h.findKey d keyParent ≠ some (.dict p)) → Spec.Lineage h d [d]
  | child {d p : FDict} {l : List FDict} : h.findKey d keyParent = some (.dict p) → Spec.Lineage h p l → Spec.Lineage h d (d :: l)

/-- The same, one parent after the other without an end: the parents form a cycle. -/
def Spec.Endless (h : FDoc) (d : FDict) : Prop :=
  ∃ f : Nat → FDict, f 0 = d ∧ ∀ i, h.findKey (f i) keyParent = some (.dict (f (i + 1)))

/-- The parent, if there is one. -/
def FDoc.up (h : FDoc) (d : FDict) : Option FDict :=
  match h.findKey d keyParent with
  | some (.dict p) => some p
  | _ => none

theorem up_some (h : FDoc) (d p : FDict) : h.up d = some p ↔ h.findKey d keyParent = some (.dict p) := by
  rw [FDoc.up]
  split
  · rename_i q hq; rw [hq]; simp
  · rename_i hq
    constructor
    · intro x; cases x
    · intro x; exact absurd x (hq p)

theorem up_none (h : FDoc) (d : FDict) : h.up d = none ↔ ∀ p : FDict, h.findKey d keyParent ≠ some (.dict p) := by
  constructor
  · intro e p hp; rw [(up_some h d p).2 hp] at e; cases e
  · intro e
    cases hu : h.up d with
    | none => rfl
    | some p => exact absurd ((up_some h d p).1 hu) (e p)

/-- `i` parents up. -/
def FDoc.upN (h : FDoc) (d : FDict) : Nat → Option FDict
  | 0 => some d
  | i + 1 => (h.upN d i).bind h.up

theorem upN_shift (h : FDoc) (d p : FDict) (hu : h.up d = some p) : ∀ i, h.upN d (i + 1) = h.upN p i := by
  intro i
  induction i with
  | zero => simp [FDoc.upN, hu]
  | succ i ih => rw [FDoc.upN, ih]; rfl

theorem lineage_of_upN (h : FDoc) : ∀ (n : Nat) (d : FDict), h.upN d n = none → ∃ l, Spec.Lineage h d l := by
  intro n
  induction n with
  | zero => intro d hd; simp [FDoc.upN] at hd
  | succ n ih =>
    intro d hd
    cases hu : h.up d with
    | none => exact ⟨[d], .root ((up_none h d).1 hu)⟩
    | some p =>
      rw [upN_shift h d p hu] at hd
      obtain ⟨l, hl⟩ := ih p hd
      exact ⟨d :: l, .child ((up_some h d p).1 hu) hl⟩

/-- Every dictionary has a line or parents without an end. -/
theorem C146_cases (h : FDoc) (d : FDict) : (∃ l, Spec.Lineage h d l) ∨ Spec.Endless h d := by
  by_cases hn : ∃ n, h.upN d n = none
  · obtain ⟨n, hn⟩ := hn; exact Or.inl (lineage_of_upN h n d hn)
  · have hs : ∀ n, ∃ p, h.upN d n = some p := by
      intro n
      cases e : h.upN d n with
      | none => exact absurd ⟨n, e⟩ hn
      | some p => exact ⟨p, rfl⟩
    obtain ⟨f, hf⟩ : ∃ f : Nat → FDict, ∀ n, h.upN d n = some (f n) := ⟨fun n => (hs n).choose, fun n => (hs n).choose_spec⟩
    refine Or.inr ⟨f, ?_, ?_⟩
    · have := hf 0
      simp only [FDoc.upN] at this
      exact (Option.some.inj this).symm
    · intro i
      have h2 : (h.upN d i).bind h.up = some (f (i + 1)) := hf (i + 1)
      rw [hf i] at h2
      exact (up_some h _ _).1 h2

/-- C146: a value is looked for in the dictionary, then in its parent and so on: the nearest one is given, or none when there is none in the line. -/
theorem C146_inherited_partial (h : FDoc) (k : Bytes) (d : FDict) (l : List FDict) (hl : Spec.Lineage h d l) :
    ∀ stack, l.length ≤ stack → h.findKeyParent k stack d = .ok (l.findSome? (fun a => h.findKey a k)) := by
  induction hl with
  | @root d hr =>
    intro stack hs
    cases stack with
    | zero => simp at hs
    | succ n =>
      rw [FDoc.findKeyParent]
      cases hk : h.findKey d k with
      | some v => simp [hk]
      | none =>
        have : ∀ o, o = h.findKey d keyParent → (match o with | some (.dict p) => h.findKeyParent k n p | _ => .ok none) = (.ok none : Res (Option Var)) := by
          intro o ho
          split
          · rename_i p; exact absurd ho.symm (hr p)
          · rfl
        simpa [hk] using this _ rfl
  | @child d p l hp hl ih =>
    intro stack hs
    cases stack with
    | zero => simp at hs
    | succ n =>
      rw [FDoc.findKeyParent]
      cases hk : h.findKey d k with
      | some v => simp [hk]
      | none =>
        simp only [hp, List.findSome?_cons, hk]
        exact ih n (by simp at hs; omega)

/-- C146: the nearest value is found on any way up, whatever comes above it. -/
theorem C146_nearest (h : FDoc) (k : Bytes) (v : Var) : ∀ (way : List FDict) (last d : FDict),
    (way ++ [last]).head? = some d →
    (∀ (i : Nat) (a b : FDict), (way ++ [last])[i]? = some a → (way ++ [last])[i + 1]? = some b → h.findKey a keyParent = some (.dict b)) →
    (∀ a ∈ way, h.findKey a k = none) → h.findKey last k = some v →
    ∀ stack, way.length < stack → h.findKeyParent k stack d = .ok (some v) := by
  intro way
  induction way with
  | nil =>
    intro last d hd _ _ hv stack hs
    simp at hd; subst hd
    cases stack with
    | zero => simp at hs
    | succ n => rw [FDoc.findKeyParent, hv]
  | cons a way ih =>
    intro last d hd hup hno hv stack hs
    simp at hd; subst hd
    cases stack with
    | zero => simp at hs
    | succ n =>
      have hne : ∃ b, (way ++ [last]).head? = some b := by cases way <;> simp
      obtain ⟨b, hb⟩ := hne
      have hp : h.findKey a keyParent = some (.dict b) := by
        apply hup 0 a b (by simp)
        rw [← hb]
        simp [List.head?_eq_getElem?]
      rw [FDoc.findKeyParent, hno a (by simp)]
      simp only [hp]
      exact ih last b hb (fun i x y hx hy => hup (i + 1) x y (by simpa using hx) (by simpa using hy))
        (fun x hx => hno x (by simp [hx])) hv n (by simp at hs; omega)

/-- C146, what is wrong: with parents in a cycle and no value in it the lookup does not end, whatever room there is. -/
theorem C146_cycle_false (h : FDoc) (k : Bytes) (f : Nat → FDict)
    (hup : ∀ i, h.findKey (f i) keyParent = some (.dict (f (i + 1)))) (hno : ∀ i, h.findKey (f i) k = none) :
    ∀ stack, h.findKeyParent k stack (f 0) = .error .diverge := by
  have : ∀ stack i, h.findKeyParent k stack (f i) = .error .diverge := by
    intro stack
    induction stack with
    | zero => intro i; rfl
    | succ n ih => intro i; rw [FDoc.findKeyParent, hno i]; simp only [hup i]; exact ih (i + 1)
  exact fun stack => this stack 0

/-- C146, what is wrong: an entry that is null, which the standard takes for no entry, hides the inherited value. -/
theorem C146_null_false (h : FDoc) (k : Bytes) (d : FDict) (hk : SMap.find? k d = some .null) (stack : Nat) (hs : 0 < stack) :
    h.findKeyParent k stack d = .ok (some .null) := by
  cases stack with
  | zero => omega
  | succ n => rw [FDoc.findKeyParent, FDoc.findKey, hk]

/-- A field whose type is that of its parent, a parent that is its own parent and an entry that is null. -/
def inheritDoc : FDoc := fun r =>
  if r = ⟨1, 0⟩ then some (.dict [(asciiB "FT", .name (asciiB "Tx")), (asciiB "V", .num 5)])
  else if r = ⟨2, 0⟩ then some (.dict [(asciiB "Parent", .ref 1 0), (asciiB "V", .null)])
  else if r = ⟨3, 0⟩ then some (.dict [(asciiB "Parent", .ref 3 0)])
  else none

example : Spec.Lineage inheritDoc [(asciiB "Parent", .ref 1 0), (asciiB "V", .null)]
    [[(asciiB "Parent", .ref 1 0), (asciiB "V", .null)], [(asciiB "FT", .name (asciiB "Tx")), (asciiB "V", .num 5)]] := by
  refine .child (p := [(asciiB "FT", .name (asciiB "Tx")), (asciiB "V", .num 5)]) rfl (.root ?_)
  intro p hp
  have : FDoc.findKey inheritDoc [(asciiB "FT", .name (asciiB "Tx")), (asciiB "V", .num 5)] keyParent = none := rfl
  rw [this] at hp; cases hp

example : inheritDoc.findKeyParent (asciiB "FT") 2 [(asciiB "Parent", .ref 1 0), (asciiB "V", .null)] = .ok (some (.name (asciiB "Tx"))) := rfl
example : inheritDoc.findKeyParent (asciiB "V") 2 [(asciiB "Parent", .ref 1 0), (asciiB "V", .null)] = .ok (some .null) := rfl
example : inheritDoc.findKey [(asciiB "Parent", .ref 3 0)] keyParent = some (.dict [(asciiB "Parent", .ref 3 0)]) := rfl
example : inheritDoc.findKeyParent (asciiB "V") 1000 [(asciiB "Parent", .ref 3 0)] = .error .diverge :=
  C146_cycle_false inheritDoc (asciiB "V") (fun _ => [(asciiB "Parent", .ref 3 0)]) (fun _ => rfl) (fun _ => rfl) 1000

/-- The dictionary of an indirect object. -/
def FDoc.dict (h : FDoc) (r : Ref) : FDict :=
  match h r with
  | some (.dict d) => d
  | _ => []

/-- An indirect object gets another value. -/
def FDoc.set (h : FDoc) (r : Ref) (v : Var) : FDoc := fun q => if q = r then some v else h q

/-- `GetDictionary().AddKey(key, value)` on an indirect object, `src/pdfmm/base/PdfDictionary.cpp:70-121`. -/
def FDoc.addKey (h : FDoc) (r : Ref) (k : Bytes) (v : Var) : FDoc := h.set r (.dict (SMap.insert k v (h.dict r)))

/-- `GetDictionary().RemoveKey(key)` on an indirect object, `src/pdfmm/base/PdfDictionary.cpp:179-188`. -/
def FDoc.removeKey (h : FDoc) (r : Ref) (k : Bytes) : FDoc := h.set r (.dict (SMap.erase k (h.dict r)))

/-- The line of an indirect object, by references: every parent is given by a reference to a dictionary, up to an object without parent. -/
inductive Spec.Line (h : FDoc) : Ref → List Ref → Prop
  | root {r : Ref} : h r = some (.dict (h.dict r)) → SMap.find? keyParent (h.dict r) = none → Spec.Line h r [r]
  | child {r q : Ref} {l : List Ref} : h r = some (.dict (h.dict r)) → SMap.find? keyParent (h.dict r) = some (.ref q.num q.gen) →
      Spec.Line h q l → Spec.Line h r (r :: l)

theorem Spec.Line.isDict {h : FDoc} {r : Ref} {l : List Ref} (hl : Spec.Line h r l) : h r = some (.dict (h.dict r)) := by
  cases hl <;> assumption

theorem Spec.Line.lineage {h : FDoc} {r : Ref} {l : List Ref} (hl : Spec.Line h r l) : Spec.Lineage h (h.dict r) (l.map h.dict) := by
  induction hl with
  | root _ hp => exact .root (by intro p; rw [FDoc.findKey, hp]; simp)
  | @child r q l _ hp hq ih => exact .child (by rw [FDoc.findKey, hp]; exact hq.isDict) ih

theorem Spec.Line.ne_nil {h : FDoc} {r : Ref} {l : List Ref} (hl : Spec.Line h r l) : ∃ t, l = r :: t := by
  cases hl with
  | root => exact ⟨[], rfl⟩
  | child => exact ⟨_, rfl⟩

/-- What `FindKeyParent` gives on an indirect object. -/
theorem line_findKeyParent {h : FDoc} {r : Ref} {l : List Ref} (hl : Spec.Line h r l) (k : Bytes) (stack : Nat) (hs : l.length ≤ stack) :
    h.findKeyParent k stack (h.dict r) = .ok (l.findSome? (fun a => h.findKey (h.dict a) k)) := by
  rw [C146_inherited_partial h k _ _ hl.lineage stack (by simpa using hs), List.findSome?_map]; rfl

theorem set_dict (h : FDoc) (r q : Ref) (d : FDict) : (h.set r (.dict d)).dict q = if q = r then d else h.dict q := by
  by_cases e : q = r <;> simp [FDoc.dict, FDoc.set, e]

theorem addKey_dict (h : FDoc) (r q : Ref) (k : Bytes) (v : Var) : (h.addKey r k v).dict q = if q = r then SMap.insert k v (h.dict r) else h.dict q :=
  set_dict ..

theorem set_isDict (h : FDoc) (r q : Ref) (d : FDict) (hq : h q = some (.dict (h.dict q))) :
    (h.set r (.dict d)) q = some (.dict ((h.set r (.dict d)).dict q)) := by
  by_cases e : q = r <;> simp [FDoc.dict, FDoc.set, e]
  rw [hq]

/-- The line does not change when another entry does. -/
theorem Spec.Line.addKey {h : FDoc} {q : Ref} {l : List Ref} (hl : Spec.Line h q l) (r : Ref) (k : Bytes) (v : Var) (hk : k ≠ keyParent) :
    Spec.Line (h.addKey r k v) q l := by
  induction hl with
  | @root q hd hp =>
    refine .root (set_isDict h r q _ hd) ?_
    rw [addKey_dict]; split
    · rename_i e; rw [SMap.find_insert_ne _ _ (Ne.symm hk), ← e]; exact hp
    · exact hp
  | @child q p l hd hp _ ih =>
    refine .child (set_isDict h r q _ hd) ?_ ih
    rw [addKey_dict]; split
    · rename_i e; rw [SMap.find_insert_ne _ _ (Ne.symm hk), ← e]; exact hp
    · exact hp

/-- Looking up an entry after another one was changed: only the object changed, which is a dictionary, can look different. -/
theorem findKey_set (h : FDoc) (r : Ref) (d : FDict) (hr : h r = some (.dict (h.dict r))) (a : FDict) (k : Bytes) :
    (h.set r (.dict d)).findKey a k = h.findKey a k ∨
      (h.findKey a k = some (.dict (h.dict r)) ∧ (h.set r (.dict d)).findKey a k = some (.dict d)) := by
  rw [FDoc.findKey, FDoc.findKey]
  split
  · exact Or.inl rfl
  · rename_i n g _
    by_cases e : (⟨n, g⟩ : Ref) = r
    · right; rw [e]; exact ⟨hr, by simp [FDoc.set]⟩
    · left; simp [FDoc.set, e]
  · exact Or.inl rfl

/-- The nearest entry in a line. -/
def Spec.nearest (h : FDoc) (k : Bytes) (l : List Ref) : Option Var := l.findSome? (fun a => h.findKey (h.dict a) k)

/-- A value that is not a dictionary. -/
def Plain : Option Var → Prop
  | some (.dict _) => False
  | _ => True

/-- The nearest entry in a line without the object that was changed. -/
theorem nearest_set_ne (h : FDoc) (r : Ref) (d : FDict) (hr : h r = some (.dict (h.dict r))) (k : Bytes) : ∀ (l : List Ref), r ∉ l →
    Plain (Spec.nearest h k l) → Spec.nearest (h.set r (.dict d)) k l = Spec.nearest h k l := by
  intro l
  induction l with
  | nil => intros; rfl
  | cons q l ih =>
    intro hn hp
    have hq : q ≠ r := fun e => hn (by simp [e])
    have hd : (h.set r (.dict d)).dict q = h.dict q := by rw [set_dict, if_neg hq]
    simp only [Spec.nearest, List.findSome?_cons, hd] at hp ⊢
    cases findKey_set h r d hr (h.dict q) k with
    | inl e =>
      rw [e]
      cases hf : h.findKey (h.dict q) k with
      | some v => rfl
      | none => rw [hf] at hp; exact ih (fun x => hn (by simp [x])) hp
    | inr e => rw [e.1] at hp; exact absurd hp (by simp [Plain])

end Pdfmm
