import Verif.Forms.FieldNames
import Verif.Forms.ChoiceField
/-
C153: fields created on widgets, several of which may share a name.
-/
set_option autoImplicit false
namespace Pdfmm

/-- A field object the form holds, `PdfAcroForm::m_Fields`: the object it is about, whether it knows the form (fields made through the form do, those read from
a file do not, `src/pdfmm/base/PdfField.cpp:375-409`), whether its name is still the raw string of the file, and its kind. -/
structure FormField where
  ref : Ref
  bound : Bool
  raw : Bool
  type : FieldType
  deriving DecidableEq

/-- The document and the fields of its form.  `/Fields` is in step with the fields in memory and the map from references (C152). -/
structure Form where
  heap : FDoc
  fields : List FormField

/-- The keys that stay on the parent, `src/pdfmm/base/PdfField.cpp:194`. -/
def parentKeys : List Bytes := [keyFT, keyFf, keyT, keyValue]

/-- The search for a field with the same name, `src/pdfmm/base/PdfField.cpp:170-183`: a raw string never equals a name (`PdfString::operator==`). -/
def Form.candidate (f : Form) (name : Bytes) : Option FormField :=
  f.fields.find? (fun x => !x.raw && f.heap.getNameRaw x.ref == some name)

/-- The loop that copies keys to the parent, `src/pdfmm/base/PdfField.cpp:810-823`. -/
def moveKeys (fd pd : FDict) : FDict := fd.foldl (fun pd p => if p.1 ∈ parentKeys then SMap.insert p.1 p.2 pd else pd) pd

/-- And the loop that removes them, `src/pdfmm/base/PdfField.cpp:829-830`. -/
def dropKeys (fd : FDict) : FDict := parentKeys.foldl (fun d k => SMap.erase k d) fd

/-- `AddChild`, `src/pdfmm/base/PdfFieldChildrenCollection.cpp:120-132`, with `/Kids` in the parent itself. -/
def FDoc.addKid (h : FDoc) (p w : Ref) : FDoc :=
  match SMap.find? keyFieldKids (h.dict p) with
  | some (.arr l) => h.addKey p keyFieldKids (.arr (l ++ [.ref w.num w.gen]))
  | _ => h.addKey p keyFieldKids (.arr [.ref w.num w.gen])

/-- A widget becomes a kid of a parent with kids, `src/pdfmm/base/PdfField.cpp:212-213`: `parent` is what `GetPtr` gives. -/
def Form.join (f : Form) (stack : Nat) (x : FormField) (w : Ref) (t : FieldType) : Res Form :=
  match f.heap.newField stack w (if x.bound then some x.ref else none) t with
  | .error e => .error e
  | .ok h => .ok { f with heap := (h.set w (.dict (dropKeys (h.dict w)))).addKid x.ref w }

/-- A field without kids becomes the first kid of a new parent `p`, `src/pdfmm/base/PdfField.cpp:195-210`; a field that does not know the form has no pointer to itself. -/
def Form.promote (f : Form) (stack : Nat) (x : FormField) (p : Ref) (t : FieldType) : Res Form :=
  match f.heap.newField stack p none t with
  | .error e => .error e
  | .ok h =>
    if x.bound then
      .ok ⟨(((h.set p (.dict (moveKeys (h.dict x.ref) (h.dict p)))).set x.ref (.dict (dropKeys (h.dict x.ref)))).addKid p x.ref).addKey x.ref keyParent
          (.ref p.num p.gen), f.fields.filter (fun y => y.ref ≠ x.ref) ++ [⟨p, true, false, t⟩]⟩
    else .error .ub

/-- `PdfField::Create(name, widget, type)`, `src/pdfmm/base/PdfField.cpp:161-218`: `w` is the widget, `p` the object a parent gets when one is needed. -/
def Form.create (f : Form) (stack : Nat) (name : Bytes) (w p : Ref) (t : FieldType) : Res Form :=
  if 46 ∈ name then .error .exn
  else
    match f.candidate name with
    | some x =>
      if x.type ≠ t then .error .exn
      else if (SMap.find? keyFieldKids (f.heap.dict x.ref)).isSome then f.join stack x w t
      else
        match f.promote stack x p t with
        | .error e => .error e
        | .ok f => f.join stack ⟨p, true, false, t⟩ w t
    | none =>
      match f.heap.newField stack w none t with
      | .error e => .error e
      | .ok h => .ok ⟨h.addKey w keyT (.str name false), f.fields ++ [⟨w, true, false, t⟩]⟩

/-- A named field: one widget, or a parent and its widgets. -/
structure FieldGroup where
  name : Bytes
  type : FieldType
  root : Ref
  kids : Option (List Ref)
  deriving DecidableEq

/-- The widgets a user made with this name, and all objects. -/
def FieldGroup.widgets (g : FieldGroup) : List Ref := g.kids.getD [g.root]
def FieldGroup.refs (g : FieldGroup) : List Ref := g.root :: g.kids.getD []

/-- The flags in a dictionary. -/
inductive Spec.OwnFlags (d : FDict) : Option (BitVec 64) → Prop
  | absent : SMap.find? keyFf d = none → Spec.OwnFlags d none
  | present (n : Int) : SMap.find? keyFf d = some (.num n) → Spec.OwnFlags d (some (BitVec.ofInt 64 n))

/-- The top of a group carries name, kind and flags. -/
structure Spec.RootOk (h : FDoc) (g : FieldGroup) : Prop where
  dict : h g.root = some (.dict (h.dict g.root))
  sorted : SMap.Sorted (h.dict g.root)
  name : SMap.find? keyT (h.dict g.root) = some (.str g.name false)
  noParent : SMap.find? keyParent (h.dict g.root) = none
  type : ∃ ft f, SMap.find? keyFT (h.dict g.root) = some (.name ft) ∧ Spec.OwnFlags (h.dict g.root) f ∧ typeFor ft (f.getD 0) = g.type
  known : g.type ≠ .unknown

/-- A kid carries the parent and none of what the parent has. -/
structure Spec.KidOk (h : FDoc) (p w : Ref) : Prop where
  dict : h w = some (.dict (h.dict w))
  parent : SMap.find? keyParent (h.dict w) = some (.ref p.num p.gen)
  bare : ∀ k ∈ [keyFT, keyFf, keyT, keyFieldKids], SMap.find? k (h.dict w) = none

/-- The group is in the document. -/
structure Spec.GroupOk (h : FDoc) (g : FieldGroup) : Prop where
  root : Spec.RootOk h g
  kids : match g.kids with
    | none => SMap.find? keyFieldKids (h.dict g.root) = none
    | some ws => SMap.find? keyFieldKids (h.dict g.root) = some (.arr (ws.map (fun w => .ref w.num w.gen))) ∧ ∀ w ∈ ws, Spec.KidOk h g.root w

/-- The form consists of these groups: different names, different objects. -/
structure Spec.FormIs (f : Form) (gs : List FieldGroup) : Prop where
  fields : f.fields = gs.map (fun g => ⟨g.root, true, false, g.type⟩)
  refs : (gs.flatMap FieldGroup.refs).Nodup
  names : (gs.map FieldGroup.name).Nodup
  groups : ∀ g ∈ gs, Spec.GroupOk f.heap g

/-- What creating a field does to the groups. -/
def Spec.createGroup (gs : List FieldGroup) (name : Bytes) (w p : Ref) (t : FieldType) : Option (List FieldGroup) :=
  match gs.find? (fun g => g.name == name) with
  | none => some (gs ++ [⟨name, t, w, none⟩])
  | some g =>
    if g.type ≠ t then none
    else
      match g.kids with
      | none => some (gs.filter (fun x => x.name ≠ name) ++ [⟨name, t, p, some [g.root, w]⟩])
      | some ws => some (gs.map (fun x => if x.name = name then { x with kids := some (ws ++ [w]) } else x))

theorem set_set (h : FDoc) (r : Ref) (u v : Var) : (h.set r u).set r v = h.set r v := by
  funext q; simp only [FDoc.set]; split <;> rfl

theorem set_other (h : FDoc) (r q : Ref) (v : Var) (hq : q ≠ r) : (h.set r v) q = h q := by simp [FDoc.set, hq]

theorem dict_other (h h' : FDoc) (q : Ref) (e : h' q = h q) : h'.dict q = h.dict q := by simp [FDoc.dict, e]

theorem own_flags_line {h : FDoc} {r : Ref} {f : Option (BitVec 64)} (hf : Spec.OwnFlags (h.dict r) f) : Spec.FlagsAre h [r] f := by
  cases hf with
  | absent e => exact .absent (by simp [Spec.nearest, FDoc.findKey, e])
  | present n e => exact .present n (by simp [Spec.nearest, FDoc.findKey, e])

/-- What the constructor of the class changes: the flags, to a number, and the default style. -/
theorem classInit_dict {h : FDoc} {r : Ref} {l : List Ref} (hl : Spec.Line h r l) (f : Option (BitVec 64)) (hf : Spec.FlagsAre h l f) (stack : Nat)
    (hs : l.length ≤ stack) (hsort : SMap.Sorted (h.dict r)) (t : FieldType) :
    ∃ d', h.classInit stack r t = .ok (h.set r (.dict d')) ∧ SMap.Sorted d' ∧ (∀ k, k ≠ keyFf → k ≠ keyDS → SMap.find? k d' = SMap.find? k (h.dict r)) ∧
      (SMap.find? keyFf d' = SMap.find? keyFf (h.dict r) ∨ ∃ n, SMap.find? keyFf d' = some (.num n)) := by
  have hself : h.set r (.dict (h.dict r)) = h := by
    funext q; simp only [FDoc.set]; split
    · rename_i e; rw [e]; exact hl.isDict.symm
    · rfl
  have flag : ∀ v on, ∃ d', h.setFlag stack r v on = .ok (h.set r (.dict d')) ∧ SMap.Sorted d' ∧
      (∀ k, k ≠ keyFf → k ≠ keyDS → SMap.find? k d' = SMap.find? k (h.dict r)) ∧
      (SMap.find? keyFf d' = SMap.find? keyFf (h.dict r) ∨ ∃ n, SMap.find? keyFf d' = some (.num n)) := by
    intro v on
    refine ⟨_, by rw [FDoc.setFlag, getFlags_line hl f hf stack hs]; rfl, SMap.sorted_insert _ _ _ hsort, ?_, Or.inr ⟨_, SMap.find_insert_self ..⟩⟩
    intro k hk _
    exact SMap.find_insert_ne _ _ hk
  have same : ∃ d', (.ok h : Res FDoc) = .ok (h.set r (.dict d')) ∧ SMap.Sorted d' ∧
      (∀ k, k ≠ keyFf → k ≠ keyDS → SMap.find? k d' = SMap.find? k (h.dict r)) ∧
      (SMap.find? keyFf d' = SMap.find? keyFf (h.dict r) ∨ ∃ n, SMap.find? keyFf d' = some (.num n)) :=
    ⟨h.dict r, by rw [hself], hsort, fun _ _ _ => rfl, Or.inl rfl⟩
  cases t with
  | pushButton => exact flag _ _
  | listBox => exact flag _ _
  | comboBox => exact flag _ _
  | textBox =>
    rw [FDoc.classInit]
    split
    · exact same
    · refine ⟨_, rfl, SMap.sorted_insert _ _ _ hsort, ?_, Or.inl (SMap.find_insert_ne _ _ (by decide))⟩
      intro k _ hk
      exact SMap.find_insert_ne _ _ hk
  | _ => exact same

/-- A new field without parent, seen in its dictionary. -/
theorem newField_root (h : FDoc) (r : Ref) (hr : h r = some (.dict (h.dict r))) (hsort : SMap.Sorted (h.dict r)) (hp : SMap.find? keyParent (h.dict r) = none)
    (hff : SMap.find? keyFf (h.dict r) = none) (t : FieldType) (ht : t ≠ .unknown) (stack : Nat) (hs : 0 < stack) :
    ∃ d', h.newField stack r none t = .ok (h.set r (.dict d')) ∧ SMap.Sorted d' ∧
      (∃ ft f, SMap.find? keyFT d' = some (.name ft) ∧ Spec.OwnFlags d' f ∧ typeFor ft (f.getD 0) = t) ∧
      ∀ k, k ≠ keyFT → k ≠ keyFf → k ≠ keyDS → SMap.find? k d' = SMap.find? k (h.dict r) := by
  obtain ⟨h', e1, e2, e3⟩ := C149_created h r hr hp hff t ht stack hs
  -- the dictionary after `init`
  obtain ⟨d1, ft, hd1, hs1, hft, hff1, hk1⟩ : ∃ d1 ft, h.initField r t = .ok (h.set r (.dict d1)) ∧ SMap.Sorted d1 ∧ SMap.find? keyFT d1 = some (.name ft) ∧
      (SMap.find? keyFf d1 = none ∨ ∃ n, SMap.find? keyFf d1 = some (.num n)) ∧
      ∀ k, k ≠ keyFT → k ≠ keyFf → SMap.find? k d1 = SMap.find? k (h.dict r) := by
    cases hi : t.init with
    | none => cases t <;> first | exact absurd rfl ht | (simp [FieldType.init] at hi)
    | some x =>
      obtain ⟨ft, o⟩ := x
      cases o with
      | none =>
        refine ⟨SMap.insert keyFT (.name ft) (h.dict r), ft, by rw [FDoc.initField, hi]; rfl, SMap.sorted_insert _ _ _ hsort, SMap.find_insert_self .., Or.inl ?_, ?_⟩
        · rw [SMap.find_insert_ne _ _ (by decide)]; exact hff
        · intro k hk _; exact SMap.find_insert_ne _ _ hk
      | some f =>
        refine ⟨SMap.insert keyFf (.num f.toInt) (SMap.insert keyFT (.name ft) (h.dict r)), ft, ?_, SMap.sorted_insert _ _ _ (SMap.sorted_insert _ _ _ hsort),
          ?_, Or.inr ⟨_, SMap.find_insert_self ..⟩, ?_⟩
        · rw [FDoc.initField, hi]
          simp only [FDoc.addKey, set_set, set_dict, if_true]
        · rw [SMap.find_insert_ne _ _ (by decide), SMap.find_insert_self]
        · intro k hk hk'; rw [SMap.find_insert_ne _ _ hk', SMap.find_insert_ne _ _ hk]
  have hdd : (h.set r (.dict d1)).dict r = d1 := by rw [set_dict, if_pos rfl]
  have hl1 : Spec.Line (h.set r (.dict d1)) r [r] := by
    refine .root (by rw [hdd]; simp [FDoc.set]) ?_
    rw [hdd, hk1 _ (by decide) (by decide)]; exact hp
  obtain ⟨f1, hf1⟩ : ∃ f1, Spec.OwnFlags d1 f1 := by
    rcases hff1 with e | ⟨n, e⟩
    · exact ⟨_, .absent e⟩
    · exact ⟨_, .present n e⟩
  obtain ⟨d', c1, c2, c3, c4⟩ := classInit_dict hl1 f1 (own_flags_line (by rw [hdd]; exact hf1)) stack (by simp only [List.length_cons, List.length_nil]; omega) (by rw [hdd]; exact hs1) t
  rw [set_set] at c1
  rw [hdd] at c3 c4
  have hnew : h.newField stack r none t = .ok (h.set r (.dict d')) := by
    rw [FDoc.newField, if_neg ht]; simp only [hd1]; exact c1
  rw [hnew] at e1
  have eh := Except.ok.inj e1
  subst eh
  have hft' : SMap.find? keyFT d' = some (.name ft) := by rw [c3 _ (by decide) (by decide)]; exact hft
  obtain ⟨f', hf'⟩ : ∃ f', Spec.OwnFlags d' f' := by
    rcases c4 with e | ⟨n, e⟩
    · rcases hff1 with e0 | ⟨n, e0⟩
      · exact ⟨_, .absent (e.trans e0)⟩
      · exact ⟨_, .present n (e.trans e0)⟩
    · exact ⟨_, .present n e⟩
  have hdd' : (h.set r (.dict d')).dict r = d' := by rw [set_dict, if_pos rfl]
  refine ⟨d', hnew, c2, ⟨ft, f', hft', hf', ?_⟩, ?_⟩
  · -- the kind read back is the kind of this dictionary
    have hnear : Spec.nearest (h.set r (.dict d')) keyFT [r] = some (.name ft) := by simp [Spec.nearest, hdd', FDoc.findKey, hft']
    by_cases hb : ft = asciiB "Btn" ∨ ft = asciiB "Ch"
    · have := fieldType_line e2 _ (.flagged ft f' hnear hb (own_flags_line (by rw [hdd']; exact hf'))) stack (by simp only [List.length_cons, List.length_nil]; omega)
      rw [e3] at this; exact (Except.ok.inj this).symm
    · have := fieldType_line e2 _ (.plain ft hnear hb) stack (by simp only [List.length_cons, List.length_nil]; omega)
      rw [e3] at this
      have h1 : ft ≠ asciiB "Btn" := fun e => hb (Or.inl e)
      have h2 : ft ≠ asciiB "Ch" := fun e => hb (Or.inr e)
      have := Except.ok.inj this
      rw [this, typeFor, typeFor, if_neg h1, if_neg h1, if_neg h2, if_neg h2]
  · intro k hk1' hk2' hk3'
    rw [c3 k hk2' hk3', hk1 k hk1' hk2']

/-- A new field with a parent, seen in its dictionary. -/
theorem newField_kid (h : FDoc) (w p : Ref) (hw : h w = some (.dict (h.dict w))) (hsort : SMap.Sorted (h.dict w)) (hff : SMap.find? keyFf (h.dict w) = none)
    (hpw : p ≠ w) (hp : h p = some (.dict (h.dict p))) (hpp : SMap.find? keyParent (h.dict p) = none) (f : Option (BitVec 64)) (hf : Spec.OwnFlags (h.dict p) f)
    (t : FieldType) (ht : t ≠ .unknown) (stack : Nat) (hs : 2 ≤ stack) :
    ∃ d', h.newField stack w (some p) t = .ok (h.set w (.dict d')) ∧ SMap.Sorted d' ∧ SMap.find? keyParent d' = some (.ref p.num p.gen) ∧
      ∀ k, k ≠ keyParent → k ≠ keyFf → k ≠ keyDS → SMap.find? k d' = SMap.find? k (h.dict w) := by
  obtain ⟨d1, hd1⟩ : ∃ d1, d1 = SMap.insert keyParent (.ref p.num p.gen) (h.dict w) := ⟨_, rfl⟩
  have hdw : (h.set w (.dict d1)).dict w = d1 := by rw [set_dict, if_pos rfl]
  have hdp : (h.set w (.dict d1)).dict p = h.dict p := by rw [set_dict, if_neg hpw]
  have hlp : Spec.Line (h.set w (.dict d1)) p [p] := by
    refine .root (set_isDict h w p _ hp) ?_
    rw [hdp]; exact hpp
  have hl : Spec.Line (h.set w (.dict d1)) w [w, p] := by
    refine .child (q := p) (by rw [hdw]; simp [FDoc.set]) ?_ hlp
    rw [hdw, hd1, SMap.find_insert_self]
  have hnone : SMap.find? keyFf d1 = none := by rw [hd1, SMap.find_insert_ne _ _ (by decide), hff]
  have hfl : Spec.FlagsAre (h.set w (.dict d1)) [w, p] f := by
    cases hf with
    | absent e => exact .absent (by simp [Spec.nearest, hdw, hnone, hdp, FDoc.findKey, e])
    | present n e => exact .present n (by simp [Spec.nearest, hdw, hnone, hdp, FDoc.findKey, e])
  obtain ⟨d', c1, c2, c3, _⟩ := classInit_dict hl f hfl stack (by simp only [List.length_cons, List.length_nil]; omega) (by rw [hdw, hd1]; exact SMap.sorted_insert _ _ _ hsort) t
  rw [set_set] at c1
  rw [hdw] at c3
  refine ⟨d', ?_, c2, ?_, ?_⟩
  · rw [FDoc.newField, if_neg ht]; simp only [FDoc.addKey, ← hd1]; exact c1
  · rw [c3 _ (by decide) (by decide), hd1, SMap.find_insert_self]
  · intro k hk1 hk2 hk3
    rw [c3 k hk2 hk3, hd1, SMap.find_insert_ne _ _ hk1]

theorem sorted_dropKeys (d : FDict) (hs : SMap.Sorted d) : SMap.Sorted (dropKeys d) := by
  simp only [dropKeys, parentKeys, List.foldl_cons, List.foldl_nil]
  exact SMap.sorted_erase _ (SMap.sorted_erase _ (SMap.sorted_erase _ (SMap.sorted_erase _ hs)))

theorem find_dropKeys (d : FDict) (hs : SMap.Sorted d) (k : Bytes) : SMap.find? k (dropKeys d) = if k ∈ parentKeys then none else SMap.find? k d := by
  have h1 := SMap.sorted_erase keyFT hs
  have h2 := SMap.sorted_erase keyFf h1
  have h3 := SMap.sorted_erase keyT h2
  simp only [dropKeys, parentKeys, List.foldl_cons, List.foldl_nil]
  rw [SMap.find_erase _ _ h3, SMap.find_erase _ _ h2, SMap.find_erase _ _ h1, SMap.find_erase _ _ hs]
  simp only [List.mem_cons, List.not_mem_nil, or_false]
  by_cases e1 : k = keyFT
  · simp [e1]
  by_cases e2 : k = keyFf
  · simp [e2]
  by_cases e3 : k = keyT
  · simp [e3]
  by_cases e4 : k = keyValue
  · simp [e4]
  · simp [e1, e2, e3, e4]

theorem find_moveKeys (k : Bytes) : ∀ (fd pd : FDict), SMap.Sorted fd →
    SMap.find? k (moveKeys fd pd) = if k ∈ parentKeys then (SMap.find? k fd).or (SMap.find? k pd) else SMap.find? k pd := by
  intro fd
  induction fd with
  | nil => intro pd _; simp [moveKeys, SMap.find?]
  | cons x fd ih =>
    intro pd hs
    have := ih (if x.1 ∈ parentKeys then SMap.insert x.1 x.2 pd else pd) hs.2
    simp only [moveKeys, List.foldl_cons] at this ⊢
    rw [this]
    by_cases hk : k ∈ parentKeys
    · rw [if_pos hk, if_pos hk, SMap.find?]
      by_cases e : k = x.1
      · have hn : SMap.find? k fd = none := SMap.find_none_of_lt (by rw [e]; exact hs.1)
        rw [hn, if_pos e, if_pos (e ▸ hk), e, SMap.find_insert_self]; rfl
      · rw [if_neg e]
        congr 1
        split
        · exact SMap.find_insert_ne _ _ e
        · rfl
    · rw [if_neg hk, if_neg hk]
      split
      · rename_i hx; exact SMap.find_insert_ne _ _ (fun e => hk (e ▸ hx))
      · rfl

theorem sorted_moveKeys : ∀ (fd pd : FDict), SMap.Sorted pd → SMap.Sorted (moveKeys fd pd) := by
  intro fd
  induction fd with
  | nil => intro pd h; exact h
  | cons x fd ih =>
    intro pd h
    simp only [moveKeys, List.foldl_cons] at ih ⊢
    apply ih
    split
    · exact SMap.sorted_insert _ _ _ h
    · exact h

/-- Adding a kid changes `/Kids` of the parent. -/
theorem addKid_spec (h : FDoc) (p w : Ref) (ws : List Ref)
    (hk : SMap.find? keyFieldKids (h.dict p) = some (.arr (ws.map (fun w => .ref w.num w.gen))) ∨ (ws = [] ∧ SMap.find? keyFieldKids (h.dict p) = none)) :
    h.addKid p w = h.addKey p keyFieldKids (.arr ((ws ++ [w]).map (fun w => .ref w.num w.gen))) := by
  rw [FDoc.addKid]
  rcases hk with e | ⟨e1, e2⟩
  · rw [e]; simp
  · rw [e2, e1]; rfl

/-- Whether a group is in the document depends on its own objects only. -/
theorem groupOk_frame (h h' : FDoc) (g : FieldGroup) (hg : Spec.GroupOk h g) (he : ∀ q ∈ g.refs, h' q = h q) : Spec.GroupOk h' g := by
  have hr := he g.root (by simp [FieldGroup.refs])
  have hd := dict_other h h' _ hr
  refine ⟨⟨?_, ?_, ?_, ?_, ?_, hg.root.known⟩, ?_⟩
  · rw [hr, hd]; exact hg.root.dict
  · rw [hd]; exact hg.root.sorted
  · rw [hd]; exact hg.root.name
  · rw [hd]; exact hg.root.noParent
  · rw [hd]; exact hg.root.type
  · have hk := hg.kids
    cases hks : g.kids with
    | none => simp only [hks] at hk ⊢; rw [hd]; exact hk
    | some ws =>
      simp only [hks] at hk ⊢
      rw [hd]
      refine ⟨hk.1, fun w hw => ?_⟩
      have hwr := he w (by simp [FieldGroup.refs, hks, hw])
      have hwd := dict_other h h' _ hwr
      have hko := hk.2 w hw
      exact ⟨by rw [hwr, hwd]; exact hko.dict, by rw [hwd]; exact hko.parent, by rw [hwd]; exact hko.bare⟩

/-- A new object: a dictionary without anything of a field, as a new widget is. -/
structure Spec.Blank (h : FDoc) (w : Ref) : Prop where
  dict : h w = some (.dict (h.dict w))
  sorted : SMap.Sorted (h.dict w)
  none : ∀ k ∈ [keyFT, keyFf, keyT, keyFieldKids, keyParent], SMap.find? k (h.dict w) = none

theorem ownFlags_congr (d d' : FDict) (f : Option (BitVec 64)) (h : Spec.OwnFlags d f) (e : SMap.find? keyFf d' = SMap.find? keyFf d) : Spec.OwnFlags d' f := by
  cases h with
  | absent x => exact .absent (e.trans x)
  | present n x => exact .present n (e.trans x)

/-- A widget joins a group with a parent. -/
theorem join_spec (f : Form) (stack : Nat) (hs : 2 ≤ stack) (g : FieldGroup) (ws : List Ref) (hgk : g.kids = some ws) (hg : Spec.GroupOk f.heap g) (w : Ref)
    (hw : Spec.Blank f.heap w) (hwg : w ∉ g.refs) :
    ∃ h', f.join stack ⟨g.root, true, false, g.type⟩ w g.type = .ok ⟨h', f.fields⟩ ∧ Spec.GroupOk h' { g with kids := some (ws ++ [w]) } ∧
      ∀ q, q ≠ w → q ≠ g.root → h' q = f.heap q := by
  have hne : g.root ≠ w := fun e => hwg (by simp [FieldGroup.refs, e])
  obtain ⟨ft, fl, t1, t2, t3⟩ := hg.root.type
  obtain ⟨d', c1, c2, c3, c4⟩ := newField_kid f.heap w g.root hw.dict hw.sorted (hw.none _ (by simp)) hne hg.root.dict hg.root.noParent fl t2 g.type hg.root.known stack hs
  have hk := hg.kids
  rw [hgk] at hk
  simp only at hk
  obtain ⟨h1, eh1⟩ : ∃ h1, h1 = (f.heap.set w (.dict d')).set w (.dict (dropKeys d')) := ⟨_, rfl⟩
  have hroot1 : h1.dict g.root = f.heap.dict g.root := by rw [eh1, set_set, set_dict, if_neg hne]
  have hw1 : h1.dict w = dropKeys d' := by rw [eh1, set_set, set_dict, if_pos rfl]
  have hh' : f.join stack ⟨g.root, true, false, g.type⟩ w g.type = .ok ⟨h1.addKey g.root keyFieldKids (.arr ((ws ++ [w]).map (fun w => .ref w.num w.gen))), f.fields⟩ := by
    rw [Form.join]
    simp only [if_true, c1]
    rw [show ((f.heap.set w (.dict d')).dict w) = d' by rw [set_dict, if_pos rfl], ← eh1, addKid_spec h1 g.root w ws (Or.inl (by rw [hroot1]; exact hk.1))]
  refine ⟨_, hh', ?_, ?_⟩
  · obtain ⟨h2, eh2⟩ : ∃ h2, h2 = h1.addKey g.root keyFieldKids (.arr ((ws ++ [w]).map (fun w => .ref w.num w.gen))) := ⟨_, rfl⟩
    rw [← eh2]
    have hr2 : h2.dict g.root = SMap.insert keyFieldKids (.arr ((ws ++ [w]).map (fun w => .ref w.num w.gen))) (f.heap.dict g.root) := by
      rw [eh2, addKey_dict, if_pos rfl, hroot1]
    have hother : ∀ q, q ≠ g.root → h2 q = h1 q := by intro q hq; rw [eh2, FDoc.addKey, set_other _ _ _ _ hq]
    have hw2 : h2.dict w = dropKeys d' := by rw [dict_other h1 h2 w (hother w (Ne.symm hne)), hw1]
    have far : ∀ k, k ≠ keyFieldKids → SMap.find? k (h2.dict g.root) = SMap.find? k (f.heap.dict g.root) := by
      intro k hk; rw [hr2, SMap.find_insert_ne _ _ hk]
    refine ⟨⟨?_, ?_, ?_, ?_, ?_, hg.root.known⟩, ?_⟩
    · show h2 g.root = _
      rw [eh2]; exact addKey_isDict ..
    · show SMap.Sorted (h2.dict g.root)
      rw [hr2]; exact SMap.sorted_insert _ _ _ hg.root.sorted
    · show SMap.find? keyT (h2.dict g.root) = _
      rw [far _ (by decide)]; exact hg.root.name
    · show SMap.find? keyParent (h2.dict g.root) = _
      rw [far _ (by decide)]; exact hg.root.noParent
    · exact ⟨ft, fl, (far _ (by decide)).trans t1, ownFlags_congr _ _ fl t2 (far _ (by decide)), t3⟩
    · simp only
      refine ⟨by rw [hr2, SMap.find_insert_self], ?_⟩
      intro v hv
      rw [List.mem_append, List.mem_singleton] at hv
      rcases hv with hv | hv
      · have hvr : v ≠ g.root := by
          intro e
          -- the root is not one of its kids: it has no parent
          have := (hk.2 v hv).parent
          rw [e, hg.root.noParent] at this; cases this
        have hvw : v ≠ w := by intro e; exact hwg (by simp [FieldGroup.refs, hgk, ← e, hv])
        have hv1 : h2 v = f.heap v := by rw [hother v hvr, eh1, set_set, set_other _ _ _ _ hvw]
        have hvd := dict_other _ _ v hv1
        have hko := hk.2 v hv
        exact ⟨by rw [hv1, hvd]; exact hko.dict, by rw [hvd]; exact hko.parent, by rw [hvd]; exact hko.bare⟩
      · subst hv
        refine ⟨?_, ?_, ?_⟩
        · rw [hw2, hother v (Ne.symm hne), eh1, set_set]; simp [FDoc.set]
        · rw [hw2, find_dropKeys _ c2, if_neg (by decide)]; exact c3
        · intro k hkk
          rw [hw2, find_dropKeys _ c2]
          simp only [List.mem_cons, List.not_mem_nil, or_false] at hkk
          rcases hkk with e | e | e | e
          · subst e; rw [if_pos (by decide)]
          · subst e; rw [if_pos (by decide)]
          · subst e; rw [if_pos (by decide)]
          · subst e; rw [if_neg (by decide), c4 _ (by decide) (by decide) (by decide)]; exact hw.none _ (by simp)
  · intro q hq1 hq2
    rw [FDoc.addKey, set_other _ _ _ _ hq2, eh1, set_set, set_other _ _ _ _ hq1]

/-- A single widget becomes the first kid of a new parent. -/
theorem promote_spec (f : Form) (stack : Nat) (hs : 2 ≤ stack) (g : FieldGroup) (hgk : g.kids = none) (hg : Spec.GroupOk f.heap g) (p : Ref)
    (hp : Spec.Blank f.heap p) (hpg : p ≠ g.root) :
    ∃ h', f.promote stack ⟨g.root, true, false, g.type⟩ p g.type =
        .ok ⟨h', f.fields.filter (fun y => y.ref ≠ g.root) ++ [⟨p, true, false, g.type⟩]⟩ ∧ Spec.GroupOk h' ⟨g.name, g.type, p, some [g.root]⟩ ∧
      ∀ q, q ≠ p → q ≠ g.root → h' q = f.heap q := by
  obtain ⟨d', c1, c2, ⟨ft', fl', c3, c4, c5⟩, c6⟩ := newField_root f.heap p hp.dict hp.sorted (hp.none _ (by simp)) (hp.none _ (by simp)) g.type hg.root.known stack (by omega)
  obtain ⟨ft, fl, t1, t2, t3⟩ := hg.root.type
  have hk := hg.kids
  rw [hgk] at hk
  simp only at hk
  obtain ⟨dr, edr⟩ : ∃ dr, dr = f.heap.dict g.root := ⟨_, rfl⟩
  have hsr : SMap.Sorted dr := edr ▸ hg.root.sorted
  have hr0 : (f.heap.set p (.dict d')).dict g.root = dr := by rw [set_dict, if_neg (Ne.symm hpg), edr]
  have hp0 : (f.heap.set p (.dict d')).dict p = d' := by rw [set_dict, if_pos rfl]
  obtain ⟨h1, eh1⟩ : ∃ h1, h1 = ((f.heap.set p (.dict d')).set p (.dict (moveKeys dr d'))).set g.root (.dict (dropKeys dr)) := ⟨_, rfl⟩
  have h1p : h1.dict p = moveKeys dr d' := by rw [eh1, set_dict, if_neg hpg, set_dict, if_pos rfl]
  have h1r : h1.dict g.root = dropKeys dr := by rw [eh1, set_dict, if_pos rfl]
  have hnoKids : SMap.find? keyFieldKids (h1.dict p) = none := by
    rw [h1p, find_moveKeys _ _ _ hsr, if_neg (by decide), c6 _ (by decide) (by decide) (by decide)]; exact hp.none _ (by simp)
  obtain ⟨h2, eh2⟩ : ∃ h2, h2 = h1.addKey p keyFieldKids (.arr [.ref g.root.num g.root.gen]) := ⟨_, rfl⟩
  obtain ⟨h3, eh3⟩ : ∃ h3, h3 = h2.addKey g.root keyParent (.ref p.num p.gen) := ⟨_, rfl⟩
  have hprom : f.promote stack ⟨g.root, true, false, g.type⟩ p g.type = .ok ⟨h3, f.fields.filter (fun y => y.ref ≠ g.root) ++ [⟨p, true, false, g.type⟩]⟩ := by
    rw [Form.promote]
    simp only [c1, if_true, hr0, hp0]
    rw [← eh1, addKid_spec h1 p g.root [] (Or.inr ⟨rfl, hnoKids⟩)]
    simp only [List.nil_append, List.map_cons, List.map_nil, ← eh2, ← eh3]
  have d2p : h2.dict p = SMap.insert keyFieldKids (.arr [.ref g.root.num g.root.gen]) (moveKeys dr d') := by rw [eh2, addKey_dict, if_pos rfl, h1p]
  have d2r : h2.dict g.root = dropKeys dr := by rw [eh2, addKey_dict, if_neg (Ne.symm hpg), h1r]
  have d3p : h3.dict p = SMap.insert keyFieldKids (.arr [.ref g.root.num g.root.gen]) (moveKeys dr d') := by rw [eh3, addKey_dict, if_neg hpg, d2p]
  have d3r : h3.dict g.root = SMap.insert keyParent (.ref p.num p.gen) (dropKeys dr) := by rw [eh3, addKey_dict, if_pos rfl, d2r]
  have h3p : h3 p = some (.dict (h3.dict p)) := by
    rw [eh3, FDoc.addKey, set_other _ _ _ _ hpg, set_dict, if_neg hpg, eh2]; exact addKey_isDict ..
  have look : ∀ k, k ≠ keyFieldKids → SMap.find? k (h3.dict p) = if k ∈ parentKeys then (SMap.find? k dr).or (SMap.find? k d') else SMap.find? k d' := by
    intro k hk'
    rw [d3p, SMap.find_insert_ne _ _ hk', find_moveKeys _ _ _ hsr]
  refine ⟨h3, hprom, ⟨⟨h3p, ?_, ?_, ?_, ?_, hg.root.known⟩, ?_⟩, ?_⟩
  · rw [d3p]; exact SMap.sorted_insert _ _ _ (sorted_moveKeys _ _ c2)
  · rw [look _ (by decide), if_pos (by decide), edr, hg.root.name]; rfl
  · rw [look _ (by decide), if_neg (by decide), c6 _ (by decide) (by decide) (by decide)]; exact hp.none _ (by simp)
  · have hft : SMap.find? keyFT (h3.dict p) = some (.name ft) := by rw [look _ (by decide), if_pos (by decide), edr, t1]; rfl
    have hffl := look keyFf (by decide)
    rw [if_pos (by decide)] at hffl
    cases t2 with
    | present n e =>
      rw [edr, e] at hffl
      exact ⟨ft, _, hft, .present n hffl, t3⟩
    | absent e =>
      rw [edr, e] at hffl
      simp only [Option.none_or] at hffl
      refine ⟨ft, fl', hft, ownFlags_congr _ _ fl' c4 hffl, ?_⟩
      -- both names of the type stand for the same kind, so they are the same
      have key : ∀ (a b : Bytes) (x y : BitVec 64), typeFor a x = g.type → typeFor b y = g.type → a = b := by
        intro a b x y ha hb
        have kind : ∀ (a : Bytes) (x : BitVec 64), typeFor a x = g.type → (g.type = .pushButton ∨ g.type = .radioButton ∨ g.type = .checkBox → a = asciiB "Btn") ∧
            (g.type = .textBox → a = asciiB "Tx") ∧ (g.type = .comboBox ∨ g.type = .listBox → a = asciiB "Ch") ∧ (g.type = .signature → a = asciiB "Sig") := by
          intro a x hx
          rw [typeFor] at hx
          split at hx
          · rename_i e0
            refine ⟨fun _ => e0, ?_, ?_, ?_⟩
            all_goals intro hh; split at hx
            all_goals first | (rw [← hx] at hh; simp at hh) | (split at hx <;> (rw [← hx] at hh; simp at hh))
          · split at hx
            · rename_i e0
              exact ⟨by rw [← hx]; simp, fun _ => e0, by rw [← hx]; simp, by rw [← hx]; simp⟩
            · split at hx
              · rename_i e0
                refine ⟨?_, ?_, fun _ => e0, ?_⟩
                all_goals intro hh; split at hx <;> (rw [← hx] at hh; simp at hh)
              · split at hx
                · rename_i e0
                  exact ⟨by rw [← hx]; simp, by rw [← hx]; simp, by rw [← hx]; simp, fun _ => e0⟩
                · exact absurd hx.symm hg.root.known
        have ka := kind a x ha
        have kb := kind b y hb
        cases hty : g.type with
        | unknown => exact absurd hty hg.root.known
        | pushButton => rw [ka.1 (by simp [hty]), kb.1 (by simp [hty])]
        | radioButton => rw [ka.1 (by simp [hty]), kb.1 (by simp [hty])]
        | checkBox => rw [ka.1 (by simp [hty]), kb.1 (by simp [hty])]
        | textBox => rw [ka.2.1 hty, kb.2.1 hty]
        | comboBox => rw [ka.2.2.1 (by simp [hty]), kb.2.2.1 (by simp [hty])]
        | listBox => rw [ka.2.2.1 (by simp [hty]), kb.2.2.1 (by simp [hty])]
        | signature => rw [ka.2.2.2 hty, kb.2.2.2 hty]
      rw [key ft ft' _ _ t3 c5]; exact c5
  · simp only
    refine ⟨by rw [d3p, SMap.find_insert_self]; rfl, ?_⟩
    intro v hv
    simp only [List.mem_singleton] at hv
    subst hv
    refine ⟨?_, by rw [d3r, SMap.find_insert_self], ?_⟩
    · rw [eh3]; exact addKey_isDict ..
    · intro k hkk
      simp only [List.mem_cons, List.not_mem_nil, or_false] at hkk
      rcases hkk with e | e | e | e
      · subst e; rw [d3r, SMap.find_insert_ne _ _ (by decide), find_dropKeys _ hsr, if_pos (by decide)]
      · subst e; rw [d3r, SMap.find_insert_ne _ _ (by decide), find_dropKeys _ hsr, if_pos (by decide)]
      · subst e; rw [d3r, SMap.find_insert_ne _ _ (by decide), find_dropKeys _ hsr, if_pos (by decide)]
      · subst e; rw [d3r, SMap.find_insert_ne _ _ (by decide), find_dropKeys _ hsr, if_neg (by decide), edr]; exact hk
  · intro q hq1 hq2
    rw [eh3, FDoc.addKey, set_other _ _ _ _ hq2, eh2, FDoc.addKey, set_other _ _ _ _ hq1, eh1, set_other _ _ _ _ hq2, set_other _ _ _ _ hq1, set_other _ _ _ _ hq1]

theorem blank_frame (h h' : FDoc) (w : Ref) (hb : Spec.Blank h w) (e : h' w = h w) : Spec.Blank h' w := by
  have hd := dict_other h h' w e
  exact ⟨by rw [e, hd]; exact hb.dict, by rw [hd]; exact hb.sorted, by rw [hd]; exact hb.none⟩

def FieldGroup.field (g : FieldGroup) : FormField := ⟨g.root, true, false, g.type⟩

theorem candidate_groups (f : Form) (name : Bytes) : ∀ (gs : List FieldGroup), (∀ g ∈ gs, Spec.GroupOk f.heap g) →
    (gs.map FieldGroup.field).find? (fun x => !x.raw && f.heap.getNameRaw x.ref == some name) = (gs.find? (fun g => g.name == name)).map FieldGroup.field := by
  intro gs
  induction gs with
  | nil => intro _; rfl
  | cons g gs ih =>
    intro h
    have hn : f.heap.getNameRaw g.root = some g.name := by
      rw [FDoc.getNameRaw, (h g (by simp)).root.name]
    rw [List.map_cons, List.find?_cons, List.find?_cons, ih (fun x hx => h x (by simp [hx]))]
    have : (!g.field.raw && f.heap.getNameRaw g.field.ref == some name) = (g.name == name) := by
      simp only [FieldGroup.field, hn, Bool.not_false, Bool.true_and]
      by_cases e : g.name = name <;> simp [e]
    rw [this]
    cases g.name == name <;> rfl

theorem refs_mem {gs : List FieldGroup} {g : FieldGroup} (hg : g ∈ gs) {q : Ref} (hq : q ∈ g.refs) : q ∈ gs.flatMap FieldGroup.refs :=
  List.mem_flatMap.2 ⟨g, hg, hq⟩

/-- Where the group with a name is, the others have other names and other objects. -/
theorem split_groups (gs : List FieldGroup) (hr : (gs.flatMap FieldGroup.refs).Nodup) (hn : (gs.map FieldGroup.name).Nodup) (g : FieldGroup) (hg : g ∈ gs) :
    ∃ a b, gs = a ++ g :: b ∧ (∀ x ∈ a ++ b, x.name ≠ g.name) ∧ (∀ x ∈ a ++ b, ∀ q ∈ x.refs, q ∉ g.refs) := by
  obtain ⟨a, b, e⟩ := List.append_of_mem hg
  subst e
  refine ⟨a, b, rfl, ?_, ?_⟩
  · rw [List.map_append, List.map_cons, List.nodup_append] at hn
    intro x hx e
    rw [List.mem_append] at hx
    rcases hx with hx | hx
    · exact hn.2.2 x.name (List.mem_map_of_mem hx) g.name (by simp) e
    · have := hn.2.1
      rw [List.nodup_cons] at this
      exact this.1 (e ▸ List.mem_map_of_mem hx)
  · rw [List.flatMap_append, List.flatMap_cons, List.nodup_append] at hr
    intro x hx q hq hqg
    rw [List.mem_append] at hx
    rcases hx with hx | hx
    · exact hr.2.2 q (refs_mem hx hq) q (by simp [hqg]) rfl
    · have := hr.2.1
      rw [List.nodup_append] at this
      exact this.2.2 q hqg q (refs_mem hx hq) rfl

/-- C153: creating a field on a new widget.  A name that is new makes a new field at the end of the form.  A name there is already makes the widget one more
kid of the field of that name, which gets a parent object the first time; the name, the kind and the value stay in one place.  Another kind is refused.
The rest of the document is not touched. -/
theorem C153_create_partial (f : Form) (gs : List FieldGroup) (hf : Spec.FormIs f gs) (stack : Nat) (hs : 2 ≤ stack) (name : Bytes) (hdot : (46 : UInt8) ∉ name)
    (w p : Ref) (hw : Spec.Blank f.heap w) (hp : Spec.Blank f.heap p) (hwp : w ≠ p) (hwg : w ∉ gs.flatMap FieldGroup.refs) (hpg : p ∉ gs.flatMap FieldGroup.refs)
    (t : FieldType) (ht : t ≠ .unknown) :
    match Spec.createGroup gs name w p t with
    | some gs' => ∃ f', f.create stack name w p t = .ok f' ∧ Spec.FormIs f' gs' ∧
        ∀ q, q ≠ w → q ≠ p → q ∉ gs.flatMap FieldGroup.refs → f'.heap q = f.heap q
    | none => f.create stack name w p t = .error .exn := by
  have hcand : f.candidate name = (gs.find? (fun g => g.name == name)).map FieldGroup.field := by
    rw [Form.candidate, hf.fields]; exact candidate_groups f name gs hf.groups
  rw [Spec.createGroup, Form.create, if_neg hdot, hcand]
  cases hfind : gs.find? (fun g => g.name == name) with
  | none =>
    simp only [Option.map_none]
    obtain ⟨d', c1, c2, ⟨ft, fl, c3, c4, c5⟩, c6⟩ := newField_root f.heap w hw.dict hw.sorted (hw.none _ (by simp)) (hw.none _ (by simp)) t ht stack (by omega)
    rw [c1]
    refine ⟨_, rfl, ⟨?_, ?_, ?_, ?_⟩, ?_⟩
    · simp [hf.fields]
    · rw [List.flatMap_append, List.nodup_append]
      refine ⟨hf.refs, by simp [FieldGroup.refs], ?_⟩
      intro a ha b hb e
      simp [FieldGroup.refs] at hb
      subst e; subst hb
      exact hwg ha
    · rw [List.map_append, List.nodup_append]
      refine ⟨hf.names, by simp, ?_⟩
      intro a ha b hb e
      simp at hb
      subst e; subst hb
      obtain ⟨g, hg, eg⟩ := List.mem_map.1 ha
      have := List.find?_eq_none.1 hfind g hg
      simp [eg] at this
    · intro g hg
      rw [List.mem_append] at hg
      rcases hg with hg | hg
      · refine groupOk_frame f.heap _ g (hf.groups g hg) ?_
        intro q hq
        have hqw : q ≠ w := fun e => hwg (e ▸ refs_mem hg hq)
        simp only [FDoc.addKey]
        rw [set_other _ _ _ _ hqw, set_other _ _ _ _ hqw]
      · simp only [List.mem_singleton] at hg
        subst hg
        have hd : ((f.heap.set w (.dict d')).addKey w keyT (.str name false)).dict w = SMap.insert keyT (.str name false) d' := by
          rw [addKey_dict, if_pos rfl, set_dict, if_pos rfl]
        refine ⟨⟨addKey_isDict .., ?_, ?_, ?_, ⟨ft, fl, ?_, ?_, c5⟩, ht⟩, ?_⟩
        · show SMap.Sorted (FDoc.dict _ w)
          rw [hd]; exact SMap.sorted_insert _ _ _ c2
        · show SMap.find? keyT (FDoc.dict _ w) = _
          rw [hd, SMap.find_insert_self]
        · show SMap.find? keyParent (FDoc.dict _ w) = _
          rw [hd, SMap.find_insert_ne _ _ (by decide), c6 _ (by decide) (by decide) (by decide)]; exact hw.none _ (by simp)
        · show SMap.find? keyFT (FDoc.dict _ w) = _
          rw [hd, SMap.find_insert_ne _ _ (by decide)]; exact c3
        · show Spec.OwnFlags (FDoc.dict _ w) fl
          rw [hd]; exact ownFlags_congr _ _ fl c4 (SMap.find_insert_ne _ _ (by decide))
        · show SMap.find? keyFieldKids (FDoc.dict _ w) = none
          rw [hd, SMap.find_insert_ne _ _ (by decide), c6 _ (by decide) (by decide) (by decide)]; exact hw.none _ (by simp)
    · intro q hq _ _
      simp only [FDoc.addKey]
      rw [set_other _ _ _ _ hq, set_other _ _ _ _ hq]
  | some g =>
    simp only [Option.map_some]
    have hg := List.mem_of_find?_eq_some hfind
    have hname : g.name = name := by simpa using List.find?_some hfind
    subst hname
    by_cases hty : g.type = t
    · subst hty
      rw [if_neg (by simp), if_neg (by simp [FieldGroup.field])]
      obtain ⟨a, b, e, hnames, hrefs⟩ := split_groups gs hf.refs hf.names g hg
      have hgok := hf.groups g hg
      have hwr : w ∉ g.refs := fun x => hwg (refs_mem hg x)
      have hpr : p ∉ g.refs := fun x => hpg (refs_mem hg x)
      have hkids := hgok.kids
      have hfa : ∀ x ∈ a, x.name ≠ g.name := fun x hx => hnames x (by simp [hx])
      have hfb : ∀ x ∈ b, x.name ≠ g.name := fun x hx => hnames x (by simp [hx])
      have hmem : ∀ x ∈ a ++ b, x ∈ gs := by
        intro x hx; rw [e]; rw [List.mem_append] at hx ⊢
        rcases hx with hx | hx
        · exact Or.inl hx
        · exact Or.inr (by simp [hx])
      have hnod : (a.flatMap FieldGroup.refs ++ (g.refs ++ b.flatMap FieldGroup.refs)).Nodup := by
        have := hf.refs; rw [e, List.flatMap_append, List.flatMap_cons] at this; exact this
      have hnn : (a.map FieldGroup.name ++ (g.name :: b.map FieldGroup.name)).Nodup := by
        have := hf.names; rw [e, List.map_append, List.map_cons] at this; exact this
      have hwab : w ∉ a.flatMap FieldGroup.refs ++ (g.refs ++ b.flatMap FieldGroup.refs) := by
        have := hwg; rw [e, List.flatMap_append, List.flatMap_cons] at this; exact this
      have hpab : p ∉ a.flatMap FieldGroup.refs ++ (g.refs ++ b.flatMap FieldGroup.refs) := by
        have := hpg; rw [e, List.flatMap_append, List.flatMap_cons] at this; exact this
      cases hk : g.kids with
      | some ws =>
        simp only
        rw [hk] at hkids
        have : (SMap.find? keyFieldKids (f.heap.dict g.field.ref)).isSome = true := by
          show (SMap.find? keyFieldKids (f.heap.dict g.root)).isSome = true
          rw [hkids.1]; rfl
        rw [if_pos this]
        obtain ⟨h', j1, j2, j3⟩ := join_spec f stack hs g ws hk hgok w hw hwr
        have hgs' : gs.map (fun x => if x.name = g.name then { x with kids := some (ws ++ [w]) } else x) = a ++ { g with kids := some (ws ++ [w]) } :: b := by
          have same : ∀ (l : List FieldGroup), (∀ x ∈ l, x.name ≠ g.name) →
              l.map (fun x => if x.name = g.name then { x with kids := some (ws ++ [w]) } else x) = l := by
            intro l hl
            rw [List.map_congr_left (g := id) (fun x hx => by rw [if_neg (hl x hx)]; rfl), List.map_id]
          rw [e, List.map_append, List.map_cons, same a hfa, same b hfb, if_pos rfl]
        rw [hgs']
        refine ⟨_, j1, ⟨?_, ?_, ?_, ?_⟩, ?_⟩
        · simp only [hf.fields, e, List.map_append, List.map_cons]
        · rw [List.flatMap_append, List.flatMap_cons]
          have hperm : (a.flatMap FieldGroup.refs ++ (FieldGroup.refs { g with kids := some (ws ++ [w]) } ++ b.flatMap FieldGroup.refs)).Perm
              (w :: (a.flatMap FieldGroup.refs ++ (g.refs ++ b.flatMap FieldGroup.refs))) := by
            have e1 : FieldGroup.refs { g with kids := some (ws ++ [w]) } = g.refs ++ [w] := by simp [FieldGroup.refs, hk]
            rw [e1]
            refine (List.Perm.append_left _ ?_).trans List.perm_middle
            rw [List.append_assoc, List.singleton_append]
            exact List.perm_middle
          rw [hperm.nodup_iff, List.nodup_cons]
          exact ⟨hwab, hnod⟩
        · rw [List.map_append, List.map_cons]; exact hnn
        · intro x hx
          have : x ∈ a ++ b ∨ x = { g with kids := some (ws ++ [w]) } := by
            rw [List.mem_append, List.mem_cons] at hx; rw [List.mem_append]
            rcases hx with hx | hx | hx
            · exact Or.inl (Or.inl hx)
            · exact Or.inr hx
            · exact Or.inl (Or.inr hx)
          rcases this with hx | hx
          · refine groupOk_frame f.heap _ x (hf.groups x (hmem x hx)) ?_
            intro q hq
            refine j3 q (fun h => hwg (h ▸ refs_mem (hmem x hx) hq)) (fun h => hrefs x hx q hq (h ▸ ?_))
            simp [FieldGroup.refs]
          · rw [hx]; exact j2
        · intro q hq _ hqg
          exact j3 q hq (fun h => hqg (h ▸ refs_mem hg (by simp [FieldGroup.refs])))
      | none =>
        simp only
        rw [hk] at hkids
        have : ¬ (SMap.find? keyFieldKids (f.heap.dict g.field.ref)).isSome = true := by
          show ¬ (SMap.find? keyFieldKids (f.heap.dict g.root)).isSome = true
          simp only at hkids
          rw [hkids]; simp
        rw [if_neg this]
        have hrr : g.root ∈ g.refs := by simp [FieldGroup.refs]
        have hproot : p ≠ g.root := fun h => hpr (h ▸ hrr)
        have hwroot : w ≠ g.root := fun h => hwr (h ▸ hrr)
        obtain ⟨h1, k1, k2, k3⟩ := promote_spec f stack hs g hk hgok p hp hproot
        have k1' : f.promote stack g.field p g.type = .ok ⟨h1, f.fields.filter (fun y => y.ref ≠ g.root) ++ [⟨p, true, false, g.type⟩]⟩ := k1
        rw [k1']
        obtain ⟨h', j1, j2, j3⟩ := join_spec ⟨h1, f.fields.filter (fun y => y.ref ≠ g.root) ++ [⟨p, true, false, g.type⟩]⟩ stack hs
          ⟨g.name, g.type, p, some [g.root]⟩ [g.root] rfl k2 w (blank_frame f.heap h1 w hw (k3 w hwp hwroot)) (by simp [FieldGroup.refs, hwp, hwroot])
        have hgs' : gs.filter (fun x => x.name ≠ g.name) = a ++ b := by
          rw [e, List.filter_append, List.filter_cons, if_neg (by simp)]
          rw [List.filter_eq_self.2 (fun x hx => by simpa using hfa x hx), List.filter_eq_self.2 (fun x hx => by simpa using hfb x hx)]
        rw [hgs']
        refine ⟨_, j1, ⟨?_, ?_, ?_, ?_⟩, ?_⟩
        · show f.fields.filter (fun y => y.ref ≠ g.root) ++ [⟨p, true, false, g.type⟩] = _
          rw [hf.fields, e]
          have hroots : ∀ x ∈ a ++ b, x.root ≠ g.root := fun x hx h => hrefs x hx x.root (by simp [FieldGroup.refs]) (h ▸ hrr)
          have keep : ∀ (l : List FieldGroup), (∀ x ∈ l, x.root ≠ g.root) →
              (l.map (fun g => (⟨g.root, true, false, g.type⟩ : FormField))).filter (fun y => y.ref ≠ g.root) = l.map (fun g => ⟨g.root, true, false, g.type⟩) := by
            intro l hl
            rw [List.filter_eq_self]
            intro y hy
            obtain ⟨x, hx, ex⟩ := List.mem_map.1 hy
            subst ex
            simpa using hl x hx
          rw [List.map_append, List.map_cons, List.filter_append, List.filter_cons, if_neg (by simp), keep a (fun x hx => hroots x (by simp [hx])),
            keep b (fun x hx => hroots x (by simp [hx]))]
          simp
        · rw [List.flatMap_append, List.flatMap_append]
          have hperm : (a.flatMap FieldGroup.refs ++ b.flatMap FieldGroup.refs ++ [(⟨g.name, g.type, p, some [g.root, w]⟩ : FieldGroup)].flatMap FieldGroup.refs).Perm
              (w :: p :: (a.flatMap FieldGroup.refs ++ (g.refs ++ b.flatMap FieldGroup.refs))) := by
            have e1 : [(⟨g.name, g.type, p, some [g.root, w]⟩ : FieldGroup)].flatMap FieldGroup.refs = [p, g.root, w] := by simp [FieldGroup.refs]
            have e2 : g.refs = [g.root] := by simp [FieldGroup.refs, hk]
            rw [e1, e2]
            generalize a.flatMap FieldGroup.refs = A
            generalize b.flatMap FieldGroup.refs = B
            have s1 : (A ++ B ++ [p, g.root, w]).Perm ([p, g.root, w] ++ (A ++ B)) := List.perm_append_comm
            have s2 : ([p, g.root, w] ++ (A ++ B)).Perm (w :: p :: g.root :: (A ++ B)) := by
              show (p :: g.root :: w :: (A ++ B)).Perm _
              exact ((List.Perm.swap w g.root (A ++ B)).cons p).trans (List.Perm.swap w p _)
            have s3 : (g.root :: (A ++ B)).Perm (A ++ ([g.root] ++ B)) := List.perm_middle.symm
            exact s1.trans (s2.trans ((s3.cons p).cons w))
          rw [hperm.nodup_iff, List.nodup_cons, List.nodup_cons]
          refine ⟨?_, hpab, hnod⟩
          rw [List.mem_cons]
          rintro (h | h)
          · exact hwp h
          · exact hwab h
        · rw [List.map_append, List.map_append]
          have hperm : (a.map FieldGroup.name ++ b.map FieldGroup.name ++ [(⟨g.name, g.type, p, some [g.root, w]⟩ : FieldGroup)].map FieldGroup.name).Perm
              (a.map FieldGroup.name ++ g.name :: b.map FieldGroup.name) := by
            rw [List.append_assoc]
            exact (List.Perm.append_left _ List.perm_append_comm)
          rw [hperm.nodup_iff]; exact hnn
        · intro x hx
          rw [List.mem_append] at hx
          rcases hx with hx | hx
          · refine groupOk_frame f.heap _ x (hf.groups x (hmem x hx)) ?_
            intro q hq
            have q1 : q ≠ w := fun h => hwg (h ▸ refs_mem (hmem x hx) hq)
            have q2 : q ≠ p := fun h => hpg (h ▸ refs_mem (hmem x hx) hq)
            have q3 : q ≠ g.root := fun h => hrefs x hx q hq (h ▸ hrr)
            exact (j3 q q1 q2).trans (k3 q q2 q3)
          · simp only [List.mem_singleton] at hx
            rw [hx]; exact j2
        · intro q q1 q2 hqg
          exact (j3 q q1 q2).trans (k3 q q2 (fun h => hqg (h ▸ refs_mem hg hrr)))
    · rw [if_pos (by simpa using hty), if_pos (by simpa [FieldGroup.field] using hty)]

theorem typeFor_plain (n : Bytes) (a b : BitVec 64) (h : ¬(n = asciiB "Btn" ∨ n = asciiB "Ch")) : typeFor n a = typeFor n b := by
  have h1 : n ≠ asciiB "Btn" := fun e => h (Or.inl e)
  have h2 : n ≠ asciiB "Ch" := fun e => h (Or.inr e)
  rw [typeFor, typeFor, if_neg h1, if_neg h1, if_neg h2, if_neg h2]

theorem own_type {h : FDoc} {l : List Ref} {t : FieldType} (ft : Bytes) (f : Option (BitVec 64)) (h1 : Spec.nearest h keyFT l = some (.name ft))
    (h2 : Spec.FlagsAre h l f) (h3 : typeFor ft (f.getD 0) = t) : Spec.TypeIs h l t := by
  by_cases hb : ft = asciiB "Btn" ∨ ft = asciiB "Ch"
  · rw [← h3]; exact .flagged ft f h1 hb h2
  · rw [← h3, typeFor_plain ft _ 0 hb]; exact .plain ft h1 hb

/-- C153: every widget of a group shows the name and the kind of the group. -/
theorem C153_widget (h : FDoc) (g : FieldGroup) (hg : Spec.GroupOk h g) (hne : g.name ≠ []) (w : Ref) (hw : w ∈ g.widgets) (stack : Nat) (hs : 2 ≤ stack) :
    h.fullName false stack (h.dict w) = .ok g.name ∧ h.fieldType stack (h.dict w) = .ok g.type := by
  obtain ⟨ft, f, t1, t2, t3⟩ := hg.root.type
  have hroot : Spec.Line h g.root [g.root] := .root hg.root.dict hg.root.noParent
  have hraw : h.getNameRaw g.root = some g.name := by rw [FDoc.getNameRaw, hg.root.name]
  rw [C147_raw] at hraw
  cases hk : g.kids with
  | none =>
    have : w = g.root := by simpa [FieldGroup.widgets, hk] using hw
    subst this
    have hn : Spec.Named h [g.root] := by
      intro q hq; simp only [List.mem_singleton] at hq; subst hq; exact Or.inr ⟨_, _, hg.root.name, hne⟩
    refine ⟨?_, ?_⟩
    · rw [(C147_full_name_partial h g.root [g.root] hroot hn stack (by simp only [List.length_cons, List.length_nil]; omega)).1]
      simp [Spec.partials, hraw, Spec.dotted]
    · exact fieldType_line hroot _ (own_type ft f (by simp [Spec.nearest, FDoc.findKey, t1]) (own_flags_line t2) t3) stack
        (by simp only [List.length_cons, List.length_nil]; omega)
  | some ws =>
    have hkids := hg.kids
    rw [hk] at hkids
    have hm : w ∈ ws := by simpa [FieldGroup.widgets, hk] using hw
    have hko := hkids.2 w hm
    have hl : Spec.Line h w [w, g.root] := .child (q := g.root) hko.dict hko.parent hroot
    have hT : SMap.find? keyT (h.dict w) = none := hko.bare _ (by simp)
    have hFT : SMap.find? keyFT (h.dict w) = none := hko.bare _ (by simp)
    have hFf : SMap.find? keyFf (h.dict w) = none := hko.bare _ (by simp)
    have hn : Spec.Named h [w, g.root] := by
      intro q hq
      simp only [List.mem_cons, List.not_mem_nil, or_false] at hq
      rcases hq with e | e
      · subst e; exact Or.inl hT
      · subst e; exact Or.inr ⟨_, _, hg.root.name, hne⟩
    have hraww : h.getNameRaw w = none := by rw [FDoc.getNameRaw, hT]
    rw [C147_raw] at hraww
    have hfl : Spec.FlagsAre h [w, g.root] f := by
      cases t2 with
      | absent e => exact .absent (by simp [Spec.nearest, FDoc.findKey, hFf, e])
      | present n e => exact .present n (by simp [Spec.nearest, FDoc.findKey, hFf, e])
    refine ⟨?_, ?_⟩
    · rw [(C147_full_name_partial h w _ hl hn stack (by simp only [List.length_cons, List.length_nil]; omega)).1]
      simp [Spec.partials, hraw, hraww, Spec.dotted]
    · exact fieldType_line hl _ (own_type ft f (by simp [Spec.nearest, FDoc.findKey, hFT, t1]) hfl t3) stack
        (by simp only [List.length_cons, List.length_nil]; omega)

/-- A call of `Create`. -/
structure FieldReq where
  name : Bytes
  widget : Ref
  spare : Ref
  type : FieldType

/-- Calls one after the other; an exception for a bad name or a different kind is caught by the caller. -/
def Form.createAll (stack : Nat) : Form → List FieldReq → Res Form
  | f, [] => .ok f
  | f, r :: rs =>
    match f.create stack r.name r.widget r.spare r.type with
    | .ok f' => Form.createAll stack f' rs
    | .error .exn => Form.createAll stack f rs
    | .error e => .error e

/-- The calls that should succeed: no period in the name and no earlier field of that name with another kind. -/
def Spec.accepted : List FieldReq → List FieldReq → List FieldReq
  | done, [] => done
  | done, r :: rs => if (46 : UInt8) ∉ r.name ∧ ∀ d ∈ done, d.name = r.name → d.type = r.type then Spec.accepted (done ++ [r]) rs else Spec.accepted done rs

/-- The widgets made so far are in the groups, and the groups consist of them. -/
structure Spec.Made (f : Form) (gs : List FieldGroup) (done : List FieldReq) : Prop where
  form : Spec.FormIs f gs
  has : ∀ r ∈ done, ∃ g ∈ gs, g.name = r.name ∧ g.type = r.type ∧ r.widget ∈ g.widgets
  from_ : ∀ g ∈ gs, g.name ≠ [] ∧ ∃ r ∈ done, g.name = r.name ∧ g.type = r.type

theorem createGroup_made (gs gs' : List FieldGroup) (r : FieldReq) (e : Spec.createGroup gs r.name r.widget r.spare r.type = some gs')
    (hnames : (gs.map FieldGroup.name).Nodup) :
    (∃ g ∈ gs', g.name = r.name ∧ g.type = r.type ∧ r.widget ∈ g.widgets) ∧
    (∀ g ∈ gs, ∃ g' ∈ gs', g'.name = g.name ∧ g'.type = g.type ∧ ∀ v ∈ g.widgets, v ∈ g'.widgets) ∧
    (∀ g' ∈ gs', (g'.name = r.name ∧ g'.type = r.type) ∨ ∃ g ∈ gs, g'.name = g.name ∧ g'.type = g.type) ∧
    ∀ q ∈ gs'.flatMap FieldGroup.refs, q = r.widget ∨ q = r.spare ∨ q ∈ gs.flatMap FieldGroup.refs := by
  rw [Spec.createGroup] at e
  have uniq : ∀ x ∈ gs, ∀ y ∈ gs, x.name = y.name → x = y := by
    intro x hx y hy hxy
    obtain ⟨i, hi, ei⟩ := List.mem_iff_getElem.1 hx
    obtain ⟨j, hj, ej⟩ := List.mem_iff_getElem.1 hy
    have : i = j := by
      rw [List.Nodup, List.pairwise_iff_getElem] at hnames
      rcases Nat.lt_trichotomy i j with h | h | h
      · have := hnames i j (by simpa using hi) (by simpa using hj) h
        simp [ei, ej, hxy] at this
      · exact h
      · have := hnames j i (by simpa using hj) (by simpa using hi) h
        simp [ei, ej, hxy] at this
    subst this
    rw [← ei, ← ej]
  cases hfind : gs.find? (fun g => g.name == r.name) with
  | none =>
    rw [hfind] at e
    simp only [Option.some.injEq] at e
    subst e
    refine ⟨⟨_, List.mem_append_right _ (List.mem_singleton.2 rfl), rfl, rfl, by simp [FieldGroup.widgets]⟩, ?_, ?_, ?_⟩
    · intro g hg; exact ⟨g, by simp [hg], rfl, rfl, fun v hv => hv⟩
    · intro g' hg'
      rw [List.mem_append] at hg'
      rcases hg' with h | h
      · exact Or.inr ⟨g', h, rfl, rfl⟩
      · simp only [List.mem_singleton] at h; subst h; exact Or.inl ⟨rfl, rfl⟩
    · intro q hq
      rw [List.flatMap_append, List.mem_append] at hq
      rcases hq with h | h
      · exact Or.inr (Or.inr h)
      · simp [FieldGroup.refs] at h; exact Or.inl h
  | some g =>
    rw [hfind] at e
    simp only at e
    have hg := List.mem_of_find?_eq_some hfind
    have hname : g.name = r.name := by simpa using List.find?_some hfind
    by_cases hty : g.type = r.type
    · rw [if_neg (by simpa using hty)] at e
      cases hk : g.kids with
      | none =>
        rw [hk] at e
        simp only [Option.some.injEq] at e
        subst e
        refine ⟨⟨_, List.mem_append_right _ (List.mem_singleton.2 rfl), rfl, rfl, by simp [FieldGroup.widgets]⟩, ?_, ?_, ?_⟩
        · intro x hx
          by_cases hxn : x.name = r.name
          · have : x = g := uniq x hx g hg (hxn.trans hname.symm)
            subst this
            refine ⟨_, List.mem_append_right _ (List.mem_singleton.2 rfl), hname.symm, hty.symm, ?_⟩
            intro v hv
            have : v = x.root := by simpa [FieldGroup.widgets, hk] using hv
            simp [FieldGroup.widgets, this]
          · exact ⟨x, by simp [hx, hxn], rfl, rfl, fun v hv => hv⟩
        · intro g' hg'
          rw [List.mem_append] at hg'
          rcases hg' with h | h
          · exact Or.inr ⟨g', (List.mem_filter.1 h).1, rfl, rfl⟩
          · simp only [List.mem_singleton] at h; subst h; exact Or.inl ⟨rfl, rfl⟩
        · intro q hq
          rw [List.flatMap_append, List.mem_append] at hq
          rcases hq with h | h
          · obtain ⟨x, hx, hqx⟩ := List.mem_flatMap.1 h
            exact Or.inr (Or.inr (refs_mem (List.mem_filter.1 hx).1 hqx))
          · simp [FieldGroup.refs] at h
            rcases h with h | h | h
            · exact Or.inr (Or.inl h)
            · exact Or.inr (Or.inr (refs_mem hg (by simp [FieldGroup.refs, h])))
            · exact Or.inl h
      | some ws =>
        rw [hk] at e
        simp only [Option.some.injEq] at e
        subst e
        have hin : ({ g with kids := some (ws ++ [r.widget]) } : FieldGroup) ∈ gs.map (fun x => if x.name = r.name then { x with kids := some (ws ++ [r.widget]) } else x) :=
          List.mem_map.2 ⟨g, hg, by rw [if_pos hname]⟩
        refine ⟨⟨_, hin, hname, hty, by simp [FieldGroup.widgets]⟩, ?_, ?_, ?_⟩
        · intro x hx
          by_cases hxn : x.name = r.name
          · have : x = g := uniq x hx g hg (hxn.trans hname.symm)
            subst this
            refine ⟨_, hin, rfl, rfl, ?_⟩
            intro v hv
            have : v ∈ ws := by simpa [FieldGroup.widgets, hk] using hv
            simp [FieldGroup.widgets, this]
          · exact ⟨x, List.mem_map.2 ⟨x, hx, by rw [if_neg hxn]⟩, rfl, rfl, fun v hv => hv⟩
        · intro g' hg'
          obtain ⟨x, hx, ex⟩ := List.mem_map.1 hg'
          subst ex
          refine Or.inr ⟨x, hx, ?_, ?_⟩ <;> (split <;> rfl)
        · intro q hq
          obtain ⟨g', hg', hqg⟩ := List.mem_flatMap.1 hq
          obtain ⟨x, hx, ex⟩ := List.mem_map.1 hg'
          subst ex
          by_cases hxn : x.name = r.name
          · have : x = g := uniq x hx g hg (hxn.trans hname.symm)
            subst this
            rw [if_pos hxn] at hqg
            simp [FieldGroup.refs] at hqg
            rcases hqg with h | h | h
            · exact Or.inr (Or.inr (refs_mem hg (by simp [FieldGroup.refs, h])))
            · exact Or.inr (Or.inr (refs_mem hg (by simp [FieldGroup.refs, hk, h])))
            · exact Or.inl h
          · rw [if_neg hxn] at hqg
            exact Or.inr (Or.inr (refs_mem hx hqg))
    · rw [if_pos (by simpa using hty)] at e; cases e

theorem createGroup_none (gs : List FieldGroup) (r : FieldReq) (done : List FieldReq) (f : Form) (hm : Spec.Made f gs done) :
    Spec.createGroup gs r.name r.widget r.spare r.type = none ↔ ¬ ∀ d ∈ done, d.name = r.name → d.type = r.type := by
  rw [Spec.createGroup]
  cases hfind : gs.find? (fun g => g.name == r.name) with
  | none =>
    simp only [reduceCtorEq, false_iff, Classical.not_not]
    intro d hd hn
    obtain ⟨g, hg, e, _⟩ := hm.has d hd
    have := List.find?_eq_none.1 hfind g hg
    simp [e, hn] at this
  | some g =>
    have hg := List.mem_of_find?_eq_some hfind
    have hname : g.name = r.name := by simpa using List.find?_some hfind
    simp only
    by_cases hty : g.type = r.type
    · rw [if_neg (by simpa using hty)]
      have : (match g.kids with
        | none => some (gs.filter (fun x => x.name ≠ r.name) ++ [⟨r.name, r.type, r.spare, some [g.root, r.widget]⟩])
        | some ws => some (gs.map (fun x => if x.name = r.name then { x with kids := some (ws ++ [r.widget]) } else x))) ≠ none := by
        cases g.kids <;> simp
      simp only [this, false_iff, Classical.not_not]
      intro d hd hn
      obtain ⟨x, hx, e1, e2, _⟩ := hm.has d hd
      obtain ⟨a, b, e, h1, _⟩ := split_groups gs hm.form.refs hm.form.names g hg
      have : x = g := by
        rw [e, List.mem_append, List.mem_cons] at hx
        rcases hx with h | h | h
        · exact absurd (e1.trans (hn.trans hname.symm)) (h1 x (by simp [h]))
        · exact h
        · exact absurd (e1.trans (hn.trans hname.symm)) (h1 x (by simp [h]))
      rw [← e2, this, hty]
    · rw [if_pos (by simpa using hty)]
      simp only [true_iff]
      intro hall
      obtain ⟨_, d, hd, e1, e2⟩ := hm.from_ g hg
      exact hty (e2.trans (hall d hd (e1.symm.trans hname)))

/-- C153, any history: fields are created one after the other on new widgets, with any names and kinds, in a document that has none to begin with.  Exactly the
calls whose name has a period or was given to another kind before are refused.  At the end every widget has the full name and the kind it was created
with, and the form has one field for each name. -/
theorem C153_history_partial (stack : Nat) (hs : 2 ≤ stack) (rs : List FieldReq) : ∀ (f : Form) (gs : List FieldGroup) (done : List FieldReq), Spec.Made f gs done →
    (∀ r ∈ rs, r.type ≠ .unknown ∧ r.name ≠ [] ∧ Spec.Blank f.heap r.widget ∧ Spec.Blank f.heap r.spare ∧
      r.widget ∉ gs.flatMap FieldGroup.refs ∧ r.spare ∉ gs.flatMap FieldGroup.refs) →
    (rs.flatMap (fun r => [r.widget, r.spare])).Nodup →
    ∃ f' gs', f.createAll stack rs = .ok f' ∧ Spec.Made f' gs' (Spec.accepted done rs) ∧
      (∀ r ∈ Spec.accepted done rs, f'.heap.fullName false stack (f'.heap.dict r.widget) = .ok r.name ∧
        f'.heap.fieldType stack (f'.heap.dict r.widget) = .ok r.type) ∧
      (f'.fields.map (fun x => f'.heap.getNameRaw x.ref)).Nodup ∧
      ∀ b, some b ∈ f'.fields.map (fun x => f'.heap.getNameRaw x.ref) ↔ ∃ r ∈ Spec.accepted done rs, r.name = b := by
  induction rs with
  | nil =>
    intro f gs done hm _ _
    have hnames : f.fields.map (fun x => f.heap.getNameRaw x.ref) = (gs.map FieldGroup.name).map some := by
      rw [hm.form.fields, List.map_map, List.map_map]
      apply List.map_congr_left
      intro g hg
      simp only [Function.comp_apply, FDoc.getNameRaw, (hm.form.groups g hg).root.name]
    refine ⟨f, gs, rfl, hm, ?_, ?_, ?_⟩
    · intro r hr
      obtain ⟨g, hg, e1, e2, hw⟩ := hm.has r hr
      have := C153_widget f.heap g (hm.form.groups g hg) (hm.from_ g hg).1 r.widget hw stack hs
      rw [e1, e2] at this
      exact this
    · rw [hnames, List.Nodup, List.pairwise_map]
      exact List.Pairwise.imp (fun h e => h (Option.some.inj e)) hm.form.names
    · intro b
      rw [hnames]
      simp only [List.mem_map, Option.some.injEq, exists_eq_right]
      constructor
      · rintro ⟨g, hg, e⟩
        obtain ⟨_, r, hr, e1, _⟩ := hm.from_ g hg
        exact ⟨r, hr, e1.symm.trans e⟩
      · rintro ⟨r, hr, e⟩
        obtain ⟨g, hg, e1, _⟩ := hm.has r hr
        exact ⟨g, hg, e1.trans e⟩
  | cons r rs ih =>
    intro f gs done hm hr hnd
    obtain ⟨ht, hne, bw, bp, hwg, hpg⟩ := hr r (by simp)
    rw [List.flatMap_cons, List.nodup_append] at hnd
    obtain ⟨hnd1, hnd2, hnd3⟩ := hnd
    have hwp : r.widget ≠ r.spare := by simpa using hnd1
    rw [Form.createAll, Spec.accepted]
    by_cases hdot : (46 : UInt8) ∈ r.name
    · have : f.create stack r.name r.widget r.spare r.type = .error .exn := by rw [Form.create, if_pos hdot]
      rw [this, if_neg (by simp [hdot])]
      exact ih f gs done hm (fun x hx => hr x (by simp [hx])) hnd2
    · have key := C153_create_partial f gs hm.form stack hs r.name hdot r.widget r.spare bw bp hwp hwg hpg r.type ht
      have hnone := createGroup_none gs r done f hm
      cases hcg : Spec.createGroup gs r.name r.widget r.spare r.type with
      | none =>
        rw [hcg] at key hnone
        simp only at key
        rw [key, if_neg (fun h => (hnone.1 rfl) h.2)]
        exact ih f gs done hm (fun x hx => hr x (by simp [hx])) hnd2
      | some gs' =>
        rw [hcg] at key hnone
        simp only at key
        obtain ⟨f', k1, k2, k3⟩ := key
        have hall : ∀ d ∈ done, d.name = r.name → d.type = r.type := by
          simp only [reduceCtorEq, false_iff, Classical.not_not] at hnone; exact hnone
        rw [k1, if_pos ⟨hdot, hall⟩]
        obtain ⟨m1, m2, m3, m4⟩ := createGroup_made gs gs' r hcg hm.form.names
        refine ih f' gs' (done ++ [r]) ⟨k2, ?_, ?_⟩ ?_ hnd2
        · intro d hd
          rw [List.mem_append, List.mem_singleton] at hd
          rcases hd with hd | hd
          · obtain ⟨g, hg, e1, e2, e3⟩ := hm.has d hd
            obtain ⟨g', hg', a1, a2, a3⟩ := m2 g hg
            exact ⟨g', hg', a1.trans e1, a2.trans e2, a3 _ e3⟩
          · subst hd; exact m1
        · intro g' hg'
          rcases m3 g' hg' with ⟨e1, e2⟩ | ⟨g, hg, e1, e2⟩
          · exact ⟨by rw [e1]; exact hne, r, by simp, e1, e2⟩
          · obtain ⟨x1, d, hd, y1, y2⟩ := hm.from_ g hg
            exact ⟨by rw [e1]; exact x1, d, by simp [hd], e1.trans y1, e2.trans y2⟩
        · intro x hx
          obtain ⟨a1, a2, a3, a4, a5, a6⟩ := hr x (by simp [hx])
          have hmem : ∀ q ∈ [x.widget, x.spare], q ∈ rs.flatMap (fun r => [r.widget, r.spare]) := fun q hq => List.mem_flatMap.2 ⟨x, hx, hq⟩
          have ne1 : ∀ q ∈ [x.widget, x.spare], q ≠ r.widget := fun q hq h => hnd3 r.widget (by simp) q (hmem q hq) h.symm
          have ne2 : ∀ q ∈ [x.widget, x.spare], q ≠ r.spare := fun q hq h => hnd3 r.spare (by simp) q (hmem q hq) h.symm
          have fresh : ∀ q ∈ [x.widget, x.spare], q ∉ gs.flatMap FieldGroup.refs → q ∉ gs'.flatMap FieldGroup.refs := by
            intro q hq hn hin
            rcases m4 q hin with h | h | h
            · exact ne1 q hq h
            · exact ne2 q hq h
            · exact hn h
          exact ⟨a1, a2, blank_frame _ _ _ a3 (k3 _ (ne1 _ (by simp)) (ne2 _ (by simp)) a5), blank_frame _ _ _ a4 (k3 _ (ne1 _ (by simp)) (ne2 _ (by simp)) a6),
            fresh _ (by simp) a5, fresh _ (by simp) a6⟩

/-- A form without fields. -/
theorem made_empty (h : FDoc) : Spec.Made ⟨h, []⟩ [] [] := ⟨⟨rfl, List.nodup_nil, List.nodup_nil, by simp⟩, by simp, by simp⟩

/-- Five widgets and objects for parents, and calls of which the fourth is refused. -/
def createDoc : FDoc := fun r => if r.num < 20 then some (.dict []) else none
def createReqs : List FieldReq :=
  [⟨asciiB "a", ⟨1, 0⟩, ⟨11, 0⟩, .textBox⟩, ⟨asciiB "b", ⟨2, 0⟩, ⟨12, 0⟩, .checkBox⟩, ⟨asciiB "a", ⟨3, 0⟩, ⟨13, 0⟩, .textBox⟩,
   ⟨asciiB "a", ⟨4, 0⟩, ⟨14, 0⟩, .checkBox⟩, ⟨asciiB "a", ⟨5, 0⟩, ⟨15, 0⟩, .textBox⟩]

example : ∀ r ∈ createReqs, r.type ≠ .unknown ∧ r.name ≠ [] ∧ Spec.Blank createDoc r.widget ∧ Spec.Blank createDoc r.spare := by
  have blank : ∀ r : Ref, r.num < 20 → Spec.Blank createDoc r := by
    intro r hr
    have e : createDoc r = some (.dict []) := by simp [createDoc, hr]
    have hd : createDoc.dict r = [] := by simp [FDoc.dict, e]
    exact ⟨by rw [e, hd], by rw [hd]; trivial, by intro k _; rw [hd]; rfl⟩
  intro r hr
  simp only [createReqs, List.mem_cons, List.not_mem_nil, or_false] at hr
  rcases hr with e | e | e | e | e <;>
    (subst e; exact ⟨by simp, by decide, blank _ (by decide), blank _ (by decide)⟩)

example : (createReqs.flatMap (fun r => [r.widget, r.spare])).Nodup := by decide
example : (Spec.accepted [] createReqs).map (fun r => r.widget.num) = [1, 2, 3, 5] := by decide

/-- C153, what is wrong: fields read from a file, the names of which nobody has read yet, are not found.  A second field with the same name is put into the
form. -/
theorem C153_loaded_false (f : Form) (hraw : ∀ x ∈ f.fields, x.raw = true) (stack : Nat) (hs : 0 < stack) (name : Bytes) (hdot : (46 : UInt8) ∉ name) (w p : Ref)
    (hw : Spec.Blank f.heap w) (t : FieldType) (ht : t ≠ .unknown) :
    ∃ f', f.create stack name w p t = .ok f' ∧ f'.fields = f.fields ++ [⟨w, true, false, t⟩] ∧ f'.heap.getNameRaw w = some name ∧
      ∀ x ∈ f.fields, x.ref ≠ w → f'.heap.getNameRaw x.ref = f.heap.getNameRaw x.ref := by
  obtain ⟨d', c1, _, _, _⟩ := newField_root f.heap w hw.dict hw.sorted (hw.none _ (by simp)) (hw.none _ (by simp)) t ht stack hs
  have hc : f.candidate name = none := by
    rw [Form.candidate, List.find?_eq_none]
    intro x hx; simp [hraw x hx]
  rw [Form.create, if_neg hdot, hc]
  simp only [c1]
  refine ⟨_, rfl, rfl, ?_, ?_⟩
  · simp only [FDoc.getNameRaw, addKey_dict, if_true, SMap.find_insert_self]
  · intro x _ hx
    simp only [FDoc.getNameRaw, addKey_dict, if_neg hx, set_dict]

/-- C153, what is wrong: once the names have been read the field is found, but it has no pointer to itself: without kids creating a field of that name
follows a null pointer. -/
theorem C153_found_false (f : Form) (x : FormField) (name : Bytes) (hx : f.candidate name = some x) (hb : x.bound = false) (stack : Nat) (hs : 0 < stack)
    (hdot : (46 : UInt8) ∉ name) (hk : SMap.find? keyFieldKids (f.heap.dict x.ref) = none) (w p : Ref) (hp : Spec.Blank f.heap p) (ht : x.type ≠ .unknown) :
    f.create stack name w p x.type = .error .ub := by
  obtain ⟨d', c1, _⟩ := newField_root f.heap p hp.dict hp.sorted (hp.none _ (by simp)) (hp.none _ (by simp)) x.type ht stack hs
  rw [Form.create, if_neg hdot, hx]
  simp only
  rw [if_neg (by simp), if_neg (by simp [hk]), Form.promote, c1]
  simp [hb]

/-- C153, what is wrong: with kids the widget becomes a kid without parent, name and kind. -/
theorem C153_orphan_false (f : Form) (x : FormField) (name : Bytes) (hx : f.candidate name = some x) (hb : x.bound = false) (stack : Nat) (hs : 0 < stack)
    (hdot : (46 : UInt8) ∉ name) (l : List Var) (hk : SMap.find? keyFieldKids (f.heap.dict x.ref) = some (.arr l)) (w p : Ref) (hw : Spec.Blank f.heap w)
    (hwx : w ≠ x.ref) (ht : x.type ≠ .unknown) :
    ∃ f', f.create stack name w p x.type = .ok f' ∧ f'.heap.fullName false stack (f'.heap.dict w) = .ok [] ∧
      f'.heap.fieldType stack (f'.heap.dict w) = .ok .unknown ∧
      SMap.find? keyFieldKids (f'.heap.dict x.ref) = some (.arr (l ++ [.ref w.num w.gen])) := by
  obtain ⟨d', c1, c2, _, c6⟩ := newField_root f.heap w hw.dict hw.sorted (hw.none _ (by simp)) (hw.none _ (by simp)) x.type ht stack hs
  obtain ⟨h1, eh1⟩ : ∃ h1, h1 = (f.heap.set w (.dict d')).set w (.dict (dropKeys d')) := ⟨_, rfl⟩
  have hx1 : h1.dict x.ref = f.heap.dict x.ref := by rw [eh1, set_set, set_dict, if_neg (Ne.symm hwx)]
  have hw1 : h1.dict w = dropKeys d' := by rw [eh1, set_set, set_dict, if_pos rfl]
  have hc : f.create stack name w p x.type = .ok ⟨h1.addKey x.ref keyFieldKids (.arr (l ++ [.ref w.num w.gen])), f.fields⟩ := by
    rw [Form.create, if_neg hdot, hx]
    simp only
    rw [if_neg (by simp), if_pos (by simp [hk]), Form.join]
    simp only [hb, Bool.false_eq_true, if_false, c1]
    rw [show ((f.heap.set w (.dict d')).dict w) = d' by rw [set_dict, if_pos rfl], ← eh1, FDoc.addKid, hx1, hk]
  obtain ⟨h2, eh2⟩ : ∃ h2, h2 = h1.addKey x.ref keyFieldKids (.arr (l ++ [.ref w.num w.gen])) := ⟨_, rfl⟩
  rw [← eh2] at hc
  have hd2 : h2.dict w = dropKeys d' := by rw [eh2, addKey_dict, if_neg hwx, hw1]
  have hw2 : h2 w = some (.dict (h2.dict w)) := by rw [hd2, eh2, FDoc.addKey, set_other _ _ _ _ hwx, eh1]; simp [FDoc.set]
  have look : ∀ k, k ∈ parentKeys → SMap.find? k (h2.dict w) = none := by intro k hk'; rw [hd2, find_dropKeys _ c2, if_pos hk']
  have hpar : SMap.find? keyParent (h2.dict w) = none := by
    rw [hd2, find_dropKeys _ c2, if_neg (by decide), c6 _ (by decide) (by decide) (by decide)]; exact hw.none _ (by simp)
  have hl : Spec.Line h2 w [w] := .root hw2 hpar
  have hT := look keyT (by decide)
  refine ⟨_, hc, ?_, ?_, ?_⟩
  · rw [(C147_full_name_partial h2 w _ hl (by intro q hq; simp only [List.mem_singleton] at hq; subst hq; exact Or.inl hT) stack
      (by simp only [List.length_cons, List.length_nil]; omega)).1]
    have hT' : SMap.find? (asciiB "T") (h2.dict w) = none := hT
    simp [Spec.partials, Spec.ownName, hT', Spec.dotted]
  · exact fieldType_line hl _ (.absent (by simp [Spec.nearest, FDoc.findKey, look keyFT (by decide)])) stack (by simp only [List.length_cons, List.length_nil]; omega)
  · show SMap.find? keyFieldKids (h2.dict x.ref) = _
    rw [eh2, addKey_dict, if_pos rfl, SMap.find_insert_self]

/-- A form read from a file with one text field. -/
def loadedForm (raw : Bool) (kids : Bool) : Form :=
  ⟨fun r => if r = ⟨1, 0⟩ then
      some (.dict (SMap.insert keyT (.str (asciiB "a") false) (SMap.insert keyFT (.name (asciiB "Tx")) (if kids then [(keyFieldKids, .arr [])] else []))))
    else some (.dict []), [⟨⟨1, 0⟩, false, raw, .textBox⟩]⟩

example : ∀ x ∈ (loadedForm true false).fields, x.raw = true := by simp [loadedForm]
example : (loadedForm false false).candidate (asciiB "a") = some ⟨⟨1, 0⟩, false, false, .textBox⟩ := by rfl
example : SMap.find? keyFieldKids ((loadedForm false false).heap.dict ⟨1, 0⟩) = none := by rfl
example : (loadedForm false true).candidate (asciiB "a") = some ⟨⟨1, 0⟩, false, false, .textBox⟩ := by rfl
example : SMap.find? keyFieldKids ((loadedForm false true).heap.dict ⟨1, 0⟩) = some (.arr []) := by rfl

end Pdfmm
