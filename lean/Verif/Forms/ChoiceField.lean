import Verif.Forms.FieldFlags
/-
C150: the items of combo boxes and list boxes and the one that is selected.
-/
set_option autoImplicit false
namespace Pdfmm

def keyOpt : Bytes := asciiB "Opt"
def keyValue : Bytes := asciiB "V"
def keyFieldKids : Bytes := asciiB "Kids"

/-- `FindKey("Opt")` and `GetArray()`, as in all functions of `src/pdfmm/base/PdfChoiceField.cpp:34-170`. -/
def FDoc.opts (h : FDoc) (r : Ref) : Res (Option (List Var)) :=
  match h.findKey (h.dict r) keyOpt with
  | none => .ok none
  | some (.arr l) => .ok (some l)
  | some _ => raise .InvalidDataType

/-- The array found by `FindKey("Opt")` changes in place: in the field or in the object it refers to. -/
def FDoc.putOpts (h : FDoc) (r : Ref) (l : List Var) : FDoc :=
  match SMap.find? keyOpt (h.dict r) with
  | some (.ref n g) => h.set ⟨n, g⟩ (.arr l)
  | _ => h.addKey r keyOpt (.arr l)

/-- The object for an item, `src/pdfmm/base/PdfChoiceField.cpp:36-47`. -/
def itemVar (value : Bytes) : Option Bytes → Var
  | none => .str value false
  | some s => .arr [.str value false, .str s false]

/-- `PdChoiceField::InsertItem`, `src/pdfmm/base/PdfChoiceField.cpp:33-56`. -/
def FDoc.insertItem (h : FDoc) (r : Ref) (value : Bytes) (display : Option Bytes) : Res FDoc :=
  match h.opts r with
  | .error e => .error e
  | .ok none => .ok (h.addKey r keyOpt (.arr [itemVar value display]))
  | .ok (some l) => .ok (h.putOpts r (l ++ [itemVar value display]))

/-- `PdChoiceField::RemoveItem`, `src/pdfmm/base/PdfChoiceField.cpp:58-69`. -/
def FDoc.removeItem (h : FDoc) (r : Ref) (i : Nat) : Res FDoc :=
  match h.opts r with
  | .error e => .error e
  | .ok none => .ok h
  | .ok (some l) => if l.length ≤ i then raise .ValueOutOfRange else .ok (h.putOpts r (l.eraseIdx i))

/-- `MustFindAt(i).GetString()` on an array, `src/pdfmm/base/PdfArray.cpp:48-64, 253-263`. -/
def FDoc.stringAt (h : FDoc) (l : List Var) (i : Nat) : Res Bytes :=
  match l[i]? with
  | none => raise .ValueOutOfRange
  | some (.ref n g) =>
    match h ⟨n, g⟩ with
    | none => raise .NoObject
    | some (.str s _) => .ok s
    | some _ => raise .InvalidDataType
  | some (.str s _) => .ok s
  | some _ => raise .InvalidDataType

/-- The value of an item (`which` 0) or its text (`which` 1), `src/pdfmm/base/PdfChoiceField.cpp:82-96, 111-124`. -/
def FDoc.itemString (h : FDoc) (which : Nat) : Option Var → Res Bytes
  | some (.arr l) => if l.length < 2 then raise .InvalidDataType else h.stringAt l which
  | some (.str s _) => .ok s
  | some _ => raise .InvalidDataType
  | none => raise .ValueOutOfRange

/-- `PdChoiceField::GetItem`, `src/pdfmm/base/PdfChoiceField.cpp:71-94`. -/
def FDoc.getItem (h : FDoc) (r : Ref) (i : Nat) : Res Bytes :=
  match h.opts r with
  | .error e => .error e
  | .ok none => raise .InvalidHandle
  | .ok (some l) => if l.length ≤ i then raise .ValueOutOfRange else h.itemString 0 l[i]?

/-- `PdChoiceField::GetItemDisplayText`, `src/pdfmm/base/PdfChoiceField.cpp:96-121`. -/
def FDoc.getItemText (h : FDoc) (r : Ref) (i : Nat) : Res (Option Bytes) :=
  match h.opts r with
  | .error e => .error e
  | .ok none => .ok none
  | .ok (some l) => if l.length ≤ i then raise .ValueOutOfRange else (h.itemString 1 l[i]?).map some

/-- `PdChoiceField::GetItemCount`, `src/pdfmm/base/PdfChoiceField.cpp:123-130`. -/
def FDoc.itemCount (h : FDoc) (r : Ref) : Res Nat :=
  match h.opts r with
  | .error e => .error e
  | .ok none => .ok 0
  | .ok (some l) => .ok l.length

/-- `AssertTerminalField`, `src/pdfmm/base/PdfField.cpp:497-504`. -/
def FDoc.terminal (h : FDoc) (r : Ref) : Bool := (SMap.find? keyFieldKids (h.dict r)).isNone

/-- `PdChoiceField::SetSelectedIndex`, `src/pdfmm/base/PdfChoiceField.cpp:132-137`. -/
def FDoc.setSelected (h : FDoc) (r : Ref) (i : Nat) : Res FDoc :=
  if h.terminal r then
    match h.getItem r i with
    | .error e => .error e
    | .ok s => .ok (h.addKey r keyValue (.str s false))
  else raise .InternalLogic

/-- One item against the value, `src/pdfmm/base/PdfChoiceField.cpp:157-174`.  Strings are compared by their characters; that a raw string
never equals another kind of string (`canPerformComparison`) is left out. -/
def FDoc.itemIs (h : FDoc) (v : Bytes) : Option Var → Res Bool
  | some (.str s _) => .ok (decide (s = v))
  | some (.arr l) => (h.stringAt l 0).map (fun s => decide (s = v))
  | some _ => raise .InvalidDataType
  | none => raise .NoObject

/-- The object of an array entry, a reference followed. -/
def FDoc.deref (h : FDoc) : Var → Option Var
  | .ref n g => h ⟨n, g⟩
  | v => some v

/-- The loop over the items, `src/pdfmm/base/PdfChoiceField.cpp:155-175`. -/
def FDoc.selectedFrom (h : FDoc) (v : Bytes) : Nat → List Var → Res Int
  | _, [] => .ok (-1)
  | i, x :: l =>
    match h.itemIs v (h.deref x) with
    | .error e => .error e
    | .ok true => .ok i
    | .ok false => h.selectedFrom v (i + 1) l

/-- `PdChoiceField::GetSelectedIndex`, `src/pdfmm/base/PdfChoiceField.cpp:139-173`. -/
def FDoc.getSelected (h : FDoc) (r : Ref) : Res Int :=
  if h.terminal r then
    match h.findKey (h.dict r) keyValue with
    | some (.str v _) =>
      match h.opts r with
      | .error e => .error e
      | .ok none => .ok (-1)
      | .ok (some l) => h.selectedFrom v 0 l
    | _ => .ok (-1)
  else raise .InternalLogic

/-- The item an array entry stands for: a string, or a pair of value and text. -/
def Spec.itemOf : Var → Option (Bytes × Option Bytes)
  | .str s _ => some (s, none)
  | .arr [.str s _, .str t _] => some (s, some t)
  | _ => none

/-- The field has these items, in this order. -/
def Spec.HasItems (h : FDoc) (r : Ref) (items : List (Bytes × Option Bytes)) : Prop :=
  (h.opts r = .ok none ∧ items = []) ∨ ∃ l, h.opts r = .ok (some l) ∧ l.map Spec.itemOf = items.map some

theorem opts_some {h : FDoc} {r : Ref} {l : List Var} (ho : h.opts r = .ok (some l)) : h.findKey (h.dict r) keyOpt = some (.arr l) := by
  rw [FDoc.opts] at ho
  split at ho
  · cases ho
  · rename_i e; cases ho; exact e
  · cases ho

theorem opts_of {h : FDoc} {r : Ref} {l : List Var} (e : h.findKey (h.dict r) keyOpt = some (.arr l)) : h.opts r = .ok (some l) := by
  rw [FDoc.opts, e]

theorem opts_addKey (h : FDoc) (r : Ref) (l : List Var) : (h.addKey r keyOpt (.arr l)).opts r = .ok (some l) := by
  apply opts_of
  rw [addKey_dict, if_pos rfl, FDoc.findKey, SMap.find_insert_self]

theorem putOpts_opts (h : FDoc) (r : Ref) (hr : h r = some (.dict (h.dict r))) (l l' : List Var) (ho : h.opts r = .ok (some l)) :
    (h.putOpts r l').opts r = .ok (some l') := by
  have e := opts_some ho
  rw [FDoc.putOpts]
  split
  · rename_i n g hf
    rw [FDoc.findKey, hf] at e
    have hne : (⟨n, g⟩ : Ref) ≠ r := by intro x; simp only [] at e; rw [x, hr] at e; cases e
    have hd : (h.set ⟨n, g⟩ (.arr l')).dict r = h.dict r := by simp [FDoc.dict, FDoc.set, Ne.symm hne]
    apply opts_of
    rw [hd, FDoc.findKey, hf]
    simp [FDoc.set]
  · exact opts_addKey h r l'

theorem putOpts_cases (h : FDoc) (r : Ref) (l : List Var) : (∃ n g, SMap.find? keyOpt (h.dict r) = some (.ref n g) ∧ h.putOpts r l = h.set ⟨n, g⟩ (.arr l)) ∨
    h.putOpts r l = h.addKey r keyOpt (.arr l) := by
  rw [FDoc.putOpts]
  split
  · rename_i n g hf; exact Or.inl ⟨n, g, hf, rfl⟩
  · exact Or.inr rfl

theorem itemOf_itemVar (v : Bytes) (d : Option Bytes) : Spec.itemOf (itemVar v d) = some (v, d) := by
  cases d <;> rfl

theorem addKey_isDict (h : FDoc) (r : Ref) (k : Bytes) (v : Var) : (h.addKey r k v) r = some (.dict ((h.addKey r k v).dict r)) := by
  simp [FDoc.addKey, FDoc.set, FDoc.dict]

theorem putOpts_isDict (h : FDoc) (r : Ref) (hr : h r = some (.dict (h.dict r))) (l l' : List Var) (ho : h.opts r = .ok (some l)) :
    (h.putOpts r l') r = some (.dict ((h.putOpts r l').dict r)) := by
  have e := opts_some ho
  cases putOpts_cases h r l' with
  | inl hc =>
    obtain ⟨n, g, hf, hput⟩ := hc
    rw [FDoc.findKey, hf] at e
    have hne : (⟨n, g⟩ : Ref) ≠ r := by intro x; simp only [] at e; rw [x, hr] at e; cases e
    have hset : (h.set ⟨n, g⟩ (.arr l')) r = h r := by simp [FDoc.set, Ne.symm hne]
    have hd : (h.set ⟨n, g⟩ (.arr l')).dict r = h.dict r := by simp [FDoc.dict, hset]
    rw [hput, hd, hset]; exact hr
  | inr hput => rw [hput]; exact addKey_isDict ..

/-- C150: a new item becomes the last one. -/
theorem C150_insert (h : FDoc) (r : Ref) (hr : h r = some (.dict (h.dict r))) (items : List (Bytes × Option Bytes)) (hi : Spec.HasItems h r items)
    (v : Bytes) (d : Option Bytes) :
    ∃ h', h.insertItem r v d = .ok h' ∧ h' r = some (.dict (h'.dict r)) ∧ Spec.HasItems h' r (items ++ [(v, d)]) := by
  cases hi with
  | inl hi =>
    refine ⟨_, by rw [FDoc.insertItem, hi.1], addKey_isDict .., Or.inr ⟨_, opts_addKey .., ?_⟩⟩
    rw [hi.2]; simp [itemOf_itemVar]
  | inr hi =>
    obtain ⟨l, ho, hl⟩ := hi
    refine ⟨_, by rw [FDoc.insertItem, ho], putOpts_isDict h r hr l _ ho, Or.inr ⟨_, putOpts_opts h r hr l _ ho, ?_⟩⟩
    simp [itemOf_itemVar, hl]

theorem items_length {l : List Var} {items : List (Bytes × Option Bytes)} (hl : l.map Spec.itemOf = items.map some) : l.length = items.length := by
  have := congrArg List.length hl; simpa using this

theorem map_eraseIdx : ∀ (l : List Var) (items : List (Bytes × Option Bytes)) (i : Nat), l.map Spec.itemOf = items.map some →
    (l.eraseIdx i).map Spec.itemOf = (items.eraseIdx i).map some := by
  intro l
  induction l with
  | nil => intro items i hl; cases items with
    | nil => rfl
    | cons => simp at hl
  | cons x l ih =>
    intro items i hl
    cases items with
    | nil => simp at hl
    | cons y items =>
      simp only [List.map_cons, List.cons.injEq] at hl
      cases i with
      | zero => exact hl.2
      | succ i => simp only [List.eraseIdx_cons_succ, List.map_cons, hl.1, ih items i hl.2]

/-- C150: an item is removed, the others keep their order; an item that is not there is refused. -/
theorem C150_remove (h : FDoc) (r : Ref) (hr : h r = some (.dict (h.dict r))) (items : List (Bytes × Option Bytes)) (hi : Spec.HasItems h r items) (i : Nat) :
    (i < items.length → ∃ h', h.removeItem r i = .ok h' ∧ h' r = some (.dict (h'.dict r)) ∧ Spec.HasItems h' r (items.eraseIdx i)) ∧
      (items.length ≤ i → h.removeItem r i = raise .ValueOutOfRange ∨ h.removeItem r i = .ok h) := by
  cases hi with
  | inl hi =>
    rw [hi.2]
    exact ⟨fun x => by simp at x, fun _ => Or.inr (by rw [FDoc.removeItem, hi.1])⟩
  | inr hi =>
    obtain ⟨l, ho, hl⟩ := hi
    have hlen := items_length hl
    refine ⟨fun hlt => ⟨_, by rw [FDoc.removeItem, ho]; simp only []; rw [if_neg (by omega)], putOpts_isDict h r hr l _ ho,
      Or.inr ⟨_, putOpts_opts h r hr l _ ho, ?_⟩⟩, fun hge => Or.inl ?_⟩
    · exact map_eraseIdx l items i hl
    · rw [FDoc.removeItem, ho]; simp only []; rw [if_pos (by omega)]

theorem itemString_of (h : FDoc) (x : Var) (v : Bytes) (d : Option Bytes) (hx : Spec.itemOf x = some (v, d)) :
    h.itemString 0 (some x) = .ok v ∧ h.itemString 1 (some x) = .ok (d.getD v) := by
  rw [Spec.itemOf.eq_def] at hx
  split at hx
  · cases hx; exact ⟨rfl, rfl⟩
  · cases hx; exact ⟨rfl, rfl⟩
  · cases hx

theorem items_get {l : List Var} {items : List (Bytes × Option Bytes)} (hl : l.map Spec.itemOf = items.map some) (i : Nat) (hi : i < items.length) :
    ∃ x, l[i]? = some x ∧ Spec.itemOf x = some items[i] := by
  have hlen := items_length hl
  refine ⟨l[i]'(by omega), by simp [hlen, hi], ?_⟩
  have := congrArg (fun y : List (Option (Bytes × Option Bytes)) => y[i]?) hl
  simpa [hlen, hi] using this

/-- C150: the items read back: how many, the value and the text of each. -/
theorem C150_items (h : FDoc) (r : Ref) (items : List (Bytes × Option Bytes)) (hi : Spec.HasItems h r items) :
    h.itemCount r = .ok items.length ∧
      ∀ (i : Nat) (hlt : i < items.length), h.getItem r i = .ok items[i].1 ∧ h.getItemText r i = .ok (some (items[i].2.getD items[i].1)) := by
  cases hi with
  | inl hi =>
    refine ⟨by rw [FDoc.itemCount, hi.1, hi.2]; rfl, fun i hlt => ?_⟩
    rw [hi.2] at hlt; simp at hlt
  | inr hi =>
    obtain ⟨l, ho, hl⟩ := hi
    have hlen := items_length hl
    refine ⟨by rw [FDoc.itemCount, ho, ← hlen], fun i hlt => ?_⟩
    obtain ⟨x, hx, hxi⟩ := items_get hl i hlt
    have := itemString_of h x items[i].1 items[i].2 hxi
    refine ⟨?_, ?_⟩
    · rw [FDoc.getItem, ho]; simp only []; rw [if_neg (by omega), hx]; exact this.1
    · rw [FDoc.getItemText, ho]; simp only []; rw [if_neg (by omega), hx, this.2]; rfl

/-- What a user does to the items. -/
inductive ItemOp
  | insert (v : Bytes) (d : Option Bytes)
  | remove (i : Nat)

/-- One operation; a refused one leaves the field as it is. -/
def FDoc.itemOp (h : FDoc) (r : Ref) : ItemOp → FDoc
  | .insert v d => match h.insertItem r v d with | .ok h' => h' | .error _ => h
  | .remove i => match h.removeItem r i with | .ok h' => h' | .error _ => h

/-- The same on a list. -/
def Spec.itemOp (items : List (Bytes × Option Bytes)) : ItemOp → List (Bytes × Option Bytes)
  | .insert v d => items ++ [(v, d)]
  | .remove i => items.eraseIdx i

/-- C150: after any history the items are those of a list with the same history. -/
theorem C150_history (r : Ref) : ∀ (ops : List ItemOp) (h : FDoc) (items : List (Bytes × Option Bytes)), h r = some (.dict (h.dict r)) →
    Spec.HasItems h r items →
    (ops.foldl (fun h o => h.itemOp r o) h) r = some (.dict ((ops.foldl (fun h o => h.itemOp r o) h).dict r)) ∧
      Spec.HasItems (ops.foldl (fun h o => h.itemOp r o) h) r (ops.foldl Spec.itemOp items) := by
  intro ops
  induction ops with
  | nil => intro h items hr hi; exact ⟨hr, hi⟩
  | cons o ops ih =>
    intro h items hr hi
    simp only [List.foldl_cons]
    have : (h.itemOp r o) r = some (.dict ((h.itemOp r o).dict r)) ∧ Spec.HasItems (h.itemOp r o) r (Spec.itemOp items o) := by
      cases o with
      | insert v d =>
        obtain ⟨h', e, h1, h2⟩ := C150_insert h r hr items hi v d
        simp only [FDoc.itemOp, e]; exact ⟨h1, h2⟩
      | remove i =>
        have hrm := C150_remove h r hr items hi i
        by_cases hlt : i < items.length
        · obtain ⟨h', e, h1, h2⟩ := hrm.1 hlt
          simp only [FDoc.itemOp, e]; exact ⟨h1, h2⟩
        · have hsame : Spec.itemOp items (.remove i) = items := List.eraseIdx_of_length_le (by omega)
          rw [hsame]
          cases hrm.2 (by omega) with
          | inl e => simp only [FDoc.itemOp, e, raise]; exact ⟨hr, hi⟩
          | inr e => simp only [FDoc.itemOp, e]; exact ⟨hr, hi⟩
    exact ih _ _ this.1 this.2

/-- The first item with a value, counted from `i`, or -1. -/
def Spec.firstWith (v : Bytes) : Nat → List (Bytes × Option Bytes) → Int
  | _, [] => -1
  | i, x :: l => if x.1 = v then i else Spec.firstWith v (i + 1) l

theorem selectedFrom_items (h : FDoc) (v : Bytes) : ∀ (l : List Var) (items : List (Bytes × Option Bytes)) (i : Nat), l.map Spec.itemOf = items.map some →
    h.selectedFrom v i l = .ok (Spec.firstWith v i items) := by
  intro l
  induction l with
  | nil =>
    intro items i hl
    have : items = [] := by cases items with
      | nil => rfl
      | cons => simp at hl
    subst this; rfl
  | cons x l ih =>
    intro items i hl
    cases items with
    | nil => simp at hl
    | cons y items =>
      simp only [List.map_cons, List.cons.injEq] at hl
      have hx : h.itemIs v (h.deref x) = .ok (decide (y.1 = v)) := by
        have h1 := hl.1
        rw [Spec.itemOf.eq_def] at h1
        split at h1
        · cases h1; rfl
        · cases h1; rfl
        · cases h1
      rw [FDoc.selectedFrom, hx, Spec.firstWith]
      by_cases e : y.1 = v
      · simp [e]
      · simp only [e, decide_false, if_false]; exact ih items (i + 1) hl.2

/-- C150: which item is selected is told by the value: the first item that has it. -/
theorem C150_selected (h : FDoc) (r : Ref) (items : List (Bytes × Option Bytes)) (hi : Spec.HasItems h r items) (ht : h.terminal r = true)
    (v : Bytes) (hex : Bool) (hv : h.findKey (h.dict r) keyValue = some (.str v hex)) : h.getSelected r = .ok (Spec.firstWith v 0 items) := by
  rw [FDoc.getSelected, if_pos ht, hv]
  cases hi with
  | inl hi => simp only [hi.1]; rw [hi.2]; rfl
  | inr hi =>
    obtain ⟨l, ho, hl⟩ := hi
    simp only [ho]; exact selectedFrom_items h v l items 0 hl

theorem firstWith_spec (v : Bytes) : ∀ (items : List (Bytes × Option Bytes)) (n i : Nat) (hi : i < items.length), items[i].1 = v →
    (∀ (j : Nat) (hj : j < i), (items[j]'(by omega)).1 ≠ v) → Spec.firstWith v n items = ((n + i : Nat) : Int) := by
  intro items
  induction items with
  | nil => intro n i hi; simp at hi
  | cons x items ih =>
    intro n i hi he hf
    rw [Spec.firstWith]
    cases i with
    | zero => simp only [List.getElem_cons_zero] at he; simp [he]
    | succ i =>
      have h0 := hf 0 (by omega)
      simp only [List.getElem_cons_zero] at h0
      rw [if_neg h0, ih (n + 1) i (by simpa using hi) (by simpa using he) ?_]
      · congr 1; omega
      · intro j hj
        have := hf (j + 1) (by omega)
        simpa using this

theorem setSelected_ok (h : FDoc) (r : Ref) (hr : h r = some (.dict (h.dict r))) (items : List (Bytes × Option Bytes)) (hi : Spec.HasItems h r items)
    (ht : h.terminal r = true) (i : Nat) (hlt : i < items.length) :
    ∃ h', h.setSelected r i = .ok h' ∧ Spec.HasItems h' r items ∧ h'.terminal r = true ∧ h'.findKey (h'.dict r) keyValue = some (.str items[i].1 false) := by
  have hg := ((C150_items h r items hi).2 i hlt).1
  refine ⟨_, by rw [FDoc.setSelected, if_pos ht, hg], ?_, ?_, ?_⟩
  · have hkey : (h.addKey r keyValue (.str items[i].1 false)).findKey ((h.addKey r keyValue (.str items[i].1 false)).dict r) keyOpt =
        (h.addKey r keyValue (.str items[i].1 false)).findKey (h.dict r) keyOpt := by
      apply findKey_congr
      rw [addKey_dict, if_pos rfl, SMap.find_insert_ne _ _ (by decide)]
    cases hi with
    | inl hi => rw [hi.2] at hlt; simp at hlt
    | inr hi =>
      obtain ⟨l, ho, hl⟩ := hi
      refine Or.inr ⟨l, opts_of ?_, hl⟩
      have e := opts_some ho
      rw [hkey]
      cases findKey_set h r (SMap.insert keyValue (.str items[i].1 false) (h.dict r)) hr (h.dict r) keyOpt with
      | inl x => rw [FDoc.addKey, x]; exact e
      | inr x => rw [x.1] at e; cases e
  · rw [FDoc.terminal, addKey_dict, if_pos rfl, SMap.find_insert_ne _ _ (by decide)]; exact ht
  · rw [addKey_dict, if_pos rfl, FDoc.findKey, SMap.find_insert_self]

/-- C150: the selected item is the one that was selected, when no item before it has the same value. -/
theorem C150_select_partial (h : FDoc) (r : Ref) (hr : h r = some (.dict (h.dict r))) (items : List (Bytes × Option Bytes)) (hi : Spec.HasItems h r items)
    (ht : h.terminal r = true) (i : Nat) (hlt : i < items.length) (hfirst : ∀ (j : Nat) (hj : j < i), (items[j]'(by omega)).1 ≠ items[i].1) :
    ∃ h', h.setSelected r i = .ok h' ∧ h'.getSelected r = .ok (i : Int) ∧ Spec.HasItems h' r items := by
  obtain ⟨h', e, h1, h2, h3⟩ := setSelected_ok h r hr items hi ht i hlt
  refine ⟨h', e, ?_, h1⟩
  rw [C150_selected h' r items h1 h2 _ _ h3, firstWith_spec _ items 0 i hlt rfl hfirst]
  simp

/-- C150, what is wrong: when an item before it has the same value, that one is reported instead. -/
theorem C150_select_false (h : FDoc) (r : Ref) (hr : h r = some (.dict (h.dict r))) (items : List (Bytes × Option Bytes)) (hi : Spec.HasItems h r items)
    (ht : h.terminal r = true) (i j : Nat) (hlt : i < items.length) (hj : j < i) (he : (items[j]'(by omega)).1 = items[i].1) :
    ∃ h' n, h.setSelected r i = .ok h' ∧ h'.getSelected r = .ok n ∧ n ≠ (i : Int) ∧ n ≤ (j : Int) := by
  obtain ⟨h', e, h1, h2, h3⟩ := setSelected_ok h r hr items hi ht i hlt
  refine ⟨h', _, e, C150_selected h' r items h1 h2 _ _ h3, ?_⟩
  have key : ∀ (items : List (Bytes × Option Bytes)) (n j : Nat) (v : Bytes) (hj : j < items.length), items[j].1 = v →
      Spec.firstWith v n items ≤ ((n + j : Nat) : Int) := by
    intro items
    induction items with
    | nil => intro n j v hj; simp at hj
    | cons x items ih =>
      intro n j v hj he
      rw [Spec.firstWith]
      split
      · omega
      · rename_i hx
        cases j with
        | zero => simp only [List.getElem_cons_zero] at he; exact absurd he hx
        | succ j =>
          have := ih (n + 1) j v (by simpa using hj) (by simpa using he)
          omega
  have := key items 0 j items[i].1 (by omega) he
  simp only [Nat.zero_add] at this
  exact ⟨by omega, this⟩

/-- C150, what is wrong: removing the item that is selected leaves its value in the field, though no item has it. -/
theorem C150_stale_false (h : FDoc) (r : Ref) (hr : h r = some (.dict (h.dict r))) (items : List (Bytes × Option Bytes)) (hi : Spec.HasItems h r items)
    (ht : h.terminal r = true) (i : Nat) (hlt : i < items.length) (huniq : ∀ (j : Nat) (hj : j < items.length), j ≠ i → items[j].1 ≠ items[i].1)
    (hopt : ∀ n g, SMap.find? keyOpt (h.dict r) ≠ some (.ref n g)) :
    ∃ h' h'', h.setSelected r i = .ok h' ∧ h'.removeItem r i = .ok h'' ∧ h''.findKey (h''.dict r) keyValue = some (.str items[i].1 false) ∧
      h''.getSelected r = .ok (-1) := by
  obtain ⟨h', e, h1, h2, h3⟩ := setSelected_ok h r hr items hi ht i hlt
  have hr' : h' r = some (.dict (h'.dict r)) := by
    rw [FDoc.setSelected, if_pos ht] at e
    cases hg : h.getItem r i with
    | error x => rw [hg] at e; cases e
    | ok s => rw [hg] at e; cases e; exact addKey_isDict ..
  obtain ⟨h'', e2, h4, h5⟩ := (C150_remove h' r hr' items h1 i).1 hlt
  have hdir : ∀ n g, SMap.find? keyOpt (h'.dict r) ≠ some (.ref n g) := by
    rw [FDoc.setSelected, if_pos ht] at e
    cases hg : h.getItem r i with
    | error x => rw [hg] at e; cases e
    | ok s =>
      rw [hg] at e; cases e
      intro n g
      rw [addKey_dict, if_pos rfl, SMap.find_insert_ne _ _ (by decide)]; exact hopt n g
  obtain ⟨l', el'⟩ : ∃ l', h'' = h'.addKey r keyOpt (.arr l') := by
    rw [FDoc.removeItem] at e2
    cases ho : h'.opts r with
    | error x => rw [ho] at e2; cases e2
    | ok o =>
      rw [ho] at e2
      cases o with
      | none =>
        cases h1 with
        | inl h1 => rw [h1.2] at hlt; simp at hlt
        | inr h1 => obtain ⟨l, hl, _⟩ := h1; rw [ho] at hl; cases hl
      | some l =>
        simp only [] at e2
        split at e2
        · cases e2
        · cases e2
          refine ⟨l.eraseIdx i, ?_⟩
          rw [FDoc.putOpts]
          split
          · rename_i n g hf; exact absurd hf (hdir n g)
          · rfl
  have hval : h''.findKey (h''.dict r) keyValue = some (.str items[i].1 false) := by
    have hk : h''.findKey (h''.dict r) keyValue = h''.findKey (h'.dict r) keyValue := by
      apply findKey_congr
      rw [el', addKey_dict, if_pos rfl, SMap.find_insert_ne _ _ (by decide)]
    rw [hk, el']
    cases findKey_set h' r (SMap.insert keyOpt (.arr l') (h'.dict r)) hr' (h'.dict r) keyValue with
    | inl x => rw [FDoc.addKey, x]; exact h3
    | inr x => rw [x.1] at h3; cases h3
  have hterm : h''.terminal r = true := by
    rw [el', FDoc.terminal, addKey_dict, if_pos rfl, SMap.find_insert_ne _ _ (by decide)]; exact h2
  refine ⟨h', h'', e, e2, hval, ?_⟩
  rw [C150_selected h'' r _ h5 hterm _ _ hval]
  have key : ∀ (items : List (Bytes × Option Bytes)) (n : Nat) (v : Bytes), (∀ x ∈ items, x.1 ≠ v) → Spec.firstWith v n items = -1 := by
    intro items
    induction items with
    | nil => intros; rfl
    | cons x items ih =>
      intro n v hx
      rw [Spec.firstWith, if_neg (hx x (by simp))]
      exact ih (n + 1) v (fun y hy => hx y (by simp [hy]))
  rw [key]
  intro x hx
  rw [List.mem_iff_getElem] at hx
  obtain ⟨j, hj, hxj⟩ := hx
  rw [List.getElem_eraseIdx] at hxj
  rw [← hxj]
  split
  · exact huniq j (by omega) (by omega)
  · rw [List.length_eraseIdx] at hj
    split at hj
    · exact huniq (j + 1) (by omega) (by omega)
    · omega

/-- A combo box with two items of the same value and one with a text. -/
def choiceDoc : FDoc := fun r =>
  if r = ⟨1, 0⟩ then some (.dict [(asciiB "Opt", .ref 2 0)])
  else if r = ⟨2, 0⟩ then some (.arr [.str (asciiB "a") false, .arr [.str (asciiB "b") true, .str (asciiB "B") false], .str (asciiB "a") false])
  else none

example : Spec.HasItems choiceDoc ⟨1, 0⟩ [(asciiB "a", none), (asciiB "b", some (asciiB "B")), (asciiB "a", none)] := Or.inr ⟨_, rfl, rfl⟩
example : choiceDoc.getItemText ⟨1, 0⟩ 1 = .ok (some (asciiB "B")) := by decide
example : (choiceDoc.setSelected ⟨1, 0⟩ 1).map (fun h => h.getSelected ⟨1, 0⟩) = .ok (.ok 1) := by decide
example : (choiceDoc.setSelected ⟨1, 0⟩ 2).map (fun h => h.getSelected ⟨1, 0⟩) = .ok (.ok 0) := by decide
example : (choiceDoc.removeItem ⟨1, 0⟩ 0).map (fun h => (h.itemCount ⟨1, 0⟩, h.getItem ⟨1, 0⟩ 0)) = .ok (.ok 2, .ok (asciiB "b")) := by decide
example : (choiceDoc.insertItem ⟨1, 0⟩ (asciiB "c") none).map (fun h => (h.itemCount ⟨1, 0⟩, h.getItem ⟨1, 0⟩ 3)) = .ok (.ok 4, .ok (asciiB "c")) := by decide

end Pdfmm
