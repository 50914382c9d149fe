import Verif.Forms.ChoiceField
/-
C151: the text of text boxes and the state of check boxes.
-/
set_option autoImplicit false
namespace Pdfmm

def keyRV : Bytes := asciiB "RV"
def keyMaxLen : Bytes := asciiB "MaxLen"
def keyAS : Bytes := asciiB "AS"

/-- `PdfTextBox::IsRichText`, `src/pdfmm/base/PdfTextBox.cpp:148-151`. -/
def FDoc.isRich (h : FDoc) (stack : Nat) (r : Ref) : Res Bool := h.getFlag stack r (BitVec.twoPow 64 25) false

/-- `IsRichText() ? "RV" : "V"`, `src/pdfmm/base/PdfTextBox.cpp:41, 61`. -/
def textKey (rich : Bool) : Bytes := if rich then keyRV else keyValue

/-- `PdfTextBox::GetMaxLen`, `src/pdfmm/base/PdfTextBox.cpp:75-83`: the test is the wrong way round, and what is given for
something that is not a number is the zero `TryGetNumber` leaves. -/
def FDoc.getMaxLen (h : FDoc) (stack : Nat) (r : Ref) : Res Int :=
  match h.findKeyParent keyMaxLen stack (h.dict r) with
  | .error e => .error e
  | .ok none => .ok (-1)
  | .ok (some (.num _)) => .ok (-1)
  | .ok (some _) => .ok 0

/-- `PdfTextBox::SetMaxLen`, `src/pdfmm/base/PdfTextBox.cpp:70-73`. -/
def FDoc.setMaxLen (h : FDoc) (r : Ref) (n : Int) : FDoc := h.addKey r keyMaxLen (.num n)

/-- The part of `SetText` below the test for rich text, `src/pdfmm/base/PdfTextBox.cpp:42-56`.  `(unsigned)maxLength` keeps 32 bits. -/
def FDoc.putText (h : FDoc) (stack : Nat) (r : Ref) (key : Bytes) : Option Bytes → Res FDoc
  | none => .ok (h.removeKey r key)
  | some s =>
    match h.getMaxLen stack r with
    | .error e => .error e
    | .ok n => if n ≠ -1 ∧ (n % 2 ^ 32).toNat < s.length then raise .ValueOutOfRange else .ok (h.addKey r key (.str s false))

/-- `PdfTextBox::SetText`, `src/pdfmm/base/PdfTextBox.cpp:38-56`. -/
def FDoc.setText (h : FDoc) (stack : Nat) (r : Ref) (t : Option Bytes) : Res FDoc :=
  if h.terminal r then
    match h.isRich stack r with
    | .error e => .error e
    | .ok rich => h.putText stack r (textKey rich) t
  else raise .InternalLogic

/-- `PdfTextBox::GetText`, `src/pdfmm/base/PdfTextBox.cpp:58-68`. -/
def FDoc.getText (h : FDoc) (stack : Nat) (r : Ref) : Res (Option Bytes) :=
  if h.terminal r then
    match h.isRich stack r with
    | .error e => .error e
    | .ok rich =>
      match h.findKeyParent (textKey rich) stack (h.dict r) with
      | .error e => .error e
      | .ok (some (.str s _)) => .ok (some s)
      | .ok _ => .ok none
  else raise .InternalLogic

theorem isRich_line {h : FDoc} {r : Ref} {l : List Ref} (hl : Spec.Line h r l) (f : Option (BitVec 64)) (hf : Spec.FlagsAre h l f) (stack : Nat)
    (hs : l.length ≤ stack) : h.isRich stack r = .ok ((f.getD 0).getLsbD 25) := by
  rw [FDoc.isRich, FDoc.getFlag, getFlags_line hl f hf stack hs]
  cases f with
  | none => simp
  | some f => simp only [has_bit f 25 (by omega), Option.getD_some]

theorem FlagsAre_addKey {h : FDoc} {r : Ref} {l : List Ref} (hl : Spec.Line h r l) (f : Option (BitVec 64)) (hf : Spec.FlagsAre h l f) (k : Bytes) (v : Var)
    (hk : keyFf ≠ k) : Spec.FlagsAre (h.addKey r k v) l f := by
  have hn := nearest_addKey_ne h r keyFf k v hl.isDict hk l hf.plain
  cases hf with
  | absent e => exact .absent (by rw [hn]; exact e)
  | present n e => exact .present n (by rw [hn]; exact e)

theorem textKey_facts (b : Bool) : keyFf ≠ textKey b ∧ textKey b ≠ keyParent ∧ keyFieldKids ≠ textKey b ∧ keyMaxLen ≠ textKey b := by
  cases b <;> decide

/-- The limit is absent or a number, as it is when only `SetMaxLen` writes it. -/
inductive Spec.LimitIs (h : FDoc) (l : List Ref) : Option Int → Prop
  | absent : Spec.nearest h keyMaxLen l = none → Spec.LimitIs h l none
  | present (n : Int) : Spec.nearest h keyMaxLen l = some (.num n) → Spec.LimitIs h l (some n)

theorem getMaxLen_line {h : FDoc} {r : Ref} {l : List Ref} (hl : Spec.Line h r l) (m : Option Int) (hm : Spec.LimitIs h l m) (stack : Nat)
    (hs : l.length ≤ stack) : h.getMaxLen stack r = .ok (-1) := by
  rw [FDoc.getMaxLen, line_findKeyParent hl keyMaxLen stack hs]
  cases hm with
  | absent e => rw [Spec.nearest] at e; rw [e]
  | present n e => rw [Spec.nearest] at e; rw [e]

/-- C151: the text that was set is the text read, whatever it is: this is also what is wrong, since no limit on its length holds. -/
theorem C151_text_partial (h : FDoc) (r : Ref) (l : List Ref) (hl : Spec.Line h r l) (f : Option (BitVec 64)) (hf : Spec.FlagsAre h l f)
    (m : Option Int) (hm : Spec.LimitIs h l m) (ht : h.terminal r = true) (stack : Nat) (hs : l.length ≤ stack) (s : Bytes) :
    ∃ h', h.setText stack r (some s) = .ok h' ∧ h'.getText stack r = .ok (some s) ∧
      SMap.find? (if (f.getD 0).getLsbD 25 then asciiB "RV" else asciiB "V") (h'.dict r) = some (.str s false) ∧ ∀ q, q ≠ r → h' q = h q := by
  obtain ⟨k1, k2, k3, k4⟩ := textKey_facts ((f.getD 0).getLsbD 25)
  have hset : h.setText stack r (some s) = .ok (h.addKey r (textKey ((f.getD 0).getLsbD 25)) (.str s false)) := by
    rw [FDoc.setText, if_pos ht, isRich_line hl f hf stack hs]
    simp only [FDoc.putText, getMaxLen_line hl m hm stack hs]
    rw [if_neg (by simp)]
  refine ⟨_, hset, ?_, ?_, fun q hq => by simp [FDoc.addKey, FDoc.set, hq]⟩
  case refine_2 =>
    have : (if (f.getD 0).getLsbD 25 then asciiB "RV" else asciiB "V") = textKey ((f.getD 0).getLsbD 25) := rfl
    rw [this, addKey_dict, if_pos rfl, SMap.find_insert_self]
  have hl' := hl.addKey r (textKey ((f.getD 0).getLsbD 25)) (.str s false) k2
  have hf' := FlagsAre_addKey hl f hf (textKey ((f.getD 0).getLsbD 25)) (.str s false) k1
  have ht' : (h.addKey r (textKey ((f.getD 0).getLsbD 25)) (.str s false)).terminal r = true := by
    rw [FDoc.terminal, addKey_dict, if_pos rfl, SMap.find_insert_ne _ _ k3]; exact ht
  rw [FDoc.getText, if_pos ht', isRich_line hl' f hf' stack hs]
  simp only [line_findKeyParent hl' _ stack hs]
  obtain ⟨t, hlt⟩ := hl.ne_nil
  have := nearest_addKey_self h r (textKey ((f.getD 0).getLsbD 25)) (.str s false) t (by simp)
  rw [← hlt, Spec.nearest] at this
  rw [this]

/-- C151, what is wrong: the limit set on the length of the text is never given back, and text of any length is accepted. -/
theorem C151_limit_false (h : FDoc) (r : Ref) (l : List Ref) (hl : Spec.Line h r l) (f : Option (BitVec 64)) (hf : Spec.FlagsAre h l f)
    (ht : h.terminal r = true) (stack : Nat) (hs : l.length ≤ stack) (n : Int) (s : Bytes) :
    (h.setMaxLen r n).getMaxLen stack r = .ok (-1) ∧
      ∃ h', (h.setMaxLen r n).setText stack r (some s) = .ok h' ∧ h'.getText stack r = .ok (some s) := by
  have hl' := hl.addKey r keyMaxLen (.num n) (by decide)
  have hf' := FlagsAre_addKey hl f hf keyMaxLen (.num n) (by decide)
  have hm : Spec.LimitIs (h.setMaxLen r n) l (some n) := by
    obtain ⟨t, hlt⟩ := hl.ne_nil
    have := nearest_addKey_self h r keyMaxLen (.num n) t (by simp)
    exact .present n (by rw [hlt]; exact this)
  have ht' : (h.setMaxLen r n).terminal r = true := by
    rw [FDoc.setMaxLen, FDoc.terminal, addKey_dict, if_pos rfl, SMap.find_insert_ne _ _ (by decide)]; exact ht
  obtain ⟨h', e1, e2, _⟩ := C151_text_partial _ r l hl' f hf' _ hm ht' stack hs s
  exact ⟨getMaxLen_line hl' _ hm stack hs, h', e1, e2⟩

/-- C151: removing the text removes the entry of the field and nothing else; what is read then is what the parents have. -/
theorem C151_removed (h : FDoc) (r : Ref) (l : List Ref) (hl : Spec.Line h r l) (f : Option (BitVec 64)) (hf : Spec.FlagsAre h l f)
    (ht : h.terminal r = true) (stack : Nat) (hs : l.length ≤ stack) (hsorted : SMap.Sorted (h.dict r)) :
    ∃ h', h.setText stack r none = .ok h' ∧ SMap.find? (if (f.getD 0).getLsbD 25 then asciiB "RV" else asciiB "V") (h'.dict r) = none ∧
      (∀ k, k ≠ (if (f.getD 0).getLsbD 25 then asciiB "RV" else asciiB "V") → SMap.find? k (h'.dict r) = SMap.find? k (h.dict r)) ∧
      (∀ q, q ≠ r → h' q = h q) ∧ (l = [r] → h'.getText stack r = .ok none) := by
  obtain ⟨k, hk⟩ : ∃ k, k = textKey ((f.getD 0).getLsbD 25) := ⟨_, rfl⟩
  obtain ⟨k1, k2, k3, k4⟩ := textKey_facts ((f.getD 0).getLsbD 25)
  have e : (if (f.getD 0).getLsbD 25 then asciiB "RV" else asciiB "V") = k := by rw [hk]; rfl
  rw [← hk] at k1 k2 k3 k4
  have hset : h.setText stack r none = .ok (h.removeKey r k) := by
    rw [FDoc.setText, if_pos ht, isRich_line hl f hf stack hs, hk]; rfl
  have hd : (h.removeKey r k).dict r = SMap.erase k (h.dict r) := by rw [FDoc.removeKey, set_dict, if_pos rfl]
  have hfind : ∀ k', SMap.find? k' ((h.removeKey r k).dict r) = if k' = k then none else SMap.find? k' (h.dict r) := by
    intro k'; rw [hd, SMap.find_erase _ _ hsorted]
  refine ⟨_, hset, ?_, ?_, ?_, ?_⟩
  · rw [e, hfind, if_pos rfl]
  · rw [e]; intro k' hk'; rw [hfind, if_neg hk']
  · intro q hq; simp [FDoc.removeKey, FDoc.set, hq]
  · intro hlr
    subst hlr
    have hpar : SMap.find? keyParent (h.dict r) = none := by
      cases hl with
      | root _ hp => exact hp
      | child _ _ hq => cases hq
    have hl' : Spec.Line (h.removeKey r k) r [r] := .root (set_isDict h r r _ hl.isDict) (by rw [hfind, if_neg (Ne.symm k2)]; exact hpar)
    have hff : SMap.find? keyFf ((h.removeKey r k).dict r) = SMap.find? keyFf (h.dict r) := by rw [hfind, if_neg k1]
    have hnear : Spec.nearest (h.removeKey r k) keyFf [r] = Spec.nearest h keyFf [r] := by
      have plain := hf.plain
      simp only [Spec.nearest, List.findSome?_cons, List.findSome?_nil] at plain ⊢
      rw [findKey_congr _ _ (h.dict r) keyFf hff]
      cases findKey_set h r (SMap.erase k (h.dict r)) hl.isDict (h.dict r) keyFf with
      | inl e => rw [FDoc.removeKey, e]
      | inr e => rw [e.1] at plain; exact absurd plain (by simp [Plain])
    have hf' : Spec.FlagsAre (h.removeKey r k) [r] f := by
      clear e hset
      cases hf with
      | absent x => exact .absent (hnear.trans x)
      | present n x => exact .present n (hnear.trans x)
    have ht' : (h.removeKey r k).terminal r = true := by
      rw [FDoc.terminal, hfind, if_neg k3]; exact ht
    rw [FDoc.getText, if_pos ht', isRich_line hl' f hf' stack hs]
    simp only [line_findKeyParent hl' _ stack hs, ← hk]
    have : (h.removeKey r k).findKey ((h.removeKey r k).dict r) k = none := by rw [FDoc.findKey, hfind, if_pos rfl]
    simp [this]

/-- C151, what is wrong: where the limit is not a number every text with a character is refused, and only those. -/
theorem C151_limit_type_false (h : FDoc) (r : Ref) (l : List Ref) (hl : Spec.Line h r l) (f : Option (BitVec 64)) (hf : Spec.FlagsAre h l f)
    (v : Var) (hv : Spec.nearest h keyMaxLen l = some v) (hnum : ∀ n, v ≠ .num n) (ht : h.terminal r = true) (stack : Nat) (hs : l.length ≤ stack)
    (s : Bytes) : (s ≠ [] → h.setText stack r (some s) = raise .ValueOutOfRange) ∧ ∃ h', h.setText stack r (some []) = .ok h' := by
  have hg : h.getMaxLen stack r = .ok 0 := by
    rw [FDoc.getMaxLen, line_findKeyParent hl keyMaxLen stack hs]
    rw [Spec.nearest] at hv; rw [hv]
    cases v <;> first | rfl | exact absurd rfl (hnum _)
  constructor
  · intro hne
    rw [FDoc.setText, if_pos ht, isRich_line hl f hf stack hs]
    simp only [FDoc.putText, hg]
    rw [if_pos]
    refine ⟨by decide, ?_⟩
    have : 0 < s.length := List.length_pos_iff.2 hne
    simpa using this
  · rw [FDoc.setText, if_pos ht, isRich_line hl f hf stack hs]
    simp only [FDoc.putText, hg]
    rw [if_neg (by simp)]
    exact ⟨_, rfl⟩

/-- C151: a field with kids neither takes nor gives a text. -/
theorem C151_terminal (h : FDoc) (r : Ref) (ht : h.terminal r = false) (stack : Nat) (t : Option Bytes) :
    h.setText stack r t = raise .InternalLogic ∧ h.getText stack r = raise .InternalLogic := by
  rw [FDoc.setText, FDoc.getText, ht]; exact ⟨rfl, rfl⟩

/-- `PdfCheckBox::SetChecked`, `src/pdfmm/base/PdfCheckBox.cpp:51-55`. -/
def FDoc.setChecked (h : FDoc) (r : Ref) (on : Bool) : FDoc :=
  (h.addKey r keyValue (.name (if on then asciiB "Yes" else asciiB "Off"))).addKey r keyAS (.name (if on then asciiB "Yes" else asciiB "Off"))

/-- `MustFindKey(key).GetName()` and the test, `src/pdfmm/base/PdfCheckBox.cpp:65-72`. -/
def checkedName : Option Var → Res Bool
  | none => raise .NoObject
  | some (.name n) => .ok (decide (n = asciiB "Yes" ∨ n = asciiB "On"))
  | some _ => raise .InvalidDataType

/-- `PdfCheckBox::IsChecked`, `src/pdfmm/base/PdfCheckBox.cpp:57-72`. -/
def FDoc.isChecked (h : FDoc) (r : Ref) : Res Bool :=
  if (SMap.find? keyValue (h.dict r)).isSome then checkedName (h.findKey (h.dict r) keyValue)
  else if (SMap.find? keyAS (h.dict r)).isSome then checkedName (h.findKey (h.dict r) keyAS)
  else .ok false

/-- C151: a check box reads as it was set, whatever it was before, and both its value and its appearance state are set. -/
theorem C151_checked_partial (h : FDoc) (r : Ref) (on : Bool) :
    (h.setChecked r on).isChecked r = .ok on ∧
      SMap.find? keyValue ((h.setChecked r on).dict r) = SMap.find? keyAS ((h.setChecked r on).dict r) ∧
      ∀ q, q ≠ r → (h.setChecked r on) q = h q := by
  have hd : SMap.find? keyValue ((h.setChecked r on).dict r) = some (.name (if on then asciiB "Yes" else asciiB "Off")) := by
    rw [FDoc.setChecked, addKey_dict, if_pos rfl, SMap.find_insert_ne _ _ (by decide), addKey_dict, if_pos rfl, SMap.find_insert_self]
  have ha : SMap.find? keyAS ((h.setChecked r on).dict r) = some (.name (if on then asciiB "Yes" else asciiB "Off")) := by
    rw [FDoc.setChecked, addKey_dict, if_pos rfl, SMap.find_insert_self]
  refine ⟨?_, by rw [hd, ha], ?_⟩
  · rw [FDoc.isChecked, hd, FDoc.findKey, hd]
    have : ∀ on : Bool, checkedName (some (.name (if on then asciiB "Yes" else asciiB "Off"))) = .ok on := by decide
    exact this on
  · intro q hq
    simp [FDoc.setChecked, FDoc.addKey, FDoc.set, hq]

/-- C151, what is wrong: check boxes may name their state on as they like, but only `Yes` and `On` are read as checked. -/
theorem C151_state_false (h : FDoc) (r : Ref) (n : Bytes) (hn : n ≠ asciiB "Yes") (hn' : n ≠ asciiB "On")
    (hv : SMap.find? keyValue (h.dict r) = some (.name n)) : h.isChecked r = .ok false := by
  rw [FDoc.isChecked, hv, FDoc.findKey, hv]
  simp [checkedName, hn, hn']

/-- C151, what is wrong: a value inherited from the parent is not seen by check boxes. -/
theorem C151_inherit_false (h : FDoc) (r q : Ref) (hp : SMap.find? keyParent (h.dict r) = some (.ref q.num q.gen))
    (hv : SMap.find? keyValue (h.dict r) = none) (ha : SMap.find? keyAS (h.dict r) = none)
    (hq : h q = some (.dict (h.dict q))) (hy : SMap.find? keyValue (h.dict q) = some (.name (asciiB "Yes"))) :
    h.isChecked r = .ok false ∧ h.findKeyParent keyValue 2 (h.dict r) = .ok (some (.name (asciiB "Yes"))) := by
  refine ⟨by rw [FDoc.isChecked, hv, ha]; rfl, ?_⟩
  have h1 : h.findKey (h.dict r) keyValue = none := by rw [FDoc.findKey, hv]
  have h2 : h.findKey (h.dict r) keyParent = some (.dict (h.dict q)) := by rw [FDoc.findKey, hp]; exact hq
  have h3 : h.findKey (h.dict q) keyValue = some (.name (asciiB "Yes")) := by rw [FDoc.findKey, hy]
  rw [FDoc.findKeyParent, h1]
  simp only [h2, FDoc.findKeyParent, h3]

/-- A text field below one with a limit, and a check box. -/
def valueDoc : FDoc := fun r =>
  if r = ⟨1, 0⟩ then some (.dict [(asciiB "FT", .name (asciiB "Tx")), (asciiB "Kids", .arr [.ref 2 0]), (asciiB "MaxLen", .num 2)])
  else if r = ⟨2, 0⟩ then some (.dict [(asciiB "Parent", .ref 1 0)])
  else if r = ⟨3, 0⟩ then some (.dict [(asciiB "AS", .name (asciiB "1")), (asciiB "V", .name (asciiB "1"))])
  else none

example : Spec.Line valueDoc ⟨2, 0⟩ [⟨2, 0⟩, ⟨1, 0⟩] := .child (q := ⟨1, 0⟩) rfl rfl (.root rfl rfl)
example : Spec.LimitIs valueDoc [⟨2, 0⟩, ⟨1, 0⟩] (some 2) := .present 2 rfl
example : Spec.FlagsAre valueDoc [⟨2, 0⟩, ⟨1, 0⟩] none := .absent rfl
example : (valueDoc.setText 2 ⟨2, 0⟩ (some (asciiB "too long"))).map (fun h => h.getText 2 ⟨2, 0⟩) = .ok (.ok (some (asciiB "too long"))) := by decide
example : valueDoc.getText 2 ⟨1, 0⟩ = raise .InternalLogic := by decide
example : valueDoc.isChecked ⟨3, 0⟩ = .ok false := by decide
example : (valueDoc.setChecked ⟨3, 0⟩ true).isChecked ⟨3, 0⟩ = .ok true := by decide

end Pdfmm
