import Verif.Forms.Inherit
/-
C148, C149: the flags and the type of form fields.
-/
set_option autoImplicit false
namespace Pdfmm

def keyFf : Bytes := asciiB "Ff"
def keyFT : Bytes := asciiB "FT"
def keyDS : Bytes := asciiB "DS"

/-- `PdfField::GetFieldFlags`, `src/pdfmm/base/PdfField.cpp:555-566`: nothing, or the number found. -/
def FDoc.getFlags (h : FDoc) (stack : Nat) (d : FDict) : Res (Option (BitVec 64)) :=
  match h.findKeyParent keyFf stack d with
  | .error e => .error e
  | .ok none => .ok none
  | .ok (some (.num n)) => .ok (some (BitVec.ofInt 64 n))
  | .ok (some _) => raise .InvalidDataType

/-- `PdfField::GetFieldFlag`, `src/pdfmm/base/PdfField.cpp:545-552`. -/
def FDoc.getFlag (h : FDoc) (stack : Nat) (r : Ref) (value : BitVec 64) (dflt : Bool) : Res Bool :=
  match h.getFlags stack (h.dict r) with
  | .error e => .error e
  | .ok none => .ok dflt
  | .ok (some f) => .ok (decide (f &&& value = value))

/-- The flags after `SetFieldFlag`, `src/pdfmm/base/PdfField.cpp:532-540`. -/
def newFlags (curr value : BitVec 64) (on : Bool) : BitVec 64 :=
  if on then curr ||| value else if curr &&& value = value then curr ^^^ value else curr

/-- `PdfField::SetFieldFlag`, `src/pdfmm/base/PdfField.cpp:522-543`: the inherited flags are taken over. -/
def FDoc.setFlag (h : FDoc) (stack : Nat) (r : Ref) (value : BitVec 64) (on : Bool) : Res FDoc :=
  match h.getFlags stack (h.dict r) with
  | .error e => .error e
  | .ok f => .ok (h.addKey r keyFf (.num (newFlags (f.getD 0) value on).toInt))

theorem findKey_congr (h : FDoc) (a b : FDict) (k : Bytes) (e : SMap.find? k a = SMap.find? k b) : h.findKey a k = h.findKey b k := by
  rw [FDoc.findKey, FDoc.findKey, e]

/-- The nearest entry after another entry of some object was changed. -/
theorem nearest_addKey_ne (h : FDoc) (r : Ref) (k k' : Bytes) (v : Var) (hr : h r = some (.dict (h.dict r))) (hk : k ≠ k') : ∀ (l : List Ref),
    Plain (Spec.nearest h k l) → Spec.nearest (h.addKey r k' v) k l = Spec.nearest h k l := by
  intro l
  induction l with
  | nil => intros; rfl
  | cons q l ih =>
    intro hp
    have hd : (h.addKey r k' v).findKey ((h.addKey r k' v).dict q) k = (h.addKey r k' v).findKey (h.dict q) k := by
      apply findKey_congr
      rw [addKey_dict]; split
      · rename_i e; rw [SMap.find_insert_ne _ _ hk, e]
      · rfl
    simp only [Spec.nearest, List.findSome?_cons, hd] at hp ⊢
    cases findKey_set h r (SMap.insert k' v (h.dict r)) hr (h.dict q) k with
    | inl e =>
      rw [FDoc.addKey, e]
      cases hf : h.findKey (h.dict q) k with
      | some v => rfl
      | none => rw [hf] at hp; exact ih hp
    | inr e => rw [e.1] at hp; exact absurd hp (by simp [Plain])

/-- The nearest entry after it was put into the object itself. -/
theorem nearest_addKey_self (h : FDoc) (r : Ref) (k : Bytes) (v : Var) (l : List Ref) (hv : ∀ n g, v ≠ .ref n g) :
    Spec.nearest (h.addKey r k v) k (r :: l) = some v := by
  have : (h.addKey r k v).findKey ((h.addKey r k v).dict r) k = some v := by
    rw [addKey_dict, if_pos rfl, FDoc.findKey, SMap.find_insert_self]
    cases v <;> first | rfl | exact absurd rfl (hv _ _)
  simp only [Spec.nearest, List.findSome?_cons, this]

/-- The flags in a line: the nearest ones. -/
inductive Spec.FlagsAre (h : FDoc) (l : List Ref) : Option (BitVec 64) → Prop
  | absent : Spec.nearest h keyFf l = none → Spec.FlagsAre h l none
  | present (n : Int) : Spec.nearest h keyFf l = some (.num n) → Spec.FlagsAre h l (some (BitVec.ofInt 64 n))

theorem Spec.FlagsAre.plain {h : FDoc} {l : List Ref} {f : Option (BitVec 64)} (hf : Spec.FlagsAre h l f) : Plain (Spec.nearest h keyFf l) := by
  cases hf with
  | absent e => rw [e]; trivial
  | present n e => rw [e]; trivial

theorem getFlags_line {h : FDoc} {r : Ref} {l : List Ref} (hl : Spec.Line h r l) (f : Option (BitVec 64)) (hf : Spec.FlagsAre h l f) (stack : Nat)
    (hs : l.length ≤ stack) : h.getFlags stack (h.dict r) = .ok f := by
  rw [FDoc.getFlags, line_findKeyParent hl keyFf stack hs]
  cases hf with
  | absent e => rw [Spec.nearest] at e; rw [e]
  | present n e => rw [Spec.nearest] at e; rw [e]

/-- And the other way round: when the flags are given they are those of the line. -/
theorem getFlags_ok {h : FDoc} {r : Ref} {l : List Ref} (hl : Spec.Line h r l) (f : Option (BitVec 64)) (stack : Nat)
    (hs : l.length ≤ stack) (hg : h.getFlags stack (h.dict r) = .ok f) : Spec.FlagsAre h l f := by
  rw [FDoc.getFlags, line_findKeyParent hl keyFf stack hs] at hg
  have : ∀ o, o = Spec.nearest h keyFf l → (match (.ok o : Res (Option Var)) with
      | .error e => .error e
      | .ok none => .ok none
      | .ok (some (.num n)) => .ok (some (BitVec.ofInt 64 n))
      | .ok (some _) => raise .InvalidDataType) = (.ok f : Res (Option (BitVec 64))) → Spec.FlagsAre h l f := by
    intro o ho hg
    split at hg
    · rename_i hh; cases hh
    · rename_i hh; cases hh; cases hg; exact .absent ho.symm
    · rename_i n hh; cases hh; cases hg; exact .present n ho.symm
    · cases hg
  exact this _ rfl hg

theorem keyFf_ne_parent : keyFf ≠ keyParent := by decide
theorem keyFT_ne_parent : keyFT ≠ keyParent := by decide
theorem keyFT_ne_Ff : keyFT ≠ keyFf := by decide

/-- What `SetFieldFlag` does to the flags of the line. -/
theorem setFlag_line {h : FDoc} {r : Ref} {l : List Ref} (hl : Spec.Line h r l) (f : Option (BitVec 64)) (hf : Spec.FlagsAre h l f) (stack : Nat)
    (hs : l.length ≤ stack) (value : BitVec 64) (on : Bool) :
    ∃ h', h.setFlag stack r value on = .ok h' ∧ h' = h.addKey r keyFf (.num (newFlags (f.getD 0) value on).toInt) ∧ Spec.Line h' r l ∧
      Spec.FlagsAre h' l (some (newFlags (f.getD 0) value on)) := by
  refine ⟨_, ?_, rfl, hl.addKey r keyFf _ keyFf_ne_parent, ?_⟩
  · rw [FDoc.setFlag, getFlags_line hl f hf stack hs]
  · obtain ⟨t, ht⟩ := hl.ne_nil
    have := Spec.FlagsAre.present (h := h.addKey r keyFf (.num (newFlags (f.getD 0) value on).toInt)) (l := l) _
      (by rw [ht]; exact nearest_addKey_self h r keyFf _ t (by intro n g; simp))
    rwa [BitVec.ofInt_toInt] at this

theorem has_bit (f : BitVec 64) (b : Nat) (hb : b < 64) : decide (f &&& BitVec.twoPow 64 b = BitVec.twoPow 64 b) = f.getLsbD b := by
  rw [BitVec.and_twoPow]
  cases h : f.getLsbD b
  · simp only [Bool.false_eq_true, if_false, decide_eq_false_iff_not]
    intro e
    have := congrArg (fun x => BitVec.getLsbD x b) e
    simp [BitVec.getLsbD_twoPow, hb] at this
  · simp

theorem newFlags_bit (f : BitVec 64) (b b' : Nat) (hb : b < 64) (hb' : b' < 64) (on : Bool) :
    (newFlags f (BitVec.twoPow 64 b) on).getLsbD b' = if b' = b then on else f.getLsbD b' := by
  rw [newFlags]
  cases on
  · simp only [Bool.false_eq_true, if_false]
    have hbit := has_bit f b hb
    by_cases hc : f &&& BitVec.twoPow 64 b = BitVec.twoPow 64 b
    · rw [if_pos hc]
      rw [decide_eq_true hc] at hbit
      simp only [BitVec.getLsbD_xor, BitVec.getLsbD_twoPow, hb]
      by_cases e : b' = b
      · subst e; simp [← hbit]
      · simp [e, Ne.symm e]
    · rw [if_neg hc]
      rw [decide_eq_false hc] at hbit
      split
      · rename_i e; subst e; exact hbit.symm
      · rfl
  · simp only [if_true, BitVec.getLsbD_or, BitVec.getLsbD_twoPow, hb]
    by_cases e : b' = b
    · subst e; simp
    · simp [e, Ne.symm e]

/-- C148: after a flag was set or cleared it reads so, the other flags read as before, and the flags of fields that are not below this one are the same. -/
theorem C148_flags_partial (h : FDoc) (r : Ref) (l : List Ref) (hl : Spec.Line h r l) (f : Option (BitVec 64)) (hf : Spec.FlagsAre h l f) (stack : Nat)
    (hs : l.length ≤ stack) (b : Nat) (hb : b < 64) (on : Bool) :
    ∃ h', h.setFlag stack r (BitVec.twoPow 64 b) on = .ok h' ∧
      (∀ b' < 64, ∀ dflt, h'.getFlag stack r (BitVec.twoPow 64 b') dflt = .ok (if b' = b then on else (f.getD 0).getLsbD b')) ∧
      (∀ (q : Ref) (m : List Ref), Spec.Line h q m → r ∉ m → Plain (Spec.nearest h keyFf m) → ∀ stack, m.length ≤ stack → ∀ value dflt,
        h'.getFlag stack q value dflt = h.getFlag stack q value dflt) := by
  obtain ⟨h', h1, h2, h3, h4⟩ := setFlag_line hl f hf stack hs (BitVec.twoPow 64 b) on
  refine ⟨h', h1, ?_, ?_⟩
  · intro b' hb' dflt
    rw [FDoc.getFlag, getFlags_line h3 _ h4 stack hs]
    simp only [has_bit _ _ hb', newFlags_bit _ _ _ hb hb']
  · intro q m hm hr hp stack hs' value dflt
    subst h2
    have hn := nearest_set_ne h r (SMap.insert keyFf (.num (newFlags (f.getD 0) (BitVec.twoPow 64 b) on).toInt) (h.dict r)) hl.isDict keyFf m hr hp
    have h5 := line_findKeyParent (hm.addKey r keyFf (.num (newFlags (f.getD 0) (BitVec.twoPow 64 b) on).toInt) keyFf_ne_parent) keyFf stack hs'
    have h6 := line_findKeyParent hm keyFf stack hs'
    have h7 : (h.addKey r keyFf (.num (newFlags (f.getD 0) (BitVec.twoPow 64 b) on).toInt)).findKeyParent keyFf stack
        ((h.addKey r keyFf (.num (newFlags (f.getD 0) (BitVec.twoPow 64 b) on).toInt)).dict q) = h.findKeyParent keyFf stack (h.dict q) := by
      rw [h5, h6]; exact congrArg Except.ok hn
    rw [FDoc.getFlag, FDoc.getFlag, FDoc.getFlags, FDoc.getFlags, h7]

/-- `SetSpellcheckingEnabled` and `IsSpellcheckingEnabled` of text boxes and choice fields, `src/pdfmm/base/PdfTextBox.cpp:113-121`,
`src/pdfmm/base/PdfChoiceField.cpp:180-188`. -/
def FDoc.setSpellchecking (h : FDoc) (stack : Nat) (r : Ref) (on : Bool) : Res FDoc := h.setFlag stack r (BitVec.twoPow 64 22) (!on)
def FDoc.isSpellchecking (h : FDoc) (stack : Nat) (r : Ref) : Res Bool := h.getFlag stack r (BitVec.twoPow 64 22) true

/-- `SetScrollBarsEnabled` and `IsScrollBarsEnabled`, `src/pdfmm/base/PdfTextBox.cpp:125-133`. -/
def FDoc.setScrollBars (h : FDoc) (stack : Nat) (r : Ref) (on : Bool) : Res FDoc := h.setFlag stack r (BitVec.twoPow 64 23) (!on)
def FDoc.isScrollBars (h : FDoc) (stack : Nat) (r : Ref) : Res Bool := h.getFlag stack r (BitVec.twoPow 64 23) true

/-- C148, what is wrong: whether spell checking or scroll bars are enabled reads as the opposite of what was set. -/
theorem C148_inverted_false (h : FDoc) (r : Ref) (l : List Ref) (hl : Spec.Line h r l) (f : Option (BitVec 64)) (hf : Spec.FlagsAre h l f) (stack : Nat)
    (hs : l.length ≤ stack) (on : Bool) :
    (∃ h', h.setSpellchecking stack r on = .ok h' ∧ h'.isSpellchecking stack r = .ok (!on)) ∧
      ∃ h', h.setScrollBars stack r on = .ok h' ∧ h'.isScrollBars stack r = .ok (!on) := by
  refine ⟨?_, ?_⟩
  · obtain ⟨h', h1, h2, _⟩ := C148_flags_partial h r l hl f hf stack hs 22 (by omega) (!on)
    exact ⟨h', h1, by rw [FDoc.isSpellchecking, h2 22 (by omega)]; simp⟩
  · obtain ⟨h', h1, h2, _⟩ := C148_flags_partial h r l hl f hf stack hs 23 (by omega) (!on)
    exact ⟨h', h1, by rw [FDoc.isScrollBars, h2 23 (by omega)]; simp⟩

/-- `PdfFieldType`. -/
inductive FieldType
  | unknown | pushButton | checkBox | radioButton | textBox | comboBox | listBox | signature
  deriving DecidableEq, Repr

/-- The type for a value of `/FT` and the flags, `src/pdfmm/base/PdfField.cpp:420-452`: bits 16 and 15 tell buttons apart, bit 17 choices. -/
def typeFor (ft : Bytes) (f : BitVec 64) : FieldType :=
  if ft = asciiB "Btn" then
    if f &&& BitVec.twoPow 64 16 = BitVec.twoPow 64 16 then .pushButton
    else if f &&& BitVec.twoPow 64 15 = BitVec.twoPow 64 15 then .radioButton
    else .checkBox
  else if ft = asciiB "Tx" then .textBox
  else if ft = asciiB "Ch" then if f &&& BitVec.twoPow 64 17 = BitVec.twoPow 64 17 then .comboBox else .listBox
  else if ft = asciiB "Sig" then .signature
  else .unknown

/-- `PdfField::getFieldType`, `src/pdfmm/base/PdfField.cpp:411-453`.  The flags are only read for buttons and choices. -/
def FDoc.fieldType (h : FDoc) (stack : Nat) (d : FDict) : Res FieldType :=
  match h.findKeyParent keyFT stack d with
  | .error e => .error e
  | .ok none => .ok .unknown
  | .ok (some (.name n)) =>
    if n = asciiB "Btn" ∨ n = asciiB "Ch" then
      match h.getFlags stack d with
      | .error e => .error e
      | .ok f => .ok (typeFor n (f.getD 0))
    else .ok (typeFor n 0)
  | .ok (some _) => raise .InvalidDataType

/-- `PdfField::init`, `src/pdfmm/base/PdfField.cpp:455-490`: `/FT` and, for some, `/Ff`. -/
def FieldType.init : FieldType → Option (Bytes × Option (BitVec 64))
  | .checkBox => some (asciiB "Btn", none)
  | .pushButton => some (asciiB "Btn", some (BitVec.twoPow 64 16))
  | .radioButton => some (asciiB "Btn", some (BitVec.twoPow 64 15 ||| BitVec.twoPow 64 14))
  | .textBox => some (asciiB "Tx", none)
  | .listBox => some (asciiB "Ch", none)
  | .comboBox => some (asciiB "Ch", some (BitVec.twoPow 64 17))
  | .signature => some (asciiB "Sig", none)
  | .unknown => none

/-- The entries of a field without parent. -/
def FDoc.initField (h : FDoc) (r : Ref) (t : FieldType) : Res FDoc :=
  match t.init with
  | none => raise .InternalLogic
  | some (ft, none) => .ok (h.addKey r keyFT (.name ft))
  | some (ft, some f) => .ok ((h.addKey r keyFT (.name ft)).addKey r keyFf (.num f.toInt))

/-- What the constructors of the classes add, `src/pdfmm/base/PdfPushButton.cpp:32-36`, `src/pdfmm/base/PdfListBox.cpp:13-23`,
`src/pdfmm/base/PdfComboBox.cpp:14-24`, `src/pdfmm/base/PdfTextBox.cpp:32-36`. -/
def FDoc.classInit (h : FDoc) (stack : Nat) (r : Ref) : FieldType → Res FDoc
  | .pushButton => h.setFlag stack r (BitVec.twoPow 64 16) true
  | .listBox => h.setFlag stack r (BitVec.twoPow 64 17) false
  | .comboBox => h.setFlag stack r (BitVec.twoPow 64 17) true
  | .textBox => if (SMap.find? keyDS (h.dict r)).isSome then .ok h else .ok (h.addKey r keyDS (.str (asciiB "font: 12pt Helvetica") false))
  | _ => .ok h

/-- A field object made on the dictionary `r`, `PdfField::createField` and the constructors, `src/pdfmm/base/PdfField.cpp:30-68, 269-317`. -/
def FDoc.newField (h : FDoc) (stack : Nat) (r : Ref) (parent : Option Ref) (t : FieldType) : Res FDoc :=
  if t = .unknown then raise .InternalLogic
  else
    match parent with
    | none =>
      match h.initField r t with
      | .error e => .error e
      | .ok h => h.classInit stack r t
    | some p => (h.addKey r keyParent (.ref p.num p.gen)).classInit stack r t

/-- The type of a line. -/
inductive Spec.TypeIs (h : FDoc) (l : List Ref) : FieldType → Prop
  | absent : Spec.nearest h keyFT l = none → Spec.TypeIs h l .unknown
  | plain (n : Bytes) : Spec.nearest h keyFT l = some (.name n) → ¬(n = asciiB "Btn" ∨ n = asciiB "Ch") → Spec.TypeIs h l (typeFor n 0)
  | flagged (n : Bytes) (f : Option (BitVec 64)) : Spec.nearest h keyFT l = some (.name n) → n = asciiB "Btn" ∨ n = asciiB "Ch" → Spec.FlagsAre h l f →
      Spec.TypeIs h l (typeFor n (f.getD 0))

theorem fieldType_line {h : FDoc} {r : Ref} {l : List Ref} (hl : Spec.Line h r l) (t : FieldType) (ht : Spec.TypeIs h l t) (stack : Nat)
    (hs : l.length ≤ stack) : h.fieldType stack (h.dict r) = .ok t := by
  have hk := line_findKeyParent hl keyFT stack hs
  rw [FDoc.fieldType, hk]
  cases ht with
  | absent e => rw [Spec.nearest] at e; rw [e]
  | plain n e hn => rw [Spec.nearest] at e; rw [e]; simp only [if_neg hn]
  | flagged n f e hn hf => rw [Spec.nearest] at e; rw [e]; simp only [if_pos hn, getFlags_line hl f hf stack hs]

theorem fieldType_ok {h : FDoc} {r : Ref} {l : List Ref} (hl : Spec.Line h r l) (t : FieldType) (stack : Nat)
    (hs : l.length ≤ stack) (hg : h.fieldType stack (h.dict r) = .ok t) : Spec.TypeIs h l t := by
  rw [FDoc.fieldType, line_findKeyParent hl keyFT stack hs] at hg
  have : ∀ o, o = Spec.nearest h keyFT l → (match (.ok o : Res (Option Var)) with
      | .error e => .error e
      | .ok none => .ok .unknown
      | .ok (some (.name n)) =>
        if n = asciiB "Btn" ∨ n = asciiB "Ch" then
          match h.getFlags stack (h.dict r) with
          | .error e => .error e
          | .ok f => .ok (typeFor n (f.getD 0))
        else .ok (typeFor n 0)
      | .ok (some _) => raise .InvalidDataType) = (.ok t : Res FieldType) → Spec.TypeIs h l t := by
    intro o ho hg
    split at hg
    · rename_i hh; cases hh
    · rename_i hh; cases hh; cases hg; exact .absent ho.symm
    · rename_i n hh
      cases hh
      by_cases hn : n = asciiB "Btn" ∨ n = asciiB "Ch"
      · rw [if_pos hn] at hg
        cases hf : h.getFlags stack (h.dict r) with
        | error e => rw [hf] at hg; cases hg
        | ok f => rw [hf] at hg; cases hg; exact .flagged n f ho.symm hn (getFlags_ok hl f stack hs hf)
      · rw [if_neg hn] at hg; cases hg; exact .plain n ho.symm hn
    · cases hg
  exact this _ rfl hg

/-- The flags a class of fields can be given, by the position of the bit: `SetReadOnly`, `SetRequired`, `SetNoExport` (`src/pdfmm/base/PdfDeclarations.h:602-607`) and
those of `src/pdfmm/base/PdfTextBox.h:27-33`, `src/pdfmm/base/PdfField.h:39-48`. -/
def settable : FieldType → List Nat
  | .textBox => [0, 1, 2, 12, 13, 20, 22, 23, 24, 25]
  | .comboBox => [0, 1, 2, 18, 19, 21, 22, 26]
  | .listBox => [0, 1, 2, 19, 21, 22, 26]
  | _ => [0, 1, 2]

theorem settable_not (t : FieldType) (b : Nat) (hb : b ∈ settable t) : b < 64 ∧ b ≠ 15 ∧ b ≠ 16 ∧ b ≠ 17 := by
  cases t <;> simp [settable] at hb <;> omega

theorem typeFor_bits (n : Bytes) (f g : BitVec 64) (h : ∀ b, b = 15 ∨ b = 16 ∨ b = 17 → f.getLsbD b = g.getLsbD b) : typeFor n f = typeFor n g := by
  have key : ∀ b, b = 15 ∨ b = 16 ∨ b = 17 →
      ((f &&& BitVec.twoPow 64 b = BitVec.twoPow 64 b) ↔ (g &&& BitVec.twoPow 64 b = BitVec.twoPow 64 b)) := by
    intro b hb
    have h1 := has_bit f b (by omega)
    have h2 := has_bit g b (by omega)
    rw [h b hb, ← h2] at h1
    exact decide_eq_decide.1 h1
  have k15 := key 15 (by simp); have k16 := key 16 (by simp); have k17 := key 17 (by simp)
  simp only [typeFor, k15, k16, k17]

theorem setFlag_type {h : FDoc} {r : Ref} {l : List Ref} (hl : Spec.Line h r l) (t : FieldType) (ht : Spec.TypeIs h l t)
    (f : Option (BitVec 64)) (hf : Spec.FlagsAre h l f) (v : BitVec 64) (on : Bool)
    (hv : ∀ b, b = 15 ∨ b = 16 ∨ b = 17 → (newFlags (f.getD 0) v on).getLsbD b = (f.getD 0).getLsbD b) :
    Spec.TypeIs (h.addKey r keyFf (.num (newFlags (f.getD 0) v on).toInt)) l t := by
  have hn := nearest_addKey_ne h r keyFT keyFf (.num (newFlags (f.getD 0) v on).toInt) hl.isDict keyFT_ne_Ff l
  cases ht with
  | absent e => exact .absent (by rw [hn (by rw [e]; trivial)]; exact e)
  | plain n e hb => exact .plain n (by rw [hn (by rw [e]; trivial)]; exact e) hb
  | flagged n g e hb hg =>
    have hgf : g = f := by
      cases hg with
      | absent e1 => cases hf with
        | absent e2 => rfl
        | present m e2 => rw [e1] at e2; cases e2
      | present m e1 => cases hf with
        | absent e2 => rw [e1] at e2; cases e2
        | present m' e2 => rw [e1] at e2; cases e2; rfl
    subst hgf
    obtain ⟨h', _, h2, _, h4⟩ := setFlag_line hl g hf l.length (Nat.le_refl _) v on
    subst h2
    have := Spec.TypeIs.flagged n _ (by rw [hn (by rw [e]; trivial)]; exact e) hb h4
    rw [Option.getD_some, typeFor_bits n _ (g.getD 0) hv] at this
    exact this

/-- C149: the flags that can be set on a field do not change what kind of field it is. -/
theorem C149_kept (h : FDoc) (r : Ref) (l : List Ref) (hl : Spec.Line h r l) (t : FieldType) (stack : Nat) (hs : l.length ≤ stack)
    (ht : h.fieldType stack (h.dict r) = .ok t) (b : Nat) (hb : b ∈ settable t) (on : Bool) (h' : FDoc)
    (hset : h.setFlag stack r (BitVec.twoPow 64 b) on = .ok h') : Spec.Line h' r l ∧ h'.fieldType stack (h'.dict r) = .ok t := by
  rw [FDoc.setFlag] at hset
  cases hf : h.getFlags stack (h.dict r) with
  | error e => rw [hf] at hset; cases hset
  | ok f =>
    rw [hf] at hset; cases hset
    have hfl := getFlags_ok hl f stack hs hf
    have hnb := settable_not t b hb
    have hl' := hl.addKey r keyFf (.num (newFlags (f.getD 0) (BitVec.twoPow 64 b) on).toInt) keyFf_ne_parent
    refine ⟨hl', fieldType_line hl' t ?_ stack hs⟩
    apply setFlag_type hl t (fieldType_ok hl t stack hs ht) f hfl
    intro c hc
    rw [newFlags_bit _ _ _ hnb.1 (by omega), if_neg (by omega)]

/-- A history of flags set and cleared. -/
def FDoc.setFlags (stack : Nat) (r : Ref) : List (Nat × Bool) → FDoc → Res FDoc
  | [], h => .ok h
  | (b, on) :: l, h =>
    match h.setFlag stack r (BitVec.twoPow 64 b) on with
    | .error e => .error e
    | .ok h => FDoc.setFlags stack r l h

/-- C149: any history of settable flags keeps the kind of field, and every flag reads as it was last set. -/
theorem C149_history (stack : Nat) (r : Ref) (l : List Ref) (t : FieldType) (hs : l.length ≤ stack) : ∀ (ops : List (Nat × Bool)) (h : FDoc)
    (f : Option (BitVec 64)), Spec.Line h r l → Spec.FlagsAre h l f → h.fieldType stack (h.dict r) = .ok t → (∀ o ∈ ops, o.1 ∈ settable t) →
    ∃ h', FDoc.setFlags stack r ops h = .ok h' ∧ h'.fieldType stack (h'.dict r) = .ok t ∧
      ∀ b < 64, ops ≠ [] → h'.getFlag stack r (BitVec.twoPow 64 b) false =
        .ok (((ops.reverse.find? (fun o => o.1 == b)).map (·.2)).getD ((f.getD 0).getLsbD b)) := by
  intro ops
  induction ops with
  | nil => intro h f _ _ ht _; exact ⟨h, rfl, ht, fun _ _ hne => absurd rfl hne⟩
  | cons o ops ih =>
    intro h f hl hf ht ho
    have hb := ho o (by simp)
    have hnb := settable_not t o.1 hb
    obtain ⟨h1, e1, e2, hl1, hf1⟩ := setFlag_line hl f hf stack hs (BitVec.twoPow 64 o.1) o.2
    obtain ⟨_, ht1⟩ := C149_kept h r l hl t stack hs ht o.1 hb o.2 h1 e1
    obtain ⟨h2, e3, ht2, hg⟩ := ih h1 _ hl1 hf1 ht1 (fun x hx => ho x (by simp [hx]))
    refine ⟨h2, ?_, ht2, ?_⟩
    · rw [FDoc.setFlags, e1]; exact e3
    · intro b hb' _
      rw [List.reverse_cons, List.find?_append]
      by_cases hops : ops = []
      · subst hops
        have : h2 = h1 := by rw [FDoc.setFlags] at e3; exact (Except.ok.inj e3).symm
        subst this
        rw [FDoc.getFlag, getFlags_line hl1 _ hf1 stack hs]
        simp only [has_bit _ _ hb', newFlags_bit _ _ _ hnb.1 hb', List.reverse_nil, List.find?_nil, List.find?_cons, Option.none_or]
        by_cases e : b = o.1
        · subst e; simp
        · have : (o.1 == b) = false := by simp [Ne.symm e]
          simp [e, this]
      · rw [hg b hb' hops]
        cases hfd : ops.reverse.find? (fun o => o.1 == b) with
        | some x => simp
        | none =>
          simp only [Option.getD_some, newFlags_bit _ _ _ hnb.1 hb', List.find?_cons, List.find?_nil, Option.none_or, Option.map_none, Option.getD_none]
          by_cases e : b = o.1
          · subst e; simp
          · have : (o.1 == b) = false := by simp [Ne.symm e]
            simp [e, this]

/-- The line of a new object with a parent. -/
theorem Spec.Line.set_ne {h : FDoc} {q : Ref} {l : List Ref} (hl : Spec.Line h q l) (r : Ref) (d : FDict) (hr : r ∉ l) : Spec.Line (h.set r (.dict d)) q l := by
  induction hl with
  | @root q hd hp =>
    have hq : q ≠ r := fun e => hr (by simp [e])
    refine .root (set_isDict h r q _ hd) ?_
    rw [set_dict, if_neg hq]; exact hp
  | @child q p l hd hp _ ih =>
    have hq : q ≠ r := fun e => hr (by simp [e])
    refine .child (q := p) (set_isDict h r q _ hd) ?_ (ih (fun e => hr (by simp [e])))
    rw [set_dict, if_neg hq]; exact hp

theorem classInit_type {h : FDoc} {r : Ref} {l : List Ref} (hl : Spec.Line h r l) (t : FieldType) (ht : Spec.TypeIs h l t)
    (f : Option (BitVec 64)) (hf : Spec.FlagsAre h l f) (hdict : Plain (Spec.nearest h keyFT l)) (stack : Nat) (hs : l.length ≤ stack)
    (hbit : t = .pushButton → (f.getD 0).getLsbD 16 = true) (hcombo : t = .comboBox → (f.getD 0).getLsbD 17 = true)
    (hlist : t = .listBox → (f.getD 0).getLsbD 17 = false) :
    ∃ h', h.classInit stack r t = .ok h' ∧ Spec.Line h' r l ∧ h'.fieldType stack (h'.dict r) = .ok t := by
  have flag : ∀ (b : Nat) (on : Bool), b = 16 ∨ b = 17 → (f.getD 0).getLsbD b = on → ∃ h', h.setFlag stack r (BitVec.twoPow 64 b) on = .ok h' ∧ Spec.Line h' r l ∧
      h'.fieldType stack (h'.dict r) = .ok t := by
    intro b on hb hon
    obtain ⟨h', e1, e2, e3, _⟩ := setFlag_line hl f hf stack hs (BitVec.twoPow 64 b) on
    refine ⟨h', e1, e3, fieldType_line e3 t ?_ stack hs⟩
    subst e2
    apply setFlag_type hl t ht f hf
    intro c hc
    rw [newFlags_bit _ _ _ (by omega) (by omega)]
    split
    · rename_i e; subst e; exact hon.symm
    · rfl
  cases t with
  | pushButton => exact flag 16 true (by simp) (hbit rfl)
  | comboBox => exact flag 17 true (by simp) (hcombo rfl)
  | listBox => exact flag 17 false (by simp) (hlist rfl)
  | textBox =>
    rw [FDoc.classInit]
    split
    · exact ⟨h, rfl, hl, fieldType_line hl _ ht stack hs⟩
    · have hl' := hl.addKey r keyDS (.str (asciiB "font: 12pt Helvetica") false) (by decide)
      refine ⟨_, rfl, hl', fieldType_line hl' _ ?_ stack hs⟩
      have h1 := nearest_addKey_ne h r keyFT keyDS (.str (asciiB "font: 12pt Helvetica") false) hl.isDict (by decide) l hdict
      have h2 := nearest_addKey_ne h r keyFf keyDS (.str (asciiB "font: 12pt Helvetica") false) hl.isDict (by decide) l hf.plain
      generalize FieldType.textBox = t at ht
      cases ht with
      | absent e => exact .absent (by rw [h1]; exact e)
      | plain n e hb => exact .plain n (by rw [h1]; exact e) hb
      | flagged n g e hb hg =>
        refine .flagged n g (by rw [h1]; exact e) hb ?_
        cases hg with
        | absent e' => exact .absent (by rw [h2]; exact e')
        | present m e' => exact .present m (by rw [h2]; exact e')
  | _ => exact ⟨h, rfl, hl, fieldType_line hl _ ht stack hs⟩

/-- What the type says about the bits of the flags. -/
theorem typeFor_inv (n : Bytes) (f : BitVec 64) : (typeFor n f = .pushButton → f.getLsbD 16 = true) ∧ (typeFor n f = .comboBox → f.getLsbD 17 = true) ∧
    (typeFor n f = .listBox → f.getLsbD 17 = false) := by
  have b16 := has_bit f 16 (by omega); have b17 := has_bit f 17 (by omega)
  rw [typeFor]
  refine ⟨?_, ?_, ?_⟩
  · intro e
    split at e
    · split at e
      · rename_i hh; rw [← b16]; exact decide_eq_true hh
      · split at e <;> cases e
    · split at e
      · cases e
      · split at e
        · split at e <;> cases e
        · split at e <;> cases e
  · intro e
    split at e
    · split at e
      · cases e
      · split at e <;> cases e
    · split at e
      · cases e
      · split at e
        · split at e
          · rename_i hh; rw [← b17]; exact decide_eq_true hh
          · cases e
        · split at e <;> cases e
  · intro e
    split at e
    · split at e
      · cases e
      · split at e <;> cases e
    · split at e
      · cases e
      · split at e
        · split at e
          · cases e
          · rename_i hh; rw [← b17]; exact decide_eq_false hh
        · split at e <;> cases e

theorem typeIs_plain {h : FDoc} {l : List Ref} {t : FieldType} (ht : Spec.TypeIs h l t) : Plain (Spec.nearest h keyFT l) := by
  cases ht with
  | absent e => rw [e]; trivial
  | plain n e _ => rw [e]; trivial
  | flagged n g e _ _ => rw [e]; trivial

theorem plain_not_flagged (n : Bytes) (hn : ¬(n = asciiB "Btn" ∨ n = asciiB "Ch")) :
    typeFor n 0 ≠ .pushButton ∧ typeFor n 0 ≠ .comboBox ∧ typeFor n 0 ≠ .listBox := by
  have h1 : n ≠ asciiB "Btn" := fun e => hn (Or.inl e)
  have h2 : n ≠ asciiB "Ch" := fun e => hn (Or.inr e)
  rw [typeFor, if_neg h1, if_neg h2]
  refine ⟨?_, ?_, ?_⟩ <;> (split; · simp) <;> (split <;> simp)

/-- C149: a new field without parent is of the kind it was made. -/
theorem C149_created (h : FDoc) (r : Ref) (hr : h r = some (.dict (h.dict r))) (hp : SMap.find? keyParent (h.dict r) = none)
    (hff : SMap.find? keyFf (h.dict r) = none) (t : FieldType) (ht : t ≠ .unknown) (stack : Nat) (hs : 0 < stack) :
    ∃ h', h.newField stack r none t = .ok h' ∧ Spec.Line h' r [r] ∧ h'.fieldType stack (h'.dict r) = .ok t := by
  have h0 : Spec.Line h r [r] := .root hr hp
  have hl1 : ∀ ft, Spec.Line (h.addKey r keyFT (.name ft)) r [r] := fun ft => h0.addKey r keyFT _ keyFT_ne_parent
  have hn1 : ∀ ft, Spec.nearest (h.addKey r keyFT (.name ft)) keyFT [r] = some (.name ft) := fun ft => nearest_addKey_self h r keyFT _ [] (by simp)
  have hf0 : Spec.nearest h keyFf [r] = none := by simp [Spec.nearest, FDoc.findKey, hff]
  have hf1 : ∀ ft, Spec.FlagsAre (h.addKey r keyFT (.name ft)) [r] none := fun ft =>
    .absent (by rw [nearest_addKey_ne h r keyFf keyFT _ hr (by decide) [r] (by rw [hf0]; trivial)]; exact hf0)
  have noFf : ∀ ft, t.init = some (ft, none) → typeFor ft 0 = t →
      ∃ h', h.newField stack r none t = .ok h' ∧ Spec.Line h' r [r] ∧ h'.fieldType stack (h'.dict r) = .ok t := by
    intro ft hi hty
    rw [FDoc.newField, if_neg ht]
    simp only [FDoc.initField, hi]
    have hT : Spec.TypeIs (h.addKey r keyFT (.name ft)) [r] t := by
      by_cases hb : ft = asciiB "Btn" ∨ ft = asciiB "Ch"
      · have := Spec.TypeIs.flagged ft none (hn1 ft) hb (hf1 ft)
        rwa [Option.getD_none, hty] at this
      · have := Spec.TypeIs.plain ft (hn1 ft) hb
        rwa [hty] at this
    have := typeFor_inv ft 0
    refine classInit_type (hl1 ft) t hT none (hf1 ft) (by rw [hn1]; trivial) stack (by simp only [List.length_cons, List.length_nil]; omega) ?_ ?_ ?_
    · intro e; exact this.1 (hty.trans e)
    · intro e; exact this.2.1 (hty.trans e)
    · intro e; exact this.2.2 (hty.trans e)
  have withFf : ∀ ft f, t.init = some (ft, some f) → typeFor ft f = t → (ft = asciiB "Btn" ∨ ft = asciiB "Ch") →
      ∃ h', h.newField stack r none t = .ok h' ∧ Spec.Line h' r [r] ∧ h'.fieldType stack (h'.dict r) = .ok t := by
    intro ft f hi hty hb
    rw [FDoc.newField, if_neg ht]
    simp only [FDoc.initField, hi]
    have hl2 := (hl1 ft).addKey r keyFf (.num f.toInt) keyFf_ne_parent
    have hn2 : Spec.nearest ((h.addKey r keyFT (.name ft)).addKey r keyFf (.num f.toInt)) keyFT [r] = some (.name ft) := by
      rw [nearest_addKey_ne _ r keyFT keyFf _ (hl1 ft).isDict keyFT_ne_Ff [r] (by rw [hn1]; trivial)]; exact hn1 ft
    have hf2 : Spec.FlagsAre ((h.addKey r keyFT (.name ft)).addKey r keyFf (.num f.toInt)) [r] (some f) := by
      have := Spec.FlagsAre.present (h := (h.addKey r keyFT (.name ft)).addKey r keyFf (.num f.toInt)) (l := [r]) f.toInt
        (nearest_addKey_self _ r keyFf _ [] (by simp))
      rwa [BitVec.ofInt_toInt] at this
    have hT := Spec.TypeIs.flagged ft (some f) hn2 hb hf2
    rw [Option.getD_some, hty] at hT
    have := typeFor_inv ft f
    refine classInit_type hl2 t hT (some f) hf2 (by rw [hn2]; trivial) stack (by simp only [List.length_cons, List.length_nil]; omega) ?_ ?_ ?_
    · intro e; exact this.1 (hty.trans e)
    · intro e; exact this.2.1 (hty.trans e)
    · intro e; exact this.2.2 (hty.trans e)
  cases t with
  | unknown => exact absurd rfl ht
  | checkBox => exact noFf (asciiB "Btn") rfl (by decide)
  | pushButton => exact withFf (asciiB "Btn") _ rfl (by decide) (Or.inl rfl)
  | radioButton => exact withFf (asciiB "Btn") _ rfl (by decide) (Or.inl rfl)
  | textBox => exact noFf (asciiB "Tx") rfl (by decide)
  | listBox => exact noFf (asciiB "Ch") rfl (by decide)
  | comboBox => exact withFf (asciiB "Ch") _ rfl (by decide) (Or.inr rfl)
  | signature => exact noFf (asciiB "Sig") rfl (by decide)

/-- C149: a new child of a field is of the kind of its parent. -/
theorem C149_child (h : FDoc) (r p : Ref) (hr : h r = some (.dict (h.dict r))) (hft : SMap.find? keyFT (h.dict r) = none)
    (hff : SMap.find? keyFf (h.dict r) = none) (l : List Ref) (hl : Spec.Line h p l) (hrl : r ∉ l) (t : FieldType) (ht : t ≠ .unknown)
    (f : Option (BitVec 64)) (hf : Spec.FlagsAre h l f) (stack : Nat) (hs : l.length < stack) (hty : h.fieldType stack (h.dict p) = .ok t) :
    ∃ h', h.newField stack r (some p) t = .ok h' ∧ Spec.Line h' r (r :: l) ∧ h'.fieldType stack (h'.dict r) = .ok t := by
  have hT := fieldType_ok hl t stack (by omega) hty
  obtain ⟨h1, e1⟩ : ∃ h1, h1 = h.addKey r keyParent (.ref p.num p.gen) := ⟨_, rfl⟩
  have hd1 : h1.dict r = SMap.insert keyParent (.ref p.num p.gen) (h.dict r) := by rw [e1, addKey_dict, if_pos rfl]
  have hl1 : Spec.Line h1 p l := by rw [e1]; exact hl.set_ne r _ hrl
  have hline : Spec.Line h1 r (r :: l) := by
    refine .child (q := p) (by rw [e1]; exact set_isDict h r r _ hr) ?_ hl1
    rw [hd1, SMap.find_insert_self]
  have near : ∀ k, k ≠ keyParent → SMap.find? k (h.dict r) = none → Plain (Spec.nearest h k l) → Spec.nearest h1 k (r :: l) = Spec.nearest h k l := by
    intro k hk hn hp
    have : h1.findKey (h1.dict r) k = none := by rw [hd1, FDoc.findKey, SMap.find_insert_ne _ _ hk, hn]
    have h2 : Spec.nearest h1 k (r :: l) = Spec.nearest h1 k l := by simp only [Spec.nearest, List.findSome?_cons, this]
    rw [h2, e1]; exact nearest_set_ne h r _ hr k l hrl hp
  have nFT := near keyFT keyFT_ne_parent hft (typeIs_plain hT)
  have nFf := near keyFf keyFf_ne_parent hff hf.plain
  have hf1 : Spec.FlagsAre h1 (r :: l) f := by
    cases hf with
    | absent e => exact .absent (by rw [nFf]; exact e)
    | present n e => exact .present n (by rw [nFf]; exact e)
  have huniq : ∀ g, Spec.FlagsAre h l g → g = f := by
    intro g hg
    have a := getFlags_line hl g hg stack (by omega)
    rw [getFlags_line hl f hf stack (by omega)] at a
    exact (Except.ok.inj a).symm
  have hT1 : Spec.TypeIs h1 (r :: l) t := by
    cases hT with
    | absent e => exact .absent (by rw [nFT]; exact e)
    | plain n e hb => exact .plain n (by rw [nFT]; exact e) hb
    | flagged n g e hb hg => have := huniq g hg; subst this; exact .flagged n g (by rw [nFT]; exact e) hb hf1
  have hinv : (t = .pushButton → (f.getD 0).getLsbD 16 = true) ∧ (t = .comboBox → (f.getD 0).getLsbD 17 = true) ∧
      (t = .listBox → (f.getD 0).getLsbD 17 = false) := by
    cases hT with
    | absent e => exact absurd rfl ht
    | plain n e hb =>
      have := plain_not_flagged n hb
      exact ⟨fun e => absurd e this.1, fun e => absurd e this.2.1, fun e => absurd e this.2.2⟩
    | flagged n g e hb hg => have := huniq g hg; subst this; exact typeFor_inv n (g.getD 0)
  rw [FDoc.newField, if_neg ht, ← e1]
  exact classInit_type hline t hT1 f hf1 (by rw [nFT]; exact typeIs_plain hT) stack (by simp only [List.length_cons, List.length_nil]; omega) hinv.1 hinv.2.1 hinv.2.2

/-- A text field, read only, with a child. -/
def flagDoc : FDoc := fun r =>
  if r = ⟨1, 0⟩ then some (.dict [(asciiB "FT", .name (asciiB "Tx")), (asciiB "Ff", .num 1)])
  else if r = ⟨2, 0⟩ then some (.dict [(asciiB "Parent", .ref 1 0)])
  else if r = ⟨3, 0⟩ then some (.dict [])
  else none

example : Spec.Line flagDoc ⟨2, 0⟩ [⟨2, 0⟩, ⟨1, 0⟩] := .child (q := ⟨1, 0⟩) rfl rfl (.root rfl rfl)
example : Spec.FlagsAre flagDoc [⟨2, 0⟩, ⟨1, 0⟩] (some 1) := .present 1 rfl
example : flagDoc.getFlag 2 ⟨2, 0⟩ (BitVec.twoPow 64 0) false = .ok true := by decide
example : (flagDoc.setFlag 2 ⟨2, 0⟩ (BitVec.twoPow 64 12) true).map (fun h => (h.getFlag 2 ⟨2, 0⟩ 1 false, h.getFlag 2 ⟨2, 0⟩ 4096 false, h.getFlag 2 ⟨1, 0⟩ 4096 false)) =
    .ok (.ok true, .ok true, .ok false) := by decide
example : flagDoc.fieldType 2 (flagDoc.dict ⟨2, 0⟩) = .ok .textBox := by decide
example : (flagDoc.newField 2 ⟨3, 0⟩ none .comboBox).map (fun h => h.fieldType 2 (h.dict ⟨3, 0⟩)) = .ok (.ok .comboBox) := by decide
example : (flagDoc.newField 3 ⟨3, 0⟩ (some ⟨2, 0⟩) .textBox).map (fun h => h.fieldType 3 (h.dict ⟨3, 0⟩)) = .ok (.ok .textBox) := by decide

end Pdfmm
