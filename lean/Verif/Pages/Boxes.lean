import Verif.Util.Geometry
import Verif.Forms.FieldFlags
/-
C156: the boxes, the size and the rotation of pages.
-/
set_option autoImplicit false
namespace Pdfmm

def keyMediaBox : Bytes := asciiB "MediaBox"
def keyCropBox : Bytes := asciiB "CropBox"
def keyBleedBox : Bytes := asciiB "BleedBox"
def keyTrimBox : Bytes := asciiB "TrimBox"
def keyArtBox : Bytes := asciiB "ArtBox"
def keyRotate : Bytes := asciiB "Rotate"

/-- `TryGetReal`, `src/pdfmm/base/PdfVariant.cpp:576-591`.  The value is exact. -/
def Var.toRat? : Var → Option Rat
  | .num n => some n
  | .real neg m s => some ((if neg then -(m : Rat) else m) / 10 ^ s)
  | _ => none

/-- `PdfObject(double)`.  A double is a multiple of 2^-1074, so 1074 decimal places hold it exactly. -/
def coordVar (q : Rat) : Var := .real (decide (q < 0)) ((if q < 0 then -q else q) * 10 ^ 1074).floor.toNat 1074

/-- `PdfRect::ToArray`, `src/pdfmm/base/PdfRect.cpp:49-56`, as an array object. -/
def Rect.toVars (r : Rect) : List Var := r.toArray.map coordVar

/-- `PdfRect::FromArray`, `src/pdfmm/base/PdfRect.cpp:73-88`, on an array object: `GetReal` does not follow references. -/
def Rect.ofVars : List Var → Res Rect
  | [a, b, c, d] =>
    match a.toRat?, b.toRat?, c.toRat?, d.toRat? with
    | some x1, some y1, some x2, some y2 => .ok (Rect.fromCorners x1 y1 x2 y2)
    | _, _, _, _ => raise .InvalidDataType
  | _ => raise .ValueOutOfRange

inductive PageBox
  | media | crop | bleed | trim | art
  deriving DecidableEq

/-- The names used by `GetMediaBox` and the others, `src/pdfmm/base/PdfPage.cpp:478-501`. -/
def PageBox.key : PageBox → Bytes
  | .media => keyMediaBox
  | .crop => keyCropBox
  | .bleed => keyBleedBox
  | .trim => keyTrimBox
  | .art => keyArtBox

/-- The array of `getPageBox`, `src/pdfmm/base/PdfPage.cpp:168-175`: nothing when there is none. -/
def FDoc.boxEntry (h : FDoc) (stack : Nat) (r : Ref) (b : PageBox) : Res (Option Rect) :=
  match h.findKeyParent b.key stack (h.dict r) with
  | .error e => .error e
  | .ok (some (.arr l)) => (Rect.ofVars l).map some
  | .ok _ => .ok none

/-- What stands for a box that is not given, `src/pdfmm/base/PdfPage.cpp:176-189`. -/
def PageBox.other : PageBox → Option PageBox
  | .media => none
  | .crop => some .media
  | .bleed => some .crop
  | .trim => some .crop
  | .art => some .crop

/-- `getPageBox`, `src/pdfmm/base/PdfPage.cpp:164-192`; `n` is the number of nested calls, of which there are three at most. -/
def FDoc.getBoxN (h : FDoc) (stack : Nat) (r : Ref) : Nat → PageBox → Res Rect
  | 0, _ => .ok ⟨0, 0, 0, 0⟩
  | n + 1, b =>
    match h.boxEntry stack r b with
    | .error e => .error e
    | .ok (some q) => .ok q
    | .ok none =>
      match b.other with
      | some b' => h.getBoxN stack r n b'
      | none => .ok ⟨0, 0, 0, 0⟩

def FDoc.getBox (h : FDoc) (stack : Nat) (r : Ref) (b : PageBox) : Res Rect := h.getBoxN stack r 3 b

/-- `SetMediaBox` and `SetTrimBox`, `src/pdfmm/base/PdfPage.cpp:315-327`. -/
def FDoc.setBox (h : FDoc) (r : Ref) (b : PageBox) (q : Rect) : FDoc := h.addKey r b.key (.arr q.toVars)

/-- `GetRotationRaw`, `src/pdfmm/base/PdfPage.cpp:194-203`. -/
def FDoc.getRotation (h : FDoc) (stack : Nat) (r : Ref) : Res Int :=
  match h.findKeyParent keyRotate stack (h.dict r) with
  | .error e => .error e
  | .ok none => .ok 0
  | .ok (some (.num n)) => .ok (BitVec.ofInt 32 n).toInt
  | .ok (some (.real _ m _)) => if m = 0 then .ok 0 else raise .InvalidDataType
  | .ok (some _) => raise .InvalidDataType

/-- `SetRotationRaw`, `src/pdfmm/base/PdfPage.cpp:205-211`. -/
def FDoc.setRotation (h : FDoc) (r : Ref) (n : Int) : Res FDoc :=
  if n ≠ 0 ∧ n ≠ 90 ∧ n ≠ 180 ∧ n ≠ 270 then raise .ValueOutOfRange else .ok (h.addKey r keyRotate (.num n))

/-- `normalize`, `src/pdfmm/base/PdfPage.cpp:504-511`: the division of C++ rounds towards zero. -/
def normalizeTurn (value start stop : Int) : Int := (value - start) - (value - start).tdiv (stop - start) * (stop - start) + start

/-- `HasRotation`, `src/pdfmm/base/PdfPage.cpp:50-63`: nothing, or the turn in degrees, counterclockwise. -/
def FDoc.hasRotation (h : FDoc) (stack : Nat) (r : Ref) : Res (Option Int) :=
  match h.getRotation stack r with
  | .error e => .error e
  | .ok n => if normalizeTurn n 0 360 = 0 then .ok none else .ok (some (-(normalizeTurn n 0 360)))

/-- Where `FindKeyParent` finds a value: an entry of an object, or an object referred to. -/
inductive BoxLoc
  | entry (r : Ref)
  | object (r : Ref)

/-- `FindKeyParent`, `src/pdfmm/base/PdfDictionary.cpp:148-170`, as the place of what it finds.  Parents that are not indirect objects are left out. -/
def FDoc.locate (h : FDoc) (k : Bytes) : Nat → Ref → Res (Option BoxLoc)
  | 0, _ => .error .diverge
  | stack + 1, r =>
    let up : Res (Option BoxLoc) :=
      match SMap.find? keyParent (h.dict r) with
      | some (.ref n g) =>
        match h ⟨n, g⟩ with
        | some (.dict _) => h.locate k stack ⟨n, g⟩
        | _ => .ok none
      | _ => .ok none
    match SMap.find? k (h.dict r) with
    | some (.ref n g) => if (h ⟨n, g⟩).isSome then .ok (some (.object ⟨n, g⟩)) else up
    | some _ => .ok (some (.entry r))
    | none => up

def FDoc.valueAt (h : FDoc) (k : Bytes) : BoxLoc → Option Var
  | .entry r => SMap.find? k (h.dict r)
  | .object r => h r

def FDoc.putAt (h : FDoc) (k : Bytes) (v : Var) : BoxLoc → FDoc
  | .entry r => h.addKey r k v
  | .object r => h.set r v

/-- The change of an array in `SetPageWidth` (`i = 0`) and `SetPageHeight` (`i = 1`), `src/pdfmm/base/PdfPage.cpp:253-255`.  Indexing beyond the end is
undefined. -/
def resizeArr (i : Nat) (size : Int) (l : List Var) : Res (List Var) :=
  match l[i]? with
  | none => .error .ub
  | some v =>
    match v.toRat? with
    | none => raise .InvalidDataType
    | some x => if i + 2 < l.length then .ok (l.set (i + 2) (coordVar (size + x))) else .error .ub

/-- One of the two boxes in `SetPageWidth`, `src/pdfmm/base/PdfPage.cpp:245-255`. -/
def FDoc.resizeBox (h : FDoc) (stack : Nat) (r : Ref) (k : Bytes) (i : Nat) (size : Int) : Res (FDoc × Bool) :=
  match h.locate k stack r with
  | .error e => .error e
  | .ok none => .ok (h, false)
  | .ok (some p) =>
    match h.valueAt k p with
    | some (.arr l) =>
      match resizeArr i size l with
      | .error e => .error e
      | .ok l' => .ok (h.putAt k (.arr l') p, true)
    | _ => .ok (h, false)

/-- `SetPageWidth` (`i = 0`) and `SetPageHeight` (`i = 1`), `src/pdfmm/base/PdfPage.cpp:243-313`. -/
def FDoc.setPageSize (h : FDoc) (stack : Nat) (r : Ref) (i : Nat) (size : Int) : Res (FDoc × Bool) :=
  match h.resizeBox stack r keyMediaBox i size with
  | .error e => .error e
  | .ok (h1, false) => .ok (h1, false)
  | .ok (h1, true) => h1.resizeBox stack r keyCropBox i size

/-- The values doubles can have. -/
def Spec.Double (q : Rat) : Prop := ∃ z : Int, q * 2 ^ 1074 = z

/-- The nearest array under a name. -/
def Spec.boxArray (h : FDoc) (l : List Ref) (b : PageBox) : Option (List Var) :=
  match Spec.nearest h b.key l with
  | some (.arr a) => some a
  | _ => none

/-- Where a box is looked for, first to last: what PDF says. -/
def Spec.boxOrder : PageBox → List PageBox
  | .media => [.media]
  | .crop => [.crop, .media]
  | b => [b, .crop, .media]

/-- A tree with a box of all pages, two pages without boxes, a page with its own boxes, and one with corners given from right to left and a real rotation. -/
def boxDoc : FDoc := fun r =>
  if r = ⟨1, 0⟩ then some (.dict [(keyMediaBox, .arr [.num 0, .num 0, .num 595, .num 842]), (keyTrimBox, .arr [.num 5, .num 5, .num 100, .num 100])])
  else if r = ⟨2, 0⟩ then some (.dict [(keyParent, .ref 1 0), (keyRotate, .num (-90))])
  else if r = ⟨3, 0⟩ then some (.dict [(keyParent, .ref 1 0)])
  else if r = ⟨4, 0⟩ then some (.dict [(keyCropBox, .arr [.num 10, .num 10, .num 90, .num 90]), (keyMediaBox, .arr [.num 0, .num 0, .num 100, .real false 2005 1])])
  else if r = ⟨5, 0⟩ then some (.dict [(keyMediaBox, .arr [.num 100, .num 0, .num 40, .num 50]), (keyRotate, .real false 900 1)])
  else if r = ⟨6, 0⟩ then some (.dict [(keyMediaBox, .arr [.num 0, .num 0, .num 40, .ref 7 0])])
  else if r = ⟨7, 0⟩ then some (.num 50)
  else none

theorem boxDoc_page : Spec.Line boxDoc ⟨2, 0⟩ [⟨2, 0⟩, ⟨1, 0⟩] := .child rfl rfl (.root rfl rfl)

theorem boxEntry_line {h : FDoc} {r : Ref} {l : List Ref} (hl : Spec.Line h r l) (stack : Nat) (hs : l.length ≤ stack) (b : PageBox) :
    h.boxEntry stack r b = match Spec.boxArray h l b with | some a => (Rect.ofVars a).map some | none => .ok none := by
  rw [FDoc.boxEntry, line_findKeyParent hl b.key stack hs, Spec.boxArray, Spec.nearest]
  generalize List.findSome? (fun a => h.findKey (h.dict a) b.key) l = o
  cases o with
  | none => rfl
  | some v => cases v <;> rfl

/-- C156: a box is read from the first array in the order of PDF: the box itself, then the crop box, then the media box, each of the page or else of the
nearest parent that has one; without any of them it is empty. -/
theorem C156_box {h : FDoc} {r : Ref} {l : List Ref} (hl : Spec.Line h r l) (stack : Nat) (hs : l.length ≤ stack) (b : PageBox) :
    h.getBox stack r b = match (Spec.boxOrder b).findSome? (Spec.boxArray h l) with | some a => Rect.ofVars a | none => .ok ⟨0, 0, 0, 0⟩ := by
  have one : ∀ n b', h.getBoxN stack r (n + 1) b' = match Spec.boxArray h l b' with
      | some a => Rect.ofVars a
      | none => match b'.other with | some c => h.getBoxN stack r n c | none => .ok ⟨0, 0, 0, 0⟩ := by
    intro n b'
    rw [FDoc.getBoxN, boxEntry_line hl stack hs]
    cases Spec.boxArray h l b' with
    | none => rfl
    | some a => simp only []; cases Rect.ofVars a <;> rfl
  cases b <;> simp only [FDoc.getBox, one, PageBox.other, Spec.boxOrder, List.findSome?_cons, List.findSome?_nil]
  all_goals (repeat' (first | rfl | split))
  all_goals simp_all

example : boxDoc.getBox 2 ⟨2, 0⟩ .crop = .ok ⟨0, 0, 595, 842⟩ := by
  rw [C156_box boxDoc_page 2 (by decide) .crop, show (Spec.boxOrder .crop).findSome? (Spec.boxArray boxDoc [⟨2, 0⟩, ⟨1, 0⟩]) =
    some [.num 0, .num 0, .num 595, .num 842] from rfl]
  simp only [Rect.ofVars, Var.toRat?, Except.ok.injEq]
  decide +kernel

theorem pow_ten (k : Nat) : (10 : Rat) ^ k = 2 ^ k * 5 ^ k := by
  induction k with
  | zero => simp only [Rat.pow_zero]; decide +kernel
  | succ k ih => rw [Rat.pow_succ, Rat.pow_succ, Rat.pow_succ, ih]; grind

theorem floor_exact (q : Rat) (k : Nat) (z : Int) (h : q * 2 ^ k = z) (hq : 0 ≤ q) : (((q * 10 ^ k).floor.toNat : Nat) : Rat) / 10 ^ k = q := by
  have h1 : q * 10 ^ k = ((z * 5 ^ k : Int) : Rat) := by
    rw [pow_ten, ← Rat.mul_assoc, h, Rat.intCast_mul, Rat.intCast_pow]; rfl
  have hp : (0 : Rat) < 10 ^ k := Rat.pow_pos (by decide)
  have h2 : 0 ≤ q * 10 ^ k := Rat.mul_nonneg hq (Rat.le_of_lt hp)
  have h3 : (0 : Int) ≤ z * 5 ^ k := by rw [h1] at h2; exact Rat.intCast_nonneg.1 h2
  rw [h1, Rat.floor_intCast]
  have h4 : (((z * 5 ^ k).toNat : Nat) : Rat) = ((z * 5 ^ k : Int) : Rat) := by
    rw [← Rat.intCast_natCast, Int.toNat_of_nonneg h3]
  rw [h4, ← h1, Rat.div_def, Rat.mul_assoc, Rat.mul_inv_cancel _ (by grind), Rat.mul_one]

theorem decimal_exact (k : Nat) (q : Rat) (z : Int) (h : q * 2 ^ k = z) :
    (Var.real (decide (q < 0)) ((if q < 0 then -q else q) * 10 ^ k).floor.toNat k).toRat? = some q := by
  simp only [Var.toRat?]
  by_cases hq : q < 0
  · have := floor_exact (-q) k (-z) (by rw [Rat.neg_mul, h, Rat.intCast_neg]) (by grind)
    simp only [hq, decide_true, if_true]
    rw [Option.some.injEq, Rat.div_def, Rat.neg_mul, ← Rat.div_def, this]; grind
  · have := floor_exact q k z h (by grind)
    simp only [hq, decide_false, if_false, Bool.false_eq_true, this]

theorem coordVar_exact (q : Rat) (h : Spec.Double q) : (coordVar q).toRat? = some q := by
  obtain ⟨z, hz⟩ := h
  exact decimal_exact 1074 q z hz

theorem Spec.Double.add {p q : Rat} (hp : Spec.Double p) (hq : Spec.Double q) : Spec.Double (p + q) := by
  obtain ⟨y, hy⟩ := hp
  obtain ⟨z, hz⟩ := hq
  exact ⟨y + z, by rw [Rat.add_mul, hy, hz, Rat.intCast_add]⟩

theorem Spec.Double.int (n : Int) : Spec.Double (n : Rat) := by
  have : ∀ k : Nat, ∃ z : Int, (n : Rat) * 2 ^ k = z := fun k => ⟨n * 2 ^ k, by rw [Rat.intCast_mul, Rat.intCast_pow]; rfl⟩
  exact this 1074

/-- The four numbers of a rectangle are doubles. -/
def Spec.Doubles (q : Rect) : Prop := Spec.Double q.left ∧ Spec.Double q.bottom ∧ Spec.Double q.width ∧ Spec.Double q.height

theorem ofVars_toVars (q : Rect) (hd : Spec.Doubles q) (hp : Spec.Proper q) : Rect.ofVars q.toVars = .ok q := by
  obtain ⟨h1, h2, h3, h4⟩ := hd
  have e1 := coordVar_exact _ h1
  have e2 := coordVar_exact _ h2
  have e3 := coordVar_exact _ (h3.add h1)
  have e4 := coordVar_exact _ (h4.add h2)
  have key := C154_array_partial q hp
  simp only [Rect.toArray, Rect.fromArray] at key
  simp only [Rect.toVars, Rect.toArray, List.map_cons, List.map_nil, Rect.ofVars, e1, e2, e3, e4, key]

/-- An entry is changed: arrays under other names are where they were. -/
theorem boxArray_addKey_ne (h : FDoc) (r : Ref) (k' : Bytes) (v : Var) (hr : h r = some (.dict (h.dict r))) (b : PageBox) (hk : b.key ≠ k') :
    ∀ l : List Ref, Spec.boxArray (h.addKey r k' v) l b = Spec.boxArray h l b := by
  intro l
  rw [Spec.boxArray, Spec.boxArray]
  induction l with
  | nil => rfl
  | cons q l ih =>
    have hd : (h.addKey r k' v).findKey ((h.addKey r k' v).dict q) b.key = (h.addKey r k' v).findKey (h.dict q) b.key := by
      apply findKey_congr
      rw [addKey_dict]; split
      · rename_i e; rw [SMap.find_insert_ne _ _ hk, e]
      · rfl
    simp only [Spec.nearest, List.findSome?_cons, hd] at ih ⊢
    cases findKey_set h r (SMap.insert k' v (h.dict r)) hr (h.dict q) b.key with
    | inl e =>
      rw [FDoc.addKey, e]
      cases hf : h.findKey (h.dict q) b.key with
      | some v => rfl
      | none => exact ih
    | inr e => rw [FDoc.addKey, e.1, e.2]

/-- An object is changed: arrays found on lines without it are where they were. -/
theorem boxArray_set_notin (h : FDoc) (r : Ref) (d : FDict) (hr : h r = some (.dict (h.dict r))) (b : PageBox) :
    ∀ l : List Ref, r ∉ l → Spec.boxArray (h.set r (.dict d)) l b = Spec.boxArray h l b := by
  intro l hn
  rw [Spec.boxArray, Spec.boxArray]
  induction l with
  | nil => rfl
  | cons q l ih =>
    have hq : q ≠ r := fun e => hn (by simp [e])
    have hd : (h.set r (.dict d)).dict q = h.dict q := by rw [set_dict, if_neg hq]
    have ih := ih (fun x => hn (by simp [x]))
    simp only [Spec.nearest, List.findSome?_cons, hd] at ih ⊢
    cases findKey_set h r d hr (h.dict q) b.key with
    | inl e =>
      rw [e]
      cases hf : h.findKey (h.dict q) b.key with
      | some v => rfl
      | none => exact ih
    | inr e => rw [e.1, e.2]

theorem key_inj (a b : PageBox) (h : a.key = b.key) : a = b := by
  cases a <;> cases b <;> first | rfl | exact absurd h (by decide)

theorem key_ne_parent (b : PageBox) : b.key ≠ keyParent := by cases b <;> decide

theorem boxArray_own (h : FDoc) (r : Ref) (b : PageBox) (a : List Var) (l : List Ref) :
    Spec.boxArray (h.addKey r b.key (.arr a)) (r :: l) b = some a := by
  rw [Spec.boxArray, nearest_addKey_self h r b.key _ l (by intro n g; simp)]

/-- C156: a box that was set reads back exactly; so do the boxes for which it stands, while the others, and all boxes of pages that are not below the page,
stay as they were. -/
theorem C156_set {h : FDoc} {r : Ref} {l : List Ref} (hl : Spec.Line h r l) (stack : Nat) (hs : l.length ≤ stack) (b : PageBox) (q : Rect)
    (hd : Spec.Doubles q) (hp : Spec.Proper q) :
    (∀ b', (h.setBox r b q).getBox stack r b' =
      if b ∈ Spec.boxOrder b' ∧ ∀ c ∈ (Spec.boxOrder b').takeWhile (fun c => c ≠ b), Spec.boxArray h l c = none then .ok q else h.getBox stack r b') ∧
    ∀ r' l', Spec.Line h r' l' → l'.length ≤ stack → r ∉ l' → ∀ b', (h.setBox r b q).getBox stack r' b' = h.getBox stack r' b' := by
  have hl2 : Spec.Line (h.setBox r b q) r l := hl.addKey r b.key _ (key_ne_parent b)
  obtain ⟨t, ht⟩ := hl.ne_nil
  have self : Spec.boxArray (h.setBox r b q) l b = some q.toVars := by rw [ht]; exact boxArray_own h r b _ t
  have rest : ∀ c, c ≠ b → Spec.boxArray (h.setBox r b q) l c = Spec.boxArray h l c := by
    intro c hc
    exact boxArray_addKey_ne h r b.key _ hl.isDict c (fun e => hc (key_inj _ _ e)) l
  refine ⟨?_, ?_⟩
  · intro b'
    rw [C156_box hl2 stack hs b', C156_box hl stack hs b']
    have go : ∀ o : List PageBox, (match o.findSome? (Spec.boxArray (h.setBox r b q) l) with | some a => Rect.ofVars a | none => .ok ⟨0, 0, 0, 0⟩) =
        if b ∈ o ∧ ∀ c ∈ o.takeWhile (fun c => c ≠ b), Spec.boxArray h l c = none then .ok q
        else match o.findSome? (Spec.boxArray h l) with | some a => Rect.ofVars a | none => .ok ⟨0, 0, 0, 0⟩ := by
      intro o
      induction o with
      | nil => simp
      | cons c o ih =>
        by_cases hc : c = b
        · subst hc
          simp only [List.findSome?_cons, self, ofVars_toVars q hd hp, List.takeWhile_cons]
          simp
        · simp only [List.findSome?_cons, rest c hc]
          cases hb : Spec.boxArray h l c with
          | some a =>
            simp only []
            rw [if_neg]
            rintro ⟨_, h2⟩
            have := h2 c (by simp [hc])
            rw [hb] at this; cases this
          | none =>
            simp only []
            rw [ih]
            have : (b ∈ c :: o ∧ ∀ c' ∈ (c :: o).takeWhile (fun c => decide (c ≠ b)), Spec.boxArray h l c' = none) ↔
                (b ∈ o ∧ ∀ c' ∈ o.takeWhile (fun c => decide (c ≠ b)), Spec.boxArray h l c' = none) := by
              simp [hc, hb, Ne.symm hc]
            simp only [this]
    exact go _
  · intro r' l' hl' hs' hn b'
    have hl3 : Spec.Line (h.setBox r b q) r' l' := hl'.addKey r b.key _ (key_ne_parent b)
    rw [C156_box hl3 stack hs' b', C156_box hl' stack hs' b']
    have : (fun c => Spec.boxArray (h.setBox r b q) l' c) = fun c => Spec.boxArray h l' c := by
      funext c; exact boxArray_set_notin h r _ hl.isDict c l' hn
    show (match (Spec.boxOrder b').findSome? (fun c => Spec.boxArray (h.setBox r b q) l' c) with | some a => Rect.ofVars a | none => .ok ⟨0, 0, 0, 0⟩) = _
    rw [this]

example : Spec.Doubles ⟨0, 0, 612, 792⟩ ∧ Spec.Proper ⟨0, 0, 612, 792⟩ :=
  ⟨⟨Spec.Double.int 0, Spec.Double.int 0, Spec.Double.int 612, Spec.Double.int 792⟩, by simp only [Spec.Proper]; decide +kernel⟩

/-- Four numbers given one by one, possibly as references to numbers. -/
def Spec.FourNumbers (h : FDoc) (a : List Var) : Prop :=
  a.length = 4 ∧ ∀ v ∈ a, (∃ x, v.toRat? = some x) ∨ ∃ n g w x, v = .ref n g ∧ h ⟨n, g⟩ = some w ∧ w.toRat? = some x

/-- C156, what is wrong: an array in which one of the four numbers is given by a reference, as PDF allows for every element of an array, cannot be read. -/
theorem C156_reference_false {h : FDoc} {r : Ref} {l : List Ref} (hl : Spec.Line h r l) (stack : Nat) (hs : l.length ≤ stack) (b : PageBox) (a : List Var)
    (ha : (Spec.boxOrder b).findSome? (Spec.boxArray h l) = some a) (h4 : Spec.FourNumbers h a) (n g : Nat) (hv : Var.ref n g ∈ a) :
    h.getBox stack r b = raise .InvalidDataType := by
  rw [C156_box hl stack hs b, ha]
  obtain ⟨hlen, _⟩ := h4
  match a, hlen with
  | [v1, v2, v3, v4], _ =>
    have : Var.toRat? (.ref n g) = none := rfl
    simp only [List.mem_cons, List.not_mem_nil, or_false] at hv
    simp only [Rect.ofVars]
    rcases hv with e | e | e | e
    · rw [← e, this]
    · rw [← e, this]; cases v1.toRat? <;> rfl
    · rw [← e, this]; cases v1.toRat? <;> cases v2.toRat? <;> rfl
    · rw [← e, this]; cases v1.toRat? <;> cases v2.toRat? <;> cases v3.toRat? <;> rfl

example : Spec.Line boxDoc ⟨6, 0⟩ [⟨6, 0⟩] ∧ (Spec.boxOrder .media).findSome? (Spec.boxArray boxDoc [⟨6, 0⟩]) = some [.num 0, .num 0, .num 40, .ref 7 0] ∧
    Spec.FourNumbers boxDoc [.num 0, .num 0, .num 40, .ref 7 0] := by
  refine ⟨.root rfl rfl, rfl, rfl, ?_⟩
  intro v hv
  simp only [List.mem_cons, List.not_mem_nil, or_false] at hv
  rcases hv with rfl | rfl | rfl | rfl
  · exact Or.inl ⟨_, rfl⟩
  · exact Or.inl ⟨_, rfl⟩
  · exact Or.inl ⟨_, rfl⟩
  · exact Or.inr ⟨7, 0, .num 50, _, rfl, rfl, rfl⟩

/-- C156, what is wrong: the bleed, trim and art boxes are not inherited in PDF, but a page without one gets that of its parent instead of its own crop box. -/
theorem C156_inherited_false {h : FDoc} {r p : Ref} {l : List Ref} (hr : h r = some (.dict (h.dict r))) (hp : Spec.Line h p l)
    (hpar : SMap.find? keyParent (h.dict r) = some (.ref p.num p.gen)) (stack : Nat) (hs : l.length < stack) (b : PageBox)
    (hb : b = .bleed ∨ b = .trim ∨ b = .art) (hown : SMap.find? b.key (h.dict r) = none) (a : List Var)
    (hbox : SMap.find? b.key (h.dict p) = some (.arr a)) : h.getBox stack r b = Rect.ofVars a ∧ h.getBox stack p b = Rect.ofVars a := by
  have hl : Spec.Line h r (r :: l) := .child hr hpar hp
  obtain ⟨t, ht⟩ := hp.ne_nil
  have h1 : h.findKey (h.dict r) b.key = none := by rw [FDoc.findKey, hown]
  have h2 : h.findKey (h.dict p) b.key = some (.arr a) := by rw [FDoc.findKey, hbox]
  have e1 : Spec.boxArray h (r :: l) b = some a := by
    rw [Spec.boxArray, Spec.nearest, ht, List.findSome?_cons, h1]; simp only []; rw [List.findSome?_cons, h2]
  have e2 : Spec.boxArray h l b = some a := by
    rw [Spec.boxArray, Spec.nearest, ht, List.findSome?_cons, h2]
  rw [C156_box hl stack (by simp only [List.length_cons]; omega) b, C156_box hp stack (by omega) b]
  rcases hb with rfl | rfl | rfl <;> simp [Spec.boxOrder, e1, e2]

example : SMap.find? keyParent (boxDoc.dict ⟨3, 0⟩) = some (.ref 1 0) ∧ SMap.find? keyTrimBox (boxDoc.dict ⟨3, 0⟩) = none ∧
    SMap.find? keyTrimBox (boxDoc.dict ⟨1, 0⟩) = some (.arr [.num 5, .num 5, .num 100, .num 100]) := ⟨rfl, rfl, rfl⟩

/-- What a rotation is, as PDF gives it: the nearest number, or none. -/
inductive Spec.RotationIs (h : FDoc) (l : List Ref) : Int → Prop
  | absent : Spec.nearest h keyRotate l = none → Spec.RotationIs h l 0
  | given (n : Int) : Spec.nearest h keyRotate l = some (.num n) → -2 ^ 31 ≤ n → n < 2 ^ 31 → Spec.RotationIs h l n

theorem int32_keep (n : Int) (h1 : -2 ^ 31 ≤ n) (h2 : n < 2 ^ 31) : (BitVec.ofInt 32 n).toInt = n := by
  rw [BitVec.toInt_ofInt, Int.bmod_eq_of_le (by omega) (by omega)]

theorem keyRotate_ne_parent : keyRotate ≠ keyParent := by decide

theorem getRotation_line {h : FDoc} {r : Ref} {l : List Ref} (hl : Spec.Line h r l) (stack : Nat) (hs : l.length ≤ stack) (n : Int)
    (hn : Spec.RotationIs h l n) : h.getRotation stack r = .ok n := by
  rw [FDoc.getRotation, line_findKeyParent hl keyRotate stack hs]
  cases hn with
  | absent e => rw [Spec.nearest] at e; rw [e]
  | given _ e h1 h2 => rw [Spec.nearest] at e; rw [e]; simp only [int32_keep n h1 h2]

/-- C156: only quarter turns can be set; what was set reads back, and pages that are not below the page keep their rotation. -/
theorem C156_rotation {h : FDoc} {r : Ref} {l : List Ref} (hl : Spec.Line h r l) (stack : Nat) (hs : l.length ≤ stack) (n : Int) :
    ((n = 0 ∨ n = 90 ∨ n = 180 ∨ n = 270) → ∃ h', h.setRotation r n = .ok h' ∧ h'.getRotation stack r = .ok n ∧ Spec.Line h' r l ∧
      (∀ r' l' m, Spec.Line h r' l' → l'.length ≤ stack → r ∉ l' → Spec.RotationIs h l' m → h'.getRotation stack r' = .ok m) ∧
      ∀ b, h'.getBox stack r b = h.getBox stack r b) ∧
    (¬(n = 0 ∨ n = 90 ∨ n = 180 ∨ n = 270) → h.setRotation r n = raise .ValueOutOfRange) := by
  constructor
  · intro hn
    have hl2 := hl.addKey r keyRotate (.num n) keyRotate_ne_parent
    refine ⟨_, by rw [FDoc.setRotation, if_neg (by omega)], ?_, hl2, ?_, ?_⟩
    · obtain ⟨t, ht⟩ := hl.ne_nil
      refine getRotation_line hl2 stack hs n (.given n ?_ (by omega) (by omega))
      rw [ht]; exact nearest_addKey_self h r keyRotate _ t (by intro a b; simp)
    · intro r' l' m hl' hs' hnin hm
      refine getRotation_line (hl'.addKey r keyRotate _ keyRotate_ne_parent) stack hs' m ?_
      have plain : Plain (Spec.nearest h keyRotate l') := by cases hm with | absent e => rw [e]; trivial | given _ e => rw [e]; trivial
      have := nearest_set_ne h r (SMap.insert keyRotate (.num n) (h.dict r)) hl.isDict keyRotate l' hnin plain
      cases hm with
      | absent e => exact .absent (this.trans e)
      | given _ e h1 h2 => exact .given m (this.trans e) h1 h2
    · intro b
      rw [C156_box hl2 stack hs b, C156_box hl stack hs b]
      have : (fun c => Spec.boxArray (h.addKey r keyRotate (.num n)) l c) = fun c => Spec.boxArray h l c := by
        funext c; exact boxArray_addKey_ne h r keyRotate _ hl.isDict c (by cases c <;> decide) l
      show (match (Spec.boxOrder b).findSome? (fun c => Spec.boxArray (h.addKey r keyRotate (.num n)) l c) with
        | some a => Rect.ofVars a | none => .ok ⟨0, 0, 0, 0⟩) = _
      rw [this]
  · intro hn
    rw [FDoc.setRotation, if_pos (by omega)]

/-- C156: a page has a rotation exactly if its number is not a number of full turns; the turn given is the same up to full turns, counterclockwise, and less
than a full turn. -/
theorem C156_turn {h : FDoc} {r : Ref} {l : List Ref} (hl : Spec.Line h r l) (stack : Nat) (hs : l.length ≤ stack) (n : Int) (hn : Spec.RotationIs h l n) :
    (h.hasRotation stack r = .ok none ∧ n % 360 = 0) ∨
    ∃ t, h.hasRotation stack r = .ok (some t) ∧ n % 360 ≠ 0 ∧ (t + n) % 360 = 0 ∧ -360 < t ∧ t < 360 := by
  rw [FDoc.hasRotation, getRotation_line hl stack hs n hn]
  have hm : normalizeTurn n 0 360 = n.tmod 360 := by
    rw [normalizeTurn, Int.tmod_def]; simp only [Int.sub_zero, Int.add_zero]; rw [Int.mul_comm]
  have hc : (0 ≤ n ∧ n.tmod 360 = n % 360) ∨ (n < 0 ∧ n.tmod 360 = -((-n) % 360)) := by
    by_cases h0 : 0 ≤ n
    · exact Or.inl ⟨h0, Int.tmod_eq_emod_of_nonneg h0⟩
    · refine Or.inr ⟨by omega, ?_⟩
      rw [← Int.tmod_eq_emod_of_nonneg (by omega), Int.neg_tmod, Int.neg_neg]
  simp only [hm]
  split
  · exact Or.inl ⟨rfl, by omega⟩
  · exact Or.inr ⟨_, rfl, by omega, by omega, by omega, by omega⟩

example : Spec.RotationIs boxDoc [⟨2, 0⟩, ⟨1, 0⟩] (-90) ∧ boxDoc.hasRotation 2 ⟨2, 0⟩ = .ok (some 90) := ⟨.given _ rfl (by decide) (by decide), rfl⟩

/-- C156, what is wrong: a rotation written as a real, such as 90.0, or anything else that is not an integer makes every use of the rotation fail. -/
theorem C156_rotation_false {h : FDoc} {r : Ref} {l : List Ref} (hl : Spec.Line h r l) (stack : Nat) (hs : l.length ≤ stack) (v : Var)
    (hv : Spec.nearest h keyRotate l = some v) (hnum : ∀ n, v ≠ .num n) (hzero : v.toRat? ≠ some 0) :
    h.getRotation stack r = raise .InvalidDataType ∧ h.hasRotation stack r = raise .InvalidDataType := by
  have h1 : h.getRotation stack r = raise .InvalidDataType := by
    rw [FDoc.getRotation, line_findKeyParent hl keyRotate stack hs]
    rw [Spec.nearest] at hv
    rw [hv]
    cases v with
    | num n => exact absurd rfl (hnum n)
    | real neg m s =>
      have : m ≠ 0 := by
        rintro rfl
        apply hzero
        simp only [Var.toRat?]
        cases neg <;> simp [Rat.div_def]
      simp only [if_neg this]
    | _ => rfl
  exact ⟨h1, by rw [FDoc.hasRotation, h1]⟩

example : Spec.nearest boxDoc keyRotate [⟨5, 0⟩] = some (.real false 900 1) ∧ Var.toRat? (.real false 900 1) = some 90 :=
  ⟨rfl, by simp only [Var.toRat?, Option.some.injEq]; decide +kernel⟩

/-- An array of a box with its lower left and upper right corner. -/
structure Spec.Corners (a : List Var) (x1 y1 x2 y2 : Rat) : Prop where
  four : a.map Var.toRat? = [some x1, some y1, some x2, some y2]

theorem ofVars_corners {a : List Var} {x1 y1 x2 y2 : Rat} (hc : Spec.Corners a x1 y1 x2 y2) : Rect.ofVars a = .ok (Rect.fromCorners x1 y1 x2 y2) := by
  obtain ⟨h4⟩ := hc
  match a with
  | [] | [_] | [_, _] | [_, _, _] | _ :: _ :: _ :: _ :: _ :: _ => simp at h4
  | [v1, v2, v3, v4] =>
    simp only [List.map_cons, List.map_nil, List.cons.injEq, and_true] at h4
    obtain ⟨e1, e2, e3, e4⟩ := h4
    simp only [Rect.ofVars, e1, e2, e3, e4]

/-- The array after its width (`i = 0`) or height (`i = 1`) was changed. -/
theorem resizeArr_corners {a : List Var} {x1 y1 x2 y2 : Rat} (hc : Spec.Corners a x1 y1 x2 y2) (i : Nat) (hi : i = 0 ∨ i = 1) (size : Int)
    (hd : Spec.Double (if i = 0 then x1 else y1)) :
    ∃ a', resizeArr i size a = .ok a' ∧ Spec.Corners a' x1 y1 (if i = 0 then size + x1 else x2) (if i = 0 then y2 else size + y1) := by
  obtain ⟨h4⟩ := hc
  match a with
  | [] | [_] | [_, _] | [_, _, _] | _ :: _ :: _ :: _ :: _ :: _ => simp at h4
  | [v1, v2, v3, v4] =>
    simp only [List.map_cons, List.map_nil, List.cons.injEq, and_true] at h4
    obtain ⟨e1, e2, e3, e4⟩ := h4
    rcases hi with rfl | rfl
    · refine ⟨[v1, v2, coordVar (size + x1), v4], by simp [resizeArr, e1], ⟨?_⟩⟩
      simpa [e1, e2, e4] using coordVar_exact _ ((Spec.Double.int size).add hd)
    · refine ⟨[v1, v2, v3, coordVar (size + y1)], by simp [resizeArr, e2], ⟨?_⟩⟩
      simpa [e1, e2, e3] using coordVar_exact _ ((Spec.Double.int size).add hd)

theorem locate_own (h : FDoc) (r : Ref) (k : Bytes) (a : List Var) (ha : SMap.find? k (h.dict r) = some (.arr a)) (stack : Nat) (hs : 1 ≤ stack) :
    h.locate k stack r = .ok (some (.entry r)) := by
  cases stack with
  | zero => omega
  | succ n => rw [FDoc.locate, ha]

theorem resizeBox_own (h : FDoc) (r : Ref) (k : Bytes) (a a' : List Var) (ha : SMap.find? k (h.dict r) = some (.arr a)) (stack : Nat) (hs : 1 ≤ stack)
    (i : Nat) (size : Int) (hr : resizeArr i size a = .ok a') : h.resizeBox stack r k i size = .ok (h.addKey r k (.arr a'), true) := by
  rw [FDoc.resizeBox, locate_own h r k a ha stack hs]
  simp only [FDoc.valueAt, ha, hr, FDoc.putAt]

/-- The box of an object that has the array itself. -/
theorem boxArray_direct (h : FDoc) (r : Ref) (b : PageBox) (a : List Var) (l : List Ref) (ha : SMap.find? b.key (h.dict r) = some (.arr a)) :
    Spec.boxArray h (r :: l) b = some a := by
  have : h.findKey (h.dict r) b.key = some (.arr a) := by rw [FDoc.findKey, ha]
  rw [Spec.boxArray, Spec.nearest, List.findSome?_cons, this]

/-- C156: for a page with its own media box and crop box, setting the width or height gives both boxes that width or height, moves neither of them and
succeeds. -/
theorem C156_size_partial {h : FDoc} {r : Ref} {l : List Ref} (hl : Spec.Line h r l) (stack : Nat) (hs : l.length ≤ stack) (i : Nat) (hi : i = 0 ∨ i = 1)
    (size : Int) (hsize : 0 ≤ size) (a c : List Var) (x1 y1 x2 y2 u1 v1 u2 v2 : Rat)
    (ha : SMap.find? keyMediaBox (h.dict r) = some (.arr a)) (hc : SMap.find? keyCropBox (h.dict r) = some (.arr c))
    (hac : Spec.Corners a x1 y1 x2 y2) (hcc : Spec.Corners c u1 v1 u2 v2) (hx : x1 ≤ x2) (hy : y1 ≤ y2) (hu : u1 ≤ u2) (hv : v1 ≤ v2)
    (hd1 : Spec.Double x1) (hd2 : Spec.Double y1) (hd3 : Spec.Double u1) (hd4 : Spec.Double v1) :
    ∃ h', h.setPageSize stack r i size = .ok (h', true) ∧
      h'.getBox stack r .media = .ok ⟨x1, y1, if i = 0 then size else x2 - x1, if i = 0 then y2 - y1 else size⟩ ∧
      h'.getBox stack r .crop = .ok ⟨u1, v1, if i = 0 then size else u2 - u1, if i = 0 then v2 - v1 else size⟩ := by
  obtain ⟨t, ht⟩ := hl.ne_nil
  have hs1 : 1 ≤ stack := by rw [ht] at hs; simp only [List.length_cons] at hs; omega
  obtain ⟨a', ra, ca⟩ := resizeArr_corners hac i hi size (by split <;> assumption)
  obtain ⟨c', rc, cc⟩ := resizeArr_corners hcc i hi size (by split <;> assumption)
  have hc1 : SMap.find? keyCropBox ((h.addKey r keyMediaBox (.arr a')).dict r) = some (.arr c) := by
    rw [addKey_dict, if_pos rfl, SMap.find_insert_ne _ _ (by decide)]; exact hc
  have hm2 : SMap.find? keyMediaBox (((h.addKey r keyMediaBox (.arr a')).addKey r keyCropBox (.arr c')).dict r) = some (.arr a') := by
    rw [addKey_dict, if_pos rfl, SMap.find_insert_ne _ _ (by decide), addKey_dict, if_pos rfl, SMap.find_insert_self]
  have hc2 : SMap.find? keyCropBox (((h.addKey r keyMediaBox (.arr a')).addKey r keyCropBox (.arr c')).dict r) = some (.arr c') := by
    rw [addKey_dict, if_pos rfl, SMap.find_insert_self]
  have hl2 := (hl.addKey r keyMediaBox (.arr a') (by decide)).addKey r keyCropBox (.arr c') (by decide)
  have hsz : (0 : Rat) ≤ size := Rat.intCast_nonneg.2 hsize
  refine ⟨(h.addKey r keyMediaBox (.arr a')).addKey r keyCropBox (.arr c'), ?_, ?_, ?_⟩
  · rw [FDoc.setPageSize, resizeBox_own h r keyMediaBox a a' ha stack hs1 i size ra]
    exact resizeBox_own _ r keyCropBox c c' hc1 stack hs1 i size rc
  · rw [C156_box hl2 stack hs .media]
    have := boxArray_direct _ r .media a' t hm2
    rw [← ht] at this
    simp only [Spec.boxOrder, List.findSome?_cons, this, ofVars_corners ca]
    rcases hi with rfl | rfl <;> simp only [Rect.fromCorners, Except.ok.injEq, Rect.mk.injEq] <;> grind
  · rw [C156_box hl2 stack hs .crop]
    have := boxArray_direct _ r .crop c' t hc2
    rw [← ht] at this
    simp only [Spec.boxOrder, List.findSome?_cons, this, ofVars_corners cc]
    rcases hi with rfl | rfl <;> simp only [Rect.fromCorners, Except.ok.injEq, Rect.mk.injEq] <;> grind

/-- The page with its own boxes meets the hypotheses. -/
example : Spec.Line boxDoc ⟨4, 0⟩ [⟨4, 0⟩] ∧ Spec.Corners [.num 0, .num 0, .num 100, .real false 2005 1] 0 0 100 (401 / 2) ∧
    Spec.Corners [.num 10, .num 10, .num 90, .num 90] 10 10 90 90 := by
  refine ⟨.root rfl rfl, ⟨?_⟩, ⟨?_⟩⟩ <;> simp only [List.map_cons, List.map_nil, Var.toRat?] <;> decide +kernel

theorem locate_none (k : Bytes) (g : FDoc) (q : Ref) (m : List Ref) (hm : Spec.Line g q m) : (∀ p ∈ m, SMap.find? k (g.dict p) = none) → ∀ n, m.length ≤ n →
    g.locate k n q = .ok none := by
  induction hm with
  | root _ hp =>
    intro hall n hn
    cases n with
    | zero => simp at hn
    | succ n => rw [FDoc.locate, hall _ (by simp)]; simp only [hp]
  | @child q p m hd hp hm ih =>
    intro hall n hn
    cases n with
    | zero => simp at hn
    | succ n =>
      rw [FDoc.locate, hall _ (by simp)]
      simp only [hp, hm.isDict]
      exact ih (fun x hx => hall x (by simp [hx])) n (by simpa using hn)

/-- A page with its own media box and no crop box: the call changes the media box and says false. -/
theorem setPageSize_nocrop {h : FDoc} {r : Ref} {l : List Ref} (hl : Spec.Line h r l) (stack : Nat) (hs : l.length ≤ stack) (i : Nat) (size : Int) (a a' : List Var)
    (ha : SMap.find? keyMediaBox (h.dict r) = some (.arr a)) (hc : ∀ q ∈ l, SMap.find? keyCropBox (h.dict q) = none) (ra : resizeArr i size a = .ok a') :
    h.setPageSize stack r i size = .ok (h.addKey r keyMediaBox (.arr a'), false) := by
  obtain ⟨t, ht⟩ := hl.ne_nil
  have hs1 : 1 ≤ stack := by rw [ht] at hs; simp only [List.length_cons] at hs; omega
  have hl2 := hl.addKey r keyMediaBox (.arr a') (by decide)
  rw [FDoc.setPageSize, resizeBox_own h r keyMediaBox a a' ha stack hs1 i size ra]
  have hc2 : ∀ q ∈ l, SMap.find? keyCropBox ((h.addKey r keyMediaBox (.arr a')).dict q) = none := by
    intro q hq
    rw [addKey_dict]; split
    · rename_i e; rw [SMap.find_insert_ne _ _ (by decide), ← e]; exact hc q hq
    · exact hc q hq
  show (h.addKey r keyMediaBox (.arr a')).resizeBox stack r keyCropBox i size = _
  rw [FDoc.resizeBox, locate_none keyCropBox _ r l hl2 hc2 stack hs]

/-- C156, what is wrong: for a page with its own media box and no crop box at all the size changes, but the call says that it did not succeed. -/
theorem C156_report_false {h : FDoc} {r : Ref} {l : List Ref} (hl : Spec.Line h r l) (stack : Nat) (hs : l.length ≤ stack) (i : Nat) (hi : i = 0 ∨ i = 1)
    (size : Int) (hsize : 0 ≤ size) (a : List Var) (x1 y1 x2 y2 : Rat) (ha : SMap.find? keyMediaBox (h.dict r) = some (.arr a))
    (hc : ∀ q ∈ l, SMap.find? keyCropBox (h.dict q) = none) (hac : Spec.Corners a x1 y1 x2 y2) (hx : x1 ≤ x2) (hy : y1 ≤ y2)
    (hd1 : Spec.Double x1) (hd2 : Spec.Double y1) :
    ∃ h', h.setPageSize stack r i size = .ok (h', false) ∧
      h'.getBox stack r .media = .ok ⟨x1, y1, if i = 0 then size else x2 - x1, if i = 0 then y2 - y1 else size⟩ := by
  obtain ⟨t, ht⟩ := hl.ne_nil
  have hs1 : 1 ≤ stack := by rw [ht] at hs; simp only [List.length_cons] at hs; omega
  obtain ⟨a', ra, ca⟩ := resizeArr_corners hac i hi size (by split <;> assumption)
  have hm2 : SMap.find? keyMediaBox ((h.addKey r keyMediaBox (.arr a')).dict r) = some (.arr a') := by
    rw [addKey_dict, if_pos rfl, SMap.find_insert_self]
  have hl2 := hl.addKey r keyMediaBox (.arr a') (by decide)
  have hsz : (0 : Rat) ≤ size := Rat.intCast_nonneg.2 hsize
  refine ⟨h.addKey r keyMediaBox (.arr a'), ?_, ?_⟩
  · exact setPageSize_nocrop hl stack hs i size a a' ha hc ra
  · rw [C156_box hl2 stack hs .media]
    have := boxArray_direct _ r .media a' t hm2
    rw [← ht] at this
    simp only [Spec.boxOrder, List.findSome?_cons, this, ofVars_corners ca]
    rcases hi with rfl | rfl <;> simp only [Rect.fromCorners, Except.ok.injEq, Rect.mk.injEq] <;> grind

/-- The pages without crop box, and the page with corners from right to left, meet the hypotheses. -/
example : (∀ q ∈ [(⟨5, 0⟩ : Ref)], SMap.find? keyCropBox (boxDoc.dict q) = none) ∧ Spec.Line boxDoc ⟨5, 0⟩ [⟨5, 0⟩] ∧
    Spec.Corners [.num 100, .num 0, .num 40, .num 50] 100 0 40 50 := by
  refine ⟨?_, .root rfl rfl, ⟨?_⟩⟩
  · intro q hq; rw [List.mem_singleton.1 hq]; rfl
  · simp only [List.map_cons, List.map_nil, Var.toRat?]; decide +kernel

/-- C156, what is wrong: when the media box belongs to the parent, setting the size of one page changes all pages that share the box. -/
theorem C156_shared_false {h : FDoc} {r r' p : Ref} (hp : h p = some (.dict (h.dict p))) (hroot : SMap.find? keyParent (h.dict p) = none)
    (hr : h r = some (.dict (h.dict r))) (hr' : h r' = some (.dict (h.dict r')))
    (h1 : SMap.find? keyParent (h.dict r) = some (.ref p.num p.gen)) (h2 : SMap.find? keyParent (h.dict r') = some (.ref p.num p.gen))
    (hm : SMap.find? keyMediaBox (h.dict r) = none) (hm' : SMap.find? keyMediaBox (h.dict r') = none)
    (hc : SMap.find? keyCropBox (h.dict r) = none) (hcp : SMap.find? keyCropBox (h.dict p) = none)
    (stack : Nat) (hs : 2 ≤ stack) (i : Nat) (hi : i = 0 ∨ i = 1) (size : Int) (hsize : 0 ≤ size) (a : List Var) (x1 y1 x2 y2 : Rat)
    (ha : SMap.find? keyMediaBox (h.dict p) = some (.arr a)) (hac : Spec.Corners a x1 y1 x2 y2) (hx : x1 ≤ x2) (hy : y1 ≤ y2)
    (hd1 : Spec.Double x1) (hd2 : Spec.Double y1) :
    h.getBox stack r' .media = .ok ⟨x1, y1, x2 - x1, y2 - y1⟩ ∧
    ∃ h', h.setPageSize stack r i size = .ok (h', false) ∧
      h'.getBox stack r' .media = .ok ⟨x1, y1, if i = 0 then size else x2 - x1, if i = 0 then y2 - y1 else size⟩ := by
  have hlp : Spec.Line h p [p] := .root hp hroot
  have hl : Spec.Line h r [r, p] := .child hr h1 hlp
  have hl' : Spec.Line h r' [r', p] := .child hr' h2 hlp
  have nr : r ≠ p := by rintro rfl; rw [hroot] at h1; cases h1
  have nr' : r' ≠ p := by rintro rfl; rw [hroot] at h2; cases h2
  obtain ⟨a', ra, ca⟩ := resizeArr_corners hac i hi size (by split <;> assumption)
  have hsz : (0 : Rat) ≤ size := Rat.intCast_nonneg.2 hsize
  have inherit : ∀ (g : FDoc) (b : List Var), SMap.find? keyMediaBox (g.dict r') = none → SMap.find? keyMediaBox (g.dict p) = some (.arr b) →
      Spec.boxArray g [r', p] .media = some b := by
    intro g b e1 e2
    have f1 : g.findKey (g.dict r') keyMediaBox = none := by rw [FDoc.findKey, e1]
    have f2 : g.findKey (g.dict p) keyMediaBox = some (.arr b) := by rw [FDoc.findKey, e2]
    simp only [Spec.boxArray, Spec.nearest, PageBox.key, List.findSome?_cons, f1, f2]
  obtain ⟨n, rfl⟩ : ∃ n, stack = n + 2 := ⟨stack - 2, by omega⟩
  refine ⟨?_, h.addKey p keyMediaBox (.arr a'), ?_, ?_⟩
  · rw [C156_box hl' _ (by simp) .media]
    simp only [Spec.boxOrder, List.findSome?_cons, inherit h a hm' ha, ofVars_corners hac]
    simp only [Rect.fromCorners, Except.ok.injEq, Rect.mk.injEq]; grind
  · have l1 : h.locate keyMediaBox (n + 2) r = .ok (some (.entry p)) := by
      rw [FDoc.locate, hm]; simp only [h1]; rw [show (⟨p.num, p.gen⟩ : Ref) = p from rfl, hp]; simp only []; rw [FDoc.locate, ha]
    have s1 : h.resizeBox (n + 2) r keyMediaBox i size = .ok (h.addKey p keyMediaBox (.arr a'), true) := by
      rw [FDoc.resizeBox, l1]; simp only [FDoc.valueAt, ha, ra, FDoc.putAt]
    have dr : (h.addKey p keyMediaBox (.arr a')).dict r = h.dict r := by rw [addKey_dict, if_neg nr]
    have dp : (h.addKey p keyMediaBox (.arr a')).dict p = SMap.insert keyMediaBox (.arr a') (h.dict p) := by rw [addKey_dict, if_pos rfl]
    have l2 : (h.addKey p keyMediaBox (.arr a')).locate keyCropBox (n + 2) r = .ok none := by
      rw [FDoc.locate, dr, hc]; simp only [h1]
      rw [show (⟨p.num, p.gen⟩ : Ref) = p from rfl, show (h.addKey p keyMediaBox (.arr a')) p = _ from set_isDict h p p _ hp]
      simp only []
      rw [FDoc.locate, dp, SMap.find_insert_ne _ _ (by decide), hcp, SMap.find_insert_ne _ _ (by decide), hroot]
    rw [FDoc.setPageSize, s1]
    show (h.addKey p keyMediaBox (.arr a')).resizeBox (n + 2) r keyCropBox i size = _
    rw [FDoc.resizeBox, l2]
  · rw [C156_box (hl'.addKey p keyMediaBox (.arr a') (by decide)) _ (by simp) .media]
    rw [show Spec.boxOrder .media = [.media] from rfl, List.findSome?_cons,
      inherit _ a' (by rw [addKey_dict, if_neg nr']; exact hm') (by rw [addKey_dict, if_pos rfl, SMap.find_insert_self])]
    simp only [ofVars_corners ca]
    rcases hi with rfl | rfl <;> simp only [Rect.fromCorners, Except.ok.injEq, Rect.mk.injEq] <;> grind

example : boxDoc.getBox 2 ⟨3, 0⟩ .media = .ok ⟨0, 0, 595 - 0, 842 - 0⟩ ∧ ∃ h', boxDoc.setPageSize 2 ⟨2, 0⟩ 0 300 = .ok (h', false) ∧
    h'.getBox 2 ⟨3, 0⟩ .media = .ok ⟨0, 0, (300 : Int), 842 - 0⟩ :=
  C156_shared_false (h := boxDoc) (r := ⟨2, 0⟩) (r' := ⟨3, 0⟩) (p := ⟨1, 0⟩) rfl rfl rfl rfl rfl rfl rfl rfl rfl rfl 2 (by decide) 0 (Or.inl rfl) 300 (by decide)
    _ 0 0 595 842 rfl ⟨by simp only [List.map_cons, List.map_nil, Var.toRat?]; decide +kernel⟩ (by decide +kernel) (by decide +kernel)
    (Spec.Double.int 0) (Spec.Double.int 0)

/-- C156, what is wrong: corners may be given in any order, but when the right one is given first the page moves to the right by its old width. -/
theorem C156_moves_false {h : FDoc} {r : Ref} {l : List Ref} (hl : Spec.Line h r l) (stack : Nat) (hs : l.length ≤ stack) (size : Int) (hsize : 0 ≤ size)
    (a : List Var) (x1 y1 x2 y2 : Rat) (ha : SMap.find? keyMediaBox (h.dict r) = some (.arr a)) (hc : ∀ q ∈ l, SMap.find? keyCropBox (h.dict q) = none)
    (hac : Spec.Corners a x1 y1 x2 y2) (hx : x2 < x1) (hd1 : Spec.Double x1) :
    (∃ q, h.getBox stack r .media = .ok q ∧ q.left = x2) ∧
    ∃ h', h.setPageSize stack r 0 size = .ok (h', false) ∧ ∃ q, h'.getBox stack r .media = .ok q ∧ q.left = x1 := by
  obtain ⟨t, ht⟩ := hl.ne_nil
  have hs1 : 1 ≤ stack := by rw [ht] at hs; simp only [List.length_cons] at hs; omega
  obtain ⟨a', ra, ca⟩ := resizeArr_corners hac 0 (Or.inl rfl) size hd1
  have hm2 : SMap.find? keyMediaBox ((h.addKey r keyMediaBox (.arr a')).dict r) = some (.arr a') := by
    rw [addKey_dict, if_pos rfl, SMap.find_insert_self]
  have hsz : (0 : Rat) ≤ size := Rat.intCast_nonneg.2 hsize
  refine ⟨⟨Rect.fromCorners x1 y1 x2 y2, ?_, ?_⟩, h.addKey r keyMediaBox (.arr a'), setPageSize_nocrop hl stack hs 0 size a a' ha hc ra,
    Rect.fromCorners x1 y1 (size + x1) y2, ?_, ?_⟩
  · rw [C156_box hl stack hs .media]
    have := boxArray_direct _ r .media a t ha
    rw [← ht] at this
    simp only [Spec.boxOrder, List.findSome?_cons, this, ofVars_corners hac]
  · simp only [Rect.fromCorners]; grind
  · rw [C156_box (hl.addKey r keyMediaBox (.arr a') (by decide)) stack hs .media]
    have := boxArray_direct _ r .media a' t hm2
    rw [← ht] at this
    simp only [Spec.boxOrder, List.findSome?_cons, this, ofVars_corners ca, if_true]
  · simp only [Rect.fromCorners]; grind

end Pdfmm
