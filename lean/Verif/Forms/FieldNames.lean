import Verif.Forms.Inherit
/-
C147: partial and fully qualified names of form fields.
-/
set_option autoImplicit false
namespace Pdfmm

def keyT : Bytes := asciiB "T"

/-- The escaping of periods, `src/pdfmm/base/PdfField.cpp:863-868`: the loop goes on behind the two periods it has put. -/
def escapeDots (b : Bytes) : Bytes := b.flatMap (fun c => if c = 46 then [46, 46] else [c])

/-- The last step of `getFullName`, `src/pdfmm/base/PdfField.cpp:849-875`: the name of this level behind that of the parents.
A string is taken as its text in UTF-8; C80 and C81 are about that conversion. -/
def addPartial (esc : Bool) (before : Bytes) : Option Var → Res Bytes
  | none => .ok before
  | some (.str b _) =>
    let name := if esc then escapeDots b else b
    .ok (if before = [] then name else before ++ [46] ++ name)
  | some _ => raise .InvalidDataType

/-- `getFullName`, `src/pdfmm/base/PdfField.cpp:842-876`.  The name is looked for with `GetKey`, so a reference is not followed.
`stack` as in `findKeyParent`. -/
def FDoc.fullName (h : FDoc) (esc : Bool) : Nat → FDict → Res Bytes
  | 0, _ => .error .diverge
  | stack + 1, d =>
    match h.findKey d keyParent with
    | none => addPartial esc [] (SMap.find? keyT d)
    | some (.dict p) =>
      match h.fullName esc stack p with
      | .error e => .error e
      | .ok before => addPartial esc before (SMap.find? keyT d)
    | some _ => raise .InvalidDataType

/-- `SetName`, `src/pdfmm/base/PdfField.cpp:615-626`; the exception for a period is a `runtime_error`. -/
def FDoc.setName (h : FDoc) (r : Ref) : Option Bytes → Res FDoc
  | none => .ok (h.removeKey r keyT)
  | some b => if (46 : UInt8) ∈ b then .error .exn else .ok (h.addKey r keyT (.str b false))

/-- `GetName`, `src/pdfmm/base/PdfField.cpp:643-651`. -/
def FDoc.getName (h : FDoc) (stack : Nat) (r : Ref) : Res (Option Bytes) :=
  match h.findKeyParent keyT stack (h.dict r) with
  | .error e => .error e
  | .ok (some (.str b _)) => .ok (some b)
  | .ok _ => .ok none

/-- `GetNameRaw`, `src/pdfmm/base/PdfField.cpp:653-661`. -/
def FDoc.getNameRaw (h : FDoc) (r : Ref) : Option Bytes :=
  match SMap.find? keyT (h.dict r) with
  | some (.str b _) => some b
  | _ => none

/-- Names one behind the other with periods between them. -/
def Spec.dotted : List Bytes → Bytes
  | [] => []
  | [a] => a
  | a :: b :: l => a ++ 46 :: Spec.dotted (b :: l)

/-- The name of one field: the string under `/T` in its own dictionary. -/
def Spec.ownName (h : FDoc) (r : Ref) : Option Bytes :=
  match SMap.find? (asciiB "T") (h.dict r) with
  | some (.str b _) => some b
  | _ => none

/-- C147: the raw name of a field is its own name, and there is none if the entry is missing or is not a string. -/
theorem C147_raw (h : FDoc) (r : Ref) : h.getNameRaw r = Spec.ownName h r := by
  rw [FDoc.getNameRaw, Spec.ownName]; rfl

/-- The partial names from the top of a line down to the field; levels without name do not count. -/
def Spec.partials (h : FDoc) (l : List Ref) : List Bytes := l.reverse.filterMap (Spec.ownName h)

/-- Every level of the line has no name or a string that is not empty. -/
def Spec.Named (h : FDoc) (l : List Ref) : Prop :=
  ∀ q ∈ l, SMap.find? keyT (h.dict q) = none ∨ ∃ (b : Bytes) (x : Bool), SMap.find? keyT (h.dict q) = some (.str b x) ∧ b ≠ []

theorem dotted_snoc (xs : List Bytes) (n : Bytes) : Spec.dotted (xs ++ [n]) = if xs = [] then n else Spec.dotted xs ++ [46] ++ n := by
  induction xs with
  | nil => simp [Spec.dotted]
  | cons a xs ih =>
    cases xs with
    | nil => simp [Spec.dotted]
    | cons b xs => simp [Spec.dotted] at ih ⊢; exact ih

theorem dotted_nil (xs : List Bytes) (hx : ∀ a ∈ xs, a ≠ []) : Spec.dotted xs = [] ↔ xs = [] := by
  cases xs with
  | nil => simp [Spec.dotted]
  | cons a xs =>
    have ha := hx a (by simp)
    cases xs with
    | nil => simp [Spec.dotted, ha]
    | cons b xs => simp [Spec.dotted]

theorem escapeDots_nil (b : Bytes) : escapeDots b = [] ↔ b = [] := by
  cases b with
  | nil => simp [escapeDots]
  | cons c b => simp only [escapeDots, List.flatMap_cons]; split <;> simp

theorem partials_cons (h : FDoc) (r : Ref) (l : List Ref) : Spec.partials h (r :: l) = Spec.partials h l ++ (h.getNameRaw r).toList := by
  simp only [Spec.partials, List.reverse_cons, List.filterMap_append, C147_raw]
  cases hn : Spec.ownName h r <;> simp [hn]

theorem partials_ne (h : FDoc) (l : List Ref) (hn : Spec.Named h l) : ∀ a ∈ Spec.partials h l, a ≠ [] := by
  intro a ha
  simp only [Spec.partials, List.mem_filterMap, List.mem_reverse] at ha
  obtain ⟨q, hq, e⟩ := ha
  rw [← C147_raw, FDoc.getNameRaw] at e
  rcases hn q hq with e' | ⟨b, x, e', hb⟩
  · rw [e'] at e; cases e
  · rw [e'] at e; simp at e; subst e; exact hb

/-- The text of a partial name in a full name. -/
def Spec.shown (esc : Bool) (b : Bytes) : Bytes := if esc then escapeDots b else b

theorem shown_nil (esc : Bool) (b : Bytes) : Spec.shown esc b = [] ↔ b = [] := by
  cases esc <;> simp [Spec.shown, escapeDots_nil]

theorem addPartial_spec (esc : Bool) (h : FDoc) (r : Ref) (l : List Ref) (hn : Spec.Named h (r :: l)) :
    addPartial esc (Spec.dotted ((Spec.partials h l).map (Spec.shown esc))) (SMap.find? keyT (h.dict r)) =
      .ok (Spec.dotted ((Spec.partials h (r :: l)).map (Spec.shown esc))) := by
  have hl : Spec.Named h l := fun q hq => hn q (by simp [hq])
  have hne : ∀ a ∈ (Spec.partials h l).map (Spec.shown esc), a ≠ [] := by
    intro a ha
    simp only [List.mem_map] at ha
    obtain ⟨b, hb, e⟩ := ha
    rw [← e, Ne, shown_nil]; exact partials_ne h l hl b hb
  rw [partials_cons]
  rcases hn r (by simp) with e | ⟨b, x, e, hb⟩
  · rw [FDoc.getNameRaw, e]; simp [addPartial]
  · rw [FDoc.getNameRaw, e]
    simp only [Option.toList_some, List.map_append, List.map_cons, List.map_nil, dotted_snoc, addPartial, dotted_nil _ hne]
    simp [Spec.shown]

theorem fullName_line (h : FDoc) (esc : Bool) {r : Ref} {l : List Ref} (hl : Spec.Line h r l) (hn : Spec.Named h l) :
    ∀ stack, l.length ≤ stack → h.fullName esc stack (h.dict r) = .ok (Spec.dotted ((Spec.partials h l).map (Spec.shown esc))) := by
  induction hl with
  | @root r hd hp =>
    intro stack hs
    cases stack with
    | zero => simp at hs
    | succ n =>
      have hf : h.findKey (h.dict r) keyParent = none := by rw [FDoc.findKey, hp]
      rw [FDoc.fullName, hf]
      exact addPartial_spec esc h r [] hn
  | @child r q l hd hp hq ih =>
    intro stack hs
    cases stack with
    | zero => simp at hs
    | succ n =>
      have hf : h.findKey (h.dict r) keyParent = some (.dict (h.dict q)) := by rw [FDoc.findKey, hp]; exact hq.isDict
      rw [FDoc.fullName, hf]
      simp only [ih (fun a ha => hn a (by simp [ha])) n (by simp at hs; omega)]
      exact addPartial_spec esc h r l hn

/-- C147: the full name is made of the partial names from the top down, with periods between them. -/
theorem C147_full_name_partial (h : FDoc) (r : Ref) (l : List Ref) (hl : Spec.Line h r l) (hn : Spec.Named h l) (stack : Nat) (hs : l.length ≤ stack) :
    h.fullName false stack (h.dict r) = .ok (Spec.dotted (Spec.partials h l)) ∧
      h.fullName true stack (h.dict r) = .ok (Spec.dotted ((Spec.partials h l).map escapeDots)) := by
  refine ⟨?_, ?_⟩
  · rw [fullName_line h false hl hn stack hs]
    have : (Spec.partials h l).map (Spec.shown false) = Spec.partials h l := by
      have : Spec.shown false = id := by funext b; simp [Spec.shown]
      rw [this, List.map_id]
    rw [this]
  · rw [fullName_line h true hl hn stack hs]
    have : Spec.shown true = escapeDots := by funext b; simp [Spec.shown]
    rw [this]

/-- Splitting an escaped full name: two periods are one of a name, a single one stands between two names. -/
def Spec.splitDots : Bytes → Bytes → List Bytes
  | [], cur => [cur]
  | [c], cur => if c = 46 then [cur, []] else [cur ++ [c]]
  | c :: c' :: t, cur =>
    if c = 46 then if c' = 46 then Spec.splitDots t (cur ++ [46]) else cur :: Spec.splitDots (c' :: t) []
    else Spec.splitDots (c' :: t) (cur ++ [c])

theorem splitDots_plain (c : UInt8) (t cur : Bytes) (hc : c ≠ 46) : Spec.splitDots (c :: t) cur = Spec.splitDots t (cur ++ [c]) := by
  cases t with
  | nil => simp [Spec.splitDots, hc]
  | cons c' t => rw [Spec.splitDots, if_neg hc]

theorem splitDots_escape : ∀ (n t cur : Bytes), Spec.splitDots (escapeDots n ++ t) cur = Spec.splitDots t (cur ++ n) := by
  intro n
  induction n with
  | nil => intro t cur; simp [escapeDots]
  | cons c n ih =>
    intro t cur
    by_cases hc : c = 46
    · subst hc
      have : escapeDots (46 :: n) = 46 :: 46 :: escapeDots n := by simp [escapeDots]
      rw [this, List.cons_append, List.cons_append, Spec.splitDots, if_pos rfl, if_pos rfl, ih]; simp
    · have : escapeDots (c :: n) = c :: escapeDots n := by simp [escapeDots, hc]
      rw [this, List.cons_append, splitDots_plain _ _ _ hc, ih]; simp

/-- A partial name that is not empty and does not begin with a period. -/
def Spec.GoodName (b : Bytes) : Prop := ∃ c t, b = c :: t ∧ c ≠ 46

theorem escape_head (b : Bytes) (hb : Spec.GoodName b) : ∃ c t, escapeDots b = c :: t ∧ c ≠ 46 := by
  obtain ⟨c, t, e, hc⟩ := hb
  subst e
  exact ⟨c, escapeDots t, by simp [escapeDots, hc], hc⟩

theorem splitDots_dotted : ∀ (ns : List Bytes) (n : Bytes), (∀ b ∈ ns, Spec.GoodName b) →
    ∀ cur, Spec.splitDots (Spec.dotted ((n :: ns).map escapeDots)) cur = (cur ++ n) :: ns := by
  intro ns
  induction ns with
  | nil =>
    intro n _ cur
    have := splitDots_escape n [] cur
    simp only [List.append_nil] at this
    simpa [Spec.dotted, Spec.splitDots] using this
  | cons m ns ih =>
    intro n hg cur
    obtain ⟨c, t, e, hc⟩ := escape_head m (hg m (by simp))
    have hd : Spec.dotted ((n :: m :: ns).map escapeDots) = escapeDots n ++ 46 :: Spec.dotted ((m :: ns).map escapeDots) := by
      simp [Spec.dotted]
    have hh : ∃ t', Spec.dotted ((m :: ns).map escapeDots) = c :: t' := by
      cases ns with
      | nil => exact ⟨t, by simp [Spec.dotted, e]⟩
      | cons m' ns => exact ⟨t ++ 46 :: Spec.dotted ((m' :: ns).map escapeDots), by simp [Spec.dotted, e]⟩
    obtain ⟨t', ht⟩ := hh
    rw [hd, splitDots_escape, ht, Spec.splitDots, if_pos rfl, if_neg hc, ← ht, ih m (fun b hb => hg b (by simp [hb])) []]
    simp

/-- C147: two fields with the same escaped full name have the same partial names from the top down. -/
theorem C147_unique_partial (h : FDoc) (r q : Ref) (l m : List Ref) (hr : Spec.Line h r l) (hq : Spec.Line h q m)
    (hl : ∀ b ∈ Spec.partials h l, Spec.GoodName b) (hm : ∀ b ∈ Spec.partials h m, Spec.GoodName b)
    (hln : Spec.Named h l) (hmn : Spec.Named h m) (stack : Nat) (hs : l.length ≤ stack ∧ m.length ≤ stack)
    (he : h.fullName true stack (h.dict r) = h.fullName true stack (h.dict q)) : Spec.partials h l = Spec.partials h m := by
  rw [(C147_full_name_partial h r l hr hln stack hs.1).2, (C147_full_name_partial h q m hq hmn stack hs.2).2] at he
  have he : Spec.dotted ((Spec.partials h l).map escapeDots) = Spec.dotted ((Spec.partials h m).map escapeDots) := by simpa using he
  have hne : ∀ (x : List Bytes), (∀ b ∈ x, Spec.GoodName b) → ∀ b ∈ x.map escapeDots, b ≠ [] := by
    intro x hx b hb
    simp only [List.mem_map] at hb
    obtain ⟨a, ha, e⟩ := hb
    obtain ⟨c, t, e', _⟩ := escape_head a (hx a ha)
    rw [← e, e']; simp
  generalize Spec.partials h l = x at he hl
  generalize Spec.partials h m = y at he hm
  cases x with
  | nil =>
    have := (dotted_nil _ (hne y hm)).1 (by rw [← he]; rfl)
    simpa using this.symm
  | cons a x =>
    cases y with
    | nil =>
      have := (dotted_nil _ (hne _ hl)).1 (by rw [he]; rfl)
      simp at this
    | cons b y =>
      have e1 := splitDots_dotted x a (fun c hc => hl c (by simp [hc])) []
      have e2 := splitDots_dotted y b (fun c hc => hm c (by simp [hc])) []
      rw [he, e2] at e1
      simpa using e1.symm

/-- C147, what is wrong: the escaping does not tell a period at the end of a name from one at the beginning of the next. -/
theorem C147_escape_false (a b : Bytes) :
    Spec.dotted ([a, 46 :: b].map escapeDots) = Spec.dotted ([a ++ [46], b].map escapeDots) := by
  simp [Spec.dotted, escapeDots]

/-- C147, what is wrong: below a field with an empty name the period is left out. -/
theorem C147_empty_false (h : FDoc) (r q : Ref) (hq : h q = some (.dict (h.dict q))) (x y : Bool) (b : Bytes) (esc : Bool)
    (hp : SMap.find? keyParent (h.dict r) = some (.ref q.num q.gen)) (hqp : SMap.find? keyParent (h.dict q) = none)
    (hqt : SMap.find? keyT (h.dict q) = some (.str [] x)) (hrt : SMap.find? keyT (h.dict r) = some (.str b y)) (stack : Nat) (hs : 2 ≤ stack) :
    h.fullName esc stack (h.dict r) = .ok (Spec.shown esc b) := by
  match stack, hs with
  | n + 2, _ =>
    have h1 : h.findKey (h.dict r) keyParent = some (.dict (h.dict q)) := by rw [FDoc.findKey, hp]; exact hq
    have h2 : h.findKey (h.dict q) keyParent = none := by rw [FDoc.findKey, hqp]
    have h3 : h.fullName esc (n + 1) (h.dict q) = .ok [] := by
      rw [FDoc.fullName, h2, hqt]; simp [addPartial, escapeDots]
    rw [FDoc.fullName, h1]
    simp only [h3, hrt, addPartial]
    simp [Spec.shown]

/-- C147, what is wrong: as with `C146`, the name of a field whose parents form a cycle is never given. -/
theorem C147_cycle_false (h : FDoc) (esc : Bool) (f : Nat → FDict) (hup : ∀ i, h.findKey (f i) keyParent = some (.dict (f (i + 1)))) :
    ∀ stack, h.fullName esc stack (f 0) = .error .diverge := by
  have : ∀ stack i, h.fullName esc stack (f i) = .error .diverge := by
    intro stack
    induction stack with
    | zero => intro i; rfl
    | succ n ih => intro i; rw [FDoc.fullName, hup i]; simp only [ih (i + 1)]
  exact fun stack => this stack 0

theorem keyT_ne_parent : keyT ≠ keyParent := by decide

theorem getNameRaw_addT (h : FDoc) (r q : Ref) (b : Bytes) (x : Bool) :
    (h.addKey r keyT (.str b x)).getNameRaw q = if q = r then some b else h.getNameRaw q := by
  rw [FDoc.getNameRaw, addKey_dict]
  by_cases e : q = r
  · rw [if_pos e, if_pos e, SMap.find_insert_self]
  · rw [if_neg e, if_neg e]; rfl

/-- C147: a name with a period is refused.  Any other name is the name of the field afterwards, and in full names it takes the place of the old one;
fields that are not below it keep theirs. -/
theorem C147_set_name (h : FDoc) (r : Ref) (b : Bytes) :
    ((46 : UInt8) ∈ b → h.setName r (some b) = .error .exn) ∧
    ((46 : UInt8) ∉ b → ∃ h', h.setName r (some b) = .ok h' ∧ h'.getNameRaw r = some b ∧
      (∀ stack, 0 < stack → h'.getName stack r = .ok (some b)) ∧
      ∀ (q : Ref) (l : List Ref), Spec.Line h q l → Spec.Named h l → b ≠ [] → ∀ stack, l.length ≤ stack →
        h'.fullName false stack (h'.dict q) = .ok (Spec.dotted (l.reverse.filterMap (fun a => if a = r then some b else h.getNameRaw a))) ∧
        (r ∉ l → h'.fullName false stack (h'.dict q) = h.fullName false stack (h.dict q))) := by
  refine ⟨fun hb => by simp [FDoc.setName, hb], fun hb => ⟨h.addKey r keyT (.str b false), by simp [FDoc.setName, hb], ?_, ?_, ?_⟩⟩
  · rw [getNameRaw_addT, if_pos rfl]
  · intro stack hs
    cases stack with
    | zero => omega
    | succ n =>
      have : (h.addKey r keyT (.str b false)).findKey ((h.addKey r keyT (.str b false)).dict r) keyT = some (.str b false) := by
        rw [addKey_dict, if_pos rfl, FDoc.findKey, SMap.find_insert_self]
      rw [FDoc.getName, FDoc.findKeyParent, this]
  · intro q l hl hn hne stack hs
    have hn' : Spec.Named (h.addKey r keyT (.str b false)) l := by
      intro a ha
      rw [addKey_dict]
      split
      · right; exact ⟨b, false, SMap.find_insert_self .., hne⟩
      · exact hn a ha
    have hp : Spec.partials (h.addKey r keyT (.str b false)) l = l.reverse.filterMap (fun a => if a = r then some b else h.getNameRaw a) := by
      rw [Spec.partials]; congr 1; funext a; rw [← C147_raw]; exact getNameRaw_addT ..
    have hf := (C147_full_name_partial _ q l (hl.addKey r keyT (.str b false) keyT_ne_parent) hn' stack hs).1
    refine ⟨by rw [hf, hp], fun hr => ?_⟩
    rw [hf, (C147_full_name_partial h q l hl hn stack hs).1, hp, Spec.partials, show Spec.ownName h = h.getNameRaw from funext (fun a => (C147_raw h a).symm)]
    congr 2
    have : ∀ (x : List Ref), r ∉ x → x.filterMap (fun a => if a = r then some b else h.getNameRaw a) = x.filterMap h.getNameRaw := by
      intro x
      induction x with
      | nil => intro _; rfl
      | cons a x ih =>
        intro hx
        have ha : a ≠ r := fun e => hx (by simp [e])
        rw [List.filterMap_cons, List.filterMap_cons, if_neg ha, ih (fun e => hx (by simp [e]))]
    exact this _ (by simpa using hr)

/-- C147: a field whose name is removed has no name of its own and counts for nothing in full names; other fields keep theirs. -/
theorem C147_remove_name (h : FDoc) (r : Ref) (hsorted : SMap.Sorted (h.dict r)) :
    ∃ h', h.setName r none = .ok h' ∧ h'.getNameRaw r = none ∧ (∀ q, q ≠ r → h' q = h q ∧ h'.getNameRaw q = h.getNameRaw q) ∧
      ∀ k, k ≠ asciiB "T" → SMap.find? k (h'.dict r) = SMap.find? k (h.dict r) := by
  have hd : ∀ q, (h.removeKey r keyT).dict q = if q = r then SMap.erase keyT (h.dict r) else h.dict q := fun q => set_dict h r q _
  refine ⟨h.removeKey r keyT, rfl, ?_, ?_, ?_⟩
  · rw [FDoc.getNameRaw, hd, if_pos rfl, SMap.find_erase _ _ hsorted, if_pos rfl]
  · intro q hq
    refine ⟨by simp [FDoc.removeKey, FDoc.set, hq], ?_⟩
    rw [FDoc.getNameRaw, FDoc.getNameRaw, hd, if_neg hq]
  · intro k hk
    rw [hd, if_pos rfl, SMap.find_erase _ _ hsorted, if_neg (show k ≠ keyT from hk)]

/-- A form with the fields `a`, `a.b` and a widget of the latter without name. -/
def nameDoc : FDoc := fun r =>
  if r = ⟨1, 0⟩ then some (.dict [(asciiB "T", .str (asciiB "a") false)])
  else if r = ⟨2, 0⟩ then some (.dict [(asciiB "Parent", .ref 1 0), (asciiB "T", .str (asciiB "b.c") false)])
  else if r = ⟨3, 0⟩ then some (.dict [(asciiB "Parent", .ref 2 0)])
  else none

example : Spec.Line nameDoc ⟨3, 0⟩ [⟨3, 0⟩, ⟨2, 0⟩, ⟨1, 0⟩] :=
  .child (q := ⟨2, 0⟩) rfl rfl (.child (q := ⟨1, 0⟩) rfl rfl (.root rfl rfl))
example : Spec.Named nameDoc [⟨3, 0⟩, ⟨2, 0⟩, ⟨1, 0⟩] := by
  intro q hq
  simp at hq
  rcases hq with e | e | e <;> subst e
  · exact Or.inl rfl
  · exact Or.inr ⟨asciiB "b.c", false, rfl, by decide⟩
  · exact Or.inr ⟨asciiB "a", false, rfl, by decide⟩
example : nameDoc.fullName false 3 (nameDoc.dict ⟨3, 0⟩) = .ok (asciiB "a.b.c") := by decide
example : nameDoc.fullName true 3 (nameDoc.dict ⟨3, 0⟩) = .ok (asciiB "a.b..c") := by decide
example : nameDoc.getName 3 ⟨3, 0⟩ = .ok (some (asciiB "b.c")) := by decide
example : Spec.partials nameDoc [⟨3, 0⟩, ⟨2, 0⟩, ⟨1, 0⟩] = [asciiB "a", asciiB "b.c"] := by decide
example : (nameDoc.setName ⟨1, 0⟩ (some (asciiB "x"))).map (fun h => h.fullName false 3 (h.dict ⟨3, 0⟩)) = .ok (.ok (asciiB "x.b.c")) := by decide
example : Spec.GoodName (asciiB "b.c") := ⟨98, _, rfl, by decide⟩

end Pdfmm
