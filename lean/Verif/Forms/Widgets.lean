import Verif.Document.Annots
import Verif.Contents.Colors
/-
C191: the appearance characteristics of widgets (captions and colours), and the actions of annotations.
-/
set_option autoImplicit false
namespace Pdfmm

/-! ## Appearance characteristics -/

def kMK : Bytes := litBytes "MK"

/-- The entries of the appearance characteristics, `src/pdfmm/base/PdfAnnotationActionBase.cpp:60-154`. -/
inductive CharKey
  | border | background | caption | rollover | alternate
  deriving DecidableEq

/-- Their keys, `src/pdfmm/base/PdfAnnotationActionBase.cpp:63`, `src/pdfmm/base/PdfAnnotationActionBase.cpp:84`, `src/pdfmm/base/PdfAnnotationActionBase.cpp:105`,
`src/pdfmm/base/PdfAnnotationActionBase.cpp:123` and `src/pdfmm/base/PdfAnnotationActionBase.cpp:141`. -/
def CharKey.key : CharKey → Bytes
  | .border => litBytes "BC"
  | .background => litBytes "BG"
  | .caption => litBytes "CA"
  | .rollover => litBytes "RC"
  | .alternate => litBytes "AC"

/-- What `m_AppearanceCharacteristics` points at: the entry in the dictionary of the widget, or an object. -/
inductive MkAt
  | inside
  | object (r : Ref)
  deriving DecidableEq

/-- The widget is opened, `src/pdfmm/base/PdfAnnotationActionBase.h:54-60`; what is found must be a dictionary, `src/pdfmm/base/PdfElement.cpp:26-34`. -/
def IDoc.openChars (doc : IDoc) (a : Ref) : Res (Option MkAt) :=
  match doc.look (doc.dictAt a) kMK with
  | none => .ok none
  | some (r, l) =>
    match l.asDict with
    | none => raise .InvalidDataType
    | some _ => .ok (some (match r with | none => .inside | some r => .object r))

/-- The dictionary pointed at, `PdfDictionaryElement::GetDictionary`, `src/pdfmm/base/PdfElement.cpp:55-63`.  An entry that is removed from the dictionary of the widget
is gone, and the pointer to it dangles. -/
def IDoc.mkDict (doc : IDoc) (a : Ref) : MkAt → Res FDict
  | .object r => .ok (doc.dictAt r)
  | .inside =>
    match SMap.find? kMK (doc.dictAt a) with
    | none => .error .ub
    | some (.dict e) => .ok e
    | some _ => raise .InvalidDataType

/-- The dictionary pointed at is changed. -/
def IDoc.mkPut (doc : IDoc) (a : Ref) : MkAt → FDict → IDoc
  | .object r, e => doc.putDict r e
  | .inside, e => doc.putDict a (SMap.insert kMK (.dict e) (doc.dictAt a))

/-- A document and a widget of it. -/
structure WidgetSt where
  doc : IDoc
  chars : Option MkAt

/-- `GetOrCreateAppearanceCharacteristics`, `src/pdfmm/base/PdfAnnotationActionBase.h:63-73`; `new` is the reference the document gives to a new object. -/
def WidgetSt.getOrCreate (s : WidgetSt) (a new : Ref) : IDoc × MkAt :=
  match s.chars with
  | some m => (s.doc, m)
  | none =>
    let doc := s.doc.put new (.plain (.dict []))
    (doc.putDict a (SMap.insert kMK (.ref new.num new.gen) (doc.dictAt a)), .object new)

/-- An entry that is added or removed. -/
def charPut (k : CharKey) (e : FDict) : Option Var → FDict
  | some v => SMap.insert k.key v e
  | none => SMap.erase k.key e

/-- The calls on a widget: its characteristics are made if it has none, and an entry is set or removed. -/
inductive CharCall
  | create
  | set (k : CharKey) (v : Option Var)

/-- The captions of buttons, `src/pdfmm/base/PdfButton.cpp:47-59`, `src/pdfmm/base/PdfPushButton.cpp:38-50` and `src/pdfmm/base/PdfPushButton.cpp:61-74`: a value is set in the
characteristics, which are made if there are none; an entry is removed only if there are some.  The colours are set in the same way by a program that has the
characteristics. -/
def WidgetSt.call (s : WidgetSt) (a new : Ref) : CharCall → Res WidgetSt
  | .create => let c := s.getOrCreate a new; .ok ⟨c.1, some c.2⟩
  | .set k (some v) => let c := s.getOrCreate a new; (c.1.mkDict a c.2).map fun e => ⟨c.1.mkPut a c.2 (charPut k e (some v)), some c.2⟩
  | .set k none =>
    match s.chars with
    | none => .ok s
    | some m => (s.doc.mkDict a m).map fun e => ⟨s.doc.mkPut a m (charPut k e none), some m⟩

/-- Any calls on a widget. -/
def WidgetSt.run (s : WidgetSt) (a new : Ref) : List CharCall → Res WidgetSt
  | [] => .ok s
  | c :: cs => (s.call a new c).bind fun s => s.run a new cs

/-- The captions that are read, `src/pdfmm/base/PdfAnnotationActionBase.cpp:110-118`, `src/pdfmm/base/PdfAnnotationActionBase.cpp:128-136` and
`src/pdfmm/base/PdfAnnotationActionBase.cpp:146-154`, and by buttons, `src/pdfmm/base/PdfButton.cpp:61-68`. -/
def WidgetSt.text (s : WidgetSt) (a : Ref) (k : CharKey) (stack : Nat) : Res (Option (Bytes × Bool)) :=
  match s.chars with
  | none => .ok none
  | some m => (s.doc.mkDict a m).bind fun e => (s.doc.vars.findKeyParent k.key stack e).map fun v =>
    match v with
    | some (.str b h) => some (b, h)
    | _ => none

/-- How the components of a colour are kept in an array: the same number is read, `TryGetReal`.  The theorems are about any such way. -/
structure NumStore where
  put : Rat → Var
  get : Var → Option Rat
  same : ∀ x, get (put x) = some x

/-- `SetBorderColor` and `SetBackgroundColor` of a colour, `src/pdfmm/base/PdfAnnotationActionBase.cpp:60-66` and `src/pdfmm/base/PdfAnnotationActionBase.cpp:81-87`. -/
def WidgetSt.setColor (s : WidgetSt) (ns : NumStore) (a new : Ref) (k : CharKey) (c : Option Color) : Res WidgetSt :=
  match c with
  | none => s.call a new (.set k none)
  | some c => c.toArray.bind fun l => s.call a new (.set k (some (.arr (l.map ns.put))))

/-- `GetBorderColor` and `GetBackgroundColor`, `src/pdfmm/base/PdfAnnotationActionBase.cpp:68-79` and `src/pdfmm/base/PdfAnnotationActionBase.cpp:89-100`, of characteristics that
are there.  The colour of none is the default one, `src/pdfmm/base/PdfColor.cpp:303-311`. -/
def WidgetSt.color (s : WidgetSt) (ns : NumStore) (a : Ref) (m : MkAt) (k : CharKey) (stack : Nat) : Res Color :=
  (s.doc.mkDict a m).bind fun e => (s.doc.vars.findKeyParent k.key stack e).bind fun v =>
    match v with
    | some (.arr l) => (Color.tryFromArray (l.map ns.get)).map fun c => c.getD (.base (.gray 0))
    | _ => .ok (.base (.gray 0))

/-- Where a button comes from: made by a form or loaded by it, `src/pdfmm/base/PdfField.cpp:50-78`, made for a widget, `src/pdfmm/base/PdfField.cpp:30-48`, or got from one,
`src/pdfmm/base/PdfAnnotationWidget.cpp:41-52`. -/
inductive ButtonFrom
  | form
  | loaded
  | widget (a : Ref)

/-- `m_Widget`, `src/pdfmm/base/PdfField.cpp:33`, `src/pdfmm/base/PdfField.cpp:53`, `src/pdfmm/base/PdfField.cpp:73` and `src/pdfmm/base/PdfAnnotationWidget.cpp:50`. -/
def ButtonFrom.widget? : ButtonFrom → Option Ref
  | .widget a => some a
  | _ => none

/-- A caption of a button is set, `src/pdfmm/base/PdfButton.cpp:47-59`: the widget is used through a pointer that may be null. -/
def setButtonText (f : ButtonFrom) (s : WidgetSt) (new : Ref) (k : CharKey) (v : Option Var) : Res WidgetSt :=
  match f.widget? with
  | none => .error .ub
  | some a => s.call a new (.set k v)

/-- A caption of a button is read, `src/pdfmm/base/PdfButton.cpp:61-68`. -/
def getButtonText (f : ButtonFrom) (s : WidgetSt) (k : CharKey) (stack : Nat) : Res (Option (Bytes × Bool)) :=
  match f.widget? with
  | none => .error .ub
  | some a => s.text a k stack

/-! ## What is expected -/

/-- What a reader of the document finds under a key of the characteristics of a widget. -/
def Spec.CharIs (doc : IDoc) (a : Ref) (k : Bytes) (v : Option Var) : Prop :=
  ∃ d, doc a = some (.plain (.dict d)) ∧ ((∃ e, Spec.DictUnder doc d (litBytes "MK") e ∧ SMap.find? k e = v) ∨ (SMap.find? (litBytes "MK") d = none ∧ v = none))

/-- The value after the calls, from the one before. -/
def Spec.charAfter (k : Bytes) : List CharCall → Option Var → Option Var
  | [], v => v
  | .create :: cs, v => Spec.charAfter k cs v
  | .set j w :: cs, v => Spec.charAfter k cs (if j.key = k then w else v)

/-- A widget, `d`, whose characteristics are well formed: none, in its dictionary, or an object other than the widget. -/
inductive Spec.WidgetOk (doc : IDoc) (a : Ref) (d : FDict) : Option MkAt → Prop
  | none : SMap.find? (litBytes "MK") d = none → Spec.WidgetOk doc a d none
  | inside (e : FDict) : SMap.find? (litBytes "MK") d = some (.dict e) → SMap.Sorted e → Spec.WidgetOk doc a d (some .inside)
  | object (r : Ref) (l : Loaded) (e : FDict) : SMap.find? (litBytes "MK") d = some (.ref r.num r.gen) → r ≠ a → doc r = some l → l.var = .dict e → SMap.Sorted e →
      Spec.WidgetOk doc a d (some (.object r))

/-- What calls on the widget `a` leave as it was: its other entries and all other objects, but for the one its characteristics are in. -/
structure Spec.CharFrame (doc doc' : IDoc) (a : Ref) (d d' : FDict) (p q : Option MkAt) : Prop where
  entries : ∀ k, k ≠ litBytes "MK" → SMap.find? k d' = SMap.find? k d
  objects : ∀ r, r ≠ a → q ≠ some (.object r) → doc' r = doc r
  kept : ∀ m, p = some m → q = some m

/-! ## Proofs -/

theorem mkDict_ok {doc : IDoc} {a : Ref} {d : FDict} {m : MkAt} (ha : doc a = some (.plain (.dict d))) (h : Spec.WidgetOk doc a d (some m)) :
    ∃ e, doc.mkDict a m = .ok e ∧ Spec.DictUnder doc d (litBytes "MK") e ∧ SMap.Sorted e := by
  cases h with
  | inside e h1 h2 =>
    refine ⟨e, ?_, .direct h1, h2⟩
    simp only [IDoc.mkDict, dictAt_eq ha, kMK, h1]
  | object r l e h1 h2 h3 h4 h5 =>
    refine ⟨e, ?_, .object r l h1 h3 h4, h5⟩
    simp only [IDoc.mkDict, IDoc.dictAt, h3, Option.map_some, h4]

/-- Opening a widget that is well formed. -/
theorem openChars_ok {doc : IDoc} {a : Ref} {d : FDict} {p : Option MkAt} (ha : doc a = some (.plain (.dict d))) (h : Spec.WidgetOk doc a d p) : doc.openChars a = .ok p := by
  simp only [IDoc.openChars, dictAt_eq ha, IDoc.look, kMK]
  cases h with
  | none h1 => rw [h1]
  | inside e h1 h2 => rw [h1]; rfl
  | object r l e h1 h2 h3 h4 h5 =>
    rw [h1]
    simp only [h3, Option.map_some, (asDict_iff l e).2 h4]

/-- The dictionary of the characteristics is changed. -/
theorem mkPut_ok {doc : IDoc} {a : Ref} {d e : FDict} {m : MkAt} (ha : doc a = some (.plain (.dict d))) (h : Spec.WidgetOk doc a d (some m)) (he : SMap.Sorted e)
    (hd : SMap.Sorted d) :
    ∃ d', (doc.mkPut a m e) a = some (.plain (.dict d')) ∧ SMap.Sorted d' ∧ Spec.WidgetOk (doc.mkPut a m e) a d' (some m) ∧
      Spec.DictUnder (doc.mkPut a m e) d' (litBytes "MK") e ∧ Spec.CharFrame doc (doc.mkPut a m e) a d d' (some m) (some m) := by
  cases h with
  | inside e0 h1 h2 =>
    refine ⟨SMap.insert kMK (.dict e) d, ?_, SMap.sorted_insert _ _ _ hd, ?_, ?_, ?_, ?_, ?_⟩
    · simp only [IDoc.mkPut, dictAt_eq ha]; exact putDict_self _ _ _ _ ha
    · exact .inside e (SMap.find_insert_self _ _ _) he
    · exact .direct (SMap.find_insert_self _ _ _)
    · intro k hk; exact SMap.find_insert_ne _ _ hk
    · intro r hr _; exact putDict_other _ _ _ _ hr
    · intro m hm; exact hm
  | object r l e0 h1 h2 h3 h4 h5 =>
    have hp : (doc.mkPut a (.object r) e) r = some (l.withDict e) := putDict_self _ _ _ _ h3
    refine ⟨d, ?_, hd, ?_, ?_, ?_, ?_, ?_⟩
    · show doc.putDict r e a = _
      rw [putDict_other _ _ _ _ (Ne.symm h2)]; exact ha
    · exact .object r (l.withDict e) e h1 h2 hp (withDict_var _ _) he
    · exact .object r _ h1 hp (withDict_var _ _)
    · intro k _; rfl
    · intro q _ hq; exact putDict_other _ _ _ _ (fun c => hq (by rw [c]))
    · intro m hm; exact hm

theorem findKeyParent_none (h : FDoc) (k : Bytes) (e : FDict) (h1 : SMap.find? k e = none) (h2 : SMap.find? (litBytes "Parent") e = none) (n : Nat) :
    h.findKeyParent k (n + 1) e = .ok none := by
  have h3 : SMap.find? keyParent e = none := h2
  have f1 : h.findKey e k = none := by simp [FDoc.findKey, h1]
  have f2 : h.findKey e keyParent = none := by simp [FDoc.findKey, h3]
  simp only [FDoc.findKeyParent, f1, f2]

theorem charKey_inj {j k : CharKey} (h : j.key = k.key) : j = k := by
  cases j <;> cases k <;> first | rfl | exact absurd h (by decide)

theorem charPut_find (k : CharKey) (e : FDict) (w : Option Var) (hs : SMap.Sorted e) (b : Bytes) :
    SMap.find? b (charPut k e w) = if k.key = b then w else SMap.find? b e := by
  cases w with
  | some v =>
    simp only [charPut]
    by_cases h : k.key = b
    · rw [if_pos h, ← h]; exact SMap.find_insert_self _ _ _
    · rw [if_neg h]; exact SMap.find_insert_ne _ _ (Ne.symm h)
  | none =>
    simp only [charPut]
    rw [SMap.find_erase _ _ hs]
    by_cases h : k.key = b
    · rw [if_pos h.symm, if_pos h]
    · rw [if_neg (Ne.symm h), if_neg h]

theorem charPut_sorted (k : CharKey) (e : FDict) (w : Option Var) (hs : SMap.Sorted e) : SMap.Sorted (charPut k e w) := by
  cases w with
  | some v => exact SMap.sorted_insert _ _ _ hs
  | none => exact SMap.sorted_erase _ hs

/-- The characteristics are there after they are asked for. -/
theorem getOrCreate_ok {s : WidgetSt} {a new : Ref} {d : FDict} (ha : s.doc a = some (.plain (.dict d))) (hd : SMap.Sorted d) (h : Spec.WidgetOk s.doc a d s.chars)
    (hn : s.chars = none → s.doc new = none) :
    ∃ d', (s.getOrCreate a new).1 a = some (.plain (.dict d')) ∧ SMap.Sorted d' ∧ Spec.WidgetOk (s.getOrCreate a new).1 a d' (some (s.getOrCreate a new).2) ∧
      Spec.CharFrame s.doc (s.getOrCreate a new).1 a d d' s.chars (some (s.getOrCreate a new).2) ∧
      ∀ b v, Spec.CharIs s.doc a b v → Spec.CharIs (s.getOrCreate a new).1 a b v := by
  obtain ⟨doc, p⟩ := s
  cases p with
  | some m => exact ⟨d, ha, hd, h, ⟨fun _ _ => rfl, fun _ _ _ => rfl, fun _ h => h⟩, fun _ _ h => h⟩
  | none =>
    have hn : doc new = none := hn rfl
    have ha : doc a = some (.plain (.dict d)) := ha
    have hne : a ≠ new := by intro c; rw [← c] at hn; rw [hn] at ha; cases ha
    cases h with
    | none h1 =>
      have ha' : (doc.put new (.plain (.dict []))) a = some (.plain (.dict d)) := by
        simp only [IDoc.put]; rw [if_neg hne]; exact ha
      have hnew : ((doc.put new (.plain (.dict []))).putDict a (SMap.insert kMK (.ref new.num new.gen) d)) new = some (.plain (.dict [])) := by
        rw [putDict_other _ _ _ _ (Ne.symm hne)]; simp only [IDoc.put, if_true]
      have hsame : (WidgetSt.getOrCreate ⟨doc, none⟩ a new) = ((doc.put new (.plain (.dict []))).putDict a (SMap.insert kMK (.ref new.num new.gen) d), .object new) := by
        simp only [WidgetSt.getOrCreate, dictAt_eq ha']
      rw [hsame]
      have hself := putDict_self _ _ _ (SMap.insert kMK (.ref new.num new.gen) d) ha'
      refine ⟨SMap.insert kMK (.ref new.num new.gen) d, hself, SMap.sorted_insert _ _ _ hd, ?_, ?_, ?_⟩
      · exact .object new (.plain (.dict [])) [] (SMap.find_insert_self _ _ _) (Ne.symm hne) hnew rfl trivial
      · refine ⟨fun k hk => SMap.find_insert_ne _ _ hk, fun r hr hq => ?_, fun m hm => by cases hm⟩
        show ((doc.put new (.plain (.dict []))).putDict a _) r = doc r
        rw [putDict_other _ _ _ _ hr]
        simp only [IDoc.put]
        rw [if_neg (fun c => hq (by rw [c]))]
      · rintro b v ⟨d0, h0, h2⟩
        have h0 : doc a = some (.plain (.dict d0)) := h0
        rw [ha] at h0
        cases h0
        have hv : v = none := by
          rcases h2 with ⟨e, h2 | ⟨_, _, h2, _, _⟩, _⟩ | h2
          · rw [h1] at h2; cases h2
          · rw [h1] at h2; cases h2
          · exact h2.2
        exact ⟨_, hself, .inl ⟨[], .object new _ (SMap.find_insert_self _ _ _) hnew rfl, by rw [hv]; rfl⟩⟩

theorem CharFrame_trans {d1 d2 d3 : IDoc} {a : Ref} {e1 e2 e3 : FDict} {p q r : Option MkAt} (h : Spec.CharFrame d1 d2 a e1 e2 p q) (h' : Spec.CharFrame d2 d3 a e2 e3 q r) :
    Spec.CharFrame d1 d3 a e1 e3 p r :=
  ⟨fun k hk => (h'.entries k hk).trans (h.entries k hk),
   fun x hx hr => (h'.objects x hx hr).trans (h.objects x hx (fun c => hr (h'.kept _ c))),
   fun m hm => h'.kept m (h.kept m hm)⟩

theorem charIs_under {doc : IDoc} {a : Ref} {d e : FDict} {b : Bytes} {v : Option Var} (ha : doc a = some (.plain (.dict d))) (hu : Spec.DictUnder doc d (litBytes "MK") e)
    (h : Spec.CharIs doc a b v) : SMap.find? b e = v := by
  obtain ⟨d0, h0, h⟩ := h
  rw [ha] at h0
  cases h0
  rcases h with ⟨e', h1, h2⟩ | ⟨h1, _⟩
  · rw [dictUnder_unique hu h1]; exact h2
  · rcases hu with hu | ⟨_, _, hu, _, _⟩ <;> rw [h1] at hu <;> cases hu

/-- One call. -/
theorem call_ok {s : WidgetSt} {a new : Ref} {d : FDict} (ha : s.doc a = some (.plain (.dict d))) (hd : SMap.Sorted d) (h : Spec.WidgetOk s.doc a d s.chars)
    (hn : s.chars = none → s.doc new = none) (c : CharCall) :
    ∃ s' d', s.call a new c = .ok s' ∧ s'.doc a = some (.plain (.dict d')) ∧ SMap.Sorted d' ∧ Spec.WidgetOk s'.doc a d' s'.chars ∧
      Spec.CharFrame s.doc s'.doc a d d' s.chars s'.chars ∧ (s'.chars = none → s'.doc new = none) ∧
      ∀ b v, Spec.CharIs s.doc a b v → Spec.CharIs s'.doc a b (Spec.charAfter b [c] v) := by
  cases c with
  | create =>
    obtain ⟨d', g1, g2, g3, g4, g5⟩ := getOrCreate_ok ha hd h hn
    exact ⟨_, d', rfl, g1, g2, g3, g4, fun c => by simp at c, fun b v hv => g5 b v hv⟩
  | set k w =>
    cases w with
    | some w =>
      obtain ⟨d', g1, g2, g3, g4, g5⟩ := getOrCreate_ok ha hd h hn
      obtain ⟨e, m1, m2, m3⟩ := mkDict_ok g1 g3
      obtain ⟨d2, p1, p2, p3, p4, p5⟩ := mkPut_ok g1 g3 (charPut_sorted k e (some w) m3) g2
      refine ⟨_, d2, by simp only [WidgetSt.call, m1, Except.map]; rfl, p1, p2, p3, CharFrame_trans g4 p5, fun c => by simp at c, fun b v hv => ?_⟩
      refine ⟨d2, p1, .inl ⟨_, p4, ?_⟩⟩
      rw [charPut_find k e _ m3, charIs_under g1 m2 (g5 b v hv)]
      rfl
    | none =>
      obtain ⟨doc, p⟩ := s
      cases p with
      | none =>
        refine ⟨⟨doc, none⟩, d, rfl, ha, hd, h, ⟨fun _ _ => rfl, fun _ _ _ => rfl, fun _ h => h⟩, hn, fun b v hv => ?_⟩
        have hvn : v = none := by
          obtain ⟨d0, h0, hv⟩ := hv
          have h0 : doc a = some (.plain (.dict d0)) := h0
          have ha : doc a = some (.plain (.dict d)) := ha
          rw [ha] at h0; cases h0
          cases h with
          | none h1 =>
            rcases hv with ⟨e, h2 | ⟨_, _, h2, _, _⟩, _⟩ | h2
            · rw [h1] at h2; cases h2
            · rw [h1] at h2; cases h2
            · exact h2.2
        subst hvn
        simp only [Spec.charAfter, ite_self]
        exact hv
      | some m =>
        obtain ⟨e, m1, m2, m3⟩ := mkDict_ok ha h
        obtain ⟨d2, p1, p2, p3, p4, p5⟩ := mkPut_ok ha h (charPut_sorted k e none m3) hd
        refine ⟨_, d2, by simp only [WidgetSt.call, m1, Except.map]; rfl, p1, p2, p3, p5, fun c => by simp at c, fun b v hv => ?_⟩
        refine ⟨d2, p1, .inl ⟨_, p4, ?_⟩⟩
        rw [charPut_find k e _ m3, charIs_under ha m2 hv]
        rfl

theorem charAfter_cons (b : Bytes) (c : CharCall) (cs : List CharCall) (v : Option Var) : Spec.charAfter b (c :: cs) v = Spec.charAfter b cs (Spec.charAfter b [c] v) := by
  cases c <;> rfl

theorem run_ok (cs : List CharCall) {s : WidgetSt} {a new : Ref} {d : FDict} (ha : s.doc a = some (.plain (.dict d))) (hd : SMap.Sorted d) (h : Spec.WidgetOk s.doc a d s.chars)
    (hn : s.chars = none → s.doc new = none) :
    ∃ s' d', s.run a new cs = .ok s' ∧ s'.doc a = some (.plain (.dict d')) ∧ SMap.Sorted d' ∧ Spec.WidgetOk s'.doc a d' s'.chars ∧
      Spec.CharFrame s.doc s'.doc a d d' s.chars s'.chars ∧ (∀ b v, Spec.CharIs s.doc a b v → Spec.CharIs s'.doc a b (Spec.charAfter b cs v)) := by
  induction cs generalizing s d with
  | nil => exact ⟨s, d, rfl, ha, hd, h, ⟨fun _ _ => rfl, fun _ _ _ => rfl, fun _ h => h⟩, fun _ _ h => h⟩
  | cons c cs ih =>
    obtain ⟨s1, d1, c1, c2, c3, c4, c5, c6, c7⟩ := call_ok ha hd h hn c
    obtain ⟨s2, d2, r1, r2, r3, r4, r5, r6⟩ := ih c2 c3 c4 c6
    refine ⟨s2, d2, by simp only [WidgetSt.run, c1, Except.bind]; exact r1, r2, r3, r4, CharFrame_trans c5 r5, fun b v hv => ?_⟩
    rw [charAfter_cons]
    exact r6 _ _ (c7 b v hv)

/-- **C191, characteristics.** Any document, any widget in it that is well formed, and any calls on it: all succeed; each entry a reader finds is the one last set, or as
it was if none was set, and not there if it was removed; the widget opened again has the same characteristics; the other entries of the widget and all other objects
are as they were. -/
theorem C191_chars (doc : IDoc) (a new : Ref) (d : FDict) (p : Option MkAt) (ha : doc a = some (.plain (.dict d))) (hd : SMap.Sorted d) (h : Spec.WidgetOk doc a d p)
    (hn : doc new = none) (cs : List CharCall) :
    doc.openChars a = .ok p ∧
    ∃ s d', WidgetSt.run ⟨doc, p⟩ a new cs = .ok s ∧ s.doc a = some (.plain (.dict d')) ∧ s.doc.openChars a = .ok s.chars ∧
      (∀ k v, Spec.CharIs doc a k v → Spec.CharIs s.doc a k (Spec.charAfter k cs v)) ∧ Spec.CharFrame doc s.doc a d d' p s.chars := by
  obtain ⟨s, d', r1, r2, _, r4, r5, r6⟩ := run_ok cs (s := ⟨doc, p⟩) ha hd h (fun _ => hn)
  exact ⟨openChars_ok ha h, s, d', r1, r2, openChars_ok r2 r4, r6, r5⟩

/-- Not vacuous: a widget with characteristics of its own, one with an object of them, and one with none. -/
example : Spec.WidgetOk (fun _ => none) ⟨1, 0⟩ [(litBytes "MK", .dict [(litBytes "CA", .str (litBytes "Yes") false)])] (some .inside) ∧
    Spec.WidgetOk (fun r => if r = ⟨2, 0⟩ then some (.plain (.dict [])) else none) ⟨1, 0⟩ [(litBytes "MK", .ref 2 0)] (some (.object ⟨2, 0⟩)) ∧
    Spec.WidgetOk (fun _ => none) ⟨1, 0⟩ [] none :=
  ⟨.inside _ rfl (by decide), .object ⟨2, 0⟩ _ [] rfl (by decide) rfl rfl trivial, .none rfl⟩

/-- **C191, captions.** A caption that is set is read: through the widget and through a widget opened again, and after any calls that do not set it again; a caption that is removed
is read as none, when the characteristics have no /Parent. -/
theorem C191_caption (doc : IDoc) (a new : Ref) (d : FDict) (p : Option MkAt) (ha : doc a = some (.plain (.dict d))) (hd : SMap.Sorted d) (h : Spec.WidgetOk doc a d p)
    (hn : doc new = none) (cs cs' : List CharCall) (k : CharKey) (hc : ∀ v, .set k v ∉ cs') (stack : Nat) (hst : 0 < stack) :
    (∀ b x, ∃ s, WidgetSt.run ⟨doc, p⟩ a new (cs ++ .set k (some (.str b x)) :: cs') = .ok s ∧ s.text a k stack = .ok (some (b, x)) ∧
      ∃ q, s.doc.openChars a = .ok q ∧ WidgetSt.text ⟨s.doc, q⟩ a k stack = .ok (some (b, x))) ∧
    (Spec.CharIs doc a (litBytes "Parent") none → ∃ s, WidgetSt.run ⟨doc, p⟩ a new (cs ++ .set k none :: cs') = .ok s ∧ s.text a k stack = .ok none ∧
      ∃ q, s.doc.openChars a = .ok q ∧ WidgetSt.text ⟨s.doc, q⟩ a k stack = .ok none) := by
  have after : ∀ (cs : List CharCall) (w v : Option Var), Spec.charAfter k.key (cs ++ .set k w :: cs') v = w := by
    intro cs w v
    have quiet : ∀ (l : List CharCall) (v : Option Var), (∀ v, .set k v ∉ l) → Spec.charAfter k.key l v = v := by
      intro l
      induction l with
      | nil => intro v _; rfl
      | cons c l ih =>
        intro v hl
        have hl' : ∀ v, CharCall.set k v ∉ l := fun v hv => hl v (by simp [hv])
        cases c with
        | create => exact ih v hl'
        | set j w =>
          have : j.key ≠ k.key := fun e => hl w (by rw [charKey_inj e]; simp)
          simp only [Spec.charAfter, if_neg this]
          exact ih v hl'
    induction cs generalizing v with
    | nil => simp only [List.nil_append, Spec.charAfter, if_true]; exact quiet cs' w hc
    | cons c cs ih => rw [List.cons_append, charAfter_cons]; exact ih _
  have parent : ∀ (cs : List CharCall) (v : Option Var), Spec.charAfter (litBytes "Parent") cs v = v := by
    intro cs
    induction cs with
    | nil => intro v; rfl
    | cons c cs ih =>
      intro v
      cases c with
      | create => exact ih v
      | set j w =>
        have : j.key ≠ litBytes "Parent" := by cases j <;> decide
        simp only [Spec.charAfter, if_neg this]
        exact ih v
  have known : ∀ b : Bytes, ∃ v, Spec.CharIs doc a b v := by
    intro b
    cases p with
    | none =>
      cases h with
      | none h1 => exact ⟨none, d, ha, .inr ⟨h1, rfl⟩⟩
    | some m =>
      obtain ⟨e, _, m2, _⟩ := mkDict_ok ha h
      exact ⟨SMap.find? b e, d, ha, .inl ⟨e, m2, rfl⟩⟩
  constructor
  · intro b x
    obtain ⟨s, d', r1, r2, _, r4, _, r6⟩ := run_ok (cs ++ .set k (some (.str b x)) :: cs') (s := ⟨doc, p⟩) ha hd h (fun _ => hn)
    obtain ⟨v0, hv0⟩ := known k.key
    have hv := r6 k.key v0 hv0
    rw [after] at hv
    have ht : s.text a k stack = .ok (some (b, x)) := by
      obtain ⟨sd, sc⟩ := s
      cases sc with
      | none =>
        cases r4 with
        | none h1 =>
          obtain ⟨d0, h0, hv⟩ := hv
          have r2 : sd a = some (.plain (.dict d')) := r2
          have h0 : sd a = some (.plain (.dict d0)) := h0
          rw [r2] at h0; cases h0
          rcases hv with ⟨e, h2 | ⟨_, _, h2, _, _⟩, _⟩ | h2
          · rw [h1] at h2; cases h2
          · rw [h1] at h2; cases h2
          · cases h2.2
      | some m =>
        obtain ⟨e, m1, m2, _⟩ := mkDict_ok r2 r4
        simp only [WidgetSt.text, m1, Except.bind]
        rw [findKeyParent_direct _ _ e _ (charIs_under r2 m2 hv) (by intro n g c; cases c) stack hst]
        rfl
    exact ⟨s, r1, ht, s.chars, openChars_ok r2 r4, ht⟩
  · intro hp
    obtain ⟨s, d', r1, r2, _, r4, _, r6⟩ := run_ok (cs ++ .set k none :: cs') (s := ⟨doc, p⟩) ha hd h (fun _ => hn)
    obtain ⟨v0, hv0⟩ := known k.key
    have hv := r6 k.key v0 hv0
    rw [after] at hv
    have hpar := r6 _ _ hp
    rw [parent] at hpar
    have ht : s.text a k stack = .ok none := by
      obtain ⟨sd, sc⟩ := s
      cases sc with
      | none => rfl
      | some m =>
        obtain ⟨e, m1, m2, _⟩ := mkDict_ok r2 r4
        have e1 := charIs_under r2 m2 hv
        have e2 := charIs_under r2 m2 hpar
        simp only [WidgetSt.text, m1, Except.bind]
        have : sd.vars.findKeyParent k.key stack e = .ok none := by
          cases stack with
          | zero => omega
          | succ n => exact findKeyParent_none _ _ _ e1 e2 n
        rw [this]
        rfl
    exact ⟨s, r1, ht, s.chars, openChars_ok r2 r4, ht⟩

/-- Not vacuous: characteristics without a /Parent, and calls that do not set the caption again. -/
example : Spec.CharIs (fun r => if r = ⟨1, 0⟩ then some (.plain (.dict [(litBytes "MK", .dict [])])) else none) ⟨1, 0⟩ (litBytes "Parent") none ∧
    ∀ v, CharCall.set .caption v ∉ [CharCall.create, .set .rollover none] :=
  ⟨⟨_, rfl, .inl ⟨[], .direct rfl, rfl⟩⟩, by simp⟩

/-- **C191, colours.** A gray, RGB or CMYK colour that is set as a colour of any widget that is well formed is the colour that is read. -/
theorem C191_color_partial (ns : NumStore) (doc : IDoc) (a new : Ref) (d : FDict) (p : Option MkAt) (ha : doc a = some (.plain (.dict d))) (hd : SMap.Sorted d)
    (h : Spec.WidgetOk doc a d p) (hn : doc new = none) (k : CharKey) (c : BaseColor) (hc : Spec.ValidBase c) (hl : ∀ l a b, c ≠ .lab l a b) (stack : Nat) (hst : 0 < stack) :
    ∃ s m, WidgetSt.setColor ⟨doc, p⟩ ns a new k (some (.base c)) = .ok s ∧ s.chars = some m ∧ s.color ns a m k stack = .ok (.base c) := by
  obtain ⟨l, hl1, hl2⟩ : ∃ l, Color.toArray (.base c) = .ok l ∧ Color.tryFromArray (l.map some) = .ok (some (.base c)) := by
    cases c with
    | gray g => exact ⟨[g], rfl, by simp only [List.map, Color.tryFromArray, newGray_ok hc, Except.map]⟩
    | rgb r g b => exact ⟨[r, g, b], rfl, by simp only [List.map, Color.tryFromArray, newRgb_ok hc.1 hc.2.1 hc.2.2, Except.map]⟩
    | cmyk c m y k => exact ⟨[c, m, y, k], rfl, by simp only [List.map, Color.tryFromArray, newCmyk_ok hc.1 hc.2.1 hc.2.2.1 hc.2.2.2, Except.map]⟩
    | lab l a b => exact absurd rfl (hl l a b)
  have hmap : (l.map ns.put).map ns.get = l.map some := by
    rw [List.map_map]; apply List.map_congr_left; intro x _; exact ns.same x
  obtain ⟨d', g1, g2, g3, _, _⟩ := getOrCreate_ok (s := ⟨doc, p⟩) (new := new) ha hd h (fun _ => hn)
  obtain ⟨e, m1, m2, m3⟩ := mkDict_ok g1 g3
  obtain ⟨d2, p1, p2, p3, p4, _⟩ := mkPut_ok g1 g3 (charPut_sorted k e (some (.arr (l.map ns.put))) m3) g2
  refine ⟨_, _, by simp only [WidgetSt.setColor, hl1, Except.bind, WidgetSt.call, m1, Except.map]; rfl, rfl, ?_⟩
  obtain ⟨e2, q1, q2, _⟩ := mkDict_ok p1 p3
  have := dictUnder_unique q2 p4
  subst this
  simp only [WidgetSt.color, q1, Except.bind]
  rw [findKeyParent_direct _ k.key (charPut k e (some (.arr (l.map ns.put)))) (.arr (l.map ns.put)) (SMap.find_insert_self _ _ _) (by intro n g c; cases c) stack hst]
  simp only [hmap, hl2, Except.map, Option.getD_some]

/-- Not vacuous: a colour, and a way to keep numbers. -/
example : Spec.ValidBase (.rgb 1 0 (1 / 2)) ∧ ∃ ns : NumStore, ns.get (ns.put (1 / 2)) = some (1 / 2) := by
  refine ⟨⟨⟨by decide +kernel, by decide +kernel⟩, ⟨by decide +kernel, by decide +kernel⟩, ⟨by decide +kernel, by decide +kernel⟩⟩, ?_⟩
  refine ⟨⟨fun x => .arr [.num x.num, .num x.den], fun v => match v with | .arr [.num n, .num d] => some (mkRat n d.toNat) | _ => none, fun x => ?_⟩, ?_⟩
  · simp [Rat.mkRat_self]
  · simp [Rat.mkRat_self]

/-- **C191, colours removed.** After a colour is removed, a reader of the document finds none. -/
theorem C191_color_removed (ns : NumStore) (doc : IDoc) (a new : Ref) (d : FDict) (p : Option MkAt) (ha : doc a = some (.plain (.dict d))) (hd : SMap.Sorted d)
    (h : Spec.WidgetOk doc a d p) (hn : doc new = none) (k : CharKey) :
    ∃ s, WidgetSt.setColor ⟨doc, p⟩ ns a new k none = .ok s ∧ Spec.CharIs s.doc a k.key none := by
  obtain ⟨s, d', c1, c2, _, _, _, _, c7⟩ := call_ok (s := ⟨doc, p⟩) ha hd h (fun _ => hn) (.set k none)
  refine ⟨s, c1, ?_⟩
  have known : ∃ v, Spec.CharIs doc a k.key v := by
    cases p with
    | none =>
      cases h with
      | none h1 => exact ⟨none, d, ha, .inr ⟨h1, rfl⟩⟩
    | some m =>
      obtain ⟨e, _, m2, _⟩ := mkDict_ok ha h
      exact ⟨SMap.find? k.key e, d, ha, .inl ⟨e, m2, rfl⟩⟩
  obtain ⟨v, hv⟩ := known
  have := c7 _ _ hv
  simpa only [Spec.charAfter, if_true] using this

/-- **C191, no colour.** Of characteristics without the colour, as when it was removed, and of ones whose colour is the empty array, which means no colour
(ISO 32000-1, table 189), the colour that is read is black; and the colour for none, which can be made, cannot be set. -/
theorem C191_no_color_false (ns : NumStore) (doc : IDoc) (a new : Ref) (d e : FDict) (p : Option MkAt) (m : MkAt) (ha : doc a = some (.plain (.dict d))) (h : Spec.WidgetOk doc a d (some m))
    (hu : Spec.DictUnder doc d (litBytes "MK") e) (k : CharKey)
    (he : (SMap.find? k.key e = none ∧ SMap.find? (litBytes "Parent") e = none) ∨ SMap.find? k.key e = some (.arr [])) (stack : Nat) (hst : 0 < stack) :
    WidgetSt.color ⟨doc, some m⟩ ns a m k stack = .ok (.base (.gray 0)) ∧ WidgetSt.setColor ⟨doc, p⟩ ns a new k (some .transparent) = raise .CannotConvertColor := by
  refine ⟨?_, rfl⟩
  obtain ⟨e', m1, m2, _⟩ := mkDict_ok ha h
  have := dictUnder_unique m2 hu
  subst this
  simp only [WidgetSt.color, m1, Except.bind]
  rcases he with ⟨h1, h2⟩ | h1
  · cases stack with
    | zero => omega
    | succ n => rw [findKeyParent_none _ _ _ h1 h2 n]
  · rw [findKeyParent_direct _ _ _ _ h1 (by intro n g c; cases c) stack hst]
    rfl

/-- Not vacuous: characteristics whose border has no colour. -/
example : Spec.DictUnder (fun _ => none) [(litBytes "MK", .dict [(litBytes "BC", .arr [])])] (litBytes "MK") [(litBytes "BC", .arr [])] ∧
    SMap.find? CharKey.border.key [(litBytes "BC", Var.arr [])] = some (.arr []) := ⟨.direct rfl, rfl⟩

/-- **C191, buttons of forms.** The captions of a button that was made by a form or loaded by it cannot be set, removed or read: a null pointer is used. -/
theorem C191_button_false (f : ButtonFrom) (hf : f = .form ∨ f = .loaded) (s : WidgetSt) (new : Ref) (k : CharKey) (v : Option Var) (stack : Nat) :
    setButtonText f s new k v = .error .ub ∧ getButtonText f s k stack = .error .ub := by
  rcases hf with rfl | rfl <;> exact ⟨rfl, rfl⟩

/-- **C191, characteristics removed.** When the /MK entry was removed from the dictionary of a widget that is open, a caption that is set is not in the document: it goes to the
object that was under /MK, or through a pointer to what is gone. -/
theorem C191_removed_false (doc : IDoc) (a new : Ref) (d : FDict) (m : MkAt) (ha : doc a = some (.plain (.dict d))) (hd : SMap.Sorted d) (h : Spec.WidgetOk doc a d (some m))
    (k : CharKey) (v : Var) :
    (m = .inside → WidgetSt.call ⟨doc.setEntry a (litBytes "MK") none, some m⟩ a new (.set k (some v)) = .error .ub) ∧
    (m ≠ .inside → ∃ s, WidgetSt.call ⟨doc.setEntry a (litBytes "MK") none, some m⟩ a new (.set k (some v)) = .ok s ∧ Spec.CharIs s.doc a k.key none) := by
  obtain ⟨h1, d', h2, h3, h4⟩ := setEntry_now doc a d (litBytes "MK") none ha hd
  constructor
  · rintro rfl
    simp only [WidgetSt.call, WidgetSt.getOrCreate, IDoc.mkDict, dictAt_eq h2, kMK, h3, Except.map]
  · intro hm
    cases h with
    | inside => exact absurd rfl hm
    | object r l e g1 g2 g3 g4 g5 =>
      refine ⟨_, rfl, d', ?_, .inr ⟨h3, rfl⟩⟩
      show ((doc.setEntry a (litBytes "MK") none).putDict r _) a = _
      rw [putDict_other _ _ _ _ (Ne.symm g2)]
      exact h2

/-- **C191, refused.** A widget is opened without characteristics exactly when nothing is found under its /MK, and refused with one error exactly when what is found is no
dictionary. -/
theorem C191_open (doc : IDoc) (a : Ref) (d : FDict) (ha : doc a = some (.plain (.dict d))) :
    (doc.openChars a = .ok none ↔ doc.vars.findKey d (litBytes "MK") = none) ∧
    (doc.openChars a = raise .InvalidDataType ↔ ∃ v, doc.vars.findKey d (litBytes "MK") = some v ∧ ∀ e, v ≠ .dict e) := by
  simp only [IDoc.openChars, dictAt_eq ha, kMK, IDoc.look, FDoc.findKey, IDoc.vars]
  cases hf : SMap.find? (litBytes "MK") d with
  | none => simp [raise]
  | some v =>
    cases v with
    | ref n g =>
      cases hg : doc ⟨n, g⟩ with
      | none => simp [raise, hg]
      | some l =>
        cases hl : l.asDict with
        | none =>
          have : ∀ e, l.var ≠ .dict e := fun e he => by rw [(asDict_iff l e).2 he] at hl; cases hl
          simp [raise, hg, hl, this]
        | some e =>
          have := (asDict_iff l e).1 hl
          simp [raise, hg, hl, this]
    | dict e => simp [raise, Loaded.asDict, Loaded.var]
    | _ => simp [raise, Loaded.asDict, Loaded.var]

/-- Not vacuous: a name under /MK. -/
example : FDoc.findKey (fun _ => none) [(litBytes "MK", .name (litBytes "X"))] (litBytes "MK") = some (.name (litBytes "X")) ∧ ∀ e, Var.name (litBytes "X") ≠ .dict e :=
  ⟨rfl, by intro e h; cases h⟩

/-! ## Actions -/

/-- What an action is made of: the /A entry of an annotation, or an object. -/
inductive ActAt
  | within (b : Ref)
  | object (r : Ref)
  deriving DecidableEq

/-- `GetIndirectReference`, `src/pdfmm/base/PdfObject.h:402`: that of an entry of a dictionary is `0 0`. -/
def ActAt.ref : ActAt → Ref
  | .within _ => ⟨0, 0⟩
  | .object r => r

/-- A document and an annotation of it with the action it remembers, `m_Action`. -/
structure ActSt where
  doc : IDoc
  act : Option ActAt

/-- `SetAction`, `src/pdfmm/base/PdfAnnotationActionBase.cpp:25-29`. -/
def ActSt.setAction (s : ActSt) (a : Ref) (x : ActAt) : ActSt := ⟨s.doc.setEntry a (litBytes "A") (some (.ref x.ref.num x.ref.gen)), some x⟩

/-- `GetAction`, `src/pdfmm/base/PdfAnnotationActionBase.cpp:31-48`, with the constructor of an action, `src/pdfmm/base/PdfAction.cpp:46-53`: it must be a dictionary, and its /S, if it has
one, a name. -/
def ActSt.getAction (s : ActSt) (a : Ref) : Res (Option ActAt) :=
  match s.act with
  | some x => .ok (some x)
  | none =>
    match s.doc.look (s.doc.dictAt a) (litBytes "A") with
    | none => .ok none
    | some (r, l) =>
      match l.asDict with
      | none => raise .InvalidDataType
      | some e =>
        match (s.doc.find e (litBytes "S")).map Loaded.var with
        | none | some (.name _) => .ok (some (match r with | none => .within a | some r => .object r))
        | some _ => raise .InvalidDataType

/-- **C191, actions.** An action that is an object of the document and is set on any annotation is the action of it, also when the annotation is opened again; no other entry and
no other object changes. -/
theorem C191_action_partial (s : ActSt) (a r : Ref) (d e : FDict) (l : Loaded) (n : Bytes) (ha : s.doc a = some (.plain (.dict d))) (hd : SMap.Sorted d) (hr : s.doc r = some l)
    (hl : l.var = .dict e) (hn : SMap.find? (litBytes "S") e = some (.name n)) (hne : r ≠ a) :
    (s.setAction a (.object r)).getAction a = .ok (some (.object r)) ∧ ActSt.getAction ⟨(s.setAction a (.object r)).doc, none⟩ a = .ok (some (.object r)) ∧
    Spec.EntryNow s.doc (s.setAction a (.object r)).doc a d (litBytes "A") (some (.ref r.num r.gen)) := by
  have hnow := setEntry_now s.doc a d (litBytes "A") (some (.ref r.num r.gen)) ha hd
  refine ⟨rfl, ?_, hnow⟩
  obtain ⟨h1, d', h2, h3, h4⟩ := hnow
  simp only [ActSt.setAction, ActAt.ref, ActSt.getAction, dictAt_eq h2, IDoc.look, h3, h1 r hne, hr, Option.map_some, (asDict_iff l e).2 hl, IDoc.find, hn]
  rfl

/-- Not vacuous: an action to a page. -/
example : SMap.find? (litBytes "S") [(litBytes "S", Var.name (litBytes "GoTo"))] = some (.name (litBytes "GoTo")) ∧ (⟨5, 0⟩ : Ref) ≠ ⟨4, 0⟩ := ⟨rfl, by decide⟩

/-- **C191, direct actions.** An action that is an entry of an annotation, this one or another, and is set on an annotation is lost: the annotation remembers it, but in the
document it has none.  So it is with the action an annotation has, got from it and set on it again. -/
theorem C191_action_false (s : ActSt) (a b : Ref) (d : FDict) (ha : s.doc a = some (.plain (.dict d))) (hd : SMap.Sorted d) (h0 : s.doc ⟨0, 0⟩ = none) (hne : a ≠ ⟨0, 0⟩) :
    (s.setAction a (.within b)).getAction a = .ok (some (.within b)) ∧ ActSt.getAction ⟨(s.setAction a (.within b)).doc, none⟩ a = .ok none ∧
    (s.setAction a (.within b)).doc.vars.findKey ((s.setAction a (.within b)).doc.dictAt a) (litBytes "A") = none := by
  obtain ⟨h1, d', h2, h3, h4⟩ := setEntry_now s.doc a d (litBytes "A") (some (.ref 0 0)) ha hd
  refine ⟨rfl, ?_, ?_⟩
  · simp only [ActSt.setAction, ActAt.ref, ActSt.getAction, dictAt_eq h2, IDoc.look, h3, h1 ⟨0, 0⟩ (Ne.symm hne), h0, Option.map_none]
  · simp only [ActSt.setAction, ActAt.ref, dictAt_eq h2, FDoc.findKey, h3, IDoc.vars, h1 ⟨0, 0⟩ (Ne.symm hne), h0, Option.map_none]

/-- An annotation with a direct action: the action that is got is its entry. -/
theorem C191_action_direct (doc : IDoc) (a : Ref) (d e : FDict) (n : Bytes) (ha : doc a = some (.plain (.dict d))) (h : SMap.find? (litBytes "A") d = some (.dict e))
    (hn : SMap.find? (litBytes "S") e = some (.name n)) : ActSt.getAction ⟨doc, none⟩ a = .ok (some (.within a)) := by
  simp only [ActSt.getAction, dictAt_eq ha, IDoc.look, h, Loaded.asDict, Loaded.var, IDoc.find, hn, Option.map_some]

/-- **C191, actions refused.** An annotation whose /A is no dictionary is refused with one error, and one without an /A has no action. -/
theorem C191_action_refused (doc : IDoc) (a : Ref) (d : FDict) (ha : doc a = some (.plain (.dict d))) :
    (doc.vars.findKey d (litBytes "A") = none → ActSt.getAction ⟨doc, none⟩ a = .ok none) ∧
    (∀ v, doc.vars.findKey d (litBytes "A") = some v → (∀ e, v ≠ .dict e) → ActSt.getAction ⟨doc, none⟩ a = raise .InvalidDataType) := by
  simp only [ActSt.getAction, dictAt_eq ha, IDoc.look, FDoc.findKey, IDoc.vars]
  cases hf : SMap.find? (litBytes "A") d with
  | none => simp
  | some v =>
    cases v with
    | ref n g =>
      cases hg : doc ⟨n, g⟩ with
      | none => simp [hg]
      | some l =>
        refine ⟨by simp [hg], fun v hv hd => ?_⟩
        simp only [hg, Option.map_some, Option.some.injEq] at hv
        subst hv
        have : l.asDict = none := by
          cases hl : l.asDict with
          | none => rfl
          | some e => exact absurd ((asDict_iff l e).1 hl) (hd e)
        simp only [hg, Option.map_some, this]
    | dict e => exact ⟨by simp, fun v hv hd => by simp at hv; exact absurd hv.symm (hd e)⟩
    | _ => simp [Loaded.asDict, Loaded.var]

/-- **C191, actions removed.** Once an annotation was asked for its action, it gives it whatever becomes of the /A entry: after its removal the document has no action there. -/
theorem C191_action_removed_false (doc : IDoc) (a : Ref) (d : FDict) (x : ActAt) (ha : doc a = some (.plain (.dict d))) (hd : SMap.Sorted d) :
    ActSt.getAction ⟨doc.setEntry a (litBytes "A") none, some x⟩ a = .ok (some x) ∧ ActSt.getAction ⟨doc.setEntry a (litBytes "A") none, none⟩ a = .ok none := by
  obtain ⟨h1, d', h2, h3, h4⟩ := setEntry_now doc a d (litBytes "A") none ha hd
  refine ⟨rfl, ?_⟩
  simp only [ActSt.getAction, dictAt_eq h2, IDoc.look, h3]

/-- Not vacuous: an annotation with an action of its own, in a document without an object 0. -/
example : ActSt.getAction ⟨fun r => if r = ⟨4, 0⟩ then some (.plain (.dict [(litBytes "A", .dict [(litBytes "S", .name (litBytes "URI"))])])) else none, none⟩ ⟨4, 0⟩ =
    .ok (some (.within ⟨4, 0⟩)) := C191_action_direct _ _ _ _ (litBytes "URI") rfl rfl rfl

end Pdfmm
