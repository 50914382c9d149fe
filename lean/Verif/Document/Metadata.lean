import Verif.Text.TextString
/-
The metadata of a document: the setters and getters of `PdfMetadata`.
-/
set_option autoImplicit false
namespace Pdfmm

/-! ### Model -/

/-- `operator==(const nullable<decay_t<T2>>&, const nullable<T2&>&)`, `src/pdfmm/common/nullable.h:240-250`: the body is
that of the operator `!=`. -/
def nullableEqValRef {A : Type} (eq : A → A → Bool) : Option A → Option A → Bool
  | some a, some b => !eq a b
  | none, none => false
  | _, _ => true

/-- `operator==(const nullable<T2>&, const nullable<T2>&)`, `src/pdfmm/common/nullable.h:216-226`. -/
def nullableEq {A : Type} (eq : A → A → Bool) : Option A → Option A → Bool
  | some a, some b => eq a b
  | none, none => true
  | _, _ => false

/-- The entries of the metadata that are texts, `src/pdfmm/base/PdfXMPMetadata.h:18-23`. -/
inductive MText where
  | title | author | subject | keywords | creator | producer
deriving DecidableEq, Repr

/-- The entries that are dates, `src/pdfmm/base/PdfXMPMetadata.h:24-25`. -/
inductive MDate where
  | creation | modification
deriving DecidableEq, Repr

/-- `PdfXMPMetadata`, `src/pdfmm/base/PdfXMPMetadata.h:15-27`, without the PDF/A level.  The dates are of a type `D`
whose equality is `PdfDate::operator==`, `src/pdfmm/base/PdfDate.cpp:190-193`. -/
structure MData (D : Type) where
  text : MText → Option PStr
  date : MDate → Option D

/-- Nothing is known. -/
def MData.empty {D : Type} : MData D := ⟨fun _ => none, fun _ => none⟩

/-- A document as far as its metadata go: the string entries of the Info dictionary (`none` when there is none), what
the XMP stream of the catalog says, and the members of `PdfMetadata`, `src/pdfmm/base/PdfMetadata.h`: the copy and
whether it has been filled. -/
structure MDoc (D : Type) where
  info : Option (MData D)
  xmp : Option (MData D)
  cache : MData D
  init : Bool

/-- `if (m_metadata.X == nullptr) m_metadata.X = ...`. -/
def orElseOpt {A : Type} : Option A → Option A → Option A
  | some a, _ => some a
  | none, b => b

/-- What `ensureInitialized` takes from the Info dictionary, `src/pdfmm/base/PdfMetadata.cpp:331-361`: a text that is
not there leaves the copy as it is, a date is taken in any case. -/
def MData.fromInfo {D : Type} (c i : MData D) : MData D := ⟨fun f => orElseOpt (i.text f) (c.text f), i.date⟩

/-- What it takes from the XMP packet, `src/pdfmm/base/PdfMetadata.cpp:365-385`. -/
def MData.fromXmp {D : Type} (c x : MData D) : MData D :=
  ⟨fun f => orElseOpt (c.text f) (x.text f), fun f => orElseOpt (c.date f) (x.date f)⟩

/-- `ensureInitialized`, `src/pdfmm/base/PdfMetadata.cpp:325-388`. -/
def MDoc.ensure {D : Type} (s : MDoc D) : MDoc D :=
  if s.init then s
  else
    let c := match s.info with
      | some i => s.cache.fromInfo i
      | none => s.cache
    let c := match s.xmp with
      | some x => c.fromXmp x
      | none => c
    { s with cache := c, init := true }

/-- A function changed at one place. -/
def upd {I A : Type} [DecidableEq I] (f : I → A) (i : I) (a : A) : I → A := fun j => if j = i then a else f j

/-- `GetOrCreateInfo`, `src/pdfmm/base/PdfDocument.cpp:335-345`, and `AddKey` or `RemoveKey` of
`src/pdfmm/base/PdfInfo.cpp:52-98`. -/
def MDoc.setInfoText {D : Type} (s : MDoc D) (f : MText) (v : Option PStr) : MDoc D :=
  { s with info := some { s.info.getD .empty with text := upd (s.info.getD .empty).text f v } }

/-- The same for dates, `src/pdfmm/base/PdfInfo.cpp:176-190`. -/
def MDoc.setInfoDate {D : Type} (s : MDoc D) (f : MDate) (v : Option D) : MDoc D :=
  { s with info := some { s.info.getD .empty with date := upd (s.info.getD .empty).date f v } }

/-- `syncXMPMetadata(false)`, `src/pdfmm/base/PdfMetadata.cpp:390-398`: a packet that is there is rewritten with the
copy. -/
def MDoc.syncXmp {D : Type} (s : MDoc D) (sync : Bool) : MDoc D :=
  if sync && s.xmp.isSome then { s with xmp := some s.cache } else s

/-- The part of the setters after the comparison, such as `src/pdfmm/base/PdfMetadata.cpp:28-36`. -/
def MDoc.storeText {D : Type} (s : MDoc D) (f : MText) (v : Option PStr) (sync : Bool) : MDoc D :=
  ({ (s.setInfoText f v) with cache := { s.cache with text := upd s.cache.text f v } } : MDoc D).syncXmp sync

/-- `SetTitle`, `SetAuthor`, `SetSubject`, `setKeywords`, `SetCreator` and `SetProducer`,
`src/pdfmm/base/PdfMetadata.cpp:22-160`.  `SetAuthor` alone does not call `ensureInitialized`.  The comparison has a
`nullable<PdfString>` on the left and a `nullable<const PdfString&>` on the right. -/
def MDoc.setText {D : Type} (s : MDoc D) (f : MText) (v : Option PStr) (sync : Bool) : MDoc D :=
  let s := if f = .author then s else s.ensure
  if nullableEqValRef PStr.eq (s.cache.text f) v then s else s.storeText f v sync

/-- `GetTitle` and the others, `src/pdfmm/base/PdfMetadata.cpp:39-166`. -/
def MDoc.getText {D : Type} (s : MDoc D) (f : MText) : Option PStr := s.ensure.cache.text f

/-- `SetCreationDate` and `SetModifyDate`, `src/pdfmm/base/PdfMetadata.cpp:176-208`; both sides of the comparison are
`nullable<PdfDate>`. -/
def MDoc.setDate {D : Type} [DecidableEq D] (s : MDoc D) (f : MDate) (v : Option D) (sync : Bool) : MDoc D :=
  let s := s.ensure
  if nullableEq (fun a b => decide (a = b)) (s.cache.date f) v then s
  else ({ (s.setInfoDate f v) with cache := { s.cache with date := upd s.cache.date f v } } : MDoc D).syncXmp sync

/-- `GetCreationDate` and `GetModifyDate`. -/
def MDoc.getDate {D : Type} (s : MDoc D) (f : MDate) : Option D := s.ensure.cache.date f

/-- `Invalidate`, `src/pdfmm/base/PdfMetadata.cpp:315-319`: the next access fills the copy again, as after loading. -/
def MDoc.invalidate {D : Type} (s : MDoc D) : MDoc D := { s with cache := .empty, init := false }

/-! ### Specification -/

namespace Spec

/-- Two optional texts are the same. -/
def SameText : Option PStr → Option PStr → Prop
  | some a, some b => a.eq b = true
  | none, none => True
  | _, _ => False

end Spec
open Spec

/-! ### C84 -/

theorem ensure_ensure {D : Type} (s : MDoc D) : s.ensure.ensure = s.ensure := by
  have h : s.ensure.init = true := by
    rw [MDoc.ensure]; split
    · assumption
    · rfl
  conv => lhs; rw [MDoc.ensure, if_pos h]

theorem ensure_init {D : Type} {s : MDoc D} (h : s.init = true) : s.ensure = s := by rw [MDoc.ensure, if_pos h]

theorem syncXmp_eq {D : Type} (s : MDoc D) (sync : Bool) : (s.syncXmp sync).init = s.init ∧ (s.syncXmp sync).cache = s.cache ∧
    (s.syncXmp sync).info = s.info := by
  rw [MDoc.syncXmp]; split <;> exact ⟨rfl, rfl, rfl⟩

theorem getText_init {D : Type} {s : MDoc D} (h : s.init = true) (f : MText) : s.getText f = s.cache.text f := by
  rw [MDoc.getText, ensure_init h]
theorem getDate_init {D : Type} {s : MDoc D} (h : s.init = true) (f : MDate) : s.getDate f = s.cache.date f := by
  rw [MDoc.getDate, ensure_init h]

theorem eqValRef_iff (a b : Option PStr) : nullableEqValRef PStr.eq a b = true ↔ ¬ SameText a b := by
  cases a <;> cases b <;> simp [nullableEqValRef, SameText]

/-- C84 is false for texts: setting the title, subject, keywords, creator or producer of any document to a value other
than the present one does nothing at all (beyond filling the copy); also the author once the copy is filled. -/
theorem C84_set_text_false {D : Type} (s : MDoc D) (f : MText) (v : Option PStr) (sync : Bool)
    (hf : f ≠ .author ∨ s.init = true) (hv : ¬ SameText (s.getText f) v) :
    s.setText f v sync = s.ensure ∧ (s.setText f v sync).getText f = s.getText f ∧
    (s.setText f v sync).info = s.info ∧ (s.setText f v sync).xmp = s.xmp := by
  have e : s.setText f v sync = s.ensure := by
    have he : (if f = .author then s else s.ensure) = s.ensure := by
      split
      · rename_i h
        rcases hf with hf | hf
        · exact absurd h hf
        · rw [ensure_init hf]
      · rfl
    rw [MDoc.setText]
    simp only [he]
    exact if_pos ((eqValRef_iff _ _).2 hv)
  rw [e]
  refine ⟨rfl, ?_, ?_, ?_⟩
  · rw [MDoc.getText, ensure_ensure]; rfl
  · rw [MDoc.ensure]; split <;> rfl
  · rw [MDoc.ensure]; split <;> rfl

/-- C84 is false for the author as well before anything else has been asked for: a new author is not stored. -/
theorem C84_set_author_false {D : Type} (s : MDoc D) (v : PStr) (sync : Bool) (hi : s.init = false)
    (hc : s.cache = .empty) : s.setText .author (some v) sync = s := by
  rw [MDoc.setText]
  simp only [if_true, hc, MData.empty, nullableEqValRef]

/-- A document with a title: setting another one leaves it as it was. -/
example : let s : MDoc Nat := { info := some ⟨fun f => if f = .title then some { state := .ascii, chars := [65] } else none, fun _ => none⟩,
                                xmp := none, cache := .empty, init := false }
    s.getText .title = some { state := .ascii, chars := [65] } ∧
    ¬ SameText (s.getText .title) (some { state := .ascii, chars := [66] }) ∧
    (s.setText .title (some { state := .ascii, chars := [66] }) false).getText .title =
      some { state := .ascii, chars := [65] } := by
  refine ⟨by decide +kernel, ?_, by decide +kernel⟩
  show ¬ (PStr.eq { state := .ascii, chars := [65] } { state := .ascii, chars := [66] } = true)
  decide +kernel

/-- What is true for texts: after a call with the present value the value is still the same text. -/
theorem C84_set_same_partial {D : Type} (s : MDoc D) (f : MText) (v : Option PStr) (sync : Bool)
    (hf : f ≠ .author ∨ s.init = true) (hv : SameText (s.getText f) v) :
    (s.setText f v sync).getText f = v ∧ (s.setText f v sync).info.map (·.text f) = some v := by
  have he : (if f = .author then s else s.ensure) = s.ensure := by
    split
    · rename_i h
      rcases hf with hf | hf
      · exact absurd h hf
      · rw [ensure_init hf]
    · rfl
  have hinit : s.ensure.init = true := by
    rw [MDoc.ensure]; split
    · assumption
    · rfl
  have e : s.setText f v sync = s.ensure.storeText f v sync := by
    rw [MDoc.setText]
    simp only [he]
    rw [if_neg]
    rw [eqValRef_iff]
    intro h
    exact h hv
  rw [e, MDoc.storeText]
  obtain ⟨g1, g2, g3⟩ := syncXmp_eq ({ (s.ensure.setInfoText f v) with
    cache := { s.ensure.cache with text := upd s.ensure.cache.text f v } } : MDoc D) sync
  rw [getText_init (g1.trans hinit), g2, g3]
  exact ⟨by simp [upd], by simp [MDoc.setInfoText, upd]⟩

theorem nullableEq_iff {D : Type} [DecidableEq D] (a b : Option D) :
    nullableEq (fun a b => decide (a = b)) a b = true ↔ a = b := by
  cases a <;> cases b <;> simp [nullableEq]

/-- C84 for dates: after setting a date the getter returns it, and no other date and no text changes. -/
theorem C84_set_date_partial {D : Type} [DecidableEq D] (s : MDoc D) (f : MDate) (v : Option D) (sync : Bool) :
    (s.setDate f v sync).getDate f = v ∧
    (∀ g, g ≠ f → (s.setDate f v sync).getDate g = s.getDate g) ∧
    (∀ g, (s.setDate f v sync).getText g = s.getText g) ∧
    (s.getDate f ≠ v → (s.setDate f v sync).info.map (·.date f) = some v) := by
  have hinit : s.ensure.init = true := by
    rw [MDoc.ensure]; split
    · assumption
    · rfl
  by_cases h : s.ensure.cache.date f = v
  · have e : s.setDate f v sync = s.ensure := by
      rw [MDoc.setDate]
      simp only
      rw [if_pos ((nullableEq_iff _ _).2 h)]
    rw [e]
    refine ⟨?_, ?_, ?_, ?_⟩
    · rw [MDoc.getDate, ensure_ensure]; exact h
    · intro g _; rw [MDoc.getDate, ensure_ensure]; rfl
    · intro g; rw [MDoc.getText, ensure_ensure]; rfl
    · intro hn; exact absurd h hn
  · have e : s.setDate f v sync = ({ (s.ensure.setInfoDate f v) with
        cache := { s.ensure.cache with date := upd s.ensure.cache.date f v } } : MDoc D).syncXmp sync := by
      rw [MDoc.setDate]
      simp only
      rw [if_neg]
      rw [nullableEq_iff]; exact h
    rw [e]
    obtain ⟨g1, g2, g3⟩ := syncXmp_eq ({ (s.ensure.setInfoDate f v) with
      cache := { s.ensure.cache with date := upd s.ensure.cache.date f v } } : MDoc D) sync
    refine ⟨?_, ?_, ?_, ?_⟩
    · rw [getDate_init (g1.trans hinit), g2]; simp [upd]
    · intro g hg; rw [getDate_init (g1.trans hinit), g2]; simp [upd, hg, MDoc.getDate]
    · intro g; rw [getText_init (g1.trans hinit), g2]; rfl
    · intro _; rw [g3]; simp [MDoc.setInfoDate, upd]

/-- A removed date comes back from the XMP packet the next time the copy is filled, unless the packet was rewritten. -/
theorem C84_removed_date_false : ∃ (s : MDoc Nat), (s.setDate .creation none false).getDate .creation = none ∧
    (s.setDate .creation none false).invalidate.getDate .creation = some 7 :=
  ⟨{ info := none, xmp := some ⟨fun _ => none, fun _ => some 7⟩, cache := .empty, init := false },
    by decide +kernel, by decide +kernel⟩

example : let s : MDoc Nat := { info := none, xmp := none, cache := .empty, init := false }
    (s.setDate .creation (some 3) true).getDate .creation = some 3 := by decide +kernel

/-- C84, what a document that has been loaded says: the entry of the Info dictionary, and when it has none that of the
XMP packet. -/
theorem C84_loaded_values_partial {D : Type} (s : MDoc D) (hi : s.init = false) (hc : s.cache = .empty) :
    (∀ f, s.getText f = match s.info.bind (·.text f) with
      | some t => some t
      | none => s.xmp.bind (·.text f)) ∧
    (∀ f, s.getDate f = match s.info.bind (·.date f) with
      | some t => some t
      | none => s.xmp.bind (·.date f)) := by
  obtain ⟨info, xmp, cache, init⟩ := s
  subst hi hc
  constructor <;> intro f <;> cases info <;> cases xmp <;>
    simp only [MDoc.getText, MDoc.getDate, MDoc.ensure, MData.fromInfo, MData.fromXmp, MData.empty, orElseOpt, Option.bind,
      Bool.false_eq_true, if_false] <;>
    (try rename_i i x; first | cases i.text f <;> cases x.text f <;> rfl | cases i.date f <;> cases x.date f <;> rfl) <;>
    (try rename_i i; first | cases i.text f <;> rfl | cases i.date f <;> rfl)

/-- The title comes from the dictionary, the date from the packet. -/
example : let s : MDoc Nat :=
      { info := some ⟨fun _ => some ⟨.ascii, [65], false⟩, fun _ => none⟩
        xmp := some ⟨fun _ => some ⟨.ascii, [66], false⟩, fun _ => some 5⟩
        cache := .empty
        init := false }
    s.getText .title = some ⟨.ascii, [65], false⟩ ∧ s.getDate .creation = some 5 := by decide +kernel

end Pdfmm
