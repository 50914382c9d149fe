import Verif.Contents.ReadsAs
import Verif.Streams.Canvas
set_option autoImplicit false
/-
C142 to C145: drawing on pages and forms with several streams.
-/
namespace Pdfmm

/-! ### The model -/

/-- The object of `/Contents`: an array, a dictionary with or without a stream, or something else. -/
inductive CObj
  | arr (i : Nat)
  | dict (s : Option Nat)
  | other
  deriving DecidableEq

/-- The part of a document that the contents of pages are kept in: the decoded streams, the arrays of streams (`none` for an element that is no stream), and for
each page the object of its `/Contents`, if any. -/
structure CDoc where
  streams : List Bytes
  arrays : List (List (Option Nat))
  pages : List (Option CObj)
  deriving DecidableEq

/-- The data of an element. -/
def CDoc.data (d : CDoc) : Option Nat → Option Bytes
  | none => none
  | some i => d.streams[i]?

/-- The elements of an array. -/
def CDoc.array (d : CDoc) (i : Nat) : List (Option Nat) := d.arrays[i]?.getD []

/-- The elements of the contents object. -/
def CDoc.elems (d : CDoc) : Option CObj → List (Option Nat)
  | none => []
  | some (.arr i) => d.array i
  | some (.dict s) => [s]
  | some .other => []

def CDoc.obj (d : CDoc) (p : Nat) : Option CObj := d.pages[p]?.getD none

/-- The streams of a page, as `PdfCanvasInputDevice` collects them, `src/pdfmm/base/PdfCanvasInputDevice.cpp:15-46`. -/
def CDoc.pageStreams (d : CDoc) (p : Nat) : List (Option Bytes) := (d.elems (d.obj p)).map d.data

/-- `PdfContents::copyTo`, `src/pdfmm/base/PdfContents.cpp:133-142`: the streams one after the other. -/
def CDoc.copyTo (d : CDoc) (els : List (Option Nat)) : Bytes := els.flatMap (fun o => (d.data o).getD [])

/-- The array that a stream is added to, `src/pdfmm/base/PdfContents.cpp:83-100` and `ensureContentsCreated`, `src/pdfmm/base/PdfPage.cpp:70-78`: the
document and the array. -/
def CDoc.ensureArray (d : CDoc) (p : Nat) : Res (CDoc × Nat) :=
  match d.obj p with
  | none => .ok ({ d with arrays := d.arrays ++ [[]], pages := d.pages.set p (some (.arr d.arrays.length)) }, d.arrays.length)
  | some (.arr i) => .ok (d, i)
  | some (.dict s) => .ok ({ d with arrays := d.arrays ++ [[s]], pages := d.pages.set p (some (.arr d.arrays.length)) }, d.arrays.length)
  | some .other => raise .InvalidDataType

/-- The old contents in one stream, `src/pdfmm/base/PdfContents.cpp:102-123`. -/
def CDoc.wrap (d : CDoc) (a : Nat) (noPrior : Bool) : CDoc :=
  if noPrior = false ∧ d.copyTo (d.array a) ≠ [] then
    { d with streams := d.streams ++ [asciiB "q\n" ++ d.copyTo (d.array a) ++ asciiB "\nQ"], arrays := d.arrays.set a [some d.streams.length] }
  else d

/-- The new stream, `src/pdfmm/base/PdfContents.cpp:125-130`. -/
def CDoc.addStream (d : CDoc) (a : Nat) (prepend : Bool) : CDoc × Nat :=
  ({ d with streams := d.streams ++ [[]],
            arrays := d.arrays.set a (if prepend then some d.streams.length :: d.array a else d.array a ++ [some d.streams.length]) }, d.streams.length)

/-- `PdfContents::GetStreamForAppending`, `src/pdfmm/base/PdfContents.cpp:81-131`. -/
def CDoc.forAppending (d : CDoc) (p : Nat) (prepend noPrior : Bool) : Res (CDoc × Nat) :=
  match d.ensureArray p with
  | .error e => .error e
  | .ok (d, a) => .ok ((d.wrap a noPrior).addStream a prepend)

/-- `PdfPainterFlags`, `src/pdfmm/base/PdfPainter.h:34-41`. -/
structure PFlags where
  prepend : Bool
  noPrior : Bool
  noRestore : Bool
  deriving DecidableEq

/-- What `finishDrawing` leaves in the stream, `src/pdfmm/base/PdfPainter.cpp:117-164`.  `GetOutputStream()` starts the stream anew, `GetOutputStream(true)`
starts it with what it holds (`src/pdfmm/base/PdfObjectStream.cpp:479-513`).  Simplified: a stream with encoded data that decodes to nothing counts as empty. -/
def finishText (old : Bytes) (fl : PFlags) (tmp : Bytes) : Bytes :=
  (if fl.noPrior then (if old = [] then [] else asciiB "\n") else (if old = [] then [] else old ++ asciiB "q\n" ++ old ++ asciiB "Q\n")) ++
    (if fl.noRestore then tmp else asciiB "q\n" ++ tmp ++ asciiB "Q\n")

/-- `finishDrawing` on the stream `k`. -/
def CDoc.finish (d : CDoc) (k : Nat) (fl : PFlags) (tmp : Bytes) : CDoc := { d with streams := d.streams.set k (finishText (d.streams[k]?.getD []) fl tmp) }

/-- A painter on a page from `SetCanvas` to `FinishDrawing` that draws `tmp`: `checkStream` at the first operator, `src/pdfmm/base/PdfPainter.cpp:1517-1525`,
and `finishDrawing`. -/
def CDoc.draw (d : CDoc) (p : Nat) (fl : PFlags) (tmp : Bytes) : Res CDoc :=
  match d.forAppending p fl.prepend fl.noPrior with
  | .error e => .error e
  | .ok (d, k) => .ok (d.finish k fl tmp)

/-! ### Documents -/

/-- References lead to streams and arrays of the document. -/
structure CDoc.WF (d : CDoc) : Prop where
  arrays : ∀ (i : Nat) (l : List (Option Nat)), d.arrays[i]? = some l → ∀ s : Nat, some s ∈ l → s < d.streams.length
  arr : ∀ p i, d.obj p = some (.arr i) → i < d.arrays.length
  dict : ∀ p s, d.obj p = some (.dict (some s)) → s < d.streams.length

theorem CDoc.WF.array {d : CDoc} (h : d.WF) {i s : Nat} (hs : some s ∈ d.array i) : s < d.streams.length := by
  rw [CDoc.array] at hs
  cases hi : d.arrays[i]? with
  | none =>
    rw [hi] at hs
    cases hs
  | some l =>
    rw [hi] at hs
    exact h.arrays i l hi s hs

theorem data_append {d d' : CDoc} {x : List Bytes} (h : d'.streams = d.streams ++ x) {o : Option Nat} (ho : ∀ s, o = some s → s < d.streams.length) :
    d'.data o = d.data o := by
  cases o with
  | none => rfl
  | some s =>
    rw [CDoc.data, CDoc.data, h, List.getElem?_append_left (ho s rfl)]

theorem map_data_append {d d' : CDoc} {x : List Bytes} (h : d'.streams = d.streams ++ x) (l : List (Option Nat)) (hl : ∀ s, some s ∈ l → s < d.streams.length) :
    l.map d'.data = l.map d.data := by
  refine List.map_congr_left (fun o ho => data_append h (fun s hs => hl s (hs ▸ ho)))

theorem set_pages_self {α : Type} (l : List (Option α)) (p : Nat) (x : α) (hp : p < l.length) : (l.set p (some x))[p]?.getD none = some x := by
  rw [List.getElem?_set_self hp]
  rfl

theorem set_pages_ne {α : Type} (l : List (Option α)) (p q : Nat) (x : Option α) (h : q ≠ p) : (l.set p x)[q]?.getD none = l[q]?.getD none := by
  rw [List.getElem?_set_ne (fun e => h e.symm)]

/-- What the array that is made holds, and that the rest is as it was. -/
theorem ensureArray_spec {d : CDoc} (hd : d.WF) {p : Nat} (hp : p < d.pages.length) {d' : CDoc} {a : Nat} (h : d.ensureArray p = .ok (d', a)) :
    d'.streams = d.streams ∧ d'.obj p = some (.arr a) ∧ d'.array a = d.elems (d.obj p) ∧ a < d'.arrays.length ∧ p < d'.pages.length ∧
      (∀ q, q ≠ p → d'.obj q = d.obj q) ∧ (∀ i, i < d.arrays.length → d'.array i = d.array i) ∧ (d.obj p = some (.arr a) ∨ a = d.arrays.length) ∧
      (∀ s, some s ∈ d'.array a → s < d.streams.length) ∧ d.arrays.length ≤ d'.arrays.length := by
  rw [CDoc.ensureArray] at h
  cases ho : d.obj p with
  | none =>
    rw [ho] at h
    cases h
    refine ⟨rfl, set_pages_self _ _ _ hp, by simp [CDoc.array, CDoc.elems], by simp, by simpa using hp, fun q hq => set_pages_ne _ _ _ _ hq, ?_, Or.inr rfl, ?_, by simp⟩
    · intro i hi
      simp only [CDoc.array]
      rw [List.getElem?_append_left hi]
    · intro s hs
      simp [CDoc.array] at hs
  | some c =>
    rw [ho] at h
    cases c with
    | arr i =>
      cases h
      exact ⟨rfl, ho, rfl, hd.arr p _ ho, hp, fun _ _ => rfl, fun _ _ => rfl, Or.inl rfl, fun s hs => hd.array hs, Nat.le_refl _⟩
    | dict s =>
      cases h
      refine ⟨rfl, set_pages_self _ _ _ hp, by simp [CDoc.array, CDoc.elems], by simp, by simpa using hp, fun q hq => set_pages_ne _ _ _ _ hq, ?_, Or.inr rfl, ?_,
        by simp⟩
      · intro i hi
        simp only [CDoc.array]
        rw [List.getElem?_append_left hi]
      · intro s' hs
        simp [CDoc.array] at hs
        exact hd.dict p s' (by rw [ho, ← hs])
    | other => cases h

/-- What the page shows before a new stream is added: its streams, or the one that they were put into. -/
def priorStreams (streams : List (Option Bytes)) (noPrior : Bool) : List (Option Bytes) :=
  if noPrior = false ∧ streams.flatMap (fun o => o.getD []) ≠ [] then [some (asciiB "q\n" ++ streams.flatMap (fun o => o.getD []) ++ asciiB "\nQ")]
  else streams

theorem contents_copyTo_eq (d : CDoc) (els : List (Option Nat)) : d.copyTo els = (els.map d.data).flatMap (fun o => o.getD []) := by
  rw [CDoc.copyTo, List.flatMap_map]

theorem array_set_self (d : CDoc) (a : Nat) (l : List (Option Nat)) (ha : a < d.arrays.length) : ({ d with arrays := d.arrays.set a l } : CDoc).array a = l := by
  simp only [CDoc.array]
  rw [List.getElem?_set_self ha]
  rfl

/-- The page after a stream was added for appending: its elements are those before, in one stream when they were wrapped, and the new stream, which is empty. -/
theorem forAppending_spec {d : CDoc} (hd : d.WF) {p : Nat} (hp : p < d.pages.length) {prepend noPrior : Bool} {d' : CDoc} {k : Nat}
    (h : d.forAppending p prepend noPrior = .ok (d', k)) :
    ∃ els a, d'.obj p = some (.arr a) ∧ d'.array a = (if prepend then some k :: els else els ++ [some k]) ∧ els.map d'.data = priorStreams (d.pageStreams p) noPrior ∧
      (∀ s, some s ∈ els → s < k) ∧ d'.streams[k]? = some [] ∧ d'.streams.length = k + 1 ∧ p < d'.pages.length ∧ d.streams.length ≤ k ∧
      (∃ x, d'.streams = d.streams ++ x) ∧ (∀ q, q ≠ p → d'.obj q = d.obj q) ∧ (∀ i, i ≠ a → i < d.arrays.length → d'.array i = d.array i) ∧
      (d.obj p = some (.arr a) ∨ a = d.arrays.length) ∧
      (noPrior = false → (d.pageStreams p).flatMap (fun o => o.getD []) ≠ [] → ∀ s, some s ∈ els → d.streams.length ≤ s) := by
  rw [CDoc.forAppending] at h
  cases he : d.ensureArray p with
  | error e =>
    rw [he] at h
    cases h
  | ok r =>
    obtain ⟨d1, a⟩ := r
    rw [he] at h
    obtain ⟨e1, e2, e3, e4, e5, e6, e7, e8, e9, e10⟩ := ensureArray_spec hd hp he
    have hdata : d1.data = d.data := by
      funext o
      cases o with
      | none => rfl
      | some s => rw [CDoc.data, CDoc.data, e1]
    have hraw : d1.copyTo (d1.array a) = (d.pageStreams p).flatMap (fun o => o.getD []) := by
      rw [contents_copyTo_eq, e3, hdata]
      rfl
    dsimp only at h
    by_cases hw : noPrior = false ∧ d1.copyTo (d1.array a) ≠ []
    · rw [CDoc.wrap, if_pos hw] at h
      cases h
      refine ⟨[some d1.streams.length], a, e2, ?_, ?_, ?_, ?_, ?_, e5, ?_, ?_, e6, ?_, e8, ?_⟩
      · simp [CDoc.array, e4]
      · have hpr : priorStreams (d.pageStreams p) noPrior = [some (asciiB "q\n" ++ d1.copyTo (d1.array a) ++ asciiB "\nQ")] := by
          rw [priorStreams, if_pos ⟨hw.1, by rw [← hraw]; exact hw.2⟩, ← hraw]
        rw [hpr]
        simp [CDoc.data]
      · simp
      · simp
      · simp
      · simp [e1]
      · simp [e1]
      · intro i hi hl
        simp only [CDoc.array]
        rw [List.getElem?_set_ne (fun e => hi e.symm), List.getElem?_set_ne (fun e => hi e.symm)]
        exact e7 i hl
      · intro _ _ s hs
        simp at hs
        rw [hs, e1]
        exact Nat.le_refl _
    · rw [CDoc.wrap, if_neg hw] at h
      cases h
      have hlt : ∀ s, some s ∈ d1.array a → s < d1.streams.length := fun s hs => by
        rw [e1]
        exact e9 s hs
      refine ⟨d1.array a, a, e2, ?_, ?_, ?_, ?_, ?_, e5, ?_, ?_, e6, ?_, e8, ?_⟩
      · exact array_set_self { d1 with streams := d1.streams ++ [[]] } _ _ e4
      · have hpr : priorStreams (d.pageStreams p) noPrior = d.pageStreams p := by
          rw [priorStreams, if_neg (by rw [← hraw]; exact hw)]
        rw [hpr, map_data_append (d := d1) (x := [[]]) (by rfl) _ hlt, e3, hdata]
        rfl
      · exact hlt
      · simp
      · simp
      · simp [e1]
      · simp [e1]
      · intro i hi hl
        simp only [CDoc.array]
        rw [List.getElem?_set_ne (fun e => hi e.symm)]
        exact e7 i hl
      · intro h1 h2
        exact absurd ⟨h1, by rw [hraw]; exact h2⟩ hw

/-- What a painter adds to an empty stream. -/
def sessionText (fl : PFlags) (tmp : Bytes) : Bytes := if fl.noRestore then tmp else asciiB "q\n" ++ tmp ++ asciiB "Q\n"

theorem finishText_empty (fl : PFlags) (tmp : Bytes) : finishText [] fl tmp = sessionText fl tmp := by
  rw [finishText, sessionText]
  cases fl.noPrior <;> simp

theorem data_set_ne (d : CDoc) (k : Nat) (b : Bytes) {o : Option Nat} (h : o ≠ some k) : ({ d with streams := d.streams.set k b } : CDoc).data o = d.data o := by
  cases o with
  | none => rfl
  | some s =>
    simp only [CDoc.data]
    rw [List.getElem?_set_ne (fun e => h (by rw [e]))]

/-- The streams of the page after drawing. -/
theorem draw_page {d : CDoc} (hd : d.WF) {p : Nat} (hp : p < d.pages.length) {fl : PFlags} {tmp : Bytes} {d' : CDoc} (h : d.draw p fl tmp = .ok d') :
    d'.pageStreams p =
      if fl.prepend then some (sessionText fl tmp) :: priorStreams (d.pageStreams p) fl.noPrior
      else priorStreams (d.pageStreams p) fl.noPrior ++ [some (sessionText fl tmp)] := by
  rw [CDoc.draw] at h
  cases hf : d.forAppending p fl.prepend fl.noPrior with
  | error e =>
    rw [hf] at h
    cases h
  | ok r =>
    obtain ⟨d1, k⟩ := r
    rw [hf] at h
    cases h
    obtain ⟨els, a, h1, h2, h3, h4, h5, h6, _⟩ := forAppending_spec hd hp hf
    have hk : ({ d1 with streams := d1.streams.set k (sessionText fl tmp) } : CDoc).data (some k) = some (sessionText fl tmp) := by
      simp only [CDoc.data]
      rw [List.getElem?_set_self (by omega)]
    have hels : els.map ({ d1 with streams := d1.streams.set k (sessionText fl tmp) } : CDoc).data = els.map d1.data := by
      refine List.map_congr_left (fun o ho => data_set_ne _ _ _ (fun e => ?_))
      have := h4 k (e ▸ ho)
      omega
    have hfin : d1.finish k fl tmp = { d1 with streams := d1.streams.set k (sessionText fl tmp) } := by
      rw [CDoc.finish, h5, Option.getD_some, finishText_empty]
    rw [hfin]
    show (CDoc.elems d1 (d1.obj p)).map _ = _
    rw [h1, CDoc.elems, h2]
    cases fl.prepend with
    | true =>
      rw [if_pos rfl, if_pos rfl, List.map_cons, hk, hels, h3]
    | false =>
      rw [if_neg (by decide), if_neg (by decide), List.map_append, hels, h3, List.map_cons, List.map_nil, hk]

end Pdfmm
