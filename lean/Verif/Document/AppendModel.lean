import Verif.Objects.Garbage
/-
Taking objects and pages over from another document.
-/
set_option autoImplicit false
namespace Pdfmm

/-- A reference with its number made larger, `src/pdfmm/base/PdfDocument.cpp:133,452-453,468-469,479-480`: numbers are `uint32_t`. -/
def shiftRef (d : Nat) (r : Ref) : Ref := ⟨(r.num + d) % 4294967296, r.gen⟩

mutual
/-- `fixObjectReferences`, `src/pdfmm/base/PdfDocument.cpp:444-482`. -/
def fixRefs (d : Nat) : OVal → OVal
  | .leaf => .leaf
  | .ref r => .ref (shiftRef d r)
  | .arr l => .arr (fixList d l)
  | .dict l => .dict (fixEntries d l)
def fixList (d : Nat) : List OVal → List OVal
  | [] => []
  | v :: r => fixRefs d v :: fixList d r
def fixEntries (d : Nat) : List (Bytes × OVal) → List (Bytes × OVal)
  | [] => []
  | (k, v) :: r => (k, fixRefs d v) :: fixEntries d r
end

/-- An object: its value and its stream, if any.  The stream is copied with the object, `src/pdfmm/base/PdfObject.cpp:380-390,432-440`. -/
abbrev SObj (σ : Type) := OVal × σ

/-- `difference`, `src/pdfmm/base/PdfDocument.cpp:119,204`. -/
def difference {σ : Type} (o : OL (SObj σ)) : Nat := o.objs.length + o.free.length

/-- The part of `append` that copies the objects, `src/pdfmm/base/PdfDocument.cpp:119-145`, for two different documents.  The log messages are
left out. -/
def appendObjects {σ : Type} (t s : OL (SObj σ)) : OL (SObj σ) :=
  s.objs.foldl (fun o p => o.push (shiftRef (difference t) p.1) (fixRefs (difference t) p.2.1, p.2.2))
    (s.free.foldl (fun o r => o.addFree (shiftRef (difference t) r)) t)

/-! ### `InsertDocumentPageAt` -/

/-- The loop over the free objects, `src/pdfmm/base/PdfDocument.cpp:213-216`.  It goes through the list the references are inserted into, a
`std::deque` (`src/pdfmm/base/PdfIndirectObjectList.h:18`); an insertion makes the iterator of the loop invalid. -/
def insertFree {σ : Type} (o : OL (SObj σ)) (d : Nat) : List Ref → Res Unit
  | [] => .ok ()
  | r :: rest => if shiftRef d r ∈ o.free then insertFree o d rest else .error .ub

/-- The object after the one with the given reference, in the order of the set. -/
def nextKey {σ : Type} (o : OL (SObj σ)) (r : Ref) : Option Ref := (o.objs.find? (fun p => Ref.lt r p.1)).map (·.1)

/-- The loop over the objects, `src/pdfmm/base/PdfDocument.cpp:219-231`: it goes through the objects of the document itself, to which it adds.
The first argument is how many turns it may take. -/
def insertCopies {σ : Type} (d : Nat) : Nat → OL (SObj σ) → Option Ref → Res (OL (SObj σ))
  | _, o, none => .ok o
  | 0, _, some _ => .error .diverge
  | f + 1, o, some r =>
    match o.getObject r with
    | none => .error .ub
    | some v => insertCopies d f (o.push (shiftRef d r) (fixRefs d v.1, v.2)) (nextKey (o.push (shiftRef d r) (fixRefs d v.1, v.2)) r)

/-- `InsertDocumentPageAt` up to the end of the second loop, `src/pdfmm/base/PdfDocument.cpp:201-231`.  The other document plays no part in
it.  `append` does the same when a document is appended to itself. -/
def insertObjects {σ : Type} (f : Nat) (t : OL (SObj σ)) : Res (OL (SObj σ)) :=
  match insertFree t (difference t) t.free with
  | .error e => .error e
  | .ok _ => insertCopies (difference t) f t (t.objs.head?.map (·.1))

/-! ### `AppendDocumentPages` with a range -/

/-- `RemovePageAt` as far as the list of pages goes, `src/pdfmm/base/PdfPageCollection.cpp:198-231`; for the page tree see
`C47_remove_partial`. -/
def dropPage {α : Type} (l : List α) (i : Nat) : Res (List α) := if i < l.length then .ok (l.eraseIdx i) else raise .PageNotFound

/-- `deletePages`, `src/pdfmm/base/PdfDocument.cpp:329-333`: what happened and the pages that are left. -/
def deletePages {α : Type} (i : Nat) : Nat → List α → Res Unit × List α
  | 0, l => (.ok (), l)
  | n + 1, l =>
    match dropPage l i with
    | .error e => (.error e, l)
    | .ok l' => deletePages i n l'

/-- The pages after the range, an `unsigned` number, `src/pdfmm/base/PdfDocument.cpp:313`. -/
def pagesAfter (total rightStart : Nat) : Nat := (total + 4294967296 - rightStart) % 4294967296

/-- The deletion of the pages before the range, after that of the pages behind it, `src/pdfmm/base/PdfDocument.cpp:322-326`. -/
def deleteBefore {α : Type} (i n : Nat) : Res Unit × List α → Res Unit × List α
  | (.error e, l) => (.error e, l)
  | (.ok _, l) => deletePages i n l

/-- `AppendDocumentPages` with a range of pages, `src/pdfmm/base/PdfDocument.cpp:289-327`; the numbers are `unsigned`. -/
def appendRange {α : Type} (t s : List α) (pageIndex pageCount : Nat) : Res Unit × List α :=
  deleteBefore (t.length % 4294967296) pageIndex
    (deletePages (((pageIndex + pageCount) % 4294967296 + t.length) % 4294967296) (pagesAfter s.length ((pageIndex + pageCount) % 4294967296)) (t ++ s))

end Pdfmm
