import Verif.Base.SMap
import Verif.Base.Basic
/-
Ownership links and dirty marking: `PdfObject`, `PdfArray`, `PdfDictionary`, `PdfDataContainer`.

Every object inside an array or dictionary has a link `m_Parent` to its container, and the container a
link `m_Owner` to the object holding it.  `SetDirty` walks these links up to the indirect object.  The
links are not part of the value, they are set by hand (`SetParent`), and the constructors of `PdfObject`
clear them; so the model keeps them explicitly.  `m_Owner` is set by every constructor and assignment of
`PdfObject` (`SetVariantOwner`), so only `m_Parent` can be missing.
-/
set_option autoImplicit false
namespace Pdfmm

/-- What an object holds, apart from what is inside it.  Scalars of all types are numbered. `cap` is the
capacity of the vector of an array. -/
inductive DKind
  | scalar (v : Int)
  | arr (cap : Nat)
  | dict
  deriving DecidableEq, Repr

/-- A `PdfObject` inside a container: whether `m_Parent` points to that container, whether `m_Document`
is set, what it holds and the objects inside (with their keys; arrays do not use the keys). -/
inductive DObj
  | mk (linked doc : Bool) (kind : DKind) (kids : List (Bytes × DObj))

/-- Values: scalars, arrays and dictionaries (sorted by key). -/
inductive DVal
  | scalar (v : Int)
  | arr (l : List DVal)
  | dict (l : List (Bytes × DVal))

namespace DObj

def linked : DObj → Bool | mk l _ _ _ => l
def doc : DObj → Bool | mk _ d _ _ => d
def kind : DObj → DKind | mk _ _ k _ => k
def kids : DObj → List (Bytes × DObj) | mk _ _ _ c => c

mutual
/-- `PdfObject::SetParent` and `SetDocument`, `src/pdfmm/base/PdfObject.cpp:152-162, 418-423`, with
`setChildrenParent` of the containers (`src/pdfmm/base/PdfArray.cpp:226-231`,
`src/pdfmm/base/PdfDictionary.cpp:236-241`): the links below are only renewed when the document
changes. -/
def setParent (d : Bool) : DObj → DObj
  | mk _ d' k c => if d' = d then mk true d' k c else mk true d k (setParents d c)
/-- `setChildrenParent`. -/
def setParents (d : Bool) : List (Bytes × DObj) → List (Bytes × DObj)
  | [] => []
  | p :: r => (p.1, setParent d p.2) :: setParents d r
end

/-- Move constructor, `src/pdfmm/base/PdfObject.cpp:116-125`: the new object has no parent and no
document; `SetVariantOwner` renews the links of its children. -/
def moved : DObj → DObj
  | mk _ _ k c => mk false false k (setParents false c)

/-- The copy of a vector has just the capacity it needs. -/
def copiedKind (n : Nat) : DKind → DKind
  | .arr _ => .arr n
  | .scalar v => .scalar v
  | .dict => .dict

mutual
/-- Copy constructor, `src/pdfmm/base/PdfObject.cpp:107-111`, through the copy constructors of the
containers (`src/pdfmm/base/PdfArray.cpp:16-20`): everything below is copied, and its links set. -/
def copied : DObj → DObj
  | mk _ _ k c => mk false false (copiedKind c.length k) (copiedKids c)
def copiedKids : List (Bytes × DObj) → List (Bytes × DObj)
  | [] => []
  | p :: r => (p.1, setParent false (copied p.2)) :: copiedKids r
end

/-- Move assignment, `src/pdfmm/base/PdfObject.cpp:373-378, 440-451`: the target keeps its own links;
`SetVariantOwner` renews those of the children. -/
def moveInto (target src : DObj) : DObj :=
  mk target.linked target.doc src.kind (setParents target.doc src.kids)

/-- Copy assignment, `src/pdfmm/base/PdfObject.cpp:366-371, 426-435`. -/
def assignInto (target src : DObj) : DObj := moveInto target (copied src)

mutual
/-- The value a user sees, without links, document and capacity. -/
def value : DObj → DVal
  | mk _ _ k c =>
    match k with
    | .scalar v => .scalar v
    | .arr _ => .arr (values c)
    | .dict => .dict (entries c)
def values : List (Bytes × DObj) → List DVal
  | [] => []
  | p :: r => value p.2 :: values r
def entries : List (Bytes × DObj) → List (Bytes × DVal)
  | [] => []
  | p :: r => (p.1, value p.2) :: entries r
end

end DObj
open DObj

/-! The vector operations used by `PdfArray`, as done by libstdc++. -/
namespace DVec

/-- A reallocation move-constructs every element (the move constructor is `noexcept`). -/
def realloc (l : List (Bytes × DObj)) : List (Bytes × DObj) := l.map fun p => (p.1, p.2.moved)

/-- `emplace` at the end, then `SetParent` (`PdfArray::insertAt`,
`src/pdfmm/base/PdfArray.cpp:238-243`); `d` is the document of the array. Doubling growth. -/
def pushBack (d : Bool) (cap : Nat) (l : List (Bytes × DObj)) (v : DObj) : Nat × List (Bytes × DObj) :=
  if l.length < cap then (cap, l ++ [([], setParent d v.moved)])
  else (max 1 (2 * cap), realloc l ++ [([], setParent d v.moved)])

/-- Shift of the elements from position 0 on by one to the right, without reallocation: the last one is
move-constructed in the new slot, the others are move-assigned.  The slot of the first one keeps its links
for the inserted value. -/
def shiftRight : List (Bytes × DObj) → DObj → List (Bytes × DObj)
  | [], prev => [([], prev.moved)]
  | p :: r, prev => (p.1, moveInto p.2 prev) :: shiftRight r p.2

/-- `emplace` at position `i < size`, then `SetParent`. -/
def insertMid (d : Bool) (cap : Nat) (l : List (Bytes × DObj)) (i : Nat) (v : DObj) :
    Nat × List (Bytes × DObj) :=
  if l.length < cap then
    match l.drop i with
    | [] => (cap, l)
    | p :: r => (cap, l.take i ++ (p.1, setParent d (moveInto p.2 v.moved)) :: shiftRight r p.2)
  else (max 1 (2 * cap), realloc (l.take i) ++ ([], setParent d v.moved) :: realloc (l.drop i))

/-- `erase`: the elements after the erased one are move-assigned one place to the left. -/
def shiftLeft : List (Bytes × DObj) → List (Bytes × DObj)
  | [] => []
  | [_] => []
  | p :: q :: r => (p.1, moveInto p.2 q.2) :: shiftLeft (q :: r)

def eraseAt (l : List (Bytes × DObj)) (i : Nat) : List (Bytes × DObj) := l.take i ++ shiftLeft (l.drop i)

/-- `resize(n, v)` and the loop of `PdfArray::Resize`, `src/pdfmm/base/PdfArray.cpp:298-310`. -/
def resize (d : Bool) (cap : Nat) (l : List (Bytes × DObj)) (n : Nat) (v : DObj) : Nat × List (Bytes × DObj) :=
  if n ≤ l.length then (cap, l.take n)
  else
    let new := List.replicate (n - l.length) ([], setParent d (DObj.copied v))
    if n ≤ cap then (cap, l ++ new) else (max n (2 * cap), realloc l ++ new)

end DVec

/-- A modification of one object, as the API offers it. -/
inductive DOp
  /-- `PdfObject::SetNumber` and the other setters of scalars -/
  | setScalar (v : Int)
  /-- `PdfObject::operator=`, `PdfArray::SetAt` -/
  | assign (v : DObj)
  /-- `PdfArray::Add` -/
  | arrAdd (v : DObj)
  /-- `PdfArray::insert` before position `i` -/
  | arrInsert (i : Nat) (v : DObj)
  /-- `PdfArray::RemoveAt` -/
  | arrRemove (i : Nat)
  /-- `PdfArray::Resize` -/
  | arrResize (n : Nat) (v : DObj)
  /-- `PdfArray::Clear`, `PdfDictionary::Clear` -/
  | clear
  /-- `PdfDictionary::AddKey` -/
  | dictAdd (k : Bytes) (v : DObj)
  /-- `PdfDictionary::RemoveKey` -/
  | dictRemove (k : Bytes)
  /-- `PdfDictionary::operator=` on the dictionary inside an object -/
  | dictReplace (l : List (Bytes × DObj))
  /-- the lower-case `PdfArray::resize`, `src/pdfmm/base/PdfArray.cpp:367-374` -/
  | arrRawResize (n : Nat)

/-- Modify one object: the object afterwards and whether its `SetDirty` was called; `none` when the call
raises (wrong type, index out of range) and nothing changes.
`src/pdfmm/base/PdfArray.cpp:28-310`, `src/pdfmm/base/PdfDictionary.cpp:29-188`,
`src/pdfmm/base/PdfObject.cpp:366-378, 694-734`. -/
def DOp.apply : DOp → DObj → Option (DObj × Bool)
  | .setScalar v, .mk l d (.scalar _) c => some (.mk l d (.scalar v) c, true)
  | .assign v, o => some (assignInto o v, true)
  | .arrAdd v, .mk l d (.arr cap) c =>
    let r := DVec.pushBack d cap c v
    some (.mk l d (.arr r.1) r.2, true)
  | .arrInsert i v, .mk l d (.arr cap) c =>
    if i < c.length then
      let r := DVec.insertMid d cap c i v
      some (.mk l d (.arr r.1) r.2, true)
    else if i = c.length then
      let r := DVec.pushBack d cap c v
      some (.mk l d (.arr r.1) r.2, true)
    else none
  | .arrRemove i, .mk l d (.arr cap) c =>
    if i < c.length then some (.mk l d (.arr cap) (DVec.eraseAt c i), true) else none
  | .arrResize n v, .mk l d (.arr cap) c =>
    let r := DVec.resize d cap c n v
    some (.mk l d (.arr r.1) r.2, n != c.length)
  | .clear, .mk l d (.arr cap) c => some (.mk l d (.arr cap) [], !c.isEmpty)
  | .clear, .mk l d .dict c => some (.mk l d .dict [], !c.isEmpty)
  | .dictAdd k v, .mk l d .dict c =>
    match SMap.find? k c with
    | none => some (.mk l d .dict (SMap.insert k (setParent d v.moved) c), true)
    | some old =>
      -- the old value is assigned, and its `SetDirty` comes back through its link
      some (.mk l d .dict (SMap.insert k (setParent d (assignInto old v)) c), old.linked)
  | .dictRemove k, .mk l d .dict c =>
    match SMap.find? k c with
    | none => some (.mk l d .dict c, false)
    | some _ => some (.mk l d .dict (SMap.erase k c), true)
  | .dictReplace l', .mk l d .dict _ => some (.mk l d .dict (setParents d (copiedKids l')), false)
  | .arrRawResize n, .mk l d (.arr cap) c =>
    let null := ([], DObj.mk false false (.scalar 0) [])
    some (if n ≤ c.length then .mk l d (.arr cap) (c.take n)
      else if n ≤ cap then .mk l d (.arr cap) (c ++ List.replicate (n - c.length) null)
      else .mk l d (.arr (max n (2 * cap))) (DVec.realloc c ++ List.replicate (n - c.length) null), false)
  | _, _ => none

/-- `PdfArray::operator[]` and `getAt`, `src/pdfmm/base/PdfArray.cpp:245-251, 317-325`: the index (a
`size_t`) and the size are converted to `unsigned`. -/
def arrayIndex {α : Type} (c : List α) (idx : Nat) : Res α :=
  if idx % 2 ^ 32 ≥ c.length % 2 ^ 32 then raise .ValueOutOfRange
  else match c[idx % 2 ^ 32]? with
    | some x => .ok x
    | none => .error .ub

/-- Modify the object at a path (positions in the containers from the top): the call of `SetDirty` on an
object inside a container reaches the object holding the container only through the link
(`PdfObject::SetDirty`, `src/pdfmm/base/PdfObject.cpp:484-497`; `PdfDataContainer::SetDirty`,
`src/pdfmm/base/PdfDataContainer.cpp:44-48`). -/
def applyAt (op : DOp) : List Nat → DObj → Option (DObj × Bool)
  | [], o => op.apply o
  | i :: p, .mk l d k c =>
    match c[i]? with
    | none => none
    | some (key, child) =>
      match applyAt op p child with
      | none => none
      | some (child', n) => some (.mk l d k (c.set i (key, child')), n && child'.linked)

/-- An indirect object of a document and the file it is saved to: the tree, `m_IsDirty`, and what the
file holds for the object. -/
structure IndObj where
  tree : DObj
  dirty : Bool
  disk : DVal

/-- What happens to an indirect object: modifications inside it, and incremental saves. -/
inductive IndStep
  | modify (path : List Nat) (op : DOp)
  | save

/-- One step.  A save skips objects that are not dirty (`src/pdfmm/base/PdfWriter.cpp:131-139`), and
`PdfObject::Write` ends with `ResetDirty` (`src/pdfmm/base/PdfObject.cpp:208-281`).  That writing and
reading back preserves the value is the subject of C19. -/
def IndObj.step (o : IndObj) : IndStep → IndObj
  | .modify p op =>
    match applyAt op p o.tree with
    | none => o
    | some (t, n) => { o with tree := t, dirty := o.dirty || n }
  | .save => if o.dirty then ⟨o.tree, false, o.tree.value⟩ else o

def IndObj.steps (o : IndObj) : List IndStep → IndObj
  | [] => o
  | s :: r => (o.step s).steps r

end Pdfmm
