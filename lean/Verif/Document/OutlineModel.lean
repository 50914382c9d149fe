import Verif.Base.Basic
/-
Outlines: the items and how they are linked.
-/
set_option autoImplicit false
namespace Pdfmm

/-- An outline item, `src/pdfmm/base/PdfOutlines.h:252-264`: its pointers and the keys of its dictionary that name other items.  Items are
named by the numbers of their objects; titles, destinations and actions are left out. -/
structure OItem where
  parent : Option Nat := none
  prev : Option Nat := none
  next : Option Nat := none
  first : Option Nat := none
  last : Option Nat := none
  kParent : Option Nat := none
  kPrev : Option Nat := none
  kNext : Option Nat := none
  kFirst : Option Nat := none
  kLast : Option Nat := none
deriving DecidableEq

/-- The items there are, and the next object number. -/
structure OHeap where
  get : Nat → Option OItem
  next : Nat

namespace OHeap

/-- An item is created or replaced. -/
def set (h : OHeap) (r : Nat) (it : OItem) : OHeap := { h with get := fun x => if x = r then some it else h.get x }

/-- The memory of an item is given back; its object stays in the document. -/
def free (h : OHeap) (r : Nat) : OHeap := { h with get := fun x => if x = r then none else h.get x }

/-- Change an item through a pointer to it. -/
def upd (h : OHeap) (r : Nat) (f : OItem → OItem) : Res OHeap :=
  match h.get r with
  | none => .error .ub
  | some it => .ok (h.set r (f it))

/-- The setters all ask the item they are given for its object, `src/pdfmm/base/PdfOutlines.cpp:184-219`. -/
def link (h : OHeap) (r : Nat) (x : Option Nat) (f : OItem → OItem) : Res OHeap :=
  if x.all (fun y => (h.get y).isSome) then h.upd r f else .error .ub

/-- `SetPrevious`, `src/pdfmm/base/PdfOutlines.cpp:184-191`. -/
def setPrev (h : OHeap) (r : Nat) (x : Option Nat) : Res OHeap := h.link r x fun it => { it with prev := x, kPrev := x }

/-- `SetNext`, `src/pdfmm/base/PdfOutlines.cpp:193-200`. -/
def setNext (h : OHeap) (r : Nat) (x : Option Nat) : Res OHeap := h.link r x fun it => { it with next := x, kNext := x }

/-- `SetLast`, `src/pdfmm/base/PdfOutlines.cpp:202-210`. -/
def setLast (h : OHeap) (r : Nat) (x : Option Nat) : Res OHeap := h.link r x fun it => { it with last := x, kLast := x }

/-- `SetFirst`, `src/pdfmm/base/PdfOutlines.cpp:212-219`. -/
def setFirst (h : OHeap) (r : Nat) (x : Option Nat) : Res OHeap := h.link r x fun it => { it with first := x, kFirst := x }

/-- A new item, `src/pdfmm/base/PdfOutlines.cpp:19-43`; its number is `h.next`. -/
def create (h : OHeap) (parent : Option Nat) : OHeap :=
  { get := fun x => if x = h.next then some { parent := parent, kParent := parent } else h.get x
    next := h.next + 1 }

end OHeap

/-- An outline without items, `src/pdfmm/base/PdfOutlines.cpp:65-69,358-361`, in a document whose next object number is `n`. -/
def newOutlines (n : Nat) : OHeap := { get := fun x => if x = n then some {} else none, next := n + 1 }

/-- The end of `InsertChildInternal`, `src/pdfmm/base/PdfOutlines.cpp:133-139`. -/
def setEnds (h : OHeap) (p item : Nat) : Res OHeap :=
  h.upd p fun it => { it with last := some item, first := some (it.first.getD item), kFirst := some (it.first.getD item), kLast := some item }

/-- `InsertChildInternal` without the check, `src/pdfmm/base/PdfOutlines.cpp:127-139`. -/
def appendItem (h : OHeap) (p item : Nat) : Res OHeap :=
  match h.get p with
  | none => .error .ub
  | some it =>
    match it.last with
    | none => setEnds h p item
    | some l =>
      match h.setNext l (some item) with
      | .error e => .error e
      | .ok h =>
        match h.setPrev item (some l) with
        | .error e => .error e
        | .ok h => setEnds h p item

/-- `CreateChild`, `src/pdfmm/base/PdfOutlines.cpp:77-82`. -/
def createChild (h : OHeap) (p : Nat) : Res OHeap := appendItem (h.create (some p)) p h.next

/-- The end of `CreateNext`, `src/pdfmm/base/PdfOutlines.cpp:152-160`; `it` has the old pointers of the item. -/
def linkNext (h : OHeap) (s item : Nat) (it : OItem) : Res OHeap :=
  match h.upd s fun i => { i with next := some item } with
  | .error e => .error e
  | .ok h =>
    match h.setPrev item (some s) with
    | .error e => .error e
    | .ok h =>
      match h.upd s fun i => { i with kNext := some item } with
      | .error e => .error e
      | .ok h =>
        match it.parent, it.next with
        | some p, none => h.setLast p (some item)
        | _, _ => .ok h

/-- `CreateNext`, `src/pdfmm/base/PdfOutlines.cpp:142-182`. -/
def createNext (h : OHeap) (s : Nat) : Res OHeap :=
  match h.get s with
  | none => .error .ub
  | some it =>
    match it.next with
    | none => linkNext (h.create it.parent) s h.next it
    | some n =>
      match (h.create it.parent).setPrev n (some h.next) with
      | .error e => .error e
      | .ok h1 =>
        match h1.setNext h.next (some n) with
        | .error e => .error e
        | .ok h2 => linkNext h2 s h.next it

/-- `m_ParentOutline->First()` and `SetFirst`, `src/pdfmm/base/PdfOutlines.cpp:240-241`. -/
def fixFirst (h : OHeap) (r : Nat) (it : OItem) : Res OHeap :=
  match it.prev, it.parent with
  | none, some p =>
    match h.get p with
    | none => .error .ub
    | some pt => if pt.first = some r then h.setFirst p it.next else .ok h
  | _, _ => .ok h

/-- `m_ParentOutline->Last()` and `SetLast`, `src/pdfmm/base/PdfOutlines.cpp:243-244`. -/
def fixLast (h : OHeap) (r : Nat) (it : OItem) : Res OHeap :=
  match it.next, it.parent with
  | none, some p =>
    match h.get p with
    | none => .error .ub
    | some pt => if pt.last = some r then h.setLast p it.prev else .ok h
  | _, _ => .ok h

/-- The item before, `src/pdfmm/base/PdfOutlines.cpp:230-233`. -/
def fixBefore (h : OHeap) (it : OItem) : Res OHeap :=
  match it.prev with
  | none => .ok h
  | some p => h.setNext p it.next

/-- The item after, `src/pdfmm/base/PdfOutlines.cpp:235-238`. -/
def fixAfter (h : OHeap) (it : OItem) : Res OHeap :=
  match it.next with
  | none => .ok h
  | some n => h.setPrev n it.prev

/-- The end of `Erase`, `src/pdfmm/base/PdfOutlines.cpp:230-247`.  Simplification: the pointers of the item are read once, before the
neighbours are changed. -/
def unlinkItem (h : OHeap) (r : Nat) (it : OItem) : Res OHeap :=
  match fixBefore h it with
  | .error e => .error e
  | .ok h =>
    match fixAfter h it with
    | .error e => .error e
    | .ok h =>
      match fixFirst h r it with
      | .error e => .error e
      | .ok h =>
        match fixLast h r it with
        | .error e => .error e
        | .ok h => .ok (h.free r)

/-- `Erase`, `src/pdfmm/base/PdfOutlines.cpp:221-248`; the loop goes on with the second recursive call.  The first argument bounds the
nesting of both. -/
def eraseItem : Nat → OHeap → Nat → Res OHeap
  | 0, _, _ => .error .diverge
  | f + 1, h, r =>
    match h.get r with
    | none => .error .ub
    | some it =>
      match it.first with
      | none => unlinkItem h r it
      | some c =>
        match eraseItem f h c with
        | .error e => .error e
        | .ok h => eraseItem f h r

/-- What a user does. -/
inductive OOp
  | child (p : Nat)
  | next (s : Nat)
  | erase (s : Nat)

/-- One call.  More levels and turns of the loops than given here there are only when they never end. -/
def OOp.run (h : OHeap) : OOp → Res OHeap
  | .child p => createChild h p
  | .next s => createNext h s
  | .erase s => eraseItem ((h.next + 1) * (h.next + 1)) h s

/-- Calls one after the other. -/
def OOp.runAll (h : OHeap) : List OOp → Res OHeap
  | [] => .ok h
  | o :: r =>
    match o.run h with
    | .error e => .error e
    | .ok h => OOp.runAll h r

/-- The item without parents above, `src/pdfmm/base/PdfOutlines.cpp:102-103`. -/
def topOf (h : OHeap) : Nat → Nat → Res Nat
  | 0, _ => .error .diverge
  | f + 1, r =>
    match h.get r with
    | none => .error .ub
    | some it =>
      match it.parent with
      | none => .ok r
      | some p => topOf h f p

/-- The loop of the check, `src/pdfmm/base/PdfOutlines.cpp:100-121`: the roots found, as `root` and `rootOfThis`. -/
def checkLoop (h : OHeap) (this item : Nat) : Nat → Option Nat → Option Nat → Option Nat → Res (Option Nat × Option Nat)
  | 0, _, _, _ => .error .diverge
  | _ + 1, root, rootOfThis, none => .ok (root, rootOfThis)
  | f + 1, root, rootOfThis, some c =>
    match topOf h (h.next + 1) c with
    | .error e => .error e
    | .ok top =>
      if top = item then .ok (some item, rootOfThis)
      else
        match root with
        | none => checkLoop h this item f none (some top) none
        | some _ => checkLoop h this item f (some top) rootOfThis (some this)

/-- `InsertChild`, `src/pdfmm/base/PdfOutlines.cpp:84-140`. -/
def insertChild (h : OHeap) (this item : Nat) : Res OHeap :=
  match checkLoop h this item 3 none none (some item) with
  | .error e => .error e
  | .ok (root, rootOfThis) => if root = rootOfThis then raise .OutlineItemAlreadyPresent else appendItem h this item

/-! ### Loading -/

/-- What is loaded from an object: the object and the items `First` and `Next` point to. -/
inductive LItem
  | mk (obj : Nat) (first next : Option LItem)

/-- The items named by `First` and `Next` of the loaded item; `m_Last` stays null. -/
def LItem.first : LItem → Option LItem
  | .mk _ f _ => f

/-- The constructor for an existing object, `src/pdfmm/base/PdfOutlines.cpp:45-63`, with the recursion guard of
`src/pdfmm/private/PdfDeclarationsPrivate.cpp:1220-1249`; the first argument is how many more guards may be entered.  `keys` gives the keys
`First` and `Next` of an object.  Simplification: the objects have been read before, and the two keys are references if they are there. -/
def loadItem (keys : Nat → Option (Option Nat × Option Nat)) : Nat → Nat → Res LItem
  | 0, _ => raise .InvalidXRef
  | g + 1, r =>
    match keys r with
    | none => raise .NoObject
    | some (none, none) => .ok (.mk r none none)
    | some (some f, none) =>
      match loadItem keys g f with
      | .error e => .error e
      | .ok a => .ok (.mk r (some a) none)
    | some (none, some n) =>
      match loadItem keys g n with
      | .error e => .error e
      | .ok b => .ok (.mk r none (some b))
    | some (some f, some n) =>
      match loadItem keys g f with
      | .error e => .error e
      | .ok a =>
        match loadItem keys g n with
        | .error e => .error e
        | .ok b => .ok (.mk r (some a) (some b))

/-- The keys `First` and `Next` the items have in the saved file. -/
def savedKeys (h : OHeap) (r : Nat) : Option (Option Nat × Option Nat) := (h.get r).map fun it => (it.kFirst, it.kNext)

/-- A loaded item in memory, as the constructor leaves it: `m_Last` is null although the object may have the key `Last`. -/
def loadedOItem (it : OItem) : OItem := { it with last := none }

end Pdfmm
