import Verif.Base.Basic
import Verif.Base.SMap
import Verif.Text.NameText
/-
Name trees: adding values, looking them up, and listing them.

The keys are the texts of the strings, compared with `==` and `<` of `std::string`; `V` stands for the values.
-/
set_option autoImplicit false
namespace Pdfmm

/-- The dictionary of a node: what is looked at is `Kids`, `Names` and `Limits`.  `Names` is an array of keys and values in
turn, here a list of pairs. -/
structure NNode (V : Type) where
  kids : Option (List Nat) := none
  names : Option (List (Bytes × V)) := none
  limits : Option (List Bytes) := none

/-- The objects of the document that are nodes of name trees, by number, and the next number to be given out. -/
structure NHeap (V : Type) where
  get : Nat → Option (NNode V)
  next : Nat

variable {V : Type}

/-- Change an object. -/
def NHeap.set (h : NHeap V) (r : Nat) (n : NNode V) : NHeap V := { h with get := fun x => if x = r then some n else h.get x }

/-- `CreateDictionaryObject` of the object list, and what is put in: the number is `h.next`.  Simplification: numbers are not used again
after objects are removed. -/
def NHeap.alloc (h : NHeap V) (n : NNode V) : NHeap V :=
  { get := fun x => if x = h.next then some n else h.get x
    next := h.next + 1 }

/-- `PdfNameLimits`, `src/pdfmm/base/PdfNameTree.h:21-26`. -/
inductive NLim
  | before
  | inside
  | after
  deriving DecidableEq

/-- `PdfNameTree::CheckLimits`, `src/pdfmm/base/PdfNameTree.cpp:415-435`. -/
def checkLimits (n : NNode V) (key : Bytes) : Res NLim :=
  match n.limits with
  | none => .ok .inside
  | some l =>
    match l[0]? with
    | none => raise .ValueOutOfRange
    | some a =>
      if bytesLt key a then .ok .before
      else
        match l[1]? with
        | none => raise .ValueOutOfRange
        | some b => if bytesLt b key then .ok .after else .ok .inside

/-- The search for the child to add to, `src/pdfmm/base/PdfNameTree.cpp:51-70`. -/
def pickChild (h : NHeap V) (key : Bytes) : List Nat → Res (Option (Nat × NLim))
  | [] => .ok none
  | c :: r =>
    match h.get c with
    | none => raise .InvalidHandle
    | some n =>
      match checkLimits n key with
      | .error e => .error e
      | .ok .after => pickChild h key r
      | .ok l => .ok (some (c, l))

/-- The same with the last child when there is none, `src/pdfmm/base/PdfNameTree.cpp:72-80`; an array without elements has no last
one. -/
def pickOrLast (h : NHeap V) (key : Bytes) (ks : List Nat) : Res (Nat × NLim) :=
  match pickChild h key ks with
  | .error e => .error e
  | .ok (some p) => .ok p
  | .ok none =>
    match ks.getLast? with
    | none => .error .ub
    | some c =>
      match h.get c with
      | none => raise .InvalidHandle
      | some _ => .ok (c, .after)

/-- The loop over `Names`, `src/pdfmm/base/PdfNameTree.cpp:103-132`. -/
def namesAdd (key : Bytes) (v : V) : List (Bytes × V) → List (Bytes × V)
  | [] => [(key, v)]
  | (k, w) :: r =>
    if k = key then (k, v) :: r
    else if bytesLt key k then (key, v) :: (k, w) :: r
    else (k, w) :: namesAdd key v r

/-- The first limit of a child, `src/pdfmm/base/PdfNameTree.cpp:182-189`. -/
def firstLimit (h : NHeap V) (c : Nat) : Res (List Bytes) :=
  match h.get c with
  | none => .ok []
  | some n =>
    match n.limits with
    | none => .ok []
    | some [] => .error .ub
    | some (a :: _) => .ok [a]

/-- The last limit of a child, `src/pdfmm/base/PdfNameTree.cpp:191-198`. -/
def lastLimit (h : NHeap V) (c : Nat) : Res (List Bytes) :=
  match h.get c with
  | none => .ok []
  | some n =>
    match n.limits with
    | none => .ok []
    | some l => match l.getLast? with
      | none => .error .ub
      | some b => .ok [b]

/-- The array made in `SetLimits`, `src/pdfmm/base/PdfNameTree.cpp:172-220`; `hasKids` is `m_HasKids`. -/
def limitsFor (h : NHeap V) (n : NNode V) (hasKids : Bool) : Res (List Bytes) :=
  if hasKids then
    match n.kids with
    | none => .ok []
    | some ks =>
      match ks.head?, ks.getLast? with
      | some a, some b =>
        match firstLimit h a with
        | .error e => .error e
        | .ok l1 =>
          match lastLimit h b with
          | .error e => .error e
          | .ok l2 => .ok (l1 ++ l2)
      | _, _ => .error .ub
  else
    match n.names with
    | none => .ok []
    | some es =>
      match es.head?, es.getLast? with
      | some a, some b => .ok [a.1, b.1]
      | _, _ => .error .ub

/-- `PdfNameTreeNode::SetLimits`, `src/pdfmm/base/PdfNameTree.cpp:170-228`, for the node with number `r`; `hasParent` says
that `m_Parent` is not null. -/
def setLimits (h : NHeap V) (r : Nat) (hasKids hasParent : Bool) : Res (NHeap V) :=
  match h.get r with
  | none => .error .ub
  | some n =>
    match limitsFor h n hasKids with
    | .error e => .error e
    | .ok l => .ok (if hasParent then h.set r { n with limits := some l } else h)

/-- `SetLimits` of a node made for this, `PdfNameTreeNode(parent, obj).SetLimits()`, `src/pdfmm/base/PdfNameTree.cpp:292-293`: `m_HasKids`
is taken from the dictionary, `src/pdfmm/base/PdfNameTree.cpp:25-29`. -/
def setLimitsOf (h : NHeap V) (r : Nat) : Res (NHeap V) :=
  match h.get r with
  | none => .error .ub
  | some n => setLimits h r n.kids.isSome true

/-- The two halves of `Kids` or `Names` when there are too many, `src/pdfmm/base/PdfNameTree.cpp:232-246`, each as a node with nothing else:
the array is cut after 33 kids, or after 66 elements, which are 33 pairs. -/
def halves (n : NNode V) (hasKids : Bool) : Res (Option (NNode V × NNode V)) :=
  if hasKids then
    match n.kids with
    | none => raise .NoObject
    | some ks => .ok (if ks.length > 65 then some ({ kids := some (ks.take 33) }, { kids := some (ks.drop 33) }) else none)
  else
    match n.names with
    | none => raise .NoObject
    | some es =>
      .ok (if 2 * es.length > 130 then some ({ names := some (es.take 33) }, { names := some (es.drop 33) }) else none)

/-- `AddKey` with one of the halves. -/
def NNode.put (n part : NNode V) : NNode V :=
  { n with kids := part.kids.or n.kids
           names := part.names.or n.names }

/-- The new child goes after the old one, `src/pdfmm/base/PdfNameTree.cpp:266-283`. -/
def insertAfter (c c2 : Nat) : List Nat → Option (List Nat)
  | [] => none
  | x :: r => if x = c then some (x :: c2 :: r) else (insertAfter c c2 r).map (x :: ·)

/-- `PdfNameTreeNode::Rebalance` when there is no parent, `src/pdfmm/base/PdfNameTree.cpp:238-302`. -/
def splitRoot (h : NHeap V) (self : Nat) (n a b : NNode V) : Res (NHeap V) :=
  let h1 := ((h.alloc a).set self { n with names := none }).alloc b
  let h2 := h1.set self { n with names := none
                                 kids := some [h.next, h.next + 1] }
  match setLimitsOf h2 h.next with
  | .error e => .error e
  | .ok h3 =>
    match setLimitsOf h3 (h.next + 1) with
    | .error e => .error e
    | .ok h4 => setLimits h4 self true false

/-- `PdfNameTreeNode::Rebalance` for a node with the parent `p`, `src/pdfmm/base/PdfNameTree.cpp:238-302`; `pp` says that the
parent has a parent. -/
def splitChild (h : NHeap V) (p : Nat) (pp : Bool) (self : Nat) (hasKids : Bool) (n a b : NNode V) : Res (NHeap V) :=
  match h.get p with
  | none => .error .ub
  | some pn =>
    match pn.kids with
    | none => raise .NoObject
    | some ks =>
      let h1 := (h.set self (n.put a)).alloc b
      let h2 := h1.set p { pn with kids := some ((insertAfter self h.next ks).getD (ks ++ [self, h.next])) }
      match setLimitsOf h2 self with
      | .error e => .error e
      | .ok h3 =>
        match setLimitsOf h3 h.next with
        | .error e => .error e
        | .ok h4 => if hasKids then setLimits h4 self true true else setLimits h4 p true pp

/-- `PdfNameTreeNode::Rebalance`, `src/pdfmm/base/PdfNameTree.cpp:230-306`: the parent is given by its number and whether it has a parent
itself. -/
def rebalance (h : NHeap V) (parent : Option (Nat × Bool)) (self : Nat) (hasKids : Bool) : Res (NHeap V) :=
  match h.get self with
  | none => .error .ub
  | some n =>
    match halves n hasKids with
    | .error e => .error e
    | .ok none => .ok h
    | .ok (some (a, b)) =>
      match parent with
      | none => splitRoot h self n a b
      | some (p, pp) => splitChild h p pp self hasKids n a b

/-- The part of `AddValue` for a node with `Names`, `src/pdfmm/base/PdfNameTree.cpp:101-137,158-165`. -/
def addToNames (h : NHeap V) (parent : Option (Nat × Bool)) (self : Nat) (n : NNode V) (es : List (Bytes × V)) (key : Bytes) (v : V) :
    Res (NHeap V) :=
  let es' := namesAdd key v es
  match es'.head?, es'.getLast? with
  | some a, some b =>
    rebalance (h.set self { n with names := some es'
                                   limits := if parent.isSome then some [a.1, b.1] else n.limits }) parent self false
  | _, _ => .error .ub

/-- The part of `AddValue` for a node with neither, `src/pdfmm/base/PdfNameTree.cpp:138-162`. -/
def addToEmpty (h : NHeap V) (parent : Option (Nat × Bool)) (self : Nat) (n : NNode V) (key : Bytes) (v : V) : NHeap V :=
  (h.alloc { names := some [(key, v)]
             limits := some [key, key] }).set self
    { n with kids := some [h.next]
             limits := if parent.isSome then some [key, key] else n.limits }

/-- `PdfNameTreeNode::AddValue`, `src/pdfmm/base/PdfNameTree.cpp:47-168`.  The first argument bounds the depth of the recursion. -/
def addValue : Nat → NHeap V → Option (Nat × Bool) → Nat → Bytes → V → Res (NHeap V)
  | 0, _, _, _, _, _ => .error .diverge
  | f + 1, h, parent, self, key, v =>
    match h.get self with
    | none => .error .ub
    | some n =>
      match n.kids with
      | some ks =>
        match pickOrLast h key ks with
        | .error e => .error e
        | .ok (c, lim) =>
          match addValue f h (some (self, parent.isSome)) c key v with
          | .error e => .error e
          | .ok h1 =>
            match (if lim ≠ .inside then setLimits h1 self true parent.isSome else .ok h1) with
            | .error e => .error e
            | .ok h2 => rebalance h2 parent self true
      | none =>
        match n.names with
        | some es => addToNames h parent self n es key v
        | none => .ok (addToEmpty h parent self n key v)

/-- A tree of the document: the number of its root, if there is one, and the objects. -/
structure NTree (V : Type) where
  heap : NHeap V
  root : Option Nat

/-- `PdfNameTree::GetRootNode` with `create`, `src/pdfmm/base/PdfNameTree.cpp:397-408`. -/
def NTree.create (t : NTree V) : NTree V :=
  match t.root with
  | some _ => t
  | none => { heap := t.heap.alloc {}
              root := some t.heap.next }

/-- `PdfNameTree::AddValue`, `src/pdfmm/base/PdfNameTree.cpp:320-325`.  A recursion deeper than the number of objects never ends. -/
def NTree.add (t : NTree V) (key : Bytes) (v : V) : Res (NTree V) :=
  match t.create with
  | ⟨h, none⟩ => .ok ⟨h, none⟩
  | ⟨h, some r⟩ =>
    match addValue (h.next + 1) h none r key v with
    | .error e => .error e
    | .ok h => .ok ⟨h, some r⟩

/-- Values added one after the other. -/
def NTree.addAll (t : NTree V) : List (Bytes × V) → Res (NTree V)
  | [] => .ok t
  | (k, v) :: r =>
    match t.add k v with
    | .error e => .error e
    | .ok t => t.addAll r

/-- The loop over the kids in `GetKeyValue`, `src/pdfmm/base/PdfNameTree.cpp:349-372`; `f` is the recursive call. -/
def firstValue (h : NHeap V) (f : Nat → Res (Option V)) : List Nat → Res (Option V)
  | [] => .ok none
  | c :: r =>
    match h.get c with
    | none => firstValue h f r
    | some _ =>
      match f c with
      | .error e => .error e
      | .ok (some v) => .ok (some v)
      | .ok none => firstValue h f r

/-- The loop over the names, `src/pdfmm/base/PdfNameTree.cpp:374-391`; `deref` gives the object a value refers to, and other values as they
are. -/
def namesGet (deref : V → Option V) (key : Bytes) : List (Bytes × V) → Option V
  | [] => none
  | (k, v) :: r => if k = key then deref v else namesGet deref key r

/-- `PdfNameTree::GetKeyValue`, `src/pdfmm/base/PdfNameTree.cpp:342-395`. -/
def getKeyValue (deref : V → Option V) (h : NHeap V) (key : Bytes) : Nat → Nat → Res (Option V)
  | 0, _ => .error .diverge
  | f + 1, r =>
    match h.get r with
    | none => .error .ub
    | some n =>
      match checkLimits n key with
      | .error e => .error e
      | .ok .before => .ok none
      | .ok .after => .ok none
      | .ok .inside =>
        match n.kids with
        | some ks => firstValue h (getKeyValue deref h key f) ks
        | none =>
          match n.names with
          | none => raise .NoObject
          | some es => .ok (namesGet deref key es)

/-- `PdfNameTree::GetValue`, `src/pdfmm/base/PdfNameTree.cpp:327-340`. -/
def NTree.getValue (deref : V → Option V) (t : NTree V) (key : Bytes) : Res (Option V) :=
  match t.root with
  | none => .ok none
  | some r =>
    match getKeyValue deref t.heap key (t.heap.next + 1) r with
    | .error e => .error e
    | .ok none => .ok none
    | .ok (some v) => .ok (deref v)

/-- The loop over the kids in `AddToDictionary`, `src/pdfmm/base/PdfNameTree.cpp:450-464`. -/
def listKids {V : Type} (h : NHeap V) (f : Nat → Res (List (Bytes × V))) : List Nat → Res (List (Bytes × V))
  | [] => .ok []
  | c :: r =>
    match h.get c with
    | none => listKids h f r
    | some _ =>
      match f c with
      | .error e => .error e
      | .ok a =>
        match listKids h f r with
        | .error e => .error e
        | .ok b => .ok (a ++ b)

/-- `PdfNameTree::AddToDictionary`, `src/pdfmm/base/PdfNameTree.cpp:445-491`: the entries in the order they are added to the dictionary, with
their texts as keys.  The first argument is what the recursion guard has left. -/
def listNames (h : NHeap V) : Nat → Nat → Res (List (Bytes × V))
  | 0, _ => raise .InvalidXRef
  | f + 1, r =>
    match h.get r with
    | none => .error .ub
    | some n =>
      match n.kids with
      | some ks => listKids h (listNames h f) ks
      | none => .ok (n.names.getD [])

/-- The entries added to the dictionary, `src/pdfmm/base/PdfNameTree.cpp:475-489`: a `PdfName` is made of the text of the key, and a later
entry overwrites an earlier one. -/
def addNames : NDict V → List (Bytes × V) → Res (NDict V)
  | d, [] => .ok d
  | d, (k, v) :: r =>
    match PName.ofText k with
    | .error e => .error e
    | .ok nm => addNames (d.addKey nm v) r

/-- `PdfNameTree::ToDictionary`, `src/pdfmm/base/PdfNameTree.cpp:437-443`.  Simplification: all entries are collected before the first is
added. -/
def NTree.toDictionary (t : NTree V) : Res (NDict V) :=
  match t.root with
  | none => .ok []
  | some r =>
    match listNames t.heap 256 r with
    | .error e => .error e
    | .ok l => addNames [] l

end Pdfmm
