import Verif.Base.Basic
import Verif.Objects.Refs
/-
The page tree: `PdfPageCollection`, the page cache `PdfPageTreeCache` and the parts of `PdfPage` which look
at the tree.
-/
set_option autoImplicit false
namespace Pdfmm

/-- What `isTypePage` and `isTypePages`, `src/pdfmm/base/PdfPageCollection.cpp:339-354`, find in `/Type`; one that is no
name raises in `FindKeyAs`, which is not modelled. -/
inductive PType
  | page | pages | other
  deriving DecidableEq, Repr

/-- An element of a `/Kids` array. -/
inductive PKid
  | ref (r : Ref)
  | other
  deriving DecidableEq, Repr

/-- The value of `/Kids`, references already followed (an array shared by two nodes is not modelled). -/
inductive PKids
  | absent
  | notArray
  | arr (l : List PKid)
  deriving DecidableEq, Repr

/-- The value of `/Count`, references already followed: an `int64_t` or something else. -/
inductive PCount
  | absent
  | num (v : Int)
  | bad
  deriving DecidableEq, Repr

/-- The keys of a dictionary the page tree uses.  `resources` is the object `/Resources` names. -/
structure PNode where
  type : PType
  kids : PKids
  count : PCount
  parent : Option Ref
  resources : Option Ref
  deriving DecidableEq, Repr

/-- An indirect object: a dictionary or something else. -/
inductive PObj
  | dict (n : PNode)
  | other
  deriving DecidableEq, Repr

/-- The indirect objects of the document. -/
abbrev PHeap := Ref → Option PObj

/-- A `PdfPage`: its object, the index it was made with and the object of its resources,
`src/pdfmm/base/PdfPage.h:225-237`. -/
structure CPage where
  obj : Ref
  index : Nat
  res : Option Ref
  deriving DecidableEq, Repr

/-- A document as far as pages go: its objects, the root of the page tree, the page cache
(`src/pdfmm/base/PdfPageTreeCache.h`) and the limit of the recursion guard
(`src/pdfmm/private/PdfDeclarationsPrivate.cpp:1220-1259`, 256 unless changed). -/
structure PDoc where
  heap : PHeap
  root : Ref
  cache : List (Option CPage)
  maxDepth : Nat

/-- `GetDictionary` of an object; an object no longer in the document is a dangling pointer. -/
def nodeAt (h : PHeap) (r : Ref) : Res PNode :=
  match h r with
  | some (.dict n) => .ok n
  | some .other => raise .InvalidDataType
  | none => .error .ub

/-- `getChildCount`, `src/pdfmm/base/PdfPageCollection.cpp:355-362`: the number is cut to 32 bits. -/
def childCount (n : PNode) : Res Nat :=
  match n.count with
  | .absent => .ok 0
  | .num v => .ok (v % 4294967296).toNat
  | .bad => raise .InvalidDataType

/-- The loop of `getPageNode` over the kids, `src/pdfmm/base/PdfPageCollection.cpp:267-334`; `rec` is the
recursive call. -/
def scanKids (h : PHeap) (rec : Nat → Ref → List Ref → Res (Option (Ref × List Ref))) (parent : Ref) :
    List PKid → Nat → List Ref → Res (Option (Ref × List Ref))
  | [], _, _ => .ok none
  | .other :: _, _, _ => .ok none
  | .ref c :: rest, i, ps =>
    match h c with
    | none => .ok none
    | some .other => raise .InvalidDataType
    | some (.dict n) =>
      match n.type with
      | .pages =>
        match childCount n with
        | .error e => .error e
        | .ok cc =>
          if cc < (i + 1) % 4294967296 then scanKids h rec parent rest (i - cc) ps
          else if c ∈ ps ++ [parent] then raise .PageNotFound
          else rec i c (ps ++ [parent])
      | .page => if i = 0 then .ok (some (c, ps ++ [parent])) else scanKids h rec parent rest (i - 1) ps
      | .other => .ok none

/-- `getPageNode`, `src/pdfmm/base/PdfPageCollection.cpp:233-337`, with what is left of the recursion guard
(the guard is assumed unused by callers). -/
def getPageNode (h : PHeap) : Nat → Nat → Ref → List Ref → Res (Option (Ref × List Ref))
  | 0, _, _, _ => raise .InvalidXRef
  | f + 1, i, parent, ps =>
    match nodeAt h parent with
    | .error e => .error e
    | .ok n =>
      match n.kids with
      | .absent => raise .InvalidKey
      | .notArray => raise .InvalidDataType
      | .arr l =>
        match childCount n with
        | .error e => .error e
        | .ok cc => if i > cc then .ok none else scanKids h (getPageNode h f) parent l i ps

/-- The same objects with one dictionary changed. -/
def setNode (h : PHeap) (r : Ref) (n : PNode) : PHeap := fun x => if x = r then some (.dict n) else h x

/-- `MustFindKey("Kids").GetArray()`. -/
def kidsOf (n : PNode) : Res (List PKid) :=
  match n.kids with
  | .absent => raise .NoObject
  | .notArray => raise .InvalidDataType
  | .arr l => .ok l

/-- The loop of `getPosInKids`, `src/pdfmm/base/PdfPageCollection.cpp:372-381`. -/
def posInKids (page : Ref) : List PKid → Nat → Res Int
  | [], _ => .ok (-1)
  | .other :: _, _ => raise .InvalidDataType
  | .ref c :: rest, i => if c = page then .ok i else posInKids page rest (i + 1)

/-- `getPosInKids`, `src/pdfmm/base/PdfPageCollection.cpp:364-381`. -/
def getPosInKids (h : PHeap) (page parent : Ref) : Res Int :=
  match nodeAt h parent with
  | .error e => .error e
  | .ok n => match kidsOf n with
    | .error e => .error e
    | .ok l => posInKids page l 0

/-- The loop building the new kids, `src/pdfmm/base/PdfPageCollection.cpp:400-413`, with its flag. -/
def insertLoop (index : Int) (pages : List PKid) : List PKid → Int → Bool → List PKid × Bool
  | [], _, pushed => ([], pushed)
  | k :: r, i, pushed =>
    if pushed = false ∧ index < i then
      (pages ++ k :: (insertLoop index pages r (i + 1) true).1, (insertLoop index pages r (i + 1) true).2)
    else (k :: (insertLoop index pages r (i + 1) pushed).1, (insertLoop index pages r (i + 1) pushed).2)

/-- The new kids, `src/pdfmm/base/PdfPageCollection.cpp:393-423`. -/
def insertKids (index : Int) (pages old : List PKid) : List PKid :=
  let r := insertLoop index pages old 0 false
  if r.2 = false ∧ index + 1 = old.length then r.1 ++ pages else r.1

/-- `(int)` of an `unsigned`. -/
def asInt32 (c : Nat) : Int := if c < 2147483648 then c else (c : Int) - 4294967296

/-- `changePagesCount`, `src/pdfmm/base/PdfPageCollection.cpp:483-495`, for a change which is not zero; an
overflowing `int` is undefined. -/
def changeCount (delta : Int) (h : PHeap) (r : Ref) : Res PHeap :=
  match nodeAt h r with
  | .error e => .error e
  | .ok n => match childCount n with
    | .error e => .error e
    | .ok c =>
      if -2147483648 ≤ asInt32 c + delta ∧ asInt32 c + delta < 2147483648 then
        .ok (setNode h r { n with count := .num (asInt32 c + delta) })
      else .error .ub

/-- Calls for each element in turn, ending with the first failure. -/
def eachRef (g : PHeap → Ref → Res PHeap) : List Ref → PHeap → Res PHeap
  | [], h => .ok h
  | r :: rs, h => match g h r with
    | .error e => .error e
    | .ok h' => eachRef g rs h'

/-- `AddKey("Parent", …)` on a page. -/
def setParent (p : Ref) (h : PHeap) (r : Ref) : Res PHeap :=
  match nodeAt h r with
  | .error e => .error e
  | .ok n => .ok (setNode h r { n with parent := some p })

/-- `insertPagesIntoNode`, `src/pdfmm/base/PdfPageCollection.cpp:383-434`.  When a step in the middle raises
(a broken node) the changes made so far are not modelled. -/
def insertIntoNode (h : PHeap) (parent : Ref) (parents : List Ref) (index : Int) (pages : List Ref) :
    Res PHeap :=
  if pages = [] then raise .InvalidHandle
  else match nodeAt h parent with
    | .error e => .error e
    | .ok n => match kidsOf n with
      | .error e => .error e
      | .ok old =>
        match eachRef (changeCount pages.length) parents.reverse
            (setNode h parent { n with kids := .arr (insertKids index (pages.map .ref) old) }) with
        | .error e => .error e
        | .ok h2 => eachRef (setParent parent) pages h2

/-- `deletePageNode`, `src/pdfmm/base/PdfPageCollection.cpp:477-481`: erasing outside of the array is
undefined. -/
def deleteKid (h : PHeap) (parent : Ref) (pos : Int) : Res PHeap :=
  match nodeAt h parent with
  | .error e => .error e
  | .ok n => match kidsOf n with
    | .error e => .error e
    | .ok l =>
      if 0 ≤ pos ∧ pos < l.length then .ok (setNode h parent { n with kids := .arr (l.eraseIdx pos.toNat) })
      else .error .ub

/-- `isEmptyPageNode`, `src/pdfmm/base/PdfPageCollection.cpp:497-507`. -/
def isEmptyNode (n : PNode) : Res Bool :=
  match childCount n with
  | .error e => .error e
  | .ok c => match n.kids with
    | .absent => .ok true
    | .notArray => raise .InvalidDataType
    | .arr l => .ok (c = 0 || l.isEmpty)

/-- `RemoveObject` of the document's objects. -/
def dropObj (h : PHeap) (r : Ref) : PHeap := fun x => if x = r then none else h x

/-- The loop removing empty nodes, `src/pdfmm/base/PdfPageCollection.cpp:458-474`, over the parents from the
innermost one. -/
def cleanLoop (root : Ref) : List Ref → PHeap → Res PHeap
  | [], h => .ok h
  | x :: rest, h =>
    match nodeAt h x with
    | .error e => .error e
    | .ok n => match isEmptyNode n with
      | .error e => .error e
      | .ok b =>
        if b = true ∧ x ≠ root then
          match rest with
          | [] => .error .ub
          | p :: _ =>
            match getPosInKids h x p with
            | .error e => .error e
            | .ok pos => match deleteKid h p pos with
              | .error e => .error e
              | .ok h' => cleanLoop root rest (dropObj h' x)
        else cleanLoop root rest h

/-- `deletePageFromNode`, `src/pdfmm/base/PdfPageCollection.cpp:436-475`. -/
def deleteFromNode (h : PHeap) (root parent : Ref) (parents : List Ref) (pos : Int) : Res PHeap :=
  match deleteKid h parent pos with
  | .error e => .error e
  | .ok h1 => match eachRef (changeCount (-1)) parents.reverse h1 with
    | .error e => .error e
    | .ok h2 => cleanLoop root parents.reverse h2

/-- `PdfPageTreeCache::GetPage`, `src/pdfmm/base/PdfPageTreeCache.cpp:22-28`. -/
def cacheGet (c : List (Option CPage)) (i : Nat) : Option CPage := (c[i]?).getD none

/-- `vector::resize` to a larger size. -/
def growTo (c : List (Option CPage)) (n : Nat) : List (Option CPage) := c ++ List.replicate (n - c.length) none

/-- `PdfPageTreeCache::SetPage`, `src/pdfmm/base/PdfPageTreeCache.cpp:30-40`. -/
def cacheSet (c : List (Option CPage)) (i : Nat) (p : CPage) : List (Option CPage) :=
  (if i ≥ c.length then growTo c (i + 1) else c).set i (some p)

/-- `PdfPageTreeCache::InsertPlaceHolders`, `src/pdfmm/base/PdfPageTreeCache.cpp:58-70` (memory exhaustion is
not modelled). -/
def cacheHoles (c : List (Option CPage)) (i n : Nat) : List (Option CPage) :=
  let c := if i ≥ c.length then growTo c i else c
  c.take i ++ List.replicate n none ++ c.drop i

/-- `PdfPageTreeCache::DeletePage`, `src/pdfmm/base/PdfPageTreeCache.cpp:72-79`. -/
def cacheDelete (c : List (Option CPage)) (i : Nat) : List (Option CPage) :=
  if i ≥ c.length then c else c.eraseIdx i

/-- `GetCount`, `src/pdfmm/base/PdfPageCollection.cpp:39-42`. -/
def PDoc.getCount (d : PDoc) : Res Nat :=
  match nodeAt d.heap d.root with
  | .error e => .error e
  | .ok n => childCount n

/-- The loop of `getResources` over the parents, `src/pdfmm/base/PdfPage.cpp:519-520`: each parent replaces
what the one before had. -/
def parentResources (h : PHeap) : List Ref → Option Ref → Res (Option Ref)
  | [], r => .ok r
  | p :: ps, _ => match nodeAt h p with
    | .error e => .error e
    | .ok n => parentResources h ps n.resources

/-- `getResources`, `src/pdfmm/base/PdfPage.cpp:513-527`. -/
def getResources (h : PHeap) (page : Ref) (parents : List Ref) : Res (Option Ref) :=
  match nodeAt h page with
  | .error e => .error e
  | .ok n => match n.resources with
    | some r => .ok (some r)
    | none => parentResources h parents none

/-- `getPage(unsigned)`, `src/pdfmm/base/PdfPageCollection.cpp:60-78`. -/
def PDoc.getPage (d : PDoc) (i : Nat) : Res CPage × PDoc :=
  match cacheGet d.cache i with
  | some p => (.ok p, d)
  | none =>
    match getPageNode d.heap d.maxDepth i d.root [] with
    | .error e => (.error e, d)
    | .ok none => (raise .PageNotFound, d)
    | .ok (some (obj, parents)) =>
      match getResources d.heap obj parents with
      | .error e => (.error e, d)
      | .ok res => (.ok ⟨obj, i, res⟩, { d with cache := cacheSet d.cache i ⟨obj, i, res⟩ })

/-- `GetPageAt`, `src/pdfmm/base/PdfPageCollection.cpp:44-58`. -/
def PDoc.getPageAt (d : PDoc) (i : Nat) : Res CPage × PDoc :=
  match d.getCount with
  | .error e => (.error e, d)
  | .ok c => if i ≥ c then (raise .PageNotFound, d) else d.getPage i

/-- The loop of `getPage(const PdfReference&)`, `src/pdfmm/base/PdfPageCollection.cpp:95-102`, with the
number of rounds left. -/
def PDoc.findLoop (r : Ref) : Nat → Nat → PDoc → Res CPage × PDoc
  | 0, _, d => (raise .PageNotFound, d)
  | n + 1, i, d =>
    match d.getPage i with
    | (.error e, d') => (.error e, d')
    | (.ok p, d') => if p.obj = r then (.ok p, d') else findLoop r n (i + 1) d'

/-- `GetPage(const PdfReference&)`, `src/pdfmm/base/PdfPageCollection.cpp:80-105`; the count does not change
in the loop. -/
def PDoc.getPageRef (d : PDoc) (r : Ref) : Res CPage × PDoc :=
  match d.getCount with
  | .error e => (.error e, d)
  | .ok c => findLoop r c 0 d

/-- The last element of the parents, `parents.back()`. -/
def lastRef : List Ref → Option Ref
  | [] => none
  | [r] => some r
  | _ :: rs => lastRef rs

/-- The pivot of `InsertPagesAt`, `src/pdfmm/base/PdfPageCollection.cpp:113-132`: the page and its parents,
the normalised index and whether the pages go behind the pivot. -/
def PDoc.pivot (d : PDoc) (i count : Nat) : Res (Option (Ref × List Ref)) × Nat × Bool :=
  if count = 0 then (.ok none, i, false)
  else if i ≥ count then (getPageNode d.heap d.maxDepth (count - 1) d.root [], count, true)
  else (getPageNode d.heap d.maxDepth i d.root [], i, false)

/-- What `InsertPagesAt` does to the objects for a pivot, `src/pdfmm/base/PdfPageCollection.cpp:134-156`;
`none` when it only logs. -/
def PDoc.insertAtPivot (d : PDoc) (count : Nat) (after : Bool) (pages : List Ref)
    (pv : Option (Ref × List Ref)) : Res (Option PHeap) :=
  match pv.bind (fun q => (lastRef q.2).map (fun p => (q.1, q.2, p))) with
  | none =>
    if count ≠ 0 then .ok none
    else match insertIntoNode d.heap d.root [d.root] (-1) pages with
      | .error e => .error e
      | .ok h => .ok (some h)
  | some (page, parents, p) =>
    match getPosInKids d.heap page p with
    | .error e => .error e
    | .ok pos => match insertIntoNode d.heap p parents (if after then pos else pos - 1) pages with
      | .error e => .error e
      | .ok h => .ok (some h)

/-- `InsertPagesAt`, `src/pdfmm/base/PdfPageCollection.cpp:113-160`. -/
def PDoc.insertPagesAt (d : PDoc) (i : Nat) (pages : List Ref) : Res Unit × PDoc :=
  match d.getCount with
  | .error e => (.error e, d)
  | .ok count =>
    match (d.pivot i count).1 with
    | .error e => (.error e, d)
    | .ok pv =>
      match d.insertAtPivot count (d.pivot i count).2.2 pages pv with
      | .error e => (.error e, d)
      | .ok none => (.ok (), d)
      | .ok (some h) =>
        (.ok (), { d with heap := h, cache := cacheHoles d.cache (d.pivot i count).2.1 pages.length })

/-- The object of a new page, `src/pdfmm/base/PdfPage.cpp:24-31`. -/
def newPage : PNode := ⟨.page, .absent, .absent, none, none⟩

/-- `CreatePageAt`, `src/pdfmm/base/PdfPageCollection.cpp:171-181`, and with the number of pages as index
`CreatePage`, lines 163-170.  `r` is the reference the document gives the new object. -/
def PDoc.createPageAt (d : PDoc) (i : Nat) (r : Ref) : Res CPage × PDoc :=
  match d.getCount with
  | .error e => (.error e, d)
  | .ok count =>
    let i := if i > count then count else i
    match ({ d with heap := setNode d.heap r newPage } : PDoc).insertPagesAt i [r] with
    | (.error e, d') => (.error e, d')
    | (.ok _, d') => (.ok ⟨r, i, none⟩, { d' with cache := cacheSet d'.cache i ⟨r, i, none⟩ })

/-- `CreatePage`, `src/pdfmm/base/PdfPageCollection.cpp:162-169`. -/
def PDoc.createPage (d : PDoc) (r : Ref) : Res CPage × PDoc :=
  match d.getCount with
  | .error e => (.error e, d)
  | .ok count =>
    match ({ d with heap := setNode d.heap r newPage } : PDoc).insertPagesAt count [r] with
    | (.error e, d') => (.error e, d')
    | (.ok _, d') => (.ok ⟨r, count, none⟩, { d' with cache := cacheSet d'.cache count ⟨r, count, none⟩ })

/-- The part of `RemovePageAt` after the cache, `src/pdfmm/base/PdfPageCollection.cpp:203-226` (the removal
of `/OpenAction` from the catalog is left out). -/
def PDoc.removeFromTree (d : PDoc) (i : Nat) : Res PHeap :=
  match getPageNode d.heap d.maxDepth i d.root [] with
  | .error e => .error e
  | .ok none => raise .PageNotFound
  | .ok (some (page, parents)) =>
    match lastRef parents with
    | none => raise .PageNotFound
    | some p => match getPosInKids d.heap page p with
      | .error e => .error e
      | .ok pos => deleteFromNode d.heap d.root p parents pos

/-- `RemovePageAt`, `src/pdfmm/base/PdfPageCollection.cpp:198-231`: the cache is changed first. -/
def PDoc.removePageAt (d : PDoc) (i : Nat) : Res Unit × PDoc :=
  match ({ d with cache := cacheDelete d.cache i } : PDoc).removeFromTree i with
  | .error e => (.error e, { d with cache := cacheDelete d.cache i })
  | .ok h => (.ok (), { d with heap := h, cache := cacheDelete d.cache i })

/-- The loop over the kids of one level in `GetPageNumber`, `src/pdfmm/base/PdfPage.cpp:346-374`; the count
of a node is cut to an `int` and added to an `unsigned`. -/
def numberKids (h : PHeap) (ref : Ref) : List PKid → Nat → Res Nat
  | [], n => .ok n
  | .other :: _, _ => raise .InvalidDataType
  | .ref c :: rest, n =>
    if c = ref then .ok n
    else match h c with
      | none => raise .NoObject
      | some .other => raise .InvalidDataType
      | some (.dict k) =>
        if k.type = .pages then
          match k.count with
          | .absent => numberKids h ref rest n
          | .bad => raise .InvalidDataType
          | .num v => numberKids h ref rest ((((n : Int) + v) % 4294967296).toNat)
        else numberKids h ref rest ((n + 1) % 4294967296)

/-- The loop of `GetPageNumber` over the parents, `src/pdfmm/base/PdfPage.cpp:339-386`, with the rounds
left, `BrokenFile` being raised at the end of the last; a `/Parent` naming no object ends it. -/
def numberLoop (h : PHeap) : Nat → Option Ref → Ref → Nat → Res Nat
  | _, none, _, n => .ok ((n + 1) % 4294967296)
  | 0, some _, _, _ => raise .BrokenFile
  | f + 1, some p, ref, n =>
    match h p with
    | none => .ok ((n + 1) % 4294967296)
    | some .other => raise .InvalidDataType
    | some (.dict k) =>
      match k.kids with
      | .absent => if f = 0 then raise .BrokenFile else numberLoop h f k.parent p n
      | .notArray => raise .InvalidDataType
      | .arr l => match numberKids h ref l n with
        | .error e => .error e
        | .ok n' => if f = 0 then raise .BrokenFile else numberLoop h f k.parent p n'

/-- `GetPageNumber`, `src/pdfmm/base/PdfPage.cpp:328-384`. -/
def pageNumber (h : PHeap) (page : Ref) : Res Nat :=
  match nodeAt h page with
  | .error e => .error e
  | .ok n => numberLoop h 1001 n.parent page 0

end Pdfmm
