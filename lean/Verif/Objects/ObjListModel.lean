import Verif.Base.Basic
import Verif.Objects.Refs
/-
The list of indirect objects of a document: `PdfIndirectObjectList`.
-/
set_option autoImplicit false
namespace Pdfmm

/-- `PdfIndirectObjectList`, `src/pdfmm/base/PdfIndirectObjectList.h:365-379`.  `objs` is the content of the
`std::set` in its order; observers and the stream factory are left out, an object is its value. -/
structure OL (V : Type) where
  objs : List (Ref × V)
  count : Nat
  free : List Ref
  unavail : List Nat
  streams : List Nat
  reuse : Bool

/-- `MaxXRefGenerationNum`, `src/pdfmm/base/PdfIndirectObjectList.cpp:24`. -/
def maxXRefGen : Nat := 65535
/-- `MaxReserveSize`, `src/pdfmm/base/PdfIndirectObjectList.cpp:23`. -/
def maxReserve : Nat := 8388607

namespace OL
variable {V : Type}

/-- The list of a new document, `src/pdfmm/base/PdfIndirectObjectList.cpp:74-81`. -/
def new : OL V := ⟨[], 1, [], [], [], true⟩

/-- `std::lower_bound` with `CompareReference`: the elements before the reference and the others. -/
def before (r : Ref) (l : List (Ref × V)) : List (Ref × V) := l.takeWhile (fun p => Ref.lt p.1 r)
def notBefore (r : Ref) (l : List (Ref × V)) : List (Ref × V) := l.dropWhile (fun p => Ref.lt p.1 r)

/-- `GetObject`, `src/pdfmm/base/PdfIndirectObjectList.cpp:126-133`. -/
def getObject (o : OL V) (r : Ref) : Option V :=
  match notBefore r o.objs with
  | [] => none
  | (k, v) :: _ => if Ref.ne k r then none else some v

/-- `TryIncrementObjectCount`, `src/pdfmm/base/PdfIndirectObjectList.cpp:500-509` (`unsigned`, wrap-around
at 2^32 not modelled). -/
def tryIncrement (o : OL V) (r : Ref) : OL V := if r.num ≥ o.count then { o with count := r.num + 1 } else o

/-- `AddFreeObject`, `src/pdfmm/base/PdfIndirectObjectList.cpp:285-302`. -/
def addFree (o : OL V) (r : Ref) : OL V :=
  let post := o.free.dropWhile (fun x => Ref.lt x r)
  if post.head? = some r then o
  else tryIncrement { o with free := o.free.takeWhile (fun x => Ref.lt x r) ++ r :: post } r

/-- `tryAddFreeObject`, `src/pdfmm/base/PdfIndirectObjectList.cpp:269-283`: an exhausted number is meant to be
remembered, but the generation is. -/
def tryAddFree (o : OL V) (num gen : Nat) : OL V :=
  if gen ≥ maxXRefGen then { o with unavail := gen :: o.unavail } else addFree o ⟨num, gen⟩

/-- `SafeAddFreeObject`, `src/pdfmm/base/PdfIndirectObjectList.cpp:252-262`. -/
def safeAddFree (o : OL V) (r : Ref) : OL V := tryAddFree o r.num (r.gen + 1)

/-- The loop of `getNextFreeObject`, `src/pdfmm/base/PdfIndirectObjectList.cpp:196-208`, with its `uint16_t`
counter. -/
def nextNum (unavail : List Nat) : Nat → Nat → Res Nat
  | 0, _ => .error .diverge
  | fuel + 1, n =>
    if n + 1 = maxReserve then raise .ValueOutOfRange
    else if n ∈ unavail then nextNum unavail fuel ((n + 1) % 65536)
    else .ok n

/-- `getNextFreeObject`, `src/pdfmm/base/PdfIndirectObjectList.cpp:184-210`. -/
def nextFree (o : OL V) : Res Ref × OL V :=
  match o.reuse, o.free with
  | true, r :: rest => (.ok r, { o with free := rest })
  | _, _ =>
    match nextNum o.unavail 65536 (o.count % 65536) with
    | .ok n => (.ok ⟨n, 0⟩, o)
    | .error e => (.error e, o)

/-- `PushObject` and `pushObject`, `src/pdfmm/base/PdfIndirectObjectList.cpp:316-341`: an object stored under
the reference is deleted and replaced. -/
def push (o : OL V) (r : Ref) (v : V) : OL V :=
  tryIncrement { o with objs := SMap.insert r v o.objs } r

/-- `addNewObject` as used by `CreateObject` and the like,
`src/pdfmm/base/PdfIndirectObjectList.cpp:212-250, 309-314`. -/
def create (o : OL V) (v : V) : Res Ref × OL V :=
  match nextFree o with
  | (.ok r, o') => (.ok r, push o' r v)
  | (.error e, o') => (.error e, o')

/-- `RemoveObject` and `removeObject`, `src/pdfmm/base/PdfIndirectObjectList.cpp:135-147, 171-182`. -/
def remove (o : OL V) (r : Ref) (markAsFree : Bool := true) : Res (Option V) × OL V :=
  match notBefore r o.objs with
  | [] => (.ok none, o)
  | (k, v) :: post =>
    if Ref.ne k r then (.ok none, o)
    else if k.num ∈ o.streams then (raise .InternalLogic, o)
    else
      let o' := if markAsFree then safeAddFree o k else o
      (.ok (some v), { o' with objs := before r o.objs ++ post })

/-- `ReplaceObject`, `src/pdfmm/base/PdfIndirectObjectList.cpp:154-169`.  `sameDoc` says whether the given
object belongs to the document of the list: only then can the set compare it with the others
(`src/pdfmm/base/PdfObject.cpp:810-816`). -/
def replace (o : OL V) (r : Ref) (v : V) (sameDoc : Bool) : Res V × OL V :=
  match notBefore r o.objs with
  | [] => (raise .InvalidHandle, o)
  | (_, old) :: post =>
    let rest := before r o.objs ++ post
    if !sameDoc && !rest.isEmpty then (raise .InternalLogic, { o with objs := rest })
    else (.ok old, push { o with objs := rest } r v)

/-- `SetCanReuseObjectNumbers`, `src/pdfmm/base/PdfIndirectObjectList.cpp:477-483`. -/
def setReuse (o : OL V) (b : Bool) : OL V :=
  if b then { o with reuse := b } else { o with reuse := b, free := [] }

/-- `Clear`, `src/pdfmm/base/PdfIndirectObjectList.cpp:107-115`. -/
def clear (o : OL V) : OL V := { o with objs := [], count := 1 }

end OL

/-- Operations on the list.  `push` is what the parser does with the objects it reads. -/
inductive OLOp (V : Type)
  | push (r : Ref) (v : V)
  | create (v : V)
  | remove (r : Ref)
  | setReuse (b : Bool)
  | clear

/-- What an operation returned. -/
inductive OLResult (V : Type)
  | done
  | created (r : Ref)
  | removed (v : Option V)
  | raised

def OL.step {V : Type} (o : OL V) : OLOp V → OLResult V × OL V
  | .push r v => (.done, o.push r v)
  | .create v =>
    match o.create v with
    | (.ok r, o') => (.created r, o')
    | (.error _, o') => (.raised, o')
  | .remove r =>
    match o.remove r with
    | (.ok v, o') => (.removed v, o')
    | (.error _, o') => (.raised, o')
  | .setReuse b => (.done, o.setReuse b)
  | .clear => (.done, o.clear)

/-- A history: what happened, in order, and the list afterwards. -/
def OL.run {V : Type} (o : OL V) : List (OLOp V) → List (OLOp V × OLResult V) × OL V
  | [] => ([], o)
  | op :: rest =>
    let (res, o') := o.step op
    let (tr, o'') := o'.run rest
    ((op, res) :: tr, o'')

end Pdfmm
