import Verif.Syntax.ObjectProps
import Verif.Streams.Device
/-
Signing a document: reserving room for the signature in its dictionary, and filling it in after the document was saved.
-/
set_option autoImplicit false
namespace Pdfmm

/-- A value of the signature dictionary: an ordinary one, or a `PdfData` (`src/pdfmm/base/PdfData.h`) of `n` spaces with a place to note
where it was written, one for /Contents and one for /ByteRange (`PdfSignatureBeacons`, `src/pdfmm/base/PdfSignature.h:30-37`). -/
inductive SVal
  | var (v : Var)
  | room (n : Nat) (contents : Bool)

/-- The numbers noted when the reserved places are written. -/
structure Beacons where
  byteRange : Nat
  contents : Nat
  deriving DecidableEq

/-- `PdfData::Write`, `src/pdfmm/base/PdfData.cpp:33-42`: the position of the device is noted. -/
def Beacons.note (b : Beacons) (pos : Nat) : SVal → Beacons
  | .var _ => b
  | .room _ true => { b with contents := pos }
  | .room _ false => { b with byteRange := pos }

/-- The text of a value, `src/pdfmm/base/PdfVariant.cpp:145-207`. -/
def SVal.text (f : WFlags) : SVal → Bytes
  | .var v => Pdfmm.text f v
  | .room n _ => List.replicate n 32

/-- What is written before a value, `src/pdfmm/base/PdfDictionary.cpp:201-204,216-218`. -/
def sigLead (f : WFlags) (k : Bytes) : Bytes := 47 :: (escapeNameBody k ++ f.cl [32])

/-- Entries of the dictionary written one after the other at a position, `src/pdfmm/base/PdfDictionary.cpp:198-224`: the text and what was noted. -/
def sigEntries (f : WFlags) : Nat → Beacons → List (Bytes × SVal) → Bytes × Beacons
  | _, b, [] => ([], b)
  | pos, b, (k, v) :: r =>
    let t := sigLead f k ++ (v.text f ++ f.cl [10])
    let n := sigEntries f (pos + t.length) (b.note (pos + (sigLead f k).length) v) r
    (t ++ n.1, n.2)

/-- The entries in the order in which they are written: /Type comes first. -/
def sigOrder (d : List (Bytes × SVal)) : List (Bytes × SVal) :=
  (match SMap.find? kType d with | some v => [(kType, v)] | none => []) ++ d.filter (fun p => p.1 ≠ kType)

/-- `PdfDictionary::Write`, `src/pdfmm/base/PdfDictionary.cpp:190-227`, at a position of the device. -/
def sigDictText (f : WFlags) (pos : Nat) (b : Beacons) (d : List (Bytes × SVal)) : Bytes × Beacons :=
  let n := sigEntries f (pos + (60 :: 60 :: f.cl [10]).length) b (sigOrder d)
  ([60, 60] ++ (f.cl [10] ++ (n.1 ++ [62, 62])), n.2)

/-- The keys of the signature dictionary. -/
def kByteRange : Bytes := [66, 121, 116, 101, 82, 97, 110, 103, 101]
def kContentsSig : Bytes := [67, 111, 110, 116, 101, 110, 116, 115]
def kFilterSig : Bytes := [70, 105, 108, 116, 101, 114]
def kSubFilter : Bytes := [83, 117, 98, 70, 105, 108, 116, 101, 114]

/-- `prepareBeaconsData`, `src/pdfmm/base/PdfSigner.cpp:155-161`, and `PdfSignature::PrepareForSigning`,
`src/pdfmm/base/PdfSignature.cpp:94-116`: the signature dictionary afterwards, `n` being the size of the signature. -/
def prepareForSigning (filter subFilter type : Bytes) (n : Nat) (d : List (Bytes × SVal)) : List (Bytes × SVal) :=
  SMap.insert kByteRange (.room 37 false) (SMap.insert kContentsSig (.room (2 * n + 2) true)
    (SMap.insert kType (.var (.name type)) (SMap.insert kSubFilter (.var (.name subFilter)) (SMap.insert kFilterSig (.var (.name filter)) d))))

/-- A signer, `src/pdfmm/base/PdfSigner.h`: the size of the signature it announces, and the signature it computes from the blocks it is given. -/
structure Signer where
  size : Nat
  sign : List Bytes → Bytes

/-- A call of the device that is not followed by another one when it fails. -/
def MemDev.call (d : MemDev) (op : DevOp) : Res (DevOut × MemDev) :=
  match d.step op with
  | (.ok o, d) => .ok (o, d)
  | (.error e, _) => .error e

/-- `device.Read(buffer, size)`, giving the bytes. -/
def MemDev.take (d : MemDev) (n : Nat) : Res (Bytes × MemDev) :=
  match d.call (.readExact n) with
  | .ok (.bytes b _, d) => .ok (b, d)
  | .ok (_, d) => .ok ([], d)
  | .error e => .error e

/-- `adjustByteRange`, `src/pdfmm/base/PdfSigner.cpp:126-141`.  The text is written in several calls there. -/
def adjustByteRange (d : MemDev) (byteRange contents size : Nat) : Res MemDev :=
  match d.call (.seek byteRange .begin) with
  | .error e => .error e
  | .ok (_, d) =>
    match d.call (.write (text ⟨false, false⟩ (.arr [.num 0, .num contents, .num (contents + size : Nat), .num ((d.data.length : Int) - (contents + size : Nat))]))) with
    | .error e => .error e
    | .ok (_, d) => .ok d

/-- The reading of what is left, `src/pdfmm/base/PdfSigner.cpp:115-123`; `got` is what was read already. -/
def readLeft (room : Nat) (got : Bytes) (d : MemDev) : Res (Bytes × MemDev) :=
  if min room (toSize ((d.data.length : Int) - d.pos)) = 0 then .ok (got, d)
  else
    match d.take (min room (toSize ((d.data.length : Int) - d.pos))) with
    | .error e => .error e
    | .ok (b, d) => .ok (got ++ b, d)

/-- The part of `readForSignature` after the reading in front of the signature, `src/pdfmm/base/PdfSigner.cpp:108-123`: `pos` is the position at the beginning. -/
def readBehind (contents size : Nat) (room pos : Nat) (got : Bytes) (d : MemDev) : Res (Bytes × MemDev) :=
  match (if contents ≤ pos + got.length ∧ pos < contents + size then d.call (.seek (contents + size : Nat) .begin) else .ok (.unit, d)) with
  | .error e => .error e
  | .ok (_, d) => readLeft room got d

/-- `readForSignature`, `src/pdfmm/base/PdfSigner.cpp:91-127`; `room` is the size of the buffer. -/
def readForSignature (contents size : Nat) (room : Nat) (d : MemDev) : Res (Bytes × MemDev) :=
  if d.pos = d.data.length then .ok ([], d)
  else if d.pos < contents ∧ 0 < min room (contents - d.pos) then
    match d.take (min room (contents - d.pos)) with
    | .error e => .error e
    | .ok (b, d') =>
      if room - min room (contents - d.pos) = 0 then .ok (b, d')
      else readBehind contents size (room - min room (contents - d.pos)) d.pos b d'
  else readBehind contents size room d.pos [] d

/-- The loop over the blocks, `src/pdfmm/base/PdfSigner.cpp:66-70`; the number bounds the turns. -/
def signedBlocks (contents size room : Nat) : Nat → MemDev → List Bytes → Res (List Bytes × MemDev)
  | 0, _, _ => .error .diverge
  | f + 1, d, acc =>
    match readForSignature contents size room d with
    | .error e => .error e
    | .ok ([], d) => .ok (acc, d)
    | .ok (b, d) => signedBlocks contents size room f d (acc ++ [b])

/-- `setSignature`, `src/pdfmm/base/PdfSigner.cpp:144-153`. -/
def setSignature (d : MemDev) (sig : Bytes) (contents : Nat) : Res MemDev :=
  match d.call (.seek contents .begin) with
  | .error e => .error e
  | .ok (_, d) =>
    match d.call (.write (writeString sig true)) with
    | .error e => .error e
    | .ok (_, d) => .ok d

/-- `SignDocument` after the document was saved to the device, `src/pdfmm/base/PdfSigner.cpp:57-80`: the blocks given to the signer and the device.
`room` is `BufferSize`. -/
def signSaved (sg : Signer) (room : Nat) (b : Beacons) (d : MemDev) : Res (List Bytes × MemDev) :=
  match adjustByteRange d b.byteRange b.contents (2 * sg.size + 2) with
  | .error e => .error e
  | .ok d =>
    match d.call (.seek 0 .begin) with
    | .error e => .error e
    | .ok (_, d) =>
      match signedBlocks b.contents (2 * sg.size + 2) room (d.data.length + 2) d [] with
      | .error e => .error e
      | .ok (blocks, d) =>
        if (sg.sign blocks).length > sg.size then .error .exn
        else
          match setSignature d (sg.sign blocks ++ List.replicate (sg.size - (sg.sign blocks).length) 0) b.contents with
          | .error e => .error e
          | .ok d => .ok (blocks, d)

end Pdfmm
