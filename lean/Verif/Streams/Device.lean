import Verif.Base.Basic
set_option autoImplicit false
/-!
# Memory devices: seek, read, peek, write, copy (PdfStreamDevice, PdfInputStream, PdfOutputStream)

Properties C61 (memory devices) and C85 (the null device).
Positions and lengths are `size_t`, seek offsets `ssize_t`, both 64 bits wide.
-/
namespace Pdfmm

/-- `SeekDirection`, PdfDeclarations.h. The default case of the switch (an enumerator outside the
list) is not modelled. -/
inductive SeekDir
  | begin | current | fromEnd
deriving Repr, DecidableEq

/-- A `ssize_t` value converted to `size_t`: PdfStreamDevice.cpp 100, 117, 122, 126, 134. -/
def toSize (n : Int) : Nat := (n % 18446744073709551616).toNat

/-- `-offset` on a `ssize_t` (PdfStreamDevice.cpp 122, 132): undefined for the most negative value. -/
def negSsize (n : Int) : Res Int :=
  if n = -9223372036854775808 then .error .ub else .ok (-n)

/-- `StreamDevice::SeekPosition`, PdfStreamDevice.cpp 92-139. -/
def seekPosition (cur len : Nat) (off : Int) : SeekDir → Res Nat
  | .begin =>
    if off < 0 then raise .InvalidDeviceOperation
    else if toSize off > len then raise .ValueOutOfRange
    else .ok (toSize off)
  | .current =>
    if off = 0 then .ok cur
    else if off > 0 then
      if toSize off > toSize ((len : Int) - cur) then raise .ValueOutOfRange
      else .ok ((cur + toSize off) % 18446744073709551616)
    else
      match negSsize off with
      | .error e => .error e
      | .ok m =>
        if toSize m > cur then raise .ValueOutOfRange
        else .ok ((cur + toSize off) % 18446744073709551616)
  | .fromEnd =>
    if off > 0 then raise .InvalidDeviceOperation
    else
      match negSsize off with
      | .error e => .error e
      | .ok m =>
        if toSize m > len then raise .ValueOutOfRange
        else .ok ((len + toSize off) % 18446744073709551616)

/-- The state of a `SpanStreamDevice` (PdfStreamDevice.cpp 511-617; `grows = false`) or of a
`ContainerStreamDevice` (PdfStreamDevice.h 124-200; `grows = true`): the buffer, the position and
the access rights (PdfStreamDeviceBase.h). The buffer is owned by the caller; changes made to it
behind the device's back are not modelled. -/
structure MemDev where
  data : Bytes
  pos : Nat
  canRead : Bool
  canWrite : Bool
  grows : Bool
deriving Repr, DecidableEq

/-- `SpanStreamDevice` constructors for a constant buffer, PdfStreamDevice.cpp 511-537. -/
def MemDev.ofView (b : Bytes) : MemDev := ⟨b, 0, true, false, false⟩

/-- `ContainerStreamDevice(container, access, ate)`, PdfStreamDevice.h 128-140. -/
def MemDev.ofContainer (b : Bytes) (r w ate : Bool) : MemDev :=
  ⟨b, if ate then b.length else 0, r, w, true⟩

/-- What one call gives back. -/
inductive DevOut
  /-- nothing -/
  | unit
  /-- the bytes read and the end-of-file flag -/
  | bytes (b : Bytes) (eof : Bool)
  /-- the character, or `none` where the call returns false -/
  | char (c : Option Byte)
deriving Repr, DecidableEq

/-- The calls of the public API. -/
inductive DevOp
  | seek (off : Int) (dir : SeekDir)
  /-- `Read(buffer, size, eof)` -/
  | read (n : Nat)
  /-- `Read(buffer, size)` -/
  | readExact (n : Nat)
  /-- `Read(ch)` -/
  | tryChar
  /-- `ReadChar()` -/
  | char
  /-- `Peek(ch)` -/
  | peek
  /-- `Write(buffer, size)` -/
  | write (b : Bytes)
deriving Repr, DecidableEq

/-- `readBuffer`, PdfStreamDevice.cpp 580-587 and PdfStreamDevice.h 165-172. -/
def MemDev.readBuffer (d : MemDev) (n : Nat) : Bytes × Bool × MemDev :=
  let k := min n (toSize ((d.data.length : Int) - d.pos))
  ((d.data.drop d.pos).take k, d.pos + k == d.data.length, { d with pos := d.pos + k })

/-- The loop of `InputStream::Read(buffer, size, eof)`, PdfInputStream.cpp 56-72, on a memory
device: every pass reads what is left to read, the loop ends when all was read or at the end of
the buffer. The fuel bounds the number of passes. -/
def MemDev.readLoop : Nat → MemDev → Nat → Bytes → Res (Bytes × Bool) × MemDev
  | 0, d, _, _ => (.error .diverge, d)
  | f + 1, d, n, acc =>
    match d.readBuffer (n - acc.length) with
    | (b, eof, d') =>
      if (acc ++ b).length = n then (.ok (acc ++ b, eof), d')
      else if eof then (.ok (acc ++ b, eof), d')
      else readLoop f d' n (acc ++ b)

/-- `peek`, PdfStreamDevice.cpp 603-612, PdfStreamDevice.h 187-197. -/
def MemDev.peekChar (d : MemDev) : Option Byte :=
  if d.pos = d.data.length then none else d.data[d.pos]?

/-- `writeBuffer`: PdfStreamDevice.cpp 571-578 (fixed span) and PdfStreamDevice.h 156-163 (container,
which is resized, new bytes being zero, and then overwritten). -/
def MemDev.writeBuffer (d : MemDev) (b : Bytes) : Res DevOut × MemDev :=
  let e := (d.pos + b.length) % 18446744073709551616
  if d.grows then
    let buf := if e > d.data.length then d.data ++ List.replicate (e - d.data.length) 0 else d.data
    (.ok .unit, { d with data := buf.take d.pos ++ b ++ buf.drop (d.pos + b.length)
                         pos := d.pos + b.length })
  else if e > d.data.length then (raise .ValueOutOfRange, d)
  else
    (.ok .unit, { d with data := d.data.take d.pos ++ b ++ d.data.drop (d.pos + b.length)
                         pos := d.pos + b.length })

/-- One API call: PdfInputStream.cpp 20-72, PdfInputDevice.cpp 22-31, PdfOutputStream.cpp 32-39,
PdfOutputDevice.cpp 20-23, PdfStreamDeviceBase.cpp 20-50 (`EnsureAccess` raises `InternalLogic`). -/
def MemDev.step (d : MemDev) : DevOp → Res DevOut × MemDev
  | .seek off dir =>
    match seekPosition d.pos d.data.length off dir with
    | .ok p => (.ok .unit, { d with pos := p })
    | .error e => (.error e, d)
  | .read n =>
    if !d.canRead then (raise .InternalLogic, d)
    else
      match d.readLoop (d.data.length + 2) n [] with
      | (.ok (b, eof), d') => (.ok (.bytes b eof), d')
      | (.error e, d') => (.error e, d')
  | .readExact n =>
    if !d.canRead then (raise .InternalLogic, d)
    else
      match d.readLoop (d.data.length + 2) n [] with
      | (.ok (b, eof), d') =>
        if b.length = n then (.ok (.bytes b eof), d') else (raise .UnexpectedEOF, d')
      | (.error e, d') => (.error e, d')
  | .tryChar =>
    if !d.canRead then (raise .InternalLogic, d)
    else
      match d.peekChar with
      | none => (.ok (.char none), d)
      | some c => (.ok (.char (some c)), { d with pos := d.pos + 1 })
  | .char =>
    if !d.canRead then (raise .InternalLogic, d)
    else
      match d.peekChar with
      | none => (raise .InvalidDeviceOperation, d)
      | some c => (.ok (.char (some c)), { d with pos := d.pos + 1 })
  | .peek =>
    if !d.canRead then (raise .InternalLogic, d) else (.ok (.char d.peekChar), d)
  | .write b =>
    if b.length = 0 then (.ok .unit, d)
    else if !d.canWrite then (raise .InternalLogic, d)
    else d.writeBuffer b

/-- A sequence of calls; the caller catches every error and goes on. -/
def MemDev.run (d : MemDev) : List DevOp → MemDev
  | [] => d
  | op :: ops => MemDev.run (d.step op).2 ops

/-- `InputStream::CopyTo(stream)`, PdfInputStream.cpp 74-87, from a memory device, giving the bytes
written to the target. The chunk size (4096) is a parameter. -/
def MemDev.copyTo (chunk : Nat) : Nat → MemDev → Bytes → Res Bytes × MemDev
  | 0, d, _ => (.error .diverge, d)
  | f + 1, d, acc =>
    match d.readBuffer chunk with
    | (b, eof, d') => if eof then (.ok (acc ++ b), d') else copyTo chunk f d' (acc ++ b)

/-- `InputStream::CopyTo(stream, size)`, PdfInputStream.cpp 89-103. -/
def MemDev.copyToN (chunk : Nat) : Nat → MemDev → Nat → Bytes → Res Bytes × MemDev
  | 0, d, _, _ => (.error .diverge, d)
  | f + 1, d, n, acc =>
    match d.readBuffer (min chunk n) with
    | (b, eof, d') =>
      if n - b.length > 0 ∧ eof = false then copyToN chunk f d' (n - b.length) (acc ++ b)
      else (.ok (acc ++ b), d')

/-! ## Specification -/

/-- The place a seek asks for, as a plain integer. -/
def Spec.seekTarget (cur len : Nat) (off : Int) : SeekDir → Int
  | .begin => off
  | .current => cur + off
  | .fromEnd => len + off

/-- The caller's side: offsets are 64-bit values, nothing is longer than an address space holds. -/
def Spec.DevCall (d : MemDev) : DevOp → Prop
  | .seek off _ => -9223372036854775808 ≤ off ∧ off < 9223372036854775808
  | .write b => d.data.length + b.length < 9223372036854775808
  | _ => True

/-- Every call of the sequence is such a call at the time it is made. -/
def Spec.DevCalls : MemDev → List DevOp → Prop
  | _, [] => True
  | d, op :: ops => Spec.DevCall d op ∧ Spec.DevCalls (d.step op).2 ops

/-- A device whose position is inside its buffer. -/
def Spec.Inside (d : MemDev) : Prop := d.pos ≤ d.data.length ∧ d.data.length < 9223372036854775808

/-! ## Seeking -/

theorem toSize_of_nonneg {n : Int} (h0 : 0 ≤ n) (h1 : n < 18446744073709551616) :
    (toSize n : Int) = n := by
  unfold toSize
  omega

theorem toSize_neg {n : Int} (h0 : n < 0) (h1 : -9223372036854775808 ≤ n) :
    (toSize n : Int) = n + 18446744073709551616 := by
  unfold toSize
  omega

theorem toSize_le {n : Int} (h1 : 0 ≤ n) (h2 : n < 18446744073709551616) (k : Nat) :
    toSize n > k ↔ n > k := by
  have := toSize_of_nonneg h1 h2
  omega

/-- The whole of seeking except for the one offset whose negation is undefined: a place inside the
buffer is reached exactly, any other place is refused with an error. -/
theorem seekPosition_exact (cur len : Nat) (off : Int) (dir : SeekDir) (hc : cur ≤ len)
    (hl : len < 9223372036854775808) (h1 : -9223372036854775808 ≤ off)
    (h2 : off < 9223372036854775808) (hmin : dir = .begin ∨ off ≠ -9223372036854775808) :
    (∀ p : Nat, (p : Int) = Spec.seekTarget cur len off dir → p ≤ len →
      seekPosition cur len off dir = .ok p) ∧
    ((Spec.seekTarget cur len off dir < 0 ∨ Spec.seekTarget cur len off dir > len) →
      ∃ c, seekPosition cur len off dir = raise c) := by
  cases dir with
  | begin =>
    simp only [Spec.seekTarget, seekPosition]
    constructor
    · intro p hp hpl
      have h := toSize_of_nonneg (n := off) (by omega) (by omega)
      rw [if_neg (by omega), if_neg (by omega)]
      congr 1
      omega
    · intro h
      by_cases h0 : off < 0
      · exact ⟨_, if_pos h0⟩
      · have h' := toSize_of_nonneg (n := off) (by omega) (by omega)
        rw [if_neg h0, if_pos (by omega)]
        exact ⟨_, rfl⟩
  | current =>
    have hm : off ≠ -9223372036854775808 := by simpa using hmin
    simp only [Spec.seekTarget, seekPosition, negSsize, if_neg hm]
    have hdiff := toSize_of_nonneg (n := (len : Int) - cur) (by omega) (by omega)
    constructor
    · intro p hp hpl
      by_cases h0 : off = 0
      · rw [if_pos h0]; congr 1; omega
      · rw [if_neg h0]
        by_cases hpos : off > 0
        · have h := toSize_of_nonneg (n := off) (by omega) (by omega)
          rw [if_pos hpos, if_neg (by omega)]
          congr 1; omega
        · have h := toSize_neg (n := off) (by omega) (by omega)
          have h' := toSize_of_nonneg (n := -off) (by omega) (by omega)
          rw [if_neg hpos, if_neg (by omega)]
          congr 1; omega
    · intro h
      have h0 : off ≠ 0 := by omega
      rw [if_neg h0]
      by_cases hpos : off > 0
      · have h := toSize_of_nonneg (n := off) (by omega) (by omega)
        rw [if_pos hpos, if_pos (by omega)]
        exact ⟨_, rfl⟩
      · have h' := toSize_of_nonneg (n := -off) (by omega) (by omega)
        rw [if_neg hpos, if_pos (by omega)]
        exact ⟨_, rfl⟩
  | fromEnd =>
    have hm : off ≠ -9223372036854775808 := by simpa using hmin
    simp only [Spec.seekTarget, seekPosition, negSsize, if_neg hm]
    constructor
    · intro p hp hpl
      have h' := toSize_of_nonneg (n := -off) (by omega) (by omega)
      rw [if_neg (by omega), if_neg (by omega)]
      congr 1
      by_cases h0 : off = 0
      · subst h0; simp [toSize]; omega
      · have h := toSize_neg (n := off) (by omega) (by omega)
        omega
    · intro h
      by_cases hpos : off > 0
      · exact ⟨_, if_pos hpos⟩
      · have h' := toSize_of_nonneg (n := -off) (by omega) (by omega)
        rw [if_neg hpos, if_pos (by omega)]
        exact ⟨_, rfl⟩

theorem seekPosition_min (cur len : Nat) (dir : SeekDir) (hd : dir ≠ .begin) :
    seekPosition cur len (-9223372036854775808) dir = .error .ub := by
  cases dir with
  | begin => exact absurd rfl hd
  | current => rfl
  | fromEnd => rfl

/-! ## Reading -/

theorem readBuffer_eq (d : MemDev) (h : Spec.Inside d) (n : Nat) :
    d.readBuffer n = ((d.data.drop d.pos).take n, d.pos + min n (d.data.length - d.pos) == d.data.length,
      { d with pos := d.pos + min n (d.data.length - d.pos) }) := by
  obtain ⟨h1, h2⟩ := h
  have h' := toSize_of_nonneg (n := (d.data.length : Int) - d.pos) (by omega) (by omega)
  have e : toSize ((d.data.length : Int) - d.pos) = d.data.length - d.pos := by omega
  unfold MemDev.readBuffer
  rw [e]
  simp only [Prod.mk.injEq, and_true]
  rw [← List.length_drop, ← List.take_take, List.take_length]

theorem readLoop_eq (d : MemDev) (h : Spec.Inside d) (n f : Nat) :
    d.readLoop (f + 1) n [] =
      (.ok ((d.data.drop d.pos).take n, d.pos + min n (d.data.length - d.pos) == d.data.length),
       { d with pos := d.pos + min n (d.data.length - d.pos) }) := by
  have hin := h
  obtain ⟨h1, h2⟩ := h
  unfold MemDev.readLoop
  rw [show n - ([] : Bytes).length = n from rfl, readBuffer_eq d hin]
  simp only [List.nil_append]
  by_cases hn : ((d.data.drop d.pos).take n).length = n
  · rw [if_pos hn]
  · rw [if_neg hn]
    have : (d.data.drop d.pos).length < n := by
      rw [List.length_take] at hn; omega
    rw [List.length_drop] at this
    rw [if_pos (by simp; omega)]

/-- What is left to read. -/
def Spec.unread (d : MemDev) : Bytes := d.data.drop d.pos

theorem unread_length (d : MemDev) : (Spec.unread d).length = d.data.length - d.pos := by
  simp [Spec.unread]

/-- Reading `n` bytes gives the next `n` bytes at the position, or all that are left, moves the
position past them and reports the end of the buffer exactly when it is reached. -/
theorem step_read (d : MemDev) (h : Spec.Inside d) (hr : d.canRead = true) (n : Nat) :
    d.step (.read n) =
      (.ok (.bytes ((Spec.unread d).take n) (decide ((Spec.unread d).length ≤ n))),
       { d with pos := d.pos + ((Spec.unread d).take n).length }) := by
  simp only [MemDev.step, hr, Bool.not_true, Bool.false_eq_true, if_false]
  rw [readLoop_eq d h]
  obtain ⟨h1, h2⟩ := h
  have hl := unread_length d
  simp only [Prod.mk.injEq, Except.ok.injEq, DevOut.bytes.injEq]
  refine ⟨⟨rfl, ?_⟩, ?_⟩
  · rw [hl, Bool.eq_iff_iff]; simp; omega
  · simp only [List.length_take, hl, hr]

theorem step_readExact (d : MemDev) (h : Spec.Inside d) (hr : d.canRead = true) (n : Nat) :
    (d.step (.readExact n)).1 =
      (if n ≤ (Spec.unread d).length then
        .ok (.bytes ((Spec.unread d).take n) (decide ((Spec.unread d).length ≤ n)))
       else raise .UnexpectedEOF) ∧
    (d.step (.readExact n)).2 = { d with pos := d.pos + ((Spec.unread d).take n).length } := by
  simp only [MemDev.step, hr, Bool.not_true, Bool.false_eq_true, if_false]
  rw [readLoop_eq d h]
  obtain ⟨h1, h2⟩ := h
  have hl := unread_length d
  have htl : (List.take n (List.drop d.pos d.data)).length = min n (d.data.length - d.pos) := by
    simp
  simp only
  by_cases hn : n ≤ (Spec.unread d).length
  · rw [if_pos hn, if_pos (by rw [htl]; omega)]
    simp only [Except.ok.injEq, DevOut.bytes.injEq]
    refine ⟨⟨rfl, ?_⟩, ?_⟩
    · rw [hl, Bool.eq_iff_iff]; simp; omega
    · simp only [List.length_take, hl, hr]
  · rw [if_neg hn, if_neg (by rw [htl]; omega)]
    refine ⟨rfl, ?_⟩
    simp only [List.length_take, hl, hr]

theorem peekChar_eq (d : MemDev) (h : Spec.Inside d) : d.peekChar = (Spec.unread d).head? := by
  unfold MemDev.peekChar Spec.unread
  obtain ⟨h1, h2⟩ := h
  by_cases hp : d.pos = d.data.length
  · rw [if_pos hp, hp]; simp
  · rw [if_neg hp, List.head?_drop]

theorem step_chars (d : MemDev) (h : Spec.Inside d) (hr : d.canRead = true) :
    d.step .peek = (.ok (.char (Spec.unread d).head?), d) ∧
    (d.step .tryChar).1 = .ok (.char (Spec.unread d).head?) ∧
    (d.step .tryChar).2 = { d with pos := d.pos + ((Spec.unread d).take 1).length } ∧
    (d.step .char).2 = { d with pos := d.pos + ((Spec.unread d).take 1).length } ∧
    (d.step .char).1 = (match Spec.unread d with
      | [] => raise .InvalidDeviceOperation
      | c :: _ => .ok (.char (some c))) := by
  simp only [MemDev.step, hr, Bool.not_true, Bool.false_eq_true, if_false]
  rw [peekChar_eq d h]
  cases Spec.unread d with
  | nil => simp [← hr]
  | cons c r => simp

/-! ## Writing -/

/-- The buffer after `b` was written over it at `p`. -/
def Spec.overwrite (data : Bytes) (p : Nat) (b : Bytes) : Bytes :=
  data.take p ++ b ++ data.drop (p + b.length)

theorem overwrite_length (data : Bytes) (p : Nat) (b : Bytes) (h : p ≤ data.length) :
    (Spec.overwrite data p b).length = max data.length (p + b.length) := by
  simp [Spec.overwrite]; omega

/-- Writing puts the bytes at the position. A growing device is extended when they do not fit, a
fixed one refuses them and stays as it was. -/
theorem step_write (d : MemDev) (h : Spec.Inside d) (hw : d.canWrite = true) (b : Bytes)
    (hb : d.data.length + b.length < 9223372036854775808) :
    d.step (.write b) =
      (if d.grows = true ∨ b.length ≤ d.data.length - d.pos then
        (.ok .unit, { d with data := Spec.overwrite d.data d.pos b, pos := d.pos + b.length })
       else (raise .ValueOutOfRange, d)) := by
  obtain ⟨data, pos, cr, cw, g⟩ := d
  obtain ⟨h1, h2⟩ := h
  simp only at hw hb h1 h2
  subst hw
  by_cases hz : b = []
  · subst hz
    simp [MemDev.step, Spec.overwrite]
  · have hz' : ¬ b.length = 0 := fun e => hz (List.length_eq_zero_iff.mp e)
    simp only [MemDev.step, hz', if_false, Bool.not_true, Bool.false_eq_true, MemDev.writeBuffer]
    rw [Nat.mod_eq_of_lt (by omega)]
    cases g with
    | true =>
      simp only [if_true, true_or, Spec.overwrite]
      by_cases he : pos + b.length > data.length
      · rw [if_pos he, List.take_append_of_le_length h1]
        rw [List.drop_eq_nil_of_le (as := data) (by omega)]
        rw [List.drop_eq_nil_of_le (by simp; omega)]
      · rw [if_neg he]
    | false =>
      simp only [Bool.false_eq_true, if_false, false_or, Spec.overwrite]
      by_cases he : pos + b.length > data.length
      · rw [if_pos he, if_neg (by omega)]
      · rw [if_neg he, if_pos (by omega)]

/-! ## C61 -/

theorem step_seek_inside (d : MemDev) (h : Spec.Inside d) (off : Int) (dir : SeekDir)
    (h1 : -9223372036854775808 ≤ off) (h2 : off < 9223372036854775808) :
    Spec.Inside (d.step (.seek off dir)).2 := by
  obtain ⟨ha, hb⟩ := h
  by_cases hmin : dir = .begin ∨ off ≠ -9223372036854775808
  · obtain ⟨hok, herr⟩ := seekPosition_exact d.pos d.data.length off dir ha hb h1 h2 hmin
    by_cases hin : 0 ≤ Spec.seekTarget d.pos d.data.length off dir ∧
        Spec.seekTarget d.pos d.data.length off dir ≤ d.data.length
    · have := hok (Spec.seekTarget d.pos d.data.length off dir).toNat (by omega) (by omega)
      simp only [MemDev.step, this]
      exact ⟨by simp only; omega, hb⟩
    · obtain ⟨c, hc⟩ := herr (by omega)
      simp only [MemDev.step, hc, raise]
      exact ⟨ha, hb⟩
  · have hd : dir ≠ .begin := fun e => hmin (Or.inl e)
    have ho : off = -9223372036854775808 := Decidable.not_not.mp (fun e => hmin (Or.inr e))
    subst ho
    simp only [MemDev.step, seekPosition_min d.pos d.data.length dir hd]
    exact ⟨ha, hb⟩

theorem inside_advance (d : MemDev) (h : Spec.Inside d) (n : Nat) :
    Spec.Inside { d with pos := d.pos + ((Spec.unread d).take n).length } := by
  obtain ⟨h1, h2⟩ := h
  refine ⟨?_, h2⟩
  simp only [List.length_take, unread_length]
  omega

theorem step_inside (d : MemDev) (h : Spec.Inside d) (op : DevOp) (hop : Spec.DevCall d op) :
    Spec.Inside (d.step op).2 := by
  cases op with
  | seek off dir => exact step_seek_inside d h off dir hop.1 hop.2
  | read n =>
    cases hr : d.canRead with
    | true => rw [step_read d h hr n]; exact inside_advance d h n
    | false => simpa [MemDev.step, hr] using h
  | readExact n =>
    cases hr : d.canRead with
    | true => rw [(step_readExact d h hr n).2]; exact inside_advance d h n
    | false => simpa [MemDev.step, hr] using h
  | tryChar =>
    cases hr : d.canRead with
    | true => rw [(step_chars d h hr).2.2.1]; exact inside_advance d h 1
    | false => simpa [MemDev.step, hr] using h
  | char =>
    cases hr : d.canRead with
    | true => rw [(step_chars d h hr).2.2.2.1]; exact inside_advance d h 1
    | false => simpa [MemDev.step, hr] using h
  | peek =>
    cases hr : d.canRead with
    | true => rw [(step_chars d h hr).1]; exact h
    | false => simpa [MemDev.step, hr] using h
  | write b =>
    cases hw : d.canWrite with
    | true =>
      rw [step_write d h hw b hop]
      obtain ⟨h1, h2⟩ := h
      split
      · refine ⟨?_, ?_⟩
        · simp only [overwrite_length _ _ _ h1]; omega
        · simp only [overwrite_length _ _ _ h1]
          have hop' : d.data.length + b.length < 9223372036854775808 := hop
          omega
      · exact ⟨h1, h2⟩
    | false =>
      by_cases hz : b.length = 0
      · simpa [MemDev.step, hz] using h
      · simpa [MemDev.step, hz, hw] using h

theorem run_inside (d : MemDev) (h : Spec.Inside d) (ops : List DevOp) (hops : Spec.DevCalls d ops) :
    Spec.Inside (d.run ops) := by
  induction ops generalizing d with
  | nil => exact h
  | cons op ops ih => exact ih _ (step_inside d h op hops.1) hops.2

/-- **C61** (invariant). Whatever calls were made before, and whether or not they failed, the
position of a memory device lies inside its buffer, so that the next read, peek or write touches
only bytes of the buffer. -/
theorem C61_position_inside (d : MemDev) (h : Spec.Inside d) (ops : List DevOp)
    (hops : Spec.DevCalls d ops) : (d.run ops).pos ≤ (d.run ops).data.length :=
  (run_inside d h ops hops).1

/-- The two kinds of freshly constructed devices are inside their buffers. -/
theorem C61_constructed_inside (b : Bytes) (hb : b.length < 9223372036854775808) (r w ate : Bool) :
    Spec.Inside (MemDev.ofView b) ∧ Spec.Inside (MemDev.ofContainer b r w ate) := by
  refine ⟨⟨Nat.zero_le _, hb⟩, ?_, hb⟩
  simp only [MemDev.ofContainer]
  split <;> omega

/-- **C61** (seeking). After any history, a seek to a place inside the buffer goes exactly there,
and a seek anywhere else raises an error and leaves the device as it was. Missing: the offset
-2⁶³ relative to the position or the end, see `C61_seek_min_false`. -/
theorem C61_seek_partial (d0 : MemDev) (h0 : Spec.Inside d0) (ops : List DevOp)
    (hops : Spec.DevCalls d0 ops) (off : Int) (dir : SeekDir)
    (h1 : -9223372036854775808 ≤ off) (h2 : off < 9223372036854775808)
    (hmin : dir = .begin ∨ off ≠ -9223372036854775808) :
    let d := d0.run ops
    let t := Spec.seekTarget d.pos d.data.length off dir
    (0 ≤ t ∧ t ≤ d.data.length →
      d.step (.seek off dir) = (.ok .unit, { d with pos := t.toNat })) ∧
    (t < 0 ∨ t > d.data.length → ∃ c, d.step (.seek off dir) = (raise c, d)) := by
  intro d t
  have h : Spec.Inside d := run_inside d0 h0 ops hops
  obtain ⟨hok, herr⟩ := seekPosition_exact d.pos d.data.length off dir h.1 h.2 h1 h2 hmin
  constructor
  · intro hin
    have := hok t.toNat (by omega) (by omega)
    simp only [MemDev.step, this]
  · intro hout
    obtain ⟨c, hc⟩ := herr hout
    refine ⟨c, ?_⟩
    simp only [MemDev.step, hc, raise]

/-- **C61** fails at one offset: seeking by -2⁶³ from the position or from the end, which should be
refused, negates the offset and is undefined behaviour on every device in every state. -/
theorem C61_seek_min_false (d : MemDev) (dir : SeekDir) (hd : dir ≠ .begin) :
    (d.step (.seek (-9223372036854775808) dir)).1 = .error .ub := by
  simp only [MemDev.step, seekPosition_min d.pos d.data.length dir hd]

/-- **C61** (reading). After any history, reading gives exactly the bytes at the position: as many
as asked for, or all that are left; the position moves past them; the end is reported exactly when
it is reached; the buffer is untouched. -/
theorem C61_read (d0 : MemDev) (h0 : Spec.Inside d0) (ops : List DevOp) (hops : Spec.DevCalls d0 ops)
    (n : Nat) :
    let d := d0.run ops
    d.canRead = true →
    ∃ k, k = min n (d.data.length - d.pos) ∧
      d.step (.read n) = (.ok (.bytes ((d.data.drop d.pos).take n) (decide (d.pos + k = d.data.length))),
        { d with pos := d.pos + k }) ∧
      (d.step (.readExact n)).2 = { d with pos := d.pos + k } ∧
      (n ≤ d.data.length - d.pos →
        (d.step (.readExact n)).1 = .ok (.bytes ((d.data.drop d.pos).take n)
          (decide (d.pos + k = d.data.length)))) ∧
      (d.data.length - d.pos < n → (d.step (.readExact n)).1 = raise .UnexpectedEOF) := by
  intro d hr
  have h : Spec.Inside d := run_inside d0 h0 ops hops
  have h1 := h.1
  have hl := unread_length d
  have htl : ((Spec.unread d).take n).length = min n (d.data.length - d.pos) := by
    rw [List.length_take, hl]
  have hdec : decide ((Spec.unread d).length ≤ n) =
      decide (d.pos + min n (d.data.length - d.pos) = d.data.length) := by
    rw [hl, Bool.eq_iff_iff]; simp; omega
  refine ⟨_, rfl, ?_, ?_, ?_, ?_⟩
  · rw [step_read d h hr n, htl, hdec]; rfl
  · rw [(step_readExact d h hr n).2, htl]
  · intro hn
    rw [(step_readExact d h hr n).1, if_pos (by omega), hdec]; rfl
  · intro hn
    rw [(step_readExact d h hr n).1, if_neg (by omega)]

/-- **C61** (single characters). After any history, peeking and reading one character give the byte
at the position if there is one; reading consumes it, peeking changes nothing; at the end `Read`
returns false and `ReadChar` raises, and nothing changes. -/
theorem C61_char (d0 : MemDev) (h0 : Spec.Inside d0) (ops : List DevOp) (hops : Spec.DevCalls d0 ops) :
    let d := d0.run ops
    d.canRead = true →
    (∀ hp : d.pos < d.data.length,
      d.step .peek = (.ok (.char (some d.data[d.pos])), d) ∧
      d.step .tryChar = (.ok (.char (some d.data[d.pos])), { d with pos := d.pos + 1 }) ∧
      d.step .char = (.ok (.char (some d.data[d.pos])), { d with pos := d.pos + 1 })) ∧
    (d.pos = d.data.length →
      d.step .peek = (.ok (.char none), d) ∧ d.step .tryChar = (.ok (.char none), d) ∧
      d.step .char = (raise .InvalidDeviceOperation, d)) := by
  intro d hr
  constructor
  · intro hp
    have hne : d.pos ≠ d.data.length := by omega
    have hg : d.data[d.pos]? = some d.data[d.pos] := List.getElem?_eq_getElem hp
    simp [MemDev.step, hr, MemDev.peekChar, hne, hg]
  · intro hp
    simp [MemDev.step, hr, MemDev.peekChar, hp]

/-- **C61** (writing). After any history, writing puts the bytes at the position and moves past
them; a fixed buffer keeps its length and refuses, unchanged, what does not fit; a growing one
becomes just long enough. -/
theorem C61_write (d0 : MemDev) (h0 : Spec.Inside d0) (ops : List DevOp) (hops : Spec.DevCalls d0 ops)
    (b : Bytes) :
    let d := d0.run ops
    d.canWrite = true → d.data.length + b.length < 9223372036854775808 →
    ((d.grows = true ∨ b.length ≤ d.data.length - d.pos) →
      ∃ d', d.step (.write b) = (.ok .unit, d') ∧ d'.pos = d.pos + b.length ∧
        d'.data.length = max d.data.length (d.pos + b.length) ∧
        (d'.data.drop d.pos).take b.length = b ∧ d'.data.take d.pos = d.data.take d.pos ∧
        d'.data.drop (d.pos + b.length) = d.data.drop (d.pos + b.length)) ∧
    (d.grows = false → d.data.length - d.pos < b.length →
      d.step (.write b) = (raise .ValueOutOfRange, d)) := by
  intro d hw hb
  have h : Spec.Inside d := run_inside d0 h0 ops hops
  have h1 := h.1
  rw [step_write d h hw b hb]
  constructor
  · intro hc
    rw [if_pos hc]
    have htk : (d.data.take d.pos).length = d.pos := by rw [List.length_take]; omega
    refine ⟨_, rfl, rfl, overwrite_length _ _ _ h1, ?_, ?_, ?_⟩
    · simp only [Spec.overwrite, List.append_assoc]
      rw [List.drop_append, List.drop_eq_nil_of_le (by omega), htk]
      simp
    · simp only [Spec.overwrite, List.append_assoc]
      rw [List.take_append, htk, Nat.sub_self, List.take_zero, List.append_nil, List.take_take,
        Nat.min_self]
    · simp only [Spec.overwrite]
      rw [List.drop_append, List.length_append, htk,
        List.drop_eq_nil_of_le (by rw [List.length_append, htk]; omega)]
      simp
  · intro hg hlt
    rw [if_neg (by simp [hg]; omega)]

/-- **C61** (access). A device not opened for reading refuses every read, one not opened for writing
every non-empty write, and neither changes. -/
theorem C61_access (d : MemDev) (n : Nat) (b : Bytes) (hb : b ≠ []) :
    (d.canRead = false →
      d.step (.read n) = (raise .InternalLogic, d) ∧ d.step (.readExact n) = (raise .InternalLogic, d) ∧
      d.step .tryChar = (raise .InternalLogic, d) ∧ d.step .char = (raise .InternalLogic, d) ∧
      d.step .peek = (raise .InternalLogic, d)) ∧
    (d.canWrite = false → d.step (.write b) = (raise .InternalLogic, d)) := by
  constructor
  · intro h; simp [MemDev.step, h]
  · intro h; simp [MemDev.step, h, hb]

/-- **C61** (write, seek back, read). What was written is read back after seeking to where it was
written, from any state of a growing device. -/
theorem C61_write_seek_read (d0 : MemDev) (h0 : Spec.Inside d0) (ops : List DevOp)
    (hops : Spec.DevCalls d0 ops) (b : Bytes) :
    let d := d0.run ops
    d.canWrite = true → d.canRead = true → d.grows = true →
    d.data.length + b.length < 9223372036854775808 →
    ∃ e, (((d.step (.write b)).2.step (.seek (-(b.length : Int)) .current)).2.step (.read b.length)).1 =
      .ok (.bytes b e) := by
  intro d hw hr hg hb
  have h : Spec.Inside d := run_inside d0 h0 ops hops
  have h1 := h.1
  rw [step_write d h hw b hb, if_pos (Or.inl hg)]
  simp only
  have hlen := overwrite_length d.data d.pos b h1
  have hin : Spec.Inside { d with data := Spec.overwrite d.data d.pos b, pos := d.pos + b.length } := by
    refine ⟨?_, ?_⟩
    · simp only [hlen]; omega
    · simp only [hlen]; omega
  have hseek : MemDev.step { d with data := Spec.overwrite d.data d.pos b, pos := d.pos + b.length }
      (.seek (-(b.length : Int)) .current) =
      (.ok .unit, { d with data := Spec.overwrite d.data d.pos b, pos := d.pos }) := by
    have := (seekPosition_exact (d.pos + b.length) (Spec.overwrite d.data d.pos b).length
      (-(b.length : Int)) .current hin.1 hin.2 (by omega) (by omega) (Or.inr (by omega))).1 d.pos
      (by simp only [Spec.seekTarget]; omega) (by omega)
    simp only [MemDev.step, this]
  rw [hseek]
  simp only
  rw [step_read { d with data := Spec.overwrite d.data d.pos b, pos := d.pos }
    ⟨by simp only [hlen]; omega, by simp only [hlen]; omega⟩ hr]
  have htk : (d.data.take d.pos).length = d.pos := by rw [List.length_take]; omega
  refine Exists.intro _ (congrArg (fun x => Except.ok (DevOut.bytes x _)) ?_)
  simp only [Spec.unread, Spec.overwrite, List.append_assoc]
  rw [List.drop_append, List.drop_eq_nil_of_le (by omega), htk]
  simp

theorem copyTo_eq (chunk : Nat) (hc : 0 < chunk) (f : Nat) (d : MemDev) (h : Spec.Inside d)
    (acc : Bytes) (hf : d.data.length - d.pos < f) :
    d.copyTo chunk f acc = (.ok (acc ++ d.data.drop d.pos), { d with pos := d.data.length }) := by
  induction f generalizing d acc with
  | zero => omega
  | succ f ih =>
    unfold MemDev.copyTo
    rw [readBuffer_eq d h]
    obtain ⟨h1, h2⟩ := h
    by_cases he : d.data.length - d.pos ≤ chunk
    · have hk : d.pos + min chunk (d.data.length - d.pos) = d.data.length := by omega
      simp only [hk, beq_self_eq_true, if_true]
      rw [List.take_of_length_le (by simp; omega)]
    · have hk : d.pos + min chunk (d.data.length - d.pos) = d.pos + chunk := by omega
      simp only [hk]
      rw [if_neg (by simp; omega)]
      rw [ih { d with pos := d.pos + chunk } ⟨by simp only; omega, h2⟩ _ (by simp only; omega)]
      simp only [Prod.mk.injEq, Except.ok.injEq, and_true]
      rw [List.append_assoc, ← List.drop_drop, List.take_append_drop]

/-- **C61** (copying). After any history, copying the rest of a memory device gives exactly the
bytes after the position, in order, whatever the size of the internal buffer. -/
theorem C61_copy_all (d0 : MemDev) (h0 : Spec.Inside d0) (ops : List DevOp)
    (hops : Spec.DevCalls d0 ops) (chunk : Nat) (hc : 0 < chunk) :
    let d := d0.run ops
    ∃ f, d.copyTo chunk f [] = (.ok (d.data.drop d.pos), { d with pos := d.data.length }) := by
  intro d
  refine ⟨d.data.length - d.pos + 1, ?_⟩
  rw [copyTo_eq chunk hc _ d (run_inside d0 h0 ops hops) [] (by omega)]
  rfl

theorem copyToN_eq (chunk : Nat) (hc : 0 < chunk) (f : Nat) (d : MemDev) (h : Spec.Inside d)
    (n : Nat) (acc : Bytes) (hf : n < f) :
    d.copyToN chunk f n acc = (.ok (acc ++ (d.data.drop d.pos).take n),
      { d with pos := d.pos + min n (d.data.length - d.pos) }) := by
  induction f generalizing d acc n with
  | zero => omega
  | succ f ih =>
    unfold MemDev.copyToN
    rw [readBuffer_eq d h]
    obtain ⟨h1, h2⟩ := h
    have htl : (List.take (min chunk n) (List.drop d.pos d.data)).length =
        min (min chunk n) (d.data.length - d.pos) := by simp
    simp only [htl]
    by_cases hgo : n - min (min chunk n) (d.data.length - d.pos) > 0 ∧
        (d.pos + min (min chunk n) (d.data.length - d.pos) == d.data.length) = false
    · rw [if_pos hgo]
      have hlt : d.pos + min (min chunk n) (d.data.length - d.pos) ≠ d.data.length := by
        simpa using hgo.2
      have hmin : min (min chunk n) (d.data.length - d.pos) = chunk := by omega
      rw [hmin]
      rw [ih { d with pos := d.pos + chunk } ⟨by simp only; omega, h2⟩ _ _ (by omega)]
      simp only [Prod.mk.injEq, Except.ok.injEq, MemDev.mk.injEq, true_and, and_true]
      constructor
      · rw [List.append_assoc, show min chunk n = chunk by omega]
        congr 1
        rw [← List.drop_drop]
        conv => rhs; rw [show n = chunk + (n - chunk) by omega, List.take_add]
      · omega
    · rw [if_neg hgo]
      have hd : n ≤ min (min chunk n) (d.data.length - d.pos) ∨
          d.pos + min (min chunk n) (d.data.length - d.pos) = d.data.length := by
        by_cases hx : n ≤ min (min chunk n) (d.data.length - d.pos)
        · exact Or.inl hx
        · right
          have : ¬ (d.pos + min (min chunk n) (d.data.length - d.pos) == d.data.length) = false :=
            fun e => hgo ⟨by omega, e⟩
          simpa using this
      rcases hd with hx | hx
      · have e1 : min chunk n = n := by omega
        simp only [e1]
      · simp only [Prod.mk.injEq, Except.ok.injEq, MemDev.mk.injEq, true_and, and_true]
        refine ⟨?_, by omega⟩
        rw [List.take_of_length_le (by simp; omega), List.take_of_length_le (by simp; omega)]

/-- **C61** (copying a number of bytes). After any history, copying `n` bytes gives the next `n`
bytes, or all that are left, and leaves the position behind them. -/
theorem C61_copy_count (d0 : MemDev) (h0 : Spec.Inside d0) (ops : List DevOp)
    (hops : Spec.DevCalls d0 ops) (chunk : Nat) (hc : 0 < chunk) (n : Nat) :
    let d := d0.run ops
    ∃ f, d.copyToN chunk f n [] = (.ok ((d.data.drop d.pos).take n),
      { d with pos := d.pos + min n (d.data.length - d.pos) }) := by
  intro d
  refine ⟨n + 1, ?_⟩
  rw [copyToN_eq chunk hc _ d (run_inside d0 h0 ops hops) n [] (by omega)]
  rfl

/-- Non-vacuity: a history with refused and accepted calls that satisfies the hypotheses. -/
example : Spec.Inside (MemDev.ofContainer [1, 2, 3] true true true) ∧
    Spec.DevCalls (MemDev.ofContainer [1, 2, 3] true true true)
      [.seek (-2) .fromEnd, .read 1, .write [7, 8, 9], .seek 9 .begin, .seek (-9) .current] ∧
    ((MemDev.ofContainer [1, 2, 3] true true true).run
      [.seek (-2) .fromEnd, .read 1, .write [7, 8, 9], .seek 9 .begin, .seek (-9) .current]).data =
      [1, 2, 7, 8, 9] := by
  refine ⟨by simp [Spec.Inside, MemDev.ofContainer], ?_, by decide +kernel⟩
  simp [Spec.DevCalls, Spec.DevCall]
  decide +kernel

/-! ## The null device -/

/-- `NullStreamDevice`, PdfStreamDevice.cpp 453-509: only a length and a position. -/
structure NullDev where
  len : Nat
  pos : Nat
deriving Repr, DecidableEq

/-- `NullStreamDevice::writeBuffer`, PdfStreamDevice.cpp 479-485. Sums below 2⁶⁴. -/
def NullDev.write (d : NullDev) (n : Nat) : NullDev :=
  if d.pos + n > d.len then ⟨d.pos + n, d.pos + n⟩ else { d with pos := d.pos + n }

/-- `NullStreamDevice::readChar`, PdfStreamDevice.cpp 496-504: false in both cases. -/
def NullDev.readChar (d : NullDev) : Bool × NullDev :=
  if d.pos = d.len then (false, d) else (false, { d with pos := d.pos + 1 })

/-- `NullStreamDevice::readBuffer`, PdfStreamDevice.cpp 487-494: number of bytes, eof. -/
def NullDev.read (d : NullDev) (n : Nat) : Nat × Bool × NullDev :=
  let p := min d.len (d.pos + n)
  (p - d.pos, p == d.len, { d with pos := p })

/-- `NullStreamDevice::peek`, PdfStreamDevice.cpp 458-462. -/
def NullDev.peek (d : NullDev) : Bool := d.len != d.pos

/-- `StreamDeviceBase::Seek`, PdfStreamDeviceBase.cpp 28-34: `CanSeek` (46-49) is not overridden. -/
def NullDev.seek (d : NullDev) (_off : Int) (_dir : SeekDir) : Res Unit × NullDev :=
  (raise .InvalidDeviceOperation, d)

/-- Calls on a null device. -/
inductive NullOp
  | write (n : Nat) | read (n : Nat) | char | seek (off : Int) (dir : SeekDir)
deriving Repr, DecidableEq

/-- One call. -/
def NullDev.step (d : NullDev) : NullOp → NullDev
  | .write n => d.write n
  | .read n => (d.read n).2.2
  | .char => d.readChar.2
  | .seek off dir => (d.seek off dir).2

/-- The bytes a sequence of calls writes. -/
def Spec.written : List NullOp → Nat
  | [] => 0
  | .write n :: ops => n + Spec.written ops
  | _ :: ops => Spec.written ops

/-- Reachable null devices stand at their end: every write moves to the end and nothing can move back. -/
theorem null_step_atEnd (d : NullDev) (h : d.pos = d.len) (op : NullOp) :
    (d.step op).pos = (d.step op).len ∧ (d.step op).len = d.len + Spec.written [op] := by
  cases op with
  | write n =>
    simp only [NullDev.step, NullDev.write, Spec.written]
    split
    · simp; omega
    · simp only; omega
  | read n => simp only [NullDev.step, NullDev.read, Spec.written]; omega
  | char => simp [NullDev.step, NullDev.readChar, h, Spec.written]
  | seek off dir => simp [NullDev.step, NullDev.seek, h, Spec.written]

/-- **C85**. A null device counts: after any sequence of calls its length and position are the
number of bytes written to it. -/
theorem C85_null_counts (ops : List NullOp) :
    (ops.foldl NullDev.step ⟨0, 0⟩).len = Spec.written ops ∧
    (ops.foldl NullDev.step ⟨0, 0⟩).pos = Spec.written ops := by
  have key : ∀ (ops : List NullOp) (d : NullDev), d.pos = d.len →
      (ops.foldl NullDev.step d).len = d.len + Spec.written ops ∧
      (ops.foldl NullDev.step d).pos = d.len + Spec.written ops := by
    intro ops
    induction ops with
    | nil => intro d h; simp [Spec.written, h]
    | cons op ops ih =>
      intro d h
      obtain ⟨h1, h2⟩ := null_step_atEnd d h op
      obtain ⟨i1, i2⟩ := ih _ h1
      have e : Spec.written (op :: ops) = Spec.written [op] + Spec.written ops := by
        cases op <;> simp [Spec.written]
      simp only [List.foldl_cons]
      rw [i1, i2, h2, e]
      omega
  simpa using key ops ⟨0, 0⟩ rfl

/-- **C85** (cannot go back). Every seek is refused, so nothing written to a null device can be read:
after any sequence of calls, reads of every kind report the end. -/
theorem C85_null_never_readable (ops : List NullOp) (n : Nat) :
    let d := ops.foldl NullDev.step ⟨0, 0⟩
    d.read n = (0, true, d) ∧ d.readChar = (false, d) ∧ d.peek = false ∧
    ∀ off dir, d.seek off dir = (raise .InvalidDeviceOperation, d) := by
  intro d
  obtain ⟨h1, h2⟩ := C85_null_counts ops
  have h : d.pos = d.len := by show (ops.foldl NullDev.step ⟨0, 0⟩).pos = _; rw [h1, h2]
  refine ⟨?_, by simp [NullDev.readChar, h], by simp [NullDev.peek, h], fun _ _ => rfl⟩
  have e : min d.len (d.len + n) = d.len := by omega
  have hd : (⟨d.len, d.len⟩ : NullDev) = d := by
    obtain ⟨l, p⟩ := d
    simp only at h
    rw [h]
  simp [NullDev.read, h, e, hd]

/-- Non-vacuity: ten bytes written in two calls with a refused seek between. -/
example : ([NullOp.write 4, .seek 0 .begin, .write 6, .char].foldl NullDev.step ⟨0, 0⟩).len = 10 := by
  decide +kernel

end Pdfmm
