import Verif.Crypt.PasswordModel
/-
Encryption of strings and streams: the key of an object, RC4 and AES of whole buffers, and the stream that decrypts AES while it is read.
-/
set_option autoImplicit false
namespace Pdfmm

/-- AES of one block of 16 bytes, taken from OpenSSL: key and block. -/
structure BlockAes where
  enc : Bytes → Bytes → Bytes
  dec : Bytes → Bytes → Bytes

/-- Byte by byte. -/
def xorBytes (a b : Bytes) : Bytes := a.zipWith (· ^^^ ·) b

/-- Cipher block chaining of a number of blocks (OpenSSL). -/
def cbcEnc (E : Bytes → Bytes) : Nat → Bytes → Bytes → Bytes
  | 0, _, _ => []
  | k + 1, prev, d => E (xorBytes (d.take 16) prev) ++ cbcEnc E k (E (xorBytes (d.take 16) prev)) (d.drop 16)

/-- The reverse (OpenSSL). -/
def cbcDec (D : Bytes → Bytes) : Nat → Bytes → Bytes → Bytes
  | 0, _, _ => []
  | k + 1, prev, d => xorBytes (D (d.take 16)) prev ++ cbcDec D k (d.take 16) (d.drop 16)

/-- The padding of OpenSSL (PKCS #7): as many bytes as are missing to the next multiple of 16, each with that number. -/
def pkcsPad (n : Nat) : Bytes := List.replicate (16 - n % 16) (UInt8.ofNat (16 - n % 16))

/-- `BaseEncrypt` for a key of 16 bytes, `src/pdfmm/base/PdfEncrypt.cpp:1204-1233`: `EVP_EncryptUpdate` and `EVP_EncryptFinal_ex`. -/
def baseEncrypt (A : BlockAes) (key iv data : Bytes) : Res Bytes :=
  if key.length ≠ 16 then raise .InternalLogic
  else .ok (cbcEnc (A.enc key) (data.length / 16 + 1) iv (data ++ pkcsPad data.length))

/-- The state of OpenSSL between calls of `EVP_DecryptUpdate`: the last block that was decrypted, and the data that were not. -/
structure DecCtx where
  prev : Bytes
  pending : Bytes

/-- How many bytes of `n` are decrypted: whole blocks, but the last one is held back. -/
def heldBack (n : Nat) : Nat := (n - 1) / 16 * 16

/-- `EVP_DecryptUpdate`. -/
def decUpdate (D : Bytes → Bytes) (c : DecCtx) (input : Bytes) : Bytes × DecCtx :=
  let t := c.pending ++ input
  let n := heldBack t.length
  (cbcDec D (n / 16) c.prev (t.take n), ⟨if n = 0 then c.prev else (t.take n).drop (n - 16), t.drop n⟩)

/-- The data without padding; `none` when the padding is wrong. -/
def unpad (b : Bytes) : Option Bytes :=
  let p := (b.getLastD 0).toNat
  if p = 0 ∨ 16 < p then none
  else if b.drop (16 - p) = List.replicate p (UInt8.ofNat p) then some (b.take (16 - p)) else none

/-- `EVP_DecryptFinal_ex`: `none` for an error. -/
def decFinal (D : Bytes → Bytes) (c : DecCtx) : Option Bytes :=
  if c.pending.length ≠ 16 then none else unpad (xorBytes (D c.pending) c.prev)

/-- `BaseDecrypt` for a key of 16 bytes, `src/pdfmm/base/PdfEncrypt.cpp:1171-1202`. -/
def baseDecrypt (A : BlockAes) (key iv data : Bytes) : Res Bytes :=
  if data.length % 16 ≠ 0 then raise .InternalLogic
  else if key.length ≠ 16 then raise .InternalLogic
  else
    match decUpdate (A.dec key) ⟨iv, []⟩ data with
    | (out, c) =>
      match decFinal (A.dec key) c with
      | none => raise .InternalLogic
      | some last => .ok (out ++ last)

/-- `CreateObjKey`, `src/pdfmm/base/PdfEncrypt.cpp:842-870`: object number and generation.  `m_encryptionKey` has at least `m_keyLength` bytes, at most 16 of which are used. -/
def objKey (C : Crypto) (e : Enc) (n g : Nat) : Bytes :=
  (C.md5 (e.key.take e.keyLength ++ [UInt8.ofNat n, UInt8.ofNat (n / 256), UInt8.ofNat (n / 65536), UInt8.ofNat g, UInt8.ofNat (g / 256)] ++
    (if e.alg = .aesv2 then [0x73, 0x41, 0x6C, 0x54] else []))).take (if e.keyLength ≤ 11 then e.keyLength + 5 else 16)

/-- `CalculateStreamLength`, `src/pdfmm/base/PdfEncrypt.cpp:1054-1057,1364-1371`, without overflow. -/
def Enc.streamLength (e : Enc) (n : Nat) : Nat :=
  if e.alg = .aesv2 then (n + 15) / 16 * 16 + 16 + (if n % 16 = 0 then 16 else 0) else n

/-- `EncryptTo`, `src/pdfmm/base/PdfEncrypt.cpp:1885-1890` with `Encrypt` of RC4 and AES, `:1059-1067,1289-1299`.  The initial vector is the digest of the document id (`:936-940`).
The buffer is resized to `CalculateStreamLength`: writing more than that is undefined, and bytes that are not written stay zero. -/
def Enc.encryptTo (C : Crypto) (A : BlockAes) (e : Enc) (n g : Nat) (data : Bytes) : Res Bytes :=
  let put (out : Bytes) : Res Bytes :=
    if e.streamLength data.length < out.length then .error .ub
    else .ok (out ++ List.replicate (e.streamLength data.length - out.length) 0)
  if e.alg = .aesv2 then
    match baseEncrypt A (objKey C e n g) (C.md5 e.docId) data with
    | .error x => .error x
    | .ok c => put (C.md5 e.docId ++ c)
  else
    match callRc4 C (objKey C e n g) data with
    | .error x => .error x
    | .ok c => put c

/-- `DecryptTo`, `src/pdfmm/base/PdfEncrypt.cpp:1892-1903` with `Decrypt`, `:1069-1073,1301-1319`.  The buffer is large enough: its size is that of the data
without the initial vector, rounded up. -/
def Enc.decryptTo (C : Crypto) (A : BlockAes) (e : Enc) (n g : Nat) (data : Bytes) : Res Bytes :=
  if e.alg = .aesv2 then
    if data.length ≤ 16 then .ok []
    else baseDecrypt A (objKey C e n g) (data.take 16) (data.drop 16)
  else callRc4 C (objKey C e n g) data

/-! ### The stream that decrypts -/

/-- The members of `PdfAESInputStream`, `src/pdfmm/base/PdfEncrypt.cpp:386-395`, and what is left on the device. -/
structure AesIn where
  src : Bytes
  inputLen : Nat
  inputEof : Bool
  init : Bool
  ctx : DecCtx
  temp : Bytes
  drainLeft : Nat

/-- The constructor, `src/pdfmm/base/PdfEncrypt.cpp:276-290`. -/
def AesIn.new (src : Bytes) (inputLen : Nat) : AesIn := ⟨src, inputLen, false, true, ⟨[], []⟩, [], 18446744073709551615⟩

/-- `DrainBuffer`, `src/pdfmm/base/PdfEncrypt.cpp:375-383`: the bytes returned, the end flag if it is set, and the members. -/
def AesIn.drain (s : AesIn) (len : Nat) (out : Bytes) : Bytes × Option Bool × AesIn :=
  let d := min ((len + 18446744073709551616 - out.length) % 18446744073709551616) s.drainLeft
  (out ++ s.temp.take d, (if s.drainLeft - d = 0 then some true else none), { s with drainLeft := s.drainLeft - d })

/-- Reading and decrypting, `src/pdfmm/base/PdfEncrypt.cpp:344-374`.  The device is a memory device: it gives what is asked for, or all that is left, and reports the end when
nothing is left. -/
def AesIn.fill (D : Bytes → Bytes) (s : AesIn) (len : Nat) : Res (Bytes × Option Bool × AesIn) :=
  let read := s.src.take (min len s.inputLen)
  let src := s.src.drop (min len s.inputLen)
  match decUpdate D s.ctx read with
  | (out, ctx) =>
    if s.inputLen - read.length = 0 ∨ src = [] then
      match decFinal D ctx with
      | none => raise .InternalLogic
      | some last => .ok (AesIn.drain ⟨src, s.inputLen - read.length, true, s.init, ctx, last, last.length⟩ len out)
    else .ok (out, none, ⟨src, s.inputLen - read.length, s.inputEof, s.init, ctx, s.temp, s.drainLeft⟩)

/-- `readBuffer`, `src/pdfmm/base/PdfEncrypt.cpp:298-384`, for a key of 16 bytes: the bytes written to the buffer, the end flag if it is set, and the members.
Nothing stops it from writing more than `len` bytes (the assertion is only there in debug builds). -/
def AesIn.readBuffer (D : Bytes → Bytes) (s : AesIn) (len : Nat) : Res (Bytes × Option Bool × AesIn) :=
  if s.inputEof then .ok (s.drain len [])
  else if s.init then
    if s.src.length < 16 then raise .UnexpectedEOF
    else
      AesIn.fill D ⟨s.src.drop 16, (s.inputLen + 18446744073709551616 - 16) % 18446744073709551616, false, false, ⟨s.src.take 16, []⟩, s.temp, s.drainLeft⟩ len
  else s.fill D len

/-- The loop of `CopyTo(stream, size)`, `src/pdfmm/base/PdfInputStream.cpp:89-103`, with its buffer of 4096 bytes.  `eof` is what the variable holds; it is not
initialised, `none` stands for that, and reading it is undefined. -/
def AesIn.copyTo (D : Bytes → Bytes) : Nat → AesIn → Option Bool → Nat → Bytes → Res Bytes
  | 0, _, _, _, _ => .error .diverge
  | f + 1, s, eof, size, acc =>
    match s.readBuffer D (min 4096 size) with
    | .error x => .error x
    | .ok (b, set, s') =>
      if 4096 < b.length then .error .ub
      else
        let size := (size + 18446744073709551616 - b.length) % 18446744073709551616
        let eof := set <|> eof
        if size > 0 then
          match eof with
          | none => .error .ub
          | some true => .ok (acc ++ b)
          | some false => AesIn.copyTo D f s' eof size (acc ++ b)
        else .ok (acc ++ b)

/-- The loop of `Read(buffer, size, eof)`, `src/pdfmm/base/PdfInputStream.cpp:56-72`: writing beyond the buffer is undefined. -/
def AesIn.read (D : Bytes → Bytes) : Nat → AesIn → Option Bool → Nat → Bytes → Res (Bytes × Option Bool × AesIn)
  | 0, _, _, _, _ => .error .diverge
  | f + 1, s, eof, size, acc =>
    match s.readBuffer D (size - acc.length) with
    | .error x => .error x
    | .ok (b, set, s') =>
      if size < (acc ++ b).length then .error .ub
      else if (acc ++ b).length = size then .ok (acc ++ b, set <|> eof, s')
      else
        match (set <|> eof) with
        | none => .error .ub
        | some true => .ok (acc ++ b, some true, s')
        | some false => AesIn.read D f s' (some false) size (acc ++ b)

end Pdfmm
