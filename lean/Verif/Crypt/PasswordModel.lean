import Verif.Base.Basic
/-
The encryption dictionary and the passwords: `PdfEncryptMD5Base`, `PdfEncryptRC4`, `PdfEncryptAESV2`.
-/
set_option autoImplicit false
namespace Pdfmm

/-- The functions taken from OpenSSL: MD5, and RC4 of data with a key. -/
structure Crypto where
  md5 : Bytes → Bytes
  rc4 : Bytes → Bytes → Bytes

/-- `padding`, `src/pdfmm/base/PdfEncrypt.cpp:426-427`. -/
def padding : Bytes :=
  [0x28, 0xBF, 0x4E, 0x5E, 0x4E, 0x75, 0x8A, 0x41, 0x64, 0x00, 0x4E, 0x56, 0xFF, 0xFA, 0x01, 0x08,
   0x2E, 0x2E, 0x00, 0xB6, 0xD0, 0x68, 0x3E, 0x80, 0x2F, 0x0C, 0xA9, 0xFE, 0x64, 0x53, 0x69, 0x7A]

/-- `PadPassword`, `src/pdfmm/base/PdfEncrypt.cpp:637-650`. -/
def padPassword (pw : Bytes) : Bytes := pw.take 32 ++ padding.take (32 - (pw.take 32).length)

/-- `RC4`, `src/pdfmm/base/PdfEncrypt.cpp:889-918`, for output of the size of the input.  OpenSSL refuses a key length of 0. -/
def callRc4 (C : Crypto) (key data : Bytes) : Res Bytes := if key = [] then raise .InternalLogic else .ok (C.rc4 key data)

/-- MD5 of the first `n` bytes of the digest, a number of times, `src/pdfmm/base/PdfEncrypt.cpp:687-699,781-797`. -/
def rehash (C : Crypto) (n : Nat) : Nat → Bytes → Bytes
  | 0, d => d
  | k + 1, d => rehash C n k (C.md5 (d.take n))

/-- RC4 with the keys made of `key` and each of the numbers in turn, `src/pdfmm/base/PdfEncrypt.cpp:701-711,825-833`. -/
def rc4Steps (C : Crypto) (key : Bytes) : List Nat → Bytes → Res Bytes
  | [], d => .ok d
  | i :: is, d =>
    match callRc4 C (key.map (· ^^^ UInt8.ofNat i)) d with
    | .error e => .error e
    | .ok d' => rc4Steps C key is d'

/-- `ComputeOwnerKey`, `src/pdfmm/base/PdfEncrypt.cpp:666-715`.  The key length is at most 16: the digest and `mkey` have 16 bytes. -/
def computeOwnerKey (C : Crypto) (userPad ownerPad : Bytes) (keyLength : Nat) (revision : Int) (authenticate : Bool) : Res Bytes :=
  if revision = 3 ∨ revision = 4 then
    if 16 < keyLength then .error .ub
    else rc4Steps C ((rehash C keyLength 50 (C.md5 ownerPad)).take keyLength)
      (if authenticate then (List.range 20).map (fun i => 19 - i) else List.range 20) userPad
  else callRc4 C ((C.md5 ownerPad).take 5) userPad

/-- The four bytes of the permissions, `src/pdfmm/base/PdfEncrypt.cpp:737-741`. -/
def permBytes (p : UInt32) : Bytes := [p.toUInt8, (p >>> 8).toUInt8, (p >>> 16).toUInt8, (p >>> 24).toUInt8]

/-- The members set by `ComputeEncryptionKey`: `m_keyLength`, `m_encryptionKey` and the user key. -/
structure KeyOut where
  keyLength : Nat
  key : Bytes
  userKey : Bytes

/-- `(int)keyLength / 8` stored as `unsigned`, `src/pdfmm/base/PdfEncrypt.cpp:724,1093`. -/
def keyBytes (bits : Int) : Nat := ((bits.tdiv 8) % 4294967296).toNat

/-- `ComputeEncryptionKey`, `src/pdfmm/base/PdfEncrypt.cpp:717-840`.  A key length above 16 reads beyond the digest. -/
def computeEncryptionKey (C : Crypto) (docId userPad ownerKey : Bytes) (p : UInt32) (bits : Int) (revision : Int) (encryptMetadata : Bool) : Res KeyOut :=
  if 16 < keyBytes bits then .error .ub
  else
    let d0 := C.md5 (userPad ++ ownerKey ++ permBytes p ++ docId ++ (if encryptMetadata then [] else [255, 255, 255, 255]))
    if revision = 3 ∨ revision = 4 then
      let key := (rehash C (keyBytes bits) 50 d0).take (keyBytes bits)
      match rc4Steps C key (List.range 20) (C.md5 (padding ++ docId)) with
      | .error e => .error e
      | .ok u => .ok ⟨keyBytes bits, key, u ++ List.replicate 16 0⟩
    else
      match callRc4 C (d0.take (keyBytes bits)) padding with
      | .error e => .error e
      | .ok u => .ok ⟨keyBytes bits, d0.take (keyBytes bits), u⟩

/-- The algorithms up to AES-128, `src/pdfmm/base/PdfEncrypt.h:89-99`. -/
inductive CryptAlg
  | rc4v1 | rc4v2 | aesv2
  deriving DecidableEq

/-- The members of `PdfEncrypt`, `src/pdfmm/base/PdfEncrypt.h:389-400`, as far as these algorithms use them. -/
structure Enc where
  alg : CryptAlg
  /-- `m_eKeyLength`, in bits -/
  bits : Int
  keyLength : Nat
  r : Int
  p : UInt32
  u : Bytes
  o : Bytes
  key : Bytes
  docId : Bytes
  userPass : Bytes
  ownerPass : Bytes
  encryptMetadata : Bool

/-- `PERMS_DEFAULT`, `src/pdfmm/base/PdfEncrypt.cpp:80`. -/
def permsDefault : UInt32 := 0xFFFFF0C0

/-- The key length in bytes for RC4 version 2, `src/pdfmm/base/PdfEncrypt.cpp:1121-1124`. -/
def rc4v2Bytes (bits : Int) : Nat :=
  let i := bits - bits.tmod 8
  ((if i ≥ 40 then (if i ≤ 128 then i else 128) else 40).tdiv 8).toNat

/-- `PdfEncrypt::Create`, `src/pdfmm/base/PdfEncrypt.cpp:429-452` with the constructors `:1106-1158,1322-1342`. -/
def Enc.create (user owner : Bytes) (protection : UInt32) (alg : CryptAlg) (bits : Int) : Enc :=
  match alg with
  | .rc4v2 => ⟨.rc4v2, bits, rc4v2Bytes bits, 3, permsDefault ||| protection, [], [], [], [], user, owner, true⟩
  | .rc4v1 => ⟨.rc4v1, bits, 5, 2, permsDefault ||| protection, [], [], [], [], user, owner, true⟩
  | .aesv2 => ⟨.aesv2, 128, 16, 4, permsDefault ||| protection, [], [], [], [], user, owner, true⟩

/-- `GenerateEncryptionKey`, `src/pdfmm/base/PdfEncrypt.cpp:1000-1017,1238-1255`. -/
def Enc.generate (C : Crypto) (e : Enc) (docId : Bytes) : Res Enc :=
  match computeOwnerKey C (padPassword e.userPass) (padPassword e.ownerPass) e.keyLength e.r false with
  | .error x => .error x
  | .ok o =>
    match computeEncryptionKey C docId (padPassword e.userPass) o e.p e.bits e.r e.encryptMetadata with
    | .error x => .error x
    | .ok k => .ok { e with o := o, docId := docId, keyLength := k.keyLength, key := k.key, u := k.userKey }

/-- The entries of the encryption dictionary that are read, when they are direct and of the right type. -/
structure EncDict where
  filter : Option Bytes
  v : Option Int
  r : Option Int
  p : Option Int
  o : Option Bytes
  u : Option Bytes
  length : Option Int
  encryptMetadata : Option Bool
  /-- the /CFM entry of the crypt filter named by /StmF -/
  cfm : Option Bytes

/-- The name `Standard`. -/
def nStandard : Bytes := [83, 116, 97, 110, 100, 97, 114, 100]
/-- The name `V2`. -/
def nV2 : Bytes := [86, 50]
/-- The name `AESV2`. -/
def nAesV2 : Bytes := [65, 69, 83, 86, 50]

/-- The permissions as a number: the enumeration is an `int`. -/
def permNumber (p : UInt32) : Int := if p.toNat < 2147483648 then (p.toNat : Int) else (p.toNat : Int) - 4294967296

/-- A number as permissions, `src/pdfmm/base/PdfEncrypt.cpp:481`. -/
def numberPerm (n : Int) : UInt32 := UInt32.ofNat (n % 4294967296).toNat

/-- `CreateEncryptionDictionary`, `src/pdfmm/base/PdfEncrypt.cpp:951-998`. -/
def Enc.toDict (e : Enc) : EncDict :=
  if e.alg = .aesv2 ∨ e.encryptMetadata = false then
    ⟨some nStandard, some 4, some 4, some (permNumber e.p), some e.o, some e.u, some 128, (if e.encryptMetadata then none else some false),
      some (if e.alg = .rc4v2 then nV2 else nAesV2)⟩
  else
    match e.alg with
    | .rc4v1 => ⟨some nStandard, some 1, some e.r, some (permNumber e.p), some e.o, some e.u, none, none, none⟩
    | _ => ⟨some nStandard, some 2, some 3, some (permNumber e.p), some e.o, some e.u, some e.bits, none, none⟩

/-- `std::memcpy` of 32 bytes of a string, `src/pdfmm/base/PdfEncrypt.cpp:1095-1096,1356-1357`. -/
def copy32 (b : Bytes) : Res Bytes := if b.length < 32 then .error .ub else .ok (b.take 32)

/-- The constructors from the entries of a dictionary, `src/pdfmm/base/PdfEncrypt.cpp:1086-1104,1347-1363`. -/
def Enc.load (alg : CryptAlg) (bits : Int) (r : Int) (o u : Bytes) (p : UInt32) (em : Bool) : Res Enc :=
  match copy32 o with
  | .error e => .error e
  | .ok o =>
    match copy32 u with
    | .error e => .error e
    | .ok u => .ok ⟨alg, bits, keyBytes bits, r, p, u, o, List.replicate 32 0, [], [], [], em⟩

/-- A number cut to `int`, `src/pdfmm/base/PdfEncrypt.cpp:532`. -/
def cutInt (n : Int) : Int := if n % 4294967296 < 2147483648 then n % 4294967296 else n % 4294967296 - 4294967296

/-- A key that has to be there. -/
def must {α : Type} : Option α → Res α
  | none => raise .NoObject
  | some x => .ok x

/-- `PdfEncrypt::CreateFromObject`, `src/pdfmm/base/PdfEncrypt.cpp:454-558`, when all algorithms up to AES-128 are enabled; without libidn.
/V, /R and /P are taken to be in the range of `int`. -/
def Enc.fromDict (d : EncDict) : Res Enc :=
  if d.filter ≠ some nStandard then raise .UnsupportedFilter
  else
    match must d.v, must d.r, must d.p, must d.o, must d.u with
    | .ok v, .ok r, .ok p, .ok o, .ok u =>
      let em := d.encryptMetadata.getD true
      if v = 1 ∧ (r = 2 ∨ r = 3) then Enc.load .rc4v1 40 r o u (numberPerm p) em
      else if (v = 2 ∧ r = 3) ∨ d.cfm = some nV2 then
        if d.length.getD 0 > 128 then raise .ValueOutOfRange
        else Enc.load .rc4v2 (cutInt (d.length.getD 0)) r o u (numberPerm p) em
      else if v = 4 ∧ r = 4 then Enc.load .aesv2 128 4 o u (numberPerm p) em
      else raise .UnsupportedFilter
    | _, _, _, _, _ => raise .NoObject

/-- `CheckKey`, `src/pdfmm/base/PdfEncrypt.cpp:608-616`. -/
def checkKey (n : Nat) (a b : Bytes) : Bool := a.take n == b.take n

/-- A password tried as user password, `src/pdfmm/base/PdfEncrypt.cpp:1026-1034,1261-1269`: whether it fits, and the members afterwards. -/
def Enc.tryUser (C : Crypto) (e : Enc) (userPad docId : Bytes) : Res (Bool × Enc) :=
  match computeEncryptionKey C docId userPad e.o e.p e.bits e.r e.encryptMetadata with
  | .error x => .error x
  | .ok k => .ok (checkKey k.keyLength k.userKey e.u, { e with docId := docId, keyLength := k.keyLength, key := k.key })

/-- `Authenticate`, `src/pdfmm/base/PdfEncrypt.cpp:1019-1048,1257-1285`. -/
def Enc.authenticate (C : Crypto) (e : Enc) (pw docId : Bytes) : Res (Bool × Enc) :=
  match e.tryUser C (padPassword pw) docId with
  | .error x => .error x
  | .ok (true, e1) => .ok (true, { e1 with userPass := pw })
  | .ok (false, e1) =>
    match computeOwnerKey C e1.o (padPassword pw) e1.keyLength e1.r true with
    | .error x => .error x
    | .ok userPad =>
      match e1.tryUser C userPad docId with
      | .error x => .error x
      | .ok (true, e2) => .ok (true, { e2 with ownerPass := pw })
      | .ok (false, e2) => .ok (false, e2)

end Pdfmm
