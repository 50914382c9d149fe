import Verif.Crypt.Password
import Verif.Crypt.AesProps
/-
AES-256 encryption (version 5, revisions 5 and 6): the keys made from the passwords, the encryption dictionary and the authentication of a password.
-/
set_option autoImplicit false
namespace Pdfmm

/-! ### Model -/

/-- The digests taken from OpenSSL and the preparation of passwords taken from libidn (`stringprep_profile` with `SASLprep`; `none` for an error). -/
structure Prims256 where
  sha256 : Bytes → Bytes
  sha384 : Bytes → Bytes
  sha512 : Bytes → Bytes
  prep : Bytes → Option Bytes

/-- A string handed over as a C string: it ends before the first zero byte. -/
def cString (b : Bytes) : Bytes := b.takeWhile (· != 0)

/-- `PreprocessPassword`, `src/pdfmm/base/PdfEncrypt.cpp:1575-1590`: both the argument and the result of `stringprep_profile` are C strings. -/
def prepPassword (H : Prims256) (pw : Bytes) : Res Bytes :=
  match H.prep (cString pw) with
  | none => raise .InvalidPassword
  | some s => .ok ((cString s).take 127)

/-- The choice of the digest, `src/pdfmm/base/PdfEncrypt.cpp:1452-1474`. -/
def shaBySum (H : Prims256) (data : Bytes) : Bytes :=
  let sum := ((data.take 16).map UInt8.toNat).sum
  let blockLen := 32 + sum % 3 * 16
  if blockLen = 32 then H.sha256 data else if blockLen = 48 then H.sha384 data else H.sha512 data

/-- The loop of `ComputeHash`, `src/pdfmm/base/PdfEncrypt.cpp:1437-1476`.  `u` is empty when no user value is given, `last` is `data[dataLen - 1]` and is not looked at
before there are data.  `data` has room for `(127 + 64 + 48) * 64` bytes: writing more is undefined. -/
def hashLoop (H : Prims256) (A : BlockAes) (pw u : Bytes) (i : Nat) (last : UInt8) (block : Bytes) : Res Bytes :=
  if i < 64 ∨ i < 32 + last.toNat then
    if (127 + 64 + 48) * 64 < (pw ++ block ++ u).length * 64 then .error .ub
    else
      let text := (List.replicate 64 (pw ++ block ++ u)).flatten
      let data := cbcEnc (A.enc (block.take 16)) (text.length / 16) ((block.drop 16).take 16) text
      hashLoop H A pw u (i + 1) (data.getLastD 0) (shaBySum H data)
  else .ok (block.take 32)
termination_by 288 - i
decreasing_by
  have := last.toNat_lt
  omega

/-- `ComputeHash`, `src/pdfmm/base/PdfEncrypt.cpp:1415-1478`. -/
def computeHash (H : Prims256) (A : BlockAes) (r : Nat) (pw salt u : Bytes) : Res Bytes :=
  let h := H.sha256 (pw ++ salt ++ u)
  if 5 < r then hashLoop H A pw u 0 0 h else .ok h

/-- AES-256 with chained blocks, an initial vector of zero and no padding: `EVP_EncryptUpdate` of whole blocks. -/
def aesNoPad (A : BlockAes) (key data : Bytes) : Bytes := cbcEnc (A.enc key) (data.length / 16) (List.replicate 16 0) data
/-- The reverse. -/
def aesNoPadDec (A : BlockAes) (key data : Bytes) : Bytes := cbcDec (A.dec key) (data.length / 16) (List.replicate 16 0) data

/-- The members of `PdfEncryptAESV3` and its bases, `src/pdfmm/base/PdfEncrypt.h:386-400,463-466`; the key length is always 32 bytes. -/
structure Enc256 where
  r : Nat
  p : UInt32
  o : Bytes
  oe : Bytes
  u : Bytes
  ue : Bytes
  perms : Bytes
  key : Bytes
  userPass : Bytes
  ownerPass : Bytes
  encryptMetadata : Bool
deriving DecidableEq

/-- The random bytes: the file key (`src/pdfmm/base/PdfEncrypt.cpp:1592-1599`) and the salts of the user and of the owner (`:1486-1490,1534-1538`). -/
structure Rnd256 where
  key : Bytes
  userV : Bytes
  userK : Bytes
  ownerV : Bytes
  ownerK : Bytes

/-- `ComputeUserKey`, `src/pdfmm/base/PdfEncrypt.cpp:1480-1526`, and `ComputeOwnerKey`, `:1528-1573`: the value and the encrypted key.  The two differ in `u` only. -/
def computeEntry (H : Prims256) (A : BlockAes) (r : Nat) (pw vSalt kSalt u key : Bytes) : Res (Bytes × Bytes) :=
  match computeHash H A r pw vSalt u with
  | .error x => .error x
  | .ok h =>
    match computeHash H A r pw kSalt u with
    | .error x => .error x
    | .ok hk => .ok (h ++ vSalt ++ kSalt, aesNoPad A hk key)

/-- The sixteen bytes of the permissions, `src/pdfmm/base/PdfEncrypt.cpp:1678-1699`. -/
def permsBlock (p : UInt32) (encryptMetadata : Bool) : Bytes :=
  permBytes p ++ [0xFF, 0xFF, 0xFF, 0xFF] ++ [if encryptMetadata then 0x54 else 0x46] ++ [0x61, 0x64, 0x62] ++ [0, 0, 0, 0]

/-- The constructor from passwords, `src/pdfmm/base/PdfEncrypt.cpp:1813-1834` (from `Create`, `:437-444`).  The permission bytes are not set there; they are set before they are used. -/
def Enc256.create (r : Nat) (userPass ownerPass : Bytes) (protection : UInt32) : Enc256 :=
  ⟨r, permsDefault ||| protection, List.replicate 48 0, List.replicate 32 0, List.replicate 48 0, List.replicate 32 0, List.replicate 16 0, List.replicate 32 0,
    userPass, ownerPass, true⟩

/-- `GenerateEncryptionKey`, `src/pdfmm/base/PdfEncrypt.cpp:1656-1721`, with the random bytes it draws. -/
def Enc256.generate (H : Prims256) (A : BlockAes) (rnd : Rnd256) (e : Enc256) : Res Enc256 :=
  match prepPassword H e.userPass with
  | .error x => .error x
  | .ok up =>
    match prepPassword H e.ownerPass with
    | .error x => .error x
    | .ok op =>
      match computeEntry H A e.r up rnd.userV rnd.userK [] rnd.key with
      | .error x => .error x
      | .ok (u, ue) =>
        match computeEntry H A e.r op rnd.ownerV rnd.ownerK u rnd.key with
        | .error x => .error x
        | .ok (o, oe) => .ok { e with key := rnd.key, u := u, ue := ue, o := o, oe := oe, perms := aesNoPad A rnd.key (permsBlock e.p e.encryptMetadata) }

/-- The entries of the encryption dictionary that are read: `none` for one that is missing.  Entries of a wrong type are not modelled here. -/
structure Dict256 where
  filter : Option Bytes
  v : Option Int
  r : Option Int
  p : Option Int
  o : Option Bytes
  u : Option Bytes
  oe : Option Bytes
  ue : Option Bytes
  perms : Option Bytes
  /-- The method of the filter for streams. -/
  cfm : Option Bytes
deriving DecidableEq

/-- The name `AESV3`. -/
def nAesV3 : Bytes := [65, 69, 83, 86, 51]

/-- `CreateEncryptionDictionary`, `src/pdfmm/base/PdfEncrypt.cpp:1626-1654`. -/
def Enc256.toDict (e : Enc256) : Dict256 :=
  ⟨some nStandard, some 5, some (e.r : Int), some (permNumber e.p), some (e.o.take 48), some (e.u.take 48), some (e.oe.take 32), some (e.ue.take 32), some (e.perms.take 16), some nAesV3⟩

/-- `std::memcpy` of the first `n` bytes of a string: undefined when there are fewer (one byte more may be read, the terminating zero of the string). -/
def copyN (n : Nat) (b : Bytes) : Res Bytes :=
  if b.length + 1 < n then .error .ub else .ok ((b ++ [0]).take n)

/-- The constructor from the values of a file, `src/pdfmm/base/PdfEncrypt.cpp:1839-1854`. -/
def Enc256.ofValues (o oe u ue : Bytes) (p : UInt32) (perms : Bytes) (r : Nat) : Res Enc256 :=
  copyN 48 o >>= fun o => copyN 32 oe >>= fun oe => copyN 48 u >>= fun u => copyN 32 ue >>= fun ue => copyN 16 perms >>= fun perms =>
    .ok ⟨r, p, o, oe, u, ue, perms, List.replicate 32 0, [], [], true⟩

/-- `GetKey(...)->GetString()`: a missing key is a null pointer. -/
def derefKey {α : Type} : Option α → Res α
  | none => .error .ub
  | some x => .ok x

/-- `PdfEncrypt::CreateFromObject`, `src/pdfmm/base/PdfEncrypt.cpp:454-558`, when all algorithms are enabled: `none` when the document is encrypted in one of the older ways. -/
def Dict256.open (d : Dict256) : Res (Option Enc256) :=
  if d.filter ≠ some nStandard then raise .UnsupportedFilter
  else
    must d.v >>= fun v => must d.r >>= fun r => must d.p >>= fun p => must d.o >>= fun o => must d.u >>= fun u =>
      if v = 1 ∧ (r = 2 ∨ r = 3) then .ok none
      else if (v = 2 ∧ r = 3) ∨ d.cfm = some nV2 then .ok none
      else if v = 4 ∧ r = 4 then .ok none
      else if v = 5 ∧ (r = 5 ∨ r = 6) then
        derefKey d.perms >>= fun perms => derefKey d.oe >>= fun oe => derefKey d.ue >>= fun ue =>
          Enc256.ofValues o oe u ue (numberPerm p) perms r.toNat >>= fun e => .ok (some e)
      else raise .UnsupportedFilter

/-- `Authenticate`, `src/pdfmm/base/PdfEncrypt.cpp:1723-1782`, with `CheckKey`, `:608-616`: whether the password fits, and the members afterwards. -/
def Enc256.authenticate (H : Prims256) (A : BlockAes) (e : Enc256) (password : Bytes) : Res (Bool × Enc256) :=
  match prepPassword H password with
  | .error x => .error x
  | .ok pw =>
    match computeHash H A e.r pw ((e.u.drop 32).take 8) [] with
    | .error x => .error x
    | .ok h =>
      if checkKey 32 h e.u then
        match computeHash H A e.r pw ((e.u.drop 40).take 8) [] with
        | .error x => .error x
        | .ok hk => .ok (true, { e with userPass := password, key := aesNoPadDec A hk e.ue })
      else
        match computeHash H A e.r pw ((e.o.drop 32).take 8) e.u with
        | .error x => .error x
        | .ok h =>
          if checkKey 32 h e.o then
            match computeHash H A e.r pw ((e.o.drop 40).take 8) e.u with
            | .error x => .error x
            | .ok hk => .ok (true, { e with ownerPass := password, key := aesNoPadDec A hk e.oe })
          else .ok (false, e)

/-- `CalculateStreamLength`, `src/pdfmm/base/PdfEncrypt.cpp:1856-1863`, without overflow. -/
def streamLength256 (n : Nat) : Nat := (n + 15) / 16 * 16 + 16 + (if n % 16 = 0 then 16 else 0)

/-- `EncryptTo`, `src/pdfmm/base/PdfEncrypt.cpp:1885-1890`, with `Encrypt`, `:1789-1796`, and `BaseEncrypt` for a key of 32 bytes, `:1205-1233`, given the random initial vector.
The buffer has `CalculateStreamLength` bytes: writing more is undefined, and bytes that are not written stay zero. -/
def Enc256.encryptTo (A : BlockAes) (e : Enc256) (iv data : Bytes) : Res Bytes :=
  if e.key.length ≠ 32 then raise .InternalLogic
  else
    let out := iv ++ cbcEnc (A.enc e.key) (data.length / 16 + 1) iv (data ++ pkcsPad data.length)
    if streamLength256 data.length < out.length then .error .ub
    else .ok (out ++ List.replicate (streamLength256 data.length - out.length) 0)

/-- `DecryptTo`, `src/pdfmm/base/PdfEncrypt.cpp:1892-1903`, with `Decrypt`, `:1798-1811`, and `BaseDecrypt` for a key of 32 bytes, `:1171-1203`. -/
def Enc256.decryptTo (A : BlockAes) (e : Enc256) (data : Bytes) : Res Bytes :=
  if data.length ≤ 16 then .ok []
  else if (data.drop 16).length % 16 ≠ 0 then raise .InternalLogic
  else if e.key.length ≠ 32 then raise .InternalLogic
  else
    match decUpdate (A.dec e.key) ⟨data.take 16, []⟩ (data.drop 16) with
    | (out, c) =>
      match decFinal (A.dec e.key) c with
      | none => raise .InternalLogic
      | some last => .ok (out ++ last)

/-! ### Specification -/

namespace Spec

/-- All that is used of the digests: their lengths. -/
structure IsSha2 (H : Prims256) : Prop where
  l256 : ∀ b, (H.sha256 b).length = 32
  l384 : ∀ b, (H.sha384 b).length = 48
  l512 : ∀ b, (H.sha512 b).length = 64

/-- Bytes as an unsigned number, most significant first. -/
def bigEndianNum (b : Bytes) : Nat := b.foldl (fun n x => n * 256 + x.toNat) 0

/-- ISO 32000-2, algorithm 2.B: after `n` rounds the last encrypted data are `E` and the key is `K`.  A round encrypts sixty-four repetitions of password, key and user value
with AES-128, the first sixteen bytes of the key as key and the next sixteen as initial vector, takes the remainder by three of the first sixteen encrypted bytes as a number,
and hashes the encrypted data accordingly. -/
inductive After (H : Prims256) (A : BlockAes) (pw u K₀ : Bytes) : Nat → Bytes → Bytes → Prop
  | start : After H A pw u K₀ 0 [] K₀
  | round {n : Nat} {E K E' : Bytes} : After H A pw u K₀ n E K →
      E' = cbcEnc (A.enc (K.take 16)) (4 * (pw.length + K.length + u.length)) ((K.drop 16).take 16) ((List.replicate 64 (pw ++ K ++ u)).flatten) →
      After H A pw u K₀ (n + 1) E' (match bigEndianNum (E'.take 16) % 3 with | 0 => H.sha256 E' | 1 => H.sha384 E' | _ => H.sha512 E')

/-- The rounds may stop after `n`: at least sixty-four were made, and the last byte is at most `n - 32`. -/
def MayStop (n : Nat) (E : Bytes) : Prop := 64 ≤ n ∧ (E.getLastD 0).toNat ≤ n - 32

/-- The hash of a password with a salt and, for an owner, the user value: SHA-256 up to revision 5, and algorithm 2.B from revision 6 on. -/
def HashIs (H : Prims256) (A : BlockAes) (r : Nat) (pw salt u h : Bytes) : Prop :=
  (r ≤ 5 ∧ h = H.sha256 (pw ++ salt ++ u)) ∨
  (5 < r ∧ ∃ n E K, After H A pw u (H.sha256 (pw ++ salt ++ u)) n E K ∧ MayStop n E ∧
    (∀ m E' K', m < n → After H A pw u (H.sha256 (pw ++ salt ++ u)) m E' K' → ¬ MayStop m E') ∧ h = K.take 32)

/-- The password as it is hashed: prepared, at most 127 bytes. -/
def Prepared (H : Prims256) (password pw : Bytes) : Prop := ∃ s, H.prep (password.takeWhile (· != 0)) = some s ∧ pw = (s.takeWhile (· != 0)).take 127

/-- The random bytes have the lengths that are drawn. -/
structure RndOk (rnd : Rnd256) : Prop where
  key : rnd.key.length = 32
  userV : rnd.userV.length = 8
  userK : rnd.userK.length = 8
  ownerV : rnd.ownerV.length = 8
  ownerK : rnd.ownerK.length = 8

end Spec
open Spec

/-! ### The hash -/

theorem bigEndian_mod3_aux : ∀ (b : Bytes) (n : Nat), b.foldl (fun n x => n * 256 + x.toNat) n % 3 = (n + (b.map UInt8.toNat).sum) % 3
  | [], n => by simp
  | x :: b, n => by
    rw [List.foldl_cons, bigEndian_mod3_aux b, List.map_cons, List.sum_cons]
    omega

/-- The sum of the bytes has the same remainder as the number. -/
theorem bigEndian_mod3 (b : Bytes) : bigEndianNum b % 3 = (b.map UInt8.toNat).sum % 3 := by
  rw [bigEndianNum, bigEndian_mod3_aux, Nat.zero_add]

theorem shaBySum_spec (H : Prims256) (d : Bytes) :
    shaBySum H d = (match bigEndianNum (d.take 16) % 3 with | 0 => H.sha256 d | 1 => H.sha384 d | _ => H.sha512 d) := by
  rw [bigEndian_mod3]
  simp only [shaBySum]
  generalize h : ((d.take 16).map UInt8.toNat).sum % 3 = k
  have hk : k < 3 := by omega
  match k, hk with
  | 0, _ => rfl
  | 1, _ => rfl
  | 2, _ => rfl

theorem shaBySum_length {H : Prims256} (hH : IsSha2 H) (d : Bytes) : 32 ≤ (shaBySum H d).length ∧ (shaBySum H d).length ≤ 64 := by
  simp only [shaBySum]
  have := hH.l256 d
  have := hH.l384 d
  have := hH.l512 d
  split
  · omega
  · split <;> omega

theorem after_unique {H : Prims256} {A : BlockAes} {pw u K₀ : Bytes} : ∀ {n : Nat} {E K E' K' : Bytes},
    After H A pw u K₀ n E K → After H A pw u K₀ n E' K' → E = E' ∧ K = K'
  | 0, _, _, _, _, h, h' => by cases h; cases h'; exact ⟨rfl, rfl⟩
  | n + 1, _, _, _, _, h, h' => by
    cases h with
    | round h e =>
      cases h' with
      | round h' e' =>
        obtain ⟨rfl, rfl⟩ := after_unique h h'
        rw [← e'] at e
        subst e
        exact ⟨rfl, rfl⟩

theorem text_length (n : Nat) (t : Bytes) : ((List.replicate n t).flatten).length = n * t.length := by
  simp

theorem hashLoop_spec {H : Prims256} {A : BlockAes} (hH : IsSha2 H) {pw u K₀ : Bytes} (hp : pw.length ≤ 127) (hu : u.length ≤ 48) :
    ∀ (k i : Nat) (E K : Bytes), 288 - i ≤ k → After H A pw u K₀ i E K → 32 ≤ K.length → K.length ≤ 64 →
      (∀ m E' K', m < i → After H A pw u K₀ m E' K' → ¬ MayStop m E') →
      ∃ n E' K', After H A pw u K₀ n E' K' ∧ MayStop n E' ∧ (∀ m E'' K'', m < n → After H A pw u K₀ m E'' K'' → ¬ MayStop m E'') ∧
        32 ≤ K'.length ∧ hashLoop H A pw u i (E.getLastD 0) K = .ok (K'.take 32) := by
  intro k
  induction k with
  | zero =>
    intro i E K hk ha h1 h2 hm
    have hl := (E.getLastD 0).toNat_lt
    refine ⟨i, E, K, ha, ⟨by omega, by omega⟩, hm, h1, ?_⟩
    rw [hashLoop, if_neg (by omega)]
  | succ k ih =>
    intro i E K hk ha h1 h2 hm
    by_cases hc : i < 64 ∨ i < 32 + (E.getLastD 0).toNat
    · have hr := After.round (E' := cbcEnc (A.enc (K.take 16)) (4 * (pw.length + K.length + u.length)) ((K.drop 16).take 16) ((List.replicate 64 (pw ++ K ++ u)).flatten)) ha rfl
      rw [← shaBySum_spec] at hr
      have hl := shaBySum_length hH (cbcEnc (A.enc (K.take 16)) (4 * (pw.length + K.length + u.length)) ((K.drop 16).take 16) ((List.replicate 64 (pw ++ K ++ u)).flatten))
      have hi : i < 288 := by
        have := (E.getLastD 0).toNat_lt
        omega
      obtain ⟨n, E', K', a, b, c, d, e⟩ := ih (i + 1) _ _ (by omega) hr hl.1 hl.2 (by
        intro m E'' K'' hlt hm' hs
        by_cases hmi : m < i
        · exact hm m E'' K'' hmi hm' hs
        · have : m = i := by omega
          subst this
          obtain ⟨rfl, rfl⟩ := after_unique ha hm'
          obtain ⟨hs1, hs2⟩ := hs
          omega)
      refine ⟨n, E', K', a, b, c, d, ?_⟩
      rw [hashLoop, if_pos hc, if_neg (by simp only [List.length_append]; omega)]
      dsimp only
      rw [text_length, show 64 * (pw ++ K ++ u).length / 16 = 4 * (pw.length + K.length + u.length) by simp only [List.length_append]; omega]
      exact e
    · refine ⟨i, E, K, ha, ⟨by omega, by omega⟩, hm, h1, ?_⟩
      rw [hashLoop, if_neg hc]

theorem hashIs_unique {H : Prims256} {A : BlockAes} {r : Nat} {pw salt u h h' : Bytes} (a : HashIs H A r pw salt u h) (b : HashIs H A r pw salt u h') : h = h' := by
  rcases a with ⟨a1, rfl⟩ | ⟨a1, n, E, K, a2, a3, a4, rfl⟩
  · rcases b with ⟨b1, rfl⟩ | ⟨b1, _⟩
    · rfl
    · omega
  · rcases b with ⟨b1, _⟩ | ⟨b1, n', E', K', b2, b3, b4, rfl⟩
    · omega
    · have : n = n' := by
        rcases Nat.lt_trichotomy n n' with h | h | h
        · exact absurd a3 (b4 _ _ _ h a2)
        · exact h
        · exact absurd b3 (a4 _ _ _ h b2)
      subst this
      obtain ⟨rfl, rfl⟩ := after_unique a2 b2
      rfl

theorem computeHash_total {H : Prims256} {A : BlockAes} (hH : IsSha2 H) (r : Nat) {pw salt u : Bytes} (hp : pw.length ≤ 127) (hu : u.length ≤ 48) :
    ∃ h, computeHash H A r pw salt u = .ok h ∧ HashIs H A r pw salt u h ∧ h.length = 32 := by
  by_cases hr : 5 < r
  · obtain ⟨n, E, K, a, b, c, d, e⟩ := hashLoop_spec (A := A) hH hp hu 288 0 [] (H.sha256 (pw ++ salt ++ u)) (by omega) After.start
      (by rw [hH.l256]; omega) (by rw [hH.l256]; omega) (by intro m _ _ h; omega)
    refine ⟨K.take 32, ?_, Or.inr ⟨hr, n, E, K, a, b, c, rfl⟩, by rw [List.length_take]; omega⟩
    simp only [computeHash]
    rw [if_pos hr]
    exact e
  · refine ⟨H.sha256 (pw ++ salt ++ u), ?_, Or.inl ⟨by omega, rfl⟩, hH.l256 _⟩
    simp only [computeHash]
    rw [if_neg hr]

/-- **C192**: for every password of at most 127 bytes, every salt and every user value, the hash is computed, without writing past the buffer and after finitely many rounds, and it is the
one of the standard: SHA-256 for revision 5, and the rounds of algorithm 2.B for revision 6. -/
theorem C192_hash {H : Prims256} {A : BlockAes} (hH : IsSha2 H) (r : Nat) {pw salt u : Bytes} (hp : pw.length ≤ 127) (hu : u.length ≤ 48) :
    (∃ h, HashIs H A r pw salt u h ∧ h.length = 32) ∧ ∀ h, computeHash H A r pw salt u = .ok h ↔ HashIs H A r pw salt u h := by
  obtain ⟨h, h1, h2, h3⟩ := computeHash_total (A := A) (salt := salt) hH r hp hu
  refine ⟨⟨h, h2, h3⟩, fun h' => ⟨fun e => ?_, fun e => ?_⟩⟩
  · rw [h1] at e
    cases e
    exact h2
  · rw [h1, hashIs_unique h2 e]

/-! ### Passwords -/

theorem prepPassword_ok {H : Prims256} {password pw : Bytes} : prepPassword H password = .ok pw ↔ Prepared H password pw := by
  rw [prepPassword, Prepared]
  show (match H.prep (password.takeWhile (· != 0)) with | none => raise .InvalidPassword | some s => .ok ((cString s).take 127)) = .ok pw ↔ _
  cases H.prep (password.takeWhile (· != 0)) with
  | none => simp [raise]
  | some s =>
    constructor
    · intro h
      injection h with h
      exact ⟨s, rfl, h.symm⟩
    · rintro ⟨s', h, rfl⟩
      injection h with h
      subst h
      rfl

theorem prepared_length {H : Prims256} {password pw : Bytes} (h : Prepared H password pw) : pw.length ≤ 127 := by
  obtain ⟨s, _, rfl⟩ := h
  rw [List.length_take]
  omega

theorem prepared_unique {H : Prims256} {password a b : Bytes} (ha : Prepared H password a) (hb : Prepared H password b) : a = b := by
  obtain ⟨s, h1, rfl⟩ := ha
  obtain ⟨s', h2, rfl⟩ := hb
  rw [h1] at h2
  cases h2
  rfl

theorem aesNoPad_length {A : BlockAes} (hA : IsAes A) (key d : Bytes) (h : d.length % 16 = 0) : (aesNoPad A key d).length = d.length := by
  rw [aesNoPad, cbcEnc_length (hA.length key) _ _ _ (by simp) (by omega)]
  omega

theorem aesNoPadDec_aesNoPad {A : BlockAes} (hA : IsAes A) (key d : Bytes) (h : d.length % 16 = 0) : aesNoPadDec A key (aesNoPad A key d) = d := by
  rw [aesNoPadDec, aesNoPad_length hA _ _ h, aesNoPad, cbcDec_cbcEnc (hA.length key) (hA.back key) _ _ _ _ (Nat.le_refl _) (by simp) (by omega)]
  exact List.take_of_length_le (by omega)

theorem computeEntry_spec {H : Prims256} {A : BlockAes} (hH : IsSha2 H) (r : Nat) {pw vSalt kSalt u key : Bytes} (hp : pw.length ≤ 127) (hu : u.length ≤ 48) :
    ∃ h hk, HashIs H A r pw vSalt u h ∧ h.length = 32 ∧ HashIs H A r pw kSalt u hk ∧ computeHash H A r pw vSalt u = .ok h ∧ computeHash H A r pw kSalt u = .ok hk ∧
      computeEntry H A r pw vSalt kSalt u key = .ok (h ++ vSalt ++ kSalt, aesNoPad A hk key) := by
  obtain ⟨h, a1, a2, a3⟩ := computeHash_total (A := A) (salt := vSalt) hH r hp hu
  obtain ⟨hk, b1, b2, b3⟩ := computeHash_total (A := A) (salt := kSalt) hH r hp hu
  refine ⟨h, hk, a2, a3, b2, a1, b1, ?_⟩
  rw [computeEntry, a1]
  dsimp only
  rw [b1]

/-! ### Documents encrypted here -/

/-- What is generated. -/
theorem generate_spec {H : Prims256} {A : BlockAes} (hH : IsSha2 H) {rnd : Rnd256} (hR : RndOk rnd) (e : Enc256) {up op : Bytes}
    (hu : Prepared H e.userPass up) (ho : Prepared H e.ownerPass op) :
    ∃ h hk g gk, HashIs H A e.r up rnd.userV [] h ∧ h.length = 32 ∧ HashIs H A e.r up rnd.userK [] hk ∧
      HashIs H A e.r op rnd.ownerV (h ++ rnd.userV ++ rnd.userK) g ∧ g.length = 32 ∧ HashIs H A e.r op rnd.ownerK (h ++ rnd.userV ++ rnd.userK) gk ∧
      e.generate H A rnd = .ok { e with
        key := rnd.key, u := h ++ rnd.userV ++ rnd.userK, ue := aesNoPad A hk rnd.key, o := g ++ rnd.ownerV ++ rnd.ownerK, oe := aesNoPad A gk rnd.key,
        perms := aesNoPad A rnd.key (permsBlock e.p e.encryptMetadata) } := by
  obtain ⟨h, hk, a1, a2, a3, _, _, a6⟩ := computeEntry_spec (A := A) (vSalt := rnd.userV) (kSalt := rnd.userK) (u := []) (key := rnd.key) hH e.r (prepared_length hu) (by simp)
  obtain ⟨g, gk, b1, b2, b3, _, _, b6⟩ := computeEntry_spec (A := A) (vSalt := rnd.ownerV) (kSalt := rnd.ownerK) (u := h ++ rnd.userV ++ rnd.userK) (key := rnd.key) hH e.r (prepared_length ho)
    (by simp only [List.length_append]; have := hR.userV; have := hR.userK; omega)
  refine ⟨h, hk, g, gk, a1, a2, a3, b1, b2, b3, ?_⟩
  rw [Enc256.generate, prepPassword_ok.mpr hu]
  dsimp only
  rw [prepPassword_ok.mpr ho]
  dsimp only
  rw [a6]
  dsimp only
  rw [b6]

theorem copyN_ok {n : Nat} {b : Bytes} (h : n ≤ b.length) : copyN n b = .ok (b.take n) := by
  rw [copyN, if_neg (by omega), List.take_append_of_le_length h]

theorem copyN_ub {n : Nat} {b : Bytes} (h : b.length + 1 < n) : copyN n b = .error .ub := by rw [copyN, if_pos h]

theorem permsBlock_length (p : UInt32) (m : Bool) : (permsBlock p m).length = 16 := rfl

theorem except_ok_bind {α β : Type} (x : α) (f : α → Res β) : ((Except.ok x : Res α) >>= f) = f x := rfl
theorem except_error_bind {α β : Type} (x : Fault) (f : α → Res β) : ((Except.error x : Res α) >>= f) = .error x := rfl

/-- The dictionary is read as it was written. -/
theorem toDict_open {e : Enc256} (hr : e.r = 5 ∨ e.r = 6) (ho : e.o.length = 48) (hoe : e.oe.length = 32) (hu : e.u.length = 48) (hue : e.ue.length = 32) (hp : e.perms.length = 16) :
    e.toDict.open = .ok (some { e with key := List.replicate 32 0, userPass := [], ownerPass := [], encryptMetadata := true }) := by
  have hr' : ((e.r : Int) = 5 ∨ (e.r : Int) = 6) := by omega
  have h1 : e.o.take 48 = e.o := List.take_of_length_le (by omega)
  have h2 : e.oe.take 32 = e.oe := List.take_of_length_le (by omega)
  have h3 : e.u.take 48 = e.u := List.take_of_length_le (by omega)
  have h4 : e.ue.take 32 = e.ue := List.take_of_length_le (by omega)
  have h5 : e.perms.take 16 = e.perms := List.take_of_length_le (by omega)
  rw [Enc256.toDict, Dict256.open]
  simp only [must, derefKey, except_ok_bind]
  rw [if_neg (by simp), if_neg (by omega), if_neg (by simp [nAesV3, nV2]), if_neg (by omega), if_pos (by simpa using hr'), Enc256.ofValues, h1, h2, h3, h4, h5, copyN_ok (by omega), copyN_ok (by omega),
    copyN_ok (by omega), copyN_ok (by omega), copyN_ok (by omega)]
  simp only [except_ok_bind]
  rw [h1, h2, h3, h4, h5, perm_roundtrip]
  rfl

/-! ### Authentication -/

namespace Spec

/-- The password is the user's: its hash with the validation salt is the beginning of the user value. -/
def IsUser (H : Prims256) (A : BlockAes) (e : Enc256) (pw : Bytes) : Prop := HashIs H A e.r pw ((e.u.drop 32).take 8) [] (e.u.take 32)
/-- The password is the owner's. -/
def IsOwner (H : Prims256) (A : BlockAes) (e : Enc256) (pw : Bytes) : Prop := HashIs H A e.r pw ((e.o.drop 32).take 8) e.u (e.o.take 32)

/-- ISO 32000-2, algorithm 2.A: the file key, decrypted with the hash of the password and the key salt. -/
def FileKey (H : Prims256) (A : BlockAes) (e : Enc256) (pw key : Bytes) : Prop :=
  (IsUser H A e pw ∧ ∃ hk, HashIs H A e.r pw ((e.u.drop 40).take 8) [] hk ∧ key = aesNoPadDec A hk e.ue) ∨
  (¬ IsUser H A e pw ∧ IsOwner H A e pw ∧ ∃ hk, HashIs H A e.r pw ((e.o.drop 40).take 8) e.u hk ∧ key = aesNoPadDec A hk e.oe)

end Spec

theorem checkKey_iff {h v : Bytes} (hl : h.length = 32) : checkKey 32 h v = true ↔ h = v.take 32 := by
  rw [checkKey, beq_iff_eq, List.take_of_length_le (by omega)]

/-- **C192**: for every encryption dictionary that could be read and every password that can be prepared, the password is accepted exactly when it is the user's or the owner's as the
standard tells; the file key is then the one of the standard, and otherwise nothing has changed.  A password that cannot be prepared is refused with `InvalidPassword`. -/
theorem C192_authenticate {H : Prims256} {A : BlockAes} (hH : IsSha2 H) (e : Enc256) (hu : e.u.length = 48) (password : Bytes) :
    (∀ pw, Prepared H password pw → ∃ b a, e.authenticate H A password = .ok (b, a) ∧ (b = true ↔ IsUser H A e pw ∨ IsOwner H A e pw) ∧
      (b = true → FileKey H A e pw a.key) ∧ (b = false → a = e) ∧
      a = { e with key := a.key, userPass := a.userPass, ownerPass := a.ownerPass }) ∧
    ((¬ ∃ pw, Prepared H password pw) → e.authenticate H A password = raise .InvalidPassword) := by
  constructor
  · intro pw hp
    have hl := prepared_length hp
    obtain ⟨h1, a1, a2, a3⟩ := computeHash_total (A := A) (salt := (e.u.drop 32).take 8) (u := []) hH e.r hl (by simp)
    obtain ⟨h2, b1, b2, b3⟩ := computeHash_total (A := A) (salt := (e.u.drop 40).take 8) (u := []) hH e.r hl (by simp)
    obtain ⟨h3, c1, c2, c3⟩ := computeHash_total (A := A) (salt := (e.o.drop 32).take 8) (u := e.u) hH e.r hl (by omega)
    obtain ⟨h4, d1, d2, d3⟩ := computeHash_total (A := A) (salt := (e.o.drop 40).take 8) (u := e.u) hH e.r hl (by omega)
    rw [Enc256.authenticate, prepPassword_ok.mpr hp]
    dsimp only
    rw [a1]
    dsimp only
    by_cases hc : checkKey 32 h1 e.u = true
    · have hU : IsUser H A e pw := by
        rw [IsUser, ← (checkKey_iff a3).mp hc]
        exact a2
      rw [if_pos hc, b1]
      exact ⟨_, _, rfl, ⟨fun _ => Or.inl hU, fun _ => rfl⟩, fun _ => Or.inl ⟨hU, h2, b2, rfl⟩, by simp, rfl⟩
    · have hU : ¬ IsUser H A e pw := fun h => hc ((checkKey_iff a3).mpr (hashIs_unique a2 h))
      rw [if_neg hc, c1]
      dsimp only
      by_cases hc' : checkKey 32 h3 e.o = true
      · have hO : IsOwner H A e pw := by
          rw [IsOwner, ← (checkKey_iff c3).mp hc']
          exact c2
        rw [if_pos hc', d1]
        exact ⟨_, _, rfl, ⟨fun _ => Or.inr hO, fun _ => rfl⟩, fun _ => Or.inr ⟨hU, hO, h4, d2, rfl⟩, by simp, rfl⟩
      · have hO : ¬ IsOwner H A e pw := fun h => hc' ((checkKey_iff c3).mpr (hashIs_unique c2 h))
        rw [if_neg hc']
        exact ⟨_, _, rfl, ⟨by simp, fun h => by rcases h with h | h <;> contradiction⟩, by simp, fun _ => rfl, rfl⟩
  · intro h
    rw [Enc256.authenticate]
    have : prepPassword H password = raise .InvalidPassword := by
      rw [prepPassword]
      cases hc : H.prep (cString password) with
      | none => rfl
      | some s => exact absurd ⟨_, s, hc, rfl⟩ h
    rw [this]

namespace Spec

/-- A document was encrypted with these passwords, permissions and random bytes, and its encryption dictionary was read back. -/
def Reopened (H : Prims256) (A : BlockAes) (rnd : Rnd256) (r : Nat) (user owner : Bytes) (protection : UInt32) (e : Enc256) : Prop :=
  ∃ g, (Enc256.create r user owner protection).generate H A rnd = .ok g ∧ g.key = rnd.key ∧ g.toDict.open = .ok (some e)

end Spec

/-- All that is known of a document read back. -/
theorem reopened_spec {H : Prims256} {A : BlockAes} (hH : IsSha2 H) (hA : IsAes A) {rnd : Rnd256} (hR : RndOk rnd) {r : Nat} (hr : r = 5 ∨ r = 6) {user owner up op : Bytes}
    (protection : UInt32) (hu : Prepared H user up) (ho : Prepared H owner op) :
    ∃ h hk g gk e, HashIs H A r up rnd.userV [] h ∧ h.length = 32 ∧ HashIs H A r up rnd.userK [] hk ∧
      HashIs H A r op rnd.ownerV (h ++ rnd.userV ++ rnd.userK) g ∧ g.length = 32 ∧ HashIs H A r op rnd.ownerK (h ++ rnd.userV ++ rnd.userK) gk ∧
      Reopened H A rnd r user owner protection e ∧ e.u = h ++ rnd.userV ++ rnd.userK ∧ e.ue = aesNoPad A hk rnd.key ∧ e.o = g ++ rnd.ownerV ++ rnd.ownerK ∧ e.oe = aesNoPad A gk rnd.key ∧
      e.perms = aesNoPad A rnd.key (permsBlock e.p true) ∧ e.p = permsDefault ||| protection ∧ e.r = r := by
  obtain ⟨h, hk, g, gk, a1, a2, a3, a4, a5, a6, a7⟩ := generate_spec (A := A) hH hR (Enc256.create r user owner protection) hu ho
  have k := hR.key
  have k1 := hR.userV
  have k2 := hR.userK
  have k3 := hR.ownerV
  have k4 := hR.ownerK
  refine ⟨h, hk, g, gk, _, a1, a2, a3, a4, a5, a6, ⟨_, a7, rfl, toDict_open hr ?_ ?_ ?_ ?_ ?_⟩, rfl, rfl, rfl, rfl, rfl, rfl, rfl⟩
  · simp only [List.length_append]; omega
  · rw [aesNoPad_length hA _ _ (by omega), k]
  · simp only [List.length_append]; omega
  · rw [aesNoPad_length hA _ _ (by omega), k]
  · rw [aesNoPad_length hA _ _ (by rw [permsBlock_length]), permsBlock_length]

theorem reopened_unique {H : Prims256} {A : BlockAes} {rnd : Rnd256} {r : Nat} {user owner : Bytes} {protection : UInt32} {e e' : Enc256}
    (h : Reopened H A rnd r user owner protection e) (h' : Reopened H A rnd r user owner protection e') : e = e' := by
  obtain ⟨g, a, _, b⟩ := h
  obtain ⟨g', a', _, b'⟩ := h'
  rw [a] at a'
  cases a'
  rw [b] at b'
  cases b'
  rfl

theorem entry_parts (h a b : Bytes) (hl : h.length = 32) (ha : a.length = 8) (hb : b.length = 8) :
    (h ++ a ++ b).take 32 = h ∧ ((h ++ a ++ b).drop 32).take 8 = a ∧ ((h ++ a ++ b).drop 40).take 8 = b := by
  refine ⟨?_, ?_, ?_⟩
  · rw [List.append_assoc, List.take_append_of_le_length (by omega), List.take_of_length_le (by omega)]
  · rw [List.append_assoc, show (32 : Nat) = h.length from hl.symm, List.drop_left, show (8 : Nat) = a.length from ha.symm, List.take_left]
  · rw [show (40 : Nat) = (h ++ a).length by rw [List.length_append]; omega, List.drop_left, List.take_of_length_le (by omega)]

/-- **C192**: whatever the passwords, the permissions and the random bytes, a document encrypted with AES-256 can be opened again with the user password, which gives back the key the
document was encrypted with and the permissions that were asked for. -/
theorem C192_user {H : Prims256} {A : BlockAes} (hH : IsSha2 H) (hA : IsAes A) {rnd : Rnd256} (hR : RndOk rnd) {r : Nat} (hr : r = 5 ∨ r = 6) {user owner up op : Bytes}
    (protection : UInt32) (hu : Prepared H user up) (ho : Prepared H owner op) :
    ∃ e, Reopened H A rnd r user owner protection e ∧ e.p = permsDefault ||| protection ∧
      ∀ password, Prepared H password up → ∃ a, e.authenticate H A password = .ok (true, a) ∧ a.key = rnd.key ∧ a.p = e.p := by
  obtain ⟨h, hk, g, gk, e, a1, a2, a3, a4, a5, a6, a7, a8, a9, a10, a11, a12, a13, a14⟩ := reopened_spec (A := A) hH hA hR hr protection hu ho
  have k1 := hR.userV
  have k2 := hR.userK
  obtain ⟨p1, p2, p3⟩ := entry_parts h rnd.userV rnd.userK a2 k1 k2
  refine ⟨e, a7, a13, fun password hp => ?_⟩
  obtain ⟨b, a, b1, b2, b3, b4, b5⟩ := (C192_authenticate (A := A) hH e (by rw [a8]; simp only [List.length_append]; omega) password).1 up hp
  have hU : IsUser H A e up := by
    rw [IsUser, a14, a8, p1, p2]
    exact a1
  have hb := b2.mpr (Or.inl hU)
  subst hb
  refine ⟨a, b1, ?_, by rw [b5]⟩
  rcases b3 rfl with ⟨_, hk', c1, c2⟩ | ⟨hn, _⟩
  · rw [a14, a8, p3] at c1
    rw [c2, hashIs_unique c1 a3, a9, aesNoPadDec_aesNoPad hA _ _ (by rw [hR.key])]
  · exact absurd hU hn

/-- **C192**: it can be opened with the owner password as well, unless the owner password is taken for the user password because of a collision of hashes. -/
theorem C192_owner {H : Prims256} {A : BlockAes} (hH : IsSha2 H) (hA : IsAes A) {rnd : Rnd256} (hR : RndOk rnd) {r : Nat} (hr : r = 5 ∨ r = 6) {user owner up op : Bytes}
    (protection : UInt32) (hu : Prepared H user up) (ho : Prepared H owner op)
    (hcol : ∀ h, HashIs H A r up rnd.userV [] h → HashIs H A r op rnd.userV [] h → op = up) :
    ∃ e, Reopened H A rnd r user owner protection e ∧ e.p = permsDefault ||| protection ∧
      ∀ password, Prepared H password op → ∃ a, e.authenticate H A password = .ok (true, a) ∧ a.key = rnd.key ∧ a.p = e.p := by
  obtain ⟨h, hk, g, gk, e, a1, a2, a3, a4, a5, a6, a7, a8, a9, a10, a11, a12, a13, a14⟩ := reopened_spec (A := A) hH hA hR hr protection hu ho
  have k1 := hR.userV
  have k2 := hR.userK
  obtain ⟨p1, p2, p3⟩ := entry_parts h rnd.userV rnd.userK a2 k1 k2
  obtain ⟨q1, q2, q3⟩ := entry_parts g rnd.ownerV rnd.ownerK a5 hR.ownerV hR.ownerK
  refine ⟨e, a7, a13, fun password hp => ?_⟩
  obtain ⟨b, a, b1, b2, b3, b4, b5⟩ := (C192_authenticate (A := A) hH e (by rw [a8]; simp only [List.length_append]; omega) password).1 op hp
  have hO : IsOwner H A e op := by
    rw [IsOwner, a14, a10, q1, q2, a8]
    exact a4
  have hb := b2.mpr (Or.inr hO)
  subst hb
  refine ⟨a, b1, ?_, by rw [b5]⟩
  rcases b3 rfl with ⟨hU, hk', c1, c2⟩ | ⟨_, _, hk', c1, c2⟩
  · rw [IsUser, a14, a8, p1, p2] at hU
    have := hcol h a1 hU
    subst this
    rw [a14, a8, p3] at c1
    rw [c2, hashIs_unique c1 a3, a9, aesNoPadDec_aesNoPad hA _ _ (by rw [hR.key])]
  · rw [a14, a10, q3, a8] at c1
    rw [c2, hashIs_unique c1 a6, a11, aesNoPadDec_aesNoPad hA _ _ (by rw [hR.key])]

/-- **C192**: a document encrypted here is opened with no other password than those whose hash is that of the user or of the owner. -/
theorem C192_wrong {H : Prims256} {A : BlockAes} (hH : IsSha2 H) (hA : IsAes A) {rnd : Rnd256} (hR : RndOk rnd) {r : Nat} (hr : r = 5 ∨ r = 6) {user owner up op : Bytes}
    (protection : UInt32) (hu : Prepared H user up) (ho : Prepared H owner op) {e : Enc256} (he : Reopened H A rnd r user owner protection e) {password pw : Bytes}
    (hp : Prepared H password pw) (hnu : ∀ h, HashIs H A r up rnd.userV [] h → ¬ HashIs H A r pw rnd.userV [] h)
    (hno : ∀ h, HashIs H A r op rnd.ownerV e.u h → ¬ HashIs H A r pw rnd.ownerV e.u h) :
    e.authenticate H A password = .ok (false, e) := by
  obtain ⟨h, hk, g, gk, e', a1, a2, a3, a4, a5, a6, a7, a8, a9, a10, a11, a12, a13, a14⟩ := reopened_spec (A := A) hH hA hR hr protection hu ho
  obtain rfl := reopened_unique he a7
  have k1 := hR.userV
  have k2 := hR.userK
  obtain ⟨p1, p2, p3⟩ := entry_parts h rnd.userV rnd.userK a2 k1 k2
  obtain ⟨q1, q2, q3⟩ := entry_parts g rnd.ownerV rnd.ownerK a5 hR.ownerV hR.ownerK
  obtain ⟨b, a, b1, b2, b3, b4, b5⟩ := (C192_authenticate (A := A) hH e (by rw [a8]; simp only [List.length_append]; omega) password).1 pw hp
  have hb : b = false := by
    cases b with
    | false => rfl
    | true =>
      rcases b2.mp rfl with hU | hO
      · rw [IsUser, a14, a8, p1, p2] at hU
        exact absurd hU (hnu h a1)
      · rw [IsOwner, a14, a10, q1, q2] at hO
        exact absurd hO (hno g (by rw [a8]; exact a4))
  subst hb
  rw [b1, b4 rfl]

namespace Spec

/-- The sixteen bytes of ISO 32000-2, algorithm 10: the permissions with the least significant byte first, four bytes `FF`, `T` because metadata are encrypted, `adb`, and four more bytes. -/
def PermsOf (p : UInt32) (b : Bytes) : Prop :=
  b.length = 16 ∧ (b.take 4).foldr (fun x n => x.toNat + 256 * n) 0 = p.toNat ∧ (b.drop 4).take 8 = [255, 255, 255, 255] ++ "Tadb".toUTF8.toList

end Spec

/-- **C192**: the encrypted permissions of a document are those of the dictionary. -/
theorem C192_perms {H : Prims256} {A : BlockAes} (hH : IsSha2 H) (hA : IsAes A) {rnd : Rnd256} (hR : RndOk rnd) {r : Nat} (hr : r = 5 ∨ r = 6) {user owner up op : Bytes}
    (protection : UInt32) (hu : Prepared H user up) (ho : Prepared H owner op) :
    ∃ e, Reopened H A rnd r user owner protection e ∧ PermsOf e.p (aesNoPadDec A rnd.key e.perms) := by
  obtain ⟨h, hk, g, gk, e, a1, a2, a3, a4, a5, a6, a7, a8, a9, a10, a11, a12, a13, a14⟩ := reopened_spec (A := A) hH hA hR hr protection hu ho
  refine ⟨e, a7, ?_⟩
  rw [a12, aesNoPadDec_aesNoPad hA _ _ (by rw [permsBlock_length])]
  refine ⟨permsBlock_length _ _, ?_, ?_⟩
  · have := e.p.toNat_lt
    show e.p.toUInt8.toNat + 256 * ((e.p >>> 8).toUInt8.toNat + 256 * ((e.p >>> 16).toUInt8.toNat + 256 * ((e.p >>> 24).toUInt8.toNat + 256 * 0))) = _
    simp only [UInt32.toNat_toUInt8, UInt32.toNat_shiftRight, UInt32.reduceToNat, Nat.shiftRight_eq_div_pow, Nat.reduceMod, Nat.reducePow]
    omega
  · show [255, 255, 255, 255, 0x54, 0x61, 0x64, 0x62] = _
    decide +kernel

/-- **C192**: strings and streams encrypted with the file key are decrypted with it, and the encrypted length is the one computed beforehand. -/
theorem C192_data {A : BlockAes} (hA : IsAes A) (e e' : Enc256) (hk : e.key.length = 32) (he : e'.key = e.key) (iv data : Bytes) (hiv : iv.length = 16) :
    ∃ c, e.encryptTo A iv data = .ok c ∧ c.length = streamLength256 data.length ∧ e'.decryptTo A c = .ok data := by
  have hA' : IsAes ⟨fun _ => A.enc e.key, fun _ => A.dec e.key⟩ := ⟨fun _ => hA.length e.key, fun _ => hA.back e.key⟩
  obtain ⟨c, h1, h2, h3⟩ := baseDecrypt_baseEncrypt hA' (List.replicate 16 0) iv data (by simp) hiv
  rw [baseEncrypt, if_neg (by simp)] at h1
  injection h1 with h1
  dsimp only at h1
  have hl : streamLength256 data.length = (iv ++ c).length := by
    rw [List.length_append, streamLength256, h2, hiv]
    split <;> omega
  refine ⟨iv ++ c, ?_, hl.symm, ?_⟩
  · simp only [Enc256.encryptTo]
    rw [if_neg (by omega), h1, if_neg (by omega), hl, Nat.sub_self, List.replicate_zero, List.append_nil]
  · rw [baseDecrypt, if_neg (by omega), if_neg (by simp)] at h3
    rw [Enc256.decryptTo, if_neg (by rw [List.length_append]; omega), show (16 : Nat) = iv.length from hiv.symm, List.drop_left, List.take_left, hiv, if_neg (by omega),
      if_neg (by rw [he]; omega), he]
    exact h3

/-- **C192**: two passwords that are prepared alike are interchangeable: only the first 127 bytes count. -/
theorem C192_same {H : Prims256} {A : BlockAes} (e : Enc256) {p q w : Bytes} (hp : Prepared H p w) (hq : Prepared H q w) :
    (e.authenticate H A p).map (fun x => (x.1, x.2.key)) = (e.authenticate H A q).map (fun x => (x.1, x.2.key)) := by
  simp only [Enc256.authenticate]
  rw [prepPassword_ok.mpr hp, prepPassword_ok.mpr hq]
  dsimp only
  cases computeHash H A e.r w ((e.u.drop 32).take 8) [] with
  | error x => rfl
  | ok h =>
    dsimp only
    split
    · cases computeHash H A e.r w ((e.u.drop 40).take 8) [] with
      | error x => rfl
      | ok h => rfl
    · cases computeHash H A e.r w ((e.o.drop 32).take 8) e.u with
      | error x => rfl
      | ok h =>
        dsimp only
        split
        · cases computeHash H A e.r w ((e.o.drop 40).take 8) e.u with
          | error x => rfl
          | ok h => rfl
        · rfl

/-- **C192**, what is false: what comes after a zero byte of a password is ignored, so that a document protected with a password that begins with a zero byte is opened by everyone. -/
theorem C192_nul_false {H : Prims256} {A : BlockAes} (hH : IsSha2 H) (hA : IsAes A) {rnd : Rnd256} (hR : RndOk rnd) {r : Nat} (hr : r = 5 ∨ r = 6) {secret owner op : Bytes}
    (protection : UInt32) (he : H.prep [] = some []) (ho : Prepared H owner op) :
    ∃ e, Reopened H A rnd r (0 :: secret) owner protection e ∧ ∃ a, e.authenticate H A [] = .ok (true, a) ∧ a.key = rnd.key := by
  have h0 : Prepared H (0 :: secret) [] := ⟨[], by rw [List.takeWhile_cons, if_neg (by decide)]; exact he, rfl⟩
  obtain ⟨e, h1, _, h3⟩ := C192_user (A := A) hH hA hR hr protection h0 ho
  obtain ⟨a, h4, h5, _⟩ := h3 [] ⟨[], he, rfl⟩
  exact ⟨e, h1, a, h4, h5⟩

/-- **C192**, what is false: when no owner password is given, a document with a user password is opened without a password, and the key is found. -/
theorem C192_empty_owner_false {H : Prims256} {A : BlockAes} (hH : IsSha2 H) (hA : IsAes A) {rnd : Rnd256} (hR : RndOk rnd) {r : Nat} (hr : r = 5 ∨ r = 6) {user up : Bytes}
    (protection : UInt32) (he : H.prep [] = some []) (hu : Prepared H user up)
    (hcol : ∀ h, HashIs H A r up rnd.userV [] h → HashIs H A r [] rnd.userV [] h → [] = up) :
    ∃ e, Reopened H A rnd r user [] protection e ∧ ∃ a, e.authenticate H A [] = .ok (true, a) ∧ a.key = rnd.key := by
  have h0 : Prepared H [] [] := ⟨[], he, rfl⟩
  obtain ⟨e, h1, _, h3⟩ := C192_owner (A := A) hH hA hR hr protection hu h0 hcol
  obtain ⟨a, h4, h5, _⟩ := h3 [] h0
  exact ⟨e, h1, a, h4, h5⟩

/-! ### Dictionaries of any file -/

namespace Spec

/-- An encryption dictionary of version 5. -/
def IsV5 (d : Dict256) (o u : Bytes) : Prop :=
  d.filter = some nStandard ∧ d.v = some 5 ∧ (d.r = some 5 ∨ d.r = some 6) ∧ d.p.isSome ∧ d.o = some o ∧ d.u = some u ∧ d.cfm ≠ some nV2

end Spec

theorem open_v5 {d : Dict256} {o u : Bytes} (h : IsV5 d o u) : ∃ p, d.p = some p ∧ ∃ r : Int, d.r = some r ∧ d.open =
    (derefKey d.perms >>= fun perms => derefKey d.oe >>= fun oe => derefKey d.ue >>= fun ue =>
      Enc256.ofValues o oe u ue (numberPerm p) perms r.toNat >>= fun e => .ok (some e)) := by
  obtain ⟨h1, h2, h3, h4, h5, h6, h7⟩ := h
  obtain ⟨p, hp⟩ := Option.isSome_iff_exists.mp h4
  refine ⟨p, hp, ?_⟩
  rcases h3 with h3 | h3 <;> refine ⟨_, h3, ?_⟩ <;> simp [Dict256.open, h1, h2, h3, hp, h5, h6, h7, must, except_ok_bind]

/-- **C192**: a dictionary of version 5 whose strings are long enough is read without undefined behaviour, whatever else it holds. -/
theorem C192_open {d : Dict256} {o u oe ue perms : Bytes} (h : IsV5 d o u) (h1 : d.oe = some oe) (h2 : d.ue = some ue) (h3 : d.perms = some perms)
    (ho : 48 ≤ o.length) (hu : 48 ≤ u.length) (hoe : 32 ≤ oe.length) (hue : 32 ≤ ue.length) (hp : 16 ≤ perms.length) :
    ∃ e, d.open = .ok (some e) ∧ e.o = o.take 48 ∧ e.u = u.take 48 ∧ e.oe = oe.take 32 ∧ e.ue = ue.take 32 ∧ e.perms = perms.take 16 ∧ d.r = some (e.r : Int) := by
  obtain ⟨p, hp', r, hr, e⟩ := open_v5 h
  have hr' : ((r.toNat : Nat) : Int) = r := by
    rcases h.2.2.1 with h | h <;> rw [hr] at h <;> cases h <;> rfl
  rw [e, h1, h2, h3]
  simp only [derefKey, Enc256.ofValues, except_ok_bind]
  rw [copyN_ok ho, copyN_ok hoe, copyN_ok hu, copyN_ok hue, copyN_ok hp]
  exact ⟨_, rfl, rfl, rfl, rfl, rfl, rfl, by rw [hr]; simp only [hr']⟩

/-- **C192**, what is false: a dictionary of version 5 with a string that is too short is undefined. -/
theorem C192_short_false {d : Dict256} {o u oe ue perms : Bytes} (h : IsV5 d o u) (h1 : d.oe = some oe) (h2 : d.ue = some ue) (h3 : d.perms = some perms)
    (hs : o.length < 47 ∨ u.length < 47 ∨ oe.length < 31 ∨ ue.length < 31 ∨ perms.length < 15) : d.open = .error .ub := by
  obtain ⟨p, hp', r, hr, e⟩ := open_v5 h
  rw [e, h1, h2, h3]
  simp only [derefKey, except_ok_bind]
  have key : ∀ (n : Nat) (b : Bytes), (b.length + 1 < n ∧ copyN n b = .error .ub) ∨ (¬ b.length + 1 < n ∧ copyN n b = .ok ((b ++ [0]).take n)) := by
    intro n b
    by_cases h : b.length + 1 < n
    · exact Or.inl ⟨h, copyN_ub h⟩
    · exact Or.inr ⟨h, by rw [copyN, if_neg h]⟩
  rw [Enc256.ofValues]
  rcases key 48 o with ⟨_, e1⟩ | ⟨n1, e1⟩ <;> rw [e1]
  · rfl
  rcases key 32 oe with ⟨_, e2⟩ | ⟨n2, e2⟩ <;> rw [e2]
  · rfl
  rcases key 48 u with ⟨_, e3⟩ | ⟨n3, e3⟩ <;> rw [e3]
  · rfl
  rcases key 32 ue with ⟨_, e4⟩ | ⟨n4, e4⟩ <;> rw [e4]
  · rfl
  rcases key 16 perms with ⟨_, e5⟩ | ⟨n5, e5⟩ <;> rw [e5]
  · rfl
  omega

/-- **C192**, what is false: a dictionary of version 5 without one of the encrypted entries is undefined, where a missing `/O` or `/U` is an error. -/
theorem C192_missing_false {d : Dict256} {o u : Bytes} (h : IsV5 d o u) (hs : d.oe = none ∨ d.ue = none ∨ d.perms = none) : d.open = .error .ub := by
  obtain ⟨p, hp', r, hr, e⟩ := open_v5 h
  rw [e]
  rcases hs with hs | hs | hs <;> rw [hs]
  · cases d.perms <;> rfl
  · cases d.perms <;> cases d.oe <;> rfl
  · rfl

/-- **C192**, what is false: the encrypted permissions are not compared with those of the dictionary, so that changing `/P` gives the document other permissions and every password still fits. -/
theorem C192_perms_false {H : Prims256} {A : BlockAes} {d : Dict256} {o u : Bytes} (h : IsV5 d o u) {e : Enc256} (he : d.open = .ok (some e)) (p' : Int) :
    ∃ e', Dict256.open { d with p := some p' } = .ok (some e') ∧ e'.p = numberPerm p' ∧
      ∀ password, (e'.authenticate H A password).map (fun x => (x.1, x.2.key)) = (e.authenticate H A password).map (fun x => (x.1, x.2.key)) := by
  have h' : IsV5 { d with p := some p' } o u := ⟨h.1, h.2.1, h.2.2.1, rfl, h.2.2.2.2⟩
  obtain ⟨p, hp, r, hr, e1⟩ := open_v5 h
  obtain ⟨p2, hp2, r2, hr2, e2⟩ := open_v5 h'
  have : r2 = r := by
    have : d.r = some r2 := hr2
    rw [hr] at this
    cases this
    rfl
  subst this
  cases hp2
  rw [he] at e1
  rw [e2]
  refine ⟨{ e with p := numberPerm p' }, ?_, rfl, fun password => ?_⟩
  · dsimp only
    cases hperms : derefKey d.perms with
    | error x => rw [hperms] at e1; cases e1
    | ok perms =>
      cases hoe : derefKey d.oe with
      | error x => rw [hperms, hoe] at e1; cases e1
      | ok oe =>
        cases hue : derefKey d.ue with
        | error x => rw [hperms, hoe, hue] at e1; cases e1
        | ok ue =>
          rw [hperms, hoe, hue] at e1
          simp only [except_ok_bind] at e1 ⊢
          simp only [Enc256.ofValues] at e1 ⊢
          cases c1 : copyN 48 o <;> rw [c1] at e1 <;> try (cases e1; done)
          cases c2 : copyN 32 oe <;> rw [c2] at e1 <;> try (cases e1; done)
          cases c3 : copyN 48 u <;> rw [c3] at e1 <;> try (cases e1; done)
          cases c4 : copyN 32 ue <;> rw [c4] at e1 <;> try (cases e1; done)
          cases c5 : copyN 16 perms <;> rw [c5] at e1 <;> try (cases e1; done)
          injection e1 with e1
          injection e1 with e1
          subst e1
          rfl
  · simp only [Enc256.authenticate]
    cases prepPassword H password with
    | error x => rfl
    | ok w =>
      dsimp only
      cases computeHash H A e.r w ((e.u.drop 32).take 8) [] with
      | error x => rfl
      | ok h =>
        dsimp only
        split
        · cases computeHash H A e.r w ((e.u.drop 40).take 8) [] with
          | error x => rfl
          | ok h => rfl
        · cases computeHash H A e.r w ((e.o.drop 32).take 8) e.u with
          | error x => rfl
          | ok h =>
            dsimp only
            split
            · cases computeHash H A e.r w ((e.o.drop 40).take 8) e.u with
              | error x => rfl
              | ok h => rfl
            · rfl

/-! ### Concrete cases -/

/-- Digests and preparation for the examples. -/
def exPrims : Prims256 :=
  ⟨fun b => UInt8.ofNat (b.map UInt8.toNat).sum :: List.replicate 31 7, fun b => UInt8.ofNat (b.map UInt8.toNat).sum :: List.replicate 47 8,
    fun b => UInt8.ofNat (b.map UInt8.toNat).sum :: List.replicate 63 9, fun b => if b.length < 1000 then some b else none⟩
/-- A cipher for the examples. -/
def exBlocks : BlockAes := ⟨fun _ b => b, fun _ b => b⟩
/-- Random bytes for the examples. -/
def exRnd : Rnd256 := ⟨List.replicate 32 3, List.replicate 8 1, List.replicate 8 2, List.replicate 8 4, List.replicate 8 5⟩

example : IsSha2 exPrims := ⟨fun _ => rfl, fun _ => rfl, fun _ => rfl⟩
example : IsAes exBlocks := ⟨fun _ _ h => h, fun _ _ _ => rfl⟩
example : RndOk exRnd := ⟨rfl, rfl, rfl, rfl, rfl⟩
example : Prepared exPrims [117, 115, 114] [117, 115, 114] ∧ Prepared exPrims [111, 119] [111, 119] ∧ exPrims.prep [] = some [] := by
  refine ⟨⟨[117, 115, 114], by decide, by decide⟩, ⟨[111, 119], by decide, by decide⟩, rfl⟩
/-- A password that is not prepared. -/
example : ¬ ∃ pw, Prepared exPrims (List.replicate 1000 65) pw := by
  rintro ⟨pw, s, h, _⟩
  have : exPrims.prep ((List.replicate 1000 65).takeWhile (· != 0)) = none := by decide +kernel
  rw [this] at h
  cases h
/-- With revision 5 the two passwords and a third one have different hashes. -/
example : (∀ h, HashIs exPrims exBlocks 5 [117, 115, 114] exRnd.userV [] h → ¬ HashIs exPrims exBlocks 5 [111, 119] exRnd.userV [] h) := by
  intro h a b
  rcases a with ⟨_, rfl⟩ | ⟨a, _⟩
  · rcases b with ⟨_, b⟩ | ⟨b, _⟩
    · revert b; decide +kernel
    · omega
  · omega
/-- A dictionary of version 5, and one whose strings are too short. -/
example : IsV5 ⟨some nStandard, some 5, some 6, some (-4), some (List.replicate 48 1), some (List.replicate 48 2), some (List.replicate 32 3), some (List.replicate 32 4), some (List.replicate 16 5), some nAesV3⟩
    (List.replicate 48 1) (List.replicate 48 2) := ⟨rfl, rfl, Or.inr rfl, rfl, rfl, rfl, by decide⟩
example : IsV5 ⟨some nStandard, some 5, some 5, some (-4), some [1], some [2], none, none, none, none⟩ [1] [2] := ⟨rfl, rfl, Or.inl rfl, rfl, rfl, rfl, by decide⟩

end Pdfmm
