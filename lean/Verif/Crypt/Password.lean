import Verif.Crypt.PasswordModel
import Verif.Crypt.Rc4
/-
Passwords: what was encrypted with a user and an owner password opens with either.
Properties C63, C109, C110, C111.
-/
set_option autoImplicit false
namespace Pdfmm

/-! ### Specification -/

namespace Spec

/-- All that is used of MD5 and RC4: a digest has 16 bytes, RC4 keeps the length, and done twice with the same key gives the data back. -/
structure IsCrypto (C : Crypto) : Prop where
  md5_length : ∀ b, (C.md5 b).length = 16
  rc4_length : ∀ k b, (C.rc4 k b).length = b.length
  rc4_twice : ∀ k b, C.rc4 k (C.rc4 k b) = b

/-- The algorithms with the key lengths they are meant for. -/
def SupportedKey : CryptAlg → Int → Prop
  | .rc4v1, bits => bits = 40
  | .rc4v2, bits => bits = 40 ∨ bits = 56 ∨ bits = 80 ∨ bits = 96 ∨ bits = 128
  | .aesv2, _ => True

end Spec
open Spec

/-- RC4 itself, with any function giving 16 bytes for MD5, is such. -/
theorem isCrypto_rc4 (md5 : Bytes → Bytes) (h : ∀ b, (md5 b).length = 16) : IsCrypto ⟨md5, Spec.rc4⟩ :=
  ⟨h, fun k b => Pdfmm.rc4_length k b, fun k b => Pdfmm.rc4_twice k b⟩

/-! ### Lengths -/

theorem padPassword_length (pw : Bytes) : (padPassword pw).length = 32 := by
  rw [padPassword, List.length_append, List.length_take, List.length_take]
  have : padding.length = 32 := rfl
  omega

theorem keyBytes_of {bits : Int} {n : Nat} (hn : n < 4294967296) (h : bits = 8 * (n : Int)) : keyBytes bits = n := by
  subst h
  rw [keyBytes, Int.mul_tdiv_cancel_left _ (by decide), Int.emod_eq_of_lt (by omega) (by omega), Int.toNat_natCast]

section
variable {C : Crypto} (hC : IsCrypto C)
include hC

theorem rehash_length (n k : Nat) : ∀ d, d.length = 16 → (rehash C n k d).length = 16 := by
  induction k with
  | zero => intro d h; exact h
  | succ k ih => intro d _; rw [rehash]; exact ih _ (hC.md5_length _)

theorem take_ne_nil {d : Bytes} (hd : d.length = 16) {n : Nat} (hn : 0 < n) : d.take n ≠ [] := by
  intro h
  have := congrArg List.length h
  rw [List.length_take, hd, List.length_nil] at this
  omega

theorem rc4Steps_ok (key : Bytes) (hk : key ≠ []) : ∀ (is : List Nat) (d : Bytes), ∃ d', rc4Steps C key is d = .ok d' ∧ d'.length = d.length
  | [], d => ⟨d, rfl, rfl⟩
  | i :: is, d => by
    rw [rc4Steps, callRc4, if_neg (by simpa using hk)]
    obtain ⟨d', h1, h2⟩ := rc4Steps_ok key hk is (C.rc4 (key.map (· ^^^ UInt8.ofNat i)) d)
    exact ⟨d', h1, by rw [h2, hC.rc4_length]⟩

omit hC in
theorem rc4Steps_append (key : Bytes) : ∀ (is js : List Nat) (d : Bytes), rc4Steps C key (is ++ js) d =
    match rc4Steps C key is d with
    | .error e => .error e
    | .ok d' => rc4Steps C key js d'
  | [], js, d => rfl
  | i :: is, js, d => by
    rw [List.cons_append, rc4Steps, rc4Steps]
    cases callRc4 C (key.map (· ^^^ UInt8.ofNat i)) d with
    | error e => rfl
    | ok d' => exact rc4Steps_append key is js d'

theorem rc4Steps_reverse (key : Bytes) (hk : key ≠ []) : ∀ (is : List Nat) (d d' : Bytes), rc4Steps C key is d = .ok d' → rc4Steps C key is.reverse d' = .ok d
  | [], d, d', h => by cases h; rfl
  | i :: is, d, d', h => by
    rw [rc4Steps, callRc4, if_neg (by simpa using hk)] at h
    rw [List.reverse_cons, rc4Steps_append, rc4Steps_reverse key hk is _ d' h]
    show rc4Steps C key [i] _ = _
    rw [rc4Steps, callRc4, if_neg (by simpa using hk)]
    show rc4Steps C key [] _ = _
    rw [rc4Steps, hC.rc4_twice]

omit hC in
theorem range20_reverse : (List.range 20).map (fun i => 19 - i) = (List.range 20).reverse := by decide

theorem ownerKey_ok (userPad ownerPad : Bytes) (kl : Nat) (r : Int) (h1 : 0 < kl) (h2 : kl ≤ 16) (hu : userPad.length = 32) :
    ∃ o, computeOwnerKey C userPad ownerPad kl r false = .ok o ∧ o.length = 32 ∧ computeOwnerKey C o ownerPad kl r true = .ok userPad := by
  simp only [computeOwnerKey]
  by_cases hr : r = 3 ∨ r = 4
  · have hne := take_ne_nil hC (rehash_length hC kl 50 _ (hC.md5_length ownerPad)) h1
    obtain ⟨o, ho, hl⟩ := rc4Steps_ok hC _ hne (List.range 20) userPad
    refine ⟨o, ?_, by rw [hl, hu], ?_⟩
    · rw [if_pos hr, if_neg (by omega)]
      exact ho
    · rw [if_pos hr, if_neg (by omega)]
      have := rc4Steps_reverse hC _ hne (List.range 20) userPad o ho
      rw [← range20_reverse] at this
      exact this
  · have hne := take_ne_nil hC (hC.md5_length ownerPad) (n := 5) (by omega)
    refine ⟨C.rc4 ((C.md5 ownerPad).take 5) userPad, ?_, by rw [hC.rc4_length, hu], ?_⟩
    · rw [if_neg hr, callRc4, if_neg hne]
    · rw [if_neg hr, callRc4, if_neg hne, hC.rc4_twice]

theorem encryptionKey_ok (docId userPad o : Bytes) (p : UInt32) (bits r : Int) (em : Bool) (h1 : 0 < keyBytes bits) (h2 : keyBytes bits ≤ 16) :
    ∃ k, computeEncryptionKey C docId userPad o p bits r em = .ok k ∧ k.keyLength = keyBytes bits ∧ k.userKey.length = 32 := by
  rw [computeEncryptionKey, if_neg (by omega)]
  dsimp only
  by_cases hr : r = 3 ∨ r = 4
  · rw [if_pos hr]
    obtain ⟨d0, hd0⟩ : ∃ d, d = C.md5 (userPad ++ o ++ permBytes p ++ docId ++ (if em then [] else [255, 255, 255, 255])) := ⟨_, rfl⟩
    rw [← hd0]
    have hl : d0.length = 16 := by rw [hd0]; exact hC.md5_length _
    have hne := take_ne_nil hC (rehash_length hC (keyBytes bits) 50 _ hl) h1
    obtain ⟨u, hu, hul⟩ := rc4Steps_ok hC _ hne (List.range 20) (C.md5 (padding ++ docId))
    rw [hu]
    refine ⟨_, rfl, rfl, ?_⟩
    show (u ++ List.replicate 16 0).length = 32
    rw [List.length_append, hul, hC.md5_length, List.length_replicate]
  · rw [if_neg hr]
    obtain ⟨d0, hd0⟩ : ∃ d, d = C.md5 (userPad ++ o ++ permBytes p ++ docId ++ (if em then [] else [255, 255, 255, 255])) := ⟨_, rfl⟩
    rw [← hd0]
    have hne := take_ne_nil hC (by rw [hd0]; exact hC.md5_length _ : d0.length = 16) h1
    rw [callRc4, if_neg hne]
    refine ⟨_, rfl, rfl, ?_⟩
    show (C.rc4 _ padding).length = 32
    rw [hC.rc4_length]; rfl

/-- What is asked of an encryption object before keys are generated. -/
structure ReadyEnc (e : Enc) : Prop where
  bytes : e.keyLength = keyBytes e.bits
  pos : 0 < e.keyLength
  small : e.keyLength ≤ 16

omit hC in
/-- The keys do not depend on whether the revision is 3 or 4. -/
theorem encryptionKey_rev (docId userPad o : Bytes) (p : UInt32) (bits : Int) (em : Bool) {r r' : Int} (h : (r = 3 ∨ r = 4) ↔ (r' = 3 ∨ r' = 4)) :
    computeEncryptionKey C docId userPad o p bits r em = computeEncryptionKey C docId userPad o p bits r' em := by
  simp only [computeEncryptionKey, h]

omit hC in
theorem ownerKey_rev (a b : Bytes) (kl : Nat) (au : Bool) {r r' : Int} (h : (r = 3 ∨ r = 4) ↔ (r' = 3 ∨ r' = 4)) :
    computeOwnerKey C a b kl r au = computeOwnerKey C a b kl r' au := by
  simp only [computeOwnerKey, h]

/-- Generating keys works, and any object that agrees in the entries of the dictionary accepts both passwords. -/
theorem generate_authenticates (e : Enc) (docId : Bytes) (he : ReadyEnc e) :
    ∃ e1, e.generate C docId = .ok e1 ∧ e1.o.length = 32 ∧ e1.u.length = 32 ∧ e1 = { e with o := e1.o, docId := docId, keyLength := e.keyLength, key := e1.key, u := e1.u } ∧
    ∀ e2 : Enc, e2.o = e1.o → e2.u = e1.u → e2.p = e.p → e2.bits = e.bits → ((e2.r = 3 ∨ e2.r = 4) ↔ (e.r = 3 ∨ e.r = 4)) → e2.encryptMetadata = e.encryptMetadata →
      (∃ e3, e2.authenticate C e.userPass docId = .ok (true, e3) ∧ e3.key = e1.key ∧ e3.keyLength = e1.keyLength ∧ e3.userPass = e.userPass ∧ e3.ownerPass = e2.ownerPass ∧
        e3.p = e.p ∧ e3.alg = e2.alg ∧ e3.bits = e.bits ∧ e3.r = e2.r ∧ e3.encryptMetadata = e.encryptMetadata) ∧
      (∃ e3, e2.authenticate C e.ownerPass docId = .ok (true, e3) ∧
        ((e3.key = e1.key ∧ e3.keyLength = e1.keyLength) ∨ ∃ e4, e2.tryUser C (padPassword e.ownerPass) docId = .ok (true, e4))) := by
  obtain ⟨o, ho, hol, hback⟩ := ownerKey_ok hC (padPassword e.userPass) (padPassword e.ownerPass) e.keyLength e.r he.pos he.small (padPassword_length _)
  have hb : 0 < keyBytes e.bits ∧ keyBytes e.bits ≤ 16 := by rw [← he.bytes]; exact ⟨he.pos, he.small⟩
  obtain ⟨k, hk, hkl, hku⟩ := encryptionKey_ok hC docId (padPassword e.userPass) o e.p e.bits e.r e.encryptMetadata hb.1 hb.2
  refine ⟨_, by rw [Enc.generate, ho]; dsimp only; rw [hk], hol, hku, ?_, ?_⟩
  · dsimp only; rw [hkl, he.bytes]
  dsimp only
  intro e2 h1 h2 h3 h4 h5 h6
  have hself : ∀ e' : Enc, e'.o = o → e'.u = k.userKey → e'.p = e.p → e'.bits = e.bits → ((e'.r = 3 ∨ e'.r = 4) ↔ (e.r = 3 ∨ e.r = 4)) → e'.encryptMetadata = e.encryptMetadata →
      e'.tryUser C (padPassword e.userPass) docId = .ok (true, { e' with docId := docId, keyLength := k.keyLength, key := k.key }) := by
    intro e' g1 g2 g3 g4 g5 g6
    rw [Enc.tryUser, g1, g3, g4, g6, encryptionKey_rev docId _ _ _ _ _ g5, hk]
    dsimp only
    rw [g2, checkKey]
    simp
  constructor
  · rw [Enc.authenticate, hself e2 h1 h2 h3 h4 h5 h6]
    exact ⟨_, rfl, rfl, rfl, rfl, rfl, h3, rfl, h4, rfl, h6⟩
  · obtain ⟨k2, hk2, hkl2, _⟩ := encryptionKey_ok hC docId (padPassword e.ownerPass) e2.o e2.p e2.bits e2.r e2.encryptMetadata (by rw [h4]; exact hb.1) (by rw [h4]; exact hb.2)
    rw [Enc.authenticate]
    have ht : ∃ b, e2.tryUser C (padPassword e.ownerPass) docId = .ok (b, { e2 with docId := docId, keyLength := k2.keyLength, key := k2.key }) := by
      rw [Enc.tryUser, hk2]; exact ⟨_, rfl⟩
    obtain ⟨b, ht⟩ := ht
    rw [ht]
    cases b with
    | true => exact ⟨_, rfl, Or.inr ⟨_, rfl⟩⟩
    | false =>
      dsimp only
      have : computeOwnerKey C e2.o (padPassword e.ownerPass) k2.keyLength e2.r true = .ok (padPassword e.userPass) := by
        rw [h1, ownerKey_rev _ _ _ _ h5, hkl2, h4, ← he.bytes, hback]
      rw [this]
      dsimp only
      rw [hself { e2 with docId := docId, keyLength := k2.keyLength, key := k2.key } h1 h2 h3 h4 h5 h6]
      exact ⟨_, rfl, Or.inl ⟨rfl, rfl⟩⟩

omit hC in
theorem perm_roundtrip (p : UInt32) : numberPerm (permNumber p) = p := by
  have hp := p.toNat_lt
  rw [numberPerm, permNumber]
  have : ((if p.toNat < 2147483648 then (p.toNat : Int) else (p.toNat : Int) - 4294967296) % 4294967296).toNat = p.toNat := by
    split <;> omega
  rw [this]
  exact UInt32.ofNat_toNat

omit hC in
theorem load_ok (alg : CryptAlg) (bits r : Int) (o u : Bytes) (p : UInt32) (em : Bool) (ho : o.length = 32) (hu : u.length = 32) :
    Enc.load alg bits r o u p em = .ok ⟨alg, bits, keyBytes bits, r, p, u, o, List.replicate 32 0, [], [], [], em⟩ := by
  have h : ∀ b : Bytes, b.length = 32 → copy32 b = .ok b := by
    intro b hb
    rw [copy32, if_neg (by omega), ← hb, List.take_length]
  rw [Enc.load, h o ho, h u hu]

/-! ### C63: the passwords open the document -/

omit hC in
theorem cutInt_small {n : Int} (h0 : 0 ≤ n) (h1 : n ≤ 128) : cutInt n = n := by
  rw [cutInt, Int.emod_eq_of_lt h0 (by omega), if_pos (by omega)]

omit hC in
theorem aes_not_v2 : ¬(((4 : Int) = 2 ∧ (4 : Int) = 3) ∨ some (if CryptAlg.aesv2 = CryptAlg.rc4v2 then nV2 else nAesV2) = some nV2) := by decide

omit hC in
/-- The dictionary of an object with the supported key lengths is read back. -/
theorem dict_roundtrip (e1 : Enc) (ho : e1.o.length = 32) (hu : e1.u.length = 32) (hem : e1.encryptMetadata = true)
    (hr : match e1.alg with | .rc4v1 => e1.r = 2 ∨ e1.r = 3 | .rc4v2 => e1.r = 3 ∨ e1.r = 4 | .aesv2 => e1.r = 4)
    (hb : match e1.alg with | .rc4v1 => e1.bits = 40 | .rc4v2 => e1.bits ≤ 128 ∧ 0 ≤ e1.bits | .aesv2 => e1.bits = 128) :
    ∃ e2, Enc.fromDict e1.toDict = .ok e2 ∧ e2.o = e1.o ∧ e2.u = e1.u ∧ e2.p = e1.p ∧ e2.bits = e1.bits ∧ e2.keyLength = keyBytes e1.bits ∧
      ((e2.r = 3 ∨ e2.r = 4) ↔ (e1.r = 3 ∨ e1.r = 4)) ∧ e2.encryptMetadata = true ∧ e2.alg = e1.alg ∧ e2.userPass = [] ∧ e2.ownerPass = [] ∧
      (match e2.alg with | .rc4v1 => e2.r = 2 ∨ e2.r = 3 | .rc4v2 => e2.r = 3 ∨ e2.r = 4 | .aesv2 => e2.r = 4) := by
  obtain ⟨alg, bits, kl, r, p, u, o, key, docId, up, op, em⟩ := e1
  dsimp only at ho hu hem hr hb
  subst hem
  cases alg with
  | rc4v1 =>
    dsimp only at hr hb
    subst hb
    refine ⟨⟨.rc4v1, 40, keyBytes 40, r, p, u, o, List.replicate 32 0, [], [], [], true⟩, ?_, rfl, rfl, rfl, rfl, rfl, Iff.rfl, rfl, rfl, rfl, rfl, hr⟩
    rw [Enc.toDict, if_neg (by simp)]
    dsimp only
    rw [Enc.fromDict, if_neg (by simp)]
    dsimp only [must]
    rw [if_pos ⟨rfl, hr⟩, perm_roundtrip]
    exact load_ok _ _ _ _ _ _ _ ho hu
  | rc4v2 =>
    dsimp only at hr hb
    refine ⟨⟨.rc4v2, bits, keyBytes bits, 3, p, u, o, List.replicate 32 0, [], [], [], true⟩, ?_, rfl, rfl, rfl, rfl, rfl, by simp [hr], rfl, rfl, rfl, rfl, Or.inl rfl⟩
    rw [Enc.toDict, if_neg (by simp)]
    dsimp only
    rw [Enc.fromDict, if_neg (by simp)]
    dsimp only [must]
    rw [if_neg (by decide), if_pos (Or.inl ⟨rfl, rfl⟩), if_neg (by simpa using hb.1), perm_roundtrip, (show cutInt ((some bits).getD 0) = bits from cutInt_small hb.2 hb.1)]
    exact load_ok _ _ _ _ _ _ _ ho hu
  | aesv2 =>
    dsimp only at hr hb
    subst hr hb
    refine ⟨⟨.aesv2, 128, keyBytes 128, 4, p, u, o, List.replicate 32 0, [], [], [], true⟩, ?_, rfl, rfl, rfl, rfl, rfl, Iff.rfl, rfl, rfl, rfl, rfl, rfl⟩
    rw [Enc.toDict, if_pos (Or.inl rfl)]
    dsimp only
    rw [Enc.fromDict, if_neg (by simp)]
    dsimp only [must]
    rw [if_neg (by decide), if_neg aes_not_v2, if_pos ⟨rfl, rfl⟩, perm_roundtrip]
    exact load_ok _ _ _ _ _ _ _ ho hu

omit hC in
theorem create_ready (user owner : Bytes) (prot : UInt32) (alg : CryptAlg) (bits : Int) (h : SupportedKey alg bits) : ReadyEnc (Enc.create user owner prot alg bits) := by
  cases alg with
  | rc4v1 => subst h; exact ⟨rfl, (by decide : 0 < 5), (by decide : 5 ≤ 16)⟩
  | aesv2 => exact ⟨rfl, (by decide : 0 < 16), (by decide : 16 ≤ 16)⟩
  | rc4v2 =>
    have hs : rc4v2Bytes bits = keyBytes bits ∧ 0 < rc4v2Bytes bits ∧ rc4v2Bytes bits ≤ 16 ∧ bits ≤ 128 := by
      rcases h with h | h | h | h | h <;> subst h <;> decide
    exact ⟨hs.1, hs.2.1, hs.2.2.1⟩

/-- A document encrypted with a user and an owner password: its dictionary is read back, with the permissions that were given, and both passwords are accepted.
The user password gives the key the document was encrypted with; so does the owner password, unless it is taken for a user password.
Missing: key lengths an algorithm is not meant for (`C63_v1_length_false`, `C63_v2_length_false`). -/
theorem C63_passwords_partial (user owner docId : Bytes) (prot : UInt32) (alg : CryptAlg) (bits : Int) (h : SupportedKey alg bits) :
    ∃ e1 e2, (Enc.create user owner prot alg bits).generate C docId = .ok e1 ∧ Enc.fromDict e1.toDict = .ok e2 ∧ e2.alg = alg ∧ e2.p = permsDefault ||| prot ∧
    (∃ e3, e2.authenticate C user docId = .ok (true, e3) ∧ e3.key = e1.key ∧ e3.keyLength = e1.keyLength) ∧
    (∃ e3, e2.authenticate C owner docId = .ok (true, e3) ∧
      ((e3.key = e1.key ∧ e3.keyLength = e1.keyLength) ∨ ∃ e4, e2.tryUser C (padPassword owner) docId = .ok (true, e4))) := by
  obtain ⟨e1, hg, ho, hu, heq, hauth⟩ := generate_authenticates hC _ docId (create_ready user owner prot alg bits h)
  have hfields : e1.encryptMetadata = true ∧ e1.alg = alg ∧ e1.p = permsDefault ||| prot ∧ e1.bits = (Enc.create user owner prot alg bits).bits ∧
      e1.r = (Enc.create user owner prot alg bits).r := by
    rw [heq]; cases alg <;> exact ⟨rfl, rfl, rfl, rfl, rfl⟩
  obtain ⟨f1, f2, f3, f4, f5⟩ := hfields
  obtain ⟨e2, hd, d1, d2, d3, d4, _, d6, d7, d8, _⟩ := dict_roundtrip e1 ho hu f1
    (by rw [f5, f2]; cases alg with
        | rc4v1 => exact Or.inl rfl
        | rc4v2 => exact Or.inl rfl
        | aesv2 => rfl)
    (by rw [f4, f2]; cases alg with
        | rc4v1 => exact h
        | rc4v2 => exact (by rcases h with h | h | h | h | h <;> omega : bits ≤ 128 ∧ 0 ≤ bits)
        | aesv2 => rfl)
  have hp : (Enc.create user owner prot alg bits).p = permsDefault ||| prot := by cases alg <;> rfl
  have hup : (Enc.create user owner prot alg bits).userPass = user := by cases alg <;> rfl
  have hop : (Enc.create user owner prot alg bits).ownerPass = owner := by cases alg <;> rfl
  have hem : (Enc.create user owner prot alg bits).encryptMetadata = true := by cases alg <;> rfl
  obtain ⟨⟨e3, a1, a2, a3, _⟩, hown⟩ := hauth e2 d1 d2 (by rw [d3, f3, hp]) (by rw [d4, f4]) (by rw [d6, f5]) (by rw [d7, hem])
  rw [hup] at a1
  rw [hop] at hown
  exact ⟨e1, e2, hg, hd, by rw [d8, f2], by rw [d3, f3], ⟨e3, a1, a2, a3⟩, hown⟩

end

/-- Hypotheses met: RC4 with a toy digest, all the algorithms. -/
example (user owner docId : Bytes) (prot : UInt32) :=
  C63_passwords_partial (isCrypto_rc4 (fun b => List.replicate 16 (b.foldl (· + ·) 0)) (fun _ => rfl)) user owner docId prot .rc4v2 56 (by right; left; rfl)

/-- A cipher for counterexamples: the key only counts by its length. -/
def lengthCipher : Crypto := ⟨fun _ => List.replicate 16 1, fun k d => d.map (· ^^^ UInt8.ofNat k.length)⟩

theorem lengthCipher_ok : IsCrypto lengthCipher :=
  ⟨fun _ => rfl, fun _ _ => by simp [lengthCipher], fun k b => by
    simp only [lengthCipher, List.map_map]
    conv => rhs; rw [← List.map_id b]
    apply List.map_congr_left
    intro x _
    simp [UInt8.xor_assoc, UInt8.xor_self]⟩

/-- RC4 version 1 with a key length other than 40 bits (`PdfEncrypt::Create` takes any): the keys are generated with that length, but the dictionary does not
say so, and the reader uses 40 bits.  With the cipher above no password at all is accepted. -/
theorem C63_v1_length_false (user owner docId pw : Bytes) (prot : UInt32) :
    ∃ e1 e2, (Enc.create user owner prot .rc4v1 128).generate lengthCipher docId = .ok e1 ∧ Enc.fromDict e1.toDict = .ok e2 ∧ e1.keyLength = 16 ∧ e2.keyLength = 5 ∧
    ∃ e3, e2.authenticate lengthCipher pw docId = .ok (false, e3) := by
  have hgen : ∃ o, (Enc.create user owner prot .rc4v1 128).generate lengthCipher docId =
      .ok ⟨.rc4v1, 128, 16, 2, permsDefault ||| prot, padding.map (· ^^^ 16), o, List.replicate 16 1, docId, user, owner, true⟩ ∧ o.length = 32 := by
    refine ⟨(padPassword user).map (· ^^^ 5), ?_, by rw [List.length_map, padPassword_length]⟩
    rfl
  obtain ⟨o, hg, ho⟩ := hgen
  refine ⟨_, ⟨.rc4v1, 40, 5, 2, permsDefault ||| prot, padding.map (· ^^^ 16), o, List.replicate 32 0, [], [], [], true⟩, hg, ?_, rfl, rfl, ?_⟩
  · rw [Enc.toDict, if_neg (by simp)]
    dsimp only
    rw [Enc.fromDict, if_neg (by simp)]
    dsimp only [must]
    rw [if_pos ⟨rfl, Or.inl rfl⟩, perm_roundtrip, load_ok _ _ _ _ _ _ _ ho (by rfl)]
    rfl
  · have ht : ∀ (e : Enc) (up : Bytes), e.bits = 40 → e.r = 2 → e.u = padding.map (· ^^^ 16) → e.tryUser lengthCipher up docId =
        .ok (false, { e with docId := docId, keyLength := 5, key := List.replicate 5 1 }) := by
      intro e up h1 h2 h3
      have hk : computeEncryptionKey lengthCipher docId up e.o e.p 40 2 e.encryptMetadata = .ok ⟨5, List.replicate 5 1, padding.map (· ^^^ 5)⟩ := rfl
      have hc : checkKey 5 (padding.map (· ^^^ 5)) (padding.map (· ^^^ 16)) = false := by decide
      rw [Enc.tryUser, h1, h2, h3, hk]
      dsimp only
      rw [hc]
    rw [Enc.authenticate, ht _ _ rfl rfl rfl]
    dsimp only
    have hok : ∃ x, computeOwnerKey lengthCipher o (padPassword pw) 5 2 true = .ok x := ⟨_, rfl⟩
    obtain ⟨x, hx⟩ := hok
    rw [hx]
    dsimp only
    rw [ht _ _ rfl rfl rfl]
    exact ⟨_, rfl⟩

/-- RC4 version 2 with a key length of 256 bits: the key length of the object is cut to 128, but the one used for the key is not, and the digest is read beyond its end. -/
theorem C63_v2_length_false (C : Crypto) (hC : IsCrypto C) (user owner docId : Bytes) (prot : UInt32) : (Enc.create user owner prot .rc4v2 256).generate C docId = .error .ub := by
  obtain ⟨o, ho, _⟩ := ownerKey_ok hC (padPassword user) (padPassword owner) 16 3 (by omega) (by omega) (padPassword_length _)
  rw [Enc.generate]
  have : (Enc.create user owner prot .rc4v2 256).keyLength = 16 := rfl
  show (match computeOwnerKey C (padPassword user) (padPassword owner) 16 3 false with | .error x => _ | .ok o => _) = _
  rw [ho]
  rfl

/-- C63: the password goes into the hash as the standard says (ISO 32000-1, algorithm 2, step a): the first 32 bytes of the password
followed by the padding. -/
theorem C63_padding (pw : Bytes) : padPassword pw = (pw ++ padding).take 32 ∧ (padPassword pw).length = 32 := by
  have hp : padding.length = 32 := rfl
  have h : padPassword pw = (pw ++ padding).take 32 := by
    rw [padPassword, List.take_append, List.length_take]
    by_cases h : pw.length ≤ 32
    · rw [show min 32 pw.length = pw.length by omega]
    · rw [show 32 - min 32 pw.length = 0 by omega, show 32 - pw.length = 0 by omega]
  refine ⟨h, ?_⟩
  rw [h, List.length_take, List.length_append, hp]; omega

example : padPassword [97, 98] = 97 :: 98 :: padding.take 30 := by decide +kernel

end Pdfmm
