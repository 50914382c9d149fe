import Verif.Crypt.Password
import Verif.Streams.Device
/-
Saving an encrypted document again, the file identifier, and what is read from the encryption dictionary.
Properties C63 (permissions), C109, C110, C111, C112.
-/
set_option autoImplicit false
namespace Pdfmm
open Spec

/-! ### The model -/

/-- What the writer leaves in the file for the next reader: the encryption dictionary and the first string of /ID. -/
structure SavedEnc where
  dict : EncDict
  id0 : Bytes

/-- `PdfWriter::Write` and `FillTrailerObject`, `src/pdfmm/base/PdfWriter.cpp:72-83,201-207`, with the copy of the encryption object
(`src/pdfmm/base/PdfEncrypt.cpp:560-577,592-606`): O, U and the key are made anew, the passwords are those of the object. -/
def saveEnc (C : Crypto) (e : Enc) (incremental : Bool) (original identifier : Bytes) : Res SavedEnc :=
  match e.generate C identifier with
  | .error x => .error x
  | .ok e1 => .ok ⟨e1.toDict, if incremental ∧ original ≠ [] then original else identifier⟩

/-- `PdfParser::ReadObjects`, `src/pdfmm/base/PdfParser.cpp:606-668`, as far as the password is concerned. -/
def openEnc (C : Crypto) (d : EncDict) (id0 pw : Bytes) : Res Enc :=
  match Enc.fromDict d with
  | .error x => .error x
  | .ok e =>
    match e.authenticate C pw id0 with
    | .error x => .error x
    | .ok (false, _) => raise .InvalidPassword
    | .ok (true, e1) => .ok e1

/-- `PdfWriter::CreateFileIdentifier`, `src/pdfmm/base/PdfWriter.cpp:285-298`: the information dictionary is written twice, first to find its length, then to a
buffer of that length; MD5 is taken of that many bytes of the buffer.  The arguments are the pieces in which the dictionary is written. -/
def fileIdentifier (C : Crypto) (pieces : List Bytes) : Bytes :=
  let n := pieces.flatten.length
  let dev := pieces.foldl (fun d b => (d.writeBuffer b).2) (MemDev.ofContainer (List.replicate n 0) true true true)
  C.md5 (dev.data.take n)

/-- `IsPrintAllowed` and the like, `src/pdfmm/base/PdfEncrypt.cpp:1905-1943`: the bit is set. -/
def Enc.allows (e : Enc) (bit : UInt32) : Bool := e.p &&& bit == bit

/-- `PdfPermissions`, `src/pdfmm/base/PdfEncrypt.h:64-83`. -/
def permissionBits : List UInt32 := [4, 8, 16, 32, 256, 512, 1024, 2048]

/-! ### Permissions -/

section
variable {C : Crypto} (hC : IsCrypto C)
include hC

/-- After writing and reading, exactly the permissions that were given are reported. -/
theorem C63_permissions (user owner docId : Bytes) (prot : UInt32) (alg : CryptAlg) (bits : Int) (h : SupportedKey alg bits) :
    ∃ e1 e2, (Enc.create user owner prot alg bits).generate C docId = .ok e1 ∧ Enc.fromDict e1.toDict = .ok e2 ∧
    ∀ bit ∈ permissionBits, (e2.allows bit = true ↔ prot &&& bit = bit) := by
  obtain ⟨e1, e2, h1, h2, _, h4, _⟩ := C63_passwords_partial hC user owner docId prot alg bits h
  refine ⟨e1, e2, h1, h2, fun bit hb => ?_⟩
  have hz : permsDefault &&& bit = 0 := by
    revert hb bit
    decide
  rw [Enc.allows, h4]
  have : (permsDefault ||| prot) &&& bit = prot &&& bit := by
    have hd : (permsDefault ||| prot) &&& bit = (permsDefault &&& bit) ||| (prot &&& bit) :=
      UInt32.toBitVec_inj.1 (by simp only [UInt32.toBitVec_and, UInt32.toBitVec_or, BitVec.and_or_distrib_right])
    rw [hd, hz, UInt32.zero_or]
  rw [this]
  simp

/-! ### C109: saving again -/

omit hC in
theorem rc4Steps_nil_key (is : List Nat) (i : Nat) (d : Bytes) : rc4Steps C [] (i :: is) d = raise .InternalLogic := rfl

omit hC in
theorem encryptionKey_bytes {docId userPad o : Bytes} {p : UInt32} {bits r : Int} {em : Bool} {k : KeyOut}
    (h : computeEncryptionKey C docId userPad o p bits r em = .ok k) : k.keyLength = keyBytes bits ∧ 0 < keyBytes bits ∧ keyBytes bits ≤ 16 := by
  rw [computeEncryptionKey] at h
  by_cases hb : 16 < keyBytes bits
  · rw [if_pos hb] at h; cases h
  · rw [if_neg hb] at h
    dsimp only at h
    rcases Nat.eq_zero_or_pos (keyBytes bits) with h0 | h0
    · rw [h0] at h
      simp only [List.take_zero] at h
      split at h
      · rw [show List.range 20 = 0 :: (List.range 20).tail from rfl, rc4Steps_nil_key] at h
        cases h
      · cases h
    · refine ⟨?_, h0, by omega⟩
      split at h
      · split at h
        · cases h
        · cases h; rfl
      · split at h
        · cases h
        · cases h; rfl

omit hC in
theorem tryUser_fields {e e' : Enc} {up docId : Bytes} {b : Bool} (h : e.tryUser C up docId = .ok (b, e')) :
    e'.alg = e.alg ∧ e'.bits = e.bits ∧ e'.r = e.r ∧ e'.p = e.p ∧ e'.o = e.o ∧ e'.u = e.u ∧ e'.userPass = e.userPass ∧ e'.ownerPass = e.ownerPass ∧
    e'.encryptMetadata = e.encryptMetadata ∧ ReadyEnc e' := by
  rw [Enc.tryUser] at h
  split at h
  · cases h
  · rename_i k hk
    cases h
    have := encryptionKey_bytes hk
    exact ⟨rfl, rfl, rfl, rfl, rfl, rfl, rfl, rfl, rfl, ⟨this.1, by show 0 < k.keyLength; omega, by show k.keyLength ≤ 16; omega⟩⟩

omit hC in
/-- Opening remembers the one password that was given. -/
theorem authenticate_fields {e e' : Enc} {pw docId : Bytes} (h : e.authenticate C pw docId = .ok (true, e')) :
    e'.alg = e.alg ∧ e'.bits = e.bits ∧ e'.r = e.r ∧ e'.p = e.p ∧ e'.encryptMetadata = e.encryptMetadata ∧ ReadyEnc e' ∧
    ((e'.userPass = pw ∧ e'.ownerPass = e.ownerPass) ∨ (e'.userPass = e.userPass ∧ e'.ownerPass = pw)) := by
  rw [Enc.authenticate] at h
  split at h
  · cases h
  · rename_i e1 h1
    cases h
    obtain ⟨a1, a2, a3, a4, a5, a6, a7, a8, a9, a10⟩ := tryUser_fields h1
    exact ⟨a1, a2, a3, a4, a9, ⟨a10.bytes, a10.pos, a10.small⟩, Or.inl ⟨rfl, a8⟩⟩
  · rename_i e1 h1
    obtain ⟨a1, a2, a3, a4, a5, a6, a7, a8, a9, a10⟩ := tryUser_fields h1
    split at h
    · cases h
    · split at h
      · cases h
      · rename_i e2 h2
        cases h
        obtain ⟨b1, b2, b3, b4, b5, b6, b7, b8, b9, b10⟩ := tryUser_fields h2
        exact ⟨by dsimp only; rw [b1, a1], by dsimp only; rw [b2, a2], by dsimp only; rw [b3, a3], by dsimp only; rw [b4, a4], by dsimp only; rw [b9, a9],
          ⟨b10.bytes, b10.pos, b10.small⟩, Or.inr ⟨by dsimp only; rw [b7, a7], rfl⟩⟩
      · cases h

omit hC in
theorem load_fields {alg : CryptAlg} {bits r : Int} {o u : Bytes} {p : UInt32} {em : Bool} {e : Enc} (h : Enc.load alg bits r o u p em = .ok e) :
    e.alg = alg ∧ e.bits = bits ∧ e.r = r ∧ e.p = p ∧ e.encryptMetadata = em ∧ e.userPass = [] ∧ e.ownerPass = [] := by
  rw [Enc.load] at h
  split at h
  · cases h
  · split at h
    · cases h
    · cases h; exact ⟨rfl, rfl, rfl, rfl, rfl, rfl, rfl⟩

/-- What is asked of the dictionary of a document that is opened: metadata are encrypted too, RC4 with crypt filters has revision 3 or 4, and
the key length is in the range of `int`. -/
def Spec.PlainDict (d : EncDict) : Prop := d.encryptMetadata ≠ some false ∧ (d.cfm = some nV2 → d.r = some 3 ∨ d.r = some 4) ∧
  -2147483648 ≤ d.length.getD 0

omit hC in
theorem fromDict_fields {d : EncDict} {e : Enc} (hd : PlainDict d) (h : Enc.fromDict d = .ok e) :
    e.encryptMetadata = true ∧ e.userPass = [] ∧ e.ownerPass = [] ∧ (match e.alg with | .rc4v1 => e.r = 2 ∨ e.r = 3 | .rc4v2 => e.r = 3 ∨ e.r = 4 | .aesv2 => e.r = 4) ∧
    (match e.alg with | .rc4v1 => e.bits = 40 | .rc4v2 => e.bits ≤ 128 ∧ -2147483648 ≤ e.bits | .aesv2 => e.bits = 128) ∧ e.p = numberPerm (d.p.getD 0) := by
  have hem : d.encryptMetadata.getD true = true := by
    have := hd.1
    revert this
    rcases d.encryptMetadata with _ | b
    · intro _; rfl
    · cases b
      · intro h; exact absurd rfl h
      · intro _; rfl
  rw [Enc.fromDict] at h
  split at h
  · cases h
  · split at h
    · rename_i v r p o u g1 g2 g3 g4 g5
      have hp : d.p.getD 0 = p := by
        cases hdp : d.p with
        | none => rw [hdp] at g3; cases g3
        | some x => rw [hdp] at g3; cases g3; rfl
      rw [hem] at h
      dsimp only at h
      split at h
      · rename_i hv
        obtain ⟨a1, a2, a3, a4, a5, a6, a7⟩ := load_fields h
        refine ⟨a5, a6, a7, ?_, ?_, by rw [a4, hp]⟩
        · rw [a1]; show e.r = 2 ∨ e.r = 3; rw [a3]; exact hv.2
        · rw [a1]; exact a2
      · split at h
        · rename_i hv
          split at h
          · cases h
          · obtain ⟨a1, a2, a3, a4, a5, a6, a7⟩ := load_fields h
            refine ⟨a5, a6, a7, ?_, ?_, by rw [a4, hp]⟩
            · rw [a1]
              show e.r = 3 ∨ e.r = 4
              rw [a3]
              rcases hv with hv | hv
              · exact Or.inl hv.2
              · have := hd.2.1 hv
                rcases this with h3 | h3
                · rw [h3] at g2; cases g2; exact Or.inl rfl
                · rw [h3] at g2; cases g2; exact Or.inr rfl
            · rw [a1]
              show e.bits ≤ 128 ∧ -2147483648 ≤ e.bits
              rw [a2, cutInt]
              have := hd.2.2
              split <;> omega
        · split at h
          · obtain ⟨a1, a2, a3, a4, a5, a6, a7⟩ := load_fields h
            exact ⟨a5, a6, a7, by rw [a1]; exact a3, by rw [a1]; exact a2, by rw [a4, hp]⟩
          · cases h
    · cases h

omit hC in
theorem keyBytes_range {bits : Int} (h1 : bits ≤ 128) (h2 : -2147483648 ≤ bits) (h3 : 0 < keyBytes bits) (h4 : keyBytes bits ≤ 16) : 0 ≤ bits := by
  rw [keyBytes] at h3 h4
  rcases Int.lt_or_le bits 0 with h | h
  · obtain ⟨m, hm⟩ : ∃ m : Int, m = -bits := ⟨_, rfl⟩
    have hb : bits = -m := by omega
    rw [hb, Int.neg_tdiv, Int.tdiv_eq_ediv_of_nonneg (by omega)] at h3 h4
    omega
  · exact h

/-- A document that was opened with a password and is saved: the saved file opens with that password and with the *empty* password. -/
theorem resave_opens (d : EncDict) (id0 pw original identifier : Bytes) (e : Enc) (hd : PlainDict d)  (h : openEnc C d id0 pw = .ok e) : ∃ f, saveEnc C e false original identifier = .ok f ∧ f.id0 = identifier ∧
      (∃ e', openEnc C f.dict f.id0 pw = .ok e' ∧ e'.p = numberPerm (d.p.getD 0) ∧ e'.alg = e.alg) ∧ ∃ e', openEnc C f.dict f.id0 [] = .ok e' := by
  rw [openEnc] at h
  split at h
  · cases h
  rename_i e0 h0
  split at h
  · cases h
  · cases h
  rename_i e1 ha
  cases h
  obtain ⟨f1, f2, f3, f4, f5, f6⟩ := fromDict_fields hd h0
  obtain ⟨a1, a2, a3, a4, a5, a6, a7⟩ := authenticate_fields ha
  obtain ⟨g, hg, ho, hu, heq, hauth⟩ := generate_authenticates hC e identifier a6
  have hem : e.encryptMetadata = true := by rw [a5, f1]
  have g1 : g.encryptMetadata = true := by rw [heq]; exact hem
  have g2 : g.alg = e0.alg := by rw [heq]; exact a1
  have g3 : g.r = e0.r := by rw [heq]; exact a3
  have g4 : g.bits = e0.bits := by rw [heq]; exact a2
  have g5 : g.p = e0.p := by rw [heq]; exact a4
  have hbits : match e0.alg with | .rc4v1 => e0.bits = 40 | .rc4v2 => e0.bits ≤ 128 ∧ 0 ≤ e0.bits | .aesv2 => e0.bits = 128 := by
    have hk : 0 < keyBytes e0.bits ∧ keyBytes e0.bits ≤ 16 := by rw [← a2, ← a6.bytes]; exact ⟨a6.pos, a6.small⟩
    revert f5
    cases e0.alg with
    | rc4v1 => exact id
    | aesv2 => exact id
    | rc4v2 => exact fun hh => ⟨hh.1, keyBytes_range hh.1 hh.2 hk.1 hk.2⟩
  obtain ⟨e2, hd2, d1, d2, d3, d4, _, d6, d7, d8, _⟩ := dict_roundtrip g ho hu g1 (by rw [g2, g3]; exact f4) (by rw [g2, g4]; exact hbits)
  obtain ⟨⟨x, x1, x2, x3, x4, x5, x6, x7, _⟩, ⟨y, y1, _⟩⟩ := hauth e2 d1 d2 (by rw [d3, g5, a4]) (by rw [d4, g4, a2]) (by rw [d6, g3, a3]) (by rw [d7, hem])
  have hy := authenticate_fields y1
  refine ⟨⟨g.toDict, identifier⟩, ?_, rfl, ?_, ?_⟩
  · rw [saveEnc, hg]; simp
  · rcases a7 with ⟨p1, p2⟩ | ⟨p1, p2⟩
    · rw [p1] at x1
      refine ⟨x, ?_, by rw [x6, a4, f6], by rw [x7, d8, g2, a1]⟩
      rw [openEnc, hd2]; dsimp only; rw [x1]
    · rw [p2] at y1
      refine ⟨y, ?_, by rw [hy.2.2.2.1, d3, g5, f6], by rw [hy.1, d8, g2, a1]⟩
      rw [openEnc, hd2]; dsimp only; rw [y1]
  · rcases a7 with ⟨p1, p2⟩ | ⟨p1, p2⟩
    · rw [p2, f3] at y1
      exact ⟨y, by rw [openEnc, hd2]; dsimp only; rw [y1]⟩
    · rw [p1, f2] at x1
      exact ⟨x, by rw [openEnc, hd2]; dsimp only; rw [x1]⟩

/-- A document that was opened with a password and is saved: the saved file opens with that password, and the algorithm and the permissions stay.
Missing: the other password (`C109_empty_password_false`). -/
theorem C109_given_password_partial (d : EncDict) (id0 pw original identifier : Bytes) (e : Enc) (hd : PlainDict d)
    (h : openEnc C d id0 pw = .ok e) : ∃ f e', saveEnc C e false original identifier = .ok f ∧ openEnc C f.dict f.id0 pw = .ok e' ∧
      e'.p = numberPerm (d.p.getD 0) ∧ e'.alg = e.alg := by
  obtain ⟨f, h1, _, ⟨e', h3, h4, h5⟩, _⟩ := resave_opens hC d id0 pw original identifier e hd h
  exact ⟨f, e', h1, h3, h4, h5⟩

/-- Whatever the passwords of a document are: opened with one of them and saved, it can be opened with the *empty* password. -/
theorem C109_empty_password_false (d : EncDict) (id0 pw original identifier : Bytes) (e : Enc) (hd : PlainDict d)
    (h : openEnc C d id0 pw = .ok e) : ∃ f e', saveEnc C e false original identifier = .ok f ∧ openEnc C f.dict f.id0 [] = .ok e' := by
  obtain ⟨f, h1, _, _, e', h3⟩ := resave_opens hC d id0 pw original identifier e hd h
  exact ⟨f, e', h1, h3⟩

/-- A document saved with two passwords: it is opened with one of them, saved, and opens without any. -/
theorem C109_two_saves_false (user owner pw : Bytes) (prot : UInt32) (alg : CryptAlg) (bits : Int) (hs : SupportedKey alg bits) (id1 id2 : Bytes)
    (hpw : pw = user ∨ pw = owner) : ∃ f1 e1 f2 e2, saveEnc C (Enc.create user owner prot alg bits) false [] id1 = .ok f1 ∧ openEnc C f1.dict f1.id0 pw = .ok e1 ∧
      saveEnc C e1 false id1 id2 = .ok f2 ∧ openEnc C f2.dict f2.id0 [] = .ok e2 := by
  obtain ⟨e1, e2, hg, hd, hal, hp, ⟨x, x1, _⟩, ⟨y, y1, _⟩⟩ := C63_passwords_partial hC user owner id1 prot alg bits hs
  have hopen : ∃ z, openEnc C e1.toDict id1 pw = .ok z := by
    rcases hpw with rfl | rfl
    · exact ⟨x, by rw [openEnc, hd]; dsimp only; rw [x1]⟩
    · exact ⟨y, by rw [openEnc, hd]; dsimp only; rw [y1]⟩
  obtain ⟨z, hz⟩ := hopen
  have hplain : PlainDict e1.toDict := by
    obtain ⟨g, hg', _, _, heq, _⟩ := generate_authenticates hC _ id1 (create_ready user owner prot alg bits hs)
    rw [hg] at hg'
    cases hg'
    rw [heq]
    cases alg with
    | rc4v1 => exact ⟨by simp [Enc.toDict, Enc.create], by simp [Enc.toDict, Enc.create], by simp [Enc.toDict, Enc.create]⟩
    | rc4v2 =>
      refine ⟨by simp [Enc.toDict, Enc.create], by simp [Enc.toDict, Enc.create], ?_⟩
      have : -2147483648 ≤ bits := by rcases hs with h | h | h | h | h <;> omega
      simpa [Enc.toDict, Enc.create] using this
    | aesv2 => exact ⟨by simp [Enc.toDict, Enc.create], by simp [Enc.toDict, Enc.create], by simp [Enc.toDict, Enc.create]⟩
  obtain ⟨f2, e3, h1, h2⟩ := C109_empty_password_false hC e1.toDict id1 pw id1 id2 z hplain hz
  refine ⟨⟨e1.toDict, id1⟩, z, f2, e3, ?_, hz, h1, h2⟩
  rw [saveEnc, hg]; simp

end

/-- The hypotheses are met by every document that was saved with passwords, here with RC4 itself and any digest. -/
example (md5 : Bytes → Bytes) (h : ∀ b, (md5 b).length = 16) (user owner id1 id2 : Bytes) :=
  C109_two_saves_false (isCrypto_rc4 md5 h) user owner owner 4 .aesv2 0 trivial id1 id2 (Or.inr rfl)

section
variable {C : Crypto}

/-! ### C110: incremental updates -/

/-- When the identifier made for the update is the one the document has, an update leaves the same dictionary as saving. Missing: any other identifier (`C110_update_false`). -/
theorem C110_same_identifier_partial (e : Enc) (original : Bytes) : saveEnc C e true original original = saveEnc C e false original original := by
  rw [saveEnc, saveEnc]
  split
  · rfl
  · simp

end

/-- A digest for counterexamples: only the last byte counts. -/
def lastCipher : Crypto := ⟨fun b => List.replicate 16 (b.getLastD 0), fun k d => d.map (· ^^^ k.headD 0)⟩

theorem lastCipher_ok : IsCrypto lastCipher :=
  ⟨fun _ => rfl, fun _ _ => by simp [lastCipher], fun k b => by
    simp only [lastCipher, List.map_map]
    conv => rhs; rw [← List.map_id b]
    apply List.map_congr_left
    intro x _
    simp [UInt8.xor_assoc, UInt8.xor_self]⟩

/-- With that digest the keys of RC4 version 1 come from the document id alone. -/
theorem lastCipher_key (pre up o : Bytes) (x : Byte) (p : UInt32) :
    computeEncryptionKey lastCipher (pre ++ [x]) up o p 40 2 true = .ok ⟨5, List.replicate 5 x, padding.map (· ^^^ x)⟩ := by
  rw [computeEncryptionKey, if_neg (by decide)]
  dsimp only
  rw [if_neg (by decide)]
  have h : lastCipher.md5 (up ++ o ++ permBytes p ++ (pre ++ [x]) ++ (if true = true then [] else [255, 255, 255, 255])) = List.replicate 16 x := by
    have : up ++ o ++ permBytes p ++ (pre ++ [x]) ++ (if true = true then [] else [255, 255, 255, 255]) = (up ++ o ++ permBytes p ++ pre) ++ [x] := by
      rw [if_pos rfl, List.append_nil, ← List.append_assoc]
    rw [this]
    show List.replicate 16 (((up ++ o ++ permBytes p ++ pre) ++ [x]).getLastD 0) = _
    rw [List.getLastD_concat]
  rw [h]
  rfl

theorem lastCipher_generate (e : Enc) (hb : e.bits = 40) (hr : e.r = 2) (hem : e.encryptMetadata = true) (pre : Bytes) (x : Byte) :
    ∃ o, o.length = 32 ∧ e.generate lastCipher (pre ++ [x]) =
      .ok { e with o := o, docId := pre ++ [x], keyLength := 5, key := List.replicate 5 x, u := padding.map (· ^^^ x) } := by
  have ho : ∃ o, o.length = 32 ∧ computeOwnerKey lastCipher (padPassword e.userPass) (padPassword e.ownerPass) e.keyLength 2 false = .ok o := by
    refine ⟨(padPassword e.userPass).map (· ^^^ (padPassword e.ownerPass).getLastD 0), by rw [List.length_map, padPassword_length], ?_⟩
    rw [computeOwnerKey, if_neg (by decide)]
    rfl
  obtain ⟨o, hl, ho⟩ := ho
  refine ⟨o, hl, ?_⟩
  rw [Enc.generate, hr, ho]
  dsimp only
  rw [hb, hem, lastCipher_key]

theorem lastCipher_dict (e : Enc) (hb : e.bits = 40) (hr : e.r = 2) (hem : e.encryptMetadata = true) (halg : e.alg = .rc4v1) (ho : e.o.length = 32) (hu : e.u.length = 32) :
    Enc.fromDict e.toDict = .ok ⟨.rc4v1, 40, 5, 2, e.p, e.u, e.o, List.replicate 32 0, [], [], [], true⟩ := by
  rw [Enc.toDict, halg, hem, if_neg (by simp)]
  dsimp only
  rw [Enc.fromDict, if_neg (by simp)]
  dsimp only [must]
  rw [if_pos ⟨rfl, Or.inl hr⟩, perm_roundtrip]
  rw [hr]
  exact load_ok _ _ _ _ _ _ _ ho hu

theorem lastCipher_check (x y : Byte) : checkKey 5 (padding.map (· ^^^ x)) (padding.map (· ^^^ y)) = true → x = y := by
  intro h
  rw [checkKey, beq_iff_eq] at h
  have h1 : ∀ z : Byte, ((padding.map (· ^^^ z)).take 5).head? = some (0x28 ^^^ z) := fun _ => rfl
  have h2 := congrArg List.head? h
  rw [h1, h1] at h2
  have h3 := Option.some.inj h2
  have h4 := congrArg (fun t => 0x28 ^^^ t) h3
  simpa [← UInt8.xor_assoc, UInt8.xor_self] using h4

/-- A document is updated incrementally after an identifier different from its own was made: the key comes from the new one, but the reader takes the first string of
/ID, which is the old one.  With the digest above, no password opens the updated file. -/
theorem C110_update_false (user owner pre1 pre2 : Bytes) (x y : Byte) (hxy : x ≠ y) (prot : UInt32) :
    ∃ f1 e1 f2, saveEnc lastCipher (Enc.create user owner prot .rc4v1 40) false [] (pre1 ++ [x]) = .ok f1 ∧ openEnc lastCipher f1.dict f1.id0 user = .ok e1 ∧
      saveEnc lastCipher e1 true f1.id0 (pre2 ++ [y]) = .ok f2 ∧ ∀ pw, openEnc lastCipher f2.dict f2.id0 pw = raise .InvalidPassword := by
  obtain ⟨o1, hl1, hg1⟩ := lastCipher_generate (Enc.create user owner prot .rc4v1 40) rfl rfl rfl pre1 x
  have hul : ∀ z : Byte, (padding.map (· ^^^ z)).length = 32 := fun _ => rfl
  have hd1 := lastCipher_dict { Enc.create user owner prot .rc4v1 40 with
    o := o1, docId := pre1 ++ [x], keyLength := 5, key := List.replicate 5 x, u := padding.map (· ^^^ x) } rfl rfl rfl rfl hl1 (hul x)
  have htry : ∀ (e : Enc) (up : Bytes), e.bits = 40 → e.r = 2 → e.encryptMetadata = true → e.tryUser lastCipher up (pre1 ++ [x]) =
      .ok (checkKey 5 (padding.map (· ^^^ x)) e.u, { e with docId := pre1 ++ [x], keyLength := 5, key := List.replicate 5 x }) := by
    intro e up h1 h2 h3
    rw [Enc.tryUser, h1, h2, h3, lastCipher_key]
  obtain ⟨e1, he1⟩ : ∃ e1 : Enc, e1 = ⟨.rc4v1, 40, 5, 2, (Enc.create user owner prot .rc4v1 40).p, padding.map (· ^^^ x), o1, List.replicate 5 x, pre1 ++ [x], user, [], true⟩ := ⟨_, rfl⟩
  have hopen : openEnc lastCipher (Enc.toDict { Enc.create user owner prot .rc4v1 40 with
      o := o1, docId := pre1 ++ [x], keyLength := 5, key := List.replicate 5 x, u := padding.map (· ^^^ x) }) (pre1 ++ [x]) user = .ok e1 := by
    rw [openEnc, hd1]
    dsimp only
    rw [Enc.authenticate, htry _ _ rfl rfl rfl]
    dsimp only
    have : checkKey 5 (padding.map (· ^^^ x)) (padding.map (· ^^^ x)) = true := by rw [checkKey]; simp
    rw [this, he1]
  obtain ⟨o2, hl2, hg2⟩ := lastCipher_generate e1 (by rw [he1]) (by rw [he1]) (by rw [he1]) pre2 y
  have hd2 := lastCipher_dict { e1 with o := o2, docId := pre2 ++ [y], keyLength := 5, key := List.replicate 5 y, u := padding.map (· ^^^ y) }
    (by rw [he1]) (by rw [he1]) (by rw [he1]) (by rw [he1]) hl2 (hul y)
  refine ⟨_, e1, _, by rw [saveEnc, hg1], ?_, by rw [saveEnc, hg2], ?_⟩
  · simp only [Bool.false_eq_true, false_and, if_false]
    exact hopen
  · intro pw
    have hid : (if true = true ∧ (if false = true ∧ ([] : Bytes) ≠ [] then [] else pre1 ++ [x]) ≠ [] then (if false = true ∧ ([] : Bytes) ≠ [] then [] else pre1 ++ [x]) else pre2 ++ [y]) =
        pre1 ++ [x] := by
      simp
    dsimp only
    rw [hid, openEnc, hd2]
    dsimp only
    have hch : checkKey 5 (padding.map (· ^^^ x)) (padding.map (· ^^^ y)) = false := by
      cases hc : checkKey 5 (padding.map (· ^^^ x)) (padding.map (· ^^^ y)) with
      | false => rfl
      | true => exact absurd (lastCipher_check x y hc) hxy
    rw [Enc.authenticate, htry _ _ rfl rfl rfl]
    dsimp only
    rw [hch]
    dsimp only
    have hown : ∃ w, computeOwnerKey lastCipher o2 (padPassword pw) 5 2 true = .ok w := by
      rw [computeOwnerKey, if_neg (by decide)]
      exact ⟨_, rfl⟩
    obtain ⟨w, hw⟩ := hown
    rw [hw]
    dsimp only
    rw [htry _ _ rfl rfl rfl]
    dsimp only
    rw [hch]

/-! ### C111: encryption dictionaries of any kind -/

theorem rc4Steps_no_ub (C : Crypto) (key : Bytes) : ∀ (is : List Nat) (d : Bytes), rc4Steps C key is d ≠ .error .ub
  | [], d => by rw [rc4Steps]; intro h; cases h
  | i :: is, d => by
    rw [rc4Steps, callRc4]
    split
    · rename_i e he
      intro h
      cases h
      split at he
      · cases he
      · cases he
    · exact rc4Steps_no_ub C key is _

theorem callRc4_no_ub (C : Crypto) (key d : Bytes) : callRc4 C key d ≠ .error .ub := by
  rw [callRc4]
  split <;> (intro h; cases h)

theorem ownerKey_no_ub (C : Crypto) (a b : Bytes) (kl : Nat) (r : Int) (au : Bool) (h : kl ≤ 16) : computeOwnerKey C a b kl r au ≠ .error .ub := by
  rw [computeOwnerKey]
  split
  · rw [if_neg (by omega)]; exact rc4Steps_no_ub C _ _ _
  · exact callRc4_no_ub C _ _

theorem encryptionKey_no_ub (C : Crypto) (docId up o : Bytes) (p : UInt32) (bits r : Int) (em : Bool) (h : keyBytes bits ≤ 16) :
    computeEncryptionKey C docId up o p bits r em ≠ .error .ub := by
  rw [computeEncryptionKey, if_neg (by omega)]
  dsimp only
  split
  · split
    · rename_i e he
      intro h; cases h
      exact rc4Steps_no_ub C _ _ _ he
    · intro h; cases h
  · split
    · rename_i e he
      intro h; cases h
      exact callRc4_no_ub C _ _ he
    · intro h; cases h

theorem tryUser_no_ub (C : Crypto) (e : Enc) (up docId : Bytes) (h : keyBytes e.bits ≤ 16) : e.tryUser C up docId ≠ .error .ub := by
  rw [Enc.tryUser]
  split
  · rename_i x hx
    intro h'; cases h'
    exact encryptionKey_no_ub C _ _ _ _ _ _ _ h hx
  · intro h'; cases h'

theorem authenticate_no_ub (C : Crypto) (e : Enc) (pw docId : Bytes) (h : keyBytes e.bits ≤ 16) : e.authenticate C pw docId ≠ .error .ub := by
  rw [Enc.authenticate]
  split
  · rename_i x hx
    intro h'; cases h'
    exact tryUser_no_ub C e _ _ h hx
  · intro h'; cases h'
  · rename_i e1 h1
    have hf := tryUser_fields h1
    split
    · rename_i x hx
      intro h'; cases h'
      exact ownerKey_no_ub C _ _ _ _ _ (by rw [hf.2.2.2.2.2.2.2.2.2.bytes, hf.2.1]; exact h) hx
    · split
      · rename_i x hx
        intro h'; cases h'
        exact tryUser_no_ub C e1 _ _ (by rw [hf.2.1]; exact h) hx
      · intro h'; cases h'
      · intro h'; cases h'

theorem load_no_ub (alg : CryptAlg) (bits r : Int) (o u : Bytes) (p : UInt32) (em : Bool) (ho : 32 ≤ o.length) (hu : 32 ≤ u.length) :
    ∃ e, Enc.load alg bits r o u p em = .ok e ∧ e.bits = bits := by
  rw [Enc.load, copy32, copy32, if_neg (by omega), if_neg (by omega)]
  exact ⟨_, rfl, rfl⟩

theorem keyBytes_small {n : Int} (h1 : -8 < n) (h2 : n ≤ 128) : keyBytes (cutInt n) ≤ 16 := by
  rw [cutInt, keyBytes]
  rcases Int.lt_or_le n 0 with h | h
  · rw [if_neg (by omega)]
    have : (n % 4294967296 - 4294967296).tdiv 8 = 0 := by
      have : n % 4294967296 - 4294967296 = -(-n) := by omega
      rw [this, Int.neg_tdiv, Int.tdiv_eq_ediv_of_nonneg (by omega)]
      omega
    rw [this]
    decide
  · rw [Int.emod_eq_of_lt h (by omega), if_pos (by omega), Int.tdiv_eq_ediv_of_nonneg h]
    omega

/-- Any encryption dictionary whose strings have at least 32 bytes and whose length is above -8 is read, and any password tried, without undefined behaviour.
Missing: shorter strings (`C111_short_string_false`) and negative lengths (`C111_negative_length_false`). -/
theorem C111_no_ub_partial (C : Crypto) (d : EncDict) (id0 pw : Bytes) (ho : ∀ o, d.o = some o → 32 ≤ o.length) (hu : ∀ u, d.u = some u → 32 ≤ u.length)
    (hl : -8 < d.length.getD 0) : openEnc C d id0 pw ≠ .error .ub := by
  have hfrom : (∃ e, Enc.fromDict d = .ok e ∧ keyBytes e.bits ≤ 16) ∨ ∃ c, Enc.fromDict d = raise c := by
    rw [Enc.fromDict]
    split
    · exact Or.inr ⟨_, rfl⟩
    · split
      · rename_i v r p o u g1 g2 g3 g4 g5
        have ho' : 32 ≤ o.length := by
          cases hdo : d.o with
          | none => rw [hdo] at g4; cases g4
          | some x => rw [hdo] at g4; cases g4; exact ho _ hdo
        have hu' : 32 ≤ u.length := by
          cases hdu : d.u with
          | none => rw [hdu] at g5; cases g5
          | some x => rw [hdu] at g5; cases g5; exact hu _ hdu
        dsimp only
        split
        · obtain ⟨e, h1, h2⟩ := load_no_ub .rc4v1 40 r o u (numberPerm p) (d.encryptMetadata.getD true) ho' hu'
          exact Or.inl ⟨e, h1, by rw [h2]; decide⟩
        · split
          · split
            · exact Or.inr ⟨_, rfl⟩
            · rename_i hle
              obtain ⟨e, h1, h2⟩ := load_no_ub .rc4v2 (cutInt (d.length.getD 0)) r o u (numberPerm p) (d.encryptMetadata.getD true) ho' hu'
              exact Or.inl ⟨e, h1, by rw [h2]; exact keyBytes_small hl (by omega)⟩
          · split
            · obtain ⟨e, h1, h2⟩ := load_no_ub .aesv2 128 4 o u (numberPerm p) (d.encryptMetadata.getD true) ho' hu'
              exact Or.inl ⟨e, h1, by rw [h2]; decide⟩
            · exact Or.inr ⟨_, rfl⟩
      · exact Or.inr ⟨_, rfl⟩
  rw [openEnc]
  rcases hfrom with ⟨e, h1, h2⟩ | ⟨c, h1⟩
  · rw [h1]
    dsimp only
    split
    · rename_i x hx
      intro h'; cases h'
      exact authenticate_no_ub C e pw id0 h2 hx
    · intro h'; cases h'
    · intro h'; cases h'
  · rw [h1]
    intro h'; cases h'

/-- A dictionary that was not made by this library: nothing but noise in its strings. -/
example (C : Crypto) (pw : Bytes) : openEnc C ⟨some nStandard, some 4, some 4, some (-1), some (List.replicate 40 7), some (List.replicate 32 9), some 40, none, none⟩ [1] pw ≠ .error .ub :=
  C111_no_ub_partial C _ _ _ (by intro o h; cases h; decide) (by intro o h; cases h; decide) (by decide)

/-- A dictionary for version 2 of RC4. -/
def v2Dict (o u : Bytes) (p : Int) (length : Option Int) : EncDict := ⟨some nStandard, some 2, some 3, some p, some o, some u, length, none, none⟩

/-- An owner or user string that is too short: memory beyond it is read. -/
theorem C111_short_string_false (C : Crypto) (o u id0 pw : Bytes) (p : Int) (length : Option Int) (hl : length.getD 0 ≤ 128) (h : o.length < 32 ∨ u.length < 32) :
    openEnc C (v2Dict o u p length) id0 pw = .error .ub := by
  have : Enc.fromDict (v2Dict o u p length) = .error .ub := by
    rw [v2Dict, Enc.fromDict, if_neg (by simp)]
    dsimp only [must]
    rw [if_neg (by decide), if_pos (Or.inl ⟨rfl, rfl⟩), if_neg (by omega), Enc.load, copy32, copy32]
    by_cases ho : o.length < 32
    · rw [if_pos ho]
    · rw [if_neg ho]
      dsimp only
      rw [if_pos (by omega)]
  rw [openEnc, this]

theorem v2Dict_load (o u : Bytes) (p : Int) (length : Option Int) (hl : length.getD 0 ≤ 128) (ho : 32 ≤ o.length) (hu : 32 ≤ u.length) :
    ∃ e, Enc.fromDict (v2Dict o u p length) = .ok e ∧ e.bits = cutInt (length.getD 0) ∧ e.r = 3 := by
  rw [v2Dict, Enc.fromDict, if_neg (by simp)]
  dsimp only [must]
  rw [if_neg (by decide), if_pos (Or.inl ⟨rfl, rfl⟩), if_neg (by omega), Enc.load, copy32, copy32, if_neg (by omega), if_neg (by omega)]
  exact ⟨_, rfl, rfl, rfl⟩

/-- A key length of -8 or less: the digest is read beyond its end. -/
theorem C111_negative_length_false (C : Crypto) (o u id0 pw : Bytes) (p n : Int) (hn : n ≤ -8) (hn2 : -2147483648 ≤ n) (ho : 32 ≤ o.length) (hu : 32 ≤ u.length) :
    openEnc C (v2Dict o u p (some n)) id0 pw = .error .ub := by
  obtain ⟨e, h1, h2, h3⟩ := v2Dict_load o u p (some n) (show n ≤ 128 by omega) ho hu
  have hk : 16 < keyBytes e.bits := by
    rw [h2]
    show 16 < keyBytes (cutInt n)
    have hc : cutInt n = -(-n) := by rw [cutInt, if_neg (by omega)]; omega
    rw [hc, keyBytes, Int.neg_tdiv, Int.tdiv_eq_ediv_of_nonneg (by omega)]
    omega
  rw [openEnc, h1]
  dsimp only
  rw [Enc.authenticate, Enc.tryUser, computeEncryptionKey, if_pos hk]

/-- A dictionary of version 2 without key length (which means 40 bits): no password is accepted, each gives an internal error. -/
theorem C111_no_length_false (C : Crypto) (o u id0 pw : Bytes) (p : Int) (ho : 32 ≤ o.length) (hu : 32 ≤ u.length) :
    openEnc C (v2Dict o u p none) id0 pw = raise .InternalLogic := by
  obtain ⟨e, h1, h2, h3⟩ := v2Dict_load o u p none (by decide) ho hu
  have hk : keyBytes e.bits = 0 := by rw [h2]; rfl
  rw [openEnc, h1]
  dsimp only
  rw [Enc.authenticate, Enc.tryUser, computeEncryptionKey, if_neg (by omega)]
  dsimp only
  rw [if_pos (Or.inl h3), hk, List.take_zero, show List.range 20 = 0 :: (List.range 20).tail from rfl, rc4Steps_nil_key]

/-! ### C112: the file identifier -/

theorem identifier_fold (n : Nat) : ∀ (pieces : List Bytes) (d : MemDev), d.grows = true → n ≤ d.pos → d.data.take n = List.replicate n 0 →
    (pieces.foldl (fun d b => (d.writeBuffer b).2) d).data.take n = List.replicate n 0
  | [], d, _, _, h => h
  | b :: pieces, d, hg, hp, h => by
    rw [List.foldl_cons]
    have hlen : n ≤ d.data.length := by
      have := congrArg List.length h
      rw [List.length_take, List.length_replicate] at this
      omega
    apply identifier_fold n pieces
    · rw [MemDev.writeBuffer]; dsimp only; rw [if_pos hg]; exact hg
    · rw [MemDev.writeBuffer]; dsimp only; rw [if_pos hg]; show n ≤ d.pos + b.length; omega
    · rw [MemDev.writeBuffer]; dsimp only; rw [if_pos hg]
      dsimp only
      rw [List.append_assoc]
      obtain ⟨buf, hbuf⟩ : ∃ buf, buf = (if (d.pos + b.length) % 18446744073709551616 > d.data.length then
        d.data ++ List.replicate ((d.pos + b.length) % 18446744073709551616 - d.data.length) 0 else d.data) := ⟨_, rfl⟩
      rw [← hbuf]
      have h1 : buf.take n = List.replicate n 0 ∧ n ≤ buf.length := by
        rw [hbuf]
        split
        · rw [List.take_append_of_le_length hlen, List.length_append]
          exact ⟨h, by omega⟩
        · exact ⟨h, hlen⟩
      rw [List.take_append_of_le_length (by rw [List.length_take]; omega), List.take_take, Nat.min_eq_left hp]
      exact h1.1

/-- The identifier of a file is the digest of zeros, as many as the information dictionary has bytes. -/
theorem identifier_zeros (C : Crypto) (pieces : List Bytes) : fileIdentifier C pieces = C.md5 (List.replicate pieces.flatten.length 0) := by
  have h := identifier_fold pieces.flatten.length pieces (MemDev.ofContainer (List.replicate pieces.flatten.length 0) true true true) rfl
    (by
      rw [MemDev.ofContainer]
      simp)
    (by
      show (List.replicate _ 0).take _ = _
      rw [List.take_replicate, Nat.min_self])
  rw [fileIdentifier, h]

/-- The same information gives the same identifier, however it is cut into pieces.  Missing: that other information gives another one (`C112_same_length_false`). -/
theorem C112_same_info_partial (C : Crypto) (a b : List Bytes) (h : a.flatten = b.flatten) : fileIdentifier C a = fileIdentifier C b := by
  rw [identifier_zeros, identifier_zeros, h]

/-- Any two documents whose information dictionaries have the same number of bytes get the same identifier, whatever the digest. -/
theorem C112_same_length_false (C : Crypto) (a b : List Bytes) (h : a.flatten.length = b.flatten.length) : fileIdentifier C a = fileIdentifier C b := by
  rw [identifier_zeros, identifier_zeros, h]

/-- Different information, same length. -/
example (C : Crypto) : fileIdentifier C [[60, 60], [65], [62, 62]] = fileIdentifier C [[60, 60], [66], [62, 62]] :=
  C112_same_length_false C _ _ rfl

end Pdfmm
