import Verif.Crypt.AesProps
import Verif.Crypt.Password
/-
Encryption of strings and streams. Properties C113 and C114.
-/
set_option autoImplicit false
namespace Pdfmm
open Spec

/-! ### C113: what was encrypted is decrypted -/

theorem objKey_length {C : Crypto} (hC : IsCrypto C) (e : Enc) (n g : Nat) : (objKey C e n g).length = if e.keyLength ≤ 11 then e.keyLength + 5 else 16 := by
  rw [objKey, List.length_take, hC.md5_length]
  split <;> omega

/-- Two encryption objects with the same algorithm and key, and for AES a key of 128 bits: what one encrypts, for any object and of any length, the other one decrypts, and
the encrypted data have the length that is written to the stream dictionary. -/
theorem encrypt_decrypt {C : Crypto} {A : BlockAes} (hC : IsCrypto C) (hA : IsAes A) (e e' : Enc) (n g : Nat) (data : Bytes)
    (h1 : e'.alg = e.alg) (h2 : e'.key = e.key) (h3 : e'.keyLength = e.keyLength) (h4 : e.alg = .aesv2 → e.keyLength = 16) :
    ∃ c, e.encryptTo C A n g data = .ok c ∧ c.length = e.streamLength data.length ∧ e'.decryptTo C A n g c = .ok data := by
  have hkey : objKey C e' n g = objKey C e n g := by simp only [objKey, h1, h2, h3]
  have hkl := objKey_length hC e n g
  by_cases hal : e.alg = .aesv2
  · rw [h4 hal, if_neg (by omega)] at hkl
    obtain ⟨c, hc, hcl, hd⟩ := baseDecrypt_baseEncrypt hA (objKey C e n g) (C.md5 e.docId) data hkl (hC.md5_length _)
    have hlen : (C.md5 e.docId ++ c).length = e.streamLength data.length := by
      rw [List.length_append, hC.md5_length, hcl, Enc.streamLength, if_pos hal]
      split <;> omega
    refine ⟨C.md5 e.docId ++ c, ?_, hlen, ?_⟩
    · rw [Enc.encryptTo]
      dsimp only
      rw [if_pos hal, hc]
      dsimp only
      rw [if_neg (by omega), hlen, Nat.sub_self, List.replicate_zero, List.append_nil]
    · rw [Enc.decryptTo, h1, if_pos hal, if_neg (by rw [List.length_append, hC.md5_length]; omega), hkey,
        List.take_append_of_le_length (by rw [hC.md5_length]; omega), List.take_of_length_le (by rw [hC.md5_length]; omega),
        List.drop_append_of_le_length (by rw [hC.md5_length]; omega), List.drop_of_length_le (by rw [hC.md5_length]; omega), List.nil_append, hd]
  · have hne : objKey C e n g ≠ [] := by
      intro h
      rw [h] at hkl
      split at hkl <;> simp at hkl
    refine ⟨C.rc4 (objKey C e n g) data, ?_, by rw [hC.rc4_length, Enc.streamLength, if_neg hal], ?_⟩
    · rw [Enc.encryptTo]
      dsimp only
      rw [if_neg hal, callRc4, if_neg hne]
      dsimp only
      rw [if_neg (by rw [hC.rc4_length, Enc.streamLength, if_neg hal]; omega), hC.rc4_length, Enc.streamLength, if_neg hal, Nat.sub_self, List.replicate_zero, List.append_nil]
    · rw [Enc.decryptTo, h1, if_neg hal, hkey, callRc4, if_neg hne, hC.rc4_twice]

/-- A document is encrypted with two passwords, and opened with the user password: every string and every stream of every object is what it was, and
the length written for a stream is the length of its encrypted data. -/
theorem C113_user_password {C : Crypto} {A : BlockAes} (hC : IsCrypto C) (hA : IsAes A) (user owner docId : Bytes) (prot : UInt32) (alg : CryptAlg) (bits : Int)
    (h : SupportedKey alg bits) : ∃ e1 e2 e3, (Enc.create user owner prot alg bits).generate C docId = .ok e1 ∧ Enc.fromDict e1.toDict = .ok e2 ∧
      e2.authenticate C user docId = .ok (true, e3) ∧
      ∀ (n g : Nat) (data : Bytes), ∃ c, e1.encryptTo C A n g data = .ok c ∧ c.length = e1.streamLength data.length ∧ e3.decryptTo C A n g c = .ok data := by
  obtain ⟨g, hg, ho, hu, heq, hauth⟩ := generate_authenticates hC _ docId (create_ready user owner prot alg bits h)
  obtain ⟨e1, e2, hg1, hd, hal, hp, ⟨e3, h1, h2, h3⟩, _⟩ := C63_passwords_partial hC user owner docId prot alg bits h
  rw [hg] at hg1
  cases hg1
  have hgal : g.alg = alg := by rw [heq]; cases alg <;> rfl
  have hgkl : g.alg = .aesv2 → g.keyLength = 16 := by
    intro ha
    rw [hgal] at ha
    subst ha
    rw [heq]
    rfl
  have h3al : e3.alg = g.alg := by
    rw [Enc.authenticate] at h1
    have hf : ∀ {e e' : Enc} {up : Bytes} {b : Bool}, e.tryUser C up docId = .ok (b, e') → e'.alg = e.alg := by
      intro e e' up b ht
      rw [Enc.tryUser] at ht
      split at ht
      · cases ht
      · cases ht; rfl
    split at h1
    · cases h1
    · rename_i x hx
      cases h1
      show x.alg = _
      rw [hf hx, hal, hgal]
    · rename_i x hx
      split at h1
      · cases h1
      · split at h1
        · cases h1
        · rename_i y hy
          cases h1
          show y.alg = _
          rw [hf hy, hf hx, hal, hgal]
        · cases h1
  exact ⟨g, e2, e3, hg, hd, h1, fun n k data => encrypt_decrypt hC hA g e3 n k data h3al h2 h3 hgkl⟩

/-- A block cipher for examples: one byte is added. -/
def addAes : BlockAes := ⟨fun _ b => b.map (· + 1), fun _ b => b.map (· - 1)⟩

theorem addAes_ok : IsAes addAes := ⟨fun _ _ h => by simpa [addAes] using h, fun _ b _ => by
  simp only [addAes, List.map_map]
  conv => rhs; rw [← List.map_id b]
  apply List.map_congr_left
  intro x _
  simp⟩

/-- Hypotheses met, with RC4 itself. -/
example (md5 : Bytes → Bytes) (h : ∀ b, (md5 b).length = 16) := C113_user_password (isCrypto_rc4 md5 h) addAes_ok [1, 2] [3] [4] 4 .aesv2 128 trivial

/-! ### C114: reading an encrypted stream -/

section
variable {E D : Bytes → Bytes} (hlen : ∀ b, b.length = 16 → (E b).length = 16) (hback : ∀ b, b.length = 16 → D (E b) = b)

/-- The stream of an object: initial vector, encrypted data, and what follows in the file. -/
def aesFile (E : Bytes → Bytes) (iv data rest : Bytes) : Bytes := iv ++ cbcEnc E (data.length / 16 + 1) iv (data ++ pkcsPad data.length) ++ rest

/-- The length of the encrypted stream. -/
def aesSize (data : Bytes) : Nat := 16 + 16 * (data.length / 16 + 1)

/-- The encrypted blocks. -/
def aesCt (E : Bytes → Bytes) (iv data : Bytes) : Bytes := cbcEnc E (data.length / 16 + 1) iv (data ++ pkcsPad data.length)

/-- The state of the stream after `m` bytes of the encrypted blocks, before the end. -/
structure InAt (E : Bytes → Bytes) (iv data rest : Bytes) (m : Nat) (s : AesIn) : Prop where
  lt : m < 16 * (data.length / 16 + 1)
  src : s.src = (aesCt E iv data).drop m ++ rest
  inputLen : s.inputLen = 16 * (data.length / 16 + 1) - m
  inputEof : s.inputEof = false
  ctx : AtByte iv (aesCt E iv data) m s.ctx

include hlen hback

/-- One more piece that does not reach the end. -/
theorem fill_middle {iv data rest : Bytes} {m len : Nat} {s : AesIn} (hiv : iv.length = 16) (h : InAt E iv data rest m s) (hm : m + len < 16 * (data.length / 16 + 1)) :
    ∃ s', s.fill D len = .ok (((data ++ pkcsPad data.length).take (heldBack (m + len))).drop (heldBack m), none, s') ∧ InAt E iv data rest (m + len) s' ∧ s'.init = s.init := by
  have hpl := padded_length data
  have hcl : (aesCt E iv data).length = 16 * (data.length / 16 + 1) := cbcEnc_length hlen _ iv _ hiv hpl
  obtain ⟨c', h1, h2⟩ := decUpdate_at (E := E) (D := D) hlen hback (m := m) (r := len) hiv hpl h.ctx (by omega)
  have hmin : min len s.inputLen = len := by rw [h.inputLen]; omega
  have hread : s.src.take len = ((aesCt E iv data).drop m).take len := by
    rw [h.src, List.take_append_of_le_length (by rw [List.length_drop]; omega)]
  have hsrc : s.src.drop len = (aesCt E iv data).drop (m + len) ++ rest := by
    rw [h.src, List.drop_append_of_le_length (by rw [List.length_drop]; omega), List.drop_drop]
  have hrl : (((aesCt E iv data).drop m).take len).length = len := by rw [List.length_take, List.length_drop]; omega
  rw [AesIn.fill, hmin, hread, hsrc]
  dsimp only
  have h1' : decUpdate D s.ctx (((aesCt E iv data).drop m).take len) = (((data ++ pkcsPad data.length).take (heldBack (m + len))).drop (heldBack m), c') := h1
  rw [h1']
  dsimp only
  rw [hrl, if_neg]
  · exact ⟨_, rfl, ⟨hm, rfl, by show s.inputLen - len = _; rw [h.inputLen]; omega, h.inputEof, h2⟩, rfl⟩
  · intro hor
    rcases hor with h0 | h0
    · rw [h.inputLen] at h0; omega
    · have := congrArg List.length h0
      rw [List.length_append, List.length_drop, List.length_nil] at this
      omega

/-- The piece that reaches the end. -/
theorem fill_end {iv data rest : Bytes} {m len : Nat} {s : AesIn} (hiv : iv.length = 16) (h : InAt E iv data rest m s) (hm : 16 * (data.length / 16 + 1) ≤ m + len) :
    ∃ s0 : AesIn, s.fill D len = .ok (s0.drain len ((data.take (16 * (data.length / 16))).drop (heldBack m))) ∧ s0.inputEof = true ∧
      s0.temp = data.drop (16 * (data.length / 16)) ∧ s0.drainLeft = (data.drop (16 * (data.length / 16))).length := by
  have hpl := padded_length data
  have hcl : (aesCt E iv data).length = 16 * (data.length / 16 + 1) := cbcEnc_length hlen _ iv _ hiv hpl
  have hlt := h.lt
  obtain ⟨r, hr⟩ : ∃ r, r = 16 * (data.length / 16 + 1) - m := ⟨_, rfl⟩
  obtain ⟨c', h1, h2⟩ := decUpdate_at (E := E) (D := D) hlen hback (m := m) (r := r) hiv hpl h.ctx (by omega)
  have hmin : min len s.inputLen = r := by rw [h.inputLen]; omega
  have hread : s.src.take r = ((aesCt E iv data).drop m).take r := by
    rw [h.src, List.take_append_of_le_length (by rw [List.length_drop]; omega)]
  have hrl : (((aesCt E iv data).drop m).take r).length = r := by rw [List.length_take, List.length_drop]; omega
  rw [show m + r = 16 * (data.length / 16 + 1) by omega] at h1 h2
  have h1' : decUpdate D s.ctx (((aesCt E iv data).drop m).take r) = (((data ++ pkcsPad data.length).take (heldBack (16 * (data.length / 16 + 1)))).drop (heldBack m), c') := h1
  rw [AesIn.fill, hmin, hread]
  dsimp only
  rw [h1']
  dsimp only
  rw [hrl, if_pos (Or.inl (by rw [h.inputLen]; omega)), decFinal_at (E := E) hlen hback hiv hpl (by omega) h2, Nat.add_sub_cancel, unpad_padded]
  dsimp only
  rw [show heldBack (16 * (data.length / 16 + 1)) = 16 * (data.length / 16) by rw [heldBack]; omega, List.take_append_of_le_length (by omega)]
  exact ⟨_, rfl, rfl, rfl, rfl⟩

omit hlen hback in
/-- Draining with enough room. -/
theorem drain_all (s : AesIn) (len : Nat) (out last : Bytes) (ht : s.temp = last) (hd : s.drainLeft = last.length) (h : out.length + last.length ≤ len) (hl : len < 18446744073709551616) :
    ∃ s', s.drain len out = (out ++ last, some true, s') := by
  have hm : min ((len + 18446744073709551616 - out.length) % 18446744073709551616) s.drainLeft = last.length := by
    rw [hd, show len + 18446744073709551616 - out.length = (len - out.length) + 18446744073709551616 by omega, Nat.add_mod_right, Nat.mod_eq_of_lt (by omega)]
    omega
  rw [AesIn.drain, hm, hd, Nat.sub_self, ht]
  rw [List.take_of_length_le (by omega)]
  exact ⟨_, rfl⟩

omit hlen hback in
/-- Draining without room. -/
theorem drain_none (s : AesIn) (len : Nat) (out : Bytes) (h : out.length = len) (hl : len < 18446744073709551616) :
    s.drain len out = (out, (if s.drainLeft = 0 then some true else none), s) := by
  have hm : min ((len + 18446744073709551616 - out.length) % 18446744073709551616) s.drainLeft = 0 := by
    rw [h, Nat.add_sub_cancel_left]
    simp
  rw [AesIn.drain, hm, List.take_zero, List.append_nil]
  rfl

omit hlen hback in
/-- After the initial vector is read. -/
theorem readBuffer_first {iv data rest : Bytes} (hiv : iv.length = 16) (len : Nat) (hl : aesSize data < 18446744073709551616) :
    ∃ s : AesIn, (AesIn.new (aesFile E iv data rest) (aesSize data)).readBuffer D len = s.fill D len ∧ InAt E iv data rest 0 s ∧ s.init = false := by
  have hsz : (aesSize data + 18446744073709551616 - 16) % 18446744073709551616 = 16 * (data.length / 16 + 1) := by
    rw [aesSize] at hl ⊢; omega
  refine ⟨⟨(aesFile E iv data rest).drop 16, (aesSize data + 18446744073709551616 - 16) % 18446744073709551616, false, false, ⟨(aesFile E iv data rest).take 16, []⟩, [], 18446744073709551615⟩, ?_, ?_, rfl⟩
  · rw [AesIn.readBuffer, AesIn.new]
    dsimp only
    rw [if_neg (by decide), if_pos rfl, if_neg (by rw [aesFile, List.length_append, List.length_append]; omega)]
  · refine ⟨by omega, ?_, ?_, rfl, ?_⟩
    · show (aesFile E iv data rest).drop 16 = _
      rw [aesFile, List.append_assoc, List.drop_append_of_le_length (by omega), List.drop_of_length_le (by omega), List.nil_append]
      rfl
    · show (aesSize data + 18446744073709551616 - 16) % 18446744073709551616 = _
      rw [hsz]; rfl
    · have : (aesFile E iv data rest).take 16 = iv := by
        rw [aesFile, List.append_assoc, List.take_append_of_le_length (by omega), List.take_of_length_le (by omega)]
      show AtByte iv (aesCt E iv data) 0 ⟨(aesFile E iv data rest).take 16, []⟩
      rw [this]
      exact atByte_start _ _

/-- An encrypted stream of less than 4096 bytes is loaded as it was, whatever the uninitialised end flag holds.
Missing: longer streams (`C114_long_stream_false`). -/
theorem C114_load_partial (iv data rest : Bytes) (eof : Option Bool) (f : Nat) (hiv : iv.length = 16) (h : data.length < 4096) :
    AesIn.copyTo D (f + 1) (AesIn.new (aesFile E iv data rest) (aesSize data)) eof (aesSize data) [] = .ok data := by
  have hs : aesSize data = 16 + 16 * (data.length / 16 + 1) := rfl
  obtain ⟨s, h1, h2, _⟩ := readBuffer_first (E := E) (D := D) (iv := iv) (data := data) (rest := rest) hiv (min 4096 (aesSize data)) (by omega)
  obtain ⟨s0, g1, g2, g3, g4⟩ := fill_end hlen hback hiv h2 (len := min 4096 (aesSize data)) (by omega)
  have hb : heldBack 0 = 0 := rfl
  obtain ⟨s', hd⟩ := drain_all s0 (min 4096 (aesSize data)) ((data.take (16 * (data.length / 16))).drop (heldBack 0)) _ g3 g4
    (by rw [hb, List.drop_zero, List.length_take, List.length_drop]; omega) (by omega)
  rw [AesIn.copyTo, h1, g1, hd]
  dsimp only
  rw [hb, List.drop_zero, List.take_append_drop, if_neg (by omega), List.nil_append]
  split
  · rfl
  · rfl

/-- One step for a longer stream: 4080 bytes, and the end flag is not set. -/
theorem copyTo_first_long {iv data rest : Bytes} (hiv : iv.length = 16) (h : 4096 ≤ data.length) (hl : aesSize data < 18446744073709551616) :
    ∃ s', (AesIn.new (aesFile E iv data rest) (aesSize data)).readBuffer D (min 4096 (aesSize data)) = .ok (data.take 4080, none, s') ∧ InAt E iv data rest 4096 s' ∧ s'.init = false := by
  have hs : aesSize data = 16 + 16 * (data.length / 16 + 1) := rfl
  obtain ⟨s, h1, h2, h3⟩ := readBuffer_first (E := E) (D := D) (iv := iv) (data := data) (rest := rest) hiv (min 4096 (aesSize data)) hl
  have hmin : min 4096 (aesSize data) = 4096 := by omega
  rw [hmin] at h1 ⊢
  obtain ⟨s', g1, g2, g3⟩ := fill_middle hlen hback hiv h2 (len := 4096) (by omega)
  have hb : heldBack 0 = 0 := rfl
  have hb2 : heldBack (0 + 4096) = 4080 := rfl
  refine ⟨s', ?_, ?_, by rw [g3, h3]⟩
  · rw [h1, g1, hb, hb2, List.drop_zero, List.take_append_of_le_length (by omega)]
  · rw [Nat.zero_add] at g2; exact g2

/-- Every longer stream: the end flag is read although nothing has set it. -/
theorem C114_long_stream_false (iv data rest : Bytes) (f : Nat) (hiv : iv.length = 16) (h : 4096 ≤ data.length) (hl : aesSize data < 18446744073709551616) :
    AesIn.copyTo D (f + 1) (AesIn.new (aesFile E iv data rest) (aesSize data)) none (aesSize data) [] = .error .ub := by
  have hs : aesSize data = 16 + 16 * (data.length / 16 + 1) := rfl
  obtain ⟨s', h1, _⟩ := copyTo_first_long hlen hback (rest := rest) hiv h hl
  rw [AesIn.copyTo, h1]
  dsimp only
  have hlen : (data.take 4080).length = 4080 := by rw [List.length_take]; omega
  rw [if_neg (by omega), hlen, show aesSize data + 18446744073709551616 - 4080 = (aesSize data - 4080) + 18446744073709551616 by omega, Nat.add_mod_right,
    Nat.mod_eq_of_lt (by omega), if_pos (by omega)]
  rfl

/-- Were the flag true by chance, the stream would be cut off after 4080 bytes. -/
theorem C114_long_stream_cut (iv data rest : Bytes) (f : Nat) (hiv : iv.length = 16) (h : 4096 ≤ data.length) (hl : aesSize data < 18446744073709551616) :
    AesIn.copyTo D (f + 1) (AesIn.new (aesFile E iv data rest) (aesSize data)) (some true) (aesSize data) [] = .ok (data.take 4080) := by
  have hs : aesSize data = 16 + 16 * (data.length / 16 + 1) := rfl
  obtain ⟨s', h1, _⟩ := copyTo_first_long hlen hback (rest := rest) hiv h hl
  rw [AesIn.copyTo, h1]
  dsimp only
  have hlen : (data.take 4080).length = 4080 := by rw [List.length_take]; omega
  rw [if_neg (by omega), hlen, show aesSize data + 18446744073709551616 - 4080 = (aesSize data - 4080) + 18446744073709551616 by omega, Nat.add_mod_right,
    Nat.mod_eq_of_lt (by omega), if_pos (by omega)]
  rfl

/-- The loop after the first piece, with the flag false. -/
theorem copyTo_rest (iv data rest : Bytes) (hiv : iv.length = 16) (hl : aesSize data < 18446744073709551616) :
    ∀ (f m : Nat) (s : AesIn), 16 ≤ m → m % 16 = 0 → InAt E iv data rest m s → s.init = false → 16 * (data.length / 16 + 1) - m < f →
    AesIn.copyTo D (f + 2) s (some false) (aesSize data - (m - 16)) (data.take (m - 16)) = .ok data
  | 0, m, s, _, _, _, _, hf => by omega
  | f + 1, m, s, hm, hm16, hin, hinit, hf => by
    have hs : aesSize data = 16 + 16 * (data.length / 16 + 1) := rfl
    have hlt := hin.lt
    have hrb : ∀ len, s.readBuffer D len = s.fill D len := by
      intro len
      rw [AesIn.readBuffer, hin.inputEof, hinit]
      rfl
    have hhb : heldBack m = m - 16 := by rw [heldBack]; omega
    by_cases hend : 16 * (data.length / 16 + 1) ≤ m + min 4096 (aesSize data - (m - 16))
    · obtain ⟨s0, g1, g2, g3, g4⟩ := fill_end hlen hback hiv hin hend
      have hlast : (data.drop (16 * (data.length / 16))).length = data.length % 16 := by rw [List.length_drop]; omega
      have hout : ((data.take (16 * (data.length / 16))).drop (heldBack m)).length = 16 * (data.length / 16) - (m - 16) := by
        rw [List.length_drop, List.length_take, hhb]; omega
      have hcat : data.take (m - 16) ++ (data.take (16 * (data.length / 16))).drop (heldBack m) = data.take (16 * (data.length / 16)) := by
        rw [hhb]
        have : data.take (m - 16) = (data.take (16 * (data.length / 16))).take (m - 16) := by
          rw [List.take_take, Nat.min_eq_left (by omega)]
        rw [this, List.take_append_drop]
      rw [AesIn.copyTo, hrb, g1]
      by_cases hroom : ((data.take (16 * (data.length / 16))).drop (heldBack m)).length + (data.drop (16 * (data.length / 16))).length ≤ min 4096 (aesSize data - (m - 16))
      · obtain ⟨s', hd⟩ := drain_all s0 (min 4096 (aesSize data - (m - 16))) _ _ g3 g4 hroom (by omega)
        rw [hd]
        dsimp only
        rw [if_neg (by rw [List.length_append]; omega), ← List.append_assoc, hcat, List.take_append_drop]
        split
        · rfl
        · rfl
      · -- the last bytes do not fit, they come with the next call
        have hfull : ((data.take (16 * (data.length / 16))).drop (heldBack m)).length = min 4096 (aesSize data - (m - 16)) := by omega
        have hnz : s0.drainLeft ≠ 0 := by rw [g4]; omega
        rw [drain_none s0 _ _ hfull (by omega), if_neg hnz]
        dsimp only
        rw [if_neg (by omega), hcat, hfull, show aesSize data - (m - 16) + 18446744073709551616 - min 4096 (aesSize data - (m - 16)) =
          (aesSize data - (m - 16) - min 4096 (aesSize data - (m - 16))) + 18446744073709551616 by omega, Nat.add_mod_right, Nat.mod_eq_of_lt (by omega)]
        have hsz : aesSize data - (m - 16) - min 4096 (aesSize data - (m - 16)) = 32 := by omega
        rw [hsz, if_pos (by omega)]
        show AesIn.copyTo D (f + 2) s0 (some false) 32 _ = _
        obtain ⟨s', hd⟩ := drain_all s0 (min 4096 32) [] _ g3 g4 (by rw [List.length_nil]; omega) (by omega)
        rw [AesIn.copyTo, AesIn.readBuffer, if_pos g2, hd]
        dsimp only
        rw [List.nil_append, if_neg (by omega), List.take_append_drop]
        split
        · rfl
        · rfl
    · have hmin : min 4096 (aesSize data - (m - 16)) = 4096 := by omega
      rw [hmin] at hend
      obtain ⟨s', g1, g2, g3⟩ := fill_middle hlen hback hiv hin (len := 4096) (by omega)
      have hhb2 : heldBack (m + 4096) = m + 4080 := by rw [heldBack]; omega
      have hout : ((data ++ pkcsPad data.length).take (heldBack (m + 4096))).drop (heldBack m) = (data.take (m + 4080)).drop (m - 16) := by
        rw [hhb, hhb2, List.take_append_of_le_length (by omega)]
      have houtl : ((data.take (m + 4080)).drop (m - 16)).length = 4096 := by rw [List.length_drop, List.length_take]; omega
      rw [AesIn.copyTo, hmin, hrb, g1, hout]
      dsimp only
      have hcat : data.take (m - 16) ++ (data.take (m + 4080)).drop (m - 16) = data.take (m + 4096 - 16) := by
        have : data.take (m - 16) = (data.take (m + 4080)).take (m - 16) := by rw [List.take_take, Nat.min_eq_left (by omega)]
        rw [this, List.take_append_drop]
        rfl
      rw [if_neg (by omega), hcat, houtl, show aesSize data - (m - 16) + 18446744073709551616 - 4096 = (aesSize data - (m + 4096 - 16)) + 18446744073709551616 by omega,
        Nat.add_mod_right, Nat.mod_eq_of_lt (by omega), if_pos (by omega)]
      exact copyTo_rest iv data rest hiv hl f (m + 4096) s' (by omega) (by omega) g2 (by rw [g3, hinit]) (by omega)

/-- Were the flag false by chance, a stream of any length is loaded as it was. -/
theorem C114_long_stream_flag_false (iv data rest : Bytes) (hiv : iv.length = 16) (hl : aesSize data < 18446744073709551616) :
    ∃ f, AesIn.copyTo D f (AesIn.new (aesFile E iv data rest) (aesSize data)) (some false) (aesSize data) [] = .ok data := by
  by_cases h : data.length < 4096
  · exact ⟨1, C114_load_partial hlen hback iv data rest (some false) 0 hiv h⟩
  · have hs : aesSize data = 16 + 16 * (data.length / 16 + 1) := rfl
    obtain ⟨s', h1, h2, h3⟩ := copyTo_first_long hlen hback (rest := rest) hiv (by omega) hl
    refine ⟨16 * (data.length / 16 + 1) + 3, ?_⟩
    rw [AesIn.copyTo, h1]
    dsimp only
    have hlen4 : (data.take 4080).length = 4080 := by rw [List.length_take]; omega
    rw [if_neg (by omega), hlen4, show aesSize data + 18446744073709551616 - 4080 = (aesSize data - 4080) + 18446744073709551616 by omega, Nat.add_mod_right,
      Nat.mod_eq_of_lt (by omega), if_pos (by omega), List.nil_append]
    exact copyTo_rest hlen hback iv data rest hiv hl (16 * (data.length / 16 + 1)) 4096 s' (by omega) (by omega) h2 h3 (by omega)

/-- Reading with a buffer of less than 16 bytes: as soon as the first block is decrypted, 16 bytes are written to it. -/
theorem read_small (iv data rest : Bytes) (hiv : iv.length = 16) (h : 16 ≤ data.length) (n : Nat) (h1 : 0 < n) (h2 : n < 16) :
    ∀ (f m : Nat) (s : AesIn), InAt E iv data rest m s → s.init = false → m ≤ 16 → 16 - m < f → AesIn.read D f s (some false) n [] = .error .ub
  | 0, _, _, _, _, _, hf => by omega
  | f + 1, m, s, hin, hinit, hm, hf => by
    obtain ⟨s', g1, g2, g3⟩ := fill_middle hlen hback hiv hin (len := n) (by omega)
    have hrb : s.readBuffer D n = s.fill D n := by
      rw [AesIn.readBuffer, hin.inputEof, hinit]; rfl
    have hm0 : heldBack m = 0 := by rw [heldBack]; omega
    rw [AesIn.read, List.length_nil, Nat.sub_zero, hrb, g1, hm0, List.drop_zero]
    dsimp only
    rw [List.nil_append]
    by_cases hmn : m + n ≤ 16
    · have : heldBack (m + n) = 0 := by rw [heldBack]; omega
      rw [this, List.take_zero, if_neg (by rw [List.length_nil]; omega), if_neg (by rw [List.length_nil]; omega)]
      exact read_small iv data rest hiv h n h1 h2 f (m + n) s' g2 (by rw [g3, hinit]) hmn (by omega)
    · have : heldBack (m + n) = 16 := by rw [heldBack]; omega
      rw [this, if_pos (by rw [List.length_take, padded_length]; omega)]

/-- Every stream of at least 16 bytes, read with a buffer of 1 to 15 bytes: memory beyond the buffer is written. -/
theorem C114_small_buffer_false (iv data rest : Bytes) (hiv : iv.length = 16) (h : 16 ≤ data.length) (hl : aesSize data < 18446744073709551616) (n : Nat) (h1 : 0 < n) (h2 : n < 16) (f : Nat) :
    AesIn.read D (f + 20) (AesIn.new (aesFile E iv data rest) (aesSize data)) (some false) n [] = .error .ub := by
  obtain ⟨s, g1, g2, g3⟩ := readBuffer_first (E := E) (D := D) (iv := iv) (data := data) (rest := rest) hiv n hl
  have := read_small hlen hback iv data rest hiv h n h1 h2 (f + 20) 0 s g2 g3 (by omega) (by omega)
  have hrb : s.readBuffer D n = s.fill D n := by
    rw [AesIn.readBuffer, g2.inputEof, g3]; rfl
  rw [AesIn.read, List.length_nil, Nat.sub_zero, hrb] at this
  rw [AesIn.read, List.length_nil, Nat.sub_zero, g1]
  exact this

end

/-- Hypotheses met: a toy block cipher, streams of 20 and of 5000 bytes. -/
example : AesIn.copyTo (addAes.dec []) 1 (AesIn.new (aesFile (addAes.enc []) (List.replicate 16 7) (List.replicate 20 3) [10]) 48) none 48 [] = .ok (List.replicate 20 3) :=
  C114_load_partial (addAes_ok.length []) (addAes_ok.back []) _ _ _ none 0 (by decide) (by decide)

example (b : Byte) : AesIn.copyTo (addAes.dec []) 1 (AesIn.new (aesFile (addAes.enc []) (List.replicate 16 7) (List.replicate 5000 b) [10]) (aesSize (List.replicate 5000 b))) none
    (aesSize (List.replicate 5000 b)) [] = .error .ub :=
  C114_long_stream_false (addAes_ok.length []) (addAes_ok.back []) _ _ _ 0 (by decide) (by rw [List.length_replicate]; omega)
    (by rw [aesSize, List.length_replicate]; omega)

/-- C114 is false when the last bytes are handed out in two goes: the second go begins again with the first of them instead of going on.
Whatever the last bytes, and wherever the first buffer was full. -/
theorem C114_last_bytes_false (s : AesIn) (last : Bytes) (n : Nat) (hs : s.inputEof = true) (ht : s.temp = last) (hd : s.drainLeft = last.length)
    (h1 : n < last.length) (hl : last.length < 18446744073709551616) (D : Bytes → Bytes) :
    ∃ s1 s2, s.readBuffer D n = .ok (last.take n, none, s1) ∧
      s1.readBuffer D (last.length - n) = .ok (last.take (last.length - n), some true, s2) := by
  have e1 : (n + 18446744073709551616 - 0) % 18446744073709551616 = n := by omega
  have e2 : (last.length - n + 18446744073709551616 - 0) % 18446744073709551616 = last.length - n := by omega
  have m1 : min n last.length = n := by omega
  refine ⟨{ s with drainLeft := last.length - n }, { s with drainLeft := 0 }, ?_, ?_⟩
  · rw [AesIn.readBuffer, if_pos hs, AesIn.drain]
    simp only [List.length_nil, e1, hd, m1, ht, List.nil_append]
    rw [if_neg (by omega)]
  · rw [AesIn.readBuffer, if_pos hs, AesIn.drain]
    simp only [List.length_nil, e2, ht, List.nil_append, Nat.min_self, Nat.sub_self, if_true]

/-- Two calls of `Read` with a buffer of `n` bytes: what each puts there. -/
def twoReads (D : Bytes → Bytes) (s : AesIn) (n : Nat) : Bytes × Bytes :=
  match AesIn.read D 20 s (some false) n [] with
  | .error _ => ([], [])
  | .ok (a, _, s1) =>
    match AesIn.read D 20 s1 (some false) n [] with
    | .error _ => (a, [])
    | .ok (b, _, _) => (a, b)

/-- The state is reached: a stream of 25 bytes is read 20 bytes at a time, the last bytes are 17 to 25, and the second
buffer begins with the seventeenth byte although the first one ended with the twentieth. -/
example : twoReads (addAes.dec []) (AesIn.new (aesFile (addAes.enc []) (List.replicate 16 7) ((List.range 25).map UInt8.ofNat) [10]) 48) 20 =
    ([0, 1, 2, 3, 4, 5, 6, 7, 8, 9, 10, 11, 12, 13, 14, 15, 16, 17, 18, 19], [16, 17, 18, 19, 20]) := by decide +kernel

end Pdfmm
