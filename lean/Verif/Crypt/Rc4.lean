import Verif.Base.Basic
/-
The RC4 streams of `PdfEncrypt`: `PdfRC4Stream`, `PdfRC4OutputStream`, `PdfRC4InputStream`.
Property C108.
-/
set_option autoImplicit false
namespace Pdfmm

/-! ### Specification: RC4 -/

namespace Spec

/-- Two places exchanged. -/
def swapAt (S : Nat → Byte) (i j : Nat) : Nat → Byte := fun x => if x = i then S j else if x = j then S i else S x

/-- The table and the index after `n` rounds of the key schedule. -/
def schedule (key : Bytes) : Nat → (Nat → Byte) × Nat
  | 0 => (fun x => UInt8.ofNat x, 0)
  | n + 1 =>
    let j := ((schedule key n).2 + ((schedule key n).1 n).toNat + (key.getD (n % key.length) 0).toNat) % 256
    (swapAt (schedule key n).1 n j, j)

/-- The next `n` bytes of the key stream. -/
def keyStream (S : Nat → Byte) (i j : Nat) : Nat → Bytes
  | 0 => []
  | n + 1 =>
    let i' := (i + 1) % 256
    let j' := (j + (S i').toNat) % 256
    let S' := swapAt S i' j'
    S' (((S' i').toNat + (S' j').toNat) % 256) :: keyStream S' i' j' n

/-- RC4 of data. -/
def rc4 (key data : Bytes) : Bytes := List.zipWith (· ^^^ ·) data (keyStream (schedule key 256).1 0 0 data.length)

end Spec
open Spec

/-! ### Model -/

/-- The members of `PdfRC4Stream`, `src/pdfmm/base/PdfEncrypt.cpp:206-211`. -/
structure Rc4 where
  tab : List Byte
  a : Nat
  b : Nat

/-- The rounds of the key schedule from `i` on, `src/pdfmm/base/PdfEncrypt.cpp:153-159`: how many are left, `i`, `j` and the table. -/
def rc4Rounds (key : Bytes) : Nat → Nat → Nat → List Byte → List Byte
  | 0, _, _, tab => tab
  | n + 1, i, j, tab =>
    let t := tab.getD i 0
    let j' := (j + t.toNat + (key.getD (i % key.length) 0).toNat) % 256
    rc4Rounds key n (i + 1) j' ((tab.set i (tab.getD j' 0)).set j' t)

/-- The table made for a key, `src/pdfmm/base/PdfEncrypt.cpp:149-159`. -/
def rc4Table (key : Bytes) : List Byte := rc4Rounds key 256 0 0 ((List.range 256).map UInt8.ofNat)

/-- `m_rc4key` and `m_rc4last` of the encryption object, `src/pdfmm/base/PdfEncrypt.h:578-579`. -/
structure Rc4Cache where
  key : Bytes
  last : List Byte

/-- The cache of a new encryption object, `src/pdfmm/base/PdfEncrypt.cpp:617-620,1106-1108`. -/
def Rc4Cache.new : Rc4Cache := ⟨List.replicate 16 0, List.replicate 256 0⟩

/-- The constructor of `PdfRC4Stream`, `src/pdfmm/base/PdfEncrypt.cpp:139-168`: the stream and the cache afterwards.  The key is of its length. -/
def Rc4Cache.start (c : Rc4Cache) (key : Bytes) : Rc4 × Rc4Cache :=
  if key ≠ c.key.take key.length then (⟨rc4Table key, 0, 0⟩, ⟨key ++ c.key.drop key.length, rc4Table key⟩)
  else (⟨c.last, 0, 0⟩, c)

/-- `PdfRC4Stream::Encrypt`, `src/pdfmm/base/PdfEncrypt.cpp:179-204`: the data and the stream afterwards. -/
def Rc4.encrypt : Rc4 → Bytes → Bytes × Rc4
  | s, [] => ([], s)
  | s, x :: r =>
    let a := (s.a + 1) % 256
    let t := s.tab.getD a 0
    let b := (s.b + t.toNat) % 256
    let tab := (s.tab.set a (s.tab.getD b 0)).set b t
    let k := tab.getD (((tab.getD a 0).toNat + (tab.getD b 0).toNat) % 256) 0
    ((x ^^^ k) :: (Rc4.encrypt ⟨tab, a, b⟩ r).1, (Rc4.encrypt ⟨tab, a, b⟩ r).2)

/-- `PdfRC4OutputStream`, `src/pdfmm/base/PdfEncrypt.cpp:225-232`: what arrives at the stream below when pieces are written. -/
def Rc4.writeAll : Rc4 → List Bytes → Bytes
  | _, [] => []
  | s, p :: ps => (s.encrypt p).1 ++ Rc4.writeAll (s.encrypt p).2 ps

/-- `PdfRC4InputStream`, `src/pdfmm/base/PdfEncrypt.cpp:268-271`: what the stream below still has, how much of it belongs to the data, and the
cipher. -/
structure Rc4In where
  src : Bytes
  left : Nat
  st : Rc4

/-- `PdfRC4InputStream::readBuffer`, `src/pdfmm/base/PdfEncrypt.cpp:255-265`; the stream below is taken to be at its end when it has no more
bytes. -/
def Rc4In.read (r : Rc4In) (size : Nat) : Bytes × Bool × Rc4In :=
  let got := r.src.take (min size r.left)
  ((r.st.encrypt got).1, decide (r.src.drop got.length = [] ∨ r.left - got.length = 0), ⟨r.src.drop got.length, r.left - got.length, (r.st.encrypt got).2⟩)

/-- The pieces read with buffers of the given sizes, until the end is reported. -/
def Rc4In.readAll : Rc4In → List Nat → Bytes
  | _, [] => []
  | r, n :: ns => if (r.read n).2.1 then (r.read n).1 else (r.read n).1 ++ Rc4In.readAll (r.read n).2.2 ns

/-- Encryption objects are used for one stream after the other: the cache after streams with these keys. -/
def Rc4Cache.after : Rc4Cache → List Bytes → Rc4Cache
  | c, [] => c
  | c, k :: ks => Rc4Cache.after (c.start k).2 ks

/-! ### The tables are those of RC4 -/

/-- The list holds the first 256 values. -/
def Holds256 (l : List Byte) (S : Nat → Byte) : Prop := l.length = 256 ∧ ∀ x, x < 256 → l.getD x 0 = S x

theorem holds256_swap {l : List Byte} {S : Nat → Byte} (h : Holds256 l S) {i j : Nat} (hi : i < 256) (hj : j < 256) :
    Holds256 ((l.set i (l.getD j 0)).set j (l.getD i 0)) (swapAt S i j) := by
  refine ⟨by rw [List.length_set, List.length_set, h.1], fun x hx => ?_⟩
  rw [swapAt, h.2 i hi, h.2 j hj, ← h.2 x hx]
  have e : ∀ (m : List Byte) (k : Nat) (v : Byte), m.length = 256 → k < 256 → (m.set k v).getD x 0 = if x = k then v else m.getD x 0 := by
    intro m k v hm hk
    rw [List.getD_eq_getElem?_getD, List.getElem?_set]
    by_cases hxk : k = x
    · subst hxk; simp [hm, hk]
    · rw [if_neg hxk, if_neg (fun h => hxk h.symm), List.getD_eq_getElem?_getD]
  rw [e _ _ _ (by rw [List.length_set, h.1]) hj, e _ _ _ h.1 hi]
  by_cases hxi : x = i
  · subst hxi
    by_cases hxj : x = j
    · subst hxj; simp [h.2 x hx]
    · simp [hxj]
  · by_cases hxj : x = j
    · subst hxj; simp [hxi]
    · simp [hxi, hxj]

theorem rc4Rounds_holds (key : Bytes) : ∀ (n i : Nat) (l : List Byte), i + n ≤ 256 → Holds256 l (schedule key i).1 →
    Holds256 (rc4Rounds key n i (schedule key i).2 l) (schedule key (i + n)).1
  | 0, i, l, _, h => h
  | n + 1, i, l, hn, h => by
    have hi : i < 256 := by omega
    rw [rc4Rounds]
    have e : i + (n + 1) = (i + 1) + n := by omega
    rw [e]
    have hj : ((schedule key i).2 + ((schedule key i).1 i).toNat + (key.getD (i % key.length) 0).toNat) % 256 < 256 := Nat.mod_lt _ (by omega)
    have := rc4Rounds_holds key n (i + 1) ((l.set i (l.getD (((schedule key i).2 + ((schedule key i).1 i).toNat + (key.getD (i % key.length) 0).toNat) % 256) 0)).set
      (((schedule key i).2 + ((schedule key i).1 i).toNat + (key.getD (i % key.length) 0).toNat) % 256) (l.getD i 0)) (by omega)
      (by rw [schedule]; exact holds256_swap h hi hj)
    rw [h.2 i hi]
    rw [h.2 i hi] at this
    rw [schedule] at this
    exact this

theorem rc4Table_holds (key : Bytes) : Holds256 (rc4Table key) (schedule key 256).1 := by
  have := rc4Rounds_holds key 256 0 ((List.range 256).map UInt8.ofNat) (by omega) ⟨by simp, fun x hx => by
    rw [List.getD_eq_getElem?_getD, List.getElem?_map, List.getElem?_range hx]; rfl⟩
  rw [Nat.zero_add] at this
  exact this

theorem encrypt_spec : ∀ (d : Bytes) (s : Rc4) (S : Nat → Byte), Holds256 s.tab S →
    (s.encrypt d).1 = List.zipWith (· ^^^ ·) d (keyStream S s.a s.b d.length)
  | [], _, _, _ => rfl
  | x :: r, s, S, h => by
    rw [Rc4.encrypt, List.length_cons, keyStream, List.zipWith_cons_cons]
    have ha : (s.a + 1) % 256 < 256 := Nat.mod_lt _ (by omega)
    have hb : (s.b + (S ((s.a + 1) % 256)).toNat) % 256 < 256 := Nat.mod_lt _ (by omega)
    have hs := holds256_swap h ha hb
    have hk : ∀ n, n % 256 < 256 := fun n => Nat.mod_lt _ (by omega)
    have et : s.tab.getD ((s.a + 1) % 256) 0 = S ((s.a + 1) % 256) := h.2 _ ha
    simp only [et] at hs ⊢
    rw [hs.2 _ ha, hs.2 _ hb, hs.2 _ (hk _)]
    congr 1
    exact encrypt_spec r _ _ hs

theorem keyStream_length (n : Nat) : ∀ (S : Nat → Byte) (i j : Nat), (keyStream S i j n).length = n := by
  induction n with
  | zero => intros; rfl
  | succ n ih => intro S i j; rw [keyStream, List.length_cons, ih]

theorem xor_twice : ∀ (d k : Bytes), d.length ≤ k.length → List.zipWith (· ^^^ ·) (List.zipWith (· ^^^ ·) d k) k = d
  | [], _, _ => by simp
  | x :: d, [], h => by simp at h
  | x :: d, y :: k, h => by
    rw [List.zipWith_cons_cons, List.zipWith_cons_cons, xor_twice d k (by simpa using h), UInt8.xor_assoc, UInt8.xor_self, UInt8.xor_zero]

theorem rc4_length (key d : Bytes) : (rc4 key d).length = d.length := by
  rw [rc4, List.length_zipWith, keyStream_length, Nat.min_self]

theorem rc4_twice (key d : Bytes) : rc4 key (rc4 key d) = d := by
  have h := rc4_length key d
  rw [rc4, h]
  exact xor_twice d _ (by rw [keyStream_length]; exact Nat.le_refl _)

theorem encrypt_table (key d : Bytes) : (Rc4.encrypt ⟨rc4Table key, 0, 0⟩ d).1 = rc4 key d := by
  obtain ⟨S, hS⟩ : ∃ S, S = (schedule key 256).1 := ⟨_, rfl⟩
  have h := rc4Table_holds key
  rw [rc4, ← hS]
  rw [← hS] at h
  generalize rc4Table key = t at h
  exact encrypt_spec d ⟨t, 0, 0⟩ S h

theorem encrypt_append : ∀ (x y : Bytes) (s : Rc4), s.encrypt (x ++ y) = ((s.encrypt x).1 ++ ((s.encrypt x).2.encrypt y).1, ((s.encrypt x).2.encrypt y).2)
  | [], y, s => rfl
  | a :: x, y, s => by
    rw [List.cons_append, Rc4.encrypt, Rc4.encrypt]
    simp only [encrypt_append x y, List.cons_append]

theorem encrypt_length : ∀ (x : Bytes) (s : Rc4), (s.encrypt x).1.length = x.length
  | [], _ => rfl
  | a :: x, s => by rw [Rc4.encrypt, List.length_cons, encrypt_length x, List.length_cons]

theorem writeAll_flatten : ∀ (ps : List Bytes) (s : Rc4), s.writeAll ps = (s.encrypt ps.flatten).1
  | [], s => rfl
  | p :: ps, s => by rw [Rc4.writeAll, writeAll_flatten ps, List.flatten_cons, encrypt_append]

theorem read_parts (r : Rc4In) (n : Nat) :
    (r.read n).1 = (r.st.encrypt (r.src.take (min n r.left))).1 ∧
    (r.read n).2.1 = decide (r.src.drop (min n r.left) = [] ∨ r.left - (r.src.take (min n r.left)).length = 0) ∧
    (r.read n).2.2.src.take (r.read n).2.2.left = (r.src.take r.left).drop (min n r.left) ∧
    (r.read n).2.2.st = (r.st.encrypt (r.src.take (min n r.left))).2 := by
  obtain ⟨src, left, st⟩ := r
  have hd : src.drop (src.take (min n left)).length = src.drop (min n left) := by
    rw [List.length_take]
    rcases Nat.le_total (min n left) src.length with h | h
    · rw [Nat.min_eq_left h]
    · rw [Nat.min_eq_right h, List.drop_length, List.drop_eq_nil_of_le h]
  refine ⟨rfl, ?_, ?_, rfl⟩
  · simp only [Rc4In.read]; rw [hd]
  · simp only [Rc4In.read]
    rw [hd, List.drop_take]
    rcases Nat.le_total (min n left) src.length with h | h
    · rw [List.length_take, Nat.min_eq_left h]
    · rw [List.drop_eq_nil_of_le h]; simp

/-- What is read, with buffers of any sizes, is the beginning of the decrypted data; all of it when the end is reported or the buffers are large enough. -/
theorem readAll_prefix : ∀ (ns : List Nat) (r : Rc4In), (r.st.encrypt (r.src.take r.left)).1 = r.readAll ns ++ ((r.st.encrypt (r.src.take r.left)).1).drop (r.readAll ns).length
  | [], r => rfl
  | n :: ns, r => by
    obtain ⟨h1, h2, h3, h4⟩ := read_parts r n
    have hsplit : r.src.take r.left = r.src.take (min n r.left) ++ (r.src.take r.left).drop (min n r.left) := by
      have := (List.take_append_drop (min n r.left) (r.src.take r.left)).symm
      rw [List.take_take, Nat.min_eq_left (Nat.min_le_right _ _)] at this
      exact this
    have henc : (r.st.encrypt (r.src.take r.left)).1 = (r.read n).1 ++ ((r.read n).2.2.st.encrypt ((r.read n).2.2.src.take (r.read n).2.2.left)).1 := by
      rw [h1, h4, h3]
      conv => lhs; rw [hsplit]
      rw [encrypt_append]
    rw [Rc4In.readAll]
    split
    · rw [henc, List.drop_left]
    · have := readAll_prefix ns (r.read n).2.2
      rw [henc]
      rw [List.append_assoc, List.length_append, List.drop_append]
      rw [List.drop_eq_nil_of_le (by omega), List.nil_append, Nat.add_sub_cancel_left]
      rw [← this]

theorem readAll_length : ∀ (ns : List Nat) (r : Rc4In), (∀ n ∈ ns, 0 < n) → (r.src.take r.left).length ≤ ns.length → (r.readAll ns).length = (r.src.take r.left).length
  | [], r, _, h => by
    have : (r.src.take r.left).length = 0 := Nat.le_zero.1 h
    rw [this]; rfl
  | n :: ns, r, hn, h => by
    obtain ⟨h1, h2, h3, h4⟩ := read_parts r n
    have hl1 : (r.read n).1.length = min (min n r.left) r.src.length := by rw [h1, encrypt_length, List.length_take]
    have hpos := hn n List.mem_cons_self
    have hl : (r.src.take r.left).length = min r.left r.src.length := List.length_take ..
    rw [Rc4In.readAll]
    split
    · next he =>
      rw [h2, decide_eq_true_eq, List.drop_eq_nil_iff, List.length_take] at he
      omega
    · have hl3 := congrArg List.length h3
      rw [List.length_drop, hl] at hl3
      have := readAll_length ns (r.read n).2.2 (fun m hm => hn m (List.mem_cons_of_mem _ hm)) (by
        rw [hl] at h
        rw [hl3]
        simp only [List.length_cons] at h
        omega)
      rw [List.length_append, this, hl3, hl]
      omega

/-! ### C108 -/

/-- The cache holds the table of the key in it. -/
def CacheOK (n : Nat) (c : Rc4Cache) : Prop := n ≤ c.key.length ∧ c.last = rc4Table (c.key.take n)

theorem new_key : Rc4Cache.new.key = List.replicate 16 0 := rfl

theorem new_take (n : Nat) (hn : n ≤ 16) : Rc4Cache.new.key.take n = List.replicate n 0 := by
  rw [new_key, List.take_replicate, Nat.min_eq_left hn]

theorem start_ok (n : Nat) (c : Rc4Cache) (key : Bytes) (hk : key.length = n) (hn : n ≤ c.key.length) (h : CacheOK n c ∨ key ≠ c.key.take n) :
    (c.start key).1 = ⟨rc4Table key, 0, 0⟩ ∧ CacheOK n (c.start key).2 := by
  subst hk
  rw [Rc4Cache.start]
  split
  · refine ⟨rfl, ?_, ?_⟩
    · simp
    · rw [List.take_left]
  · next hne =>
    have hkey : key = c.key.take key.length := by simpa using hne
    rcases h with h | h
    · refine ⟨?_, h⟩
      simp only
      rw [h.2, ← hkey]
    · exact absurd hkey h

theorem after_ok (n : Nat) (keys : List Bytes) : ∀ (c : Rc4Cache), CacheOK n c → (∀ k ∈ keys, k.length = n) → CacheOK n (c.after keys) := by
  induction keys with
  | nil => intro c h _; exact h
  | cons k ks ih =>
    intro c h hl
    exact ih _ (start_ok n c k (hl k List.mem_cons_self) h.1 (Or.inl h)).2 (fun x hx => hl x (List.mem_cons_of_mem _ hx))

/-- Whatever streams came before, a stream is encrypted by RC4 with its own key: the bytes that arrive when data is written in any pieces are RC4 of the data.
The keys of one encryption object have the same length, up to 16.  Missing: the first key consisting of zeros (`C108_zero_key_false`). -/
theorem C108_write_partial (n : Nat) (hn : n ≤ 16) (k0 : Bytes) (keys : List Bytes) (key : Bytes) (pieces : List Bytes) (hk0 : k0.length = n) (hnz : k0 ≠ List.replicate n 0)
    (hks : ∀ k ∈ keys, k.length = n) (hk : key.length = n) :
    ((Rc4Cache.new.after (k0 :: keys)).start key).1.writeAll pieces = rc4 key pieces.flatten := by
  have h1 : CacheOK n (Rc4Cache.new.start k0).2 := (start_ok n Rc4Cache.new k0 hk0 (by rw [new_key, List.length_replicate]; exact hn) (Or.inr (by
    rw [new_take n hn]; exact hnz))).2
  have h2 : CacheOK n (Rc4Cache.new.after (k0 :: keys)) := after_ok n keys _ h1 hks
  have h3 := (start_ok n _ key hk h2.1 (Or.inl h2)).1
  rw [h3, writeAll_flatten, encrypt_table]

/-- Reading the encrypted data from a file, in pieces of any sizes, enough of them, gives the data back, whatever was decrypted before and whatever follows in the file. -/
theorem C108_read_partial (n : Nat) (hn : n ≤ 16) (k0 : Bytes) (keys : List Bytes) (key data rest : Bytes) (sizes : List Nat) (hk0 : k0.length = n) (hnz : k0 ≠ List.replicate n 0)
    (hks : ∀ k ∈ keys, k.length = n) (hk : key.length = n) (hsizes : ∀ s ∈ sizes, 0 < s) (henough : data.length ≤ sizes.length) :
    (Rc4In.mk (rc4 key data ++ rest) data.length ((Rc4Cache.new.after (k0 :: keys)).start key).1).readAll sizes = data := by
  have h1 : CacheOK n (Rc4Cache.new.start k0).2 := (start_ok n Rc4Cache.new k0 hk0 (by rw [new_key, List.length_replicate]; exact hn) (Or.inr (by
    rw [new_take n hn]; exact hnz))).2
  have h2 : CacheOK n (Rc4Cache.new.after (k0 :: keys)) := after_ok n keys _ h1 hks
  have h3 := (start_ok n _ key hk h2.1 (Or.inl h2)).1
  obtain ⟨r, hr⟩ : ∃ r, r = Rc4In.mk (rc4 key data ++ rest) data.length ((Rc4Cache.new.after (k0 :: keys)).start key).1 := ⟨_, rfl⟩
  have htake : r.src.take r.left = rc4 key data := by
    rw [hr]
    simp only
    rw [← rc4_length key data, List.take_left]
  have henc : (r.st.encrypt (r.src.take r.left)).1 = data := by
    rw [htake, hr]
    simp only
    rw [h3, encrypt_table, rc4_twice]
  have hpre := readAll_prefix sizes r
  have hlen := readAll_length sizes r hsizes (by rw [htake, rc4_length]; exact henough)
  rw [henc, hlen, htake, rc4_length, List.drop_length, List.append_nil] at hpre
  rw [← hr, ← hpre]

theorem encrypt_zeros (m : Nat) : ∀ (d : Bytes) (a b : Nat), (Rc4.encrypt ⟨List.replicate m 0, a, b⟩ d).1 = d := by
  have hset : ∀ k : Nat, (List.replicate m (0 : Byte)).set k 0 = List.replicate m 0 := by
    intro k
    apply List.ext_getElem?
    intro i
    rw [List.getElem?_set, List.getElem?_replicate, List.length_replicate]
    split
    · next h => rw [h]
    · rfl
  have hget : ∀ k : Nat, (List.replicate m (0 : Byte)).getD k 0 = 0 := by
    intro k
    rw [List.getD_eq_getElem?_getD, List.getElem?_replicate]
    split <;> rfl
  intro d
  induction d with
  | nil => intros; rfl
  | cons x d ih =>
    intro a b
    rw [Rc4.encrypt]
    simp only [hget, hset, UInt8.xor_zero]
    rw [ih]

/-- When the first key of an encryption object consists of zeros, the table is taken from the empty cache, and nothing is encrypted. -/
theorem C108_zero_key_false (n : Nat) (hn : n ≤ 16) (pieces : List Bytes) : (Rc4Cache.new.start (List.replicate n 0)).1.writeAll pieces = pieces.flatten := by
  have h : (Rc4Cache.new.start (List.replicate n 0)).1 = ⟨List.replicate 256 0, 0, 0⟩ := by
    rw [Rc4Cache.start, if_neg]
    · rfl
    · rw [List.length_replicate, new_take n hn]; exact fun h => h rfl
  rw [h, writeAll_flatten]
  exact encrypt_zeros 256 _ 0 0

/-- A key that meets the hypotheses. -/
example (data rest : Bytes) (h : data.length ≤ 100) :
    (Rc4In.mk (rc4 [1, 2, 3, 4, 5] data ++ rest) data.length ((Rc4Cache.new.after [[9, 8, 7, 6, 5], [0, 0, 0, 0, 0]]).start [1, 2, 3, 4, 5]).1).readAll (List.replicate 100 7) = data :=
  C108_read_partial 5 (by decide) _ _ _ _ _ _ rfl (by decide) (by simp) rfl (by simp) (by simpa using h)

end Pdfmm
