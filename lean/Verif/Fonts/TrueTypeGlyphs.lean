import Verif.Fonts.TrueTypeOrder
set_option autoImplicit false
/-
C134: the glyphs of a subset of a TrueType font draw what the glyphs of the font draw.  This file deals with the tables `glyf` and `loca`.
-/
namespace Pdfmm
namespace Spec

/-- A big endian number. -/
def be : Bytes → Nat
  | [] => 0
  | b :: r => b.toNat * 256 ^ r.length + be r

/-- The number of `n` bytes at an offset. -/
def beAt (b : Bytes) (off n : Nat) : Option Nat := if off + n ≤ b.length then some (be ((b.drop off).take n)) else none

/-- The entry of a glyph in `loca`: in the short format it is the half of the address. -/
def ttLocaEntry (loca : Bytes) (long : Bool) (i : Nat) : Option Nat :=
  if long then beAt loca (4 * i) 4 else (beAt loca (2 * i) 2).map (2 * ·)

/-- The data of a glyph: from its address up to the address of the next one. -/
def ttGlyphOf (glyf loca : Bytes) (long : Bool) (i : Nat) : Option Bytes :=
  match ttLocaEntry loca long i, ttLocaEntry loca long (i + 1) with
  | some a, some b => if a ≤ b ∧ b ≤ glyf.length then some ((glyf.drop a).take (b - a)) else none
  | _, _ => none

/-- The size of the arguments and of the transformation of a component. -/
def ttArgs (flags : Nat) : Nat :=
  (if flags.testBit 0 then 4 else 2) + (if flags.testBit 3 then 2 else if flags.testBit 6 then 4 else if flags.testBit 7 then 8 else 0)

/-- A component of a compound glyph: flags, glyph, arguments and transformation. -/
structure TtComp where
  flags : Nat
  gid : Nat
  args : Bytes

/-- The components at the beginning of some data and the rest of the data; the number bounds how many there are. -/
def ttComps : Nat → Bytes → Option (List TtComp × Bytes)
  | 0, _ => none
  | k + 1, b =>
    if b.length < 4 + ttArgs (be (b.take 2)) then none
    else if (be (b.take 2)).testBit 5 then
      match ttComps k (b.drop (4 + ttArgs (be (b.take 2)))) with
      | none => none
      | some (r, t) => some (⟨be (b.take 2), be ((b.drop 2).take 2), (b.drop 4).take (ttArgs (be (b.take 2)))⟩ :: r, t)
    else some ([⟨be (b.take 2), be ((b.drop 2).take 2), (b.drop 4).take (ttArgs (be (b.take 2)))⟩], b.drop (4 + ttArgs (be (b.take 2))))

/-- What a glyph draws: nothing, an outline, or other glyphs, each with flags, arguments and transformation, and instructions. -/
inductive Outline
  | cut
  | missing
  | empty
  | broken
  | simple (data : Bytes)
  | compound (head : Bytes) (parts : List (Nat × Bytes × Outline)) (tail : Bytes)

/-- The glyph `g` of a font, with components down to the given depth. -/
def outline (glyph : Nat → Option Bytes) : Nat → Nat → Outline
  | 0, _ => .cut
  | n + 1, g =>
    match glyph g with
    | none => .missing
    | some b =>
      if b = [] then .empty
      else if 32768 ≤ be (b.take 2) then
        match ttComps b.length (b.drop 10) with
        | none => .broken
        | some (cs, t) => .compound (b.take 10) (cs.map (fun c => (c.flags, c.args, outline glyph n c.gid))) t
      else .simple b

/-- Data of a glyph that is not damaged: none, or a header of ten bytes with a number of contours, and with components within the data when that
number is negative. -/
def GlyphOk (b : Bytes) : Prop := b = [] ∨ 10 ≤ b.length ∧ (32768 ≤ be (b.take 2) → (ttComps b.length (b.drop 10)).isSome = true)

end Spec

open Spec (be)

/-! ### Numbers -/

theorem ttNat_go (l : Bytes) (a : Nat) : l.foldl (fun (a : Nat) (b : UInt8) => 256 * a + b.toNat) a = a * 256 ^ l.length + be l := by
  induction l generalizing a with
  | nil => simp [be]
  | cons b l ih =>
    rw [List.foldl_cons, ih, be, List.length_cons, Nat.pow_succ, Nat.add_mul, ← Nat.add_assoc]
    congr 2
    rw [Nat.mul_comm 256 a, Nat.mul_assoc, Nat.mul_comm 256]

theorem ttNat_be (l : Bytes) : ttNat l = be l := by
  rw [ttNat, ttNat_go]
  simp

theorem be_two (a b : UInt8) : be [a, b] = 256 * a.toNat + b.toNat := by
  simp [be]
  omega

theorem be_W16 (n : Nat) (h : n < 65536) : be (ttW16 n) = n := by
  rw [ttW16, be_two]
  simp
  omega

theorem be_append (a b : Bytes) : be (a ++ b) = be a * 256 ^ b.length + be b := by
  induction a with
  | nil => simp [be]
  | cons x a ih =>
    rw [List.cons_append, be, be, ih, List.length_append, Nat.pow_add, Nat.add_mul, Nat.mul_assoc, Nat.add_assoc]

theorem be_W32 (n : Nat) (h : n < 4294967296) : be (ttW32 n) = n := by
  rw [ttW32, be_append, be_W16 _ (by omega), be_W16 _ (by omega)]
  simp [ttW16]
  omega

theorem W16_length (n : Nat) : (ttW16 n).length = 2 := rfl
theorem W32_length (n : Nat) : (ttW32 n).length = 4 := rfl

theorem be_lt (l : Bytes) : be l < 256 ^ l.length := by
  induction l with
  | nil => simp [be]
  | cons b l ih =>
    rw [be, List.length_cons, Nat.pow_succ]
    have := b.toNat_lt
    have h1 : b.toNat * 256 ^ l.length ≤ 255 * 256 ^ l.length := Nat.mul_le_mul_right _ (by omega)
    omega

theorem W16_be {l : Bytes} (h : l.length = 2) : ttW16 (be l) = l := by
  match l, h with
  | [a, b], _ =>
    rw [be_two, ttW16]
    have ha := a.toNat_lt
    have hb := b.toNat_lt
    have e1 : (256 * a.toNat + b.toNat) / 256 % 256 = a.toNat := by omega
    have e2 : (256 * a.toNat + b.toNat) % 256 = b.toNat := by omega
    rw [e1, e2, UInt8.ofNat_toNat, UInt8.ofNat_toNat]

theorem ttRead_ok {file : Bytes} {off n : Nat} (h : off + n ≤ file.length) : ttRead file off n = .ok ((file.drop off).take n) := by
  rw [ttRead, if_neg (by omega), if_neg (by omega)]

theorem ttRead_inv {file : Bytes} {off n : Nat} {b : Bytes} (h : ttRead file off n = .ok b) : off + n ≤ file.length ∧ b = (file.drop off).take n := by
  rw [ttRead] at h
  by_cases h1 : off > file.length
  · rw [if_pos h1] at h
    cases h
  · rw [if_neg h1] at h
    by_cases h2 : off + n > file.length
    · rw [if_pos h2] at h
      cases h
    · rw [if_neg h2] at h
      cases h
      exact ⟨by omega, rfl⟩

theorem ttU16_ok {file : Bytes} {off : Nat} (h : off + 2 ≤ file.length) : ttU16 file off = .ok (be ((file.drop off).take 2)) := by
  rw [ttU16, ttRead_ok h]
  dsimp only
  rw [ttNat_be]

theorem ttU32_ok {file : Bytes} {off : Nat} (h : off + 4 ≤ file.length) : ttU32 file off = .ok (be ((file.drop off).take 4)) := by
  rw [ttU32, ttRead_ok h]
  dsimp only
  rw [ttNat_be]

/-! ### Components -/

/-- The bytes of components. -/
def encComps (cs : List Spec.TtComp) : Bytes := cs.flatMap (fun (c : Spec.TtComp) => ttW16 c.flags ++ ttW16 c.gid ++ c.args)

/-- Components as they can be in a glyph. -/
def CompsOk : List Spec.TtComp → Prop
  | [] => False
  | c :: r => c.flags < 65536 ∧ c.gid < 65536 ∧ c.args.length = Spec.ttArgs c.flags ∧ (if c.flags.testBit 5 then CompsOk r else r = [])

theorem ttComps_inv (k : Nat) : ∀ (b : Bytes) (cs : List Spec.TtComp) (t : Bytes), Spec.ttComps k b = some (cs, t) → CompsOk cs ∧ b = encComps cs ++ t ∧ cs.length ≤ k := by
  induction k with
  | zero =>
    intro b cs t h
    cases h
  | succ k ih =>
    intro b cs t h
    rw [Spec.ttComps] at h
    by_cases hl : b.length < 4 + Spec.ttArgs (be (b.take 2))
    · rw [if_pos hl] at h
      cases h
    · rw [if_neg hl] at h
      have h2 : (b.take 2).length = 2 := by rw [List.length_take]; omega
      have h3 : ((b.drop 2).take 2).length = 2 := by rw [List.length_take, List.length_drop]; omega
      have h4 : ((b.drop 4).take (Spec.ttArgs (be (b.take 2)))).length = Spec.ttArgs (be (b.take 2)) := by rw [List.length_take, List.length_drop]; omega
      have f1 : be (b.take 2) < 65536 := by
        have := be_lt (b.take 2)
        rw [h2] at this
        exact this
      have f2 : be ((b.drop 2).take 2) < 65536 := by
        have := be_lt ((b.drop 2).take 2)
        rw [h3] at this
        exact this
      have hsplit : b = (ttW16 (be (b.take 2)) ++ ttW16 (be ((b.drop 2).take 2)) ++ (b.drop 4).take (Spec.ttArgs (be (b.take 2)))) ++
          b.drop (4 + Spec.ttArgs (be (b.take 2))) := by
        rw [W16_be h2, W16_be h3]
        rw [← List.drop_drop (i := Spec.ttArgs (be (b.take 2))) (j := 4), List.append_assoc, List.append_assoc, List.take_append_drop, ← List.drop_drop (i := 2) (j := 2),
          List.take_append_drop, List.take_append_drop]
      by_cases hm : (be (b.take 2)).testBit 5 = true
      · rw [if_pos hm] at h
        cases hr : Spec.ttComps k (b.drop (4 + Spec.ttArgs (be (b.take 2)))) with
        | none =>
          rw [hr] at h
          cases h
        | some q =>
          obtain ⟨r, t'⟩ := q
          rw [hr] at h
          cases h
          obtain ⟨i1, i2, i3⟩ := ih _ _ _ hr
          refine ⟨⟨f1, f2, h4, ?_⟩, ?_, by simp; omega⟩
          · rw [if_pos hm]
            exact i1
          · rw [encComps, List.flatMap_cons, List.append_assoc]
            conv => lhs; rw [hsplit, i2]
            rfl
      · rw [if_neg hm] at h
        cases h
        refine ⟨⟨f1, f2, h4, ?_⟩, ?_, by simp⟩
        · rw [if_neg hm]
        · simp only [encComps, List.flatMap_cons, List.flatMap_nil, List.append_nil]
          exact hsplit

theorem W16_take (n : Nat) (r : Bytes) : (ttW16 n ++ r).take 2 = ttW16 n := rfl
theorem W16_drop (n : Nat) (r : Bytes) : (ttW16 n ++ r).drop 2 = r := rfl

theorem ttComps_enc (cs : List Spec.TtComp) : ∀ (k : Nat) (t : Bytes), CompsOk cs → cs.length ≤ k → Spec.ttComps k (encComps cs ++ t) = some (cs, t) := by
  induction cs with
  | nil =>
    intro k t h
    exact h.elim
  | cons c r ih =>
    intro k t h hk
    obtain ⟨fl, gid, args⟩ := c
    obtain ⟨h1, h2, h3, h4⟩ := h
    dsimp only at h1 h2 h3 h4
    cases k with
    | zero => simp at hk
    | succ k =>
      have e : encComps (⟨fl, gid, args⟩ :: r) ++ t = ttW16 fl ++ (ttW16 gid ++ (args ++ (encComps r ++ t))) := by
        simp [encComps, List.flatMap_cons, List.append_assoc]
      rw [Spec.ttComps, e, W16_take, be_W16 _ h1]
      have hlen : (ttW16 fl ++ (ttW16 gid ++ (args ++ (encComps r ++ t)))).length = 4 + Spec.ttArgs fl + (encComps r ++ t).length := by
        simp only [List.length_append, W16_length, h3]
        omega
      have hdrop4 : (ttW16 fl ++ (ttW16 gid ++ (args ++ (encComps r ++ t)))).drop 4 = args ++ (encComps r ++ t) := rfl
      have htake : (args ++ (encComps r ++ t)).take (Spec.ttArgs fl) = args := by
        rw [← h3, List.take_left]
      have hdrop : (ttW16 fl ++ (ttW16 gid ++ (args ++ (encComps r ++ t)))).drop (4 + Spec.ttArgs fl) = encComps r ++ t := by
        rw [← List.drop_drop, hdrop4, ← h3, List.drop_left]
      rw [if_neg (by omega), hdrop, hdrop4, htake, W16_drop, W16_take, be_W16 _ h2]
      by_cases hm : fl.testBit 5 = true
      · rw [if_pos hm] at h4 ⊢
        rw [ih k t h4 (by simp at hk; omega)]
      · rw [if_neg hm] at h4 ⊢
        subst h4
        rfl

/-- The places of the numbers of the components. -/
def compPlaces : List Spec.TtComp → Nat → List (Nat × Nat)
  | [], _ => []
  | c :: r, p => (p + 2, c.gid) :: compPlaces r (p + 4 + Spec.ttArgs c.flags)

theorem ttStep_args (fl : Nat) : ttStep fl = 4 + Spec.ttArgs fl := by
  rw [ttStep, Spec.ttArgs]
  cases fl.testBit 0 <;> simp <;> omega

theorem drop_take_at (pre b post : Bytes) (n : Nat) (hn : n = b.length) : ((pre ++ (b ++ post)).drop pre.length).take n = b := by
  rw [List.drop_left, hn, List.take_left]

theorem ttParts_enc (cs : List Spec.TtComp) : ∀ (pre post : Bytes) (k : Nat), CompsOk cs → cs.length ≤ k →
    ttParts (pre ++ (encComps cs ++ post)) k pre.length = .ok (compPlaces cs pre.length) := by
  induction cs with
  | nil =>
    intro pre post k h
    exact h.elim
  | cons c r ih =>
    intro pre post k h hk
    obtain ⟨fl, gid, args⟩ := c
    obtain ⟨h1, h2, h3, h4⟩ := h
    dsimp only at h1 h2 h3 h4
    cases k with
    | zero => simp at hk
    | succ k =>
      have e : pre ++ (encComps (⟨fl, gid, args⟩ :: r) ++ post) = pre ++ (ttW16 fl ++ (ttW16 gid ++ (args ++ (encComps r ++ post)))) := by
        simp [encComps, List.flatMap_cons, List.append_assoc]
      have e2 : pre ++ (ttW16 fl ++ (ttW16 gid ++ (args ++ (encComps r ++ post)))) = (pre ++ ttW16 fl) ++ (ttW16 gid ++ (args ++ (encComps r ++ post))) := by
        simp only [List.append_assoc]
      have e3 : pre ++ (ttW16 fl ++ (ttW16 gid ++ (args ++ (encComps r ++ post)))) = (pre ++ ttW16 fl ++ ttW16 gid ++ args) ++ (encComps r ++ post) := by
        simp only [List.append_assoc]
      have u1 : ttU16 (pre ++ (ttW16 fl ++ (ttW16 gid ++ (args ++ (encComps r ++ post))))) pre.length = .ok fl := by
        rw [ttU16_ok (by simp only [List.length_append, W16_length]; omega), drop_take_at _ _ _ _ (W16_length fl).symm, be_W16 _ h1]
      have u2 : ttU16 (pre ++ (ttW16 fl ++ (ttW16 gid ++ (args ++ (encComps r ++ post))))) (pre.length + 2) = .ok gid := by
        rw [e2, show pre.length + 2 = (pre ++ ttW16 fl).length from by rw [List.length_append, W16_length],
          ttU16_ok (by simp only [List.length_append, W16_length]; omega), drop_take_at _ _ _ _ (W16_length gid).symm, be_W16 _ h2]
      rw [e, ttParts, u1]
      dsimp only
      rw [u2]
      dsimp only
      by_cases hm : fl.testBit 5 = true
      · rw [if_pos hm] at h4 ⊢
        have hl : pre.length + ttStep fl = (pre ++ ttW16 fl ++ ttW16 gid ++ args).length := by
          rw [ttStep_args]
          simp only [List.length_append, W16_length, h3]
          omega
        rw [hl, e3, ih _ _ k h4 (by simp at hk; omega)]
        dsimp only
        rw [compPlaces, ← hl, ttStep_args, ← Nat.add_assoc]
      · rw [if_neg hm] at h4 ⊢
        subst h4
        rfl

theorem compPlaces_map (cs : List Spec.TtComp) (off : Nat) (φ : Nat → Nat) : ∀ p, off ≤ p →
    (compPlaces cs p).map (fun q => (q.1 - off, φ q.2)) = (compPlaces cs (p - off)).map (fun q => (q.1, φ q.2)) := by
  induction cs with
  | nil =>
    intro p _
    rfl
  | cons c r ih =>
    intro p hp
    simp only [compPlaces, List.map_cons]
    rw [ih _ (by omega)]
    congr 2
    · omega
    · congr 1
      omega

theorem compPlaces_gids (cs : List Spec.TtComp) (p : Nat) : (compPlaces cs p).map (·.2) = cs.map (·.gid) := by
  induction cs generalizing p with
  | nil => rfl
  | cons c r ih => rw [compPlaces, List.map_cons, List.map_cons, ih]

/-- A component with another glyph. -/
def renumber (φ : Nat → Nat) (c : Spec.TtComp) : Spec.TtComp := { c with gid := φ c.gid }

theorem patchAll_enc (cs : List Spec.TtComp) (φ : Nat → Nat) : ∀ (pre post : Bytes), CompsOk cs ∨ cs = [] →
    ttPatchAll ((compPlaces cs pre.length).map (fun q => (q.1, φ q.2))) (pre ++ (encComps cs ++ post)) =
      .ok (pre ++ (encComps (cs.map (renumber φ)) ++ post)) := by
  induction cs with
  | nil =>
    intro pre post _
    rfl
  | cons c r ih =>
    intro pre post h
    obtain ⟨fl, gid, args⟩ := c
    have hc : CompsOk (⟨fl, gid, args⟩ :: r) := h.resolve_right (by simp)
    obtain ⟨h1, h2, h3, h4⟩ := hc
    dsimp only at h1 h2 h3 h4
    have hr : CompsOk r ∨ r = [] := by
      by_cases hm : fl.testBit 5 = true
      · rw [if_pos hm] at h4
        exact Or.inl h4
      · rw [if_neg hm] at h4
        exact Or.inr h4
    have e : pre ++ (encComps (⟨fl, gid, args⟩ :: r) ++ post) = (pre ++ ttW16 fl) ++ (ttW16 gid ++ (args ++ (encComps r ++ post))) := by
      simp [encComps, List.flatMap_cons, List.append_assoc]
    have hpl : (pre ++ ttW16 fl).length = pre.length + 2 := by rw [List.length_append, W16_length]
    rw [compPlaces, List.map_cons, ttPatchAll, e, ttPatch]
    dsimp only
    rw [if_neg (by simp only [List.length_append, W16_length]; omega)]
    dsimp only
    have t1 : ((pre ++ ttW16 fl) ++ (ttW16 gid ++ (args ++ (encComps r ++ post)))).take (pre.length + 2) = pre ++ ttW16 fl := by
      rw [← hpl, List.take_left]
    have t2 : ((pre ++ ttW16 fl) ++ (ttW16 gid ++ (args ++ (encComps r ++ post)))).drop (pre.length + 2 + 2) = args ++ (encComps r ++ post) := by
      rw [← List.drop_drop, ← hpl, List.drop_left, W16_drop]
    rw [t1, t2]
    have e4 : pre ++ ttW16 fl ++ [UInt8.ofNat (φ gid / 256 % 256), UInt8.ofNat (φ gid % 256)] ++ (args ++ (encComps r ++ post)) =
        (pre ++ ttW16 fl ++ ttW16 (φ gid) ++ args) ++ (encComps r ++ post) := by
      simp only [List.append_assoc, ttW16]
    have hl : pre.length + 4 + Spec.ttArgs fl = (pre ++ ttW16 fl ++ ttW16 (φ gid) ++ args).length := by
      simp only [List.length_append, W16_length, h3]
    rw [e4, hl, ih _ _ hr]
    congr 1
    simp [encComps, renumber, List.flatMap_cons, List.append_assoc]

theorem renumber_ok (φ : Nat → Nat) (hφ : ∀ n, φ n < 65536) : ∀ cs, CompsOk cs → CompsOk (cs.map (renumber φ)) := by
  intro cs
  induction cs with
  | nil =>
    intro h
    exact h.elim
  | cons c r ih =>
    intro h
    obtain ⟨h1, h2, h3, h4⟩ := h
    refine ⟨h1, hφ _, h3, ?_⟩
    by_cases hm : c.flags.testBit 5 = true
    · rw [if_pos hm] at h4
      have : (renumber φ c).flags.testBit 5 = true := hm
      rw [if_pos this]
      exact ih h4
    · rw [if_neg hm] at h4
      have : ¬ (renumber φ c).flags.testBit 5 = true := hm
      rw [if_neg this, h4]
      rfl

theorem encComps_length (cs : List Spec.TtComp) (φ : Nat → Nat) : (encComps (cs.map (renumber φ))).length = (encComps cs).length := by
  induction cs with
  | nil => rfl
  | cons c r ih =>
    simp only [encComps, List.map_cons, List.flatMap_cons, List.length_append, W16_length] at ih ⊢
    rw [ih]
    rfl

theorem ttPatchAll_length (l : List (Nat × Nat)) : ∀ (b b' : Bytes), ttPatchAll l b = .ok b' → b'.length = b.length := by
  induction l with
  | nil =>
    intro b b' h
    cases h
    rfl
  | cons p l ih =>
    intro b b' h
    rw [ttPatchAll, ttPatch] at h
    by_cases hp : p.1 + 2 > b.length
    · rw [if_pos hp] at h
      cases h
    · rw [if_neg hp] at h
      rw [ih _ _ h]
      simp only [List.length_append, List.length_take, List.length_drop, List.length_cons, List.length_nil]
      omega

end Pdfmm
