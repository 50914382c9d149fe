import Verif.Save.SaveRead
import Verif.Parser.XChainNewest
/-
Loading what was saved: a document that was saved, and updated any number of times.
-/
set_option autoImplicit false
namespace Pdfmm

open Spec

namespace Spec

/-- The document `d` is what a program has that opened the file, getting `ld`, and then changed it: what it has not
changed is what it loaded, and the number of an object it removed is free or is used again.  (That changed objects
are dirty is C28, that removed numbers become free is C31.) -/
structure ChangeOf (file : Bytes) (ld : LDoc) (d : SaveIn) : Prop where
  prev : d.prev = ld.xref
  clean : ∀ o ∈ d.objs, o.dirty = false → ld.get file o.ref = some (.ok o.obj)
  gone : ∀ r x, ld.get file r = some x → r.num ∈ d.objs.map (·.ref.num) ++ d.free.map (·.num)

/-- Files that arise by saving a document and then any number of times opening the file, changing the document and
appending an update: the file, the document that was saved last, the number of updates and the version of the first
save.  Options may be different each time. -/
inductive History : Bytes → SaveIn → Nat → Bytes → Prop
  | save (env : SaveEnv) (d : SaveIn) (txt : Bytes) : CanSave env false d → d.prev = 0 →
      writeFile env false 0 d = .ok txt → txt.length < 10000000000 → History txt d 0 d.version
  | update (env : SaveEnv) (file : Bytes) (d0 : SaveIn) (n : Nat) (v0 : Bytes) (ld : LDoc) (d : SaveIn) (upd : Bytes) :
      History file d0 n v0 → loadFile {} file = .ok ld → ChangeOf file ld d → CanSave env true d →
      writeFile env true file.length d = .ok upd → (file ++ upd).length < 10000000000 →
      History (file ++ upd) d (n + 1) v0

/-- The catalog of a document, if it is among its objects (or direct). -/
def catalogOf (d : SaveIn) : Option (List (Bytes × Var)) :=
  match SMap.find? kRoot d.trailer with
  | some (.ref n g) =>
    match (d.objs.find? (fun o => decide (o.ref = ⟨n, g⟩))).map DocObj.obj with
    | some (.plain (.dict c)) => some c
    | some (.stream s) => some s.dict
    | _ => none
  | some (.dict c) => some c
  | _ => none

/-- The version a catalog gives. -/
def ownVersion (c : List (Bytes × Var)) : Option Bytes :=
  match SMap.find? nVersion c with
  | some (.name n) => if IsPdfVersion n then some n else none
  | _ => none

/-- What was loaded is the document: its objects and no others, its trailer, and its version: the one of the
catalog or else that of the header, `v0`. -/
structure LoadedAs (file : Bytes) (ld : LDoc) (d : SaveIn) (v0 : Bytes) : Prop where
  objs : ∀ o ∈ d.objs, ∃ l, ld.get file o.ref = some (.ok l) ∧ SameObj o.obj l
  only : ∀ r x, ld.get file r = some x → ∃ o ∈ d.objs, o.ref = r
  root : SMap.find? kRoot ld.trailer = SMap.find? kRoot d.trailer
  info : ∀ v, SMap.find? kInfo d.trailer = some v → SMap.find? kInfo ld.trailer = some v
  size : ∃ z : Nat, SMap.find? kSize ld.trailer = some (.num z) ∧ (∀ o ∈ d.objs, o.ref.num < z) ∧
    (∀ f ∈ d.free, f.num < z) ∧ ∃ n ∈ d.objs.map (·.ref.num) ++ d.free.map (·.num), n + 1 = z
  version : ld.version = ((catalogOf d).bind ownVersion).getD v0

end Spec

/-! ### Chains of revisions -/

/-- What is known about a file of `L` revisions whose newest table is at `off`. -/
structure ChainOk (file : Bytes) (d : SaveIn) (L : Nat) (v0 : Bytes) (off : Nat) (E : Nat → Option XEntry)
    (F : Bytes → Option Var) (offs ns : List Nat) : Prop where
  pos : 0 < off
  mem : off ∈ offs
  range : ∀ o ∈ offs, o < file.length
  len : file.length < 10000000000
  levels : 1 ≤ L
  version : IsPdfVersion v0
  header : ∃ y, file = headerText v0 ++ y
  tail : ∃ b e, 1 ≤ b.length ∧ (e = [] ∨ e = [10]) ∧ file = b ++ (startXRef ++ ((10 :: (fmtNat off ++ [10])) ++ (eofMarker ++ e)))
  read : ∀ (post : Bytes) (fuel k : Nat) (st : LState), (∀ o ∈ offs, o ∉ st.visited) → L ≤ fuel → k + L ≤ 127 →
    ∃ st', readXRef {} 0 maxObjectCount (file ++ post) fuel (2 * k) off st = .ok st' ∧
      (∀ n, known st'.entries n = (known st.entries n).or (E n)) ∧
      ∃ c, st'.trailer = some c ∧ ∀ q ∈ inherited, SMap.find? q c = (st.trailer.bind (SMap.find? q)).or (F q)
  deep : ∀ (post : Bytes) (fuel k : Nat) (st : LState), (∀ o ∈ offs, o ∉ st.visited) → L ≤ fuel → 128 ≤ k + L →
    readXRef {} 0 maxObjectCount (file ++ post) fuel (2 * k) off st = raise .InvalidXRef
  inUse : ∀ n e, E n = some e → e.type = .inUse → 0 < e.variant ∧ ∃ o ∈ d.objs, o.ref = ⟨n, e.gen⟩ ∧
    ∃ l, SameObj o.obj l ∧ ∀ post : Bytes, loadObject {} ((file ++ post).drop e.variant) = .ok (o.ref, l)
  writes : ∀ o ∈ d.objs, ∃ v, E o.ref.num = some ⟨.inUse, v, o.ref.gen⟩
  frees : ∀ f ∈ d.free, ∃ v, E f.num = some ⟨.free, v, f.gen⟩
  refs : ∀ o ∈ d.objs, 1 ≤ o.ref.num ∧ o.ref.gen < 65536
  free : ∀ f ∈ d.free, 1 ≤ f.num ∧ f.gen < 65536
  distinct : (d.objs.map (·.ref.num) ++ d.free.map (·.num)).Nodup
  root : F kRoot = SMap.find? kRoot d.trailer
  info : ∀ v, SMap.find? kInfo d.trailer = some v → F kInfo = some v
  encrypt : F kEncrypt = none
  size : ∃ z : Nat, F kSize = some (.num z) ∧ (∀ n ∈ ns, n < z) ∧ ∃ n ∈ ns, n + 1 = z
  ident : ∃ a b, F kID = some (.arr [.str a true, .str b true]) ∧
    (1 < L → ∀ s x r, SMap.find? kID d.trailer = some (.arr (.str s x :: r)) → s ≠ [] → a = s)

theorem join_find (t : Option (List (Bytes × Var))) (d : List (Bytes × Var)) :
    ∃ c, joinTrailer t d = some c ∧ ∀ q ∈ inherited, SMap.find? q c = (t.bind (SMap.find? q)).or (SMap.find? q d) := by
  cases t with
  | none => exact ⟨d, rfl, fun q _ => by simp⟩
  | some c => exact ⟨_, rfl, fun q hq => by rw [mergeTrailer_find, if_pos hq]; rfl⟩

theorem chain_save (env : SaveEnv) (d : SaveIn) (txt : Bytes) (hd : CanSave env false d) (hp : d.prev = 0)
    (hw : writeFile env false 0 d = .ok txt) (hlen : txt.length < 10000000000) :
    ∃ off E F offs, ChainOk txt d 1 d.version off E F offs d.nums := by
  obtain ⟨txt', off, E, T, h1, h2⟩ := rev_write env false 0 d hd (by simp)
  rw [hw] at h1
  cases h1
  have h := h2 (by omega)
  have hp' : ¬ d.prev > 0 := by omega
  obtain ⟨size, ids, _, hT, hs1, hs2⟩ := h.trailer
  refine ⟨off, E, fun q => SMap.find? q T, [off], ?_⟩
  refine ⟨h.pos, by simp, ?_, hlen, Nat.le_refl _, hd.version, h.header rfl, h.tail, ?_, ?_, ?_, ?_, h.frees, ?_, ?_, hd.distinct, ?_, ?_, ?_, ?_, ?_⟩
  · intro o ho
    simp only [List.mem_singleton] at ho
    subst ho
    have := h.range
    omega
  · intro post fuel k st hv hf hk
    cases fuel with
    | zero => omega
    | succ fuel =>
      obtain ⟨es, k1, k2⟩ := h.read [] post fuel (2 * k) st rfl (by omega) (hv off (by simp))
      rw [if_neg hp'] at k2
      obtain ⟨c, hc, hq⟩ := join_find st.trailer T
      exact ⟨_, k2, k1, c, hc, hq⟩
  · intro post fuel k st hv hf hk
    cases fuel with
    | zero => omega
    | succ fuel => exact h.deep [] post fuel (2 * k) st rfl (by omega)
  · intro n e he ht
    obtain ⟨k1, o, ho, _, k3, l, k4, k5⟩ := h.inUse n e he ht
    exact ⟨k1, o, ho, k3, l, k4, fun post => k5 [] post rfl⟩
  · intro o ho
    exact h.writes o ho (by simp [DocObj.written])
  · intro o ho
    have := hd.objs o ho
    omega
  · intro f hf
    have := hd.free f hf
    omega
  · show SMap.find? kRoot T = _
    rw [hT, fillTrailer_find, if_neg (by decide), if_neg (by decide), if_neg (by decide), if_pos rfl]
  · intro v hv
    show SMap.find? kInfo T = _
    rw [hT, fillTrailer_find, if_neg (by decide), if_neg (by decide), if_pos rfl, hv]
  · show SMap.find? kEncrypt T = _
    rw [hT, fillTrailer_find, if_neg (by decide), if_neg (by decide), if_neg (by decide), if_neg (by decide), if_neg (by decide)]
  · refine ⟨size, ?_, hs1, hs2⟩
    show SMap.find? kSize T = _
    rw [hT, fillTrailer_find, if_neg (by decide), if_neg (by decide), if_neg (by decide), if_neg (by decide), if_pos rfl]
  · refine ⟨ids.2, ids.2, ?_, fun h => absurd h (by omega)⟩
    show SMap.find? kID T = _
    rw [hT, fillTrailer_find, if_neg (by decide), if_pos rfl, if_neg (by simp)]

/-! ### Opening a file -/

/-- A word occurs only at the start if its first byte does not occur again. -/
theorem at_head_only {c : Byte} {w v : Bytes} (h : c ∉ w ++ v) (i : Nat) (hat : Spec.At (c :: w) ((c :: w) ++ v) i) : i = 0 := by
  obtain ⟨l, r, e, hl⟩ := hat
  cases l with
  | nil => simpa using hl.symm
  | cons a l' =>
    exfalso
    simp only [List.cons_append, List.cons.injEq] at e
    apply h
    rw [e.2]
    simp

theorem not_at_nil (i : Nat) : ¬ Spec.At eofMarker [] i := by
  rintro ⟨l, r, e, _⟩
  have := congrArg List.length e
  simp [eofMarker] at this

/-- Bytes after the marker that do not have it change nothing. -/
theorem eof_once_post {post : Bytes} (hpost : ∀ i, ¬ Spec.At eofMarker post i) (i : Nat)
    (h : Spec.At eofMarker (eofMarker ++ post) i) : i = 0 := by
  apply Classical.byContradiction
  intro hi
  obtain ⟨l, r, e, hl⟩ := h
  by_cases h6 : 5 ≤ i
  · refine hpost (i - 5) ⟨l.drop 5, r, ?_, by rw [List.length_drop]; omega⟩
    have h1 := congrArg (List.drop 5) e
    rw [List.drop_append, List.drop_append, show 5 - l.length = 0 by omega, List.drop_zero] at h1
    simpa [eofMarker] using h1
  · have h0 : (eofMarker ++ post)[4]? = some 70 := rfl
    rw [e, List.getElem?_append_right (by omega), List.getElem?_append_left (by simp only [eofMarker, List.length_cons, List.length_nil]; omega), hl] at h0
    have : i = 1 ∨ i = 2 ∨ i = 3 ∨ i = 4 := by omega
    rcases this with rfl | rfl | rfl | rfl <;> simp [eofMarker] at h0

theorem not_at_line {post : Bytes} (hpost : ∀ i, ¬ Spec.At eofMarker post i) (e : Bytes) (he : e = [] ∨ e = [10]) (i : Nat) : ¬ Spec.At eofMarker (e ++ post) i := by
  rcases he with rfl | rfl
  · exact hpost i
  · rintro ⟨l, r, e, hl⟩
    cases l with
    | nil => simp [eofMarker] at e
    | cons a l =>
      simp only [List.cons_append, List.nil_append, List.cons.injEq] at e
      exact hpost l.length ⟨l, r, e.2, rfl⟩

theorem find_start_post {file : Bytes} {off : Nat} (hoff : off < 10000000000)
    (ht : ∃ b e, 1 ≤ b.length ∧ (e = [] ∨ e = [10]) ∧ file = b ++ (startXRef ++ ((10 :: (fmtNat off ++ [10])) ++ (eofMarker ++ e))))
    (post : Bytes) (hpost : ∀ i, ¬ Spec.At eofMarker post i) :
    ∃ last, checkEOF false (file ++ post) = .ok last ∧ findXRef {} (file ++ post) 0 last = .ok off := by
  obtain ⟨b, ending, hb, hending, hf0⟩ := ht
  obtain ⟨file1, hfile1⟩ : ∃ f, f = file ++ post := ⟨_, rfl⟩
  have hf : file1 = b ++ (startXRef ++ ((10 :: (fmtNat off ++ [10])) ++ (eofMarker ++ (ending ++ post)))) := by
    rw [hfile1, hf0]; simp
  rw [← hfile1]
  have hfl := fmtNat_length off 18 (by omega)
  have hlit := fmtNat_lit off
  have hno : (115 : Byte) ∉ [116, 97, 114, 116, 120, 114, 101, 102] ++ (10 :: (fmtNat off ++ [10])) := by
    intro hm
    simp only [List.cons_append, List.nil_append, List.mem_cons, List.mem_append, List.not_mem_nil, or_false] at hm
    rcases hm with h | h | h | h | h | h | h | h | h | h | h
    all_goals first
      | exact absurd h (by decide)
      | skip
    have := fmtNat_digits off 115 h
    revert this
    decide
  have h := C76_startxref_partial b (10 :: (fmtNat off ++ [10])) (ending ++ post) hb (by simp) (by simp; omega)
    (fun i hi => at_head_only hno i hi) (eof_once_post (not_at_line hpost ending hending))
  rw [← hf, findStartXRef] at h
  cases hc : checkEOF false file1 with
  | error e => rw [hc] at h; cases h
  | ok last =>
    rw [hc] at h
    dsimp only at h
    refine ⟨last, rfl, ?_⟩
    rw [findXRef, h]
    have hd : file1.drop b.length = startXRef ++ (10 :: (fmtNat off ++ (10 :: (eofMarker ++ (ending ++ post))))) := by
      rw [hf, List.drop_left]
      simp only [List.cons_append, List.append_assoc, List.nil_append]
    have e1 : lex 4095 (file1.drop b.length) = some (⟨startXRef, .literal⟩, 10 :: (fmtNat off ++ (10 :: (eofMarker ++ (ending ++ post))))) := by
      rw [hd]
      exact lex_literal (by decide) (by decide) (by decide) (.cons_ws (by decide))
    have e2 : lex 4095 (10 :: (fmtNat off ++ (10 :: (eofMarker ++ (ending ++ post))))) = some (⟨fmtNat off, .literal⟩, 10 :: (eofMarker ++ (ending ++ post))) := by
      rw [lex_ws (by decide) (by decide)]
      exact lex_num (by decide) (by omega) (by decide) _
    have e3 : numberAfter {} file1 startXRef b.length = .ok (some (off : Int)) := by
      rw [numberAfter, tryReadToken_lex e1]
      dsimp only
      rw [if_neg (by simp), readNextNumber, tryReadToken_lex e2]
      dsimp only
      rw [fromChars_nat (by omega)]
    dsimp only
    rw [e3]
    dsimp only
    congr 1
    have : truncTo 64 (off : Int) = off := by
      unfold truncTo
      omega
    rw [this]
    omega

theorem find_start {file : Bytes} {off : Nat} (hoff : off < 10000000000)
    (ht : ∃ b e, 1 ≤ b.length ∧ (e = [] ∨ e = [10]) ∧ file = b ++ (startXRef ++ ((10 :: (fmtNat off ++ [10])) ++ (eofMarker ++ e)))) :
    ∃ last, checkEOF false file = .ok last ∧ findXRef {} file 0 last = .ok off := by
  have := find_start_post hoff ht [] not_at_nil
  rwa [List.append_nil] at this

theorem savedFind_of_mem {objs : List DocObj} {free : List Ref} (hd : (objs.map (·.ref.num) ++ free.map (·.num)).Nodup) {o : DocObj}
    (ho : o ∈ objs) : savedFind objs o.ref = some o.obj := by
  have hn : (objs.map (·.ref.num)).Nodup := (List.nodup_append.1 hd).1
  unfold savedFind
  clear hd
  induction objs with
  | nil => simp at ho
  | cons x l ih =>
    rw [List.map_cons, List.nodup_cons] at hn
    by_cases hx : x.ref = o.ref
    · rw [List.find?_cons_of_pos (by simp [hx])]
      rcases List.mem_cons.1 ho with rfl | h
      · rfl
      · exact absurd (List.mem_map.2 ⟨o, h, by rw [hx]⟩) hn.1
    · rw [List.find?_cons_of_neg (by simp [hx])]
      rcases List.mem_cons.1 ho with rfl | h
      · exact absurd rfl hx
      · exact ih h hn.2

theorem savedFind_mem {objs : List DocObj} {r : Ref} {l : Loaded} (h : savedFind objs r = some l) :
    ∃ o ∈ objs, o.ref = r ∧ o.obj = l := by
  unfold savedFind at h
  cases hf : objs.find? (fun o => decide (o.ref = r)) with
  | none => rw [hf] at h; simp at h
  | some o =>
    rw [hf] at h
    simp only [Option.map_some, Option.some.injEq] at h
    exact ⟨o, List.mem_of_find?_eq_some hf, by simpa using List.find?_some hf, h⟩

theorem catalogVersion_eq (c : List (Bytes × Var)) : catalogVersion c = ownVersion c := by
  unfold catalogVersion ownVersion
  cases SMap.find? nVersion c with
  | none => rfl
  | some v =>
    cases v <;> first
      | rfl
      | simp only [versionNames_spec]

/-- The entries of the object list, the trailer and the version of what is loaded. -/
theorem chain_loads_post {file : Bytes} {d : SaveIn} {L : Nat} {v0 : Bytes} {off : Nat} {E : Nat → Option XEntry}
    {F : Bytes → Option Var} {offs ns : List Nat} (h : ChainOk file d L v0 off E F offs ns) (hL : L ≤ 127)
    (post : Bytes) (hpost : ∀ i, ¬ Spec.At eofMarker post i) :
    ∃ ld, loadFile {} (file ++ post) = .ok ld ∧ ld.xref = off ∧
      (∀ r o, ld.objs.getObject r = some o ↔ ∃ gen, E r.num = some ⟨.inUse, o, gen⟩ ∧ 0 < o ∧ r.gen = gen % 65536) ∧
      (∀ f ∈ ld.objs.free, f ∈ freeOf f.num (E f.num)) ∧
      (∀ f, (∃ v g, E f.num = some ⟨.free, v, g⟩) → f ∈ freeOf f.num (E f.num) → f ∈ ld.objs.free) ∧
      (∀ q ∈ inherited, SMap.find? q ld.trailer = F q) ∧
      ld.version = ((catalogOf d).bind ownVersion).getD v0 := by
  have hofflt : off < 10000000000 := by
    have := h.range off h.mem; have := h.len; omega
  obtain ⟨y, hy⟩ := h.header
  have h1 : isPdfFile (file ++ post) = some (v0, 0) := by
    have := C43_header_partial [] v0 ([10, 37, 226, 227, 207, 211, 10] ++ (y ++ post)) (by
      rintro ⟨l, r, e⟩
      have := congrArg List.length e
      simp [magicWord] at this) (by simp) h.version
    rw [hy, headerText]
    simpa using this
  obtain ⟨last, h2, h3⟩ := find_start_post hofflt h.tail post hpost
  obtain ⟨st, h4, h5, c, h6, h7⟩ := h.read post 257 0 ⟨[], none, []⟩ (by simp) (by omega) (by omega)
  have h5' : ∀ n, known st.entries n = E n := by
    intro n; rw [h5 n]; simp [known]
  have h7' : ∀ q ∈ inherited, SMap.find? q c = F q := by
    intro q hq; rw [h7 q hq]; simp
  obtain ⟨o, k1, k2, k3, k4⟩ := addAllEntries_new st.entries (fun x hx hty => by
    rw [h5'] at hx
    obtain ⟨_, o, ho, hr, _⟩ := h.inUse 0 x hx hty
    have := (h.refs o ho).1
    rw [hr] at this
    simp at this)
  have hget : ∀ r o', o.getObject r = some o' ↔ ∃ gen, E r.num = some ⟨.inUse, o', gen⟩ ∧ 0 < o' ∧ r.gen = gen % 65536 := by
    intro r o'; rw [k2, h5']
  -- the version
  have hroot : SMap.find? kRoot c = SMap.find? kRoot d.trailer := by rw [h7' kRoot (by decide), h.root]
  have hgetAt : ∀ r, getAt (file ++ post) o r = none ∧ savedFind d.objs r = none ∨
      ∃ ob l, savedFind d.objs r = some ob ∧ SameObj ob l ∧ getAt (file ++ post) o r = some (.ok l) := by
    intro r
    cases hg : o.getObject r with
    | none =>
      left
      refine ⟨by simp [getAt, hg], ?_⟩
      cases hf : savedFind d.objs r with
      | none => rfl
      | some l =>
        exfalso
        obtain ⟨ob, hob, hr, _⟩ := savedFind_mem hf
        obtain ⟨v, hv⟩ := h.writes ob hob
        have hpos := (h.inUse _ _ hv rfl).1
        have := (hget r v).2 ⟨ob.ref.gen, by rw [← hr]; exact hv, hpos, by
          rw [← hr]; exact (Nat.mod_eq_of_lt (h.refs ob hob).2).symm⟩
        rw [hg] at this; cases this
    | some v =>
      right
      obtain ⟨gen, hE, _, hgen⟩ := (hget r v).1 hg
      obtain ⟨_, ob, hob, hr, l, hl, hld⟩ := h.inUse _ _ hE rfl
      have hrr : ob.ref = r := by
        rw [hr]
        have := (h.refs ob hob).2
        rw [hr] at this
        simp only at this ⊢
        rw [Nat.mod_eq_of_lt this] at hgen
        rw [← hgen]
      have hl0 := hld post
      simp only at hl0
      refine ⟨ob.obj, l, by rw [← hrr]; exact savedFind_of_mem h.distinct hob, hl, ?_⟩
      rw [getAt, hg]
      simp only [Option.map_some]
      rw [hl0]
  have hver : updateVersion v0 (findRoot (file ++ post) o c) = .ok (((catalogOf d).bind ownVersion).getD v0) := by
    unfold findRoot
    rw [hroot]
    unfold catalogOf
    cases hf : SMap.find? kRoot d.trailer with
    | none => rfl
    | some v =>
      cases v with
      | ref n g =>
        dsimp only
        rcases hgetAt ⟨n, g⟩ with ⟨e1, e2⟩ | ⟨ob, l, e1, e2, e3⟩
        · unfold savedFind at e2
          rw [e1, e2]
          rfl
        · unfold savedFind at e1
          rw [e3, e1]
          cases ob with
          | plain w =>
            cases l with
            | stream s => simp [SameObj] at e2
            | plain w' =>
              simp only [SameObj] at e2
              subst e2
              cases w <;> first
                | rfl
                | (simp only [updateVersion, Loaded.dict, Option.bind_some, catalogVersion_eq])
          | stream s =>
            cases l with
            | plain w => simp [SameObj] at e2
            | stream s' =>
              simp only [SameObj] at e2
              have : ownVersion s'.dict = ownVersion s.dict := by
                unfold ownVersion
                rw [e2.2.2 nVersion (by decide)]
              simp only [updateVersion, Loaded.dict, Option.bind_some, catalogVersion_eq, this]
      | dict x => simp only [updateVersion, Loaded.dict, Option.bind_some, catalogVersion_eq]
      | _ => rfl
  refine ⟨⟨_, c, o, off⟩, ?_, rfl, hget, ?_, ?_, h7', rfl⟩
  · rw [loadFile, h1]
    dsimp only
    rw [h2]
    dsimp only
    rw [h3]
    dsimp only
    rw [show (2 * 0 : Nat) = 0 from rfl] at h4
    rw [h4]
    dsimp only
    rw [h6]
    dsimp only
    have : isEncrypted c = false := by
      unfold isEncrypted
      rw [h7' kEncrypt (by decide), h.encrypt]
    rw [this, if_neg (by simp), k1]
    dsimp only
    rw [hver]
    rfl
  · intro f hf
    have := k3 f hf
    rw [h5'] at this
    exact this
  · intro f ⟨v, g, hE⟩ hf
    have := k4 f (by rw [h5', hE]; simp)
    rw [h5'] at this
    exact this hf

theorem chain_loads {file : Bytes} {d : SaveIn} {L : Nat} {v0 : Bytes} {off : Nat} {E : Nat → Option XEntry}
    {F : Bytes → Option Var} {offs ns : List Nat} (h : ChainOk file d L v0 off E F offs ns) (hL : L ≤ 127) :
    ∃ ld, loadFile {} file = .ok ld ∧ ld.xref = off ∧
      (∀ r o, ld.objs.getObject r = some o ↔ ∃ gen, E r.num = some ⟨.inUse, o, gen⟩ ∧ 0 < o ∧ r.gen = gen % 65536) ∧
      (∀ f ∈ ld.objs.free, f ∈ freeOf f.num (E f.num)) ∧
      (∀ f, (∃ v g, E f.num = some ⟨.free, v, g⟩) → f ∈ freeOf f.num (E f.num) → f ∈ ld.objs.free) ∧
      (∀ q ∈ inherited, SMap.find? q ld.trailer = F q) ∧
      ld.version = ((catalogOf d).bind ownVersion).getD v0 := by
  have := chain_loads_post h hL [] not_at_nil
  rwa [List.append_nil] at this

/-- Too many revisions cannot be read. -/
theorem chain_fails {file : Bytes} {d : SaveIn} {L : Nat} {v0 : Bytes} {off : Nat} {E : Nat → Option XEntry}
    {F : Bytes → Option Var} {offs ns : List Nat} (h : ChainOk file d L v0 off E F offs ns) (hL : 128 ≤ L) (hL2 : L ≤ 257) :
    loadFile {} file = raise .InvalidXRef := by
  have hofflt : off < 10000000000 := by
    have := h.range off h.mem; have := h.len; omega
  obtain ⟨y, hy⟩ := h.header
  have h1 : isPdfFile file = some (v0, 0) := by
    have := C43_header_partial [] v0 ([10, 37, 226, 227, 207, 211, 10] ++ y) (by
      rintro ⟨l, r, e⟩
      have := congrArg List.length e
      simp [magicWord] at this) (by simp) h.version
    rw [hy, headerText]
    simpa using this
  obtain ⟨last, h2, h3⟩ := find_start hofflt h.tail
  have h4 := h.deep [] 257 0 ⟨[], none, []⟩ (by simp) (by omega) (by omega)
  rw [List.append_nil] at h4
  rw [loadFile, h1]
  dsimp only
  rw [h2]
  dsimp only
  rw [h3]
  dsimp only
  rw [show (2 * 0 : Nat) = 0 from rfl] at h4
  rw [h4]

/-! ### Updates -/

theorem obj_unique {d : SaveIn} (hd : (d.objs.map (·.ref.num) ++ d.free.map (·.num)).Nodup) {a b : DocObj}
    (ha : a ∈ d.objs) (hb : b ∈ d.objs) (h : a.ref.num = b.ref.num) : a = b := by
  have hn : (d.objs.map (·.ref.num)).Nodup := (List.nodup_append.1 hd).1
  rw [List.Nodup, List.pairwise_map] at hn
  rcases pairwise_mem hn ha hb with e | e | e
  · exact e
  · exact absurd h e
  · exact absurd h.symm e

theorem obj_free_disjoint {d : SaveIn} (hd : (d.objs.map (·.ref.num) ++ d.free.map (·.num)).Nodup) {a : DocObj} {f : Ref}
    (ha : a ∈ d.objs) (hf : f ∈ d.free) : a.ref.num ≠ f.num :=
  (List.nodup_append.1 hd).2.2 _ (List.mem_map.2 ⟨a, ha, rfl⟩) _ (List.mem_map.2 ⟨f, hf, rfl⟩)

theorem get_some {file : Bytes} {ld : LDoc} {r : Ref} {x : Res Loaded} (h : ld.get file r = some x) :
    ∃ o, ld.objs.getObject r = some o ∧ x = (match loadObject {} (file.drop o) with
      | .error e => .error e
      | .ok (_, l) => .ok l) := by
  unfold LDoc.get getAt at h
  cases hg : ld.objs.getObject r with
  | none => rw [hg] at h; cases h
  | some o => rw [hg] at h; exact ⟨o, rfl, (Option.some.inj h).symm⟩

/-- The document `d` is `m` with other contents of the objects that an update does not write. -/
structure Writes (m d : SaveIn) : Prop where
  refs : m.objs.map (·.ref) = d.objs.map (·.ref)
  dirty : ∀ o, o.dirty = true → (o ∈ m.objs ↔ o ∈ d.objs)
  free : m.free = d.free
  trailer : m.trailer = d.trailer
  prev : m.prev = d.prev

theorem Writes.refl (d : SaveIn) : Writes d d := ⟨rfl, fun _ _ => Iff.rfl, rfl, rfl, rfl⟩

/-- An update, with or without its last byte. -/
theorem chain_update_core (env : SaveEnv) {file : Bytes} {d0 : SaveIn} {L : Nat} {v0 : Bytes} {off0 : Nat}
    {E0 : Nat → Option XEntry} {F0 : Bytes → Option Var} {offs ns : List Nat} (h0 : ChainOk file d0 L v0 off0 E0 F0 offs ns)
    (hL : L ≤ 127) (ld : LDoc) (hld : loadFile {} file = .ok ld) (d m : SaveIn) (hm : Writes m d) (hch : ChangeOf file ld d)
    (hd : CanSave env true m) (mid txt : Bytes) (hw : writeFile env true (file ++ mid).length m = .ok txt)
    (hlen : (file ++ (mid ++ txt)).length < 10000000000) :
    ∃ core, txt = core ++ [10] ∧ ∀ e : Bytes, e = [] ∨ e = [10] →
      ∃ off E F offs', ChainOk (file ++ (mid ++ (core ++ e))) d (L + 1) v0 off E F offs' d.nums ∧
        F kInfo = (SMap.find? kInfo d.trailer).or (SMap.find? kInfo ld.trailer) := by
  obtain ⟨ld', g1, g2, g3, _, _, g4, _⟩ := chain_loads h0 hL
  rw [hld] at g1
  cases g1
  have hfl : 0 < file.length := by
    have := h0.range off0 h0.mem
    omega
  obtain ⟨core, off, E, T, h1, h2⟩ := rev_write_core env true (file ++ mid).length m hd (fun _ => by rw [List.length_append]; omega)
  rw [hw] at h1
  refine ⟨core, Except.ok.inj h1, fun ending hending => ?_⟩
  have hupd : (core ++ ending).length ≤ txt.length := by
    rw [Except.ok.inj h1]; rcases hending with rfl | rfl <;> simp
  rw [← List.append_assoc, List.length_append] at hlen
  have h := h2 ending hending (by omega)
  replace hlen : (file ++ mid).length + (core ++ ending).length < 10000000000 := by omega
  obtain ⟨upd, hu⟩ : ∃ u, u = core ++ ending := ⟨_, rfl⟩
  rw [← hu] at h hlen ⊢
  have hfm : file.length ≤ (file ++ mid).length := by rw [List.length_append]; omega
  have hnumr : m.objs.map (·.ref.num) = d.objs.map (·.ref.num) := by
    have := congrArg (List.map Ref.num) hm.refs
    simpa [List.map_map, Function.comp_def] using this
  have hnums : m.nums = d.nums := by
    unfold SaveIn.nums; rw [hnumr, hm.free]
  have hdist : (d.objs.map (·.ref.num) ++ d.free.map (·.num)).Nodup := by
    have := hd.distinct
    rwa [hnumr, hm.free] at this
  have hobjs : ∀ o ∈ d.objs, 1 ≤ o.ref.num ∧ o.ref.num < 8388607 ∧ o.ref.gen < 65536 := by
    intro o ho
    have : o.ref ∈ m.objs.map (·.ref) := by rw [hm.refs]; exact List.mem_map.2 ⟨o, ho, rfl⟩
    obtain ⟨o', ho', e⟩ := List.mem_map.1 this
    rw [← e]
    exact hd.objs o' ho'
  have hwd : ∀ o : DocObj, o.written true = true → o.dirty = true := by
    intro o ho; simpa [DocObj.written] using ho
  have hprev : m.prev = off0 := by rw [hm.prev, hch.prev, g2]
  have hpp : m.prev > 0 := by have := h0.pos; omega
  have hto : m.prev.toNat = off0 := by omega
  obtain ⟨size, ids, hids, hT, hs1, hs2⟩ := h.trailer
  have hoff0 := h0.range off0 h0.mem
  have hrange := h.range
  have hassoc : ∀ post : Bytes, (file ++ (mid ++ upd)) ++ post = (file ++ mid) ++ (upd ++ post) := by
    intro post; simp only [List.append_assoc]
  -- an object that is not written again
  have hclean : ∀ o ∈ d.objs, o.written true = false → ∃ v, E0 o.ref.num = some ⟨.inUse, v, o.ref.gen⟩ ∧ 0 < v ∧
      ∀ post : Bytes, loadObject {} ((file ++ post).drop v) = .ok (o.ref, o.obj) := by
    intro o ho hno
    have hdirty : o.dirty = false := by simpa [DocObj.written] using hno
    obtain ⟨v, k1, k2⟩ := get_some (hch.clean o ho hdirty)
    obtain ⟨gen, k3, k4, k5⟩ := (g3 _ _).1 k1
    obtain ⟨_, o0, ho0, k6, l, k7, k8⟩ := h0.inUse _ _ k3 rfl
    simp only at k6 k8
    have hgen := (h0.refs o0 ho0).2
    rw [k6] at hgen
    simp only at hgen
    rw [Nat.mod_eq_of_lt hgen] at k5
    have k9 := k8 []
    rw [List.append_nil] at k9
    rw [k9] at k2
    have hol : o.obj = l := Except.ok.inj k2
    have hor : o0.ref = o.ref := by rw [k6, ← k5]
    refine ⟨v, by rw [k3, k5], k4, fun post => ?_⟩
    rw [k8 post, hor, hol]
  have hnone : ∀ o ∈ d.objs, o.written true = false → E o.ref.num = none := by
    intro o ho hno
    cases he : E o.ref.num with
    | none => rfl
    | some e =>
      exfalso
      rcases h.type _ _ he with ht | ht
      · obtain ⟨_, o', ho', hw', hr, _⟩ := h.inUse _ _ he ht
        have := obj_unique hdist ((hm.dirty o' (hwd o' hw')).1 ho') ho (by rw [hr])
        subst this
        rw [hno] at hw'
        cases hw'
      · rcases h.free _ _ he ht with hz | hf
        · have := (hobjs o ho).1
          omega
        · rw [hm.free] at hf; exact obj_free_disjoint hdist ho hf rfl
  refine ⟨off, fun n => (E n).or (E0 n), fun q => (SMap.find? q T).or (F0 q), off :: offs, ?_, ?_⟩
  refine ⟨h.pos, by simp, ?_, by rw [← List.append_assoc, List.length_append]; exact hlen, by have := h0.levels; omega, h0.version, ?_, ?_, ?_, ?_, ?_, ?_, ?_, ?_, ?_, hdist, ?_, ?_, ?_, ?_, ?_⟩
  · intro o ho
    rw [← List.append_assoc, List.length_append]
    rcases List.mem_cons.1 ho with rfl | ho
    · omega
    · have := h0.range o ho; omega
  · obtain ⟨y, hy⟩ := h0.header
    exact ⟨y ++ (mid ++ upd), by rw [← List.append_assoc (headerText v0), ← hy]⟩
  · obtain ⟨b, e, hb1, he, hb2⟩ := h.tail
    exact ⟨(file ++ mid) ++ b, e, by simp only [List.length_append]; omega, he, by rw [← List.append_assoc file, hb2]; simp only [List.append_assoc]⟩
  · intro post fuel k st hv hf hk
    cases fuel with
    | zero => omega
    | succ fuel =>
      obtain ⟨es, k1, k2⟩ := h.read (file ++ mid) post fuel (2 * k) st rfl (by omega) (hv off (by simp))
      have hnv : m.prev.toNat ∉ off :: st.visited := by
        rw [hto]
        intro hm
        rcases List.mem_cons.1 hm with hm | hm
        · omega
        · exact hv off0 (List.mem_cons_of_mem _ h0.mem) hm
      rw [if_pos hpp, if_neg hnv, hto] at k2
      obtain ⟨st', j1, j2, c, j3, j4⟩ := h0.read (mid ++ (upd ++ post)) fuel (k + 1) ⟨es, joinTrailer st.trailer T, off :: st.visited⟩
        (by
          intro o ho hm
          rcases List.mem_cons.1 hm with hm | hm
          · have := h0.range o ho; omega
          · exact hv o (List.mem_cons_of_mem _ ho) hm) (by omega) (by omega)
      rw [hassoc, k2, List.append_assoc]
      refine ⟨st', j1, ?_, c, j3, ?_⟩
      · intro n
        rw [j2 n, k1 n]
        rw [Option.or_assoc]
      · intro q hq
        rw [j4 q hq]
        obtain ⟨c', hc', hq'⟩ := join_find st.trailer T
        simp only [hc', Option.bind_some, hq' q hq, Option.or_assoc]
  · intro post fuel k st hv hf hk
    cases fuel with
    | zero => omega
    | succ fuel =>
      rw [hassoc]
      by_cases hk2 : 254 ≤ 2 * k
      · exact h.deep (file ++ mid) post fuel (2 * k) st rfl hk2
      · obtain ⟨es, k1, k2⟩ := h.read (file ++ mid) post fuel (2 * k) st rfl (by omega) (hv off (by simp))
        have hnv : m.prev.toNat ∉ off :: st.visited := by
          rw [hto]
          intro hm
          rcases List.mem_cons.1 hm with hm | hm
          · omega
          · exact hv off0 (List.mem_cons_of_mem _ h0.mem) hm
        rw [if_pos hpp, if_neg hnv, hto] at k2
        rw [k2, List.append_assoc]
        exact h0.deep (mid ++ (upd ++ post)) fuel (k + 1) ⟨es, joinTrailer st.trailer T, off :: st.visited⟩
          (by
            intro o ho hm
            rcases List.mem_cons.1 hm with hm | hm
            · have := h0.range o ho; omega
            · exact hv o (List.mem_cons_of_mem _ ho) hm) (by omega) (by omega)
  · intro n e he hty
    cases hE : E n with
    | some e' =>
      rw [hE, Option.some_or] at he
      cases he
      obtain ⟨k1, o, ho, hwo, k3, l, k4, k5⟩ := h.inUse n e hE hty
      refine ⟨k1, o, (hm.dirty o (hwd o hwo)).1 ho, k3, l, k4, fun post => ?_⟩
      rw [hassoc]
      exact k5 (file ++ mid) post rfl
    | none =>
      rw [hE, Option.none_or] at he
      obtain ⟨k1, o0, ho0, k3, l, k4, k5⟩ := h0.inUse n e he hty
      have hgen := (h0.refs o0 ho0).2
      rw [k3] at hgen
      simp only at hgen
      have hg : ld.objs.getObject o0.ref = some e.variant := by
        refine (g3 _ _).2 ⟨e.gen, ?_, k1, ?_⟩
        · rw [k3]
          obtain ⟨ty, va, ge⟩ := e
          simp only at hty
          subst hty
          exact he
        · rw [k3]; exact (Nat.mod_eq_of_lt hgen).symm
      have hnum : o0.ref.num = n := by rw [k3]
      have hin := hch.gone o0.ref _ (by unfold LDoc.get getAt; rw [hg]; rfl)
      rcases List.mem_append.1 hin with hin | hin
      · obtain ⟨o, ho, e'⟩ := List.mem_map.1 hin
        cases hwo : o.written true with
        | true =>
          obtain ⟨v, hv⟩ := h.writes o ((hm.dirty o (hwd o hwo)).2 ho) hwo
          rw [e', hnum, hE] at hv
          cases hv
        | false =>
          obtain ⟨v, j1, j2, j3⟩ := hclean o ho hwo
          rw [e', hnum, he] at j1
          cases Option.some.inj j1
          refine ⟨k1, o, ho, ?_, o.obj, SameObj.refl _, fun post => ?_⟩
          · have : o.ref = ⟨o.ref.num, o.ref.gen⟩ := rfl
            rw [this, e', hnum]
          · rw [List.append_assoc]
            exact j3 _
      · obtain ⟨f, hf, e'⟩ := List.mem_map.1 hin
        obtain ⟨v, hv⟩ := h.frees f (by rw [hm.free]; exact hf)
        rw [e', hnum, hE] at hv
        cases hv
  · intro o ho
    cases hwo : o.written true with
    | true =>
      obtain ⟨v, hv⟩ := h.writes o ((hm.dirty o (hwd o hwo)).2 ho) hwo
      exact ⟨v, by rw [hv, Option.some_or]⟩
    | false =>
      obtain ⟨v, j1, _⟩ := hclean o ho hwo
      exact ⟨v, by rw [hnone o ho hwo, Option.none_or, j1]⟩
  · intro f hf
    obtain ⟨v, hv⟩ := h.frees f (by rw [hm.free]; exact hf)
    exact ⟨v, by rw [hv, Option.some_or]⟩
  · intro o ho
    have := hobjs o ho
    omega
  · intro f hf
    have := hd.free f (by rw [hm.free]; exact hf)
    omega
  · have hr : SMap.find? kRoot T = SMap.find? kRoot d.trailer := by
      rw [← hm.trailer, hT, fillTrailer_find, if_neg (by decide), if_neg (by decide), if_neg (by decide), if_pos rfl]
    rw [hr]
    cases hq : SMap.find? kRoot d.trailer with
    | none => exact absurd (by rw [hm.trailer]; exact hq) hd.hasRoot
    | some v => rfl
  · intro v hv
    have hr : SMap.find? kInfo T = SMap.find? kInfo d.trailer := by
      rw [← hm.trailer, hT, fillTrailer_find, if_neg (by decide), if_neg (by decide), if_pos rfl]
    rw [hr, hv]
    rfl
  · have hr : SMap.find? kEncrypt T = none := by
      rw [hT, fillTrailer_find, if_neg (by decide), if_neg (by decide), if_neg (by decide), if_neg (by decide), if_neg (by decide)]
    rw [hr, h0.encrypt]
    rfl
  · refine ⟨size, ?_, by rw [← hnums]; exact hs1, by rw [← hnums]; exact hs2⟩
    have hr : SMap.find? kSize T = some (.num size) := by
      rw [hT, fillTrailer_find, if_neg (by decide), if_neg (by decide), if_neg (by decide), if_neg (by decide), if_pos rfl]
    rw [hr]
    rfl
  · refine ⟨(if True ∧ ids.1 ≠ [] then ids.1 else ids.2), ids.2, ?_, fun _ s x r hs hne => ?_⟩
    · have hr : SMap.find? kID T = some (.arr [.str (if True ∧ ids.1 ≠ [] then ids.1 else ids.2) true, .str ids.2 true]) := by
        rw [hT, fillTrailer_find, if_neg (by decide), if_pos rfl]
        simp
      rw [hr]
      rfl
    · have : ids.1 = s := by
        unfold fileIds originalId at hids
        rw [hm.trailer, hs] at hids
        simp only [firstString] at hids
        split at hids
        · cases hids
        · rw [← Except.ok.inj hids]; rfl
      rw [this, if_pos ⟨trivial, hne⟩]
  · show (SMap.find? kInfo T).or (F0 kInfo) = _
    have hr : SMap.find? kInfo T = SMap.find? kInfo d.trailer := by
      rw [← hm.trailer, hT, fillTrailer_find, if_neg (by decide), if_neg (by decide), if_pos rfl]
    rw [hr, g4 kInfo (by decide)]

theorem chain_update (env : SaveEnv) {file : Bytes} {d0 : SaveIn} {L : Nat} {v0 : Bytes} {off0 : Nat}
    {E0 : Nat → Option XEntry} {F0 : Bytes → Option Var} {offs ns : List Nat} (h0 : ChainOk file d0 L v0 off0 E0 F0 offs ns)
    (hL : L ≤ 127) (ld : LDoc) (hld : loadFile {} file = .ok ld) (d m : SaveIn) (hm : Writes m d) (hch : ChangeOf file ld d)
    (hd : CanSave env true m) (mid upd : Bytes) (hw : writeFile env true (file ++ mid).length m = .ok upd)
    (hlen : (file ++ (mid ++ upd)).length < 10000000000) :
    ∃ off E F offs', ChainOk (file ++ (mid ++ upd)) d (L + 1) v0 off E F offs' d.nums ∧
      F kInfo = (SMap.find? kInfo d.trailer).or (SMap.find? kInfo ld.trailer) := by
  obtain ⟨core, h1, h2⟩ := chain_update_core env h0 hL ld hld d m hm hch hd mid upd hw hlen
  rw [h1]
  exact h2 [10] (.inr rfl)

/-- Every history is such a chain. -/
theorem history_chain {file : Bytes} {d : SaveIn} {n : Nat} {v0 : Bytes} (h : History file d n v0) :
    n ≤ 127 ∧ ∃ off E F offs, ChainOk file d (n + 1) v0 off E F offs d.nums := by
  induction h with
  | save env d txt hd hp hw hlen => exact ⟨by omega, chain_save env d txt hd hp hw hlen⟩
  | update env file d0 n v0 ld d upd _ hld hch hd hw hlen ih =>
    obtain ⟨hn, off, E, F, offs, hc⟩ := ih
    have hn' : n + 1 ≤ 127 := by
      apply Classical.byContradiction
      intro hgt
      have := chain_fails hc (by omega) (by omega)
      rw [hld] at this
      cases this
    obtain ⟨off', E', F', offs', h1, _⟩ := chain_update env hc hn' ld hld d d (.refl d) hch hd [] upd (by rw [List.append_nil]; exact hw) hlen
    exact ⟨by omega, off', E', F', offs', h1⟩

theorem chain_loadedAs_post {file : Bytes} {d : SaveIn} {L : Nat} {v0 : Bytes} {off : Nat} {E : Nat → Option XEntry}
    {F : Bytes → Option Var} {offs : List Nat} (h : ChainOk file d L v0 off E F offs d.nums) (hL : L ≤ 127)
    (post : Bytes) (hpost : ∀ i, ¬ Spec.At eofMarker post i) :
    ∃ ld, loadFile {} (file ++ post) = .ok ld ∧ LoadedAs (file ++ post) ld d v0 := by
  obtain ⟨ld, h1, h2, h3, _, _, h4, h5⟩ := chain_loads_post h hL post hpost
  obtain ⟨z, hz1, hz2, hz3⟩ := h.size
  refine ⟨ld, h1, ?_, ?_, ?_, ?_, ?_, h5⟩
  · intro o ho
    obtain ⟨v, hv⟩ := h.writes o ho
    obtain ⟨k1, o', ho', k3, l, k4, k5⟩ := h.inUse _ _ hv rfl
    have := obj_unique h.distinct ho' ho (by rw [k3])
    subst this
    have hg := (h3 o'.ref v).2 ⟨_, hv, k1, (Nat.mod_eq_of_lt (h.refs o' ho).2).symm⟩
    have k6 := k5 post
    simp only at k6
    refine ⟨l, ?_, k4⟩
    unfold LDoc.get getAt
    rw [hg]
    simp only [Option.map_some]
    rw [k6]
  · intro r x hx
    obtain ⟨o, k1, _⟩ := get_some hx
    obtain ⟨gen, k2, _, k3⟩ := (h3 r o).1 k1
    obtain ⟨_, ob, hob, k4, _⟩ := h.inUse _ _ k2 rfl
    refine ⟨ob, hob, ?_⟩
    have hgen := (h.refs ob hob).2
    rw [k4] at hgen ⊢
    simp only at hgen ⊢
    rw [Nat.mod_eq_of_lt hgen] at k3
    rw [← k3]
  · rw [h4 kRoot (by decide), h.root]
  · intro v hv
    rw [h4 kInfo (by decide), h.info v hv]
  · refine ⟨z, by rw [h4 kSize (by decide), hz1], ?_, ?_, hz3⟩
    · intro o ho
      exact hz2 _ (List.mem_append_left _ (List.mem_map.2 ⟨o, ho, rfl⟩))
    · intro f hf
      exact hz2 _ (List.mem_append_right _ (List.mem_map.2 ⟨f, hf, rfl⟩))

theorem chain_loadedAs {file : Bytes} {d : SaveIn} {L : Nat} {v0 : Bytes} {off : Nat} {E : Nat → Option XEntry}
    {F : Bytes → Option Var} {offs : List Nat} (h : ChainOk file d L v0 off E F offs d.nums) (hL : L ≤ 127) :
    ∃ ld, loadFile {} file = .ok ld ∧ LoadedAs file ld d v0 := by
  have := chain_loadedAs_post h hL [] not_at_nil
  rwa [List.append_nil] at this

end Pdfmm
