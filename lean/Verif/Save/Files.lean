import Verif.Save.Save
import Verif.Streams.Device
/-
C167: opening files, and what is in the file while a document is saved into it.
-/
set_option autoImplicit false
namespace Pdfmm

open Spec

/-! ### Opening files -/

/-- `FileMode`, `src/pdfmm/base/PdfStreamDevice.h:85-93`. -/
inductive FileMode where
  | createNew | create | open_ | openOrCreate | truncate | append
deriving DecidableEq

/-- `DeviceAccess`, `src/pdfmm/base/PdfStreamDeviceBase.h:14-19`. -/
inductive DevAccess where
  | read | write | readWrite
deriving DecidableEq

/-- The test of the bit `Read`. -/
def DevAccess.reads : DevAccess → Bool
  | .write => false
  | _ => true

/-- The test of the bit `Write`. -/
def DevAccess.writes : DevAccess → Bool
  | .read => false
  | _ => true

/-- What a name stands for: no file, or a file with these bytes.  Directories, rights and other errors of the system are left out. -/
abbrev Disk := Option Bytes

/-- An open file: its bytes and the position. -/
structure OpenedFile where
  data : Bytes
  pos : Nat
deriving DecidableEq

/-- `std::fstream` with an `openmode` of `binary` and these bits: the modes `r`, `w`, `r+` and `w+` of `fopen` (C++17 [filebuf.members], table 117); other
combinations fail. -/
def openStream (inp out trunc : Bool) (disk : Disk) : Option Bytes := match inp, out, trunc with
  | true, false, false => disk
  | false, true, _ => some []
  | true, true, false => disk
  | true, true, true => some []
  | _, _, _ => none

/-- `FileStreamDevice::getFileStream`, `src/pdfmm/base/PdfStreamDevice.cpp:358-451`. -/
def openFile (mode : FileMode) (acc : DevAccess) (disk : Disk) : Res OpenedFile :=
  if (mode = .createNew ∨ mode = .create ∨ mode = .openOrCreate ∨ mode = .truncate) ∧ acc = .read then raise .InvalidDeviceOperation
  else if mode = .append ∧ acc.reads then raise .InvalidDeviceOperation
  else if mode = .createNew ∧ disk.isSome then raise .InvalidDeviceOperation
  else if mode = .open_ ∧ acc.writes ∧ disk.isNone then raise .InvalidDeviceOperation
  else if mode = .truncate ∧ disk.isNone then raise .InvalidDeviceOperation
  else match openStream (acc.reads || mode = .append) acc.writes (mode = .create || mode = .truncate) disk with
    | none => raise .InvalidDeviceOperation
    | some d => .ok ⟨d, if mode = .append then d.length else 0⟩

/-- `FileStreamDevice(filepath, mode)`, `src/pdfmm/base/PdfStreamDevice.cpp:343-346`. -/
def openDefault (mode : FileMode) (disk : Disk) : Res OpenedFile := openFile mode (if mode = .append then .write else .readWrite) disk

namespace Spec

/-- What the header promises of each mode (`src/pdfmm/base/PdfStreamDevice.h:87-92`): the bytes of the file once it is open and the position, or `none` if the file must not be
opened. -/
def opens : FileMode → Disk → Option OpenedFile
  | .createNew, none => some ⟨[], 0⟩
  | .createNew, some _ => none
  | .create, _ => some ⟨[], 0⟩
  | .open_, none => none
  | .open_, some d => some ⟨d, 0⟩
  | .openOrCreate, none => some ⟨[], 0⟩
  | .openOrCreate, some d => some ⟨d, 0⟩
  | .truncate, none => none
  | .truncate, some _ => some ⟨[], 0⟩
  | .append, none => none
  | .append, some d => some ⟨d, d.length⟩

/-- The modes that change the file are for writing, and appending is for writing only. -/
def AccessFits : FileMode → DevAccess → Prop
  | .open_, _ => True
  | .append, a => a = .write
  | _, a => a ≠ .read

/-- The device is as promised: it opens, or raises an error. -/
def AsPromised (mode : FileMode) (disk : Disk) (r : Res OpenedFile) : Prop := match opens mode disk with
  | some f => r = .ok f
  | none => ∃ e, r = .error e

end Spec

/-- C167: combinations of mode and access that make no sense are refused. -/
theorem C167_refused (mode : FileMode) (acc : DevAccess) (disk : Disk) (h : ¬ Spec.AccessFits mode acc) : openFile mode acc disk = raise .InvalidDeviceOperation := by
  cases mode <;> cases acc <;> simp_all [Spec.AccessFits, openFile, DevAccess.reads]

example : ¬ Spec.AccessFits .append .readWrite ∧ ¬ Spec.AccessFits .create .read := by simp [Spec.AccessFits]

/-- C167, exact: opening is as promised except in four cases. -/
theorem C167_open_partial (mode : FileMode) (acc : DevAccess) (disk : Disk) (h : Spec.AccessFits mode acc) :
    Spec.AsPromised mode disk (openFile mode acc disk) ↔
      ¬ ((mode = .createNew ∧ acc = .readWrite ∧ disk = none) ∨ (mode = .openOrCreate ∧ acc = .readWrite ∧ disk = none) ∨
        ((mode = .open_ ∨ mode = .openOrCreate) ∧ acc = .write ∧ ∃ c d, disk = some (c :: d))) := by
  cases mode <;> cases acc <;> simp only [Spec.AccessFits] at h <;> try contradiction
  all_goals rcases disk with _ | (_ | ⟨c, d⟩)
  all_goals simp_all [Spec.AsPromised, Spec.opens, openFile, DevAccess.reads, DevAccess.writes, openStream, raise]

example : Spec.AccessFits .create .readWrite ∧ Spec.AsPromised .create (some [1, 2]) (openFile .create .readWrite (some [1, 2])) := ⟨by simp [Spec.AccessFits], rfl⟩
example : Spec.AsPromised .append (some [1, 2]) (openFile .append .write (some [1, 2])) := rfl

/-- C167 is false of `CreateNew` with the access it has by default: it never opens anything. -/
theorem C167_createnew_false (disk : Disk) : openDefault .createNew disk = raise .InvalidDeviceOperation := by
  cases disk <;> rfl

/-- C167 is false of `OpenOrCreate` with the access it has by default: a file is not created. -/
theorem C167_openorcreate_false : openDefault .openOrCreate none = raise .InvalidDeviceOperation ∧ Spec.opens .openOrCreate none = some ⟨[], 0⟩ := ⟨rfl, rfl⟩

/-- C167 is false of `Open` and `OpenOrCreate` for writing only: an existing file loses its bytes. -/
theorem C167_emptied_false (mode : FileMode) (h : mode = .open_ ∨ mode = .openOrCreate) (d : Bytes) :
    openFile mode .write (some d) = .ok ⟨[], 0⟩ ∧ Spec.opens mode (some d) = some ⟨d, 0⟩ := by
  rcases h with rfl | rfl <;> exact ⟨rfl, rfl⟩

/-! ### Saving into files

The bytes of the writer reach the file in the order in which they are written; a crash is a point after which no more of them do.  What the system keeps back when
the machine itself stops is left out. -/

/-- `PdfMemDocument::Save(filename)`, `src/pdfmm/base/PdfMemDocument.cpp:231-257`: the file when `k` bytes of what is written have reached it. -/
def saveFileAt (disk : Disk) (txt : Bytes) (k : Nat) : Res Bytes := match openDefault .create disk with
  | .error e => .error e
  | .ok f => .ok (Spec.overwrite f.data f.pos (txt.take k))

/-- `PdfMemDocument::SaveUpdate(filename)`, `src/pdfmm/base/PdfMemDocument.cpp:259-297`, with `Seek(0, SeekDirection::End)`. -/
def updateFileAt (disk : Disk) (txt : Bytes) (k : Nat) : Res Bytes := match openDefault .append disk with
  | .error e => .error e
  | .ok f => .ok (Spec.overwrite f.data f.data.length (txt.take k))

/-- `Save(filename)` opens the file before anything is prepared or written (`src/pdfmm/base/PdfMemDocument.cpp:233-241`): what is in the file if a step before the first byte raises an error. -/
def saveFailed (disk : Disk) : Res Bytes := saveFileAt disk [] 0

/-- C167 is false of `Save`: at every point while a document is saved, the file has only the first bytes of the new document. -/
theorem C167_save_false (disk : Disk) (txt : Bytes) (k : Nat) : saveFileAt disk txt k = .ok (txt.take k) := by
  simp [saveFileAt, openDefault, openFile, openStream, DevAccess.reads, DevAccess.writes, Spec.overwrite]

theorem loadFile_no_eof (c : Bytes) (h : ∀ i, ¬ Spec.At eofMarker c i) : ∃ e, loadFile {} c = .error e := by
  unfold loadFile
  cases isPdfFile c with
  | none => exact ⟨_, rfl⟩
  | some p =>
    obtain ⟨v, m⟩ := p
    dsimp only
    have : ∃ e, checkEOF false c = .error e := by
      by_cases h5 : 5 ≤ c.length
      · exact ⟨_, C76_no_eof c h false h5⟩
      · unfold checkEOF seekFromEnd
        rw [if_neg (by omega), if_pos (by omega)]
        exact ⟨_, rfl⟩
    obtain ⟨e, he⟩ := this
    rw [he]
    exact ⟨_, rfl⟩

/-- C167 is false of `Save`: after a crash at any point before the marker at the end is complete, the file cannot be opened. -/
theorem C167_crash_false (disk : Disk) (txt : Bytes) (k : Nat) (h : ∀ i, ¬ Spec.At eofMarker (txt.take k) i) :
    ∃ c e, saveFileAt disk txt k = .ok c ∧ loadFile {} c = .error e := by
  obtain ⟨e, he⟩ := loadFile_no_eof _ h
  exact ⟨_, e, C167_save_false disk txt k, he⟩

example (txt : Bytes) (i : Nat) : ¬ Spec.At eofMarker (txt.take 0) i := not_at_nil i

/-- C167 is false of a `Save` that raises an error before it writes: the file is empty. -/
theorem C167_failed_false (disk : Disk) : saveFailed disk = .ok [] := by
  rw [saveFailed, C167_save_false]; rfl

/-- C167: at every point while an update is appended, all the bytes that the file had are in it, and then the first bytes of the update; there must be a file. -/
theorem C167_update (txt : Bytes) (k : Nat) : (∀ old, updateFileAt (some old) txt k = .ok (old ++ txt.take k)) ∧
    updateFileAt none txt k = raise .InvalidDeviceOperation := by
  refine ⟨fun old => ?_, rfl⟩
  simp [updateFileAt, openDefault, openFile, openStream, DevAccess.reads, DevAccess.writes, Spec.overwrite]

/-- C167: after a crash at any point of an update before its marker is complete, opening the file gives the document as it was before.  Missing: updates in which
the marker is part of an object, and what C117 leaves out. -/
theorem C167_update_crash_partial {file : Bytes} {d : SaveIn} {n : Nat} {v0 : Bytes} (h : History file d n v0) (hn : n ≤ 126) (txt : Bytes) (k : Nat)
    (hk : ∀ i, ¬ Spec.At eofMarker (txt.take k) i) :
    ∃ c ld, updateFileAt (some file) txt k = .ok c ∧ loadFile {} c = .ok ld ∧ LoadedAs c ld d v0 := by
  obtain ⟨_, off, E, F, offs, hc⟩ := history_chain h
  obtain ⟨ld, h1, h2⟩ := chain_loadedAs_post hc (by omega) (txt.take k) hk
  exact ⟨_, ld, (C167_update txt k).1 file, h1, h2⟩

/-- C167: an update is atomic: at every crash point opening the file gives the old document, or the new one once no more than the last byte is missing.  Missing: updates in which
the marker is part of an object, and what C117 leaves out. -/
theorem C167_atomic_partial {env : SaveEnv} {file : Bytes} {d0 d : SaveIn} {n : Nat} {v0 : Bytes} {ld0 : LDoc} {upd : Bytes} (h : History file d0 n v0)
    (hn : n + 1 ≤ 126) (h0 : loadFile {} file = .ok ld0) (hch : ChangeOf file ld0 d) (hd : CanSave env true d) (hw : writeFile env true file.length d = .ok upd)
    (hl : (file ++ upd).length < 10000000000) (hm : ∀ i, Spec.At eofMarker upd i → i + 6 = upd.length) (k : Nat) :
    ∃ c ld, updateFileAt (some file) upd k = .ok c ∧ loadFile {} c = .ok ld ∧
      (if k + 1 < upd.length then LoadedAs c ld d0 v0 else LoadedAs c ld d v0) := by
  by_cases hk : k + 1 < upd.length
  · obtain ⟨c, ld, h1, h2, h3⟩ := C167_update_crash_partial h (by omega) upd k (by
      rintro i ⟨l, r, e, hi⟩
      have hlen := congrArg List.length e
      simp only [List.length_take, List.length_append, eofMarker, List.length_cons, List.length_nil] at hlen
      have := hm i ⟨l, r ++ upd.drop k, by rw [← List.append_assoc eofMarker, ← List.append_assoc l, ← e, List.take_append_drop], hi⟩
      omega)
    exact ⟨c, ld, h1, h2, by rw [if_pos hk]; exact h3⟩
  · obtain ⟨_, off, E, F, offs, hc⟩ := history_chain h
    obtain ⟨core, he, hc'⟩ := chain_update_core env hc (by omega) ld0 h0 d d (.refl d) hch hd [] upd (by rw [List.append_nil]; exact hw) hl
    have hlen : upd.length = core.length + 1 := by rw [he]; simp
    have ht : ∃ e : Bytes, (e = [] ∨ e = [10]) ∧ upd.take k = core ++ e := by
      by_cases h1 : k = core.length
      · exact ⟨[], .inl rfl, by rw [he, h1, List.take_left, List.append_nil]⟩
      · exact ⟨[10], .inr rfl, by rw [List.take_of_length_le (by omega), he]⟩
    obtain ⟨e, he', ht⟩ := ht
    obtain ⟨_, _, _, _, hc2, _⟩ := hc' e he'
    rw [List.nil_append, ← ht] at hc2
    obtain ⟨ld, h1, h2⟩ := chain_loadedAs hc2 (by omega)
    exact ⟨_, ld, (C167_update upd k).1 file, h1, by rw [if_neg hk]; exact h2⟩

/-! ### Saving into the file that a document was loaded from -/

theorem loadObject_nil : loadObject {} [] = raise .UnexpectedEOF := rfl

/-- C167 is false of saving into the file that the document was loaded from: an object that was not read before can no longer be read once the file is opened, and at no point
before the new file is longer than the place where the object was. -/
theorem C167_own_false (file : Bytes) (ld : LDoc) (r : Ref) (off : Nat) (hr : ld.objs.getObject r = some off) (txt : Bytes) (k : Nat)
    (hk : k ≤ off) : ∃ c, saveFileAt (some file) txt k = .ok c ∧ ld.get c r = some (raise .UnexpectedEOF) := by
  refine ⟨_, C167_save_false _ txt k, ?_⟩
  rw [LDoc.get, getAt, hr, Option.map_some, List.drop_eq_nil_of_le (by rw [List.length_take]; omega)]
  rfl

/-- Every object of a document is concerned, when the file is opened. -/
theorem C167_own_all_false {file : Bytes} {d : SaveIn} {n : Nat} {v0 : Bytes} (h : History file d n v0) (hn : n ≤ 126) (txt : Bytes) :
    ∃ ld c, loadFile {} file = .ok ld ∧ saveFileAt (some file) txt 0 = .ok c ∧
      ∀ o ∈ d.objs, (∃ l, ld.get file o.ref = some (.ok l)) ∧ ld.get c o.ref = some (raise .UnexpectedEOF) := by
  obtain ⟨ld, h1, h2⟩ := C117_history_partial h hn
  refine ⟨ld, _, h1, C167_save_false _ txt 0, fun o ho => ?_⟩
  obtain ⟨l, hl, _⟩ := h2.objs o ho
  obtain ⟨off, hg, _⟩ := get_some hl
  refine ⟨⟨l, hl⟩, ?_⟩
  obtain ⟨c, hc, hx⟩ := C167_own_false file ld o.ref off hg txt 0 (by omega)
  rw [C167_save_false] at hc
  cases hc
  exact hx

/-- C167: while an update is appended to the file that the document was loaded from, every object can still be read and is the same. -/
theorem C167_own_update_partial {file : Bytes} {d : SaveIn} {n : Nat} {v0 : Bytes} (h : History file d n v0) (hn : n ≤ 126) (ld : LDoc) (hld : loadFile {} file = .ok ld)
    (txt : Bytes) (k : Nat) : ∃ c, updateFileAt (some file) txt k = .ok c ∧
      ∀ r, ld.get c r = ld.get file r := by
  refine ⟨_, (C167_update txt k).1 file, fun r => ?_⟩
  obtain ⟨_, off, E, F, offs, hc⟩ := history_chain h
  obtain ⟨ld', h1, _, h3, _⟩ := chain_loads hc (by omega)
  rw [hld] at h1
  cases h1
  unfold LDoc.get getAt
  cases hg : ld.objs.getObject r with
  | none => rfl
  | some o =>
    obtain ⟨gen, hE, _, _⟩ := (h3 r o).1 hg
    obtain ⟨_, ob, _, _, l, _, hl⟩ := hc.inUse _ _ hE rfl
    have a := hl (txt.take k)
    have b := hl []
    rw [List.append_nil] at b
    simp only at a b
    simp only [Option.map_some]
    rw [a, b]

/-! ### Witnesses -/

/-- There are files with any number of updates up to 126, and crash points of the next one: the first bytes of `2 0 obj`. -/
example (n : Nat) (hn : n ≤ 126) : ∃ file d, History file d n [49, 46, 52] ∧ d.objs.map (·.ref) = [⟨1, 0⟩, ⟨2, 0⟩] := by
  obtain ⟨file, d, h, _, hr⟩ := exHistory n (by omega)
  exact ⟨file, d, h, hr⟩
example : ∀ i, ¬ Spec.At eofMarker (([50, 32, 48, 32, 111, 98, 106] : Bytes).take 6) i := by
  rintro i ⟨l, r, e, _⟩
  have : (37 : Byte) ∈ (([50, 32, 48, 32, 111, 98, 106] : Bytes).take 6) := by rw [e]; simp [eofMarker]
  revert this; decide

/-- An update of the kind of `exClean_length` has the marker only at its end. -/
theorem exClean_marker (flate : Filt) (start prev : Nat) (hs : start < 10000000000) (h0 : 0 < prev)
    (hp : prev < 10000000000) (a b : Loaded) :
    ∃ t, writeFile (exEnv flate) true start (exClean prev a b) = .ok t ∧ t.length < 1000 ∧ ∀ i, Spec.At eofMarker t i → i + 6 = t.length := by
  obtain ⟨t, ht, hl⟩ := exClean_length flate start prev hs h0 hp a b
  refine ⟨t, ht, hl, ?_⟩
  rw [writeFile] at ht
  have h1 : fileIds (exEnv flate) (exClean prev a b) = .ok ([9], [1, 2]) := by rfl
  rw [h1] at ht
  dsimp only at ht
  have h2 : writeObjs (exEnv flate) true (start + ([] : Bytes).length) (exClean prev a b).objs = .ok ([], [.old ⟨1, 0⟩, .old ⟨2, 0⟩]) := by rfl
  rw [if_pos rfl, h2] at ht
  dsimp only at ht
  rw [xrefText] at ht
  have h3 : ([.old ⟨1, 0⟩, .old ⟨2, 0⟩] ++ (exClean prev a b).free.map .free : List XAdd) = [.old ⟨1,0⟩, .old ⟨2,0⟩, .free ⟨3,1⟩] := by rfl
  rw [h3, exUpdSections] at ht
  obtain ⟨x, hx, hxl⟩ : ∃ x, sectionsText [⟨0, 1, [(⟨0, 65535⟩, freeEntry 65535 (some ⟨3, 1⟩))]⟩, ⟨3, 1, [(⟨3, 1⟩, freeEntry 1 none)]⟩] = .ok x ∧ 37 ∉ x := ⟨_, rfl, by decide⟩
  dsimp only at ht
  rw [hx] at ht
  have h4 : (exClean prev a b).prev = prev := rfl
  have h5 : fillTrailer (exClean prev a b).trailer (collect true [.old ⟨1,0⟩, .old ⟨2,0⟩, .free ⟨3,1⟩]).size true [9] [1, 2] (exClean prev a b).prev
     = [(kID, .arr [.str [9] true, .str [1, 2] true]), (nPrev, .num prev), (kRoot, .ref 1 0), (kSize, .num 4)] := by
    rw [h4, fillTrailer, if_pos (by omega)]
    rfl
  dsimp only at ht
  rw [h5] at ht
  have h6 : writeVar (exEnv flate).opts.flags (.dict [(kID, .arr [.str [9] true, .str [1, 2] true]), (nPrev, .num prev), (kRoot, .ref 1 0), (kSize, .num 4)]) = .ok (text ⟨false, false⟩ (.dict [(kID, .arr [.str [9] true, .str [1, 2] true]), (nPrev, .num prev), (kRoot, .ref 1 0), (kSize, .num 4)])) := by rfl
  rw [h6] at ht
  have hd : ∀ n, (37 : Byte) ∉ fmtNat n := fun n hm => absurd (fmtNat_digits n 37 hm) (by decide)
  have h10 : (37 : Byte) ∉ text ⟨false, false⟩ (.dict [(kID, .arr [.str [9] true, .str [1, 2] true]), (nPrev, .num prev), (kRoot, .ref 1 0), (kSize, .num 4)]) := by
    have e : text ⟨false, false⟩ (.dict [(kID, .arr [.str [9] true, .str [1, 2] true]), (nPrev, .num prev), (kRoot, .ref 1 0), (kSize, .num 4)])
        = [60, 60] ++ ([] ++ (dictBody ⟨false, false⟩ [(kID, text ⟨false, false⟩ (.arr [.str [9] true, .str [1, 2] true])), (nPrev, 32 :: fmtInt prev), (kRoot, text ⟨false, false⟩ (.ref 1 0)), (kSize, text ⟨false, false⟩ (.num 4))] ++ [62, 62])) := rfl
    rw [e, show fmtInt (prev : Int) = fmtNat prev from (fmtNat_fmtInt prev).symm, exTrailer_body]
    have a1 : (37 : Byte) ∉ text ⟨false, false⟩ (.arr [.str [9] true, .str [1, 2] true]) := by decide
    have a2 : (37 : Byte) ∉ text ⟨false, false⟩ (.ref 1 0) := by decide
    have a3 : (37 : Byte) ∉ text ⟨false, false⟩ (.num 4) := by decide
    simp [a1, a2, a3, hd]
  dsimp only at ht
  have ht := Except.ok.inj ht
  intro i hi
  obtain ⟨c, hc, hct⟩ : ∃ c, (37 : Byte) ∉ c ∧ t = c ++ (eofMarker ++ [10]) := by
    refine ⟨xrefLine ++ (x ++ (kTrailer ++ (10 :: (text ⟨false, false⟩ (.dict [(kID, .arr [.str [9] true, .str [1, 2] true]), (nPrev, .num prev), (kRoot, .ref 1 0), (kSize, .num 4)]) ++ (10 :: (startXRef ++ (10 :: (fmtNat (start + 0 + 0) ++ [10])))))))), ?_, ?_⟩
    · have b1 : (37 : Byte) ∉ xrefLine := by decide
      have b2 : (37 : Byte) ∉ kTrailer := by decide
      have b3 : (37 : Byte) ∉ startXRef := by decide
      simp only [List.mem_append, List.mem_cons, not_or]
      exact ⟨b1, hxl, b2, by decide, h10, by decide, b3, by decide, hd _, by decide, by simp⟩
    · rw [← ht, fileTail]
      simp only [List.nil_append, List.append_assoc, List.cons_append, List.length_nil]
  rw [hct] at hi ⊢
  obtain ⟨l, r, e, hl⟩ := hi
  have h37 : (c ++ (eofMarker ++ [10]))[l.length]? = some 37 := by
    rw [e, List.getElem?_append_right (Nat.le_refl _), Nat.sub_self]; rfl
  have hle := congrArg List.length e
  simp only [List.length_append, eofMarker, List.length_cons, List.length_nil] at hle ⊢
  by_cases hlt : l.length < c.length
  · rw [List.getElem?_append_left hlt] at h37
    exact absurd (List.mem_of_getElem? h37) hc
  · have : l.length = c.length ∨ l.length = c.length + 1 := by omega
    rcases this with h | h
    · omega
    · exfalso
      have h38 : (c ++ (eofMarker ++ [10]))[l.length + 1]? = some 37 := by
        rw [e, List.getElem?_append_right (by omega), show l.length + 1 - l.length = 1 by omega]; rfl
      rw [h, List.getElem?_append_right (by omega), show c.length + 1 + 1 - c.length = 2 by omega] at h38
      exact absurd h38 (by decide)

/-- There is a file and an update of it as `C167_atomic_partial` asks for. -/
example : ∃ env file d0 d ld0 upd, History file d0 0 [49, 46, 52] ∧ loadFile {} file = .ok ld0 ∧ ChangeOf file ld0 d ∧ CanSave env true d ∧
    writeFile env true file.length d = .ok upd ∧ (file ++ upd).length < 10000000000 ∧ ∀ i, Spec.At eofMarker upd i → i + 6 = upd.length := by
  obtain ⟨file, ld, h, hl, hld, h2, ⟨l1, h1⟩, hx0, hx, honly⟩ := exSecond
  obtain ⟨t, ht, htl, hm⟩ := exClean_marker hexFilt file.length ld.xref (by omega) hx0 (by omega) l1 (.plain (.str [65] false))
  refine ⟨exEnv hexFilt, file, _, exClean ld.xref l1 (.plain (.str [65] false)), ld, t, h, hld, ⟨rfl, ?_, ?_⟩, exClean_canSave _ _ (by omega) _ _, ht, ?_, hm⟩
  · intro o ho _
    simp only [exClean, List.mem_cons, List.not_mem_nil, or_false] at ho
    rcases ho with rfl | rfl
    · exact h1
    · exact h2
  · intro r x hrx
    rcases honly r x hrx with rfl | rfl <;> simp [exClean]
  · rw [List.length_append]; omega

end Pdfmm
