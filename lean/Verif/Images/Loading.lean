import Verif.Images.Png
import Verif.Contents.Colors
import Verif.Pages.Boxes
set_option autoImplicit false
/-!
# Loading images: which format, and what becomes of it

`PdfImage::LoadFromFile`, `PdfImage::LoadFromBuffer`, JPEG and TIFF files, and the callbacks by which the libraries read from memory.  The libraries themselves are not modelled: a picture is what they give.  Property C177.
-/
namespace Pdfmm
open Codec
open Spec (Writable nest nestKVs nestArr)

/-! ### Formats -/

/-- The formats there are readers for. -/
inductive ImgFormat
  | tiff | jpeg | png
  deriving DecidableEq

/-- The libraries the program was built with, `PDFMM_HAVE_TIFF_LIB` and the others. -/
structure ImgLibs where
  tiff : Bool
  jpeg : Bool
  png : Bool

/-- `PdfImage::LoadFromBuffer`, `src/pdfmm/base/PdfImage.cpp:425-468`: the reader that is called, or none. -/
def bufferFormat (libs : ImgLibs) (b : Bytes) : Res (Option ImgFormat) :=
  match b with
  | m0 :: m1 :: m2 :: m3 :: _ :: _ =>
    if libs.tiff ∧ ((m0 = 0x4D ∧ m1 = 0x4D ∧ m2 = 0x00 ∧ m3 = 0x2A) ∨ (m0 = 0x49 ∧ m1 = 0x49 ∧ m2 = 0x2A ∧ m3 = 0x00)) then .ok (some .tiff)
    else if libs.jpeg ∧ m0 = 0xFF ∧ m1 = 0xD8 then .ok (some .jpeg)
    else if libs.png ∧ m0 = 0x89 ∧ m1 = 0x50 ∧ m2 = 0x4E ∧ m3 = 0x47 then .ok (some .png)
    else raise .UnsupportedImageFormat
  | _ => .ok none

/-- `fs::path::filename` (C++ standard, [fs.path.decompose]): what follows the last separator. -/
def pathName (p : Bytes) : Bytes := (p.reverse.takeWhile (· ≠ 47)).reverse

/-- `fs::path::extension` (C++ standard, [fs.path.decompose]): from the last dot of the name on, unless the name begins with it. -/
def pathExt (p : Bytes) : Bytes :=
  let f := pathName p
  let e := (f.reverse.takeWhile (· ≠ 46)).reverse
  if f = [46, 46] ∨ e.length = f.length ∨ e.length + 1 = f.length then [] else 46 :: e

/-- `PdfImage::LoadFromFile`, `src/pdfmm/base/PdfImage.cpp:390-423`: the reader that is called. -/
def fileFormat (libs : ImgLibs) (path : Bytes) : Res ImgFormat :=
  if path.length > 3 then
    let e := lowerBytes (pathExt path)
    if libs.tiff ∧ (e = litBytes ".tif" ∨ e = litBytes ".tiff") then .ok .tiff
    else if libs.jpeg ∧ (e = litBytes ".jpg" ∨ e = litBytes ".jpeg") then .ok .jpeg
    else if libs.png ∧ e = litBytes ".png" then .ok .png
    else raise .UnsupportedImageFormat
  else raise .UnsupportedImageFormat

/-- The first bytes of files of a format. -/
def Spec.magics : ImgFormat → List Bytes
  | .tiff => [[0x4D, 0x4D, 0x00, 0x2A], [0x49, 0x49, 0x2A, 0x00]]
  | .jpeg => [[0xFF, 0xD8]]
  | .png => [[0x89, 0x50, 0x4E, 0x47]]

/-- Whether there is a library for a format. -/
def Spec.supported (libs : ImgLibs) : ImgFormat → Bool
  | .tiff => libs.tiff
  | .jpeg => libs.jpeg
  | .png => libs.png

/-- C177: data of more than four bytes is read as the format it begins as, whatever follows, and refused when it begins as none of those there is a library for. -/
theorem C177_magic_partial (libs : ImgLibs) (b : Bytes) (hb : 4 < b.length) :
    (∀ f, bufferFormat libs b = .ok (some f) ↔ Spec.supported libs f = true ∧ ∃ m ∈ Spec.magics f, m <+: b)
    ∧ ((∀ f, Spec.supported libs f = true → ∀ m ∈ Spec.magics f, ¬ m <+: b) → bufferFormat libs b = raise .UnsupportedImageFormat) := by
  match b, hb with
  | m0 :: m1 :: m2 :: m3 :: m4 :: r, _ =>
    obtain ⟨lt, lj, lp⟩ := libs
    refine ⟨?_, ?_⟩
    · intro f
      cases f <;> simp only [bufferFormat, Spec.supported, Spec.magics, List.mem_cons, List.not_mem_nil, or_false, exists_eq_or_imp, exists_eq_left, List.cons_prefix_cons, List.nil_prefix, and_true] <;>
        cases lt <;> cases lj <;> cases lp <;> simp [raise] <;> grind
    · intro h
      have h1 := h .tiff
      have h2 := h .jpeg
      have h3 := h .png
      simp only [bufferFormat, Spec.supported, Spec.magics, List.mem_cons, List.not_mem_nil, or_false, forall_eq_or_imp, forall_eq, List.cons_prefix_cons, List.nil_prefix, and_true] at h1 h2 h3 ⊢
      cases lt <;> cases lj <;> cases lp <;> simp at h1 h2 h3 ⊢ <;> grind

/-- Shorter data is not refused: nothing is loaded, and nothing says so. -/
theorem C177_tiny_false (libs : ImgLibs) (b : Bytes) (hb : b.length ≤ 4) : bufferFormat libs b = .ok none := by
  match b, hb with
  | [], _ | [_], _ | [_, _], _ | [_, _, _], _ | [_, _, _, _], _ => rfl

example : bufferFormat ⟨true, true, true⟩ [0xFF, 0xD8, 0xFF, 0xE0, 0] = .ok (some .jpeg) := by decide +kernel

/-- A path whose last component has an extension, in either case, and a stem before it. -/
def Spec.FileNamed (path : Bytes) (ext : String) : Prop :=
  ∃ dir stem e, path = dir ++ stem ++ e ∧ (dir = [] ∨ ∃ d, dir = d ++ [47]) ∧ stem ≠ [] ∧ 47 ∉ stem ∧ lowerBytes e = litBytes ext

theorem takeWhile_stop {α : Type} (p : α → Bool) (a b : List α) (ha : ∀ x ∈ a, p x = true) (hb : b = [] ∨ ∃ c d, b = c :: d ∧ p c = false) : (a ++ b).takeWhile p = a := by
  induction a with
  | nil => rcases hb with rfl | ⟨c, d, rfl, h⟩ <;> simp [*]
  | cons x a ih => simp [ha x (by simp), ih fun y hy => ha y (by simp [hy])]

theorem pathName_eq {dir f : Bytes} (hd : dir = [] ∨ ∃ d, dir = d ++ [47]) (hf : 47 ∉ f) : pathName (dir ++ f) = f := by
  unfold pathName
  rw [List.reverse_append, takeWhile_stop]
  · simp
  · intro x hx; simp at hx ⊢; intro e; exact hf (e ▸ hx)
  · rcases hd with rfl | ⟨d, rfl⟩
    · left; rfl
    · right; exact ⟨47, d.reverse, by simp, by decide⟩

theorem pathExt_eq {dir stem e : Bytes} (hd : dir = [] ∨ ∃ d, dir = d ++ [47]) (hs : stem ≠ []) (h1 : 47 ∉ stem) (h2 : 47 ∉ e) (h3 : 46 ∉ e) (h4 : e ≠ []) : pathExt (dir ++ stem ++ 46 :: e) = 46 :: e := by
  unfold pathExt
  have hn : pathName (dir ++ stem ++ 46 :: e) = stem ++ 46 :: e := by
    rw [List.append_assoc]; exact pathName_eq hd (by simp [h1, h2])
  have ht : ((stem ++ 46 :: e).reverse.takeWhile (· ≠ (46 : Byte))).reverse = e := by
    have : (stem ++ 46 :: e).reverse = e.reverse ++ (46 :: stem.reverse) := by simp
    rw [this, takeWhile_stop]
    · simp
    · intro x hx; simp at hx ⊢; intro e'; exact h3 (e' ▸ hx)
    · right; exact ⟨46, _, rfl, by decide⟩
  simp only [hn, ht]
  have hl : 0 < stem.length := List.length_pos_iff.2 hs
  have hl' : 0 < e.length := List.length_pos_iff.2 h4
  rw [if_neg]
  simp only [List.length_append, List.length_cons, not_or]
  refine ⟨?_, by omega, by omega⟩
  intro h
  have := congrArg List.length h
  simp at this
  have he : e.length = 1 ∨ e.length = 0 := by omega
  have hst : stem.length = 1 := by omega
  omega

theorem pathExt_inv {p : Bytes} (h : pathExt p ≠ []) : ∃ dir stem, p = dir ++ stem ++ pathExt p ∧ (dir = [] ∨ ∃ d, dir = d ++ [47]) ∧ stem ≠ [] ∧ 47 ∉ stem := by
  have hp : p = (p.reverse.dropWhile (· ≠ (47 : Byte))).reverse ++ pathName p := by
    unfold pathName
    rw [← List.reverse_append, List.takeWhile_append_dropWhile, List.reverse_reverse]
  have hf : pathName p = ((pathName p).reverse.dropWhile (· ≠ (46 : Byte))).reverse ++ ((pathName p).reverse.takeWhile (· ≠ (46 : Byte))).reverse := by
    rw [← List.reverse_append, List.takeWhile_append_dropWhile, List.reverse_reverse]
  have hno : 47 ∉ pathName p := by
    unfold pathName
    intro hm
    rw [List.mem_reverse] at hm
    have := List.all_takeWhile (p := (· ≠ (47 : Byte))) (l := p.reverse)
    have := List.all_eq_true.1 this _ hm
    simp at this
  unfold pathExt at h
  simp only at h
  split at h
  · exact absurd rfl h
  · rename_i hc
    simp only [not_or] at hc
    have he : pathExt p = 46 :: ((pathName p).reverse.takeWhile (· ≠ (46 : Byte))).reverse := by
      unfold pathExt; simp only; rw [if_neg (by simpa [not_or] using hc)]
    generalize hq : (pathName p).reverse.dropWhile (· ≠ (46 : Byte)) = q at hf
    generalize hE : ((pathName p).reverse.takeWhile (· ≠ (46 : Byte))).reverse = E at hf hc he
    cases q with
    | nil => exact absurd (by rw [hf]; simp) hc.2.1
    | cons c q =>
      have hc46 : c = 46 := by
        have := List.head?_dropWhile_not (· ≠ (46 : Byte)) (pathName p).reverse
        rw [hq] at this
        simpa using this
      subst hc46
      refine ⟨(p.reverse.dropWhile (· ≠ (47 : Byte))).reverse, q.reverse, ?_, ?_, ?_, ?_⟩
      · rw [he]
        have : pathName p = q.reverse ++ 46 :: E := by rw [hf]; simp
        rw [List.append_assoc, ← this]; exact hp
      · cases hr : p.reverse.dropWhile (· ≠ (47 : Byte)) with
        | nil => left; rfl
        | cons c r =>
          right
          have := List.head?_dropWhile_not (· ≠ (47 : Byte)) p.reverse
          rw [hr] at this
          have : c = 47 := by simpa using this
          exact ⟨r.reverse, by simp [this]⟩
      · intro hqn
        have : q = [] := by simpa using hqn
        apply hc.2.2
        rw [hf, this]; simp
      · intro hm
        apply hno
        rw [hf]; simp at hm ⊢; exact Or.inl hm

theorem lowerB_dot : ∀ b : Byte, lowerB b = 46 → b = 46 := by
  have : ∀ n : Fin 256, lowerB (UInt8.ofNat n) = 46 → UInt8.ofNat n.val = (46 : Byte) := by decide +kernel
  intro b hb
  have := this ⟨b.toNat, UInt8.toNat_lt b⟩
  simpa [UInt8.ofNat_toNat] using this (by simpa [UInt8.ofNat_toNat] using hb)

/-- The extensions that are known: a dot, and letters. -/
theorem ext_shape {e : Bytes} {ext : String} (hx : ext ∈ [".tif", ".tiff", ".jpg", ".jpeg", ".png"]) (h : lowerBytes e = litBytes ext) :
    ∃ t, e = 46 :: t ∧ 46 ∉ t ∧ 47 ∉ t ∧ t ≠ [] := by
  have hs : ∃ t', litBytes ext = 46 :: t' ∧ (46 : Byte) ∉ t' ∧ (47 : Byte) ∉ t' ∧ t' ≠ [] := by
    simp only [List.mem_cons, List.not_mem_nil, or_false] at hx
    rcases hx with rfl | rfl | rfl | rfl | rfl <;> exact ⟨_, rfl, by decide +kernel, by decide +kernel, by decide +kernel⟩
  obtain ⟨t', h1, h2, h3, h4⟩ := hs
  rw [h1] at h
  cases e with
  | nil => cases h
  | cons c t =>
    simp only [lowerBytes, List.map_cons, List.cons.injEq] at h
    refine ⟨t, by rw [lowerB_dot c h.1], ?_, ?_, ?_⟩
    · intro hm; apply h2; rw [← h.2]; exact List.mem_map.2 ⟨46, hm, by decide⟩
    · intro hm; apply h3; rw [← h.2]; exact List.mem_map.2 ⟨47, hm, by decide⟩
    · intro hn; apply h4; rw [← h.2, hn]; rfl

theorem named_iff {path : Bytes} {ext : String} (hx : ext ∈ [".tif", ".tiff", ".jpg", ".jpeg", ".png"]) : Spec.FileNamed path ext ↔ lowerBytes (pathExt path) = litBytes ext := by
  constructor
  · rintro ⟨dir, stem, e, rfl, hd, hs, hn, he⟩
    obtain ⟨t, rfl, t1, t2, t3⟩ := ext_shape hx he
    rw [pathExt_eq hd hs hn t2 t1 t3]; exact he
  · intro h
    obtain ⟨t, ht, _, _, _⟩ := ext_shape hx h
    obtain ⟨dir, stem, h1, h2, h3, h4⟩ := pathExt_inv (p := path) (by rw [ht]; simp)
    exact ⟨dir, stem, _, h1, h2, h3, h4, h⟩

/-- The extensions of a format. -/
def Spec.extensions : ImgFormat → List String
  | .tiff => [".tif", ".tiff"]
  | .jpeg => [".jpg", ".jpeg"]
  | .png => [".png"]

/-- C177: a file is read as the format of its extension, in either case, and any other name is refused. -/
theorem C177_extension (libs : ImgLibs) (path : Bytes) :
    (∀ f, fileFormat libs path = .ok f ↔ Spec.supported libs f = true ∧ ∃ e ∈ Spec.extensions f, Spec.FileNamed path e)
    ∧ ((∀ f, Spec.supported libs f = true → ∀ e ∈ Spec.extensions f, ¬ Spec.FileNamed path e) → fileFormat libs path = raise .UnsupportedImageFormat) := by
  have h1 := named_iff (path := path) (ext := ".tif") (by simp)
  have h2 := named_iff (path := path) (ext := ".tiff") (by simp)
  have h3 := named_iff (path := path) (ext := ".jpg") (by simp)
  have h4 := named_iff (path := path) (ext := ".jpeg") (by simp)
  have h5 := named_iff (path := path) (ext := ".png") (by simp)
  have hlen : ∀ e ∈ [".tif", ".tiff", ".jpg", ".jpeg", ".png"], lowerBytes (pathExt path) = litBytes e → path.length > 3 := by
    intro e he h
    obtain ⟨dir, stem, x, hp, _, hs, _, hx⟩ := (named_iff he).2 h
    have l1 := congrArg List.length hx
    have l2 : 4 ≤ (litBytes e).length := by
      simp only [List.mem_cons, List.not_mem_nil, or_false] at he
      rcases he with rfl | rfl | rfl | rfl | rfl <;> decide +kernel
    simp only [lowerBytes, List.length_map] at l1
    rw [hp]; simp; omega
  have n1 : litBytes ".tif" ≠ litBytes ".jpg" := by decide +kernel
  have n2 : litBytes ".tif" ≠ litBytes ".jpeg" := by decide +kernel
  have n3 : litBytes ".tif" ≠ litBytes ".png" := by decide +kernel
  have n4 : litBytes ".tiff" ≠ litBytes ".jpg" := by decide +kernel
  have n5 : litBytes ".tiff" ≠ litBytes ".jpeg" := by decide +kernel
  have n6 : litBytes ".tiff" ≠ litBytes ".png" := by decide +kernel
  have n7 : litBytes ".jpg" ≠ litBytes ".png" := by decide +kernel
  have n8 : litBytes ".jpeg" ≠ litBytes ".png" := by decide +kernel
  simp only [List.mem_cons, List.not_mem_nil, or_false, forall_eq_or_imp, forall_eq] at hlen
  obtain ⟨lt, lj, lp⟩ := libs
  generalize hE : lowerBytes (pathExt path) = E at h1 h2 h3 h4 h5 hlen
  refine ⟨?_, ?_⟩
  · intro f
    simp only [fileFormat, hE]
    cases f <;> simp only [Spec.supported, Spec.extensions, List.mem_cons, List.not_mem_nil, or_false, exists_eq_or_imp, exists_eq_left, h1, h2, h3, h4, h5] <;>
      cases lt <;> cases lj <;> cases lp <;> simp [raise] <;> grind
  · intro h
    have a1 := h .tiff
    have a2 := h .jpeg
    have a3 := h .png
    simp only [Spec.supported, Spec.extensions, List.mem_cons, List.not_mem_nil, or_false, forall_eq_or_imp, forall_eq, h1, h2, h3, h4, h5] at a1 a2 a3
    simp only [fileFormat, hE]
    cases lt <;> cases lj <;> cases lp <;> simp at a1 a2 a3 ⊢ <;> grind

example : fileFormat ⟨true, true, true⟩ (litBytes "a/b.c/Scan.TIFF") = .ok .tiff ∧ fileFormat ⟨true, true, true⟩ (litBytes "x/.png") = raise .UnsupportedImageFormat := by
  constructor <;> decide +kernel

/-! ### Reading from memory -/

/-- The state of `PngData`, `src/pdfmm/base/PdfImage.cpp:1042-1065`, and of `TiffData`, `src/pdfmm/base/PdfImage.cpp:866-938`: the data and the position. -/
structure MemCur where
  data : Bytes
  pos : Nat

/-- `PngData::read`, `src/pdfmm/base/PdfImage.cpp:1047-1059`: the bytes that are set in the buffer; nothing is returned. -/
def MemCur.pngRead (c : MemCur) (n : Nat) : Bytes × MemCur :=
  if n > c.data.length - c.pos then (c.data.drop c.pos, { c with pos := c.data.length })
  else ((c.data.drop c.pos).take n, { c with pos := c.pos + n })

/-- Reads, one after the other. -/
def MemCur.pngReads (c : MemCur) : List Nat → List Bytes
  | [] => []
  | n :: ns => (c.pngRead n).1 :: (c.pngRead n).2.pngReads ns

/-- C177: what the PNG library is given, read by read, is the data from its beginning, as far as it goes. -/
theorem C177_png_reads (c : MemCur) (ns : List Nat) (h : c.pos ≤ c.data.length) : (c.pngReads ns).flatten = (c.data.drop c.pos).take ns.sum := by
  induction ns generalizing c with
  | nil => simp [MemCur.pngReads]
  | cons n ns ih =>
    simp only [MemCur.pngReads, List.flatten_cons, List.sum_cons, MemCur.pngRead]
    split
    · rename_i hn
      rw [ih _ (by simp)]
      simp only [List.drop_length, List.take_nil, List.append_nil]
      rw [List.take_of_length_le (by simp; omega)]
    · rename_i hn
      rw [ih _ (by simp; omega)]
      simp only
      rw [List.take_add, List.drop_drop]

/-- Beyond the end nothing tells the library: fewer bytes are set than it asked for, and it is not stopped. -/
theorem C177_png_short_false (c : MemCur) (n : Nat) (hn : c.data.length - c.pos < n) : (c.pngRead n).1.length < n ∧ (c.pngRead n).2.data = c.data := by
  simp only [MemCur.pngRead, gt_iff_lt, hn, if_true, List.length_drop, and_true]

example : (⟨[1, 2, 3], 0⟩ : MemCur).pngReads [2, 2, 2] = [[1, 2], [3], []] := by decide

/-- A `toff_t` as a `tsize_t`: 64 bits, signed. -/
def tsize (n : Nat) : Int := if n % 18446744073709551616 < 9223372036854775808 then (n % 18446744073709551616 : Nat) else (n % 18446744073709551616 : Nat) - 18446744073709551616

/-- `TiffData::read`, `src/pdfmm/base/PdfImage.cpp:870-886`: copying a negative number of bytes, or bytes that are not there, is undefined. -/
def MemCur.tiffRead (c : MemCur) (n : Nat) : Res (Bytes × MemCur) :=
  let left := (c.data.length : Int) - tsize c.pos
  if (n : Int) > left then
    if 0 ≤ left ∧ c.pos ≤ c.data.length then .ok (c.data.drop c.pos, { c with pos := c.data.length }) else .error .ub
  else if c.pos + n ≤ c.data.length then .ok ((c.data.drop c.pos).take n, { c with pos := c.pos + n }) else .error .ub

/-- Where `lseek` counts from. -/
inductive Whence
  | set | cur | fin

/-- `TiffData::seek`, `src/pdfmm/base/PdfImage.cpp:893-932`. -/
def MemCur.tiffSeek (c : MemCur) (pos : Nat) (w : Whence) : Nat × MemCur :=
  if pos = 0xFFFFFFFF then (0xFFFFFFFF, c) else
  let p := match w with
    | .set => if tsize pos > c.data.length then c.data.length else pos
    | .cur => if tsize (pos + c.pos) > c.data.length then c.data.length else (c.pos + pos) % 18446744073709551616
    | .fin => if tsize pos > c.data.length then 0 else (c.data.length + 18446744073709551616 - pos) % 18446744073709551616
  (p, { c with pos := p })

/-- What the library may ask for: bytes, or to go to a place in the file. -/
inductive TiffAsk
  | read (n : Nat)
  | go (p : Nat)

/-- The answers, one after the other. -/
def MemCur.tiffRun (c : MemCur) : List TiffAsk → Res (List Bytes)
  | [] => .ok []
  | .go p :: l => (c.tiffSeek p .set).2.tiffRun l
  | .read n :: l =>
    match c.tiffRead n with
    | .error e => .error e
    | .ok (b, c') => match c'.tiffRun l with
      | .error e => .error e
      | .ok r => .ok (b :: r)

/-- A file: reading gives the bytes at the place, as many as there are, and goes on behind them. -/
def Spec.fileRun (data : Bytes) (pos : Nat) : List TiffAsk → List Bytes
  | [] => []
  | .go p :: l => Spec.fileRun data p l
  | .read n :: l => (data.drop pos).take n :: Spec.fileRun data (pos + ((data.drop pos).take n).length) l

theorem tsize_small {n : Nat} (h : n < 9223372036854775808) : tsize n = n := by
  unfold tsize
  have : n % 18446744073709551616 = n := by omega
  rw [this, if_pos h]

theorem fileRun_past (data : Bytes) (l : List TiffAsk) : ∀ p, data.length ≤ p → Spec.fileRun data p l = Spec.fileRun data data.length l := by
  induction l with
  | nil => intro p _; rfl
  | cons a l ih =>
    intro p hp
    cases a with
    | go q => rfl
    | read n =>
      simp only [Spec.fileRun]
      rw [List.drop_of_length_le hp]
      simp only [List.take_nil, List.length_nil, Nat.add_zero, List.drop_length]
      rw [ih p hp]

/-- C177: reading a TIFF file from memory is reading a file, whatever the library asks for, as long as it counts from the beginning. -/
theorem C177_tiff_reads_partial (c : MemCur) (l : List TiffAsk) (hc : c.pos ≤ c.data.length) (hd : c.data.length < 9223372036854775808)
    (hl : ∀ p, .go p ∈ l → p < 9223372036854775808 ∧ p ≠ 0xFFFFFFFF) : c.tiffRun l = .ok (Spec.fileRun c.data c.pos l) := by
  induction l generalizing c with
  | nil => rfl
  | cons a l ih =>
    cases a with
    | go p =>
      obtain ⟨h1, h2⟩ := hl p (by simp)
      simp only [MemCur.tiffRun, Spec.fileRun, MemCur.tiffSeek, if_neg h2, tsize_small h1]
      split
      · rename_i hp
        rw [ih _ (by simp) (by simpa using hd) fun q hq => hl q (by simp [hq])]
        simp only
        rw [fileRun_past c.data l p (by omega)]
      · rename_i hp
        rw [ih _ (by simp; omega) (by simpa using hd) fun q hq => hl q (by simp [hq])]
    | read n =>
      have hn : c.tiffRead n = .ok ((c.data.drop c.pos).take n, { c with pos := c.pos + ((c.data.drop c.pos).take n).length }) := by
        simp only [MemCur.tiffRead, tsize_small (show c.pos < 9223372036854775808 by omega)]
        split
        · rename_i h
          rw [if_pos ⟨by omega, hc⟩, List.take_of_length_le (by simp; omega)]
          simp only [List.length_drop]
          congr 3; omega
        · rename_i h
          rw [if_pos (by omega)]
          simp only [List.length_take, List.length_drop]
          congr 3; omega
      simp only [MemCur.tiffRun, hn, Spec.fileRun]
      rw [ih _ (by simp; omega) (by simpa using hd) fun q hq => hl q (by simp [hq])]

example : (⟨[1, 2, 3, 4], 0⟩ : MemCur).tiffRun [.read 1, .go 2, .read 9, .go 7, .read 1] = .ok [[1], [3, 4], []] := by decide +kernel

/-- Counting from the end is turned round: going past the end by some bytes goes to as many bytes before it, and the place asked for is read as other data. -/
theorem C177_seek_end_false (c : MemCur) (p : Nat) (hd : c.data.length < 9223372036854775808) (h1 : p ≤ c.data.length) (h2 : p ≠ 0xFFFFFFFF) :
    (c.tiffSeek p .fin).1 = c.data.length - p ∧ (c.tiffSeek p .fin).2.tiffRead p = .ok (c.data.drop (c.data.length - p), { c with pos := c.data.length }) := by
  have ht := tsize_small (show p < 9223372036854775808 by omega)
  have hp : (c.data.length + 18446744073709551616 - p) % 18446744073709551616 = c.data.length - p := by omega
  have hle : ¬ ((p : Int) > c.data.length) := by omega
  refine ⟨by simp only [MemCur.tiffSeek, if_neg h2, ht, if_neg hle, hp], ?_⟩
  simp only [MemCur.tiffSeek, if_neg h2, ht, if_neg hle, hp, MemCur.tiffRead, tsize_small (show c.data.length - p < 9223372036854775808 by omega)]
  rw [if_neg (by omega), if_pos (by omega), List.take_of_length_le (by simp; omega)]
  congr 3; omega

/-- Going to a place before the end, by a negative number of bytes, goes behind it, and reading there is undefined. -/
theorem C177_seek_back_false (c : MemCur) (k n : Nat) (hd : c.data.length < 4611686018427387904) (h1 : 1 ≤ k) (h2 : k ≤ c.data.length) :
    (c.tiffSeek (18446744073709551616 - k) .fin).1 = c.data.length + k ∧ (c.tiffSeek (18446744073709551616 - k) .fin).2.tiffRead n = .error .ub := by
  have ht : tsize (18446744073709551616 - k) = - (k : Int) := by
    unfold tsize
    have : (18446744073709551616 - k) % 18446744073709551616 = 18446744073709551616 - k := by omega
    rw [this, if_neg (by omega)]; omega
  have hp : (c.data.length + 18446744073709551616 - (18446744073709551616 - k)) % 18446744073709551616 = c.data.length + k := by omega
  have hle : ¬ (- (k : Int) > c.data.length) := by omega
  have h3 : 18446744073709551616 - k ≠ 0xFFFFFFFF := by omega
  refine ⟨by simp only [MemCur.tiffSeek, if_neg h3, ht, if_neg hle, hp], ?_⟩
  simp only [MemCur.tiffSeek, if_neg h3, ht, if_neg hle, hp, MemCur.tiffRead, tsize_small (show c.data.length + k < 9223372036854775808 by omega)]
  rw [if_pos (by omega), if_neg (by omega)]

/-- One place cannot be reached, though the data goes beyond it: the position is left where it was. -/
theorem C177_seek_4g_false (c : MemCur) (w : Whence) : c.tiffSeek 4294967295 w = (4294967295, c) := by simp [MemCur.tiffSeek]

/-! ### TIFF -/

/-- What the samples mean, TIFFTAG_PHOTOMETRIC. -/
inductive TiffPhoto
  | minIsBlack | minIsWhite | rgb | separated | palette | other
  deriving DecidableEq

/-- What the library gives of a TIFF file: the fields `PdfImage::loadFromTiffHandle` asks for, `src/pdfmm/base/PdfImage.cpp:667-685`, and each line, or none when it cannot be read. -/
structure TiffPic where
  width : Nat
  height : Nat
  bits : Nat
  samples : Nat
  extra : Nat
  contig : Bool
  photo : TiffPhoto
  topLeft : Bool
  tiled : Bool
  line : Nat → Option Bytes

/-- The description of the image, `src/pdfmm/base/PdfImage.cpp:688-815`; `pal` is the object the colours of a palette are put in. -/
def TiffPic.info (pal : Ref) (t : TiffPic) : Res ImInfo :=
  if t.tiled then raise .UnsupportedImageFormat
  else if t.contig = false ∧ (t.samples : Int) - t.extra ≠ 1 then raise .UnsupportedImageFormat
  else if t.topLeft = false then raise .UnsupportedImageFormat
  else
    let i : ImInfo := ⟨t.width, t.height, [], none, [], UInt8.ofNat t.bits, []⟩
    let px := t.bits * t.samples
    match t.photo with
    | .minIsBlack =>
      if px = 1 then .ok { i with decode := [.num 0, .num 1] }
      else if px = 8 ∨ px = 16 then .ok { i with color := some .DeviceGray }
      else raise .UnsupportedImageFormat
    | .minIsWhite =>
      if px = 1 then .ok { i with decode := [.num 1, .num 0] }
      else if px = 8 ∨ px = 16 then .ok { i with color := some .DeviceGray }
      else raise .UnsupportedImageFormat
    | .rgb => if px ≠ 24 then raise .UnsupportedImageFormat else .ok { i with color := some .DeviceRGB }
    | .separated => if px ≠ 32 then raise .UnsupportedImageFormat else .ok { i with color := some .DeviceCMYK }
    | .palette =>
      if 31 ≤ px then .error .ub
      else .ok { i with decode := [.num 0, .num (2 ^ px - 1)], colorArr := [.name (litBytes "Indexed"), .name (litBytes "DeviceRGB"), .num (2 ^ px - 1), .ref pal.num pal.gen] }
    | .other => raise .UnsupportedImageFormat

/-- The lines from one on, `src/pdfmm/base/PdfImage.cpp:820-829`. -/
def TiffPic.rows (t : TiffPic) : Nat → Nat → Res Bytes
  | 0, _ => .ok []
  | n + 1, y =>
    match t.line y with
    | none => raise .UnsupportedImageFormat
    | some l => match t.rows n (y + 1) with
      | .error e => .error e
      | .ok r => .ok (l ++ r)

/-- `PdfImage::loadFromTiffHandle`, `src/pdfmm/base/PdfImage.cpp:656-833`: the outcome, the image, and whether the handle was closed.  Every refusal closes it, lines 690, 696, 702, 727, 747, 756, 766, 811 and 826. -/
def ImObj.loadTiff (flate : Filt) (pal : Ref) (t : TiffPic) (im : ImObj) : Res Unit × ImObj × Bool :=
  match t.info pal with
  | .error e => (.error e, im, true)
  | .ok i =>
    match t.rows t.height 0 with
    | .error e => (.error e, im, true)
    | .ok data => let r := im.setDataRaw flate data i; (r.1, r.2, false)

/-- `PdfImage::loadFromTiff`, `src/pdfmm/base/PdfImage.cpp:853-863`: whatever was thrown the handle is closed, and closing a handle that was closed is undefined. -/
def ImObj.loadTiffFile (flate : Filt) (pal : Ref) (t : TiffPic) (im : ImObj) : Res Unit × ImObj :=
  match im.loadTiff flate pal t with
  | (r, im', true) => (match r with | .error _ => .error .ub | .ok () => .ok (), im')
  | (r, im', false) => (r, im')

/-- `PdfImage::loadFromTiffData`, `src/pdfmm/base/PdfImage.cpp:973-989`: the outcome, the image, and whether the handle is still open. -/
def ImObj.loadTiffData (flate : Filt) (pal : Ref) (t : TiffPic) (im : ImObj) : Res Unit × ImObj × Bool :=
  let (r, im', closed) := im.loadTiff flate pal t
  (r, im', !closed)

/-- A file that can be taken as it is: in one piece, beginning at the top left. -/
def Spec.PlainTiff (t : TiffPic) : Prop := t.tiled = false ∧ t.contig = true ∧ t.topLeft = true

/-- The lines of a picture, each of so many bytes a pixel. -/
def Spec.TiffLines (t : TiffPic) (n : Nat) (px : Nat → Nat → List Byte) : Prop :=
  ∀ y, y < t.height → ∃ l, t.line y = some l ∧ l.length = n * t.width ∧ ∀ x k, x < t.width → k < n → l[x * n + k]? = (px y x)[k]?

theorem rows_raster {t : TiffPic} {n : Nat} {px : Nat → Nat → List Byte} : ∀ (m y₀ : Nat),
    (∀ y, y < m → ∃ l, t.line (y₀ + y) = some l ∧ l.length = n * t.width ∧ ∀ x k, x < t.width → k < n → l[x * n + k]? = (px (y₀ + y) x)[k]?) →
    ∃ b, t.rows m y₀ = .ok b ∧ b.length = m * (n * t.width) ∧ ∀ y x k, y < m → x < t.width → k < n → b[y * (n * t.width) + x * n + k]? = (px (y₀ + y) x)[k]?
  | 0, _, _ => ⟨[], rfl, by simp, fun _ _ _ h => absurd h (by omega)⟩
  | m + 1, y₀, h => by
    obtain ⟨l, l1, l2, l3⟩ := h 0 (by omega)
    obtain ⟨b, b1, b2, b3⟩ := rows_raster (t := t) (n := n) (px := px) m (y₀ + 1) fun y hy => by
      have := h (y + 1) (by omega)
      rwa [show y₀ + (y + 1) = y₀ + 1 + y by omega] at this
    refine ⟨l ++ b, ?_, ?_, ?_⟩
    · simp only [TiffPic.rows, Nat.add_zero] at l1 ⊢
      rw [l1]; simp only [b1]
    · rw [List.length_append, l2, b2, Nat.succ_mul]; omega
    · intro y x k hy hx hk
      have hxk : x * n + k < n * t.width := by
        have : (x + 1) * n ≤ t.width * n := Nat.mul_le_mul_right _ hx
        rw [Nat.mul_comm n]; rw [Nat.add_mul] at this; omega
      cases y with
      | zero =>
        rw [Nat.zero_mul, Nat.zero_add, List.getElem?_append_left (by omega)]
        exact l3 x k hx hk
      | succ y =>
        rw [Nat.succ_mul, List.getElem?_append_right (by omega), l2]
        have := b3 y x k (by omega) hx hk
        rw [show y₀ + (y + 1) = y₀ + 1 + y by omega, ← this]
        congr 1; omega

/-- C177: a TIFF file of colours of eight bits gives an image that shows them. -/
theorem C177_tiff_rgb_partial (flate : Filt) (lib : Codecs) (doc : IDoc) (pal : Ref) (t : TiffPic) (im : ImObj) (px : Nat → Nat → Byte × Byte × Byte) (op : Nat → Nat → Byte) (m : Option Bytes)
    (ht : Spec.PlainTiff t) (hph : t.photo = .rgb) (hb : t.bits = 8) (hsa : t.samples = 3) (hl : Spec.TiffLines t 3 fun y x => Spec.pixel .RGB24 (px y x) 255)
    (hm : im.mask flate doc = .ok m) (ho : Spec.MaskGives t.width t.height m op)
    (hw : t.width < 536870912) (hwh : 3 * t.width * t.height < 4294967296) (hlk : im.obj.locked = false) (hs : SMap.Sorted im.obj.dict) :
    ∃ im', im.loadTiffFile flate pal t = (.ok (), im') ∧ im'.width = t.width ∧ im'.height = t.height ∧ Spec.ImageEntries im'.obj.dict t.width t.height "DeviceRGB" ∧ Spec.ImageShows flate lib doc im' px op := by
  obtain ⟨t1, t2, t3⟩ := ht
  obtain ⟨b, b1, b2, b3⟩ := rows_raster (t := t) (n := 3) (px := fun y x => Spec.pixel .RGB24 (px y x) 255) t.height 0 (by simp only [Nat.zero_add]; exact hl)
  have hi : t.info pal = .ok ⟨t.width, t.height, [], some .DeviceRGB, [], 8, []⟩ := by
    simp [TiffPic.info, t1, t2, t3, hph, hb, hsa]
  obtain ⟨im', i1, i2, i3, i4, i5, i6, i7, i8, i9, i10⟩ := C174_raw_partial flate im b ⟨t.width, t.height, [], some .DeviceRGB, [], 8, []⟩ .DeviceRGB (litBytes "DeviceRGB") hlk hs rfl rfl (by simp)
  have ew : im'.width = t.width := i2
  have eh : im'.height = t.height := i3
  have hcs : SMap.find? kSpace im'.obj.dict = some (.name (litBytes "DeviceRGB")) := by
    have := i7.2.2.2.1; simpa [spaceEntry] using this
  refine ⟨im', by simp only [ImObj.loadTiffFile, ImObj.loadTiff, hi, b1, i1], ew, eh, ⟨i7.1, i7.2.1, i7.2.2.1, hcs, by simpa using i7.2.2.2.2⟩, ?_⟩
  refine shows_plain (m := m) i4 i5 (raw_copy i6 i10) ((colorSpace_name hcs).trans nameColor_rgb) ?_ ?_ (by rw [ew, eh]; exact ho) (by omega) (by rw [ew, eh]; exact hwh)
  · rw [ew, eh]
    refine ⟨by omega, ?_⟩
    intro y x k hy hx hk
    have := b3 y x k hy hx hk
    simpa using this
  · rw [mask_congr (i9 _ (by decide +kernel))]; exact hm

/-- C177: a TIFF file of greys, black being zero, gives an image described as grey with the samples as data. -/
theorem C177_tiff_grey_partial (flate : Filt) (pal : Ref) (t : TiffPic) (im : ImObj) (px : Nat → Nat → Byte)
    (ht : Spec.PlainTiff t) (hph : t.photo = .minIsBlack) (hb : t.bits = 8) (hsa : t.samples = 1) (hl : Spec.TiffLines t 1 fun y x => [px y x])
    (hlk : im.obj.locked = false) (hs : SMap.Sorted im.obj.dict) :
    ∃ im', im.loadTiffFile flate pal t = (.ok (), im') ∧ Spec.ImageEntries im'.obj.dict t.width t.height "DeviceGray" ∧ im'.obj.filters = []
      ∧ im'.obj.buf.length = t.height * t.width ∧ Spec.Raster im'.obj.buf t.width t.height t.width 1 fun y x => [px y x] := by
  obtain ⟨t1, t2, t3⟩ := ht
  obtain ⟨b, b1, b2, b3⟩ := rows_raster (t := t) (n := 1) (px := fun y x => [px y x]) t.height 0 (by simp only [Nat.zero_add]; exact hl)
  have hi : t.info pal = .ok ⟨t.width, t.height, [], some .DeviceGray, [], 8, []⟩ := by
    simp [TiffPic.info, t1, t2, t3, hph, hb, hsa]
  obtain ⟨im', i1, i2, i3, i4, i5, i6, i7, i8, i9, i10⟩ := C174_raw_partial flate im b ⟨t.width, t.height, [], some .DeviceGray, [], 8, []⟩ .DeviceGray (litBytes "DeviceGray") hlk hs rfl rfl (by simp)
  have hcs : SMap.find? kSpace im'.obj.dict = some (.name (litBytes "DeviceGray")) := by
    have := i7.2.2.2.1; simpa [spaceEntry] using this
  refine ⟨im', by simp only [ImObj.loadTiffFile, ImObj.loadTiff, hi, b1, i1], ⟨i7.1, i7.2.1, i7.2.2.1, hcs, by simpa using i7.2.2.2.2⟩, i10, by rw [i6, b2, Nat.one_mul], ?_⟩
  rw [i6]
  refine ⟨by rw [b2]; simp, ?_⟩
  intro y x k hy hx hk
  have := b3 y x k hy hx hk
  simpa using this

/-- Such an image of more than one line cannot be decoded: bytes are read that are not there. -/
theorem C177_grey_decode_false (flate : Filt) (lib : Codecs) (doc : IDoc) (pal : Ref) (t : TiffPic) (im : ImObj) (px : Nat → Nat → Byte) (fmt : PixFmt) (rowSize : Int)
    (ht : Spec.PlainTiff t) (hph : t.photo = .minIsBlack) (hb : t.bits = 8) (hsa : t.samples = 1) (hl : Spec.TiffLines t 1 fun y x => [px y x])
    (hlk : im.obj.locked = false) (hs : SMap.Sorted im.obj.dict) (h1 : 1 ≤ t.width) (h2 : 2 ≤ t.height) (hw : t.width < 536870912) (hwh : 3 * t.width * t.height < 4294967296)
    (hf : Spec.bytesPer fmt = 3) (hst : Spec.GoodStride t.width fmt rowSize) :
    ∃ im', im.loadTiffFile flate pal t = (.ok (), im') ∧ im'.decodeTo flate lib doc none fmt rowSize = .error .ub := by
  obtain ⟨t1, t2, t3⟩ := ht
  obtain ⟨b, b1, b2, b3⟩ := rows_raster (t := t) (n := 1) (px := fun y x => [px y x]) t.height 0 (by simp only [Nat.zero_add]; exact hl)
  have hi : t.info pal = .ok ⟨t.width, t.height, [], some .DeviceGray, [], 8, []⟩ := by
    simp [TiffPic.info, t1, t2, t3, hph, hb, hsa]
  obtain ⟨im', i1, i2, i3, i4, i5, i6, i7, i8, i9, i10⟩ := C174_raw_partial flate im b ⟨t.width, t.height, [], some .DeviceGray, [], 8, []⟩ .DeviceGray (litBytes "DeviceGray") hlk hs rfl rfl (by simp)
  have ew : im'.width = t.width := i2
  have eh : im'.height = t.height := i3
  have hcs : SMap.find? kSpace im'.obj.dict = some (.name (litBytes "DeviceGray")) := by
    have := i7.2.2.2.1; simpa [spaceEntry] using this
  have hfu : fmt ≠ .Unknown := by rintro rfl; simp [Spec.bytesPer] at hf
  have hcol : im'.colorSpace doc = .ok .DeviceGray := (colorSpace_name hcs).trans (by decide +kernel)
  refine ⟨im', by simp only [ImObj.loadTiffFile, ImObj.loadTiff, hi, b1, i1], ?_⟩
  rw [decodeTo_opaque i4 i5 (raw_copy i6 i10) hcol hf (initLine_ok hfu (by omega) (by rw [ew]; exact hst)), ew, eh]
  exact C173_grey_false ⟨t.width, t.height, .plain .gray b, none⟩ fmt rowSize b hfu rfl (by simp only [b2]; rw [Nat.one_mul, Nat.mul_comm]) h1 h2 hw hwh hst

/-- Whether zero is black or white makes no difference to the image: the samples of the one are shown as those of the other. -/
theorem C177_white_is_zero_false (flate : Filt) (pal : Ref) (t : TiffPic) (im : ImObj) (h : t.bits * t.samples ≠ 1) :
    im.loadTiffFile flate pal { t with photo := .minIsWhite } = im.loadTiffFile flate pal { t with photo := .minIsBlack } := by
  have hr : ∀ (m y : Nat) (p q : TiffPhoto), ({ t with photo := p } : TiffPic).rows m y = ({ t with photo := q } : TiffPic).rows m y := by
    intro m
    induction m with
    | zero => intros; rfl
    | succ m ih =>
      intro y p q
      simp only [TiffPic.rows, ih (y + 1) p q]
  have hi : ({ t with photo := .minIsWhite } : TiffPic).info pal = ({ t with photo := .minIsBlack } : TiffPic).info pal := by
    simp only [TiffPic.info, h, if_false]
  simp only [ImObj.loadTiffFile, ImObj.loadTiff, hi, hr t.height 0 .minIsWhite .minIsBlack]

/-- A bilevel picture, or one with a palette, is undefined when it is loaded: its colour space is read before it is set. -/
theorem C177_tiff_bits_false (flate : Filt) (pal : Ref) (t : TiffPic) (im : ImObj) (ht : Spec.PlainTiff t)
    (h : t.photo = .palette ∨ ((t.photo = .minIsBlack ∨ t.photo = .minIsWhite) ∧ t.bits = 1 ∧ t.samples = 1)) (hl : ∀ y, y < t.height → ∃ l, t.line y = some l) :
    (im.loadTiffFile flate pal t).1 = .error .ub := by
  obtain ⟨t1, t2, t3⟩ := ht
  have hrows : ∀ (m y₀ : Nat), (∀ y, y < m → ∃ l, t.line (y₀ + y) = some l) → ∃ b, t.rows m y₀ = .ok b := by
    intro m
    induction m with
    | zero => intros; exact ⟨[], rfl⟩
    | succ m ih =>
      intro y₀ h
      obtain ⟨l, hl⟩ := h 0 (by omega)
      obtain ⟨b, hb⟩ := ih (y₀ + 1) fun y hy => by
        have := h (y + 1) (by omega)
        rwa [show y₀ + (y + 1) = y₀ + 1 + y by omega] at this
      rw [Nat.add_zero] at hl
      exact ⟨l ++ b, by simp only [TiffPic.rows, hl, hb]⟩
  obtain ⟨b, hb⟩ := hrows t.height 0 (by simpa using hl)
  have hi : t.info pal = .error .ub ∨ ∃ i, t.info pal = .ok i ∧ i.color = none := by
    rcases h with h | ⟨h | h, h1, h2⟩
    · simp only [TiffPic.info, t1, t2, t3, h]
      by_cases hp : 31 ≤ t.bits * t.samples
      · left; simp [hp]
      · right; simp [hp]
    · right; simp [TiffPic.info, t1, t2, t3, h, h1, h2]
    · right; simp [TiffPic.info, t1, t2, t3, h, h1, h2]
  rcases hi with hi | ⟨i, hi, hc⟩
  · simp only [ImObj.loadTiffFile, ImObj.loadTiff, hi]
  · have := C174_raw_unset_false flate im b i hc
    simp only [ImObj.loadTiffFile, ImObj.loadTiff, hi, hb, this]

/-- Files that are not supported, or not sound. -/
def Spec.TiffRefused (t : TiffPic) : Prop :=
  t.tiled = true ∨ t.topLeft = false ∨ (t.contig = false ∧ (t.samples : Int) - t.extra ≠ 1) ∨ t.photo = .other ∨ (t.photo = .rgb ∧ t.bits * t.samples ≠ 24) ∨ (t.photo = .separated ∧ t.bits * t.samples ≠ 32)
    ∨ ((t.photo = .minIsBlack ∨ t.photo = .minIsWhite) ∧ t.bits * t.samples ≠ 1 ∧ t.bits * t.samples ≠ 8 ∧ t.bits * t.samples ≠ 16)
    ∨ ((t.photo ≠ .palette ∨ t.bits * t.samples < 31) ∧ ∃ y, y < t.height ∧ t.line y = none)

theorem tiff_refused {pal : Ref} {t : TiffPic} (h : Spec.TiffRefused t) :
    t.info pal = raise .UnsupportedImageFormat ∨ ((∃ i, t.info pal = .ok i) ∧ t.rows t.height 0 = raise .UnsupportedImageFormat) := by
  have hrow : ∀ (m y₀ y : Nat), y < m → t.line (y₀ + y) = none → t.rows m y₀ = raise .UnsupportedImageFormat := by
    intro m
    induction m with
    | zero => intro _ y hy; omega
    | succ m ih =>
      intro y₀ y hy hn
      cases y with
      | zero => rw [Nat.add_zero] at hn; simp only [TiffPic.rows, hn]
      | succ y =>
        have he := ih (y₀ + 1) y (by omega) (by rwa [show y₀ + 1 + y = y₀ + (y + 1) by omega])
        cases hl : t.line y₀ with
        | none => simp only [TiffPic.rows, hl]
        | some l => simp only [TiffPic.rows, hl, he, raise]
  rcases h with h | h | ⟨h, h'⟩ | h | ⟨h, h'⟩ | ⟨h, h'⟩ | ⟨h, h1, h2, h3⟩ | ⟨h, y, h1, h2⟩
  · left; simp [TiffPic.info, h, raise]
  · left; simp only [TiffPic.info, h, raise]; grind
  · left; simp only [TiffPic.info, h, raise]; grind
  · left; simp only [TiffPic.info, h, raise]; grind
  · left; simp only [TiffPic.info, h, raise]; grind
  · left; simp only [TiffPic.info, h, raise]; grind
  · left
    rcases h with h | h <;> simp only [TiffPic.info, h, h1, h2, h3, raise] <;> grind
  · have hr := hrow t.height 0 y h1 (by simpa using h2)
    have hi : t.info pal = raise .UnsupportedImageFormat ∨ ∃ i, t.info pal = .ok i := by
      simp only [TiffPic.info, raise]
      cases hp : t.photo <;> simp only [hp, ne_eq, not_true, false_or, not_false_iff, true_or, reduceCtorEq] at h ⊢ <;> grind
    rcases hi with hi | hi
    · exact Or.inl hi
    · exact Or.inr ⟨hi, hr⟩

/-- C177: from memory, a file that is not supported or not sound is refused, and the image is as it was. -/
theorem C177_tiff_refused_partial (flate : Filt) (pal : Ref) (t : TiffPic) (im : ImObj) (h : Spec.TiffRefused t) :
    im.loadTiffData flate pal t = (raise .UnsupportedImageFormat, im, false) := by
  rcases tiff_refused (pal := pal) h with hi | ⟨⟨i, hi⟩, hr⟩
  · simp only [ImObj.loadTiffData, ImObj.loadTiff, hi, raise]; rfl
  · simp only [ImObj.loadTiffData, ImObj.loadTiff, hi, hr, raise]; rfl

/-- From a file it is not: the handle is closed twice, which is undefined. -/
theorem C177_tiff_refused_false (flate : Filt) (pal : Ref) (t : TiffPic) (im : ImObj) (h : Spec.TiffRefused t) : (im.loadTiffFile flate pal t).1 = .error .ub := by
  rcases tiff_refused (pal := pal) h with hi | ⟨⟨i, hi⟩, hr⟩
  · simp only [ImObj.loadTiffFile, ImObj.loadTiff, hi, raise]
  · simp only [ImObj.loadTiffFile, ImObj.loadTiff, hi, hr, raise]

/-- Read from memory, a picture that was loaded leaves the handle open. -/
theorem C177_tiff_leak_false (flate : Filt) (pal : Ref) (t : TiffPic) (im im' : ImObj) (b : Bool) (h : im.loadTiffData flate pal t = (.ok (), im', b)) : b = true := by
  unfold ImObj.loadTiffData ImObj.loadTiff at h
  cases hi : t.info pal with
  | error e => rw [hi] at h; simp at h
  | ok i =>
    rw [hi] at h; simp only at h
    cases hr : t.rows t.height 0 with
    | error e => rw [hr] at h; simp at h
    | ok r => rw [hr] at h; simp at h; simp [h.2.2]

/-- A picture of 2 by 1 pixels. -/
def exTiff : TiffPic := ⟨2, 1, 8, 3, 0, true, .rgb, true, false, fun _ => some [1, 2, 3, 4, 5, 6]⟩

example : Spec.PlainTiff exTiff ∧ exTiff.photo = .rgb ∧ exTiff.bits = 8 ∧ exTiff.samples = 3
    ∧ Spec.TiffLines exTiff 3 (fun _ x => Spec.pixel .RGB24 (if x = 0 then (1, 2, 3) else (4, 5, 6)) 255) ∧ ImObj.fresh.obj.locked = false := by
  refine ⟨⟨rfl, rfl, rfl⟩, rfl, rfl, rfl, ?_, rfl⟩
  intro y _
  refine ⟨_, rfl, rfl, ?_⟩
  intro x k hx hk
  have hx' : x = 0 ∨ x = 1 := by simp [exTiff] at hx; omega
  have hk' : k = 0 ∨ k = 1 ∨ k = 2 := by omega
  rcases hx' with rfl | rfl <;> rcases hk' with rfl | rfl | rfl <;> rfl

example : ({ exTiff with bits := 8, samples := 1, photo := .palette } : TiffPic).photo = .palette ∧ ({ exTiff with tiled := true } : TiffPic).tiled = true := ⟨rfl, rfl⟩

/-! ### JPEG -/

/-- What `PdfImage::loadFromJpegInfo` finds, `src/pdfmm/base/PdfImage.cpp:594-645`. -/
def jpegInfo (w h components : Nat) : ImInfo :=
  if components = 3 then ⟨w, h, [.DCTDecode], some .DeviceRGB, [], 8, []⟩
  else if components = 4 then
    ⟨w, h, [.DCTDecode], some .DeviceCMYK, [], 8, [.real false 1 0, .real false 0 0, .real false 1 0, .real false 0 0, .real false 1 0, .real false 0 0, .real false 1 0, .real false 0 0]⟩
  else ⟨w, h, [.DCTDecode], some .DeviceGray, [], 8, []⟩

/-- `PdfImage::loadFromJpegData`, `src/pdfmm/base/PdfImage.cpp:570-592`: the data is kept as it is. -/
def ImObj.loadJpeg (flate : Filt) (w h components : Nat) (data : Bytes) (im : ImObj) : Res Unit × ImObj :=
  im.setDataRaw flate data (jpegInfo w h components)

/-- The colour spaces of JPEG files. -/
def Spec.jpegSpace (components : Nat) : String := if components = 3 then "DeviceRGB" else if components = 4 then "DeviceCMYK" else "DeviceGray"

/-- C177: a JPEG file is kept byte by byte, with its size, the colour space of its components and the filter that decodes it; saved without compression and read again it is the same. -/
theorem C177_jpeg_partial (flate : Filt) (w h n : Nat) (data : Bytes) (im : ImObj) (hlk : im.obj.locked = false) (hs : SMap.Sorted im.obj.dict) :
    ∃ im', im.loadJpeg flate w h n data = (.ok (), im') ∧ im'.width = w ∧ im'.height = h ∧ im'.obj.buf = data ∧ Spec.FilterEntry im'.obj.dict [.DCTDecode]
      ∧ SMap.find? kWidth im'.obj.dict = some (.num w) ∧ SMap.find? kHeight im'.obj.dict = some (.num h) ∧ SMap.find? kBits im'.obj.dict = some (.num 8)
      ∧ SMap.find? kSpace im'.obj.dict = some (.name (litBytes (Spec.jpegSpace n)))
      ∧ (n ≠ 4 → SMap.find? kDecode im'.obj.dict = none)
      ∧ (n = 4 → ∃ l, SMap.find? kDecode im'.obj.dict = some (.arr l) ∧ l.map Var.toRat? = [some 1, some 0, some 1, some 0, some 1, some 0, some 1, some 0])
      ∧ (∀ (s : SaveOpts) (r : Ref) (isMeta : Bool) (rest : Bytes), s.flags.clean = true ∨ s.flags.noInline = false → s.noCompress = true → Spec.IsRef r → data.length < 9223372036854775808 →
          Writable 4095 (.dict im'.obj.dict) → nest (.dict im'.obj.dict) < 256 →
          ∃ t o' o2, im'.obj.write flate isMeta s r = .ok (t, o') ∧ loadObject {} (t ++ rest) = .ok (r, .stream o2) ∧ o2.buf = data ∧ o2.filters = [.DCTDecode]) := by
  have hc : ∃ c, (jpegInfo w h n).color = some c ∧ colorName c = .ok (litBytes (Spec.jpegSpace n)) := by
    unfold jpegInfo Spec.jpegSpace
    by_cases h3 : n = 3
    · simp [h3, colorName]
    · by_cases h4 : n = 4
      · simp [h4, colorName]
      · simp [h3, h4, colorName]
  obtain ⟨c, hc1, hc2⟩ := hc
  have ha : (jpegInfo w h n).colorArr = [] := by unfold jpegInfo; split <;> (try split) <;> rfl
  have hfl : (jpegInfo w h n).filters = [.DCTDecode] := by unfold jpegInfo; split <;> (try split) <;> rfl
  have hwi : (jpegInfo w h n).width = w := by unfold jpegInfo; split <;> (try split) <;> rfl
  have hhe : (jpegInfo w h n).height = h := by unfold jpegInfo; split <;> (try split) <;> rfl
  have hbi : (jpegInfo w h n).bits = 8 := by unfold jpegInfo; split <;> (try split) <;> rfl
  have hf : ∀ f ∈ (jpegInfo w h n).filters, f ≠ .None_ := by rw [hfl]; simp
  obtain ⟨im', i1, i2, i3, i4, i5, i6, i7, i8, i9, i10⟩ := C174_raw_partial flate im data (jpegInfo w h n) c _ hlk hs hc1 hc2 hf
  obtain ⟨e1, e2, e3, e4, e5⟩ := i7
  refine ⟨im', i1, by rw [i2, hwi], by rw [i3, hhe], i6, by rw [← hfl]; exact i8, by rw [e1, hwi], by rw [e2, hhe], by rw [e3, hbi]; rfl, by rw [e4]; simp [spaceEntry, ha], ?_, ?_, ?_⟩
  · intro h4
    rw [e5, if_pos]; unfold jpegInfo; simp only [h4, if_false]; split <;> rfl
  · intro h4
    subst h4
    refine ⟨_, by rw [e5, if_neg (by simp [jpegInfo])], ?_⟩
    have e : (jpegInfo w h 4).decode = [.real false 1 0, .real false 0 0, .real false 1 0, .real false 0 0, .real false 1 0, .real false 0 0, .real false 1 0, .real false 0 0] := rfl
    rw [e]
    decide +kernel
  · intro s r isMeta rest h1 h2 h3 h4 h5 h6
    obtain ⟨im2, j1, j2⟩ := C174_raw_saved_partial flate im data (jpegInfo w h n) c _ hlk hs hc1 hc2 hf s h1 h2 r h3 isMeta rest h4
    rw [i1] at j1
    have : im' = im2 := by simpa using j1
    subst this
    obtain ⟨t, o', o2, k1, k2, k3, k4, _⟩ := j2 h5 h6
    exact ⟨t, o', o2, k1, k2, k3, by rw [k4, hfl]⟩

/-- Before it is saved, the image takes the JPEG file for its pixels: what the decoder is given as samples are the bytes of the file. -/
theorem C177_jpeg_decode_false (flate : Filt) (w h n : Nat) (data : Bytes) (im : ImObj) (hlk : im.obj.locked = false) (hs : SMap.Sorted im.obj.dict) (lib : Codecs) (doc : IDoc)
    (cap : Option Nat) (fmt : PixFmt) (rowSize : Int) (l : Bytes) (hn : n = 3) (hf : Spec.bytesPer fmt = 3) (hl : initLine w fmt rowSize = .ok l) :
    ∃ im', im.loadJpeg flate w h n data = (.ok (), im') ∧ im'.decodeTo flate lib doc cap fmt rowSize = (ImgPic.mk w h (.plain .rgb data) none).decode cap fmt rowSize := by
  subst hn
  obtain ⟨im', i1, i2, i3, i4, i5, i6, i7, i8, i9, i10⟩ := C174_raw_partial flate im data (jpegInfo w h 3) .DeviceRGB (litBytes "DeviceRGB") hlk hs rfl rfl (by simp [jpegInfo])
  have ew : im'.width = w := i2
  have eh : im'.height = h := i3
  have hcs : SMap.find? kSpace im'.obj.dict = some (.name (litBytes "DeviceRGB")) := by
    have := i7.2.2.2.1; simpa [spaceEntry, jpegInfo] using this
  refine ⟨im', i1, ?_⟩
  rw [decodeTo_opaque i4 i5 (raw_copy i6 i10) ((colorSpace_name hcs).trans nameColor_rgb) hf (by rw [ew]; exact hl), ew, eh]
  rfl

/-- The quality of a JPEG file that is written, `src/pdfmm/base/PdfImage.cpp:520-526`: what is given is taken between zero and one.  The rounding of doubles is not modelled. -/
def jpegQuality (args : List Var) : Int :=
  match args with
  | v :: _ => match v.toRat? with
    | some q => (max 0 (min 1 q) * 100).floor
    | none => 85
  | [] => 85

/-- C177: the quality of a JPEG file is between nothing and a hundred, whatever is given. -/
theorem C177_quality (args : List Var) : (0 ≤ jpegQuality args ∧ jpegQuality args ≤ 100)
    ∧ (∀ v q l, args = v :: l → v.toRat? = some q → 0 ≤ q → q ≤ 1 → jpegQuality args = (q * 100).floor)
    ∧ (∀ v q l, args = v :: l → v.toRat? = some q → 1 ≤ q → jpegQuality args = 100) ∧ (∀ v q l, args = v :: l → v.toRat? = some q → q ≤ 0 → jpegQuality args = 0) := by
  refine ⟨?_, ?_, ?_, ?_⟩
  rotate_left
  · intro v q l h hq h0 h1
    simp only [jpegQuality, h, hq]
    congr 2; grind
  · intro v q l h hq h1
    simp only [jpegQuality, h, hq]
    have : max 0 (min 1 q) = 1 := by grind
    rw [this]; decide +kernel
  · intro v q l h hq h1
    simp only [jpegQuality, h, hq]
    have : max 0 (min 1 q) = 0 := by grind
    rw [this]; decide +kernel
  unfold jpegQuality
  split
  · split
    · rename_i q _
      constructor
      · rw [Rat.le_floor_iff]; grind
      · have h : ((max 0 (min 1 q) * 100).floor : Rat) ≤ max 0 (min 1 q) * 100 := Rat.floor_le _
        have : ((max 0 (min 1 q) * 100).floor : Rat) ≤ ((100 : Int) : Rat) := by grind
        exact Rat.intCast_le_intCast.1 this
    · decide
  · decide

end Pdfmm
