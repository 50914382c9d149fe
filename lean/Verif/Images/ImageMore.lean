import Verif.Images.XObject
import Verif.Images.ImageObjProps
import Verif.Images.Png
/-
C174, C175 and C176: more about images and XObjects: dimensions, greys, packed JPEG data, new objects, forms without a rectangle.
-/
set_option autoImplicit false
namespace Pdfmm
open Codec

/-- C174: an image of a document has the width and the height of its entries, also by reference. -/
theorem C174_image_dims (doc : IDoc) (v : Var) (d : FDict) (w h : Nat) (hw : w < 4294967296) (hh : h < 4294967296) (hx : Spec.XObjectOf doc v d "Image")
    (h1 : doc.find d (litBytes "Width") = some (.plain (.num w))) (h2 : doc.find d (litBytes "Height") = some (.plain (.num h))) : doc.tryImage v = .ok (some (w, h)) := by
  obtain ⟨e1, e2, e3⟩ := hx
  have hk := (xtype_cases doc d "Image" .Image (by simp)).2 e3
  unfold IDoc.tryImage
  rw [xobjDict_some.2 ⟨e1, e2⟩]
  simp only [hk, if_true]
  rw [show doc.dim d kWidth = .ok w from C174_dims_partial doc d kWidth w hw h1, show doc.dim d kHeight = .ok h from C174_dims_partial doc d kHeight h hh h2]
  rfl

example : let doc : IDoc := fun r => if r = ⟨5, 0⟩ then some (.plain (.num 20)) else none
    let d : FDict := [(litBytes "Height", .ref 5 0), (litBytes "Subtype", .name (litBytes "Image")), (litBytes "Type", .name (litBytes "XObject")), (litBytes "Width", .num 10)]
    Spec.XObjectOf doc (.dict d) d "Image" ∧ doc.find d (litBytes "Width") = some (.plain (.num 10)) ∧ doc.find d (litBytes "Height") = some (.plain (.num 20)) :=
  ⟨⟨rfl, rfl, rfl⟩, rfl, rfl⟩

/-- C174: an image in greys of one line, decoded, gives its greys. -/
theorem C174_grey_line_partial (flate : Filt) (lib : Codecs) (doc : IDoc) (im : ImObj) (cap : Option Nat) (fmt : PixFmt) (rowSize : Int) (data : Bytes) (v : Nat → Byte)
    (h1 : im.has = true) (h2 : im.obj.locked = false) (h3 : im.obj.copyTo flate = .ok data) (h4 : im.colorSpace doc = .ok .DeviceGray) (hf : Spec.bytesPer fmt = 3)
    (hh : im.height = 1) (hp : Spec.Raster data im.width 1 im.width 1 fun _ x => [v x]) (hw : im.width < 536870912) (hs : Spec.GoodStride im.width fmt rowSize)
    (hc : Spec.Room cap (Spec.strideOf im.width fmt rowSize)) :
    ∃ out, im.decodeTo flate lib doc cap fmt rowSize = .ok out ∧ out.length = Spec.strideOf im.width fmt rowSize
      ∧ Spec.Raster out im.width 1 (Spec.strideOf im.width fmt rowSize) 3 (fun _ x => [v x, v x, v x]) := by
  have hfu : fmt ≠ .Unknown := by rintro rfl; simp [Spec.bytesPer] at hf
  obtain ⟨out, k1, k2, k3⟩ := C173_grey_line_partial ⟨im.width, im.height, .plain .gray data, none⟩ cap fmt rowSize data v (fun _ _ => 255) hfu rfl hh hp (fun _ _ => rfl) hw hs hc
  refine ⟨out, ?_, k2, ?_⟩
  · rw [decodeTo_opaque h1 h2 h3 h4 hf (initLine_ok hfu hw hs)]; exact k1
  · have : (fun (y x : Nat) => Spec.greyPixel fmt (v x) 255) = fun _ x => [v x, v x, v x] := by
      funext y x; cases fmt <;> simp [Spec.bytesPer] at hf <;> rfl
    rw [hf, this] at k3
    exact k3

example : ∃ (im : ImObj), im.has = true ∧ im.obj.locked = false ∧ im.height = 1 ∧ (im.colorSpace (fun _ => none)).toOption = some .DeviceGray ∧
    ∀ flate : Filt, im.obj.copyTo flate = .ok [7, 8] :=
  ⟨⟨2, 1, ⟨[(litBytes "ColorSpace", .name (litBytes "DeviceGray"))], [7, 8], [], false⟩, true⟩, rfl, rfl, rfl, by decide +kernel, fun _ => rfl⟩

/-- C174: JPEG data that is compressed once more is given to the JPEG library as it was before that. -/
theorem C174_packed_jpeg (flate : Filt) (hfl : RoundTrips flate.enc flate.dec) (lib : Codecs) (doc : IDoc) (im : ImObj) (cap : Option Nat) (fmt : PixFmt) (rowSize : Int) (jpeg l : Bytes)
    (h1 : im.has = true) (h2 : im.obj.locked = false) (h3 : im.obj.filters = [.FlateDecode, .DCTDecode]) (h4 : SMap.find? kDecodeParms im.obj.dict = none)
    (h5 : flate.enc.run [jpeg] = .ok im.obj.buf) (hf : Spec.bytesPer fmt = 3) (hl : initLine im.width fmt rowSize = .ok l) :
    im.decodeTo flate lib doc cap fmt rowSize = (ImgPic.mk im.width im.height (.jpeg (lib.jpeg fmt jpeg)) none).decode cap fmt rowSize := by
  have hd : flate.dec.run [im.obj.buf] = .ok jpeg := by
    obtain ⟨tx, t1, t2⟩ := hfl [jpeg]
    rw [h5] at t1; cases t1
    simpa using t2 [im.obj.buf] (by simp)
  have hu : im.obj.unmedia flate = .ok (jpeg, [.DCTDecode], [none]) := by
    have hm : stripMedia [.FlateDecode, .DCTDecode] [] [] = .ok ([.FlateDecode], [.DCTDecode]) := rfl
    have hp : decodeParms im.obj = .ok [none, none] := by simp [decodeParms, h4, h3, List.replicate]
    unfold StObj.unmedia
    rw [h3, if_neg (by simp), hp]
    simp only [hm]
    have hfd : filtsDec flate (List.zip [.FlateDecode] [none, none]) = .ok [flate] := rfl
    rw [if_neg (by simp), if_neg (by simp), hfd]
    simp only [createDecodeStream, List.reverse_cons, List.reverse_nil, List.nil_append, decodeLoop]
    rw [hd]; rfl
  simp only [ImObj.decodeTo, h1, h2, hu, hf, hl, Except.bind]
  simp

example : ∃ f : Filt, RoundTrips f.enc f.dec ∧ ∃ b, f.enc.run [[1, 2, 3]] = .ok b :=
  ⟨hexFilt, C01_hex_roundtrip, by obtain ⟨t, h, -⟩ := C01_hex_roundtrip [[1, 2, 3]]; exact ⟨t, h⟩⟩

/-- C175: new XObjects are of the kind they were made for, in every document. -/
theorem C175_new_kind (doc : IDoc) : ∀ k s, (k, s) ∈ [(XObjKind.Form, "Form"), (.Image, "Image"), (.PostScript, "PS")] → ∃ d, newXObj k = .ok d ∧ Spec.XObjectOf doc (.dict d) d s ∧ doc.xtype d = k := by
  intro k s h
  simp only [List.mem_cons, Prod.mk.injEq, List.not_mem_nil, or_false] at h
  rcases h with ⟨rfl, rfl⟩ | ⟨rfl, rfl⟩ | ⟨rfl, rfl⟩ <;> exact ⟨_, rfl, ⟨rfl, rfl, rfl⟩, rfl⟩

/-- C175: a new form has the entries of a form of the only type there is. -/
theorem C175_new_form_entries (q : Rect) : ∃ d, newForm q = .ok d ∧ SMap.find? (litBytes "FormType") d = some (.num 1) ∧ SMap.find? (litBytes "Subtype") d = some (.name (litBytes "Form"))
    ∧ SMap.find? (litBytes "Type") d = some (.name (litBytes "XObject")) ∧ SMap.find? (litBytes "BBox") d = some (.arr q.toVars)
    ∧ SMap.find? (litBytes "Matrix") d = some (.arr [.num 1, .num 0, .num 0, .num 1, .num 0, .num 0]) :=
  ⟨_, rfl, rfl, rfl, rfl, rfl, rfl⟩

/-- C175: a form without a rectangle is found, with the rectangle without extent. -/
theorem C175_no_box (doc : IDoc) (want : XObjKind) (v : Var) (d : FDict) (hx : Spec.XObjectOf doc v d "Form") (hw : Spec.XObjAsked want .Form) (hb : SMap.find? (litBytes "BBox") d = none)
    (hr : doc.find d (litBytes "Resources") = none) : doc.tryXObj want v = .ok (some (.form ⟨0, 0, 0, 0⟩)) := by
  obtain ⟨e1, e2, e3⟩ := hx
  have hk := (xtype_cases doc d "Form" .Form (by simp)).2 e3
  unfold IDoc.tryXObj
  rw [xobjDict_some.2 ⟨e1, e2⟩]
  simp only [hk]
  unfold Spec.XObjAsked at hw
  rw [if_neg (by grind)]
  have h1 : doc.formRect d = .ok ⟨0, 0, 0, 0⟩ := by
    unfold IDoc.formRect; rw [if_pos (show SMap.find? kBBox d = none from hb)]
  have h2 : doc.formResources d = .ok () := by
    unfold IDoc.formResources; rw [show doc.find d kResources = none from hr]; rfl
  simp [h1, h2, Except.bind, Except.map]

example : let d : FDict := [(litBytes "Subtype", .name (litBytes "Form")), (litBytes "Type", .name (litBytes "XObject"))]
    Spec.XObjectOf (fun _ => none) (.dict d) d "Form" ∧ SMap.find? (litBytes "BBox") d = none := ⟨⟨rfl, rfl, rfl⟩, rfl⟩

/-- C176: the mask that is made for a file with a palette and eight bits for each pixel holds the opacity of each pixel's entry, and 255 for entries without one. -/
theorem C176_palette_mask_partial (p : PngPic) (t : List Byte) (hk : p.kind = .palette) (ht : p.trns = some t) (hd : p.depth = 8) (hr : p.width ≤ p.rowLen)
    (hl : p.lines.length = p.height * p.rowLen) (hwh : p.width * p.height < 4294967296) :
    ∃ m, p.split = .ok (p.lines, some m) ∧ m.length = p.width * p.height ∧
      ∀ y x, y < p.height → x < p.width → m[y * p.width + x]? = some ((t[(p.lines.getD (y * p.rowLen + x) 0).toNat]?).getD 255) := by
  have hin : ∀ k, k < p.width * p.height → k / p.width * p.rowLen + k % p.width < p.lines.length := by
    intro k hkk
    have hw : 0 < p.width := by
      apply Nat.pos_of_ne_zero; intro h0; rw [h0, Nat.zero_mul] at hkk; exact absurd hkk (by omega)
    have h1 : k / p.width < p.height := (Nat.div_lt_iff_lt_mul hw).2 (by rw [Nat.mul_comm]; exact hkk)
    have h2 := Nat.mod_lt k hw
    have h3 : (k / p.width + 1) * p.rowLen ≤ p.height * p.rowLen := Nat.mul_le_mul_right _ h1
    rw [hl]
    have : (k / p.width + 1) * p.rowLen = k / p.width * p.rowLen + p.rowLen := by rw [Nat.add_mul, Nat.one_mul]
    omega
  obtain ⟨m, h1, h2, h3⟩ := pngSteps_inv (f := palStep p.lines p.width p.rowLen p.depth t) (s := List.replicate (uns (p.width * p.height)) (0 : Byte))
    (P := fun k m => m.length = p.width * p.height ∧ ∀ j, j < k → m[j]? = some ((t[(p.lines.getD (j / p.width * p.rowLen + j % p.width) 0).toNat]?).getD 255))
    ⟨by rw [List.length_replicate, uns_small hwh], fun j hj => absurd hj (by omega)⟩ (p.width * p.height) (by
      intro k m hkn ⟨hm, hj⟩
      have hi := hin k hkn
      refine ⟨m.set k ((t[(p.lines.getD (k / p.width * p.rowLen + k % p.width) 0).toNat]?).getD 255), ?_, by rw [List.length_set]; exact hm, ?_⟩
      · rw [palStep, hd]
        simp only [palColor, strGet]
        rw [if_pos trivial, if_pos hi]
        simp only [Except.map, Except.bind, uns_small (show k < 4294967296 by omega)]
        rw [strSet_ok (by omega), List.getD_eq_getElem?_getD]
      · intro j hjk
        rcases Nat.lt_or_ge j k with h | h
        · rw [List.getElem?_set_ne (by omega)]; exact hj j h
        · obtain rfl : j = k := by omega
          rw [List.getElem?_set_self (by omega)])
  refine ⟨m, ?_, h2, ?_⟩
  · simp only [PngPic.split, hk, ht, h1, Except.map]
  · intro y x hy hx
    have hlt : y * p.width + x < p.width * p.height := by
      have : (y + 1) * p.width ≤ p.height * p.width := Nat.mul_le_mul_right _ hy
      rw [Nat.add_mul, Nat.one_mul, Nat.mul_comm p.height] at this
      omega
    have := h3 (y * p.width + x) hlt
    have e1 : (y * p.width + x) / p.width = y := by rw [Nat.add_comm, Nat.add_mul_div_right _ _ (by omega), Nat.div_eq_of_lt hx]; omega
    have e2 : (y * p.width + x) % p.width = x := by rw [Nat.add_comm, Nat.add_mul_mod_self_right, Nat.mod_eq_of_lt hx]
    rw [e1, e2] at this
    exact this

example : (⟨2, 2, 8, .palette, 3, [1, 0, 9, 2, 1, 9], [(0, 0, 0), (255, 255, 255), (1, 1, 1)], some [7, 8]⟩ : PngPic).split = .ok ([1, 0, 9, 2, 1, 9], some [8, 7, 255, 8]) := by decide +kernel

end Pdfmm
