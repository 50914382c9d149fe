import Verif.Images.ImageObj
set_option autoImplicit false
/-!
# Images as objects: what is set is what the document shows

Property C174.
-/
namespace Pdfmm
open Codec
open Spec (Writable nest nestKVs nestArr)

/-- An image shows a picture with opacities: decoded in any format with room for colours, with any line length that is accepted, it gives the pixels. -/
def Spec.ImageShows (flate : Filt) (lib : Codecs) (doc : IDoc) (im : ImObj) (px : Nat → Nat → Byte × Byte × Byte) (op : Nat → Nat → Byte) : Prop :=
  ∀ cap fmt rowSize, 3 ≤ Spec.bytesPer fmt → Spec.GoodStride im.width fmt rowSize → Spec.Room cap (im.height * Spec.strideOf im.width fmt rowSize) →
    ∃ out, im.decodeTo flate lib doc cap fmt rowSize = .ok out ∧ out.length = im.height * Spec.strideOf im.width fmt rowSize
      ∧ Spec.Raster out im.width im.height (Spec.strideOf im.width fmt rowSize) (Spec.bytesPer fmt) (fun y x => Spec.pixel fmt (px y x) (op y x))

/-- The content of a soft mask gives the opacities: one byte for each pixel, and no mask means opaque. -/
def Spec.MaskGives (w h : Nat) (m : Option Bytes) (op : Nat → Nat → Byte) : Prop :=
  match m with
  | none => ∀ y x, op y x = 255
  | some m => Spec.Raster m w h w 1 fun y x => [op y x]

theorem unmedia_of_copyTo {flate : Filt} {o : StObj} {b : Bytes} (h : o.copyTo flate = .ok b) : o.unmedia flate = .ok (b, [], []) := by
  unfold StObj.copyTo at h
  unfold StObj.unmedia
  split at h
  · rename_i hf; cases h; rw [if_pos hf]
  · rename_i hf
    rw [if_neg hf]
    cases hp : decodeParms o with
    | error e => rw [hp] at h; cases h
    | ok ps =>
      rw [hp] at h
      simp only at h ⊢
      cases hst : stripMedia o.filters [] [] with
      | error e => rw [hst] at h; cases h
      | ok rm =>
        obtain ⟨reg, media⟩ := rm
        rw [hst] at h
        simp only at h ⊢
        split at h
        · cases h
        · rename_i hm
          have hm : media = [] := Classical.not_not.1 hm
          subst hm
          by_cases hr : reg = []
          · subst hr
            simp only [List.zip_nil_left, filtsDec, createDecodeStream, List.reverse_nil] at h
            cases h
          · rw [if_neg hr]
            cases hfd : filtsDec flate (reg.zip ps) with
            | error e => rw [hfd] at h; cases h
            | ok fs =>
              rw [hfd] at h
              simp only at h ⊢
              cases hc : createDecodeStream fs with
              | error e => rw [hc] at h; cases h
              | ok d => rw [hc] at h; simp only at h ⊢; rw [h]; simp [Except.map]

theorem shows_plain {flate : Filt} {lib : Codecs} {doc : IDoc} {im : ImObj} {data : Bytes} {px : Nat → Nat → Byte × Byte × Byte} {m : Option Bytes} {op : Nat → Nat → Byte}
    (h1 : im.has = true) (h2 : im.obj.locked = false) (h3 : im.obj.copyTo flate = .ok data) (h4 : im.colorSpace doc = .ok .DeviceRGB)
    (hp : Spec.Raster data im.width im.height (3 * im.width) 3 fun y x => Spec.pixel .RGB24 (px y x) 255)
    (hm : im.mask flate doc = .ok m) (ho : Spec.MaskGives im.width im.height m op)
    (hw : im.width < 536870912) (hwh : 3 * im.width * im.height < 4294967296) : Spec.ImageShows flate lib doc im px op := by
  intro cap fmt rowSize hf hs hr
  have h4' : Spec.bytesPer fmt = 3 ∨ Spec.bytesPer fmt = 4 := by cases fmt <;> simp [Spec.bytesPer] at hf ⊢
  have hk : ∀ (op' : Nat → Nat → Byte) (m' : Option Bytes), Spec.MaskGives im.width im.height m' op' →
      ∃ out, (ImgPic.mk im.width im.height (.plain .rgb data) m').decode cap fmt rowSize = .ok out ∧ out.length = im.height * Spec.strideOf im.width fmt rowSize
      ∧ Spec.Raster out im.width im.height (Spec.strideOf im.width fmt rowSize) (Spec.bytesPer fmt) (fun y x => Spec.pixel fmt (px y x) (op' y x)) := by
    intro op' m' hm'
    obtain ⟨out, k1, k2, k3, _⟩ := C173_decode_partial ⟨im.width, im.height, .plain .rgb data, m'⟩ cap fmt rowSize data px op' hf rfl hp (by cases m' <;> exact hm') hw hwh hs hr
    exact ⟨out, k1, k2, k3⟩
  have hi : ∀ m' out, (ImgPic.mk im.width im.height (.plain .rgb data) m').decode cap fmt rowSize = .ok out → ∃ l, initLine im.width fmt rowSize = .ok l := by
    intro m' out h
    rw [ImgPic.decode] at h
    cases hl : initLine im.width fmt rowSize with
    | ok l => exact ⟨l, rfl⟩
    | error e => rw [hl] at h; cases h
  rcases h4' with h | h
  · obtain ⟨out, k1, k2, k3⟩ := hk (fun _ _ => 255) none (fun _ _ => rfl)
    refine ⟨out, ?_, k2, ?_⟩
    · obtain ⟨l, hl⟩ := hi _ _ k1
      simp only [ImObj.decodeTo, h1, h2, unmedia_of_copyTo h3, h4, h, hl, Except.bind, Except.map, spaceOf]
      simpa using k1
    · have : (fun y x => Spec.pixel fmt (px y x) (op y x)) = fun y x => Spec.pixel fmt (px y x) 255 := by
        funext y x; cases fmt <;> simp [Spec.bytesPer] at h <;> rfl
      rw [this]; exact k3
  · obtain ⟨out, k1, k2, k3⟩ := hk op m ho
    refine ⟨out, ?_, k2, k3⟩
    obtain ⟨l, hl⟩ := hi _ _ k1
    simp only [ImObj.decodeTo, h1, h2, unmedia_of_copyTo h3, h4, h, hl, hm, Except.bind, Except.map, spaceOf]
    simpa using k1

theorem decodeTo_opaque {flate : Filt} {lib : Codecs} {doc : IDoc} {im : ImObj} {data : Bytes} {c : ImgColor} {cap : Option Nat} {fmt : PixFmt} {rowSize : Int} {l : Bytes}
    (h1 : im.has = true) (h2 : im.obj.locked = false) (h3 : im.obj.copyTo flate = .ok data) (h4 : im.colorSpace doc = .ok c) (h : Spec.bytesPer fmt = 3)
    (hl : initLine im.width fmt rowSize = .ok l) : im.decodeTo flate lib doc cap fmt rowSize = (ImgPic.mk im.width im.height (.plain (spaceOf c) data) none).decode cap fmt rowSize := by
  simp only [ImObj.decodeTo, h1, h2, unmedia_of_copyTo h3, h4, h, hl, Except.bind, Except.map]
  simp

theorem encodable_flate : ∀ f ∈ [FilterName.FlateDecode], Spec.Encodable f := by
  intro f hf; rw [List.mem_singleton.1 hf]; exact Or.inr (Or.inr rfl)

/-- Setting the data of an unlocked stream, compressed. -/
theorem output_flate {flate : Filt} (hfl : RoundTrips flate.enc flate.dec) {o : StObj} (hlk : o.locked = false) (hs : SMap.Sorted o.dict)
    (data : Bytes) :
    ∃ o', o.output flate [.FlateDecode] false [data] = (.ok (), o') ∧ (∀ d, SMap.find? kDecodeParms d = none → ({ o' with dict := d } : StObj).copyTo flate = .ok data)
      ∧ o'.filters = [.FlateDecode] ∧ Spec.FilterEntry o'.dict [.FlateDecode]
      ∧ (∀ k, k ≠ kFilter → SMap.find? k o'.dict = SMap.find? k o.dict) ∧ o'.locked = false ∧ SMap.Sorted o'.dict := by
  obtain ⟨d', d1, d2, d3, d4, -⟩ := setFilterKey_ok o.dict hs [.FlateDecode] (fun f hf => by
    obtain ⟨_, _, _, _, _, hn⟩ := filtEnc_ok flate hfl f (encodable_flate f hf); exact hn)
  obtain ⟨b, b1, b2⟩ := encodePieces_ok flate hfl [.FlateDecode] encodable_flate [data]
  refine ⟨⟨d', b, [.FlateDecode], false⟩, ?_, ?_, rfl, d2, d4, rfl, d3⟩
  · simp only [StObj.output, hlk, d1]
    simp [b1]
  · intro d hd
    have := b2 d hd false
    simpa using this

theorem find_pixelKeys {w h : Nat} {sp : Bytes} {d : FDict} (hs : SMap.Sorted d) (k : Bytes) :
    SMap.find? k (pixelKeys w h sp d) = if k = kDecode then none else if k = kSpace then some (.name sp) else if k = kBits then some (.num 8)
      else if k = kHeight then some (.num h) else if k = kWidth then some (.num w) else SMap.find? k d := by
  rw [pixelKeys, SMap.find_erase _ _ (SMap.sorted_insert _ _ _ (SMap.sorted_insert _ _ _ (SMap.sorted_insert _ _ _ (SMap.sorted_insert _ _ _ hs))))]
  simp only [SMap.find_insert]

theorem lastOk_ok {α : Type} {f : Nat → Res α} {n : Nat} {a : α} (h : f n = .ok a) : lastOk f n = some a := by
  cases n with
  | zero => simp [lastOk, h, Except.toOption]
  | succ n => simp [lastOk, h]

/-- The entries an image needs (ISO 32000-1, table 89), for 8 bits per component and a colour space that has a name. -/
def Spec.ImageEntries (d : FDict) (w h : Nat) (space : String) : Prop :=
  SMap.find? kWidth d = some (.num w) ∧ SMap.find? kHeight d = some (.num h) ∧ SMap.find? kBits d = some (.num 8)
    ∧ SMap.find? kSpace d = some (.name (litBytes space)) ∧ SMap.find? kDecode d = none

/-- The entries that setting pixels is about. -/
def Spec.pixelEntries : List Bytes := [kWidth, kHeight, kBits, kSpace, kDecode, kFilter]

/-- What `SetData` does when the lines can be read. -/
theorem setData_ok {flate : Filt} (hfl : RoundTrips flate.enc flate.dec) {im : ImObj} {buf data : Bytes} {w h : Nat} {fmt : PixFmt} {rowSize : Int} {cs : ImgSpace}
    (hset : setData buf w h fmt rowSize = .ok (cs, data)) (hlk : im.obj.locked = false) (hs : SMap.Sorted im.obj.dict) (hp : SMap.find? kDecodeParms im.obj.dict = none) :
    ∃ im', im.setData flate buf w h fmt rowSize = (.ok (), im') ∧ im'.width = w ∧ im'.height = h ∧ im'.has = true ∧ im'.obj.locked = false
      ∧ Spec.ImageEntries im'.obj.dict w h (if cs = .gray then "DeviceGray" else "DeviceRGB") ∧ im'.obj.copyTo flate = .ok data
      ∧ im'.obj.filters = [.FlateDecode] ∧ Spec.FilterEntry im'.obj.dict [.FlateDecode]
      ∧ (∀ k, k ∉ Spec.pixelEntries → SMap.find? k im'.obj.dict = SMap.find? k im.obj.dict) ∧ SMap.Sorted im'.obj.dict
      ∧ (∃ o, im.obj.output flate [.FlateDecode] false [data] = (.ok (), o) ∧ im'.obj = { o with dict := pixelKeys w h (litBytes (if cs = .gray then "DeviceGray" else "DeviceRGB")) o.dict }) := by
  obtain ⟨o, h1, h2, h3, h4, h5, h6, h7⟩ := output_flate hfl hlk hs data
  have hsp : (if cs = .gray then litBytes "DeviceGray" else litBytes "DeviceRGB") = litBytes (if cs = .gray then "DeviceGray" else "DeviceRGB") := by split <;> rfl
  refine ⟨⟨w, h, { o with dict := pixelKeys w h (litBytes (if cs = .gray then "DeviceGray" else "DeviceRGB")) o.dict }, true⟩, ?_, rfl, rfl, rfl, h6, ?_, ?_, h3, ?_, ?_, ?_, o, h1, rfl⟩
  · simp only [ImObj.setData, lastOk_ok (f := fun n => setData buf w n fmt rowSize) hset, h1, hset, hsp]
  · simp only [Spec.ImageEntries, find_pixelKeys h7]
    refine ⟨by rw [if_neg (by decide +kernel), if_neg (by decide +kernel), if_neg (by decide +kernel), if_neg (by decide +kernel), if_pos trivial], by rw [if_neg (by decide +kernel), if_neg (by decide +kernel), if_neg (by decide +kernel), if_pos trivial], by rw [if_neg (by decide +kernel), if_neg (by decide +kernel), if_pos trivial], by rw [if_neg (by decide +kernel), if_pos trivial], by rw [if_pos trivial]⟩
  · refine h2 _ ?_
    rw [find_pixelKeys h7, if_neg (by decide +kernel), if_neg (by decide +kernel), if_neg (by decide +kernel), if_neg (by decide +kernel), if_neg (by decide +kernel), h5 _ (by decide +kernel), hp]
  · obtain ⟨names, n1, n2⟩ := h4
    refine ⟨names, n1, ?_⟩
    have : SMap.find? kFilter (pixelKeys w h (litBytes (if cs = .gray then "DeviceGray" else "DeviceRGB")) o.dict) = SMap.find? kFilter o.dict := by
      rw [find_pixelKeys h7, if_neg (by decide +kernel), if_neg (by decide +kernel), if_neg (by decide +kernel), if_neg (by decide +kernel), if_neg (by decide +kernel)]
    rw [this]; exact n2
  · intro k hk
    simp only [Spec.pixelEntries, List.mem_cons, List.not_mem_nil, or_false, not_or] at hk
    rw [find_pixelKeys h7, if_neg hk.2.2.2.2.1, if_neg hk.2.2.2.1, if_neg hk.2.2.1, if_neg hk.2.1, if_neg hk.1, h5 _ hk.2.2.2.2.2]
  · exact SMap.sorted_erase _ (SMap.sorted_insert _ _ _ (SMap.sorted_insert _ _ _ (SMap.sorted_insert _ _ _ (SMap.sorted_insert _ _ _ h7))))


/-- The colour space when it is a direct name. -/
theorem colorSpace_name {doc : IDoc} {im : ImObj} {n : Bytes} (h : SMap.find? kSpace im.obj.dict = some (.name n)) : im.colorSpace doc = nameColor n := by
  simp [ImObj.colorSpace, IDoc.find, h, Loaded.var]

theorem nameColor_rgb : nameColor (litBytes "DeviceRGB") = .ok .DeviceRGB := by decide +kernel

theorem mask_congr {flate : Filt} {doc : IDoc} {a b : ImObj} (h : SMap.find? kSMask a.obj.dict = SMap.find? kSMask b.obj.dict) : a.mask flate doc = b.mask flate doc := by
  simp only [ImObj.mask, IDoc.find, h]

/-- C174: an image whose pixels were set has the entries it needs, keeps its others, and shows the pixels with the opacities of its soft mask. -/
theorem C174_set_partial (flate : Filt) (hfl : RoundTrips flate.enc flate.dec) (lib : Codecs) (doc : IDoc) (im : ImObj) (buf : Bytes) (w h : Nat) (fmt : PixFmt) (rowSize : Int)
    (px : Nat → Nat → Byte × Byte × Byte) (m : Option Bytes) (op : Nat → Nat → Byte)
    (hlk : im.obj.locked = false) (hs : SMap.Sorted im.obj.dict) (hp : SMap.find? kDecodeParms im.obj.dict = none)
    (hf : Spec.bytesPer fmt = 3) (hw : w < 536870912) (hwh : 3 * w * h < 4294967296) (hst : Spec.WideEnough w fmt rowSize)
    (hb : Spec.Raster buf w h (Spec.strideOf w fmt rowSize) 3 fun y x => Spec.pixel fmt (px y x) 255)
    (hm : im.mask flate doc = .ok m) (ho : Spec.MaskGives w h m op) :
    ∃ im', im.setData flate buf w h fmt rowSize = (.ok (), im') ∧ im'.width = w ∧ im'.height = h ∧ Spec.ImageEntries im'.obj.dict w h "DeviceRGB"
      ∧ (∀ k, k ∉ Spec.pixelEntries → SMap.find? k im'.obj.dict = SMap.find? k im.obj.dict) ∧ Spec.ImageShows flate lib doc im' px op := by
  obtain ⟨data, d1, _, d3⟩ := C173_set_partial buf w h fmt rowSize px hf hw hst hb
  obtain ⟨im', h1, h2, h3, h4, h5, h6, h7, _, _, h10, _, _⟩ := setData_ok hfl (im := im) d1 hlk hs hp
  refine ⟨im', h1, h2, h3, h6, h10, shows_plain h4 h5 h7 ?_ (by rw [h2, h3]; exact d3) (m := m) ?_ (by rw [h2, h3]; exact ho) (by rw [h2]; exact hw) (by rw [h2, h3]; exact hwh)⟩
  · rw [colorSpace_name h6.2.2.2.1]; exact nameColor_rgb
  · rw [mask_congr (h10 _ (by decide +kernel))]; exact hm

theorem writable_erase {l : FDict} {k : Bytes} (h : Writable 4095 (.dict l)) : Writable 4095 (.dict (SMap.erase k l)) := by
  cases h with
  | dict _ hs hk hv => exact .dict _ (SMap.sorted_erase _ hs) (fun p hp => hk p (SMap.mem_erase hp)) (fun p hp => hv p (SMap.mem_erase hp))

theorem nest_erase {l : FDict} {k : Bytes} (h : nest (.dict l) ≤ 255) : nest (.dict (SMap.erase k l)) ≤ 255 := by
  rw [nest] at *
  have h1 : nestKVs l ≤ 254 := by omega
  have : nestKVs (SMap.erase k l) ≤ 254 := by
    rw [nestKVs_le_iff] at *
    intro p hp; exact h1 p (SMap.mem_erase hp)
  omega

theorem pixelKeys_saveable {w h : Nat} {sp : Bytes} {d : FDict} (hd : Writable 4095 (.dict d)) (hn : nest (.dict d) ≤ 255) (hw : w < 4294967296) (hh : h < 4294967296)
    (hsp : Writable 4095 (.name sp)) : Writable 4095 (.dict (pixelKeys w h sp d)) ∧ nest (.dict (pixelKeys w h sp d)) ≤ 255 := by
  refine ⟨writable_erase (mem_find_insert_writable (mem_find_insert_writable (mem_find_insert_writable (mem_find_insert_writable hd _ _ (by decide +kernel) ?_)
    _ _ (by decide +kernel) ?_) _ _ (by decide +kernel) ?_) _ _ (by decide +kernel) hsp), nest_erase (nest_insert _ _ _ _ (by simp [nest])
    (nest_insert _ _ _ _ (by simp [nest]) (nest_insert _ _ _ _ (by simp [nest]) (nest_insert _ _ _ _ (by simp [nest]) hn))))⟩
  · exact .num _ (by omega) (by omega)
  · exact .num _ (by omega) (by omega)
  · exact .num _ (by decide) (by decide)

theorem dim_num {doc : IDoc} {d : FDict} {k : Bytes} {n : Nat} (h : SMap.find? k d = some (.num n)) (hn : n < 4294967296) : doc.dim d k = .ok n := by
  simp only [IDoc.dim, IDoc.find, h, Option.map_some, Loaded.var]
  congr 1; omega

theorem loaded_unlocked {cfg : Cfg} {inp : Bytes} {r : Ref} {o : StObj} (h : loadObject cfg inp = .ok (r, .stream o)) : o.locked = false := by
  unfold loadObject at h
  split at h
  · cases h
  · split at h
    · cases h
    · cases h
    · cases h
    · split at h
      · cases h
      · rename_i hp
        cases h
        unfold parseStream at hp
        split at hp
        · cases hp
        · split at hp
          · cases hp
          · split at hp
            · cases hp
            · cases hp; rfl
        · cases hp

/-- C174: it still does after it was saved, with any options, and read again. -/
theorem C174_saved_partial (flate : Filt) (hfl : RoundTrips flate.enc flate.dec) (lib : Codecs) (doc : IDoc) (im : ImObj) (buf : Bytes) (w h : Nat) (fmt : PixFmt) (rowSize : Int)
    (px : Nat → Nat → Byte × Byte × Byte) (m : Option Bytes) (op : Nat → Nat → Byte)
    (hlk : im.obj.locked = false) (hsv : Writable 4095 (.dict im.obj.dict)) (hn : nest (.dict im.obj.dict) < 256) (hp : SMap.find? kDecodeParms im.obj.dict = none)
    (hf : Spec.bytesPer fmt = 3) (hw : w < 536870912) (hh : h < 4294967296) (hwh : 3 * w * h < 4294967296) (hst : Spec.WideEnough w fmt rowSize)
    (hb : Spec.Raster buf w h (Spec.strideOf w fmt rowSize) 3 fun y x => Spec.pixel fmt (px y x) 255)
    (hm : im.mask flate doc = .ok m) (ho : Spec.MaskGives w h m op)
    (s : SaveOpts) (hs : s.flags.clean = true ∨ s.flags.noInline = false) (r : Ref) (hr : Spec.IsRef r) (isMeta : Bool) (rest : Bytes) :
    ∃ im', im.setData flate buf w h fmt rowSize = (.ok (), im') ∧
      (im'.obj.buf.length < 9223372036854775808 →
        ∃ t o' l im2, im'.obj.write flate isMeta s r = .ok (t, o') ∧ loadObject {} (t ++ rest) = .ok (r, l) ∧ ImObj.ofLoaded doc l = .ok im2
          ∧ im2.width = w ∧ im2.height = h ∧ Spec.ImageEntries im2.obj.dict w h "DeviceRGB" ∧ Spec.ImageShows flate lib doc im2 px op) := by
  have hsrt : SMap.Sorted im.obj.dict := by cases hsv with | dict _ hs _ _ => exact hs
  obtain ⟨data, d1, _, d3⟩ := C173_set_partial buf w h fmt rowSize px hf hw hst hb
  obtain ⟨im', h1, h2, h3, h4, h5, h6, h7, h8, h9, h10, _, o, ho1, ho2⟩ := setData_ok hfl (im := im) d1 hlk hsrt hp
  refine ⟨im', h1, ?_⟩
  intro hsz
  obtain ⟨a1, a2, _⟩ := output_saveable flate hfl im.obj o hsv hn ⟨false, [.FlateDecode], [data]⟩ encodable_flate ho1
  obtain ⟨b1, b2⟩ := pixelKeys_saveable (w := w) (h := h) (sp := litBytes "DeviceRGB") a1 (by omega) (by omega) hh (.name _ (by decide +kernel) (by decide +kernel))
  have hsave : Spec.Saveable im'.obj := by
    refine ⟨?_, ?_, by rw [h8]; exact h9, hsz⟩ <;> rw [ho2] <;> simp only [reduceCtorEq, if_false]
    · exact b1
    · omega
  obtain ⟨t, o', o2, k1, k2, _, _, k5, k6, _, k8, _, k10⟩ := C62_write_read_partial flate isMeta s hs r hr im'.obj hsave (Or.inr (Or.inl (by rw [h8]; simp))) rest
  have hk : ∀ k, k ∈ [kWidth, kHeight, kBits, kSpace, kDecode, kSMask] → k ≠ kLength := by decide +kernel
  have e : Spec.ImageEntries o2.dict w h "DeviceRGB" := by
    obtain ⟨q1, q2, q3, q4, q5⟩ := h6
    exact ⟨by rw [k8 _ (hk _ (by simp)), q1], by rw [k8 _ (hk _ (by simp)), q2], by rw [k8 _ (hk _ (by simp)), q3], by rw [k8 _ (hk _ (by simp)), q4]; rfl, by rw [k8 _ (hk _ (by simp)), q5]⟩
  have hlk2 : o2.locked = false := loaded_unlocked k2
  refine ⟨t, o', .stream o2, ⟨w, h, o2, true⟩, k1, k2, ?_, rfl, rfl, e, shows_plain rfl hlk2 (by rw [k10]; exact h7) ?_ d3 (m := m) ?_ ho hw hwh⟩
  · simp only [ImObj.ofLoaded, dim_num e.1 (show w < 4294967296 by omega), dim_num e.2.1 hh, Except.bind, Except.map]
  · rw [colorSpace_name (im := ⟨w, h, o2, true⟩) e.2.2.2.1]; exact nameColor_rgb
  · rw [mask_congr (b := im) (by show SMap.find? kSMask o2.dict = _; rw [k8 _ (hk _ (by simp)), h10 _ (by decide +kernel)])]; exact hm

/-- An image of two by one pixels, and what a library that is not called would give. -/
def exLib : Codecs := ⟨fun _ _ => ⟨0, 0, none, fun _ => []⟩, fun _ _ _ _ _ => []⟩
def exImgDoc : IDoc := fun r => if r = ⟨7, 0⟩ then some (.stream ⟨(ImObj.fresh.setData hexFilt [90, 91, 0, 0] 2 1 .Grayscale (-1)).2.obj.dict, litBytes "5A5B", [.ASCIIHexDecode], false⟩) else none
def exSet : ImObj := ((ImObj.fresh.setSoftmask ⟨7, 0⟩).setData hexFilt [3, 2, 1, 6, 5, 4, 0, 0] 2 1 .BGR24 (-1)).2

example : RoundTrips hexFilt.enc hexFilt.dec ∧ SMap.Sorted ImObj.fresh.obj.dict ∧ SMap.find? kDecodeParms ImObj.fresh.obj.dict = none
    ∧ (ImObj.fresh.setSoftmask ⟨7, 0⟩).mask hexFilt exImgDoc = .ok (some [90, 91])
    ∧ exSet.decodeTo hexFilt exLib exImgDoc none .RGBA (-1) = .ok [1, 2, 3, 90, 4, 5, 6, 91] :=
  ⟨C01_hex_roundtrip, by simp [ImObj.fresh, SMap.insert]; decide +kernel, by decide +kernel, by decide +kernel, by decide +kernel⟩

/-! ### Refused calls -/

/-- A call of `SetData` that is refused changes the dimensions that the image gives, and nothing of its object: they no longer agree. -/
theorem C174_refused_false (flate : Filt) (im : ImObj) (buf : Bytes) (w h : Nat) (fmt : PixFmt) (rowSize : Int) (hf : Spec.bytesPer fmt = 4) :
    im.setData flate buf w h fmt rowSize = (raise .NotImplemented, ⟨w, h, im.obj, im.has⟩) := by
  have hs : ∀ n, setData buf w n fmt rowSize = raise .NotImplemented := by
    intro n; cases fmt <;> simp [Spec.bytesPer] at hf <;> rfl
  have : ∀ n, lastOk (fun n => setData buf w n fmt rowSize) n = none := by
    intro n
    induction n with
    | zero => simp [lastOk, hs, raise, Except.toOption]
    | succ n ih => rw [lastOk, hs]; exact ih
  rw [ImObj.setData, this h, hs]; rfl

/-- After that an image that could be decoded accesses memory outside of its data. -/
theorem C174_refused_decode_false (flate : Filt) (lib : Codecs) (doc : IDoc) (im : ImObj) (buf data : Bytes) (w h : Nat) (fmt fmt' : PixFmt) (rowSize rowSize' : Int)
    (h1 : im.has = true) (h2 : im.obj.locked = false) (h3 : im.obj.copyTo flate = .ok data) (h4 : im.colorSpace doc = .ok .DeviceRGB)
    (hf : Spec.bytesPer fmt = 4) (hf' : Spec.bytesPer fmt' = 3) (hs : Spec.GoodStride w fmt' rowSize')
    (hl : data.length + 1 < 3 * w * h) (hw : w < 536870912) (hwh : 3 * w * h < 4294967296) :
    (im.setData flate buf w h fmt rowSize).2.decodeTo flate lib doc none fmt' rowSize' = .error .ub := by
  rw [C174_refused_false flate im buf w h fmt rowSize hf]
  have hub := C173_short_false ⟨w, h, .plain .rgb data, none⟩ fmt' rowSize' data (by omega) rfl hl hw hwh hs
  have h4' : ImObj.colorSpace doc ⟨w, h, im.obj, true⟩ = .ok .DeviceRGB := h4
  cases hi : initLine w fmt' rowSize' with
  | error e =>
    simp only [ImObj.decodeTo, h1, h2, unmedia_of_copyTo h3, hf', hi, Except.bind]
    rw [ImgPic.decode] at hub
    simp only [hi, Except.bind] at hub
    simpa using hub
  | ok l =>
    simp only [ImObj.decodeTo, h1, h2, unmedia_of_copyTo h3, h4', hf', hi, Except.bind, Except.map, spaceOf]
    simpa using hub

example : exSet.decodeTo hexFilt exLib exImgDoc none .RGB24 (-1) = .ok [1, 2, 3, 4, 5, 6, 0, 0]
    ∧ ((exSet.setData hexFilt [] 4 4 .RGBA (-1)).2).decodeTo hexFilt exLib exImgDoc none .RGB24 (-1) = .error .ub := by decide +kernel

/-- A mask is kept when pixels are set: with more pixels than it has, decoding accesses memory outside of it. -/
theorem C174_stale_mask_false (flate : Filt) (hfl : RoundTrips flate.enc flate.dec) (lib : Codecs) (doc : IDoc) (im : ImObj) (buf : Bytes) (w h : Nat) (fmt fmt' : PixFmt) (rowSize rowSize' : Int)
    (px : Nat → Nat → Byte × Byte × Byte) (m : Bytes)
    (hlk : im.obj.locked = false) (hs : SMap.Sorted im.obj.dict) (hp : SMap.find? kDecodeParms im.obj.dict = none)
    (hf : Spec.bytesPer fmt = 3) (hw : w < 536870912) (hwh : 3 * w * h < 4294967296) (hst : Spec.WideEnough w fmt rowSize)
    (hb : Spec.Raster buf w h (Spec.strideOf w fmt rowSize) 3 fun y x => Spec.pixel fmt (px y x) 255)
    (hm : im.mask flate doc = .ok (some m)) (h0 : m ≠ []) (hl : m.length + 1 < w * h) (hf' : Spec.bytesPer fmt' = 4) (hs' : Spec.GoodStride w fmt' rowSize') :
    ∃ im', im.setData flate buf w h fmt rowSize = (.ok (), im') ∧ im'.decodeTo flate lib doc none fmt' rowSize' = .error .ub := by
  obtain ⟨data, d1, _, d3⟩ := C173_set_partial buf w h fmt rowSize px hf hw hst hb
  obtain ⟨im', h1, h2, h3, h4, h5, h6, h7, _, _, h10, _, _⟩ := setData_ok hfl (im := im) d1 hlk hs hp
  refine ⟨im', h1, ?_⟩
  have e : 3 * w * h = 3 * (w * h) := by grind
  have hub := C173_mask_false ⟨w, h, .plain .rgb data, some m⟩ fmt' rowSize' data m hf' rfl rfl h0 hl hw (show w * h < 4294967296 by omega) hs'
  have hm' : im'.mask flate doc = .ok (some m) := by rw [mask_congr (h10 _ (by decide +kernel))]; exact hm
  have hcs : im'.colorSpace doc = .ok .DeviceRGB := by rw [colorSpace_name h6.2.2.2.1]; exact nameColor_rgb
  cases hi : initLine w fmt' rowSize' with
  | error e =>
    rw [ImgPic.decode] at hub
    simp only [hi, Except.bind] at hub
    simp only [ImObj.decodeTo, h4, h5, unmedia_of_copyTo h7, hf', hm', h2, hi, Except.bind]
    simpa using hub
  | ok l =>
    simp only [ImObj.decodeTo, h4, h5, unmedia_of_copyTo h7, hf', hm', hcs, h2, h3, hi, Except.bind, Except.map, spaceOf]
    simpa using hub

/-! ### Raw data -/

theorem rawKeys_sorted {i : ImInfo} {d : FDict} (hs : SMap.Sorted d) : SMap.Sorted (rawKeys i d) := by
  have := SMap.sorted_insert kBits (.num i.bits.toNat) _ (SMap.sorted_insert kHeight (.num i.height) _ (SMap.sorted_insert kWidth (.num i.width) _ hs))
  simp only [rawKeys]
  split
  · exact SMap.sorted_erase _ this
  · exact SMap.sorted_insert _ _ _ this

theorem find_rawKeys {i : ImInfo} {d : FDict} (hs : SMap.Sorted d) (k : Bytes) :
    SMap.find? k (rawKeys i d) = if k = kDecode then (if i.decode = [] then none else some (.arr i.decode)) else if k = kBits then some (.num i.bits.toNat)
      else if k = kHeight then some (.num i.height) else if k = kWidth then some (.num i.width) else SMap.find? k d := by
  have := SMap.sorted_insert kBits (.num i.bits.toNat) _ (SMap.sorted_insert kHeight (.num i.height) _ (SMap.sorted_insert kWidth (.num i.width) _ hs))
  simp only [rawKeys]
  split
  · rw [SMap.find_erase _ _ this]; simp only [SMap.find_insert]
  · simp only [SMap.find_insert]

theorem rawFilter_ok (d : FDict) (fs : List FilterName) (h : ∀ f ∈ fs, ∃ n, filterToName f = .ok n) (h0 : SMap.find? kFilter d = none) :
    ∃ d', rawFilter fs d = .ok d' ∧ Spec.FilterEntry d' fs ∧ (∀ k, k ≠ kFilter → SMap.find? k d' = SMap.find? k d) ∧ (SMap.Sorted d → SMap.Sorted d')
      ∧ (d' = d ∨ ∃ v, d' = SMap.insert kFilter v d ∧ ((∃ n, v = .name (litBytes n) ∧ fs.map filterToName = [.ok n]) ∨ ∃ names, v = .arr (List.map (fun n => .name (litBytes n)) names) ∧ fs.map filterToName = List.map .ok names)) := by
  obtain ⟨names, h1, h2⟩ := filterNames_ok fs h
  match names, h1, h2 with
  | [], h1, h2 => exact ⟨d, by simp only [rawFilter, h2]; rfl, ⟨[], h1, h0⟩, fun _ _ => rfl, id, Or.inl rfl⟩
  | [n], h1, h2 =>
    exact ⟨SMap.insert kFilter (.name (litBytes n)) d, by simp only [rawFilter, h2]; rfl, ⟨[n], h1, Or.inl (SMap.find_insert_self _ _ _)⟩, fun k hk => SMap.find_insert_ne _ _ hk, SMap.sorted_insert _ _ _,
      Or.inr ⟨_, rfl, Or.inl ⟨n, rfl, h1⟩⟩⟩
  | n :: n' :: r, h1, h2 =>
    exact ⟨SMap.insert kFilter (.arr (List.map (fun n => .name (litBytes n)) (n :: n' :: r))) d, by simp only [rawFilter, h2]; rfl,
      ⟨n :: n' :: r, h1, SMap.find_insert_self _ _ _⟩, fun k hk => SMap.find_insert_ne _ _ hk, SMap.sorted_insert _ _ _,
      Or.inr ⟨_, rfl, Or.inr ⟨_, rfl, h1⟩⟩⟩

/-- The entries an image needs, as given. -/
def Spec.RawEntries (d : FDict) (i : ImInfo) (space : Var) : Prop :=
  SMap.find? kWidth d = some (.num i.width) ∧ SMap.find? kHeight d = some (.num i.height) ∧ SMap.find? kBits d = some (.num i.bits.toNat)
    ∧ SMap.find? kSpace d = some space ∧ SMap.find? kDecode d = (if i.decode = [] then none else some (.arr i.decode))

/-- C174: raw data is kept byte by byte, with the entries and the filters that were given. -/
theorem C174_raw_partial (flate : Filt) (im : ImObj) (data : Bytes) (i : ImInfo) (c : ImgColor) (n : Bytes) (hlk : im.obj.locked = false) (hs : SMap.Sorted im.obj.dict)
    (hc : i.color = some c) (hn : colorName c = .ok n) (hf : ∀ f ∈ i.filters, f ≠ .None_) :
    ∃ im', im.setDataRaw flate data i = (.ok (), im') ∧ im'.width = i.width ∧ im'.height = i.height ∧ im'.has = true ∧ im'.obj.locked = false
      ∧ im'.obj.buf = data ∧ Spec.RawEntries im'.obj.dict i (spaceEntry i n) ∧ Spec.FilterEntry im'.obj.dict i.filters
      ∧ (∀ k, k ∉ Spec.pixelEntries → SMap.find? k im'.obj.dict = SMap.find? k im.obj.dict) ∧ im'.obj.filters = [] := by
  have hfn : ∀ f ∈ i.filters, ∃ n, filterToName f = .ok n := by
    intro f hf'
    have := hf f hf'
    cases f <;> first | exact absurd rfl this | exact ⟨_, rfl⟩
  have hso := SMap.sorted_insert kSpace (spaceEntry i n) _ (rawKeys_sorted (i := i) hs)
  have h0 : SMap.find? kFilter (SMap.erase kFilter (SMap.insert kSpace (spaceEntry i n) (rawKeys i im.obj.dict))) = none := by rw [SMap.find_erase _ _ hso, if_pos rfl]
  obtain ⟨d', r1, r2, r3, r4, _⟩ := rawFilter_ok _ i.filters hfn h0
  have hout : StObj.output flate { im.obj with dict := SMap.insert kSpace (spaceEntry i n) (rawKeys i im.obj.dict) } [] false [data] =
      (.ok (), ⟨SMap.erase kFilter (SMap.insert kSpace (spaceEntry i n) (rawKeys i im.obj.dict)), data, [], false⟩) := by
    simp [StObj.output, hlk, encodePieces, setFilterKey, filterNames]
  have hfind : ∀ k, k ≠ kFilter → SMap.find? k d' = if k = kSpace then some (spaceEntry i n) else SMap.find? k (rawKeys i im.obj.dict) := by
    intro k hk
    rw [r3 k hk, SMap.find_erase _ _ hso, if_neg hk, SMap.find_insert]
  refine ⟨⟨i.width, i.height, ⟨d', data, [], false⟩, true⟩, ?_, rfl, rfl, rfl, rfl, rfl, ?_, r2, ?_, rfl⟩
  · simp only [ImObj.setDataRaw, ImInfo.name, hc, hn, hout, r1]
  · have hk : ∀ k, k ∈ [kWidth, kHeight, kBits, kSpace, kDecode] → k ≠ kFilter := by decide +kernel
    simp only [Spec.RawEntries]
    refine ⟨?_, ?_, ?_, ?_, ?_⟩
    · rw [hfind _ (hk _ (by simp)), if_neg (by decide +kernel), find_rawKeys hs, if_neg (by decide +kernel), if_neg (by decide +kernel), if_neg (by decide +kernel), if_pos rfl]
    · rw [hfind _ (hk _ (by simp)), if_neg (by decide +kernel), find_rawKeys hs, if_neg (by decide +kernel), if_neg (by decide +kernel), if_pos rfl]
    · rw [hfind _ (hk _ (by simp)), if_neg (by decide +kernel), find_rawKeys hs, if_neg (by decide +kernel), if_pos rfl]
    · rw [hfind _ (hk _ (by simp)), if_pos rfl]
    · rw [hfind _ (hk _ (by simp)), if_neg (by decide +kernel), find_rawKeys hs, if_pos rfl]
  · intro k hk
    simp only [Spec.pixelEntries, List.mem_cons, List.not_mem_nil, or_false, not_or] at hk
    rw [hfind k hk.2.2.2.2.2, if_neg hk.2.2.2.1, find_rawKeys hs, if_neg hk.2.2.2.2.1, if_neg hk.2.2.1, if_neg hk.2.1, if_neg hk.1]

/-- The information of a JPEG file, for instance. -/
def exInfo : ImInfo := ⟨2, 1, [.DCTDecode], some .DeviceRGB, [], 8, []⟩

theorem exSet_sorted : SMap.Sorted exSet.obj.dict := by
  obtain ⟨im', h, _, _, _, _, _, _, _, _, _, hs, _⟩ := setData_ok (flate := hexFilt) C01_hex_roundtrip (im := ImObj.fresh.setSoftmask ⟨7, 0⟩) (buf := [3, 2, 1, 6, 5, 4, 0, 0]) (data := [1, 2, 3, 4, 5, 6])
    (w := 2) (h := 1) (fmt := .BGR24) (rowSize := -1) (cs := .rgb) (by decide +kernel) (by decide +kernel) (by simp [ImObj.fresh, ImObj.setSoftmask, SMap.insert]; decide +kernel) (by decide +kernel)
  rw [exSet, h]; exact hs

example : exSet.obj.locked = false ∧ SMap.Sorted exSet.obj.dict ∧ exInfo.color = some .DeviceRGB ∧ colorName .DeviceRGB = .ok (litBytes "DeviceRGB") ∧ (∀ f ∈ exInfo.filters, f ≠ .None_)
    ∧ (exSet.setDataRaw hexFilt [255, 216, 255] exInfo).1 = .ok () ∧ (exSet.setDataRaw hexFilt [255, 216, 255] exInfo).2.obj.buf = [255, 216, 255] :=
  ⟨by decide +kernel, exSet_sorted, rfl, rfl, by simp [exInfo], by decide +kernel, by decide +kernel⟩

/-- The filters that were given are not used before the document was saved and read again: the data is taken for what the filters would give. -/
theorem C174_raw_filters_false (flate : Filt) (im : ImObj) (data : Bytes) (i : ImInfo) (c : ImgColor) (n : Bytes) (hlk : im.obj.locked = false) (hs : SMap.Sorted im.obj.dict)
    (hc : i.color = some c) (hn : colorName c = .ok n) (hf : ∀ f ∈ i.filters, f ≠ .None_) :
    ∃ im', im.setDataRaw flate data i = (.ok (), im') ∧ im'.obj.copyTo flate = .ok data ∧ im'.obj.unmedia flate = .ok (data, [], []) := by
  obtain ⟨im', h1, _, _, _, _, h6, _, _, _, h10⟩ := C174_raw_partial flate im data i c n hlk hs hc hn hf
  have : im'.obj.copyTo flate = .ok data := by simp [StObj.copyTo, h10, h6]
  exact ⟨im', h1, this, unmedia_of_copyTo this⟩

/-- The colour space of an array is the array itself: the name that was given is not in it. -/
theorem C174_raw_space_false (flate : Filt) (im : ImObj) (data : Bytes) (i : ImInfo) (c c' : ImgColor) (n n' : Bytes)
    (hc : i.color = some c) (hn : colorName c = .ok n) (hn' : colorName c' = .ok n') (ha : i.colorArr ≠ []) :
    im.setDataRaw flate data i = im.setDataRaw flate data { i with color := some c' } := by
  have e1 : spaceEntry i n = .arr i.colorArr := by simp [spaceEntry, ha]
  have e2 : spaceEntry { i with color := some c' } n' = .arr i.colorArr := by simp [spaceEntry, ha]
  simp only [ImObj.setDataRaw, ImInfo.name, hc, hn, hn', e1, e2]
  rfl

/-- A colour space that was not assigned is read, even when there is an array. -/
theorem C174_raw_unset_false (flate : Filt) (im : ImObj) (data : Bytes) (i : ImInfo) (hc : i.color = none) : (im.setDataRaw flate data i).1 = .error .ub := by
  simp only [ImObj.setDataRaw, ImInfo.name, hc]

example : exInfo.color = some .DeviceRGB ∧ ({ exInfo with colorArr := [.name (litBytes "DeviceRGB"), .num 3, .ref 9 0] } : ImInfo).colorArr ≠ [] ∧ colorName .Indexed = .ok (litBytes "Indexed") := by
  simp [exInfo, colorName]

/-- C174: saved without compression and read again, raw data has the filters that were given. -/
theorem C174_raw_saved_partial (flate : Filt) (im : ImObj) (data : Bytes) (i : ImInfo) (c : ImgColor) (n : Bytes) (hlk : im.obj.locked = false) (hs : SMap.Sorted im.obj.dict)
    (hc : i.color = some c) (hn : colorName c = .ok n) (hf : ∀ f ∈ i.filters, f ≠ .None_) (s : SaveOpts) (hfl : s.flags.clean = true ∨ s.flags.noInline = false) (hnc : s.noCompress = true)
    (r : Ref) (hr : Spec.IsRef r) (isMeta : Bool) (rest : Bytes) (hsz : data.length < 9223372036854775808) :
    ∃ im', im.setDataRaw flate data i = (.ok (), im') ∧
      (Writable 4095 (.dict im'.obj.dict) → nest (.dict im'.obj.dict) < 256 →
        ∃ t o' o2, im'.obj.write flate isMeta s r = .ok (t, o') ∧ loadObject {} (t ++ rest) = .ok (r, .stream o2) ∧ o2.buf = data ∧ o2.filters = i.filters
          ∧ Spec.RawEntries o2.dict i (spaceEntry i n)) := by
  obtain ⟨im', h1, _, _, _, _, h6, h7, h8, _, h10⟩ := C174_raw_partial flate im data i c n hlk hs hc hn hf
  refine ⟨im', h1, ?_⟩
  intro hw hd
  have w1 : Writable 4095 (.dict (SMap.insert kLength (.num im'.obj.buf.length) im'.obj.dict)) :=
    mem_find_insert_writable hw _ _ (by decide) (.num _ (by omega) (by rw [h6]; omega))
  have w2 : nest (.dict (SMap.insert kLength (.num im'.obj.buf.length) im'.obj.dict)) < 256 := by
    have := nest_insert kLength (.num im'.obj.buf.length) im'.obj.dict 255 (by simp [nest]) (by omega)
    omega
  have w3 := filterEntry_insert im'.obj.dict i.filters kLength (.num im'.obj.buf.length) kLength_ne_kFilter h8
  have hi : ¬ (s.noCompress = false ∧ im'.obj.filters = [] ∧ isMeta = false) := by rw [hnc]; simp
  have hl := load_stream s hfl r hr _ im'.obj.buf i.filters w1 w2 w3 (SMap.find_insert_self _ _ _) rest
  refine ⟨_, { im'.obj with dict := SMap.insert kLength (.num im'.obj.buf.length) im'.obj.dict }, _, ?_, hl, h6, rfl, ?_⟩
  · simp only [StObj.write, if_neg hi, writeVar, writable_noNul w1]; rfl
  · have hk : ∀ k, k ∈ [kWidth, kHeight, kBits, kSpace, kDecode] → k ≠ kLength := by decide +kernel
    simp only [Spec.RawEntries] at h7 ⊢
    rw [SMap.find_insert_ne _ _ (hk kWidth (by simp)), SMap.find_insert_ne _ _ (hk kHeight (by simp)), SMap.find_insert_ne _ _ (hk kBits (by simp)),
      SMap.find_insert_ne _ _ (hk kSpace (by simp)), SMap.find_insert_ne _ _ (hk kDecode (by simp))]
    exact h7

theorem erase_absent {l : FDict} {k : Bytes} (h : SMap.find? k l = none) : SMap.erase k l = l := by
  induction l with
  | nil => rfl
  | cons p r ih =>
    obtain ⟨a, b⟩ := p
    simp only [SMap.find?] at h
    split at h
    · cases h
    · rename_i hk
      rw [SMap.erase, if_neg hk, ih h]

/-- Saved as it is by default, the image is empty, and its filters are gone. -/
theorem C174_raw_saved_false (flate : Filt) (hfl : RoundTrips flate.enc flate.dec) (im : ImObj) (data : Bytes) (i : ImInfo) (c : ImgColor) (n : Bytes) (hlk : im.obj.locked = false) (hs : SMap.Sorted im.obj.dict)
    (hc : i.color = some c) (hn : colorName c = .ok n) (hf : ∀ f ∈ i.filters, f ≠ .None_) (s : SaveOpts) (hcl : s.flags.clean = true ∨ s.flags.noInline = false) (hnc : s.noCompress = false)
    (r : Ref) (hr : Spec.IsRef r) (rest : Bytes) (hsz : data.length < 9223372036854775808) :
    ∃ im', im.setDataRaw flate data i = (.ok (), im') ∧
      (Writable 4095 (.dict im'.obj.dict) → nest (.dict im'.obj.dict) < 256 →
        ∃ t o' o2, im'.obj.write flate false s r = .ok (t, o') ∧ loadObject {} (t ++ rest) = .ok (r, .stream o2) ∧ o2.copyTo flate = .ok []) := by
  obtain ⟨im', h1, _, _, _, _, h6, h7, h8, _, h10⟩ := C174_raw_partial flate im data i c n hlk hs hc hn hf
  refine ⟨im', h1, ?_⟩
  intro hw hd
  have hsrt : SMap.Sorted im'.obj.dict := by cases hw with | dict _ hs _ _ => exact hs
  have hno : SMap.find? kFilter (SMap.erase kFilter im'.obj.dict) = none := by rw [SMap.find_erase _ _ hsrt, if_pos rfl]
  have hsave : Spec.Saveable { im'.obj with dict := SMap.erase kFilter im'.obj.dict } := by
    refine ⟨writable_erase hw, ?_, ?_, by rw [h6]; exact hsz⟩
    · have := nest_erase (k := kFilter) (show nest (.dict im'.obj.dict) ≤ 255 by omega)
      show nest (.dict (SMap.erase kFilter im'.obj.dict)) < 256; omega
    · exact ⟨[], by simp [h10], hno⟩
  obtain ⟨_, t, o', o2, k1, _, k3, k4⟩ := C62_compress_loses_data_false flate hfl s hcl hnc r hr _ hsave h10 rest
  refine ⟨t, o', o2, ?_, k3, k4⟩
  rw [← k1]
  have : im'.obj.compress flate = StObj.compress flate { im'.obj with dict := SMap.erase kFilter im'.obj.dict } := by
    simp only [StObj.compress, StObj.copyTo, h10, if_true, StObj.moveFrom, erase_absent hno]
    generalize StObj.output flate StObj.temp [FilterName.FlateDecode] false [im'.obj.buf] = q
    obtain ⟨a, b⟩ := q
    cases a with
    | error e => rfl
    | ok u => by_cases hb : b.locked = true <;> simp [hb, raise]
  rw [StObj.write, StObj.write, if_pos ⟨hnc, h10, rfl⟩, if_pos ⟨hnc, h10, rfl⟩, this]

/-! ### Colour spaces, dimensions and masks -/

/-- C174: the names of colour spaces are read as they are written. -/
theorem C174_names_partial (c : ImgColor) (hc : c ≠ .Unknown ∧ c ≠ .CalRGB) : ∃ n, colorName c = .ok n ∧ nameColor n = .ok c := by
  cases c <;> first | exact absurd rfl hc.1 | exact absurd rfl hc.2 | exact ⟨_, rfl, by decide +kernel⟩

/-- There is none for calibrated RGB. -/
theorem C174_names_false : colorName .CalRGB = raise .InvalidEnumValue ∧ nameColor (litBytes "CalRGB") = raise .CannotConvertColor := ⟨rfl, by decide +kernel⟩

/-- After an ICC profile was set an image can no longer be decoded: every colour space that is an array counts as indexed. -/
theorem C174_icc_false (flate : Filt) (hfl : RoundTrips flate.enc flate.dec) (lib : Codecs) (doc : IDoc) (im : ImObj) (r : Ref) (profile : Bytes) (n : Nat) (alt : ImgColor) (hn : n = 1 ∨ n = 3 ∨ n = 4)
    (ha : alt ≠ .Unknown ∧ alt ≠ .CalRGB) (data : Bytes) (h1 : im.has = true) (h2 : im.obj.locked = false) (h3 : im.obj.copyTo flate = .ok data)
    (cap : Option Nat) (fmt : PixFmt) (rowSize : Int) (hf : Spec.bytesPer fmt = 3) (hs : Spec.GoodStride im.width fmt rowSize) (hw : im.width < 536870912) :
    ∃ im' o, im.setICC flate r profile n alt = .ok (im', o) ∧ o.copyTo flate = .ok profile ∧ im'.decodeTo flate lib doc cap fmt rowSize = raise .UnsupportedImageFormat := by
  obtain ⟨a, ha, _⟩ := C174_names_partial alt ha
  have hsrt : SMap.Sorted (SMap.insert (litBytes "N") (Var.num n) [(litBytes "Alternate", Var.name a)]) := SMap.sorted_insert _ _ _ (by simp [SMap.Sorted])
  obtain ⟨o, o1, o2, _, _, o5, _, _⟩ := output_flate hfl (o := ⟨SMap.insert (litBytes "N") (.num n) [(litBytes "Alternate", .name a)], [], [], false⟩) rfl hsrt profile
  have hnp : SMap.find? kDecodeParms o.dict = none := by
    rw [o5 _ (by decide +kernel)]
    simp only [SMap.find_insert, SMap.find?]
    rw [if_neg (by decide +kernel), if_neg (by decide +kernel)]
  refine ⟨{ im with obj := { im.obj with dict := SMap.insert kSpace (.arr [.name (litBytes "ICCBased"), .ref r.num r.gen]) im.obj.dict } }, o, ?_, o2 o.dict hnp, ?_⟩
  · rw [ImObj.setICC, if_neg (by omega), ha]
    simp only [Except.bind, o1]
  · have hc : StObj.copyTo flate { im.obj with dict := SMap.insert kSpace (.arr [.name (litBytes "ICCBased"), .ref r.num r.gen]) im.obj.dict } = .ok data := by
      rw [← h3]; exact copyTo_congr flate im.obj _ rfl rfl (SMap.find_insert_ne _ _ (by decide +kernel))
    have hcs : ImObj.colorSpace doc { im with obj := { im.obj with dict := SMap.insert kSpace (.arr [.name (litBytes "ICCBased"), .ref r.num r.gen]) im.obj.dict } } = .ok .Indexed := by
      simp [ImObj.colorSpace, IDoc.find, SMap.find_insert_self, Loaded.var]
    have hl := initLine_ok (by intro e; rw [e] at hf; simp [Spec.bytesPer] at hf) hw hs
    have hdec : (ImgPic.mk im.width im.height (.plain .other data) none).decode cap fmt rowSize = raise .UnsupportedImageFormat := by
      simp only [ImgPic.decode, hl, Except.bind]
    exact (decodeTo_opaque (im := { im with obj := { im.obj with dict := SMap.insert kSpace (.arr [.name (litBytes "ICCBased"), .ref r.num r.gen]) im.obj.dict } }) h1 h2 hc hcs hf hl).trans hdec

/-- C174: dimensions up to 2³² - 1 are read as they are, also by reference. -/
theorem C174_dims_partial (doc : IDoc) (d : FDict) (k : Bytes) (n : Nat) (hn : n < 4294967296) (h : doc.find d k = some (.plain (.num n))) : doc.dim d k = .ok n := by
  simp only [IDoc.dim, h, Option.map_some, Loaded.var]
  congr 1; omega

/-- Negative ones are not refused, and are huge afterwards. -/
theorem C174_dims_false (doc : IDoc) (d : FDict) (k : Bytes) (n : Int) (hn : n < 0 ∧ -4294967296 ≤ n) (h : doc.find d k = some (.plain (.num n))) : doc.dim d k = .ok (4294967296 + n).toNat := by
  simp only [IDoc.dim, h, Option.map_some, Loaded.var]
  congr 2; omega

/-- Colours that are transparent by a colour key mask (ISO 32000-1, 8.9.6.4). -/
def Spec.Keyed (mask : List Var) (r g b : Int) : Prop :=
  ∃ r1 r2 g1 g2 b1 b2 : Int, mask = [.num r1, .num r2, .num g1, .num g2, .num b1, .num b2] ∧ (r1 ≤ r ∧ r ≤ r2) ∧ (g1 ≤ g ∧ g ≤ g2) ∧ (b1 ≤ b ∧ b ≤ b2)

/-- Values a program may give without going over the range of the integers. -/
def Spec.KeyFits (v t : Int) : Prop := -4611686018427387904 ≤ v ∧ v < 4611686018427387904 ∧ -4611686018427387904 < t ∧ t < 4611686018427387904

theorem setKey_ok {im : ImObj} {r g b t : Int} (hr : Spec.KeyFits r t) (hg : Spec.KeyFits g t) (hb : Spec.KeyFits b t) :
    im.setKey r g b t = .ok { im with obj := { im.obj with dict := SMap.insert kMask (.arr [.num (r - t), .num (r + t), .num (g - t), .num (g + t), .num (b - t), .num (b + t)]) im.obj.dict } } := by
  unfold Spec.KeyFits at hr hg hb
  have ha : ∀ v, (-4611686018427387904 ≤ v ∧ v < 4611686018427387904) → add64 v (-t) = .ok (v - t) ∧ add64 v t = .ok (v + t) := by
    intro v hv
    rw [add64, if_pos (by omega), add64, if_pos (by omega)]
    exact ⟨rfl, rfl⟩
  simp only [ImObj.setKey, (ha r ⟨hr.1, hr.2.1⟩).1, (ha r ⟨hr.1, hr.2.1⟩).2, (ha g ⟨hg.1, hg.2.1⟩).1, (ha g ⟨hg.1, hg.2.1⟩).2, (ha b ⟨hb.1, hb.2.1⟩).1, (ha b ⟨hb.1, hb.2.1⟩).2, Except.bind, Except.map]

/-- C174: the colours that become transparent are those that differ from the colour given by at most the threshold, in each component. -/
theorem C174_key_partial (im : ImObj) (r g b t : Int) (hr : Spec.KeyFits r t) (hg : Spec.KeyFits g t) (hb : Spec.KeyFits b t) :
    ∃ im' mask, im.setKey r g b t = .ok im' ∧ SMap.find? kMask im'.obj.dict = some (.arr mask)
      ∧ ∀ x y z : Int, Spec.Keyed mask x y z ↔ ((x - r).natAbs ≤ t ∧ (y - g).natAbs ≤ t ∧ (z - b).natAbs ≤ t) := by
  refine ⟨_, _, setKey_ok hr hg hb, SMap.find_insert_self _ _ _, ?_⟩
  intro x y z
  constructor
  · rintro ⟨r1, r2, g1, g2, b1, b2, e, h1, h2, h3⟩
    simp only [List.cons.injEq, Var.num.injEq, and_true] at e
    omega
  · intro h
    exact ⟨_, _, _, _, _, _, rfl, by omega, by omega, by omega⟩

/-- The bounds are not kept within those of the components, which the format asks for: below zero for a colour that is darker than the threshold. -/
theorem C174_key_range_false (im : ImObj) (r g b t : Int) (hr : Spec.KeyFits r t) (hg : Spec.KeyFits g t) (hb : Spec.KeyFits b t) (h : r < t) :
    ∃ im' l n, im.setKey r g b t = .ok im' ∧ SMap.find? kMask im'.obj.dict = some (.arr (.num n :: l)) ∧ n < 0 :=
  ⟨_, _, _, setKey_ok hr hg hb, SMap.find_insert_self _ _ _, by omega⟩

example : Spec.KeyFits 5 10 ∧ (5 : Int) < 10 := by unfold Spec.KeyFits; decide
example : IDoc.dim exImgDoc [(kWidth, .num (-1))] kWidth = .ok 4294967295 := by decide +kernel

end Pdfmm
