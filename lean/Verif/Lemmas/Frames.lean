import Verif.Spec.Wire
namespace Verif
open Frames

theorem UInt32.ofNat_pos_iff {n : Nat} (h : n < 2^32) : (UInt32.ofNat n > 0) ↔ 0 < n := by
  rw [gt_iff_lt, UInt32.lt_iff_toNat_lt]
  simp [UInt32.toNat_ofNat']
  omega

theorem UInt16.ofNat_pos_iff {n : Nat} (h : n < 2^16) : (UInt16.ofNat n > 0) ↔ 0 < n := by
  rw [gt_iff_lt, UInt16.lt_iff_toNat_lt]
  simp [UInt16.toNat_ofNat']
  omega

theorem UInt32.toNat_ofNat_lt {n : Nat} (h : n < 2^32) : (UInt32.ofNat n).toNat = n := by
  simp [UInt32.toNat_ofNat']; omega

theorem UInt16.toNat_ofNat_lt {n : Nat} (h : n < 2^16) : (UInt16.ofNat n).toNat = n := by
  simp [UInt16.toNat_ofNat']; omega

theorem UInt8.toNat_ofNat_lt {n : Nat} (h : n < 2^8) : (UInt8.ofNat n).toNat = n := by
  simp [UInt8.toNat_ofNat']; omega

/-! ### bigEndian -/
namespace Spec

@[simp] theorem bigEndian_length (k n : Nat) : (bigEndian k n).length = k := by
  induction k with
  | zero => rfl
  | succ k ih => simp [bigEndian, ih]

theorem be32_eq (v : UInt32) : be32 v = bigEndian 4 v.toNat := by
  simp [be32, bigEndian]

theorem be16_eq (v : UInt16) : be16 v = bigEndian 2 v.toNat := by
  simp [be16, bigEndian]

theorem be64_eq (v : UInt64) : be64 v = bigEndian 8 v.toNat := by
  simp [be64, bigEndian]

theorem be24_eq (v : UInt32) : be24 v = bigEndian 3 v.toNat := by
  simp [be24, bigEndian]

theorem be24_ofNat {n : Nat} (h : n < 2^32) : be24 (UInt32.ofNat n) = bigEndian 3 n := by
  rw [be24_eq, UInt32.toNat_ofNat_lt h]

theorem be16_ofNat {n : Nat} (h : n < 2^16) : be16 (UInt16.ofNat n) = bigEndian 2 n := by
  rw [be16_eq, UInt16.toNat_ofNat_lt h]

theorem metadataBlock_length (md : Bytes) :
    (metadataBlock md).length = md.length + (if md = [] then 0 else 3) := by
  unfold metadataBlock; split <;> simp_all; omega

theorem tokenBlock_length (t : Bytes) :
    (tokenBlock t).length = t.length + (if t = [] then 0 else 2) := by
  unfold tokenBlock; split <;> simp_all; omega

end Spec
open Spec

/-! ### Cursor lemmas -/

theorem Cur.put_ok {c : Cur} {w : Bytes} (h : w.length ≤ c.rest.length) :
    c.put w = .ok ⟨c.done ++ w, c.rest.drop w.length⟩ := by simp [Cur.put, h]

theorem Cur.copySkip_ok {c : Cur} {w : Bytes} {n : Nat} (hn : n = w.length)
    (h : w.length ≤ c.rest.length) :
    (c.copy w).skip n = .ok ⟨c.done ++ w, c.rest.drop w.length⟩ := by
  subst hn
  have : w.take c.rest.length = w := List.take_of_length_le h
  have hle : w.length ≤ (w ++ c.rest.drop w.length).length := by simp
  simp [Cur.copy, Cur.skip, this]

theorem Cur.copyAll {c : Cur} {w : Bytes} (h : w.length ≤ c.rest.length) :
    (c.copy w).all = c.done ++ w ++ c.rest.drop w.length := by
  have : w.take c.rest.length = w := List.take_of_length_le h
  simp [Cur.copy, Cur.all, this]

theorem putMetadata_ok {c : Cur} {md : Bytes} (hmd : md.length < 2^32)
    (h : (metadataBlock md).length ≤ c.rest.length) :
    putMetadata c md = .ok ⟨c.done ++ metadataBlock md, c.rest.drop (metadataBlock md).length⟩ := by
  have hpos := UInt32.ofNat_pos_iff hmd
  by_cases he : md = []
  · subst he
    simp [putMetadata, metadataBlock]
  · have h0 : 0 < md.length := List.length_pos_iff.mpr he
    simp only [putMetadata, hpos, h0, if_true]
    simp only [metadataBlock, he, if_false] at h ⊢
    simp at h
    rw [Cur.put_ok (by simp; omega)]
    simp only [Go.bind_ok]
    rw [Cur.copySkip_ok (UInt32.toNat_ofNat_lt hmd) (by simp; omega)]
    simp [be24_ofNat hmd]

theorem slice_zero_append {a b : Bytes} {n : Nat} (h : n = a.length) :
    slice (a ++ b) 0 n = .ok a := by
  subst h; simp [slice]

theorem getU32_be24 {n : Nat} (h : n < 2^24) :
    getU32 (0 :: bigEndian 3 n) = .ok (UInt32.ofNat n) := by
  have : beNat (0 :: bigEndian 3 n) = n := by
    simp [bigEndian, beNat, UInt8.toNat_ofNat']; omega
  simp only [bigEndian] at this ⊢
  simp only [getU32, this]

theorem getMetadata_ok {md data : Bytes} (hmd : md.length < 2^24) (b : Bool)
    (hb : b = decide (md ≠ [])) :
    getMetadata b (metadataBlock md ++ data) = .ok (md, data) := by
  subst hb
  by_cases he : md = []
  · subst he; simp [getMetadata, metadataBlock]
  · simp only [getMetadata, metadataBlock, he, if_false, ne_eq, not_false_eq_true, decide_true,
      if_true, List.append_assoc]
    rw [slice_zero_append (by simp)]
    simp only [Go.bind_ok, getU32_be24 hmd]
    rw [sliceFrom_append' _ _ _ (by simp)]
    simp only [Go.bind_ok]
    rw [UInt32.toNat_ofNat_lt (by omega)]
    simp

/-! ### Header lemmas -/

theorem headerWord_toNat {t : UInt8} {fg : UInt16} (ht : t.toNat < 64) (hf : fg.toNat < 1024) :
    (headerWord t fg).toNat = t.toNat * 1024 + fg.toNat := by
  have h1 : t.toNat <<< 10 = t.toNat * 1024 := by simp [Nat.shiftLeft_eq]
  have h2 := Nat.shiftLeft_add_eq_or_of_lt (b := fg.toNat) (i := 10) (by simpa using hf) t.toNat
  simp [headerWord, UInt16.toNat_or, UInt16.toNat_shiftLeft]
  rw [Nat.mod_eq_of_lt (by omega), ← h2, h1]

theorem headerBytes_eq {id : UInt32} {t : UInt8} {fg : UInt16} (ht : t.toNat < 64)
    (hf : fg.toNat < 1024) : headerBytes id t fg = Spec.header id.toNat t.toNat fg.toNat := by
  simp [headerBytes, Spec.header, be32_eq, be16_eq, headerWord_toNat ht hf]

/-- The header that parsing `headerBytes` yields. -/
def mkHeader (id : UInt32) (t : UInt8) (fg : UInt16) : Header :=
  ⟨UInt8.ofNat (id.toNat / 2^24), UInt8.ofNat (id.toNat / 2^16),
   UInt8.ofNat (id.toNat / 2^8), UInt8.ofNat id.toNat,
   UInt8.ofNat ((headerWord t fg).toNat / 2^8), UInt8.ofNat (headerWord t fg).toNat⟩

theorem parseHeader_headerBytes (id : UInt32) (t : UInt8) (fg : UInt16) (r : Bytes) :
    parseHeader (headerBytes id t fg ++ r) = .ok (mkHeader id t fg) := by
  simp [headerBytes, be32, be16, parseHeader, mkHeader]

theorem mkHeader_n (id : UInt32) (t : UInt8) (fg : UInt16) :
    (mkHeader id t fg).n = headerWord t fg := by
  have h := beNat_be16 (headerWord t fg)
  simp only [be16] at h
  simp only [mkHeader, Header.n, h, UInt16.ofNat_toNat]

theorem mkHeader_streamID {id : UInt32} (t : UInt8) (fg : UInt16) (h : id.toNat < 2^31) :
    (mkHeader id t fg).streamID = id := by
  have hb := beNat_be32 id
  simp only [be32] at hb
  simp only [mkHeader, Header.streamID, hb, UInt32.ofNat_toNat]
  apply UInt32.toNat_inj.mp
  have := Nat.and_two_pow_sub_one_eq_mod id.toNat 31
  simp [UInt32.toNat_and] at *
  rw [this]; omega

theorem word_flag {n : UInt16} : (n &&& 0x03FF).toNat = n.toNat % 1024 := by
  have := Nat.and_two_pow_sub_one_eq_mod n.toNat 10
  simpa [UInt16.toNat_and] using this

theorem word_type {n : UInt16} : ((n &&& 0xFC00) >>> 10).toUInt8.toNat = n.toNat / 1024 := by
  have hn := n.toNat_lt
  have h1 := Nat.shiftRight_and_distrib (a := n.toNat) (b := 0xFC00) (i := 10)
  have h2 := Nat.and_two_pow_sub_one_eq_mod (n.toNat >>> 10) 6
  simp [UInt16.toNat_and, UInt16.toNat_shiftRight]
  rw [h1]
  simp at h2 ⊢
  rw [h2, Nat.shiftRight_eq_div_pow]
  omega

theorem mkHeader_flag (id : UInt32) {t : UInt8} {fg : UInt16} (ht : t.toNat < 64)
    (hf : fg.toNat < 1024) : (mkHeader id t fg).flag = fg := by
  apply UInt16.toNat_inj.mp
  rw [Header.flag, word_flag, mkHeader_n, headerWord_toNat ht hf]; omega

theorem mkHeader_type (id : UInt32) {t : UInt8} {fg : UInt16} (ht : t.toNat < 64)
    (hf : fg.toNat < 1024) : (mkHeader id t fg).type = t := by
  apply UInt8.toNat_inj.mp
  rw [Header.type, word_type, mkHeader_n, headerWord_toNat ht hf]; omega

theorem putHeader_ok {c : Cur} (id : UInt32) (t : UInt8) (fg : UInt16) (h : 6 ≤ c.rest.length) :
    putHeader c id t fg = .ok ⟨c.done ++ headerBytes id t fg, c.rest.drop 6⟩ := by
  rw [putHeader, Cur.put_ok (by simpa [headerBytes] using h)]
  simp [headerBytes]

end Verif
