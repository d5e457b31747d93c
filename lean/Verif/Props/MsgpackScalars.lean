import Verif.Props.MsgpackInts
/-
Properties C35, C36, C37: strings, byte arrays, booleans, nil, floats, sizes and times in
MessagePack.
-/
set_option autoImplicit false
namespace Verif.Props
open Verif Spec Msgpack

theorem and_1f (b : UInt8) : 0xa0 ≤ b.toNat ∧ b.toNat < 0xc0 →
    (b &&& 0x1f).toUInt32.toNat + 0xa0 = b.toNat := by
  revert b; apply forall_u8; decide +kernel

theorem and_0f_arr (b : UInt8) : 0x90 ≤ b.toNat ∧ b.toNat < 0xa0 →
    (b &&& 0x0f).toUInt32.toNat + 0x90 = b.toNat := by
  revert b; apply forall_u8; decide +kernel

theorem and_0f_map (b : UInt8) : 0x80 ≤ b.toNat ∧ b.toNat < 0x90 →
    (b &&& 0x0f).toUInt32.toNat + 0x80 = b.toNat := by
  revert b; apply forall_u8; decide +kernel

theorem u32_ext {a b : UInt32} (h : a.toNat = b.toNat) : a = b := UInt32.toNat_inj.mp h

theorem u8_of_u32 {n : UInt32} (h : n.toNat < 2^8) : n.toNat = n.toUInt8.toNat := by
  rw [UInt32.toNat_toUInt8]; omega

theorem u16_of_u32 {n : UInt32} (h : n.toNat < 2^16) : n.toNat = n.toUInt16.toNat := by
  rw [UInt32.toNat_toUInt16]; omega

theorem u32_of_u8_of_u32 {n : UInt32} (h : n.toNat < 2^8) : n.toUInt8.toUInt32 = n :=
  u32_ext (by rw [UInt8.toNat_toUInt32, ← u8_of_u32 h])

theorem u32_of_u16_of_u32 {n : UInt32} (h : n.toNat < 2^16) : n.toUInt16.toUInt32 = n :=
  u32_ext (by rw [UInt16.toNat_toUInt32, ← u16_of_u32 h])

theorem read8_reads {n : UInt32} (h : n.toNat < 2^8) :
    Reads (getUint8 >>= fun v => Rd.pure v.toUInt32) (bigEndian 1 n.toNat) n := by
  rw [u8_of_u32 h, ← be8_eq]
  have := Reads.map (g := UInt8.toUInt32) (getUint8_reads n.toUInt8)
  rwa [u32_of_u8_of_u32 h] at this

theorem read16_reads {n : UInt32} (h : n.toNat < 2^16) :
    Reads (getUint16 >>= fun v => Rd.pure v.toUInt32) (bigEndian 2 n.toNat) n := by
  rw [u16_of_u32 h, ← Spec.be16_eq]
  have := Reads.map (g := UInt16.toUInt32) (getUint16_reads n.toUInt16)
  rwa [u32_of_u16_of_u32 h] at this

theorem read32_reads (n : UInt32) : Reads getUint32 (bigEndian 4 n.toNat) n := by
  rw [← Spec.be32_eq]; exact getUint32_reads n

theorem write8_writes {n : UInt32} (h : n.toNat < 2^8) :
    Writes (setUint8 n.toUInt8) (bigEndian 1 n.toNat) := by
  rw [u8_of_u32 h, ← be8_eq]; exact setFixed_writes _

theorem write16_writes {n : UInt32} (h : n.toNat < 2^16) :
    Writes (setUint16 n.toUInt16) (bigEndian 2 n.toNat) := by
  rw [u16_of_u32 h, ← Spec.be16_eq]; exact setFixed_writes _

theorem write32_writes (n : UInt32) : Writes (setUint32 n) (bigEndian 4 n.toNat) := by
  rw [← Spec.be32_eq]; exact setFixed_writes _

theorem fix_writes {n : UInt32} {k : Nat} {m : UInt8}
    (hk : (n.toUInt8 ||| m).toNat = k + n.toNat) :
    Writes (setUint8 (n.toUInt8 ||| m)) [UInt8.ofNat (k + n.toNat)] := by
  rw [← u8_eq_ofNat hk]; exact setFixed_writes _

theorem u32_lt_iff {a : UInt32} {k : UInt32} : a < k ↔ a.toNat < k.toNat := UInt32.lt_iff_toNat_lt
theorem u32_le_iff {a : UInt32} {k : UInt32} : a ≤ k ↔ a.toNat ≤ k.toNat := UInt32.le_iff_toNat_le

/-! ## Headers -/

theorem writeStringLength_writes (n : UInt32) : Writes (writeStringLength n) (strHead n.toNat) := by
  unfold writeStringLength strHead
  simp only [u32_lt_iff, u32_le_iff]
  rw [show (32 : UInt32).toNat = 32 from rfl, show (255 : UInt32).toNat = 255 from rfl,
    show (65535 : UInt32).toNat = 65535 from rfl]
  by_cases h1 : n.toNat < 32
  · rw [if_pos h1, if_pos (show n.toNat ≤ 31 by omega)]
    refine fix_writes ?_
    rw [or_fixstr _ (by rw [UInt8.lt_iff_toNat_lt, ← u8_of_u32 (by omega)]; exact h1),
      ← u8_of_u32 (by omega)]
  rw [if_neg h1, if_neg (show ¬ n.toNat ≤ 31 by omega)]
  by_cases h2 : n.toNat ≤ 255
  · rw [if_pos h2, if_pos (show n.toNat < 2^8 by omega)]
    exact (setUint8_writes _).cons (write8_writes (by omega))
  rw [if_neg h2, if_neg (show ¬ n.toNat < 2^8 by omega)]
  by_cases h3 : n.toNat ≤ 65535
  · rw [if_pos h3, if_pos (show n.toNat < 2^16 by omega)]
    exact (setUint8_writes _).cons (write16_writes (by omega))
  rw [if_neg h3, if_neg (show ¬ n.toNat < 2^16 by omega)]
  exact (setUint8_writes _).cons (write32_writes n)

theorem readStringLength_reads (n : UInt32) : Reads readStringLength (strHead n.toNat) n := by
  unfold strHead
  split
  · rename_i h
    apply Reads.one
    have hn : (UInt8.ofNat (0xa0 + n.toNat)).toNat = 0xa0 + n.toNat :=
      UInt8.toNat_ofNat_lt (by omega)
    rw [if_pos (by rw [isFixedString_iff, hn]; simp; omega)]
    have := and_1f _ (show 0xa0 ≤ (UInt8.ofNat (0xa0 + n.toNat)).toNat ∧
      (UInt8.ofNat (0xa0 + n.toNat)).toNat < 0xc0 by omega)
    rw [show ((UInt8.ofNat (0xa0 + n.toNat)) &&& 0x1f).toUInt32 = n from u32_ext (by omega)]
    exact Reads.pure n
  split
  · apply Reads.cons
    rw [if_neg (by decide), if_neg (by decide), if_pos (by decide)]
    exact read8_reads (by assumption)
  split
  · apply Reads.cons
    rw [if_neg (by decide), if_neg (by decide), if_neg (by decide), if_pos (by decide)]
    exact read16_reads (by assumption)
  · apply Reads.cons
    rw [if_neg (by decide), if_neg (by decide), if_neg (by decide), if_neg (by decide),
      if_pos (by decide)]
    exact read32_reads n

theorem writeBinLength_writes (n : UInt32) : Writes (writeBinLength n) (binHead n.toNat) := by
  unfold writeBinLength binHead
  simp only [u32_le_iff]
  rw [show (255 : UInt32).toNat = 255 from rfl, show (65535 : UInt32).toNat = 65535 from rfl]
  by_cases h2 : n.toNat ≤ 255
  · rw [if_pos h2, if_pos (show n.toNat < 2^8 by omega)]
    exact (setUint8_writes _).cons (write8_writes (by omega))
  rw [if_neg h2, if_neg (show ¬ n.toNat < 2^8 by omega)]
  by_cases h3 : n.toNat ≤ 65535
  · rw [if_pos h3, if_pos (show n.toNat < 2^16 by omega)]
    exact (setUint8_writes _).cons (write16_writes (by omega))
  rw [if_neg h3, if_neg (show ¬ n.toNat < 2^16 by omega)]
  exact (setUint8_writes _).cons (write32_writes n)

theorem readBinLength_reads (n : UInt32) : Reads readBinLength (binHead n.toNat) n := by
  unfold binHead
  split
  · apply Reads.cons
    rw [if_neg (by decide), if_neg (by decide), if_pos (by decide)]
    exact read8_reads (by assumption)
  split
  · apply Reads.cons
    rw [if_neg (by decide), if_neg (by decide), if_neg (by decide), if_pos (by decide)]
    exact read16_reads (by assumption)
  · apply Reads.cons
    rw [if_neg (by decide), if_neg (by decide), if_neg (by decide), if_neg (by decide),
      if_pos (by decide)]
    exact read32_reads n

theorem writeArraySize_writes (n : UInt32) : Writes (writeArraySize n) (arrHead n.toNat) := by
  unfold writeArraySize arrHead
  simp only [u32_lt_iff, u32_le_iff]
  rw [show (16 : UInt32).toNat = 16 from rfl, show (65535 : UInt32).toNat = 65535 from rfl]
  by_cases h1 : n.toNat < 16
  · rw [if_pos h1, if_pos (show n.toNat ≤ 15 by omega)]
    refine fix_writes ?_
    rw [or_fixarr _ (by rw [UInt8.lt_iff_toNat_lt, ← u8_of_u32 (by omega)]; exact h1),
      ← u8_of_u32 (by omega)]
  rw [if_neg h1, if_neg (show ¬ n.toNat ≤ 15 by omega)]
  by_cases h3 : n.toNat ≤ 65535
  · rw [if_pos h3, if_pos (show n.toNat < 2^16 by omega)]
    exact (setUint8_writes _).cons (write16_writes (by omega))
  rw [if_neg h3, if_neg (show ¬ n.toNat < 2^16 by omega)]
  exact (setUint8_writes _).cons (write32_writes n)

theorem readArraySize_reads (n : UInt32) : Reads readArraySize (arrHead n.toNat) n := by
  unfold arrHead
  split
  · rename_i h
    apply Reads.one
    have hn : (UInt8.ofNat (0x90 + n.toNat)).toNat = 0x90 + n.toNat :=
      UInt8.toNat_ofNat_lt (by omega)
    rw [if_pos (by rw [isFixedArray_iff, hn]; simp; omega)]
    have := and_0f_arr _ (show 0x90 ≤ (UInt8.ofNat (0x90 + n.toNat)).toNat ∧
      (UInt8.ofNat (0x90 + n.toNat)).toNat < 0xa0 by omega)
    rw [show ((UInt8.ofNat (0x90 + n.toNat)) &&& 0x0f).toUInt32 = n from u32_ext (by omega)]
    exact Reads.pure n
  split
  · apply Reads.cons
    rw [if_neg (by decide), if_pos (by decide)]
    exact read16_reads (by assumption)
  · apply Reads.cons
    rw [if_neg (by decide), if_neg (by decide), if_pos (by decide)]
    exact read32_reads n

theorem writeMapSize_writes (n : UInt32) : Writes (writeMapSize n) (mapHead n.toNat) := by
  unfold writeMapSize mapHead
  simp only [u32_lt_iff, u32_le_iff]
  rw [show (16 : UInt32).toNat = 16 from rfl, show (65535 : UInt32).toNat = 65535 from rfl]
  by_cases h1 : n.toNat < 16
  · rw [if_pos h1, if_pos (show n.toNat ≤ 15 by omega)]
    refine fix_writes ?_
    rw [or_fixmap _ (by rw [UInt8.lt_iff_toNat_lt, ← u8_of_u32 (by omega)]; exact h1),
      ← u8_of_u32 (by omega)]
  rw [if_neg h1, if_neg (show ¬ n.toNat ≤ 15 by omega)]
  by_cases h3 : n.toNat ≤ 65535
  · rw [if_pos h3, if_pos (show n.toNat < 2^16 by omega)]
    exact (setUint8_writes _).cons (write16_writes (by omega))
  rw [if_neg h3, if_neg (show ¬ n.toNat < 2^16 by omega)]
  exact (setUint8_writes _).cons (write32_writes n)

theorem readMapSize_reads (n : UInt32) : Reads readMapSize (mapHead n.toNat) n := by
  unfold mapHead
  split
  · rename_i h
    apply Reads.one
    have hn : (UInt8.ofNat (0x80 + n.toNat)).toNat = 0x80 + n.toNat :=
      UInt8.toNat_ofNat_lt (by omega)
    rw [if_pos (by rw [isFixedMap_iff, hn]; simp; omega)]
    have := and_0f_map _ (show 0x80 ≤ (UInt8.ofNat (0x80 + n.toNat)).toNat ∧
      (UInt8.ofNat (0x80 + n.toNat)).toNat < 0x90 by omega)
    rw [show ((UInt8.ofNat (0x80 + n.toNat)) &&& 0x0f).toUInt32 = n from u32_ext (by omega)]
    exact Reads.pure n
  split
  · apply Reads.cons
    rw [if_neg (by decide), if_pos (by decide)]
    exact read16_reads (by assumption)
  · apply Reads.cons
    rw [if_neg (by decide), if_neg (by decide), if_pos (by decide)]
    exact read32_reads n

/-! ## C35 -/

theorem writeString_writes (s : Bytes) (h : s.length < 2^32) : Writes (writeString s) (str s) := by
  have hn : (UInt32.ofNat s.length).toNat = s.length := UInt32.toNat_ofNat_lt h
  have h1 := writeStringLength_writes (UInt32.ofNat s.length)
  rw [hn] at h1
  exact h1.seq (setBytes_writes s)

theorem readString_reads (s : Bytes) (h : s.length < 2^32) : Reads readString (str s) s := by
  have hn : (UInt32.ofNat s.length).toNat = s.length := UInt32.toNat_ofNat_lt h
  have h1 := readStringLength_reads (UInt32.ofNat s.length)
  rw [hn] at h1
  exact h1.bind (getBytes_reads _ s hn)

theorem writeByteArray_writes (s : Bytes) (h : s.length < 2^32) :
    Writes (writeByteArray s) (bin s) := by
  have hn : (UInt32.ofNat s.length).toNat = s.length := UInt32.toNat_ofNat_lt h
  unfold writeByteArray
  by_cases h0 : UInt32.ofNat s.length = 0
  · have : s = [] := by
      rw [h0] at hn
      exact List.length_eq_zero_iff.mp hn.symm
    subst this
    exact (setUint8_writes _).cons (setUint8_writes _)
  · have h1 := writeBinLength_writes (UInt32.ofNat s.length)
    rw [hn] at h1
    rw [if_neg h0]
    exact h1.seq (setBytes_writes s)

theorem readByteArray_reads (s : Bytes) (h : s.length < 2^32) : Reads readByteArray (bin s) s := by
  have hn : (UInt32.ofNat s.length).toNat = s.length := UInt32.toNat_ofNat_lt h
  have h1 := readBinLength_reads (UInt32.ofNat s.length)
  rw [hn] at h1
  exact h1.bind (getBytes_reads _ s hn)

/-- C35: a string or byte array whose encoding fits a 32-bit buffer is written in the MessagePack
form `str` or `bin` and reads back the same, consuming exactly that. -/
theorem C35_string (s : Bytes) (h : (str s).length < 2^32) :
    Writes (writeString s) (str s) ∧ Reads readString (str s) s := by
  have : s.length < 2^32 := by simp only [str, List.length_append] at h; omega
  exact ⟨writeString_writes s this, readString_reads s this⟩

theorem C35_bytes (s : Bytes) (h : (bin s).length < 2^32) :
    Writes (writeByteArray s) (bin s) ∧ Reads readByteArray (bin s) s := by
  have : s.length < 2^32 := by simp only [bin, List.length_append] at h; omega
  exact ⟨writeByteArray_writes s this, readByteArray_reads s this⟩

example : (str [104, 105]).length < 2^32 ∧ str [104, 105] = [0xa2, 104, 105] := by decide
example : (bin []).length < 2^32 ∧ bin [] = [0xc4, 0] := by decide

/-! ## C36 -/

theorem readBool_reads (b : Bool) : Reads readBool (bool b) b := by
  cases b
  · exact Reads.one (by rw [if_neg (by decide), if_pos (by decide)]; exact Reads.pure _)
  · exact Reads.one (by rw [if_pos (by decide)]; exact Reads.pure _)

theorem writeBool_writes (b : Bool) : Writes (writeBool b) (bool b) := by
  cases b
  · exact setUint8_writes _
  · exact setUint8_writes _

/-- `IsNextNil` consumes a nil marker. -/
theorem isNextNil_nil : Reads isNextNil nil true := by
  intro pre rest h
  have hl : (pre ++ 0xc0 :: rest).length < 2^32 := by
    simp only [nil, List.length_append, List.length_cons, List.length_nil] at *; omega
  have hd := discard_reads 1 [0xc0] rfl pre rest h
  show isNextNil (at_ pre (0xc0 :: rest)) = _
  unfold isNextNil
  rw [rd_bind, peek_at pre rest 0xc0 hl]
  show (match discard 1 (at_ pre (0xc0 :: rest)) with
    | .ok _ d => Out.ok true d
    | .fail _ d => .ok true d
    | .panic => .panic) = _
  rw [show (0xc0 :: rest : Bytes) = [0xc0] ++ rest from rfl, hd]
  rfl

/-- `IsNextNil` leaves anything else alone. -/
theorem isNextNil_other (pre rest : Bytes) (b : UInt8) (hb : b ≠ 0xc0)
    (h : (pre ++ b :: rest).length < 2^32) :
    isNextNil (at_ pre (b :: rest)) = .ok false (at_ pre (b :: rest)) := by
  unfold isNextNil
  rw [rd_bind, peek_at pre rest b h]
  show (if b = fmtNil then _ else Rd.pure false) (at_ pre (b :: rest)) = _
  rw [if_neg (show ¬ b = fmtNil from hb)]
  rfl

theorem writeFloat32_writes (b : UInt32) : Writes (writeFloat32 b) (float32 b.toNat) := by
  unfold float32; rw [← Spec.be32_eq]; exact (setUint8_writes _).cons (setFixed_writes _)

theorem writeFloat64_writes (b : UInt64) : Writes (writeFloat64 b) (float64 b.toNat) := by
  unfold float64; rw [← Spec.be64_eq]; exact (setUint8_writes _).cons (setFixed_writes _)

theorem readFloat32_reads (lib : Lib) (b : UInt32) :
    Reads (readFloat32 lib) (float32 b.toNat) b := by
  unfold float32; rw [← Spec.be32_eq]
  exact Reads.cons (by rw [if_pos (by decide)]; exact getUint32_reads b)

theorem readFloat64_reads (b : UInt64) : Reads readFloat64 (float64 b.toNat) b := by
  unfold float64; rw [← Spec.be64_eq]
  exact Reads.cons (by rw [if_pos (by decide)]; exact getUint64_reads b)

/-- C36: booleans, nil, floats (by their bits), array and map sizes are written in their
MessagePack forms and read back the same, consuming exactly these bytes. A nil marker is recognised,
and any other byte is left in place by `IsNextNil`. -/
theorem C36_bool (b : Bool) : Writes (writeBool b) (bool b) ∧ Reads readBool (bool b) b :=
  ⟨writeBool_writes b, readBool_reads b⟩

theorem C36_nil : Writes writeNil nil ∧ Reads isNextNil nil true ∧
    ∀ (pre rest : Bytes) (b : UInt8), b ≠ 0xc0 → (pre ++ b :: rest).length < 2^32 →
      isNextNil (at_ pre (b :: rest)) = .ok false (at_ pre (b :: rest)) :=
  ⟨setUint8_writes _, isNextNil_nil, isNextNil_other⟩

theorem C36_float32 (lib : Lib) (b : UInt32) :
    Writes (writeFloat32 b) (float32 b.toNat) ∧ Reads (readFloat32 lib) (float32 b.toNat) b :=
  ⟨writeFloat32_writes b, readFloat32_reads lib b⟩

theorem C36_float64 (b : UInt64) :
    Writes (writeFloat64 b) (float64 b.toNat) ∧ Reads readFloat64 (float64 b.toNat) b :=
  ⟨writeFloat64_writes b, readFloat64_reads b⟩

theorem C36_array (n : UInt32) :
    Writes (writeArraySize n) (arrHead n.toNat) ∧ Reads readArraySize (arrHead n.toNat) n :=
  ⟨writeArraySize_writes n, readArraySize_reads n⟩

theorem C36_map (n : UInt32) :
    Writes (writeMapSize n) (mapHead n.toNat) ∧ Reads readMapSize (mapHead n.toNat) n :=
  ⟨writeMapSize_writes n, readMapSize_reads n⟩

example : writeArraySize 16 (DR.new [9, 9, 9, 9]) = .ok ⟨[0xdc, 0, 16, 9], 3, none⟩ := by
  decide +kernel
example : readMapSize (DR.new [0x8f, 1]) = .ok 15 ⟨[0x8f, 1], 1, none⟩ := by decide +kernel

/-! ## C37 -/

theorem nat_high_zero {x : Nat} (h : x < 2^64) : x &&& 0xffffffff00000000 = 0 ↔ x < 2^32 := by
  have e : x &&& 0xffffffff00000000 = (x >>> 32) <<< 32 := by
    apply Nat.eq_of_testBit_eq
    intro i
    have hm : (0xffffffff00000000 : Nat) = (2^32 - 1) <<< 32 := by decide
    rw [hm, Nat.testBit_and, Nat.testBit_shiftLeft, Nat.testBit_shiftLeft, Nat.testBit_shiftRight,
      Nat.testBit_two_pow_sub_one]
    by_cases h1 : 32 ≤ i
    · by_cases h2 : i - 32 < 32
      · simp [h1, h2]
      · have : x < 2^i := Nat.lt_of_lt_of_le h (Nat.pow_le_pow_right (by omega) (by omega))
        have hz := Nat.testBit_lt_two_pow this
        rw [show 32 + (i - 32) = i from by omega, hz]
        simp
    · simp [h1]
  rw [e, Nat.shiftLeft_eq, Nat.shiftRight_eq_div_pow]
  constructor
  · intro h; omega
  · intro h; omega

theorem u64_high_zero (x : UInt64) : x &&& 0xffffffff00000000 = 0 ↔ x.toNat < 2^32 := by
  rw [← nat_high_zero x.toNat_lt, ← UInt64.toNat_inj, UInt64.toNat_and]
  rfl

theorem u64_shr34 (x : UInt64) : (x >>> 34).toNat = x.toNat / 2^34 := by
  rw [UInt64.toNat_shiftRight, show (34 : UInt64).toNat % 64 = 34 from rfl,
    Nat.shiftRight_eq_div_pow]

theorem u64_shl34_or (n : UInt32) (s : UInt64) (hn : n.toNat < 2^30) (hs : s.toNat < 2^34) :
    (n.toUInt64 <<< 34 ||| s).toNat = n.toNat * 2^34 + s.toNat := by
  rw [UInt64.toNat_or, UInt64.toNat_shiftLeft, show (34 : UInt64).toNat % 64 = 34 from rfl,
    UInt32.toNat_toUInt64]
  have : n.toNat <<< 34 < 2^64 := by rw [Nat.shiftLeft_eq]; omega
  rw [Nat.mod_eq_of_lt this, ← Nat.shiftLeft_add_eq_or_of_lt hs, Nat.shiftLeft_eq]

theorem u64_and34 (x : UInt64) : (x &&& 0x00000003ffffffff).toNat = x.toNat % 2^34 := by
  rw [UInt64.toNat_and]
  show x.toNat &&& (2^34 - 1) = _
  rw [Nat.and_two_pow_sub_one_eq_mod]

/-- The three bodies of a timestamp. -/
theorem encodeTime_cases (t : Time) (hn : t.nsec.toNat < 10^9) :
    (0 ≤ t.sec.toInt ∧ t.sec.toInt < 2^32 ∧ t.nsec.toNat = 0 ∧
      encodeTime t = bigEndian 4 t.sec.toInt.toNat) ∨
    (¬ (0 ≤ t.sec.toInt ∧ t.sec.toInt < 2^32 ∧ t.nsec.toNat = 0) ∧
      0 ≤ t.sec.toInt ∧ t.sec.toInt < 2^34 ∧
      encodeTime t = bigEndian 8 (t.nsec.toNat * 2^34 + t.sec.toInt.toNat)) ∨
    (¬ (0 ≤ t.sec.toInt ∧ t.sec.toInt < 2^34) ∧
      encodeTime t = bigEndian 4 t.nsec.toNat ++ bigEndian 8 (t.sec.toInt % 2^64).toNat) := by
  have hs := u64_of_i64 t.sec
  have h1 := t.sec.le_toInt
  have h2 := t.sec.toInt_lt
  unfold encodeTime
  by_cases h34 : 0 ≤ t.sec.toInt ∧ t.sec.toInt < 2^34
  · have hsz : t.sec.toUInt64 >>> 34 = 0 := u64_ext (by
      rw [u64_shr34]; show _ = 0; omega)
    have hd := u64_shl34_or t.nsec t.sec.toUInt64 (by omega) (by omega)
    rw [if_pos hsz]
    by_cases h32 : t.sec.toInt < 2^32 ∧ t.nsec.toNat = 0
    · left
      refine ⟨h34.1, h32.1, h32.2, ?_⟩
      rw [if_pos ((u64_high_zero _).mpr (by omega)), Spec.be32_eq, UInt64.toNat_toUInt32, hd]
      congr 1
      omega
    · right; left
      refine ⟨by omega, h34.1, h34.2, ?_⟩
      rw [if_neg (fun hc => h32 (by have := (u64_high_zero _).mp hc; omega)), Spec.be64_eq, hd]
      congr 1
      omega
  · right; right
    refine ⟨h34, ?_⟩
    have hsz : ¬ t.sec.toUInt64 >>> 34 = 0 := by
      intro hc
      have hc := congrArg UInt64.toNat hc
      rw [u64_shr34] at hc
      replace hc : t.sec.toUInt64.toNat / 2^34 = 0 := hc
      omega
    rw [if_neg hsz, Spec.be32_eq, Spec.be64_eq, hs]

theorem timestamp_eq (t : Time) (hn : t.nsec.toNat < 10^9) :
    ∃ h, timestamp t.sec.toInt t.nsec.toNat = h ++ 0xff :: encodeTime t ∧
      Writes (encodeExtLen (encodeTime t).length) h ∧
      ((h = [0xd6] ∧ (encodeTime t).length = 4) ∨ (h = [0xd7] ∧ (encodeTime t).length = 8) ∨
        (h = [0xc7, 12] ∧ (encodeTime t).length = 12)) := by
  rcases encodeTime_cases t hn with ⟨a, b, c, e⟩ | ⟨n, a, b, e⟩ | ⟨n, e⟩
  · refine ⟨[0xd6], ?_, ?_, .inl ⟨rfl, by rw [e, Spec.bigEndian_length]⟩⟩
    · rw [timestamp, if_pos ⟨a, b, c⟩, e]; rfl
    · rw [e, Spec.bigEndian_length]
      exact setUint8_writes _
  · refine ⟨[0xd7], ?_, ?_, .inr (.inl ⟨rfl, by rw [e, Spec.bigEndian_length]⟩)⟩
    · rw [timestamp, if_neg n, if_pos ⟨a, b⟩, e]; rfl
    · rw [e, Spec.bigEndian_length]
      exact setUint8_writes _
  · refine ⟨[0xc7, 12], ?_, ?_, .inr (.inr ⟨rfl, by
      rw [e, List.length_append, Spec.bigEndian_length, Spec.bigEndian_length]⟩)⟩
    · rw [timestamp, if_neg (by omega), if_neg n, e]; rfl
    · rw [e, List.length_append, Spec.bigEndian_length, Spec.bigEndian_length]
      exact setBytes_writes _

theorem timeOfBytes_encodeTime (t : Time) (hn : t.nsec.toNat < 10^9) :
    timeOfBytes (encodeTime t) = .ok t := by
  have hs := u64_of_i64 t.sec
  have h1 := t.sec.le_toInt
  have h2 := t.sec.toInt_lt
  have hsec : ∀ x : UInt64, x.toNat = (t.sec.toInt % 2^64).toNat → x.toInt64 = t.sec := by
    intro x hx
    rw [show x = t.sec.toUInt64 from u64_ext (by rw [hx, hs])]
    rfl
  unfold timeOfBytes
  rcases encodeTime_cases t hn with ⟨a, b, c, e⟩ | ⟨n, a, b, e⟩ | ⟨n, e⟩
  · rw [e, if_pos (by rw [Spec.bigEndian_length])]
    have hv : (UInt32.ofNat t.sec.toInt.toNat).toNat = t.sec.toInt.toNat :=
      UInt32.toNat_ofNat_lt (by omega)
    rw [← hv, ← Spec.be32_eq, ← List.append_nil (be32 _), getU32_be32]
    show Go.ok _ = _
    congr 1
    unfold unixTime
    congr 1
    · apply hsec
      rw [UInt64.toNat_add, UInt32.toNat_toUInt64, hv]
      show (t.sec.toInt.toNat + 0) % 2^64 = _
      omega
    · apply u32_ext
      rw [c]; rfl
  · rw [e, if_neg (by rw [Spec.bigEndian_length]; decide), if_pos (by rw [Spec.bigEndian_length])]
    have hv : (UInt64.ofNat (t.nsec.toNat * 2^34 + t.sec.toInt.toNat)).toNat =
        t.nsec.toNat * 2^34 + t.sec.toInt.toNat :=
      UInt64.toNat_ofNat_of_lt' (by show _ < 2^64; omega)
    rw [← hv, ← Spec.be64_eq, ← List.append_nil (be64 _), getU64_be64]
    show Go.ok _ = _
    congr 1
    unfold unixTime
    have hq : (UInt64.ofNat (t.nsec.toNat * 2^34 + t.sec.toInt.toNat) >>> 34).toNat = t.nsec.toNat := by
      rw [u64_shr34, hv]; omega
    congr 1
    · apply hsec
      rw [UInt64.toNat_add, UInt64.toNat_div, hq, u64_and34, hv]
      show (_ + t.nsec.toNat / 1000000000) % 2^64 = _
      omega
    · apply u32_ext
      rw [UInt64.toNat_toUInt32, UInt64.toNat_mod, hq]
      show t.nsec.toNat % 1000000000 % 2^32 = _
      omega
  · have hl : (bigEndian 4 t.nsec.toNat ++ bigEndian 8 (t.sec.toInt % 2^64).toNat).length = 12 := by
      rw [List.length_append, Spec.bigEndian_length, Spec.bigEndian_length]
    rw [e, if_neg (by rw [hl]; decide), if_neg (by rw [hl]; decide), if_pos hl,
      ← Spec.be32_eq, ← hs, ← Spec.be64_eq, getU32_be32]
    show (sliceFrom (be32 t.nsec ++ be64 t.sec.toUInt64) 4 >>= fun b => getU64 b >>= fun s =>
      Go.ok (unixTime s t.nsec.toUInt64)) = _
    rw [sliceFrom_append' (be32 t.nsec) _ 4 rfl]
    show (getU64 (be64 t.sec.toUInt64) >>= fun s => Go.ok (unixTime s t.nsec.toUInt64)) = _
    rw [← List.append_nil (be64 _), getU64_be64]
    show Go.ok _ = _
    congr 1
    unfold unixTime
    congr 1
    · apply hsec
      rw [UInt64.toNat_add, UInt64.toNat_div, UInt32.toNat_toUInt64]
      show (_ + t.nsec.toNat / 1000000000) % 2^64 = _
      omega
    · apply u32_ext
      rw [UInt64.toNat_toUInt32, UInt64.toNat_mod, UInt32.toNat_toUInt64]
      show t.nsec.toNat % 1000000000 % 2^32 = _
      omega

theorem writeTime_writes (t : Time) (hn : t.nsec.toNat < 10^9) :
    Writes (writeTime t) (timestamp t.sec.toInt t.nsec.toNat) := by
  obtain ⟨h, e, hw, _⟩ := timestamp_eq t hn
  rw [e]
  exact hw.seq ((setUint8_writes 0xff).cons (setBytes_writes _))

theorem decodeTime_reads (t : Time) (hn : t.nsec.toNat < 10^9) (n : UInt32)
    (hl : n.toNat = (encodeTime t).length) : Reads (decodeTime n) (encodeTime t) t := by
  intro pre rest h
  unfold decodeTime
  rw [rd_bind, getBytes_reads n _ hl pre rest h]
  simp only [rd_of, timeOfBytes_encodeTime t hn]

theorem ext_tail_reads (t : Time) (hn : t.nsec.toNat < 10^9) (n : UInt32)
    (hl : n.toNat = (encodeTime t).length) :
    Reads (getUint8 >>= fun id => if id.toInt8 ≠ -1 ∧ id.toInt8 ≠ 13 then
      Rd.fail "msgpack: invalid time ext id" else decodeTime n) (0xff :: encodeTime t) t := by
  apply Reads.cons
  rw [if_neg (by decide)]
  exact decodeTime_reads t hn n hl

theorem readTime_reads (lib : Lib) (t : Time) (hn : t.nsec.toNat < 10^9) :
    Reads (readTime lib) (timestamp t.sec.toInt t.nsec.toNat) t := by
  obtain ⟨h, e, _, hh⟩ := timestamp_eq t hn
  rw [e]
  have key : ∀ (p : UInt8) (w : Bytes) (n : UInt32), isString p = false →
      Reads (parseExtLen p) w n → n.toNat = (encodeTime t).length →
      Reads (readTime lib) ((p :: w) ++ 0xff :: encodeTime t) t := by
    intro p w n hp hr hl pre rest hlen
    have h2 := ((discardQuiet_reads 1 [p] rfl).bind (f := fun _ => parseExtLen p >>= fun n =>
      getUint8 >>= fun id => if id.toInt8 ≠ -1 ∧ id.toInt8 ≠ 13 then
        Rd.fail "msgpack: invalid time ext id" else decodeTime n)
      (hr.bind (ext_tail_reads t hn n hl))) pre rest (by simpa using hlen)
    unfold readTime
    rw [rd_bind]
    rw [show (p :: w ++ 0xff :: encodeTime t) ++ rest = p :: (w ++ 0xff :: encodeTime t ++ rest) from
      by simp]
    rw [peek_at pre _ p (by simpa using hlen)]
    dsimp only
    rw [if_neg (by rw [hp]; decide)]
    have hx : pre ++ (p :: w ++ 0xff :: encodeTime t) = pre ++ ([p] ++ (w ++ 0xff :: encodeTime t)) := by
      simp
    rw [hx]
    exact h2
  rcases hh with ⟨rfl, hl⟩ | ⟨rfl, hl⟩ | ⟨rfl, hl⟩
  · exact key 0xd6 [] 4 (by decide) (Reads.pure 4) (by rw [hl]; rfl)
  · exact key 0xd7 [] 8 (by decide) (Reads.pure 8) (by rw [hl]; rfl)
  · refine key 0xc7 [12] 12 (by decide) ?_ (by rw [hl]; rfl)
    exact Reads.map (g := UInt8.toUInt32) (readUint8_reads 12 [12] (.positiveFix 12 (by decide)))

/-- C37: every instant is written as the MessagePack timestamp extension in the form prescribed for
its magnitude, and reads back the same. -/
theorem C37_time (lib : Lib) (t : Time) (hn : t.nsec.toNat < 10^9) :
    Writes (writeTime t) (timestamp t.sec.toInt t.nsec.toNat) ∧
    Reads (readTime lib) (timestamp t.sec.toInt t.nsec.toNat) t :=
  ⟨writeTime_writes t hn, readTime_reads lib t hn⟩

example : (⟨-62135596800, 1⟩ : Time).nsec.toNat < 10^9 ∧
    (timestamp (-62135596800) 1).length = 15 := by decide +kernel
example : timestamp 1 5 = [0xd7, 0xff, 0, 0, 0, 20, 0, 0, 0, 1] := by decide +kernel

end Verif.Props
