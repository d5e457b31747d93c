import Verif.Lemmas.Msgpack
import Mathlib.Tactic.SplitIfs
set_option autoImplicit false
namespace Verif.Msgpack
open Verif Spec

/-! Two's complement: signed and unsigned numbers of one width. -/

theorem i8_toInt (a : Int8) : a.toInt = if a.toUInt8.toNat < 2^7 then (a.toUInt8.toNat : Int)
    else (a.toUInt8.toNat : Int) - 2^8 := by
  show a.toUInt8.toBitVec.toInt = _
  rw [BitVec.toInt_eq_toNat_cond]
  simp only [UInt8.toNat_toBitVec]
  split <;> split <;> omega

theorem i16_toInt (a : Int16) : a.toInt = if a.toUInt16.toNat < 2^15 then (a.toUInt16.toNat : Int)
    else (a.toUInt16.toNat : Int) - 2^16 := by
  show a.toUInt16.toBitVec.toInt = _
  rw [BitVec.toInt_eq_toNat_cond]
  simp only [UInt16.toNat_toBitVec]
  split <;> split <;> omega

theorem i32_toInt (a : Int32) : a.toInt = if a.toUInt32.toNat < 2^31 then (a.toUInt32.toNat : Int)
    else (a.toUInt32.toNat : Int) - 2^32 := by
  show a.toUInt32.toBitVec.toInt = _
  rw [BitVec.toInt_eq_toNat_cond]
  simp only [UInt32.toNat_toBitVec]
  split <;> split <;> omega

theorem i64_toInt (a : Int64) : a.toInt = if a.toUInt64.toNat < 2^63 then (a.toUInt64.toNat : Int)
    else (a.toUInt64.toNat : Int) - 2^64 := by
  show a.toUInt64.toBitVec.toInt = _
  rw [BitVec.toInt_eq_toNat_cond]
  simp only [UInt64.toNat_toBitVec]
  split <;> split <;> omega

theorem u8_of_i8 (a : Int8) : a.toUInt8.toNat = (a.toInt % 2^8).toNat := by
  have h := i8_toInt a
  have := a.toUInt8.toNat_lt
  split at h <;> omega

theorem u16_of_i16 (a : Int16) : a.toUInt16.toNat = (a.toInt % 2^16).toNat := by
  have h := i16_toInt a
  have := a.toUInt16.toNat_lt
  split at h <;> omega

theorem u32_of_i32 (a : Int32) : a.toUInt32.toNat = (a.toInt % 2^32).toNat := by
  have h := i32_toInt a
  have := a.toUInt32.toNat_lt
  split at h <;> omega

theorem u64_of_i64 (a : Int64) : a.toUInt64.toNat = (a.toInt % 2^64).toNat := by
  have h := i64_toInt a
  have := a.toUInt64.toNat_lt
  split at h <;> omega

theorem bmod_of_range {x : Int} {n : Nat} (h0 : 0 < n) (h1 : -(n : Int) ≤ 2 * x)
    (h2 : 2 * x < n) : x.bmod n = x := by
  apply Int.bmod_eq_of_le_mul_two <;> omega

theorem i8_of_i64 {v : Int64} (h1 : -2^7 ≤ v.toInt) (h2 : v.toInt < 2^7) :
    v.toInt8.toInt = v.toInt := by
  rw [Int64.toInt_toInt8, bmod_of_range] <;> omega

theorem i16_of_i64 {v : Int64} (h1 : -2^15 ≤ v.toInt) (h2 : v.toInt < 2^15) :
    v.toInt16.toInt = v.toInt := by
  rw [Int64.toInt_toInt16, bmod_of_range] <;> omega

theorem i32_of_i64 {v : Int64} (h1 : -2^31 ≤ v.toInt) (h2 : v.toInt < 2^31) :
    v.toInt32.toInt = v.toInt := by
  rw [Int64.toInt_toInt32, bmod_of_range] <;> omega

/-- `uint8(v)` of a signed number. -/
theorem u8_of_i64 (v : Int64) : v.toUInt64.toUInt8.toNat = (v.toInt % 2^8).toNat := by
  rw [UInt64.toNat_toUInt8, u64_of_i64]
  omega

theorem u8_eq_ofNat {a : UInt8} {n : Nat} (h : a.toNat = n) : a = UInt8.ofNat n := by
  rw [← h]; simp

theorem u16_eq_ofNat {a : UInt16} {n : Nat} (h : a.toNat = n) : a = UInt16.ofNat n := by
  rw [← h]; simp

/-- Facts about all bytes, checked one by one. -/
theorem forall_u8 {P : UInt8 → Prop} (h : ∀ n : Fin 256, P (UInt8.ofNat n.val)) (b : UInt8) : P b := by
  have := h ⟨b.toNat, b.toNat_lt⟩
  simpa using this

theorem or_negfix (b : UInt8) : 0xe0 ≤ b → b ||| fmtNegativeFixInt = b := by
  revert b; apply forall_u8; decide +kernel

theorem or_fixstr (b : UInt8) : b < 32 → (b ||| fmtFixString).toNat = 0xa0 + b.toNat := by
  revert b; apply forall_u8; decide +kernel

theorem or_fixarr (b : UInt8) : b < 16 → (b ||| fmtFixArray).toNat = 0x90 + b.toNat := by
  revert b; apply forall_u8; decide +kernel

theorem or_fixmap (b : UInt8) : b < 16 → (b ||| fmtFixMap).toNat = 0x80 + b.toNat := by
  revert b; apply forall_u8; decide +kernel

theorem isFixedInt_iff (b : UInt8) : isFixedInt b = decide (b.toNat < 128) := by
  revert b; apply forall_u8; decide +kernel

theorem isNegativeFixedInt_iff (b : UInt8) : isNegativeFixedInt b = decide (224 ≤ b.toNat) := by
  revert b; apply forall_u8; decide +kernel

theorem isFixedString_iff (b : UInt8) :
    isFixedString b = decide (0xa0 ≤ b.toNat ∧ b.toNat < 0xc0) := by
  revert b; apply forall_u8; decide +kernel

theorem isFixedArray_iff (b : UInt8) :
    isFixedArray b = decide (0x90 ≤ b.toNat ∧ b.toNat < 0xa0) := by
  revert b; apply forall_u8; decide +kernel

theorem isFixedMap_iff (b : UInt8) :
    isFixedMap b = decide (0x80 ≤ b.toNat ∧ b.toNat < 0x90) := by
  revert b; apply forall_u8; decide +kernel

theorem be8_eq (v : UInt8) : [v] = bigEndian 1 v.toNat := by
  simp [bigEndian]

/-! ## Shortest forms -/

theorem sint_shortest {v : Int} (h1 : -2^63 ≤ v) (h2 : v < 2^63) :
    Shortest (SignedForm v) (sint v) := by
  constructor
  · unfold sint
    split_ifs with a b c d e
    · exact .positiveFix v a.1 a.2
    · exact .negativeFix v b.1 (by omega)
    · exact .int8 v c.1 c.2
    · exact .int16 v d.1 d.2
    · exact .int32 v e.1 e.2
    · exact .int64 v h1 h2
  · intro w' h
    unfold sint
    cases h <;> split_ifs <;> simp <;> omega

theorem uint_shortest {v : Nat} (h2 : v < 2^64) :
    Shortest (UnsignedForm v) (uint v) := by
  constructor
  · unfold uint
    split_ifs with a b c d
    · exact .positiveFix v a
    · exact .uint8 v b
    · exact .uint16 v c
    · exact .uint32 v d
    · exact .uint64 v h2
  · intro w' h
    unfold uint
    cases h <;> split_ifs <;> simp

end Verif.Msgpack
