import Verif.Model.Uuid
import Verif.Props.Uuid
/-
Property C84: times in UUIDs.
-/
set_option autoImplicit false
namespace Verif.Props
open Verif

/-- The layout of a time-based UUID, RFC 4122 section 4.1.2: a 60-bit time (low 32 bits, middle 16 bits, high
12 bits with the version above them), a 14-bit clock sequence with the variant bits above it, six bytes of node. -/
structure V1 where
  time : Nat
  version : Nat
  seq : Nat
  variant : Nat
  node : Bytes

def V1.ok (v : V1) : Prop :=
  v.time < 2 ^ 60 ∧ v.version < 16 ∧ v.seq < 2 ^ 14 ∧ v.variant < 4 ∧ v.node.length = 6

/-- `n` big-endian bytes of `x` -/
def beBytes : Nat → Nat → Bytes
  | 0, _ => []
  | n + 1, x => beBytes n (x / 256) ++ [UInt8.ofNat x]

def V1.layout (v : V1) : Bytes :=
  beBytes 4 (v.time % 2 ^ 32) ++ beBytes 2 (v.time / 2 ^ 32 % 2 ^ 16) ++
  beBytes 2 (v.time / 2 ^ 48 + v.version * 2 ^ 12) ++ beBytes 2 (v.seq + v.variant * 2 ^ 14) ++ v.node

theorem u64_or_shift (a b : UInt64) (k : UInt64) (hk : k.toNat < 64) (ha : a.toNat < 2 ^ k.toNat)
    (hb : b.toNat * 2 ^ k.toNat < 2 ^ 64) : (a ||| b <<< k).toNat = a.toNat + b.toNat * 2 ^ k.toNat := by
  rw [UInt64.toNat_or, UInt64.toNat_shiftLeft, Nat.mod_eq_of_lt hk, Nat.shiftLeft_eq, Nat.mod_eq_of_lt hb,
    Nat.or_comm, Nat.mul_comm, ← Nat.two_pow_add_eq_or_of_lt ha]
  omega

theorem be16_get (x : Nat) (rest : Bytes) (h : x < 2 ^ 16) :
    getU16 (beBytes 2 x ++ rest) = .ok (UInt16.ofNat x) := by
  simp only [beBytes, List.nil_append, List.cons_append, getU16, beNat]
  congr 2
  simp [beNat]
  omega

theorem be32_get (x : Nat) (rest : Bytes) (h : x < 2 ^ 32) :
    getU32 (beBytes 4 x ++ rest) = .ok (UInt32.ofNat x) := by
  simp only [beBytes, List.nil_append, List.cons_append, getU32, beNat]
  congr 2
  simp [beNat]
  omega

theorem beBytes_length : ∀ n x : Nat, (beBytes n x).length = n
  | 0, _ => rfl
  | n + 1, x => by simp [beBytes, beBytes_length n]

/-- C84: the time and the clock sequence of a time-based UUID are the ones it was made of. -/
theorem C84_fields (v : V1) (h : v.ok) :
    Uuid.timeOf v.layout = .ok (UInt64.ofNat v.time) ∧ Uuid.seqOf v.layout = .ok (UInt16.ofNat v.seq) := by
  obtain ⟨t, ver, sq, var, node⟩ := v
  obtain ⟨h1, h2, h3, h4, h5⟩ := h
  dsimp only at h1 h2 h3 h4 h5
  have l4 := fun x => beBytes_length 4 x
  have l2 := fun x => beBytes_length 2 x
  have d0 : (V1.layout ⟨t, ver, sq, var, node⟩).take 4 = beBytes 4 (t % 2 ^ 32) ++ [] := by
    simp [V1.layout, List.take_append, l4]
  have d1 : ((V1.layout ⟨t, ver, sq, var, node⟩).take 6).drop 4 = beBytes 2 (t / 2 ^ 32 % 2 ^ 16) ++ [] := by
    simp [V1.layout, List.take_append, List.drop_append, l4, l2]
  have d2 : ((V1.layout ⟨t, ver, sq, var, node⟩).take 8).drop 6 = beBytes 2 (t / 2 ^ 48 + ver * 2 ^ 12) ++ [] := by
    simp [V1.layout, List.take_append, List.drop_append, l4, l2]
  have d3 : ((V1.layout ⟨t, ver, sq, var, node⟩).take 10).drop 8 = beBytes 2 (sq + var * 2 ^ 14) ++ [] := by
    simp [V1.layout, List.take_append, List.drop_append, l4, l2]
    rw [List.drop_eq_nil_of_le (by simp [l4]), List.drop_eq_nil_of_le (by simp [l2])]
    rfl
  constructor
  · rw [Uuid.timeOf, d0, d1, d2, be32_get _ _ (by omega), be16_get _ _ (by omega), be16_get _ _ (by omega)]
    simp only [Go.bind_ok]
    congr 1
    apply UInt64.toNat_inj.mp
    have e0 : (UInt32.ofNat (t % 2 ^ 32)).toUInt64.toNat = t % 2 ^ 32 := by simp
    have e1 : (UInt16.ofNat (t / 2 ^ 32 % 2 ^ 16)).toUInt64.toNat = t / 2 ^ 32 % 2 ^ 16 := by simp
    have e2 : (UInt16.ofNat (t / 2 ^ 48 + ver * 2 ^ 12) &&& 0xfff).toUInt64.toNat = t / 2 ^ 48 := by
      rw [UInt16.toNat_toUInt64, UInt16.toNat_and]
      show _ &&& (2 ^ 12 - 1) = _
      rw [Nat.and_two_pow_sub_one_eq_mod]
      simp
      omega
    have f1 : ((UInt32.ofNat (t % 2 ^ 32)).toUInt64 ||| (UInt16.ofNat (t / 2 ^ 32 % 2 ^ 16)).toUInt64 <<< 32).toNat =
        t % 2 ^ 32 + t / 2 ^ 32 % 2 ^ 16 * 2 ^ 32 := by
      rw [u64_or_shift _ _ 32 (by decide) (by rw [e0]; show _ < 2 ^ 32; omega)
        (by rw [e1]; show _ * 2 ^ 32 < _; omega), e0, e1]
      rfl
    rw [u64_or_shift _ _ 48 (by decide) (by rw [f1]; show _ < 2 ^ 48; omega)
      (by rw [e2]; show _ * 2 ^ 48 < _; omega), f1, e2]
    show _ + t / 2 ^ 48 * 2 ^ 48 = _
    rw [UInt64.toNat_ofNat_of_lt' (by show _ < 2 ^ 64; omega)]
    omega
  · rw [Uuid.seqOf, d3, be16_get _ _ (by omega)]
    simp only [Go.bind_ok]
    congr 1
    apply UInt16.toNat_inj.mp
    rw [UInt16.toNat_and]
    show _ &&& (2 ^ 14 - 1) = _
    rw [Nat.and_two_pow_sub_one_eq_mod]
    simp
    omega

/-- The DNS name space UUID of RFC 4122, appendix C: version 1, clock sequence 0x00b4. -/
example : V1.ok ⟨0x1d19dad6ba7b810, 1, 0xb4, 2, [0, 0xc0, 0x4f, 0xd4, 0x30, 0xc8]⟩ ∧
    V1.layout ⟨0x1d19dad6ba7b810, 1, 0xb4, 2, [0, 0xc0, 0x4f, 0xd4, 0x30, 0xc8]⟩ =
      [0x6b, 0xa7, 0xb8, 0x10, 0x9d, 0xad, 0x11, 0xd1, 0x80, 0xb4, 0x00, 0xc0, 0x4f, 0xd4, 0x30, 0xc8] := by
  unfold V1.ok; decide +kernel

/-- C84: the seconds and nanoseconds of a time are that time counted from 1970 instead of 1582, for every time a UUID
can carry (0 to 2^60 units of 100 ns) and beyond. -/
theorem C84_unix (t : Int64) (h : -9223372036854775808 + 122192928000000000 ≤ t.toInt) :
    (Uuid.unixTime t).1.toInt * 1000000000 + (Uuid.unixTime t).2.toInt = (t.toInt - 122192928000000000) * 100 ∧
    (Uuid.unixTime t).2.toInt.natAbs < 1000000000 ∧
    (122192928000000000 ≤ t.toInt → 0 ≤ (Uuid.unixTime t).2.toInt) := by
  have hg : Uuid.g1582ns100.toInt64 = 122192928000000000 := by decide +kernel
  have hb := t.toInt_lt
  have hs : (t - 122192928000000000).toInt = t.toInt - 122192928000000000 := by
    rw [Int64.toInt_sub]
    have : (122192928000000000 : Int64).toInt = 122192928000000000 := by decide
    rw [this]
    apply Int.bmod_eq_of_le <;> omega
  have h7 : (10000000 : Int64).toInt = 10000000 := by decide
  have h100 : (100 : Int64).toInt = 100 := by decide
  simp only [Uuid.unixTime, hg]
  generalize hx : t.toInt - 122192928000000000 = x at *
  have hq : ∃ q r : Int, x.tdiv 10000000 = q ∧ x.tmod 10000000 = r ∧ x = q * 10000000 + r ∧ -10000000 < r ∧ r < 10000000 ∧
      (0 ≤ x → 0 ≤ r) := by
    refine ⟨_, _, rfl, rfl, ?_, ?_, ?_, ?_⟩
    · have := Int.tmod_add_mul_tdiv x 10000000; omega
    · exact Int.lt_tmod_of_pos x (by decide)
    · exact Int.tmod_lt_of_pos x (by decide)
    · intro h0; exact Int.tmod_nonneg _ h0
  obtain ⟨q, r, hq1, hr1, he, hr2, hr3, hr4⟩ := hq
  have hd : ((t - 122192928000000000) / 10000000).toInt = q := by
    rw [Int64.toInt_div, hs, h7, hq1]
    apply Int.bmod_eq_of_le <;> omega
  have hm : ((t - 122192928000000000) % 10000000 * 100).toInt = r * 100 := by
    rw [Int64.toInt_mul, Int64.toInt_mod, hs, h7, h100, hr1]
    apply Int.bmod_eq_of_le <;> omega
  rw [hd, hm]
  refine ⟨by omega, by omega, fun h0 => ?_⟩
  have := hr4 (by omega)
  omega

/-- C84: what the package hands out for a clock reading of `n` nanoseconds since 1970 is, converted back, that
reading in units of 100 ns. -/
theorem C84_reading (c : Uuid.Clock) (n : Int64) (b0 b1 : UInt8) :
    (Uuid.unixTime (Uuid.getTime c n b0 b1).2.1.toInt64).1.toInt * 1000000000 +
      (Uuid.unixTime (Uuid.getTime c n b0 b1).2.1.toInt64).2.toInt = n.toInt.tdiv 100 * 100 := by
  have h1 := n.toInt_lt
  have h2 := n.le_toInt
  have hq : ∃ q r : Int, n.toInt.tdiv 100 = q ∧ n.toInt = q * 100 + r ∧ -100 < r ∧ r < 100 := by
    refine ⟨_, n.toInt.tmod 100, rfl, ?_, ?_, ?_⟩
    · have := Int.tmod_add_mul_tdiv n.toInt 100; omega
    · exact Int.lt_tmod_of_pos _ (by decide)
    · exact Int.tmod_lt_of_pos _ (by decide)
  obtain ⟨q, r, hq1, he, hr1, hr2⟩ := hq
  have h100 : (100 : Int64).toInt = 100 := by decide
  have hd : (n / 100).toInt = q := by
    rw [Int64.toInt_div, h100, hq1]
    apply Int.bmod_eq_of_le <;> omega
  have ht : (Uuid.getTime c n b0 b1).2.1.toInt64.toInt = q + 122192928000000000 := by
    rw [C73_time, UInt64.toInt64_add, Int64.toInt_add]
    have e1 : (n / 100).toUInt64.toInt64 = n / 100 := by simp
    have e2 : (122192928000000000 : UInt64).toInt64.toInt = 122192928000000000 := by decide
    rw [e1, e2, hd]
    apply Int.bmod_eq_of_le <;> omega
  have := (C84_unix _ (by rw [ht]; omega) : _ ∧ _).1
  rw [this, ht, hq1]
  omega

/-- Ten seconds and 123456789 ns. -/
example : Uuid.unixTime (Uuid.getTime .init 10123456789 0 7).2.1.toInt64 = (10, 123456700) := by decide +kernel

end Verif.Props
