import Verif.Lemmas.Ints
/-
Properties C33, C34, C39: integers in MessagePack.
-/
set_option autoImplicit false
namespace Verif.Props
open Verif Spec Msgpack

theorem setUint8_writes (b : UInt8) : Writes (setUint8 b) [b] := setFixed_writes _

theorem i64_lit_le (v : Int64) (k : Int64) : v ≤ k ↔ v.toInt ≤ k.toInt := Int64.le_iff_toInt_le

/-- The Encoder writes the shortest signed form. -/
theorem writeInt64_writes (v : Int64) : Writes (writeInt64 v) (sint v.toInt) := by
  have hlo := v.le_toInt
  have hhi := v.toInt_lt
  have c0 : (0 : Int64).toInt = 0 := rfl
  have c1 : (128 : Int64).toInt = 128 := rfl
  have c2 : (-32 : Int64).toInt = -32 := rfl
  have c3 : (127 : Int64).toInt = 127 := rfl
  have c4 : (-128 : Int64).toInt = -128 := rfl
  have c5 : (32767 : Int64).toInt = 32767 := rfl
  have c6 : (-32768 : Int64).toInt = -32768 := rfl
  have c7 : (2147483647 : Int64).toInt = 2147483647 := rfl
  have c8 : (-2147483648 : Int64).toInt = -2147483648 := rfl
  unfold writeInt64 sint
  simp only [ge_iff_le, Int64.le_iff_toInt_le, Int64.lt_iff_toInt_lt, c0, c1, c2, c3, c4, c5, c6,
    c7, c8]
  by_cases h1 : 0 ≤ v.toInt ∧ v.toInt < 128
  · rw [if_pos h1, if_pos (show 0 ≤ v.toInt ∧ v.toInt ≤ 127 by omega)]
    have : v.toUInt64.toUInt8 = UInt8.ofNat v.toInt.toNat :=
      u8_eq_ofNat (by rw [u8_of_i64]; omega)
    rw [← this]
    exact setUint8_writes _
  rw [if_neg h1, if_neg (show ¬ (0 ≤ v.toInt ∧ v.toInt ≤ 127) by omega)]
  by_cases h2 : v.toInt < 0 ∧ -32 ≤ v.toInt
  · rw [if_pos h2, if_pos (show -32 ≤ v.toInt ∧ v.toInt < 0 by omega)]
    have hn : v.toUInt64.toUInt8.toNat = (256 + v.toInt).toNat := by rw [u8_of_i64]; omega
    rw [or_negfix _ (by rw [UInt8.le_iff_toNat_le, hn]; show 224 ≤ _; omega), ← u8_eq_ofNat hn]
    exact setUint8_writes _
  rw [if_neg h2, if_neg (show ¬ (-32 ≤ v.toInt ∧ v.toInt < 0) by omega)]
  by_cases h3 : v.toInt ≤ 127 ∧ -128 ≤ v.toInt
  · rw [if_pos h3, if_pos (show -2 ^ 7 ≤ v.toInt ∧ v.toInt < 2 ^ 7 by omega), ← i8_of_i64 (by omega) (by omega), ← u8_of_i8, ← be8_eq]
    exact (setUint8_writes _).cons (setFixed_writes _)
  rw [if_neg h3, if_neg (show ¬ (-2 ^ 7 ≤ v.toInt ∧ v.toInt < 2 ^ 7) by omega)]
  by_cases h4 : v.toInt ≤ 32767 ∧ -32768 ≤ v.toInt
  · rw [if_pos h4, if_pos (show -2 ^ 15 ≤ v.toInt ∧ v.toInt < 2 ^ 15 by omega), ← i16_of_i64 (by omega) (by omega), ← u16_of_i16,
      ← Spec.be16_eq]
    exact (setUint8_writes _).cons (setFixed_writes _)
  rw [if_neg h4, if_neg (show ¬ (-2 ^ 15 ≤ v.toInt ∧ v.toInt < 2 ^ 15) by omega)]
  by_cases h5 : v.toInt ≤ 2147483647 ∧ -2147483648 ≤ v.toInt
  · rw [if_pos h5, if_pos (show -2 ^ 31 ≤ v.toInt ∧ v.toInt < 2 ^ 31 by omega), ← i32_of_i64 (by omega) (by omega), ← u32_of_i32,
      ← Spec.be32_eq]
    exact (setUint8_writes _).cons (setFixed_writes _)
  rw [if_neg h5, if_neg (show ¬ (-2 ^ 31 ≤ v.toInt ∧ v.toInt < 2 ^ 31) by omega), ← u64_of_i64, ← Spec.be64_eq]
  exact (setUint8_writes _).cons (setFixed_writes _)

theorem getInt8_reads (v : Int8) : Reads getInt8 [v.toUInt8] v :=
  Reads.map (g := UInt8.toInt8) (getUint8_reads v.toUInt8)

theorem getInt16_reads (v : Int16) : Reads getInt16 (be16 v.toUInt16) v :=
  Reads.map (g := UInt16.toInt16) (getUint16_reads v.toUInt16)

theorem getInt32_reads (v : Int32) : Reads getInt32 (be32 v.toUInt32) v :=
  Reads.map (g := UInt32.toInt32) (getUint32_reads v.toUInt32)

theorem getInt64_reads (v : Int64) : Reads getInt64 (be64 v.toUInt64) v :=
  Reads.map (g := UInt64.toInt64) (getUint64_reads v.toUInt64)

/-- The Decoder reads every signed form, shortest or not. -/
theorem readInt64_reads (v : Int64) (w : Bytes) (h : SignedForm v.toInt w) :
    Reads readInt64 w v := by
  generalize hx : v.toInt = x at h
  cases h with
  | positiveFix a b =>
    apply Reads.one
    have hn : (UInt8.ofNat x.toNat).toNat = x.toNat := UInt8.toNat_ofNat_lt (by omega)
    rw [if_pos (by rw [isFixedInt_iff, hn]; simp; omega)]
    have : (UInt8.ofNat x.toNat).toInt8.toInt64 = v := by
      rw [← Int64.toInt_inj, Int8.toInt_toInt64, i8_toInt]
      simp only [UInt8.toUInt8_toInt8]
      rw [hn, if_pos (by omega), hx]
      omega
    rw [this]
    exact Reads.pure v
  | negativeFix a b =>
    apply Reads.one
    have hn : (UInt8.ofNat (256 + x).toNat).toNat = (256 + x).toNat :=
      UInt8.toNat_ofNat_lt (by omega)
    rw [if_pos (by rw [isFixedInt_iff, isNegativeFixedInt_iff, hn]; simp; omega)]
    have : (UInt8.ofNat (256 + x).toNat).toInt8.toInt64 = v := by
      rw [← Int64.toInt_inj, Int8.toInt_toInt64, i8_toInt]
      simp only [UInt8.toUInt8_toInt8]
      rw [hn, if_neg (by omega), hx]
      omega
    rw [this]
    exact Reads.pure v
  | int8 a b =>
    apply Reads.cons
    rw [if_neg (by decide), if_pos (by decide), ← hx, ← i8_of_i64 (by omega) (by omega),
      ← u8_of_i8, ← be8_eq]
    have := Reads.map (g := Int8.toInt64) (getInt8_reads v.toInt8)
    rwa [show v.toInt8.toInt64 = v from by
      rw [← Int64.toInt_inj, Int8.toInt_toInt64, i8_of_i64 (by omega) (by omega)]] at this
  | int16 a b =>
    apply Reads.cons
    rw [if_neg (by decide), if_neg (by decide), if_pos (by decide), ← hx,
      ← i16_of_i64 (by omega) (by omega), ← u16_of_i16, ← Spec.be16_eq]
    have := Reads.map (g := Int16.toInt64) (getInt16_reads v.toInt16)
    rwa [show v.toInt16.toInt64 = v from by
      rw [← Int64.toInt_inj, Int16.toInt_toInt64, i16_of_i64 (by omega) (by omega)]] at this
  | int32 a b =>
    apply Reads.cons
    rw [if_neg (by decide), if_neg (by decide), if_neg (by decide), if_pos (by decide), ← hx,
      ← i32_of_i64 (by omega) (by omega), ← u32_of_i32, ← Spec.be32_eq]
    have := Reads.map (g := Int32.toInt64) (getInt32_reads v.toInt32)
    rwa [show v.toInt32.toInt64 = v from by
      rw [← Int64.toInt_inj, Int32.toInt_toInt64, i32_of_i64 (by omega) (by omega)]] at this
  | int64 a b =>
    apply Reads.cons
    rw [if_neg (by decide), if_neg (by decide), if_neg (by decide), if_neg (by decide),
      if_pos (by decide), ← hx, ← u64_of_i64, ← Spec.be64_eq]
    exact getInt64_reads v

theorem sint_form (v : Int64) : SignedForm v.toInt (sint v.toInt) :=
  (sint_shortest v.le_toInt v.toInt_lt).1

theorem Reads.check {α β : Type} {x : Rd α} {c : α → Prop} [DecidablePred c] {g : α → β} {w : Bytes}
    {a : α} {e : α → String} (hx : Reads x w a) (h : c a) :
    Reads (x >>= fun v => if c v then Rd.pure (g v) else Rd.fail (e v)) w (g a) := by
  have := hx.bind (f := fun v => if c v then Rd.pure (g v) else Rd.fail (e v)) (b := g a) (w := [])
    (by rw [if_pos h]; exact Reads.pure _)
  rwa [List.append_nil] at this

theorem Refuses.check {α β : Type} {x : Rd α} {c : α → Prop} [DecidablePred c] {g : α → β}
    {w : Bytes} {a : α} {e : α → String} (hx : Reads x w a) (h : ¬ c a) :
    Refuses (x >>= fun v => if c v then Rd.pure (g v) else Rd.fail (e v)) w := by
  have := Refuses.bind (f := fun v => if c v then Rd.pure (g v) else Rd.fail (e v)) (w := []) hx
    (by rw [if_neg h]; exact Refuses.fail _)
  rwa [List.append_nil] at this

theorem readInt8_reads (v : Int8) (w : Bytes) (h : SignedForm v.toInt w) : Reads readInt8 w v := by
  have h1 := v.le_toInt
  have h2 := v.toInt_lt
  have := Reads.check (c := fun v : Int64 => v ≤ 127 ∧ v ≥ -128) (g := Int64.toInt8)
    (e := fun v => overflow v.toInt 8)
    (readInt64_reads v.toInt64 w (by rwa [Int8.toInt_toInt64]))
    (by
      simp only [ge_iff_le, Int64.le_iff_toInt_le, Int8.toInt_toInt64]
      show v.toInt ≤ 127 ∧ -128 ≤ v.toInt
      omega)
  rwa [show v.toInt64.toInt8 = v from by
    rw [← Int8.toInt_inj, i8_of_i64, Int8.toInt_toInt64] <;> rw [Int8.toInt_toInt64] <;> omega] at this

theorem readInt16_reads (v : Int16) (w : Bytes) (h : SignedForm v.toInt w) : Reads readInt16 w v := by
  have h1 := v.le_toInt
  have h2 := v.toInt_lt
  have := Reads.check (c := fun v : Int64 => v ≤ 32767 ∧ v ≥ -32768) (g := Int64.toInt16)
    (e := fun v => overflow v.toInt 16)
    (readInt64_reads v.toInt64 w (by rwa [Int16.toInt_toInt64]))
    (by
      simp only [ge_iff_le, Int64.le_iff_toInt_le, Int16.toInt_toInt64]
      show v.toInt ≤ 32767 ∧ -32768 ≤ v.toInt
      omega)
  rwa [show v.toInt64.toInt16 = v from by
    rw [← Int16.toInt_inj, i16_of_i64, Int16.toInt_toInt64] <;> rw [Int16.toInt_toInt64] <;> omega] at this

theorem readInt32_reads (v : Int32) (w : Bytes) (h : SignedForm v.toInt w) : Reads readInt32 w v := by
  have h1 := v.le_toInt
  have h2 := v.toInt_lt
  have := Reads.check (c := fun v : Int64 => v ≤ 2147483647 ∧ v ≥ -2147483648) (g := Int64.toInt32)
    (e := fun v => overflow v.toInt 32)
    (readInt64_reads v.toInt64 w (by rwa [Int32.toInt_toInt64]))
    (by
      simp only [ge_iff_le, Int64.le_iff_toInt_le, Int32.toInt_toInt64]
      show v.toInt ≤ 2147483647 ∧ -2147483648 ≤ v.toInt
      omega)
  rwa [show v.toInt64.toInt32 = v from by
    rw [← Int32.toInt_inj, i32_of_i64, Int32.toInt_toInt64] <;> rw [Int32.toInt_toInt64] <;> omega] at this

/-! ## C33 -/

/-- C33: what the Encoder writes for a signed number is a shortest signed form of it, and the reader
of the same width reads it back and consumes exactly these bytes. -/
theorem C33_int64 (v : Int64) : ∃ w, Shortest (SignedForm v.toInt) w ∧
    Writes (writeInt64 v) w ∧ Reads readInt64 w v :=
  ⟨sint v.toInt, sint_shortest v.le_toInt v.toInt_lt, writeInt64_writes v,
    readInt64_reads v _ (sint_form v)⟩

theorem C33_int32 (v : Int32) : ∃ w, Shortest (SignedForm v.toInt) w ∧
    Writes (writeInt32 v) w ∧ Reads readInt32 w v := by
  have h := sint_shortest (v := v.toInt) (by have := v.le_toInt; omega) (by have := v.toInt_lt; omega)
  refine ⟨sint v.toInt, h, ?_, readInt32_reads v _ h.1⟩
  have := writeInt64_writes v.toInt64
  rwa [Int32.toInt_toInt64] at this

theorem C33_int16 (v : Int16) : ∃ w, Shortest (SignedForm v.toInt) w ∧
    Writes (writeInt16 v) w ∧ Reads readInt16 w v := by
  have h := sint_shortest (v := v.toInt) (by have := v.le_toInt; omega) (by have := v.toInt_lt; omega)
  refine ⟨sint v.toInt, h, ?_, readInt16_reads v _ h.1⟩
  have := writeInt64_writes v.toInt64
  rwa [Int16.toInt_toInt64] at this

theorem C33_int8 (v : Int8) : ∃ w, Shortest (SignedForm v.toInt) w ∧
    Writes (writeInt8 v) w ∧ Reads readInt8 w v := by
  have h := sint_shortest (v := v.toInt) (by have := v.le_toInt; omega) (by have := v.toInt_lt; omega)
  refine ⟨sint v.toInt, h, ?_, readInt8_reads v _ h.1⟩
  have := writeInt64_writes v.toInt64
  rwa [Int8.toInt_toInt64] at this

example : SignedForm (-33) [0xd0, 0xdf] := .int8 (-33) (by decide) (by decide)
example : writeInt64 (-33) (DR.new [9, 9, 9]) = .ok ⟨[0xd0, 0xdf, 9], 2, none⟩ := by decide +kernel
example : readInt16 (DR.new [0xd1, 0x80, 0x00, 7]) = .ok (-32768) ⟨[0xd1, 0x80, 0x00, 7], 3, none⟩ := by
  decide +kernel

/-! ## C34 -/

theorem writeUint64_writes (v : UInt64) : Writes (writeUint64 v) (uint v.toNat) := by
  have hhi := v.toNat_lt
  unfold writeUint64 uint
  simp only [UInt64.lt_iff_toNat_lt, UInt64.le_iff_toNat_le]
  have c1 : (128 : UInt64).toNat = 128 := rfl
  have c2 : (255 : UInt64).toNat = 255 := rfl
  have c3 : (65535 : UInt64).toNat = 65535 := rfl
  have c4 : (4294967295 : UInt64).toNat = 4294967295 := rfl
  rw [c1, c2, c3, c4]
  by_cases h1 : v.toNat < 128
  · rw [if_pos h1, if_pos (show v.toNat ≤ 127 by omega)]
    rw [← u8_eq_ofNat (a := v.toUInt8) (by rw [UInt64.toNat_toUInt8]; omega)]
    exact setUint8_writes _
  rw [if_neg h1, if_neg (show ¬ (v.toNat ≤ 127) by omega)]
  by_cases h2 : v.toNat ≤ 255
  · rw [if_pos h2, if_pos (show v.toNat < 2 ^ 8 by omega),
      show v.toNat = v.toUInt8.toNat from by rw [UInt64.toNat_toUInt8]; omega, ← be8_eq]
    exact (setUint8_writes _).cons (setFixed_writes _)
  rw [if_neg h2, if_neg (show ¬ (v.toNat < 2 ^ 8) by omega)]
  by_cases h3 : v.toNat ≤ 65535
  · rw [if_pos h3, if_pos (show v.toNat < 2 ^ 16 by omega),
      show v.toNat = v.toUInt16.toNat from by rw [UInt64.toNat_toUInt16]; omega, ← Spec.be16_eq]
    exact (setUint8_writes _).cons (setFixed_writes _)
  rw [if_neg h3, if_neg (show ¬ (v.toNat < 2 ^ 16) by omega)]
  by_cases h4 : v.toNat ≤ 4294967295
  · rw [if_pos h4, if_pos (show v.toNat < 2 ^ 32 by omega),
      show v.toNat = v.toUInt32.toNat from by rw [UInt64.toNat_toUInt32]; omega, ← Spec.be32_eq]
    exact (setUint8_writes _).cons (setFixed_writes _)
  rw [if_neg h4, if_neg (show ¬ (v.toNat < 2 ^ 32) by omega), ← Spec.be64_eq]
  exact (setUint8_writes _).cons (setFixed_writes _)

theorem u64_ext {a b : UInt64} (h : a.toNat = b.toNat) : a = b := UInt64.toNat_inj.mp h

/-- The Decoder reads every unsigned form, shortest or not. -/
theorem readUint64_reads (v : UInt64) (w : Bytes) (h : UnsignedForm v.toNat w) :
    Reads readUint64 w v := by
  generalize hx : v.toNat = x at h
  cases h with
  | positiveFix a =>
    apply Reads.one
    have hn : (UInt8.ofNat x).toNat = x := UInt8.toNat_ofNat_lt (by omega)
    rw [if_pos (by rw [isFixedInt_iff, hn]; simp; omega)]
    rw [show (UInt8.ofNat x).toUInt64 = v from u64_ext (by rw [UInt8.toNat_toUInt64, hn, hx])]
    exact Reads.pure v
  | uint8 a =>
    apply Reads.cons
    rw [if_neg (by decide), if_neg (by decide), if_pos (by decide), ← hx,
      show v.toNat = v.toUInt8.toNat from by rw [UInt64.toNat_toUInt8]; omega, ← be8_eq]
    have := Reads.map (g := UInt8.toUInt64) (getUint8_reads v.toUInt8)
    rwa [show v.toUInt8.toUInt64 = v from u64_ext (by
      rw [UInt8.toNat_toUInt64, UInt64.toNat_toUInt8]; omega)] at this
  | uint16 a =>
    apply Reads.cons
    rw [if_neg (by decide), if_neg (by decide), if_neg (by decide), if_pos (by decide), ← hx,
      show v.toNat = v.toUInt16.toNat from by rw [UInt64.toNat_toUInt16]; omega, ← Spec.be16_eq]
    have := Reads.map (g := UInt16.toUInt64) (getUint16_reads v.toUInt16)
    rwa [show v.toUInt16.toUInt64 = v from u64_ext (by
      rw [UInt16.toNat_toUInt64, UInt64.toNat_toUInt16]; omega)] at this
  | uint32 a =>
    apply Reads.cons
    rw [if_neg (by decide), if_neg (by decide), if_neg (by decide), if_neg (by decide),
      if_pos (by decide), ← hx,
      show v.toNat = v.toUInt32.toNat from by rw [UInt64.toNat_toUInt32]; omega, ← Spec.be32_eq]
    have := Reads.map (g := UInt32.toUInt64) (getUint32_reads v.toUInt32)
    rwa [show v.toUInt32.toUInt64 = v from u64_ext (by
      rw [UInt32.toNat_toUInt64, UInt64.toNat_toUInt32]; omega)] at this
  | uint64 a =>
    apply Reads.cons
    rw [if_neg (by decide), if_neg (by decide), if_neg (by decide), if_neg (by decide),
      if_neg (by decide), if_pos (by decide), ← hx, ← Spec.be64_eq]
    exact getUint64_reads v

theorem uint_form (v : UInt64) : UnsignedForm v.toNat (uint v.toNat) := (uint_shortest v.toNat_lt).1

theorem readUint8_reads (v : UInt8) (w : Bytes) (h : UnsignedForm v.toNat w) :
    Reads readUint8 w v := by
  have h2 := v.toNat_lt
  have := Reads.check (c := fun v : UInt64 => v ≤ 255) (g := UInt64.toUInt8)
    (e := fun v => overflow v.toNat 8)
    (readUint64_reads v.toUInt64 w (by rwa [UInt8.toNat_toUInt64]))
    (by simp only [UInt64.le_iff_toNat_le, UInt8.toNat_toUInt64]; show v.toNat ≤ 255; omega)
  rwa [show v.toUInt64.toUInt8 = v from by
    rw [← UInt8.toNat_inj, UInt64.toNat_toUInt8, UInt8.toNat_toUInt64]; omega] at this

theorem readUint16_reads (v : UInt16) (w : Bytes) (h : UnsignedForm v.toNat w) :
    Reads readUint16 w v := by
  have h2 := v.toNat_lt
  have := Reads.check (c := fun v : UInt64 => v ≤ 65535) (g := UInt64.toUInt16)
    (e := fun v => overflow v.toNat 16)
    (readUint64_reads v.toUInt64 w (by rwa [UInt16.toNat_toUInt64]))
    (by simp only [UInt64.le_iff_toNat_le, UInt16.toNat_toUInt64]; show v.toNat ≤ 65535; omega)
  rwa [show v.toUInt64.toUInt16 = v from by
    rw [← UInt16.toNat_inj, UInt64.toNat_toUInt16, UInt16.toNat_toUInt64]; omega] at this

theorem readUint32_reads (v : UInt32) (w : Bytes) (h : UnsignedForm v.toNat w) :
    Reads readUint32 w v := by
  have h2 := v.toNat_lt
  have := Reads.check (c := fun v : UInt64 => v ≤ 4294967295) (g := UInt64.toUInt32)
    (e := fun v => overflow v.toNat 32)
    (readUint64_reads v.toUInt64 w (by rwa [UInt32.toNat_toUInt64]))
    (by simp only [UInt64.le_iff_toNat_le, UInt32.toNat_toUInt64]; show v.toNat ≤ 4294967295; omega)
  rwa [show v.toUInt64.toUInt32 = v from by
    rw [← UInt32.toNat_inj, UInt64.toNat_toUInt32, UInt32.toNat_toUInt64]; omega] at this

/-- C34: as C33 for unsigned numbers. -/
theorem C34_uint64 (v : UInt64) : ∃ w, Shortest (UnsignedForm v.toNat) w ∧
    Writes (writeUint64 v) w ∧ Reads readUint64 w v :=
  ⟨uint v.toNat, uint_shortest v.toNat_lt, writeUint64_writes v, readUint64_reads v _ (uint_form v)⟩

theorem C34_uint32 (v : UInt32) : ∃ w, Shortest (UnsignedForm v.toNat) w ∧
    Writes (writeUint32 v) w ∧ Reads readUint32 w v := by
  have h := uint_shortest (v := v.toNat) (by have := v.toNat_lt; omega)
  refine ⟨uint v.toNat, h, ?_, readUint32_reads v _ h.1⟩
  have := writeUint64_writes v.toUInt64
  rwa [UInt32.toNat_toUInt64] at this

theorem C34_uint16 (v : UInt16) : ∃ w, Shortest (UnsignedForm v.toNat) w ∧
    Writes (writeUint16 v) w ∧ Reads readUint16 w v := by
  have h := uint_shortest (v := v.toNat) (by have := v.toNat_lt; omega)
  refine ⟨uint v.toNat, h, ?_, readUint16_reads v _ h.1⟩
  have := writeUint64_writes v.toUInt64
  rwa [UInt16.toNat_toUInt64] at this

theorem C34_uint8 (v : UInt8) : ∃ w, Shortest (UnsignedForm v.toNat) w ∧
    Writes (writeUint8 v) w ∧ Reads readUint8 w v := by
  have h := uint_shortest (v := v.toNat) (by have := v.toNat_lt; omega)
  refine ⟨uint v.toNat, h, ?_, readUint8_reads v _ h.1⟩
  have := writeUint64_writes v.toUInt64
  rwa [UInt8.toNat_toUInt64] at this

example : UnsignedForm 256 [0xcd, 0x01, 0x00] := .uint16 256 (by decide)
example : readUint8 (DR.new [0xcc, 0x80, 7]) = .ok 0x80 ⟨[0xcc, 0x80, 7], 2, none⟩ := by
  decide +kernel

/-! ## C39 -/

/-- A read of `w`, which encodes the number `v`, with a reader whose results denote numbers by
`val` and whose type has the range `lo..hi`: it returns `v`, or refuses because `v` is out of
range. -/
def Faithful {α : Type} (r : Rd α) (val : α → Int) (lo hi : Int) (v : Int) (w : Bytes) : Prop :=
  (lo ≤ v ∧ v ≤ hi → ∃ a, val a = v ∧ Reads r w a) ∧ (¬ (lo ≤ v ∧ v ≤ hi) → Refuses r w)

/-- C39, signed readers on signed forms. -/
theorem signed_faithful (v : Int64) (w : Bytes) (h : SignedForm v.toInt w) :
    Faithful readInt64 Int64.toInt (-2^63) (2^63 - 1) v.toInt w ∧
    Faithful readInt32 Int32.toInt (-2^31) (2^31 - 1) v.toInt w ∧
    Faithful readInt16 Int16.toInt (-2^15) (2^15 - 1) v.toInt w ∧
    Faithful readInt8 Int8.toInt (-2^7) (2^7 - 1) v.toInt w := by
  have hlo := v.le_toInt
  have hhi := v.toInt_lt
  refine ⟨⟨fun _ => ⟨v, rfl, readInt64_reads v w h⟩, fun hn => absurd (by omega) hn⟩, ?_, ?_, ?_⟩
  · refine ⟨fun hr => ⟨v.toInt32, i32_of_i64 (by omega) (by omega),
      readInt32_reads _ w (by rwa [i32_of_i64 (by omega) (by omega)])⟩, fun hn => ?_⟩
    exact Refuses.check (c := fun v : Int64 => v ≤ 2147483647 ∧ v ≥ -2147483648)
      (g := Int64.toInt32) (e := fun v => overflow v.toInt 32) (readInt64_reads v w h) (by
        simp only [ge_iff_le, Int64.le_iff_toInt_le]
        show ¬ (v.toInt ≤ 2147483647 ∧ -2147483648 ≤ v.toInt)
        omega)
  · refine ⟨fun hr => ⟨v.toInt16, i16_of_i64 (by omega) (by omega),
      readInt16_reads _ w (by rwa [i16_of_i64 (by omega) (by omega)])⟩, fun hn => ?_⟩
    exact Refuses.check (c := fun v : Int64 => v ≤ 32767 ∧ v ≥ -32768)
      (g := Int64.toInt16) (e := fun v => overflow v.toInt 16) (readInt64_reads v w h) (by
        simp only [ge_iff_le, Int64.le_iff_toInt_le]
        show ¬ (v.toInt ≤ 32767 ∧ -32768 ≤ v.toInt)
        omega)
  · refine ⟨fun hr => ⟨v.toInt8, i8_of_i64 (by omega) (by omega),
      readInt8_reads _ w (by rwa [i8_of_i64 (by omega) (by omega)])⟩, fun hn => ?_⟩
    exact Refuses.check (c := fun v : Int64 => v ≤ 127 ∧ v ≥ -128)
      (g := Int64.toInt8) (e := fun v => overflow v.toInt 8) (readInt64_reads v w h) (by
        simp only [ge_iff_le, Int64.le_iff_toInt_le]
        show ¬ (v.toInt ≤ 127 ∧ -128 ≤ v.toInt)
        omega)

/-- The narrow unsigned readers, given what the 64-bit one returns. -/
theorem narrow_unsigned (v : UInt64) (w : Bytes) (h : Reads readUint64 w v) :
    Faithful readUint32 (fun a => a.toNat) 0 (2^32 - 1) v.toNat w ∧
    Faithful readUint16 (fun a => a.toNat) 0 (2^16 - 1) v.toNat w ∧
    Faithful readUint8 (fun a => a.toNat) 0 (2^8 - 1) v.toNat w := by
  refine ⟨⟨fun hr => ⟨v.toUInt32, ?_, ?_⟩, fun hn => ?_⟩, ⟨fun hr => ⟨v.toUInt16, ?_, ?_⟩, fun hn => ?_⟩,
    ⟨fun hr => ⟨v.toUInt8, ?_, ?_⟩, fun hn => ?_⟩⟩
  · simp only [UInt64.toNat_toUInt32]; omega
  · exact Reads.check (c := fun v : UInt64 => v ≤ 4294967295) (g := UInt64.toUInt32)
      (e := fun v => overflow v.toNat 32) h
      (by simp only [UInt64.le_iff_toNat_le]; show v.toNat ≤ 4294967295; omega)
  · exact Refuses.check (c := fun v : UInt64 => v ≤ 4294967295) (g := UInt64.toUInt32)
      (e := fun v => overflow v.toNat 32) h
      (by simp only [UInt64.le_iff_toNat_le]; show ¬ v.toNat ≤ 4294967295; omega)
  · simp only [UInt64.toNat_toUInt16]; omega
  · exact Reads.check (c := fun v : UInt64 => v ≤ 65535) (g := UInt64.toUInt16)
      (e := fun v => overflow v.toNat 16) h
      (by simp only [UInt64.le_iff_toNat_le]; show v.toNat ≤ 65535; omega)
  · exact Refuses.check (c := fun v : UInt64 => v ≤ 65535) (g := UInt64.toUInt16)
      (e := fun v => overflow v.toNat 16) h
      (by simp only [UInt64.le_iff_toNat_le]; show ¬ v.toNat ≤ 65535; omega)
  · simp only [UInt64.toNat_toUInt8]; omega
  · exact Reads.check (c := fun v : UInt64 => v ≤ 255) (g := UInt64.toUInt8)
      (e := fun v => overflow v.toNat 8) h
      (by simp only [UInt64.le_iff_toNat_le]; show v.toNat ≤ 255; omega)
  · exact Refuses.check (c := fun v : UInt64 => v ≤ 255) (g := UInt64.toUInt8)
      (e := fun v => overflow v.toNat 8) h
      (by simp only [UInt64.le_iff_toNat_le]; show ¬ v.toNat ≤ 255; omega)

/-- C39, unsigned readers on unsigned forms. -/
theorem unsigned_faithful (v : UInt64) (w : Bytes) (h : UnsignedForm v.toNat w) :
    Faithful readUint64 (fun a => a.toNat) 0 (2^64 - 1) v.toNat w ∧
    Faithful readUint32 (fun a => a.toNat) 0 (2^32 - 1) v.toNat w ∧
    Faithful readUint16 (fun a => a.toNat) 0 (2^16 - 1) v.toNat w ∧
    Faithful readUint8 (fun a => a.toNat) 0 (2^8 - 1) v.toNat w := by
  have := v.toNat_lt
  exact ⟨⟨fun _ => ⟨v, rfl, readUint64_reads v w h⟩, fun hn => absurd (by omega) hn⟩,
    narrow_unsigned v w (readUint64_reads v w h)⟩

/-- `ReadUint64` on signed forms. -/
theorem readUint64_signed (v : Int64) (w : Bytes) (h : SignedForm v.toInt w) :
    (0 ≤ v.toInt → Reads readUint64 w v.toUInt64) ∧ (v.toInt < 0 → Refuses readUint64 w) := by
  generalize hx : v.toInt = x at h
  have hu := u64_of_i64 v
  have hlo := v.le_toInt
  have hhi := v.toInt_lt
  cases h with
  | positiveFix a b =>
    refine ⟨fun _ => ?_, fun h => by omega⟩
    have hu' : v.toUInt64.toNat = x.toNat := by omega
    have hf : UnsignedForm v.toUInt64.toNat [UInt8.ofNat x.toNat] := by
      rw [hu']; exact .positiveFix _ (by omega)
    exact readUint64_reads _ _ hf
  | negativeFix a b =>
    refine ⟨fun h => by omega, fun _ => ?_⟩
    have hn : (UInt8.ofNat (256 + x).toNat).toNat = (256 + x).toNat :=
      UInt8.toNat_ofNat_lt (by omega)
    refine Refuses.bind (w := []) (getUint8_reads _) ?_
    rw [if_neg (by rw [isFixedInt_iff, hn]; simp; omega),
      if_pos (by rw [isNegativeFixedInt_iff, hn]; simp; omega), if_pos]
    · exact Refuses.fail _
    · rw [Int8.lt_iff_toInt_lt, i8_toInt]
      simp only [UInt8.toUInt8_toInt8]
      rw [hn, if_neg (by omega)]
      show _ < (0 : Int)
      omega
  | int8 a b =>
    rw [← hx, ← i8_of_i64 (by omega) (by omega), ← u8_of_i8, ← be8_eq]
    have key := getInt8_reads v.toInt8
    have hv := i8_of_i64 (v := v) (by omega) (by omega)
    have hc : v.toInt8 < 0 ↔ v.toInt < 0 := by rw [Int8.lt_iff_toInt_lt, hv]; rfl
    have hz : v.toInt8.toInt64 = v := by rw [← Int64.toInt_inj, Int8.toInt_toInt64, hv]
    constructor
    · intro h
      apply Reads.cons
      rw [if_neg (by decide), if_neg (by decide), if_neg (by decide), if_neg (by decide),
        if_neg (by decide), if_neg (by decide), if_pos (by decide)]
      have := Reads.bind (f := fun v : Int8 => if v < 0 then Rd.fail "bad prefix for uint"
        else Rd.pure v.toInt64.toUInt64) (w := []) (b := v.toUInt64) key
        (by rw [if_neg (by rw [hc]; omega), hz]; exact Reads.pure _)
      rwa [List.append_nil] at this
    · intro h
      refine Refuses.bind (getUint8_reads _) ?_
      rw [if_neg (by decide), if_neg (by decide), if_neg (by decide), if_neg (by decide),
        if_neg (by decide), if_neg (by decide), if_pos (by decide)]
      have := Refuses.bind (f := fun v : Int8 => if v < 0 then Rd.fail "bad prefix for uint"
        else Rd.pure v.toInt64.toUInt64) (w := []) key
        (by rw [if_pos (by rw [hc]; omega)]; exact Refuses.fail _)
      rwa [List.append_nil] at this
  | int16 a b =>
    rw [← hx, ← i16_of_i64 (by omega) (by omega), ← u16_of_i16, ← Spec.be16_eq]
    have key := getInt16_reads v.toInt16
    have hv := i16_of_i64 (v := v) (by omega) (by omega)
    have hc : v.toInt16 < 0 ↔ v.toInt < 0 := by rw [Int16.lt_iff_toInt_lt, hv]; rfl
    have hz : v.toInt16.toInt64 = v := by rw [← Int64.toInt_inj, Int16.toInt_toInt64, hv]
    constructor
    · intro h
      apply Reads.cons
      rw [if_neg (by decide), if_neg (by decide), if_neg (by decide), if_neg (by decide),
        if_neg (by decide), if_neg (by decide), if_neg (by decide), if_pos (by decide)]
      have := Reads.bind (f := fun v : Int16 => if v < 0 then Rd.fail "bad prefix for uint"
        else Rd.pure v.toInt64.toUInt64) (w := []) (b := v.toUInt64) key
        (by rw [if_neg (by rw [hc]; omega), hz]; exact Reads.pure _)
      rwa [List.append_nil] at this
    · intro h
      refine Refuses.bind (getUint8_reads _) ?_
      rw [if_neg (by decide), if_neg (by decide), if_neg (by decide), if_neg (by decide),
        if_neg (by decide), if_neg (by decide), if_neg (by decide), if_pos (by decide)]
      have := Refuses.bind (f := fun v : Int16 => if v < 0 then Rd.fail "bad prefix for uint"
        else Rd.pure v.toInt64.toUInt64) (w := []) key
        (by rw [if_pos (by rw [hc]; omega)]; exact Refuses.fail _)
      rwa [List.append_nil] at this
  | int32 a b =>
    rw [← hx, ← i32_of_i64 (by omega) (by omega), ← u32_of_i32, ← Spec.be32_eq]
    have key := getInt32_reads v.toInt32
    have hv := i32_of_i64 (v := v) (by omega) (by omega)
    have hc : v.toInt32 < 0 ↔ v.toInt < 0 := by rw [Int32.lt_iff_toInt_lt, hv]; rfl
    have hz : v.toInt32.toInt64 = v := by rw [← Int64.toInt_inj, Int32.toInt_toInt64, hv]
    constructor
    · intro h
      apply Reads.cons
      rw [if_neg (by decide), if_neg (by decide), if_neg (by decide), if_neg (by decide),
        if_neg (by decide), if_neg (by decide), if_neg (by decide), if_neg (by decide),
        if_pos (by decide)]
      have := Reads.bind (f := fun v : Int32 => if v < 0 then Rd.fail "bad prefix for uint"
        else Rd.pure v.toInt64.toUInt64) (w := []) (b := v.toUInt64) key
        (by rw [if_neg (by rw [hc]; omega), hz]; exact Reads.pure _)
      rwa [List.append_nil] at this
    · intro h
      refine Refuses.bind (getUint8_reads _) ?_
      rw [if_neg (by decide), if_neg (by decide), if_neg (by decide), if_neg (by decide),
        if_neg (by decide), if_neg (by decide), if_neg (by decide), if_neg (by decide),
        if_pos (by decide)]
      have := Refuses.bind (f := fun v : Int32 => if v < 0 then Rd.fail "bad prefix for uint"
        else Rd.pure v.toInt64.toUInt64) (w := []) key
        (by rw [if_pos (by rw [hc]; omega)]; exact Refuses.fail _)
      rwa [List.append_nil] at this
  | int64 a b =>
    rw [← hx, ← u64_of_i64, ← Spec.be64_eq]
    have key := getInt64_reads v
    have hc : v < 0 ↔ v.toInt < 0 := by rw [Int64.lt_iff_toInt_lt]; rfl
    constructor
    · intro h
      apply Reads.cons
      rw [if_neg (by decide), if_neg (by decide), if_neg (by decide), if_neg (by decide),
        if_neg (by decide), if_neg (by decide), if_neg (by decide), if_neg (by decide),
        if_neg (by decide), if_pos (by decide)]
      have := Reads.bind (f := fun v : Int64 => if v < 0 then Rd.fail "bad prefix for uint"
        else Rd.pure v.toUInt64) (w := []) (b := v.toUInt64) key
        (by rw [if_neg (by rw [hc]; omega)]; exact Reads.pure _)
      rwa [List.append_nil] at this
    · intro h
      refine Refuses.bind (getUint8_reads _) ?_
      rw [if_neg (by decide), if_neg (by decide), if_neg (by decide), if_neg (by decide),
        if_neg (by decide), if_neg (by decide), if_neg (by decide), if_neg (by decide),
        if_neg (by decide), if_pos (by decide)]
      have := Refuses.bind (f := fun v : Int64 => if v < 0 then Rd.fail "bad prefix for uint"
        else Rd.pure v.toUInt64) (w := []) key
        (by rw [if_pos (by rw [hc]; omega)]; exact Refuses.fail _)
      rwa [List.append_nil] at this

theorem Refuses.bind_left {α β : Type} {x : Rd α} {f : α → Rd β} {w : Bytes} (h : Refuses x w) :
    Refuses (x >>= f) w := by
  intro pre rest hl
  obtain ⟨e, he⟩ := h pre rest hl
  exact ⟨e, by rw [rd_bind, he]⟩

/-- C39, unsigned readers on signed forms: a negative number is refused, a number in range is read
exactly, any other is refused. -/
theorem unsigned_of_signed (v : Int64) (w : Bytes) (h : SignedForm v.toInt w) :
    Faithful readUint64 (fun a => a.toNat) 0 (2^64 - 1) v.toInt w ∧
    Faithful readUint32 (fun a => a.toNat) 0 (2^32 - 1) v.toInt w ∧
    Faithful readUint16 (fun a => a.toNat) 0 (2^16 - 1) v.toInt w ∧
    Faithful readUint8 (fun a => a.toNat) 0 (2^8 - 1) v.toInt w := by
  obtain ⟨hp, hneg⟩ := readUint64_signed v w h
  have hlo := v.le_toInt
  have hhi := v.toInt_lt
  by_cases h0 : 0 ≤ v.toInt
  · have hu := u64_of_i64 v
    have hv : (v.toUInt64.toNat : Int) = v.toInt := by omega
    refine ⟨⟨fun _ => ⟨v.toUInt64, hv, hp h0⟩, fun hn => absurd (by omega) hn⟩, ?_⟩
    have := narrow_unsigned v.toUInt64 w (hp h0)
    rwa [hv] at this
  · have hr := hneg (by omega)
    exact ⟨⟨fun hc => by omega, fun _ => hr⟩, ⟨fun hc => by omega, fun _ => Refuses.bind_left hr⟩,
      ⟨fun hc => by omega, fun _ => Refuses.bind_left hr⟩, ⟨fun hc => by omega, fun _ => Refuses.bind_left hr⟩⟩

/-- `r` fails on `w`, wherever it stops. -/
def Rejects {α : Type} (r : Rd α) (w : Bytes) : Prop :=
  ∀ pre rest : Bytes, (pre ++ w ++ rest).length < 2^32 →
    ∃ e d, r (at_ pre (w ++ rest)) = .fail e d

theorem Refuses.rejects {α : Type} {r : Rd α} {w : Bytes} (h : Refuses r w) : Rejects r w :=
  fun pre rest hl => (h pre rest hl).elim fun e he => ⟨e, _, he⟩

/-- The read of the number `v` in the form `w` returns `v` or fails, and fails only when `v` is
outside the range of the reader's type. -/
def ExactOrRange {α : Type} (r : Rd α) (val : α → Int) (lo hi : Int) (v : Int) (w : Bytes) : Prop :=
  (lo ≤ v ∧ v ≤ hi ∧ ∃ a, val a = v ∧ Reads r w a) ∨ (¬ (lo ≤ v ∧ v ≤ hi) ∧ Rejects r w)

/-- All eight readers on one form of a number. -/
def AllReaders (v : Int) (w : Bytes) : Prop :=
  ExactOrRange readInt64 Int64.toInt (-2^63) (2^63 - 1) v w ∧
  ExactOrRange readInt32 Int32.toInt (-2^31) (2^31 - 1) v w ∧
  ExactOrRange readInt16 Int16.toInt (-2^15) (2^15 - 1) v w ∧
  ExactOrRange readInt8 Int8.toInt (-2^7) (2^7 - 1) v w ∧
  ExactOrRange readUint64 (fun a => a.toNat) 0 (2^64 - 1) v w ∧
  ExactOrRange readUint32 (fun a => a.toNat) 0 (2^32 - 1) v w ∧
  ExactOrRange readUint16 (fun a => a.toNat) 0 (2^16 - 1) v w ∧
  ExactOrRange readUint8 (fun a => a.toNat) 0 (2^8 - 1) v w

/-- C39 in full: whatever integer is written, in any form of either family (the Encoder writes the
shortest, C33 and C34), and whatever reader reads it. -/
def C39_statement : Prop :=
  (∀ (v : Int64) (w : Bytes), SignedForm v.toInt w → AllReaders v.toInt w) ∧
  (∀ (v : UInt64) (w : Bytes), UnsignedForm v.toNat w → AllReaders v.toNat w)

/-- C39 fails: 200 written as an unsigned number is refused by the signed 16-, 32- and 64-bit
readers although it fits them (decoder.go 75-103 knows only the signed formats). -/
theorem C39_violated : ¬ C39_statement := by
  intro h
  have h1 := (h.2 200 [0xcc, 200] (.uint8 200 (by decide))).1
  rcases h1 with ⟨_, _, a, _, h1⟩ | ⟨h1, _⟩
  · have := h1 [] [] (by decide)
    revert this
    show (Out.fail _ _ = Out.ok _ _) → False
    intro h; cases h
  · exact h1 (by decide)

theorem Faithful.exactOrRange {α : Type} {r : Rd α} {val : α → Int} {lo hi v : Int} {w : Bytes}
    (h : Faithful r val lo hi v w) : ExactOrRange r val lo hi v w := by
  by_cases hr : lo ≤ v ∧ v ≤ hi
  · exact .inl ⟨hr.1, hr.2, h.1 hr⟩
  · exact .inr ⟨hr, Refuses.rejects (h.2 hr)⟩

theorem Rejects.bind {α β : Type} {x : Rd α} {f : α → Rd β} {w : Bytes} (h : Rejects x w) :
    Rejects (x >>= f) w := by
  intro pre rest hl
  obtain ⟨e, d, he⟩ := h pre rest hl
  exact ⟨e, d, by rw [rd_bind, he]⟩

theorem readInt64_prefix (p : UInt8) (w : Bytes) (h : p = 0xcc ∨ p = 0xcd ∨ p = 0xce ∨ p = 0xcf) :
    Rejects readInt64 (p :: w) := by
  intro pre rest hl
  have hg := getUint8_reads p pre (w ++ rest) (by
    simp only [List.length_append, List.length_cons, List.length_nil] at *; omega)
  refine ⟨"bad prefix for int64", at_ (pre ++ [p]) (w ++ rest), ?_⟩
  unfold readInt64
  rw [rd_bind, List.cons_append]
  rw [show p :: (w ++ rest) = [p] ++ (w ++ rest) from rfl, hg]
  rcases h with h | h | h | h <;> subst h <;> rfl

/-- A signed reader on an unsigned form returns the exact number or fails. -/
def ExactOrRejects {α : Type} (r : Rd α) (val : α → Int) (v : Int) (w : Bytes) : Prop :=
  (∃ a, val a = v ∧ Reads r w a) ∨ Rejects r w

/-- C39, partial. Everything written in a signed form is read faithfully by all eight readers, and
everything written in an unsigned form by the four unsigned readers: exact if in range, else an
error. A signed reader of an unsigned form returns the exact number or an error (never a wrong
number). Missing: such a read may fail although the number is in range (`C39_violated`). -/
theorem C39_partial :
    (∀ (v : Int64) (w : Bytes), SignedForm v.toInt w → AllReaders v.toInt w) ∧
    (∀ (v : UInt64) (w : Bytes), UnsignedForm v.toNat w →
      ExactOrRange readUint64 (fun a => a.toNat) 0 (2^64 - 1) v.toNat w ∧
      ExactOrRange readUint32 (fun a => a.toNat) 0 (2^32 - 1) v.toNat w ∧
      ExactOrRange readUint16 (fun a => a.toNat) 0 (2^16 - 1) v.toNat w ∧
      ExactOrRange readUint8 (fun a => a.toNat) 0 (2^8 - 1) v.toNat w ∧
      ExactOrRejects readInt64 Int64.toInt v.toNat w ∧
      ExactOrRejects readInt32 Int32.toInt v.toNat w ∧
      ExactOrRejects readInt16 Int16.toInt v.toNat w ∧
      ExactOrRejects readInt8 Int8.toInt v.toNat w) := by
  constructor
  · intro v w h
    obtain ⟨a1, a2, a3, a4⟩ := signed_faithful v w h
    obtain ⟨b1, b2, b3, b4⟩ := unsigned_of_signed v w h
    exact ⟨a1.exactOrRange, a2.exactOrRange, a3.exactOrRange, a4.exactOrRange, b1.exactOrRange,
      b2.exactOrRange, b3.exactOrRange, b4.exactOrRange⟩
  · intro v w h
    obtain ⟨b1, b2, b3, b4⟩ := unsigned_faithful v w h
    refine ⟨b1.exactOrRange, b2.exactOrRange, b3.exactOrRange, b4.exactOrRange, ?_⟩
    have rej : ∀ p w', (p = 0xcc ∨ p = 0xcd ∨ p = 0xce ∨ p = 0xcf) →
        ExactOrRejects readInt64 Int64.toInt v.toNat (p :: w') ∧
        ExactOrRejects readInt32 Int32.toInt v.toNat (p :: w') ∧
        ExactOrRejects readInt16 Int16.toInt v.toNat (p :: w') ∧
        ExactOrRejects readInt8 Int8.toInt v.toNat (p :: w') := fun p w' hp =>
      have hr := readInt64_prefix p w' hp
      ⟨.inr hr, .inr (Rejects.bind hr), .inr (Rejects.bind hr), .inr (Rejects.bind hr)⟩
    generalize hx : v.toNat = x at h
    cases h with
    | positiveFix a =>
      have hi : (Int64.ofInt x).toInt = x := by
        rw [Int64.toInt_ofInt, bmod_of_range] <;> simp <;> omega
      have hf : SignedForm (Int64.ofInt x).toInt [UInt8.ofNat x] := by
        rw [hi]
        exact .positiveFix (x : Int) (by omega) (by omega)
      obtain ⟨a1, a2, a3, a4⟩ := signed_faithful _ _ hf
      rw [hi] at a1 a2 a3 a4
      exact ⟨.inl (a1.1 (by omega)), .inl (a2.1 (by omega)), .inl (a3.1 (by omega)),
        .inl (a4.1 (by omega))⟩
    | uint8 a => rw [← hx]; exact rej _ _ (by decide)
    | uint16 a => rw [← hx]; exact rej _ _ (by decide)
    | uint32 a => rw [← hx]; exact rej _ _ (by decide)
    | uint64 a => rw [← hx]; exact rej _ _ (by decide)

/-- The hypotheses of `C39_partial` are met by what the Encoder writes, and the outcomes occur. -/
example : SignedForm (-1) [0xff] ∧ UnsignedForm 300 [0xcd, 0x01, 0x2c] :=
  ⟨.negativeFix (-1) (by decide) (by decide), .uint16 300 (by decide)⟩
example : readUint8 (DR.new [0xd1, 0x01, 0x2c]) =
    .fail (overflow 300 8) ⟨[0xd1, 0x01, 0x2c], 3, none⟩ := by decide +kernel
example : readUint32 (DR.new [0xd1, 0x01, 0x2c]) = .ok 300 ⟨[0xd1, 0x01, 0x2c], 3, none⟩ := by
  decide +kernel

end Verif.Props
