import Verif.Props.MsgpackSizer
import Verif.Props.MsgpackBounds
import Verif.Spec.MsgpackValue
/-
Properties C42 and C43: skipping.
-/
set_option autoImplicit false
namespace Verif.Props
open Verif Spec Msgpack

/-- `Skip` on the bytes `w` finishes, succeeds and moves exactly behind them, whatever surrounds
them. `f0` is a sufficient recursion depth. -/
def SkipsWith (w : Bytes) (f0 : Nat) : Prop :=
  ∀ f, f0 ≤ f → ∀ pre rest : Bytes, (pre ++ w ++ rest).length < 2^32 →
    skip f (at_ pre (w ++ rest)) = some (.ok () (at_ (pre ++ w) rest))

def Skips (w : Bytes) : Prop := ∃ f0, SkipsWith w f0

/-- The same for `n` values in a row. -/
def SkipsNWith (n : Nat) (w : Bytes) (f0 : Nat) : Prop :=
  ∀ f, f0 ≤ f → ∀ pre rest : Bytes, (pre ++ w ++ rest).length < 2^32 →
    skipN f n (at_ pre (w ++ rest)) = some (.ok () (at_ (pre ++ w) rest))

theorem skipsN_nil : SkipsNWith 0 [] 1 := by
  intro f hf pre rest _
  obtain ⟨f, rfl⟩ : ∃ g, f = g + 1 := ⟨f - 1, by omega⟩
  simp [skipN]

theorem skipsN_cons {w w' : Bytes} {n a b : Nat} (h : SkipsWith w a) (h' : SkipsNWith n w' b) :
    SkipsNWith (n + 1) (w ++ w') (max a b + 1) := by
  intro f hf pre rest hl
  obtain ⟨f, rfl⟩ : ∃ g, f = g + 1 := ⟨f - 1, by omega⟩
  have h1 := h f (by omega) pre (w' ++ rest) (by simpa [Nat.add_assoc] using hl)
  have h2 := h' f (by omega) (pre ++ w) rest (by simpa [Nat.add_assoc] using hl)
  simp only [skipN]
  rw [List.append_assoc, h1]
  simp only
  rw [h2, List.append_assoc]

theorem skips_of {head w : Bytes} {n : UInt32} {b : Nat} (h : Reads getSize head n)
    (h' : SkipsNWith n.toNat w b) : SkipsWith (head ++ w) (b + 1) := by
  intro f hf pre rest hl
  obtain ⟨f, rfl⟩ : ∃ g, f = g + 1 := ⟨f - 1, by omega⟩
  have h1 := h pre (w ++ rest) (by simpa [Nat.add_assoc] using hl)
  have h2 := h' f (by omega) (pre ++ head) rest (by simpa [Nat.add_assoc] using hl)
  simp only [skip]
  rw [List.append_assoc, h1]
  simp only
  rw [h2, List.append_assoc]

theorem skips_scalar {w : Bytes} (h : Reads getSize w 0) : SkipsWith w 2 := by
  have := skips_of (w := []) (b := 1) h skipsN_nil
  rwa [List.append_nil] at this

/-- `getSize` on a prefix, by its first matching case. -/
theorem dq {n : UInt32} {w : Bytes} (hn : n.toNat = w.length) :
    Reads (discardQuiet n >>= fun _ => Rd.pure (0 : UInt32)) w 0 := by
  have := (discardQuiet_reads n w hn).bind (f := fun _ => Rd.pure (0 : UInt32)) (Reads.pure 0)
  rwa [List.append_nil] at this

theorem dd {n : UInt32} {w : Bytes} (hn : n.toNat = w.length) :
    Reads (discard n >>= fun _ => Rd.pure (0 : UInt32)) w 0 := by
  have := (discard_reads n w hn).bind (f := fun _ => Rd.pure (0 : UInt32)) (Reads.pure 0)
  rwa [List.append_nil] at this

theorem be_len (n v : Nat) : (bigEndian n v).length = n := Spec.bigEndian_length n v

/-- Passes over the cases of `getSize` (or of another reader) that do not match a literal prefix. -/
macro "prefix" : tactic => `(tactic| (
  apply Reads.cons
  repeat (first | rw [if_pos (by decide)] | rw [if_neg (by decide)])))

theorem size_sint {v : Int} (h1 : -2^63 ≤ v) (h2 : v < 2^63) : Reads getSize (sint v) 0 := by
  unfold sint
  split
  · apply Reads.one
    have hn : (UInt8.ofNat v.toNat).toNat = v.toNat := UInt8.toNat_ofNat_lt (by omega)
    rw [if_pos (by rw [isFixedInt_iff, hn]; simp; omega)]
    exact Reads.pure 0
  split
  · apply Reads.one
    have hn : (UInt8.ofNat (256 + v).toNat).toNat = (256 + v).toNat :=
      UInt8.toNat_ofNat_lt (by omega)
    rw [if_pos (by rw [isNegativeFixedInt_iff, hn]; simp; omega)]
    exact Reads.pure 0
  split
  · prefix; exact dq (by rw [be_len]; rfl)
  split
  · prefix; exact dq (by rw [be_len]; rfl)
  split
  · prefix; exact dq (by rw [be_len]; rfl)
  · prefix; exact dq (by rw [be_len]; rfl)

theorem size_uint (n : Nat) : Reads getSize (uint n) 0 := by
  unfold uint
  split
  · apply Reads.one
    have hn : (UInt8.ofNat n).toNat = n := UInt8.toNat_ofNat_lt (by omega)
    rw [if_pos (by rw [isFixedInt_iff, hn]; simp; omega)]
    exact Reads.pure 0
  split
  · prefix; exact dq (by rw [be_len]; rfl)
  split
  · prefix; exact dq (by rw [be_len]; rfl)
  split
  · prefix; exact dq (by rw [be_len]; rfl)
  · prefix; exact dq (by rw [be_len]; rfl)

theorem size_float32 (n : Nat) : Reads getSize (float32 n) 0 := by
  unfold float32; prefix; exact dq (by rw [be_len]; rfl)

theorem size_float64 (n : Nat) : Reads getSize (float64 n) 0 := by
  unfold float64; prefix; exact dq (by rw [be_len]; rfl)

theorem size_bool (b : Bool) : Reads getSize (bool b) 0 := by
  cases b
  · show Reads getSize [0xc2] 0
    prefix; exact Reads.pure 0
  · show Reads getSize [0xc3] 0
    prefix; exact Reads.pure 0

theorem size_nil : Reads getSize nil 0 := by
  show Reads getSize [0xc0] 0
  prefix; exact Reads.pure 0

theorem tail8 {s : Bytes} (h : s.length < 2^8) :
    Reads (getUint8 >>= fun n => discard n.toUInt32 >>= fun _ => Rd.pure (0 : UInt32))
      (bigEndian 1 s.length ++ s) 0 := by
  have hn : (UInt8.ofNat s.length).toNat = s.length := UInt8.toNat_ofNat_lt h
  rw [← hn, ← be8_eq]
  exact (getUint8_reads _).bind (dd (by rw [UInt8.toNat_toUInt32, hn]))

theorem tail16 {s : Bytes} (h : s.length < 2^16) :
    Reads (getUint16 >>= fun n => discard n.toUInt32 >>= fun _ => Rd.pure (0 : UInt32))
      (bigEndian 2 s.length ++ s) 0 := by
  have hn : (UInt16.ofNat s.length).toNat = s.length := UInt16.toNat_ofNat_lt h
  rw [← hn, ← Spec.be16_eq]
  exact (getUint16_reads _).bind (dd (by rw [UInt16.toNat_toUInt32, hn]))

theorem tail32 {s : Bytes} (h : s.length < 2^32) :
    Reads (getUint32 >>= fun n => discard n >>= fun _ => Rd.pure (0 : UInt32))
      (bigEndian 4 s.length ++ s) 0 := by
  have hn : (UInt32.ofNat s.length).toNat = s.length := UInt32.toNat_ofNat_lt h
  rw [← hn, ← Spec.be32_eq]
  exact (getUint32_reads _).bind (dd hn)

theorem size_str (s : Bytes) (h : s.length < 2^32) : Reads getSize (str s) 0 := by
  unfold str strHead
  split
  · apply Reads.cons
    have hn : (UInt8.ofNat (0xa0 + s.length)).toNat = 0xa0 + s.length :=
      UInt8.toNat_ofNat_lt (by omega)
    rw [if_neg (by rw [isFixedInt_iff, isNegativeFixedInt_iff, hn]; simp; omega),
      if_pos (by rw [isFixedString_iff, hn]; simp; omega)]
    have := and_1f _ (show 0xa0 ≤ (UInt8.ofNat (0xa0 + s.length)).toNat ∧
      (UInt8.ofNat (0xa0 + s.length)).toNat < 0xc0 by omega)
    exact dq (by show _ = s.length; omega)
  split
  · rw [List.cons_append]; prefix; exact tail8 (by assumption)
  split
  · rw [List.cons_append]; prefix; exact tail16 (by assumption)
  · rw [List.cons_append]; prefix; exact tail32 h

theorem size_bin (s : Bytes) (h : s.length < 2^32) : Reads getSize (bin s) 0 := by
  unfold bin binHead
  split
  · rw [List.cons_append]; prefix; exact tail8 (by assumption)
  split
  · rw [List.cons_append]; prefix; exact tail16 (by assumption)
  · rw [List.cons_append]; prefix; exact tail32 h

theorem size_arr (n : UInt32) : Reads getSize (arrHead n.toNat) n := by
  unfold arrHead
  split
  · apply Reads.one
    have hn : (UInt8.ofNat (0x90 + n.toNat)).toNat = 0x90 + n.toNat :=
      UInt8.toNat_ofNat_lt (by omega)
    rw [if_neg (by rw [isFixedInt_iff, isNegativeFixedInt_iff, hn]; simp; omega),
      if_neg (by rw [isFixedString_iff, hn]; simp; omega),
      if_pos (by rw [isFixedArray_iff, hn]; simp; omega)]
    have := and_0f_arr _ (show 0x90 ≤ (UInt8.ofNat (0x90 + n.toNat)).toNat ∧
      (UInt8.ofNat (0x90 + n.toNat)).toNat < 0xa0 by omega)
    rw [show ((UInt8.ofNat (0x90 + n.toNat)) &&& 0x0f).toUInt32 = n from u32_ext (by omega)]
    exact Reads.pure n
  split
  · prefix; exact read16_reads (by assumption)
  · prefix; exact read32_reads n

theorem size_map (n : UInt32) : Reads getSize (mapHead n.toNat) (2 * n) := by
  unfold mapHead
  split
  · apply Reads.one
    have hn : (UInt8.ofNat (0x80 + n.toNat)).toNat = 0x80 + n.toNat :=
      UInt8.toNat_ofNat_lt (by omega)
    rw [if_neg (by rw [isFixedInt_iff, isNegativeFixedInt_iff, hn]; simp; omega),
      if_neg (by rw [isFixedString_iff, hn]; simp; omega),
      if_neg (by rw [isFixedArray_iff, hn]; simp; omega),
      if_pos (by rw [isFixedMap_iff, hn]; simp; omega)]
    have := and_0f_map _ (show 0x80 ≤ (UInt8.ofNat (0x80 + n.toNat)).toNat ∧
      (UInt8.ofNat (0x80 + n.toNat)).toNat < 0x90 by omega)
    rw [show ((UInt8.ofNat (0x80 + n.toNat)) &&& 0x0f).toUInt32 = n from u32_ext (by omega)]
    exact Reads.pure _
  split
  · prefix
    rename_i h
    rw [u16_of_u32 h, ← Spec.be16_eq]
    have := Reads.map (g := fun v : UInt16 => 2 * v.toUInt32) (getUint16_reads n.toUInt16)
    rwa [u32_of_u16_of_u32 h] at this
  · prefix
    rw [← Spec.be32_eq]
    exact Reads.map (g := fun v : UInt32 => 2 * v) (getUint32_reads n)

theorem size_time {s : Int} {n : Nat} (h : 0 ≤ s ∧ s < 2^34) : Reads getSize (timestamp s n) 0 := by
  unfold timestamp
  split
  · prefix; exact dq (by rw [List.length_cons, be_len]; rfl)
  · prefix; exact dq (by rw [List.length_cons, be_len]; rfl)

theorem sint_pos (v : Int) : 1 ≤ (sint v).length := by
  unfold sint; repeat' split
  all_goals simp
theorem uint_pos (v : Nat) : 1 ≤ (uint v).length := by
  unfold uint; repeat' split
  all_goals simp
theorem strHead_pos (n : Nat) : 1 ≤ (strHead n).length := by
  unfold strHead; repeat' split
  all_goals simp
theorem binHead_pos (n : Nat) : 1 ≤ (binHead n).length := by
  unfold binHead; repeat' split
  all_goals simp
theorem arrHead_pos (n : Nat) : 1 ≤ (arrHead n).length := by
  unfold arrHead; repeat' split
  all_goals simp
theorem mapHead_pos (n : Nat) : 1 ≤ (mapHead n).length := by
  unfold mapHead; repeat' split
  all_goals simp
theorem timestamp_pos (s : Int) (n : Nat) : 1 ≤ (timestamp s n).length := by
  unfold timestamp; repeat' split
  all_goals simp

theorem enc_pos (v : Val) : 1 ≤ v.enc.length := by
  cases v <;> simp only [Val.enc, List.length_append]
  case nil => exact Nat.le_refl 1
  case bool b => cases b <;> exact Nat.le_refl 1
  case int v => exact sint_pos v
  case nat n => exact uint_pos n
  case float32 b => unfold float32; simp
  case float64 b => unfold float64; simp
  case str s => unfold str; rw [List.length_append]; have := strHead_pos s.length; omega
  case bin s => unfold bin; rw [List.length_append]; have := binHead_pos s.length; omega
  case time s n => exact timestamp_pos s n
  case arr l => have := arrHead_pos l.length; omega
  case map m => have := mapHead_pos m.length; omega

theorem encList_length (l : List Val) : l.length ≤ (encList l).length := by
  induction l with
  | nil => simp
  | cons v l ih =>
    have := enc_pos v
    simp only [encList, List.length_append, List.length_cons]; omega

theorem encPairs_length (m : List (Val × Val)) : 2 * m.length ≤ (encPairs m).length := by
  induction m with
  | nil => simp
  | cons e m ih =>
    obtain ⟨k, v⟩ := e
    have := enc_pos k
    have := enc_pos v
    simp only [encPairs, List.length_append, List.length_cons]; omega

mutual
theorem skips_val (v : Val) (hv : v.valid) (ht : v.shortTimes) (hl : v.enc.length < 2^32) :
    Skips v.enc := by
  match v with
  | .nil => exact ⟨2, skips_scalar size_nil⟩
  | .bool b => exact ⟨2, skips_scalar (size_bool b)⟩
  | .int v => exact ⟨2, skips_scalar (size_sint hv.1 hv.2)⟩
  | .nat n => exact ⟨2, skips_scalar (size_uint n)⟩
  | .float32 b => exact ⟨2, skips_scalar (size_float32 b)⟩
  | .float64 b => exact ⟨2, skips_scalar (size_float64 b)⟩
  | .str s =>
    simp only [Val.enc, str, List.length_append] at hl
    exact ⟨2, skips_scalar (size_str s (by omega))⟩
  | .bin s =>
    simp only [Val.enc, bin, List.length_append] at hl
    exact ⟨2, skips_scalar (size_bin s (by omega))⟩
  | .time s n => exact ⟨2, skips_scalar (size_time ht)⟩
  | .arr l =>
    simp only [Val.enc, List.length_append] at hl
    have hll := encList_length l
    obtain ⟨b, hb⟩ := skips_list l hv ht (by omega)
    have hn : (UInt32.ofNat l.length).toNat = l.length := UInt32.toNat_ofNat_lt (by omega)
    have h1 := size_arr (UInt32.ofNat l.length)
    rw [hn] at h1
    exact ⟨b + 1, skips_of h1 (by rw [hn]; exact hb)⟩
  | .map m =>
    simp only [Val.enc, List.length_append] at hl
    have hll := encPairs_length m
    obtain ⟨b, hb⟩ := skips_pairs m hv ht (by omega)
    have hn : (UInt32.ofNat m.length).toNat = m.length := UInt32.toNat_ofNat_lt (by omega)
    have h1 := size_map (UInt32.ofNat m.length)
    rw [hn] at h1
    have h2 : (2 * UInt32.ofNat m.length).toNat = 2 * m.length := by
      rw [UInt32.toNat_mul, hn]
      show 2 * m.length % 2^32 = _
      omega
    exact ⟨b + 1, skips_of h1 (by rw [h2]; exact hb)⟩

theorem skips_list (l : List Val) (hv : validList l) (ht : shortTimesList l)
    (hl : (encList l).length < 2^32) : ∃ b, SkipsNWith l.length (encList l) b := by
  match l with
  | [] => exact ⟨1, skipsN_nil⟩
  | v :: l =>
    simp only [encList, List.length_append] at hl
    obtain ⟨a, ha⟩ := skips_val v hv.1 ht.1 (by omega)
    obtain ⟨b, hb⟩ := skips_list l hv.2 ht.2 (by omega)
    exact ⟨_, skipsN_cons ha hb⟩

theorem skips_pairs (m : List (Val × Val)) (hv : validPairs m) (ht : shortTimesPairs m)
    (hl : (encPairs m).length < 2^32) : ∃ b, SkipsNWith (2 * m.length) (encPairs m) b := by
  match m with
  | [] => exact ⟨1, skipsN_nil⟩
  | (k, v) :: m =>
    simp only [encPairs, List.length_append] at hl
    obtain ⟨a, ha⟩ := skips_val k hv.1 ht.1 (by omega)
    obtain ⟨c, hc⟩ := skips_val v hv.2.1 ht.2.1 (by omega)
    obtain ⟨b, hb⟩ := skips_pairs m hv.2.2 ht.2.2 (by omega)
    exact ⟨_, skipsN_cons ha (skipsN_cons hc hb)⟩
end

/-! ## The Encoder writes these encodings -/

theorem writeCalls_append (a b : List Call) :
    writeCalls (a ++ b) = (writeCalls a ≫ writeCalls b) := by
  induction a with
  | nil => funext d; rfl
  | cons c a ih =>
    funext d
    show (writeCall c d >>= writeCalls (a ++ b)) = ((writeCall c d >>= writeCalls a) >>= writeCalls b)
    rw [ih]
    cases writeCall c d <;> rfl

theorem writes_one {c : Call} {w : Bytes} (h : Writes (writeCall c) w) : Writes (writeCalls [c]) w := by
  have := h.seq writes_nil
  rwa [List.append_nil] at this

mutual
theorem calls_write (v : Val) (hv : v.valid) (hl : v.enc.length < 2^32) :
    Writes (writeCalls v.calls) v.enc := by
  match v with
  | .nil => exact writes_one (setUint8_writes _)
  | .bool b => exact writes_one (writeBool_writes b)
  | .int v =>
    have h := writeInt64_writes (Int64.ofInt v)
    rw [Int64.toInt_ofInt, bmod_of_range] at h
    · exact writes_one h
    · simp only [Int64.size]; decide
    · simp only [Int64.size]; have := hv.1; omega
    · simp only [Int64.size]; have := hv.2; omega
  | .nat n =>
    have h := writeUint64_writes (UInt64.ofNat n)
    rw [UInt64.toNat_ofNat_of_lt' hv] at h
    exact writes_one h
  | .float32 b =>
    have h := writeFloat32_writes (UInt32.ofNat b)
    rw [UInt32.toNat_ofNat_lt hv] at h
    exact writes_one h
  | .float64 b =>
    have h := writeFloat64_writes (UInt64.ofNat b)
    rw [UInt64.toNat_ofNat_of_lt' hv] at h
    exact writes_one h
  | .str s =>
    simp only [Val.enc, str, List.length_append] at hl
    exact writes_one (writeString_writes s (by omega))
  | .bin s =>
    simp only [Val.enc, bin, List.length_append] at hl
    exact writes_one (writeByteArray_writes s (by omega))
  | .time s n =>
    obtain ⟨h1, h2, h3⟩ := hv
    have hn : (UInt32.ofNat n).toNat = n := UInt32.toNat_ofNat_lt (by omega)
    have hs : (Int64.ofInt s).toInt = s := by
      rw [Int64.toInt_ofInt, bmod_of_range] <;> simp only [Int64.size] <;> omega
    have h := writeTime_writes ⟨Int64.ofInt s, UInt32.ofNat n⟩ (by show (UInt32.ofNat n).toNat < _; omega)
    simp only [hn, hs] at h
    exact writes_one h
  | .arr l =>
    simp only [Val.enc, List.length_append] at hl
    have hll := encList_length l
    have h := writeArraySize_writes (UInt32.ofNat l.length)
    rw [UInt32.toNat_ofNat_lt (by omega)] at h
    exact h.seq (callsList_write l hv (by omega))
  | .map m =>
    simp only [Val.enc, List.length_append] at hl
    have hll := encPairs_length m
    have h := writeMapSize_writes (UInt32.ofNat m.length)
    rw [UInt32.toNat_ofNat_lt (by omega)] at h
    exact h.seq (callsPairs_write m hv (by omega))

theorem callsList_write (l : List Val) (hv : validList l) (hl : (encList l).length < 2^32) :
    Writes (writeCalls (callsList l)) (encList l) := by
  match l with
  | [] => exact writes_nil
  | v :: l =>
    simp only [encList, List.length_append] at hl
    simp only [callsList, writeCalls_append]
    exact (calls_write v hv.1 (by omega)).seq (callsList_write l hv.2 (by omega))

theorem callsPairs_write (m : List (Val × Val)) (hv : validPairs m)
    (hl : (encPairs m).length < 2^32) : Writes (writeCalls (callsPairs m)) (encPairs m) := by
  match m with
  | [] => exact writes_nil
  | (k, v) :: m =>
    simp only [encPairs, List.length_append] at hl
    simp only [callsPairs, writeCalls_append]
    exact (calls_write k hv.1 (by omega)).seq
      ((calls_write v hv.2.1 (by omega)).seq (callsPairs_write m hv.2.2 (by omega)))
end

theorem i8_range (v : Int8) : -2^63 ≤ v.toInt ∧ v.toInt < 2^63 := by
  have := v.le_toInt; have := v.toInt_lt; omega
theorem i16_range (v : Int16) : -2^63 ≤ v.toInt ∧ v.toInt < 2^63 := by
  have := v.le_toInt; have := v.toInt_lt; omega
theorem i32_range (v : Int32) : -2^63 ≤ v.toInt ∧ v.toInt < 2^63 := by
  have := v.le_toInt; have := v.toInt_lt; omega

mutual
theorem emitDyn_enc (d : Dyn) (v : Val) (h : Val.ofDyn d = some v) (hs : v.solid)
    (hl : v.enc.length < 2^32) : emitDyn d = v.enc ∧ Writes (writeAny d) v.enc ∧ v.valid := by
  match d with
  | .nil => cases h; exact hs.elim
  | .int v => cases h; exact ⟨rfl, writeInt64_writes v, v.le_toInt, v.toInt_lt⟩
  | .int8 v => cases h; exact ⟨rfl, (sized_int8 v).1, i8_range v⟩
  | .int16 v => cases h; exact ⟨rfl, (sized_int16 v).1, i16_range v⟩
  | .int32 v => cases h; exact ⟨rfl, (sized_int32 v).1, i32_range v⟩
  | .int64 v => cases h; exact ⟨rfl, writeInt64_writes v, v.le_toInt, v.toInt_lt⟩
  | .uint v => cases h; exact ⟨rfl, writeUint64_writes v, v.toNat_lt⟩
  | .uint8 v =>
    cases h; exact ⟨rfl, (sized_uint8 v).1, by have := v.toNat_lt; show v.toNat < 2^64; omega⟩
  | .uint16 v =>
    cases h; exact ⟨rfl, (sized_uint16 v).1, by have := v.toNat_lt; show v.toNat < 2^64; omega⟩
  | .uint32 v =>
    cases h; exact ⟨rfl, (sized_uint32 v).1, by have := v.toNat_lt; show v.toNat < 2^64; omega⟩
  | .uint64 v => cases h; exact ⟨rfl, writeUint64_writes v, v.toNat_lt⟩
  | .bool b => cases h; exact ⟨rfl, writeBool_writes b, trivial⟩
  | .float32 b => cases h; exact ⟨rfl, writeFloat32_writes b, b.toNat_lt⟩
  | .float64 b => cases h; exact ⟨rfl, writeFloat64_writes b, b.toNat_lt⟩
  | .str s =>
    cases h
    simp only [Val.enc, str, List.length_append] at hl
    exact ⟨rfl, writeString_writes s (by omega), trivial⟩
  | .bytes s =>
    cases h
    simp only [Val.enc, bin, List.length_append] at hl
    exact ⟨rfl, writeByteArray_writes s (by omega), trivial⟩
  | .time t => cases h; exact hs.elim
  | .times _ => cases h
  | .codec _ => cases h
  | .other => cases h
  | .arr l =>
    simp only [Val.ofDyn, Option.map_eq_some_iff] at h
    obtain ⟨vs, h1, rfl⟩ := h
    simp only [Val.enc, List.length_append] at hl
    obtain ⟨e, w, hv, hlen⟩ := emitElems_enc l vs h1 hs (by omega)
    have := encList_length vs
    have hw := writeArraySize_writes (UInt32.ofNat l.length)
    rw [UInt32.toNat_ofNat_lt (by omega)] at hw
    refine ⟨?_, by rw [hlen] at hw; simp only [writeAny, Val.enc]; rw [hlen]; exact hw.seq w, hv⟩
    simp only [emitDyn, Val.enc]
    rw [e, hlen, Nat.mod_eq_of_lt (by omega)]
  | .map m =>
    simp only [Val.ofDyn, Option.map_eq_some_iff] at h
    obtain ⟨vs, h1, rfl⟩ := h
    simp only [Val.enc, List.length_append] at hl
    obtain ⟨e, w, hv, hlen⟩ := emitPairs_enc m vs h1 hs (by omega)
    have := encPairs_length vs
    have hw := writeMapSize_writes (UInt32.ofNat m.length)
    rw [UInt32.toNat_ofNat_lt (by omega)] at hw
    refine ⟨?_, by rw [hlen] at hw; simp only [writeAny, Val.enc]; rw [hlen]; exact hw.seq w, hv⟩
    simp only [emitDyn, Val.enc]
    rw [e, hlen, Nat.mod_eq_of_lt (by omega)]

theorem emitElems_enc (l : List Dyn) (vs : List Val) (h : listOfDyn l = some vs) (hs : solidList vs)
    (hl : (encList vs).length < 2^32) :
    emitElems l = encList vs ∧ Writes (writeElems l) (encList vs) ∧ validList vs ∧
      l.length = vs.length := by
  match l with
  | [] => cases h; exact ⟨rfl, writes_nil, trivial, rfl⟩
  | d :: l =>
    simp only [listOfDyn] at h
    cases h1 : Val.ofDyn d with
    | none => rw [h1] at h; cases h
    | some v =>
      cases h2 : listOfDyn l with
      | none => rw [h1, h2] at h; cases h
      | some ws =>
        rw [h1, h2] at h
        cases h
        simp only [encList, List.length_append] at hl
        obtain ⟨e1, w1, v1⟩ := emitDyn_enc d v h1 hs.1 (by omega)
        obtain ⟨e2, w2, v2, l2⟩ := emitElems_enc l ws h2 hs.2 (by omega)
        exact ⟨by simp only [emitElems, encList, e1, e2], w1.seq w2, ⟨v1, v2⟩, by simp [l2]⟩

theorem emitPairs_enc (m : List (Dyn × Dyn)) (vs : List (Val × Val)) (h : pairsOfDyn m = some vs)
    (hs : solidPairs vs) (hl : (encPairs vs).length < 2^32) :
    emitPairs m = encPairs vs ∧ Writes (writePairs m) (encPairs vs) ∧ validPairs vs ∧
      m.length = vs.length := by
  match m with
  | [] => cases h; exact ⟨rfl, writes_nil, trivial, rfl⟩
  | (k, d) :: l =>
    simp only [pairsOfDyn] at h
    cases h0 : Val.ofDyn k with
    | none => rw [h0] at h; cases h
    | some kv =>
      cases h1 : Val.ofDyn d with
      | none => rw [h0, h1] at h; cases h
      | some v =>
        cases h2 : pairsOfDyn l with
        | none => rw [h0, h1, h2] at h; cases h
        | some ws =>
          rw [h0, h1, h2] at h
          cases h
          simp only [encPairs, List.length_append] at hl
          obtain ⟨e0, w0, v0⟩ := emitDyn_enc k kv h0 hs.1 (by omega)
          obtain ⟨e1, w1, v1⟩ := emitDyn_enc d v h1 hs.2.1 (by omega)
          obtain ⟨e2, w2, v2, l2⟩ := emitPairs_enc l ws h2 hs.2.2 (by omega)
          exact ⟨by simp only [emitPairs, encPairs, e0, e1, e2], w0.seq (w1.seq w2),
            ⟨v0, v1, v2⟩, by simp [l2]⟩
end

mutual
theorem solid_short (v : Val) (h : v.solid) : v.shortTimes := by
  match v with
  | .nil => trivial
  | .bool _ => trivial
  | .int _ => trivial
  | .nat _ => trivial
  | .float32 _ => trivial
  | .float64 _ => trivial
  | .str _ => trivial
  | .bin _ => trivial
  | .time _ _ => exact h.elim
  | .arr l => exact solid_shortList l h
  | .map m => exact solid_shortPairs m h

theorem solid_shortList (l : List Val) (h : solidList l) : shortTimesList l := by
  match l with
  | [] => trivial
  | v :: l => exact ⟨solid_short v h.1, solid_shortList l h.2⟩

theorem solid_shortPairs (m : List (Val × Val)) (h : solidPairs m) : shortTimesPairs m := by
  match m with
  | [] => trivial
  | (k, v) :: m => exact ⟨solid_short k h.1, solid_short v h.2.1, solid_shortPairs m h.2.2⟩
end

/-! ## C42 -/

/-- `cs` writes one value: the calls for a value, or one `WriteAny` of a dynamically typed value. -/
def OneValue (cs : List Call) (v : Val) : Prop :=
  v.valid ∧ (cs = v.calls ∨ ∃ d, Val.ofDyn d = some v ∧ cs = [.any d])

/-- C42 in full: whatever one value writes, `Skip` skips exactly that. -/
def C42_statement : Prop :=
  ∀ cs v w, OneValue cs v → w.length < 2^32 → v.enc.length < 2^32 → Writes (writeCalls cs) w → Skips w

/-- C42 fails for time stamps that need the 12-byte form (here: the year 2514): `getSize`
(decoder.go 627-708) has no case for `ext8`. -/
theorem C42_violated_time : ¬ C42_statement := by
  intro h
  have hv : (Val.time (2^34) 0).valid := by simp only [Val.valid]; omega
  have hl : (Val.time (2^34) 0).enc.length < 2^32 := by decide
  obtain ⟨f0, h⟩ := h _ _ _ ⟨hv, .inl rfl⟩ hl hl (calls_write _ hv hl)
  have h := h (f0 + 1) (by omega) [] [] (by decide)
  have hs : getSize (at_ [] ((Val.time (2^34) 0).enc ++ [])) =
      .fail "bad prefix" (at_ [0xc7] ((Val.time (2^34) 0).enc.drop 1)) := by decide +kernel
  simp only [skip, hs] at h
  cases h

/-- C42 fails for a nil passed to `WriteAny`: two nils are written, one is skipped. -/
theorem C42_violated_nil : ¬ C42_statement := by
  intro h
  obtain ⟨f0, h⟩ := h [.any .nil] .nil [0xc0, 0xc0] ⟨trivial, .inr ⟨.nil, rfl, rfl⟩⟩ (by decide)
    (by decide) (writes_one ((setUint8_writes 0xc0).seq (setUint8_writes 0xc0)))
  have h := h (f0 + 2) (by omega) [] [] (by decide)
  have hs : getSize (at_ [] ([0xc0, 0xc0] ++ [])) = .ok 0 (at_ [0xc0] [0xc0]) := by decide +kernel
  simp only [skip, hs] at h
  have : skipN (f0 + 1) (0 : UInt32).toNat (at_ [0xc0] [0xc0]) = some (.ok () (at_ [0xc0] [0xc0])) := rfl
  rw [this] at h
  revert h
  decide

/-- C42, partial: `Skip` moves exactly behind every value, of any nesting, whatever surrounds it —
written by the primitive calls and sizes if no time in it needs the 12-byte form, or by one `WriteAny`
if it contains no nil (and no time). Missing: exactly these (`C42_violated_time`,
`C42_violated_nil`). -/
theorem C42_partial :
    (∀ v : Val, v.valid → v.shortTimes → v.enc.length < 2^32 →
      Writes (writeCalls v.calls) v.enc ∧ Skips v.enc) ∧
    (∀ (d : Dyn) (v : Val), Val.ofDyn d = some v → v.solid → v.enc.length < 2^32 →
      Writes (writeCalls [.any d]) v.enc ∧ Skips v.enc) := by
  refine ⟨fun v hv ht hl => ⟨calls_write v hv hl, skips_val v hv ht hl⟩, fun d v h hs hl => ?_⟩
  obtain ⟨_, hw, hv⟩ := emitDyn_enc d v h hs hl
  exact ⟨writes_one hw, skips_val v hv (solid_short v hs) hl⟩

/-- An array of a map and a nil and a time stamp of the year 2106, with something behind it. -/
example : let v : Val := .arr [.map [(.str [97], .nil), (.int (-200), .time (2^32) 5)], .bin [1, 2]]
    v.valid ∧ v.shortTimes ∧ v.enc.length = 22 ∧
    skip 9 (at_ [7] (v.enc ++ [8])) = some (.ok () (at_ (7 :: v.enc) [8])) := by
  refine ⟨?_, ?_, ?_, ?_⟩
  · simp [Val.valid, validList, validPairs]
  · simp [Val.shortTimes, shortTimesList, shortTimesPairs]
  · decide +kernel
  · decide +kernel

end Verif.Props
