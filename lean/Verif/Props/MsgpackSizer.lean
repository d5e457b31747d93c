import Verif.Props.MsgpackScalars
import Verif.Spec.MsgpackEmit
/-
Property C38: the Sizer predicts what the Encoder writes.
-/
set_option autoImplicit false
namespace Verif.Props
open Verif Spec Msgpack

/-- `f` writes `w` and `g` counts `w.length`. -/
def Sized (f : Enc) (g : UInt32 → UInt32) (w : Bytes) : Prop :=
  Writes f w ∧ ∀ s, g s = s + UInt32.ofNat w.length

theorem Sized.seq {f g : Enc} {f' g' : UInt32 → UInt32} {v w : Bytes} (hf : Sized f f' v)
    (hg : Sized g g' w) : Sized (f ≫ g) (fun s => g' (f' s)) (v ++ w) := by
  refine ⟨hf.1.seq hg.1, fun s => ?_⟩
  show g' (f' s) = _
  rw [hg.2, hf.2, List.length_append, UInt32.ofNat_add, UInt32.add_assoc]

theorem sized_nil : Sized .ok (fun s => s) [] := ⟨writes_nil, fun s => by simp⟩

theorem sized_of {f : Enc} {g : UInt32 → UInt32} {w : Bytes} {k : UInt32} (hw : Writes f w)
    (hg : ∀ s, g s = s + k) (hk : k.toNat = w.length) : Sized f g w := by
  refine ⟨hw, fun s => ?_⟩
  rw [hg, ← hk]
  simp

theorem sized_int64 (v : Int64) : Sized (writeInt64 v) (Sizer.writeInt64 v) (sint v.toInt) := by
  refine ⟨writeInt64_writes v, fun s => ?_⟩
  have hlo := v.le_toInt
  have hhi := v.toInt_lt
  have c1 : (128 : Int64).toInt = 128 := rfl
  have c2 : (-32 : Int64).toInt = -32 := rfl
  have c4 : (-128 : Int64).toInt = -128 := rfl
  have c5 : (32768 : Int64).toInt = 32768 := rfl
  have c6 : (-32768 : Int64).toInt = -32768 := rfl
  have c7 : (2147483648 : Int64).toInt = 2147483648 := rfl
  have c8 : (-2147483648 : Int64).toInt = -2147483648 := rfl
  unfold Sizer.writeInt64 sint
  simp only [ge_iff_le, Int64.le_iff_toInt_le, Int64.lt_iff_toInt_lt, c1, c2, c4, c5, c6, c7, c8]
  by_cases h1 : 0 ≤ v.toInt ∧ v.toInt ≤ 127
  · rw [if_pos h1, if_pos (show -32 ≤ v.toInt ∧ v.toInt < 128 by omega)]; rfl
  by_cases h2 : -32 ≤ v.toInt ∧ v.toInt < 0
  · rw [if_neg h1, if_pos h2, if_pos (show -32 ≤ v.toInt ∧ v.toInt < 128 by omega)]; rfl
  rw [if_neg h1, if_neg h2, if_neg (show ¬ (-32 ≤ v.toInt ∧ v.toInt < 128) by omega)]
  by_cases h3 : -2^7 ≤ v.toInt ∧ v.toInt < 2^7
  · rw [if_pos h3, if_pos (show v.toInt < 128 ∧ -128 ≤ v.toInt by omega), List.length_cons,
      Spec.bigEndian_length]
    rfl
  rw [if_neg h3, if_neg (show ¬ (v.toInt < 128 ∧ -128 ≤ v.toInt) by omega)]
  by_cases h4 : -2^15 ≤ v.toInt ∧ v.toInt < 2^15
  · rw [if_pos h4, if_pos (show v.toInt < 32768 ∧ -32768 ≤ v.toInt by omega), List.length_cons,
      Spec.bigEndian_length]
    rfl
  rw [if_neg h4, if_neg (show ¬ (v.toInt < 32768 ∧ -32768 ≤ v.toInt) by omega)]
  by_cases h5 : -2^31 ≤ v.toInt ∧ v.toInt < 2^31
  · rw [if_pos h5, if_pos (show v.toInt < 2147483648 ∧ -2147483648 ≤ v.toInt by omega),
      List.length_cons, Spec.bigEndian_length]
    rfl
  rw [if_neg h5, if_neg (show ¬ (v.toInt < 2147483648 ∧ -2147483648 ≤ v.toInt) by omega),
    List.length_cons, Spec.bigEndian_length]
  rfl

theorem sized_int32 (v : Int32) : Sized (writeInt32 v) (Sizer.writeInt32 v) (sint v.toInt) := by
  have := sized_int64 v.toInt64; rwa [Int32.toInt_toInt64] at this
theorem sized_int16 (v : Int16) : Sized (writeInt16 v) (Sizer.writeInt16 v) (sint v.toInt) := by
  have := sized_int64 v.toInt64; rwa [Int16.toInt_toInt64] at this
theorem sized_int8 (v : Int8) : Sized (writeInt8 v) (Sizer.writeInt8 v) (sint v.toInt) := by
  have := sized_int64 v.toInt64; rwa [Int8.toInt_toInt64] at this

theorem sized_uint64 (v : UInt64) : Sized (writeUint64 v) (Sizer.writeUint64 v) (uint v.toNat) := by
  refine ⟨writeUint64_writes v, fun s => ?_⟩
  have c1 : (128 : UInt64).toNat = 128 := rfl
  have c2 : (256 : UInt64).toNat = 256 := rfl
  have c3 : (65536 : UInt64).toNat = 65536 := rfl
  have c4 : (4294967296 : UInt64).toNat = 4294967296 := rfl
  unfold Sizer.writeUint64 uint
  simp only [UInt64.lt_iff_toNat_lt, c1, c2, c3, c4]
  by_cases h1 : v.toNat ≤ 127
  · rw [if_pos h1, if_pos (show v.toNat < 128 by omega)]; rfl
  rw [if_neg h1, if_neg (show ¬ v.toNat < 128 by omega)]
  by_cases h2 : v.toNat < 256
  · rw [if_pos h2, if_pos (show v.toNat < 2^8 by omega), List.length_cons, Spec.bigEndian_length]; rfl
  rw [if_neg h2, if_neg (show ¬ v.toNat < 2^8 by omega)]
  by_cases h3 : v.toNat < 65536
  · rw [if_pos h3, if_pos (show v.toNat < 2^16 by omega), List.length_cons, Spec.bigEndian_length]; rfl
  rw [if_neg h3, if_neg (show ¬ v.toNat < 2^16 by omega)]
  by_cases h4 : v.toNat < 4294967296
  · rw [if_pos h4, if_pos (show v.toNat < 2^32 by omega), List.length_cons, Spec.bigEndian_length]; rfl
  rw [if_neg h4, if_neg (show ¬ v.toNat < 2^32 by omega), List.length_cons, Spec.bigEndian_length]
  rfl

theorem sized_uint32 (v : UInt32) : Sized (writeUint32 v) (Sizer.writeUint32 v) (uint v.toNat) := by
  have := sized_uint64 v.toUInt64; rwa [UInt32.toNat_toUInt64] at this
theorem sized_uint16 (v : UInt16) : Sized (writeUint16 v) (Sizer.writeUint16 v) (uint v.toNat) := by
  have := sized_uint64 v.toUInt64; rwa [UInt16.toNat_toUInt64] at this
theorem sized_uint8 (v : UInt8) : Sized (writeUint8 v) (Sizer.writeUint8 v) (uint v.toNat) := by
  have := sized_uint64 v.toUInt64; rwa [UInt8.toNat_toUInt64] at this

theorem sized_writeNil : Sized writeNil Sizer.writeNil nil :=
  sized_of (setUint8_writes _) (k := 1) (fun _ => rfl) rfl

theorem sized_bool (v : Bool) : Sized (writeBool v) (Sizer.writeBool v) (bool v) :=
  sized_of (writeBool_writes v) (k := 1) (fun _ => rfl) (by cases v <;> rfl)

theorem sized_float32 (b : UInt32) :
    Sized (writeFloat32 b) (Sizer.writeFloat32 b) (float32 b.toNat) :=
  sized_of (writeFloat32_writes b) (k := 5) (fun _ => rfl) (by
    unfold float32; rw [List.length_cons, Spec.bigEndian_length]; rfl)

theorem sized_float64 (b : UInt64) :
    Sized (writeFloat64 b) (Sizer.writeFloat64 b) (float64 b.toNat) :=
  sized_of (writeFloat64_writes b) (k := 9) (fun _ => rfl) (by
    unfold float64; rw [List.length_cons, Spec.bigEndian_length]; rfl)

theorem sized_strHead (n : UInt32) :
    Sized (writeStringLength n) (Sizer.writeStringLength n) (strHead n.toNat) := by
  refine ⟨writeStringLength_writes n, fun s => ?_⟩
  unfold Sizer.writeStringLength strHead
  simp only [u32_lt_iff, u32_le_iff]
  rw [show (32 : UInt32).toNat = 32 from rfl, show (255 : UInt32).toNat = 255 from rfl,
    show (65535 : UInt32).toNat = 65535 from rfl]
  by_cases h1 : n.toNat < 32
  · rw [if_pos h1, if_pos (show n.toNat ≤ 31 by omega)]; rfl
  rw [if_neg h1, if_neg (show ¬ n.toNat ≤ 31 by omega)]
  by_cases h2 : n.toNat ≤ 255
  · rw [if_pos h2, if_pos (show n.toNat < 2^8 by omega), List.length_cons, Spec.bigEndian_length]; rfl
  rw [if_neg h2, if_neg (show ¬ n.toNat < 2^8 by omega)]
  by_cases h3 : n.toNat ≤ 65535
  · rw [if_pos h3, if_pos (show n.toNat < 2^16 by omega), List.length_cons, Spec.bigEndian_length]; rfl
  rw [if_neg h3, if_neg (show ¬ n.toNat < 2^16 by omega), List.length_cons, Spec.bigEndian_length]
  rfl

theorem sized_str (b : Bytes) (h : (str b).length < 2^32) :
    Sized (writeString b) (Sizer.writeString b) (str b) := by
  have hl : b.length < 2^32 := by simp only [str, List.length_append] at h; omega
  have hn : (UInt32.ofNat b.length).toNat = b.length := UInt32.toNat_ofNat_lt hl
  have h1 := sized_strHead (UInt32.ofNat b.length)
  rw [hn] at h1
  refine ⟨writeString_writes b hl, fun s => ?_⟩
  unfold Sizer.writeString str
  rw [h1.2, List.length_append, UInt32.ofNat_add, UInt32.add_assoc]

theorem sized_bin (b : Bytes) (h : (bin b).length < 2^32) (h255 : b.length ≠ 255) :
    Sized (writeByteArray b) (Sizer.writeByteArray b) (bin b) := by
  have hl : b.length < 2^32 := by simp only [bin, List.length_append] at h; omega
  have hn : (UInt32.ofNat b.length).toNat = b.length := UInt32.toNat_ofNat_lt hl
  refine ⟨writeByteArray_writes b hl, fun s => ?_⟩
  unfold Sizer.writeByteArray
  have key : ∀ (k : UInt32) (m : Nat), k.toNat + 1 = m →
      s + k + (UInt32.ofNat b.length + 1) = s + UInt32.ofNat (m + b.length) := by
    intro k m hm
    rw [UInt32.ofNat_add, ← hm, UInt32.ofNat_add, UInt32.ofNat_toNat, UInt32.add_assoc]
    congr 1
    rw [UInt32.add_assoc, UInt32.add_comm (UInt32.ofNat b.length)]
    rfl
  by_cases h0 : UInt32.ofNat b.length = 0
  · have : b = [] := by
      rw [h0] at hn
      exact List.length_eq_zero_iff.mp hn.symm
    subst this
    rfl
  rw [if_neg h0]
  unfold Sizer.writeBinLength bin binHead
  simp only [u32_lt_iff, u32_le_iff, hn]
  rw [show (255 : UInt32).toNat = 255 from rfl, show (65535 : UInt32).toNat = 65535 from rfl,
    List.length_append]
  by_cases h1 : b.length < 255
  · rw [if_pos h1, if_pos (show b.length < 2^8 by omega), List.length_cons, Spec.bigEndian_length]
    exact key 1 2 rfl
  rw [if_neg h1, if_neg (show ¬ b.length < 2^8 by omega)]
  by_cases h2 : b.length ≤ 65535
  · rw [if_pos h2, if_pos (show b.length < 2^16 by omega), List.length_cons, Spec.bigEndian_length]
    exact key 2 3 rfl
  rw [if_neg h2, if_neg (show ¬ b.length < 2^16 by omega), List.length_cons, Spec.bigEndian_length]
  exact key 4 5 rfl

theorem sized_arraySize (n : UInt32) :
    Sized (writeArraySize n) (Sizer.writeArraySize n) (arrHead n.toNat) := by
  refine ⟨writeArraySize_writes n, fun s => ?_⟩
  unfold Sizer.writeArraySize arrHead
  simp only [u32_lt_iff, u32_le_iff]
  rw [show (16 : UInt32).toNat = 16 from rfl, show (65535 : UInt32).toNat = 65535 from rfl]
  by_cases h1 : n.toNat < 16
  · rw [if_pos h1, if_pos (show n.toNat ≤ 15 by omega)]; rfl
  rw [if_neg h1, if_neg (show ¬ n.toNat ≤ 15 by omega)]
  by_cases h3 : n.toNat ≤ 65535
  · rw [if_pos h3, if_pos (show n.toNat < 2^16 by omega), List.length_cons, Spec.bigEndian_length]; rfl
  rw [if_neg h3, if_neg (show ¬ n.toNat < 2^16 by omega), List.length_cons, Spec.bigEndian_length]
  rfl

theorem sized_mapSize (n : UInt32) :
    Sized (writeMapSize n) (Sizer.writeMapSize n) (mapHead n.toNat) := by
  refine ⟨writeMapSize_writes n, fun s => ?_⟩
  unfold Sizer.writeMapSize mapHead
  simp only [u32_lt_iff, u32_le_iff]
  rw [show (16 : UInt32).toNat = 16 from rfl, show (65535 : UInt32).toNat = 65535 from rfl]
  by_cases h1 : n.toNat < 16
  · rw [if_pos h1, if_pos (show n.toNat ≤ 15 by omega)]; rfl
  rw [if_neg h1, if_neg (show ¬ n.toNat ≤ 15 by omega)]
  by_cases h3 : n.toNat ≤ 65535
  · rw [if_pos h3, if_pos (show n.toNat < 2^16 by omega), List.length_cons, Spec.bigEndian_length]; rfl
  rw [if_neg h3, if_neg (show ¬ n.toNat < 2^16 by omega), List.length_cons, Spec.bigEndian_length]
  rfl

theorem sizer_encodeTime (t : Time) : Sizer.encodeTime t = (encodeTime t).length := by
  unfold Sizer.encodeTime encodeTime
  dsimp only
  split
  · split <;> rfl
  · rfl

theorem sized_time (t : Time) (h : validTime t) :
    Sized (writeTime t) (Sizer.writeTime t) (instant t) := by
  refine ⟨writeTime_writes t h, fun s => ?_⟩
  obtain ⟨hd, e, _, hh⟩ := timestamp_eq t h
  unfold Sizer.writeTime instant
  rw [e, sizer_encodeTime]
  rcases hh with ⟨rfl, hl⟩ | ⟨rfl, hl⟩ | ⟨rfl, hl⟩ <;>
    simp only [List.length_append, List.length_cons, List.length_nil, hl] <;>
    simp only [Sizer.encodeExtLen] <;> simp <;> rw [UInt32.add_assoc] <;> rfl

theorem sized_nillable {α : Type} {w : α → Enc} {g : α → UInt32 → UInt32} {e : α → Bytes}
    {o : Option α} (h : ∀ v, o = some v → Sized (w v) (g v) (e v)) :
    Sized (writeNillable w o) (Sizer.writeNillable g o) (optional e o) := by
  cases o with
  | none => exact sized_writeNil
  | some v => exact h v rfl

theorem ofNat_mod32 (n : Nat) : (UInt32.ofNat n).toNat = n % 2^32 := rfl

mutual
theorem sized_dyn (d : Dyn) (hp : plainDyn d) (hl : (emitDyn d).length < 2^32) :
    Sized (writeAny d) (Sizer.writeAny d) (emitDyn d) := by
  match d with
  | .nil => exact sized_writeNil.seq sized_writeNil
  | .codec cs => exact sized_calls cs hp hl
  | .int v => exact sized_int64 v
  | .int8 v => exact sized_int8 v
  | .int16 v => exact sized_int16 v
  | .int32 v => exact sized_int32 v
  | .int64 v => exact sized_int64 v
  | .uint v => exact sized_uint64 v
  | .uint8 v => exact sized_uint8 v
  | .uint16 v => exact sized_uint16 v
  | .uint32 v => exact sized_uint32 v
  | .uint64 v => exact sized_uint64 v
  | .bool v => exact sized_bool v
  | .float32 b => exact sized_float32 b
  | .float64 b => exact sized_float64 b
  | .str s => exact sized_str s hl
  | .time _ => exact hp.elim
  | .bytes b => exact sized_bin b hl hp
  | .arr l =>
    have h1 := sized_arraySize (UInt32.ofNat l.length)
    rw [ofNat_mod32] at h1
    simp only [emitDyn, List.length_append] at hl
    exact h1.seq (sized_elems l hp (by omega))
  | .times _ => exact hp.elim
  | .map m =>
    have h1 := sized_mapSize (UInt32.ofNat m.length)
    rw [ofNat_mod32] at h1
    simp only [emitDyn, List.length_append] at hl
    exact h1.seq (sized_pairs m hp (by omega))
  | .other => exact sized_nil

theorem sized_elems (l : List Dyn) (hp : plainElems l) (hl : (emitElems l).length < 2^32) :
    Sized (writeElems l) (Sizer.writeElems l) (emitElems l) := by
  match l with
  | [] => exact sized_nil
  | d :: l =>
    simp only [emitElems, List.length_append] at hl
    exact (sized_dyn d hp.1 (by omega)).seq (sized_elems l hp.2 (by omega))

theorem sized_pairs (m : List (Dyn × Dyn)) (hp : plainPairs m) (hl : (emitPairs m).length < 2^32) :
    Sized (writePairs m) (Sizer.writePairs m) (emitPairs m) := by
  match m with
  | [] => exact sized_nil
  | (k, v) :: m =>
    simp only [emitPairs, List.length_append] at hl
    exact (sized_dyn k hp.1 (by omega)).seq ((sized_dyn v hp.2.1 (by omega)).seq
      (sized_pairs m hp.2.2 (by omega)))

theorem sized_call (c : Call) (hp : plainCall c) (hl : (emitCall c).length < 2^32) :
    Sized (writeCall c) (Sizer.writeCall c) (emitCall c) := by
  match c with
  | .nil => exact sized_writeNil
  | .bool v => exact sized_bool v
  | .nillableBool v => exact sized_nillable (fun v _ => sized_bool v)
  | .int8 v => exact sized_int8 v
  | .nillableInt8 v => exact sized_nillable (fun v _ => sized_int8 v)
  | .int16 v => exact sized_int16 v
  | .nillableInt16 v => exact sized_nillable (fun v _ => sized_int16 v)
  | .int32 v => exact sized_int32 v
  | .nillableInt32 v => exact sized_nillable (fun v _ => sized_int32 v)
  | .int64 v => exact sized_int64 v
  | .nillableInt64 v => exact sized_nillable (fun v _ => sized_int64 v)
  | .uint8 v => exact sized_uint8 v
  | .nillableUint8 v => exact sized_nillable (fun v _ => sized_uint8 v)
  | .uint16 v => exact sized_uint16 v
  | .nillableUint16 v => exact sized_nillable (fun v _ => sized_uint16 v)
  | .uint32 v => exact sized_uint32 v
  | .nillableUint32 v => exact sized_nillable (fun v _ => sized_uint32 v)
  | .uint64 v => exact sized_uint64 v
  | .nillableUint64 v => exact sized_nillable (fun v _ => sized_uint64 v)
  | .float32 b => exact sized_float32 b
  | .nillableFloat32 v => exact sized_nillable (fun v _ => sized_float32 v)
  | .float64 b => exact sized_float64 b
  | .nillableFloat64 v => exact sized_nillable (fun v _ => sized_float64 v)
  | .str s => exact sized_str s hl
  | .nillableStr s =>
    exact sized_nillable (fun v hv => sized_str v (by subst hv; exact hl))
  | .time t => exact sized_time t hp
  | .nillableTime t => exact sized_nillable (fun v hv => sized_time v (hp v hv))
  | .bytes b => exact sized_bin b hl hp
  | .nillableBytes b =>
    exact sized_nillable (fun v hv => sized_bin v (by subst hv; exact hl) (hp v hv))
  | .arraySize n => exact sized_arraySize n
  | .mapSize n => exact sized_mapSize n
  | .any d => exact sized_dyn d hp hl

theorem sized_calls (cs : List Call) (hp : plainCalls cs) (hl : (emitCalls cs).length < 2^32) :
    Sized (writeCalls cs) (Sizer.writeCalls cs) (emitCalls cs) := by
  match cs with
  | [] => exact sized_nil
  | c :: cs =>
    simp only [emitCalls, List.length_append] at hl
    exact (sized_call c hp.1 (by omega)).seq (sized_calls cs hp.2 (by omega))
end

/-- What C38 says of a sequence of calls: if the Encoder writes the bytes `w`, then the Sizer
predicts their number, and the codec functions, which allocate that much, return `w`. -/
def SizerExact (cs : List Call) : Prop :=
  ∀ w, w.length < 2^32 → Writes (writeCalls cs) w →
    (Sizer.writeCalls cs 0).toNat = w.length ∧ toBytes cs = .ok w ∧ toBytesChecked cs = .ok w

/-- C38 in full. -/
def C38_statement : Prop := ∀ cs : List Call, SizerExact cs

/-- The byte array counter-example: 255 bytes are counted as 258 and take 257 (sizer.go 121 has `<`
where encoder.go 262 has `<=`). -/
theorem C38_violated_bytes (b : Bytes) (h : b.length = 255) : ¬ SizerExact [.bytes b] := by
  intro hs
  have hw : Writes (writeCalls [.bytes b]) (bin b ++ []) :=
    (writeByteArray_writes b (by omega)).seq writes_nil
  have hbl : (bin b ++ []).length = 257 := by
    rw [List.append_nil, bin, List.length_append, h]; rfl
  have h1 := (hs _ (by omega) hw).1
  rw [hbl] at h1
  have h2 : Sizer.writeCalls [.bytes b] 0 = 258 := by
    show Sizer.writeByteArray b 0 = 258
    unfold Sizer.writeByteArray
    rw [h]
    rfl
  rw [h2] at h1
  exact absurd h1 (by decide)

/-- The time counter-example: `WriteAny` of a time is counted and not written. -/
theorem C38_violated_time (t : Time) (h : validTime t) : ¬ SizerExact [.any (.time t)] := by
  intro hs
  have h1 := (hs [] (by decide) (writes_nil.seq writes_nil)).1
  have h2 := (sized_time t h).2 0
  have h3 : Sizer.writeCalls [.any (.time t)] 0 = Sizer.writeTime t 0 := rfl
  rw [h3, h2] at h1
  obtain ⟨hd, e, _, hh⟩ := timestamp_eq t h
  unfold instant at h1
  rw [e] at h1
  rcases hh with ⟨rfl, hl⟩ | ⟨rfl, hl⟩ | ⟨rfl, hl⟩ <;>
    simp [List.length_cons, List.length_nil, hl] at h1

theorem C38_violated : ¬ C38_statement := fun h =>
  C38_violated_time ⟨0, 0⟩ (by show _ < _; decide) (h _)

/-- What the Encoder writes is unique. -/
theorem writes_unique_le {f : Enc} {v w : Bytes} (hv : Writes f v) (hw : Writes f w)
    (l : v.length ≤ w.length) (l2 : w.length < 2^32) : v = w := by
  have h1 := hv [] (List.replicate v.length 0) (List.replicate (w.length - v.length) 0) (by simp)
    (by simp only [List.nil_append, List.length_append, List.length_replicate]; omega)
  have h2 := hw [] (List.replicate w.length 0) [] (by simp)
    (by simp only [List.nil_append, List.append_nil, List.length_replicate]; omega)
  rw [List.replicate_append_replicate, show v.length + (w.length - v.length) = w.length from by omega]
    at h1
  rw [List.append_nil, h1] at h2
  simp only [at_, List.nil_append, List.append_nil, Go.ok.injEq, DR.mk.injEq] at h2
  obtain ⟨hb, ho, _⟩ := h2
  have ho := congrArg UInt32.toNat ho
  rw [UInt32.toNat_ofNat_lt (by omega), UInt32.toNat_ofNat_lt l2] at ho
  rw [← hb, ho, Nat.sub_self]
  simp

theorem writes_unique {f : Enc} {v w : Bytes} (hv : Writes f v) (hw : Writes f w)
    (l1 : v.length < 2^32) (l2 : w.length < 2^32) : v = w := by
  by_cases h : v.length ≤ w.length
  · exact writes_unique_le hv hw h l2
  · exact (writes_unique_le hw hv (by omega) l1).symm

theorem toBytes_of_sized {cs : List Call} {w : Bytes}
    (h : Sized (writeCalls cs) (Sizer.writeCalls cs) w) (hl : w.length < 2^32) :
    (Sizer.writeCalls cs 0).toNat = w.length ∧ toBytes cs = .ok w ∧ toBytesChecked cs = .ok w := by
  have hs : (Sizer.writeCalls cs 0).toNat = w.length := by
    rw [h.2, UInt32.zero_add, UInt32.toNat_ofNat_lt hl]
  have hw := h.1 [] (List.replicate w.length 0) [] (by simp) (by simp; omega)
  have he : writeCalls cs (DR.new (List.replicate (Sizer.writeCalls cs 0).toNat 0)) =
      .ok ⟨w, UInt32.ofNat w.length, none⟩ := by
    rw [hs]
    simpa [at_, DR.new] using hw
  refine ⟨hs, ?_, ?_⟩
  · unfold toBytes; rw [he]; rfl
  · unfold toBytesChecked; rw [he]; rfl

/-- C38, partial: for every sequence of calls without a 255-byte byte array and without a time
inside a dynamic value, whose bytes fit a 32-bit length, the Encoder writes the bytes `emitCalls cs`,
the Sizer predicts exactly their number, and the codec functions return exactly these bytes. Missing:
the two excluded kinds, where the prediction is wrong (`C38_violated_bytes`, `C38_violated_time`). -/
theorem C38_partial (cs : List Call) (hp : plainCalls cs) (hl : (emitCalls cs).length < 2^32) :
    Writes (writeCalls cs) (emitCalls cs) ∧ SizerExact cs := by
  have hs := sized_calls cs hp hl
  refine ⟨hs.1, fun w hw hww => ?_⟩
  have := writes_unique hs.1 hww hl hw
  subst this
  exact toBytes_of_sized hs hw

example : plainCalls [.mapSize 1, .str [107], .any (.arr [.nil, .bytes [1, 2], .map [(.int8 1, .bool true)]])] ∧
    toBytes [.mapSize 1, .str [107], .any (.arr [.nil, .bytes [1, 2], .map [(.int8 1, .bool true)]])] =
      .ok [0x81, 0xa1, 107, 0x93, 0xc0, 0xc0, 0xc4, 2, 1, 2, 0x81, 1, 0xc3] := by
  constructor
  · simp [plainCalls, plainCall, plainDyn, plainElems, plainPairs]
  · decide +kernel

end Verif.Props
