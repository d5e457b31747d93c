import Verif.Props.MsgpackSizer
/-
Property C89: writing into a buffer that is too small.
-/
set_option autoImplicit false
namespace Verif.Props
open Verif Spec Msgpack

/-! ### Every Encoder method is a fixed sequence of stores -/

/-- One store: `SetXxx` or `SetBytes`. -/
inductive Piece
  | fixed (w : Bytes)
  | raw (w : Bytes)

def Piece.bytes : Piece → Bytes
  | .fixed w => w
  | .raw w => w

def Piece.run : Piece → Enc
  | .fixed w => setFixed w
  | .raw w => setBytes w

def pieceRun : List Piece → Enc
  | [] => .ok
  | p :: ps => p.run ≫ pieceRun ps

def pieceBytes (ps : List Piece) : Bytes := ps.flatMap Piece.bytes

theorem seq_ok_left (f : Enc) : (Go.ok : Enc) ≫ f = f := rfl

theorem seq_assoc (f g h : Enc) : (f ≫ g) ≫ h = f ≫ (g ≫ h) := by
  funext d
  show (f d >>= g) >>= h = f d >>= fun x => g x >>= h
  cases f d <;> rfl

theorem pieceRun_append (a b : List Piece) : pieceRun (a ++ b) = pieceRun a ≫ pieceRun b := by
  induction a with
  | nil => rfl
  | cons p a ih =>
    show p.run ≫ pieceRun (a ++ b) = (p.run ≫ pieceRun a) ≫ pieceRun b
    rw [ih, seq_assoc]

theorem pieceRun_writes (ps : List Piece) : Writes (pieceRun ps) (pieceBytes ps) := by
  induction ps with
  | nil => exact writes_nil
  | cons p ps ih =>
    show Writes (p.run ≫ pieceRun ps) (p.bytes ++ pieceBytes ps)
    cases p with
    | fixed w => exact (setFixed_writes w).seq ih
    | raw w => exact (setBytes_writes w).seq ih

theorem piece_sticky (p : Piece) (d : DR) (e : String) (h : d.err = some e) : p.run d = .ok d := by
  cases p <;> simp [Piece.run, setFixed, setBytes, Msgpack.check, h]

theorem pieces_sticky (ps : List Piece) (d : DR) (e : String) (h : d.err = some e) : pieceRun ps d = .ok d := by
  induction ps with
  | nil => rfl
  | cons p ps ih =>
    show p.run d >>= pieceRun ps = _
    rw [piece_sticky p d e h]
    exact ih

theorem piece_short (p : Piece) (pre rest : Bytes) (h : rest.length < p.bytes.length)
    (hl : pre.length + p.bytes.length < 2^32) (h2 : (pre ++ rest).length < 2^32) :
    p.run (at_ pre rest) = .ok { at_ pre rest with err := some errRange } := by
  have hn : (UInt32.ofNat p.bytes.length).toNat = p.bytes.length := UInt32.toNat_ofNat_lt (by omega)
  cases p with
  | fixed w =>
    simp only [Piece.bytes] at *
    simp only [Piece.run, setFixed]
    rw [check_at_short h2 (by rw [hn]; exact h) (by rw [hn]; exact hl)]
  | raw w =>
    simp only [Piece.bytes] at *
    simp only [Piece.run, setBytes]
    rw [check_at_short h2 (by rw [hn]; exact h) (by rw [hn]; exact hl)]

theorem piece_writes (p : Piece) : Writes p.run p.bytes := by
  cases p with
  | fixed w => exact setFixed_writes w
  | raw w => exact setBytes_writes w

/-- Too little room: the range error, and of the rest only a prefix is touched. -/
theorem pieces_short (ps : List Piece) : ∀ (pre rest : Bytes), rest.length < (pieceBytes ps).length →
    pre.length + (pieceBytes ps).length < 2^32 →
    ∃ v, v <+: pieceBytes ps ∧ v.length ≤ rest.length ∧
      pieceRun ps (at_ pre rest) = .ok { at_ (pre ++ v) (rest.drop v.length) with err := some errRange } := by
  induction ps with
  | nil => intro pre rest h; simp [pieceBytes] at h
  | cons p ps ih =>
    intro pre rest h hl
    have e : pieceBytes (p :: ps) = p.bytes ++ pieceBytes ps := rfl
    rw [e, List.length_append] at h hl
    have er : pieceRun (p :: ps) (at_ pre rest) = (p.run (at_ pre rest) >>= pieceRun ps) := rfl
    by_cases hp : rest.length < p.bytes.length
    · refine ⟨[], List.nil_prefix, Nat.zero_le _, ?_⟩
      rw [er, piece_short p pre rest hp (by omega) (by rw [List.length_append]; omega)]
      simp only [Go.bind_ok, List.append_nil, List.length_nil, List.drop_zero]
      exact pieces_sticky ps _ errRange rfl
    · have hw := piece_writes p pre (rest.take p.bytes.length) (rest.drop p.bytes.length)
        (by rw [List.length_take]; omega) (by
          rw [List.append_assoc, List.take_append_drop, List.length_append]; omega)
      rw [List.take_append_drop] at hw
      obtain ⟨v, h1, h2, h3⟩ := ih (pre ++ p.bytes) (rest.drop p.bytes.length)
        (by rw [List.length_drop]; omega) (by rw [List.length_append]; omega)
      rw [List.length_drop] at h2
      refine ⟨p.bytes ++ v, ?_, by rw [List.length_append]; omega, ?_⟩
      · rw [e]; exact (List.prefix_append_right_inj _).mpr h1
      · rw [er, hw, Go.bind_ok, h3, List.append_assoc, List.drop_drop, List.length_append]

/-- `f` is a sequence of stores that together make up `w`. -/
def Stores (f : Enc) (w : Bytes) : Prop := ∃ ps, f = pieceRun ps ∧ pieceBytes ps = w

theorem Stores.seq {f g : Enc} {v w : Bytes} (hf : Stores f v) (hg : Stores g w) : Stores (f ≫ g) (v ++ w) := by
  obtain ⟨a, rfl, rfl⟩ := hf
  obtain ⟨b, rfl, rfl⟩ := hg
  exact ⟨a ++ b, (pieceRun_append a b).symm, by simp [pieceBytes]⟩

theorem stores_ok : Stores .ok [] := ⟨[], rfl, rfl⟩

theorem seq_ok_right (f : Enc) : f ≫ (Go.ok : Enc) = f := by
  funext d
  show f d >>= Go.ok = f d
  cases f d <;> rfl

theorem stores_fixed (w : Bytes) : Stores (setFixed w) w :=
  ⟨[.fixed w], by simp [pieceRun, Piece.run, seq_ok_right], by simp [pieceBytes, Piece.bytes]⟩

theorem stores_raw (w : Bytes) : Stores (setBytes w) w :=
  ⟨[.raw w], by simp [pieceRun, Piece.run, seq_ok_right], by simp [pieceBytes, Piece.bytes]⟩

/-- At most `n` bytes are stored. -/
def Short (n : Nat) (f : Enc) : Prop := ∃ w, Stores f w ∧ w.length ≤ n

theorem short_fixed (n : Nat) (w : Bytes) (h : w.length ≤ n) : Short n (setFixed w) := ⟨w, stores_fixed w, h⟩
theorem short_raw (n : Nat) (w : Bytes) (h : w.length ≤ n) : Short n (setBytes w) := ⟨w, stores_raw w, h⟩

theorem Short.seq {a b : Nat} {f g : Enc} (hf : Short a f) (hg : Short b g) : Short (a + b) (f ≫ g) := by
  obtain ⟨v, h1, h2⟩ := hf
  obtain ⟨w, h3, h4⟩ := hg
  exact ⟨v ++ w, h1.seq h3, by rw [List.length_append]; omega⟩

theorem stores_of_short {n : Nat} {f : Enc} {w : Bytes} (hs : Short n f) (hn : n < 2^32) (hw : Writes f w)
    (hl : w.length < 2^32) : Stores f w := by
  obtain ⟨v, ⟨ps, rfl, rfl⟩, h2⟩ := hs
  exact ⟨ps, rfl, writes_unique (pieceRun_writes ps) hw (by omega) hl⟩

theorem short_u8 (b : UInt8) : Short 8 (setUint8 b) := short_fixed _ _ (by simp)
theorem short_u16 (b : UInt16) : Short 8 (setUint16 b) := short_fixed _ _ (by simp [be16])
theorem short_u32 (b : UInt32) : Short 8 (setUint32 b) := short_fixed _ _ (by simp [be32])
theorem short_u64 (b : UInt64) : Short 8 (setUint64 b) := short_fixed _ _ (by simp [be64])
theorem short_i8 (b : Int8) : Short 8 (setInt8 b) := short_fixed _ _ (by simp)
theorem short_i16 (b : Int16) : Short 8 (setInt16 b) := short_fixed _ _ (by simp [be16])
theorem short_i32 (b : Int32) : Short 8 (setInt32 b) := short_fixed _ _ (by simp [be32])
theorem short_i64 (b : Int64) : Short 8 (setInt64 b) := short_fixed _ _ (by simp [be64])

theorem Short.mono {a b : Nat} {f : Enc} (h : Short a f) (hab : a ≤ b) : Short b f := by
  obtain ⟨w, h1, h2⟩ := h
  exact ⟨w, h1, by omega⟩

theorem short_int64 (v : Int64) : Short 16 (writeInt64 v) := by
  unfold writeInt64
  repeat' split
  · exact (short_u8 _).mono (by decide)
  · exact (short_u8 _).mono (by decide)
  · exact (short_u8 _).seq (short_i8 _)
  · exact (short_u8 _).seq (short_i16 _)
  · exact (short_u8 _).seq (short_i32 _)
  · exact (short_u8 _).seq (short_i64 _)

theorem short_uint64 (v : UInt64) : Short 16 (writeUint64 v) := by
  unfold writeUint64
  repeat' split
  · exact (short_u8 _).mono (by decide)
  · exact (short_u8 _).seq (short_u8 _)
  · exact (short_u8 _).seq (short_u16 _)
  · exact (short_u8 _).seq (short_u32 _)
  · exact (short_u8 _).seq (short_u64 _)

theorem short_strHead (n : UInt32) : Short 16 (writeStringLength n) := by
  unfold writeStringLength
  repeat' split
  · exact (short_u8 _).mono (by decide)
  · exact (short_u8 _).seq (short_u8 _)
  · exact (short_u8 _).seq (short_u16 _)
  · exact (short_u8 _).seq (short_u32 _)

theorem short_binHead (n : UInt32) : Short 16 (writeBinLength n) := by
  unfold writeBinLength
  repeat' split
  · exact (short_u8 _).seq (short_u8 _)
  · exact (short_u8 _).seq (short_u16 _)
  · exact (short_u8 _).seq (short_u32 _)

theorem short_arraySize (n : UInt32) : Short 16 (writeArraySize n) := by
  unfold writeArraySize
  repeat' split
  · exact (short_u8 _).mono (by decide)
  · exact (short_u8 _).seq (short_u16 _)
  · exact (short_u8 _).seq (short_u32 _)

theorem short_mapSize (n : UInt32) : Short 16 (writeMapSize n) := by
  unfold writeMapSize
  repeat' split
  · exact (short_u8 _).mono (by decide)
  · exact (short_u8 _).seq (short_u16 _)
  · exact (short_u8 _).seq (short_u32 _)

theorem short_bool (v : Bool) : Short 8 (writeBool v) := by
  unfold writeBool; split <;> exact short_u8 _

theorem short_extLen (l : Nat) : Short 8 (encodeExtLen l) := by
  unfold encodeExtLen
  repeat' split
  · exact short_u8 _
  · exact short_u8 _
  · exact short_u8 _
  · exact short_u8 _
  · exact short_u8 _
  · exact short_raw _ _ (by simp)
  · exact short_raw _ _ (by simp [be16])
  · exact short_raw _ _ (by simp [be32])

theorem short_time (t : Time) : Short 32 (writeTime t) := by
  have : (encodeTime t).length ≤ 16 := by
    unfold encodeTime
    simp only
    repeat' split
    · simp [be32]
    · simp [be64]
    · simp [be32, be64]
  exact (short_extLen _).seq ((short_i8 _).seq (short_raw 16 _ this))

/-! ### What each method stores -/

theorem sint_short (n : Int) : (sint n).length < 2^32 := by
  unfold sint
  repeat' split
  all_goals simp [bigEndian]

theorem uint_short (n : Nat) : (uint n).length < 2^32 := by
  unfold uint
  repeat' split
  all_goals simp [bigEndian]

theorem stores_i64 (v : Int64) : Stores (writeInt64 v) (sint v.toInt) :=
  stores_of_short (short_int64 v) (by decide) (sized_int64 v).1 (sint_short _)
theorem stores_i32 (v : Int32) : Stores (writeInt32 v) (sint v.toInt) :=
  stores_of_short (short_int64 _) (by decide) (sized_int32 v).1 (sint_short _)
theorem stores_i16 (v : Int16) : Stores (writeInt16 v) (sint v.toInt) :=
  stores_of_short (short_int64 _) (by decide) (sized_int16 v).1 (sint_short _)
theorem stores_i8 (v : Int8) : Stores (writeInt8 v) (sint v.toInt) :=
  stores_of_short (short_int64 _) (by decide) (sized_int8 v).1 (sint_short _)
theorem stores_u64 (v : UInt64) : Stores (writeUint64 v) (uint v.toNat) :=
  stores_of_short (short_uint64 v) (by decide) (sized_uint64 v).1 (uint_short _)
theorem stores_u32 (v : UInt32) : Stores (writeUint32 v) (uint v.toNat) :=
  stores_of_short (short_uint64 _) (by decide) (sized_uint32 v).1 (uint_short _)
theorem stores_u16 (v : UInt16) : Stores (writeUint16 v) (uint v.toNat) :=
  stores_of_short (short_uint64 _) (by decide) (sized_uint16 v).1 (uint_short _)
theorem stores_u8 (v : UInt8) : Stores (writeUint8 v) (uint v.toNat) :=
  stores_of_short (short_uint64 _) (by decide) (sized_uint8 v).1 (uint_short _)
theorem stores_nil : Stores writeNil nil := stores_fixed _
theorem stores_bool (v : Bool) : Stores (writeBool v) (bool v) :=
  stores_of_short (short_bool v) (by decide) (writeBool_writes v) (by cases v <;> decide)
theorem stores_f32 (b : UInt32) : Stores (writeFloat32 b) (float32 b.toNat) :=
  stores_of_short ((short_u8 _).seq (short_fixed 8 _ (by simp [be32]))) (by decide) (writeFloat32_writes b)
    (by simp [float32, bigEndian])
theorem stores_f64 (b : UInt64) : Stores (writeFloat64 b) (float64 b.toNat) :=
  stores_of_short ((short_u8 _).seq (short_fixed 8 _ (by simp [be64]))) (by decide) (writeFloat64_writes b)
    (by simp [float64, bigEndian])

theorem head_short (n : Nat) : (strHead n).length < 2^32 ∧ (binHead n).length < 2^32 ∧ (arrHead n).length < 2^32 ∧
    (mapHead n).length < 2^32 := by
  refine ⟨?_, ?_, ?_, ?_⟩
  · unfold strHead; repeat' split
    all_goals simp [bigEndian]
  · unfold binHead; repeat' split
    all_goals simp [bigEndian]
  · unfold arrHead; repeat' split
    all_goals simp [bigEndian]
  · unfold mapHead; repeat' split
    all_goals simp [bigEndian]

theorem stores_str (s : Bytes) (h : (str s).length < 2^32) : Stores (writeString s) (str s) := by
  have hs : s.length < 2^32 := by
    unfold str at h; rw [List.length_append] at h; omega
  have h1 := stores_of_short (short_strHead (UInt32.ofNat s.length)) (by decide)
    (writeStringLength_writes _) (head_short _).1
  rw [UInt32.toNat_ofNat_lt hs] at h1
  exact h1.seq (stores_raw s)

theorem stores_bin (b : Bytes) (h : (bin b).length < 2^32) : Stores (writeByteArray b) (bin b) := by
  have hs : b.length < 2^32 := by
    unfold bin at h; rw [List.length_append] at h; omega
  by_cases h0 : b.length = 0
  · have : b = [] := List.length_eq_zero_iff.mp h0
    subst this
    exact stores_of_short ((short_u8 _).seq (short_u8 _)) (by decide) (writeByteArray_writes [] (by decide)) h
  · have hn : ¬ UInt32.ofNat b.length = 0 := by
      intro hz
      have := congrArg UInt32.toNat hz
      rw [UInt32.toNat_ofNat_lt hs] at this
      exact h0 this
    have h1 := stores_of_short (short_binHead (UInt32.ofNat b.length)) (by decide)
      (writeBinLength_writes _) (head_short _).2.1
    rw [UInt32.toNat_ofNat_lt hs] at h1
    have e : writeByteArray b = (writeBinLength (UInt32.ofNat b.length) ≫ setBytes b) := by
      unfold writeByteArray
      simp only [hn, if_false]
    rw [e]
    exact h1.seq (stores_raw b)

theorem stores_arraySize (n : UInt32) : Stores (writeArraySize n) (arrHead n.toNat) :=
  stores_of_short (short_arraySize n) (by decide) (writeArraySize_writes n) (head_short _).2.2.1
theorem stores_mapSize (n : UInt32) : Stores (writeMapSize n) (mapHead n.toNat) :=
  stores_of_short (short_mapSize n) (by decide) (writeMapSize_writes n) (head_short _).2.2.2

theorem stores_time (t : Time) (h : validTime t) (hl : (instant t).length < 2^32) :
    Stores (writeTime t) (instant t) :=
  stores_of_short (short_time t) (by decide) (writeTime_writes t h) hl

theorem stores_nillable {α : Type} {w : α → Enc} {e : α → Bytes} {o : Option α}
    (h : ∀ v, o = some v → Stores (w v) (e v)) : Stores (writeNillable w o) (optional e o) := by
  cases o with
  | none => exact stores_nil
  | some v => exact h v rfl

mutual
/-- All times are valid (have fewer than 10^9 nanoseconds, as every `time.Time`). -/
def timesDyn : Dyn → Prop
  | .codec cs => timesCalls cs
  | .arr l => timesElems l
  | .map m => timesPairs m
  | _ => True

def timesElems : List Dyn → Prop
  | [] => True
  | d :: l => timesDyn d ∧ timesElems l

def timesPairs : List (Dyn × Dyn) → Prop
  | [] => True
  | (k, v) :: m => timesDyn k ∧ timesDyn v ∧ timesPairs m

def timesCall : Call → Prop
  | .time t => validTime t
  | .nillableTime t => ∀ x, t = some x → validTime x
  | .any d => timesDyn d
  | _ => True

def timesCalls : List Call → Prop
  | [] => True
  | c :: cs => timesCall c ∧ timesCalls cs
end

mutual
theorem stores_dyn (d : Dyn) (hp : timesDyn d) (hl : (emitDyn d).length < 2^32) :
    Stores (writeAny d) (emitDyn d) := by
  match d with
  | .nil => exact stores_nil.seq stores_nil
  | .codec cs => exact stores_calls cs hp hl
  | .int v => exact stores_i64 v
  | .int8 v => exact stores_i8 v
  | .int16 v => exact stores_i16 v
  | .int32 v => exact stores_i32 v
  | .int64 v => exact stores_i64 v
  | .uint v => exact stores_u64 v
  | .uint8 v => exact stores_u8 v
  | .uint16 v => exact stores_u16 v
  | .uint32 v => exact stores_u32 v
  | .uint64 v => exact stores_u64 v
  | .bool v => exact stores_bool v
  | .float32 b => exact stores_f32 b
  | .float64 b => exact stores_f64 b
  | .str s => exact stores_str s hl
  | .time _ => exact stores_ok
  | .bytes b => exact stores_bin b hl
  | .arr l =>
    have h1 := stores_arraySize (UInt32.ofNat l.length)
    rw [ofNat_mod32] at h1
    simp only [emitDyn, List.length_append] at hl
    exact h1.seq (stores_elems l hp (by omega))
  | .times _ => exact stores_ok
  | .map m =>
    have h1 := stores_mapSize (UInt32.ofNat m.length)
    rw [ofNat_mod32] at h1
    simp only [emitDyn, List.length_append] at hl
    exact h1.seq (stores_pairs m hp (by omega))
  | .other => exact stores_ok

theorem stores_elems (l : List Dyn) (hp : timesElems l) (hl : (emitElems l).length < 2^32) :
    Stores (writeElems l) (emitElems l) := by
  match l with
  | [] => exact stores_ok
  | d :: l =>
    simp only [emitElems, List.length_append] at hl
    exact (stores_dyn d hp.1 (by omega)).seq (stores_elems l hp.2 (by omega))

theorem stores_pairs (m : List (Dyn × Dyn)) (hp : timesPairs m) (hl : (emitPairs m).length < 2^32) :
    Stores (writePairs m) (emitPairs m) := by
  match m with
  | [] => exact stores_ok
  | (k, v) :: m =>
    simp only [emitPairs, List.length_append] at hl
    exact (stores_dyn k hp.1 (by omega)).seq ((stores_dyn v hp.2.1 (by omega)).seq
      (stores_pairs m hp.2.2 (by omega)))

theorem stores_call (c : Call) (hp : timesCall c) (hl : (emitCall c).length < 2^32) :
    Stores (writeCall c) (emitCall c) := by
  match c with
  | .nil => exact stores_nil
  | .bool v => exact stores_bool v
  | .nillableBool v => exact stores_nillable (fun v _ => stores_bool v)
  | .int8 v => exact stores_i8 v
  | .nillableInt8 v => exact stores_nillable (fun v _ => stores_i8 v)
  | .int16 v => exact stores_i16 v
  | .nillableInt16 v => exact stores_nillable (fun v _ => stores_i16 v)
  | .int32 v => exact stores_i32 v
  | .nillableInt32 v => exact stores_nillable (fun v _ => stores_i32 v)
  | .int64 v => exact stores_i64 v
  | .nillableInt64 v => exact stores_nillable (fun v _ => stores_i64 v)
  | .uint8 v => exact stores_u8 v
  | .nillableUint8 v => exact stores_nillable (fun v _ => stores_u8 v)
  | .uint16 v => exact stores_u16 v
  | .nillableUint16 v => exact stores_nillable (fun v _ => stores_u16 v)
  | .uint32 v => exact stores_u32 v
  | .nillableUint32 v => exact stores_nillable (fun v _ => stores_u32 v)
  | .uint64 v => exact stores_u64 v
  | .nillableUint64 v => exact stores_nillable (fun v _ => stores_u64 v)
  | .float32 b => exact stores_f32 b
  | .nillableFloat32 v => exact stores_nillable (fun v _ => stores_f32 v)
  | .float64 b => exact stores_f64 b
  | .nillableFloat64 v => exact stores_nillable (fun v _ => stores_f64 v)
  | .str s => exact stores_str s hl
  | .nillableStr s => exact stores_nillable (fun v hv => stores_str v (by subst hv; exact hl))
  | .time t => exact stores_time t hp hl
  | .nillableTime t => exact stores_nillable (fun v hv => stores_time v (hp v hv) (by subst hv; exact hl))
  | .bytes b => exact stores_bin b hl
  | .nillableBytes b => exact stores_nillable (fun v hv => stores_bin v (by subst hv; exact hl))
  | .arraySize n => exact stores_arraySize n
  | .mapSize n => exact stores_mapSize n
  | .any d => exact stores_dyn d hp hl

theorem stores_calls (cs : List Call) (hp : timesCalls cs) (hl : (emitCalls cs).length < 2^32) :
    Stores (writeCalls cs) (emitCalls cs) := by
  match cs with
  | [] => exact stores_ok
  | c :: cs =>
    simp only [emitCalls, List.length_append] at hl
    exact (stores_call c hp.1 (by omega)).seq (stores_calls cs hp.2 (by omega))
end

/-- C89: `cs` is a sequence of writes whose encoding is `emitCalls cs`, `b` the buffer of a new Encoder, both
together less than 4 GiB. The writes never crash and never change the size of the buffer; if there is room they
leave no error and exactly that encoding in front of what was there; if there is not, the Encoder reports the
range error, whatever is written afterwards has no effect and leaves that error, and in the buffer there is a
prefix of the encoding in front of what was there. -/
theorem C89_overflow (cs : List Call) (b : Bytes) (ht : timesCalls cs)
    (hl : b.length + (emitCalls cs).length < 2^32) :
    ∃ d, writeCalls cs (DR.new b) = .ok d ∧ d.buf.length = b.length ∧
      ((emitCalls cs).length ≤ b.length →
        d.err = none ∧ d.buf = emitCalls cs ++ b.drop (emitCalls cs).length) ∧
      (b.length < (emitCalls cs).length →
        d.err = some errRange ∧
        (∀ more, timesCalls more → (emitCalls more).length < 2^32 → writeCalls more d = .ok d) ∧
        ∃ v, v <+: emitCalls cs ∧ v.length ≤ b.length ∧ d.buf = v ++ b.drop v.length) := by
  obtain ⟨ps, e, hb⟩ := stores_calls cs ht (by omega)
  have e0 : DR.new b = at_ [] b := rfl
  by_cases h : b.length < (emitCalls cs).length
  · obtain ⟨v, h1, h2, h3⟩ := pieces_short ps [] b (by rw [hb]; exact h) (by rw [hb]; simp; omega)
    rw [hb] at h1
    refine ⟨_, by rw [e, e0, h3], ?_, fun h' => absurd h (by omega), fun _ => ⟨rfl, ?_, v, h1, h2, rfl⟩⟩
    · simp only [at_, List.nil_append, List.length_append, List.length_drop]; omega
    · intro more hm hml
      obtain ⟨qs, e2, _⟩ := stores_calls more hm hml
      rw [e2]
      exact pieces_sticky qs _ errRange rfl
  · have hw := pieceRun_writes ps [] (b.take (emitCalls cs).length) (b.drop (emitCalls cs).length)
      (by rw [hb, List.length_take]; omega) (by
        rw [List.nil_append, List.take_append_drop]; omega)
    rw [List.take_append_drop, hb] at hw
    refine ⟨_, by rw [e, e0, hw], ?_, fun _ => ⟨rfl, rfl⟩, fun h' => absurd h' h⟩
    simp only [at_, List.nil_append, List.length_append, List.length_drop]; omega

/-- A string of three bytes and a dynamic list in a buffer of five bytes: the element of the list does not
fit any more. -/
example : timesCalls [.str [1, 2, 3], .any (.arr [.uint8 200]), .nil] ∧
    emitCalls [.str [1, 2, 3], .any (.arr [.uint8 200]), .nil] = [0xa3, 1, 2, 3, 0x91, 0xcc, 200, 0xc0] ∧
    writeCalls [.str [1, 2, 3], .any (.arr [.uint8 200]), .nil] (DR.new [9, 9, 9, 9, 9]) =
      .ok ⟨[0xa3, 1, 2, 3, 0x91], 5, some errRange⟩ := by
  refine ⟨by simp [timesCalls, timesCall, timesDyn, timesElems], by decide, by decide⟩

end Verif.Props
