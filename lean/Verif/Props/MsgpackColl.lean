import Verif.Props.MsgpackSkip
import Verif.Model.Records
/-
Properties C45 (typed collections), C46 (optional values), C48 (transforms).
-/
set_option autoImplicit false
namespace Verif.Props
open Verif Spec Msgpack

/-! ## C45 -/

/-- The value `a` survives: `f` writes some bytes for it from which `r` reads it back. -/
def RoundTrips {α : Type} (f : α → List Call) (r : Rd α) (a : α) : Prop :=
  ∃ w, Writes (writeCalls (f a)) w ∧ Reads r w a

theorem elems_roundTrip {α : Type} {f : α → List Call} {r : Rd α} (l : List α)
    (h : ∀ a ∈ l, RoundTrips f r a) :
    ∃ w, Writes (writeCalls (l.flatMap f)) w ∧ Reads (readElems r l.length) w l := by
  induction l with
  | nil => exact ⟨[], writes_nil, Reads.pure []⟩
  | cons a l ih =>
    obtain ⟨w1, a1, a2⟩ := h a List.mem_cons_self
    obtain ⟨w2, b1, b2⟩ := ih fun x hx => h x (by simp [hx])
    refine ⟨w1 ++ w2, ?_, ?_⟩
    · rw [List.flatMap_cons, writeCalls_append]
      exact a1.seq b1
    · exact a2.bind (Reads.map (g := fun l => a :: l) b2)

theorem assign_new {κ ν : Type} [BEq κ] {k : κ} {v : ν} {m : List (κ × ν)}
    (h : ∀ e ∈ m, (e.1 == k) = false) : assign k v m = m ++ [(k, v)] := by
  induction m with
  | nil => rfl
  | cons e m ih =>
    obtain ⟨k', v'⟩ := e
    simp only [assign]
    rw [if_neg (by rw [h (k', v') List.mem_cons_self]; decide), ih fun e he => h e (by simp [he])]
    rfl

theorem entries_roundTrip {κ ν : Type} [BEq κ] {kf : κ → List Call} {vf : ν → List Call} {kr : Rd κ}
    {vr : Rd ν} (m : List (κ × ν)) (hk : ∀ e ∈ m, RoundTrips kf kr e.1)
    (hv : ∀ e ∈ m, RoundTrips vf vr e.2) (hd : m.Pairwise fun a b => (a.1 == b.1) = false)
    (acc : List (κ × ν)) (ha : ∀ e ∈ acc, ∀ f ∈ m, (e.1 == f.1) = false) :
    ∃ w, Writes (writeCalls (m.flatMap fun e => kf e.1 ++ vf e.2)) w ∧
      Reads (readEntries kr vr m.length acc) w (acc ++ m) := by
  induction m generalizing acc with
  | nil => exact ⟨[], writes_nil, by rw [List.append_nil]; exact Reads.pure acc⟩
  | cons e m ih =>
    obtain ⟨w1, a1, a2⟩ := hk e List.mem_cons_self
    obtain ⟨w2, b1, b2⟩ := hv e List.mem_cons_self
    rw [List.pairwise_cons] at hd
    obtain ⟨w3, c1, c2⟩ := ih (fun x hx => hk x (by simp [hx])) (fun x hx => hv x (by simp [hx])) hd.2
      (acc ++ [e]) (by
        intro x hx f hf
        rw [List.mem_append, List.mem_singleton] at hx
        rcases hx with hx | rfl
        · exact ha x hx f (by simp [hf])
        · exact hd.1 f hf)
    refine ⟨w1 ++ (w2 ++ w3), ?_, ?_⟩
    · rw [List.flatMap_cons, writeCalls_append, writeCalls_append]
      rw [← List.append_assoc]
      exact (a1.seq b1).seq c1
    · refine a2.bind (b2.bind ?_)
      rw [assign_new fun x hx => ha x hx e List.mem_cons_self]
      rw [List.append_assoc] at c2
      exact c2

/-- C45 for slices: with an element writer and reader that round-trip on every element, `WriteSlice`
writes bytes from which `ReadSlice` reads the same elements in the same order, consuming exactly these
bytes; and (if the Sizer gets them right, see C38) `SliceToBytes` returns exactly them. -/
theorem C45_slice {α : Type} (f : α → List Call) (r : Rd α) (l : List α) (hl : l.length < 2^32)
    (h : ∀ a ∈ l, RoundTrips f r a) :
    ∃ w, Writes (writeCalls (writeSlice f l)) w ∧ Reads (readSlice r) w l ∧
      (w.length < 2^32 → SizerExact (writeSlice f l) → toBytesChecked (writeSlice f l) = .ok w) := by
  obtain ⟨w, h1, h2⟩ := elems_roundTrip l h
  have hn : (UInt32.ofNat l.length).toNat = l.length := UInt32.toNat_ofNat_lt hl
  have hw : Writes (writeCalls (writeSlice f l)) _ :=
    (writeArraySize_writes (UInt32.ofNat l.length)).seq h1
  refine ⟨_, hw, ?_, fun hl hs => (hs _ hl hw).2.2⟩
  refine (readArraySize_reads _).bind ?_
  rw [hn]
  exact h2

/-- C45 for maps: the same for `WriteMap`, in whatever order the entries are visited, and
`ReadMap`. (The result is listed in the order of insertion.) -/
theorem C45_map {κ ν : Type} [BEq κ] (kf : κ → List Call) (vf : ν → List Call) (kr : Rd κ) (vr : Rd ν)
    (m : List (κ × ν)) (hl : m.length < 2^32) (hd : m.Pairwise fun a b => (a.1 == b.1) = false)
    (hk : ∀ e ∈ m, RoundTrips kf kr e.1) (hv : ∀ e ∈ m, RoundTrips vf vr e.2) :
    ∃ w, Writes (writeCalls (writeMap kf vf m)) w ∧ Reads (readMapOf kr vr) w m ∧
      (w.length < 2^32 → SizerExact (writeMap kf vf m) → toBytesChecked (writeMap kf vf m) = .ok w) := by
  obtain ⟨w, h1, h2⟩ := entries_roundTrip m hk hv hd [] (fun e he => by cases he)
  have hn : (UInt32.ofNat m.length).toNat = m.length := UInt32.toNat_ofNat_lt hl
  have hw : Writes (writeCalls (writeMap kf vf m)) _ :=
    (writeMapSize_writes (UInt32.ofNat m.length)).seq h1
  refine ⟨_, hw, ?_, fun hl hs => (hs _ hl hw).2.2⟩
  refine (readMapSize_reads _).bind ?_
  rw [hn]
  exact h2

theorem roundTrips_uint64 (v : UInt64) : RoundTrips (fun v => [Call.uint64 v]) readUint64 v :=
  ⟨_, writes_one (writeUint64_writes v), readUint64_reads v _ (uint_form v)⟩

theorem roundTrips_string (s : Bytes) (h : s.length < 2^32) :
    RoundTrips (fun s => [Call.str s]) readString s :=
  ⟨_, writes_one (writeString_writes s h), readString_reads s h⟩

/-- A map from strings to slices of numbers. -/
example : ∃ w, Writes (writeCalls (writeMap (fun s => [.str s]) (writeSlice fun v => [.uint64 v])
      [([97], [1, 300]), ([98], [])])) w ∧
    Reads (readMapOf readString (readSlice readUint64)) w [([97], [1, 300]), ([98], [])] := by
  obtain ⟨w, h1, h2, _⟩ := C45_map (fun s => [.str s]) (writeSlice fun v => [.uint64 v]) readString
    (readSlice readUint64) [([97], [1, 300]), ([98], [])] (by decide) (by simp)
    (by
      intro e he
      simp only [List.mem_cons, List.not_mem_nil, or_false] at he
      rcases he with rfl | rfl <;> exact roundTrips_string _ (by decide))
    (by
      intro e he
      have hl : e.2.length < 2^32 := by
        simp only [List.mem_cons, List.not_mem_nil, or_false] at he
        rcases he with rfl | rfl <;> decide
      obtain ⟨w, a, b, _⟩ := C45_slice _ _ e.2 hl fun v _ => roundTrips_uint64 v
      exact ⟨w, a, b⟩)
  exact ⟨w, h1, h2⟩

/-! ## C46 -/

/-- Optional values accepted by `P` survive, nil is told from the others, and only nil is encoded with
the nil marker first. -/
def OptionalOK {α : Type} (f : Option α → Enc) (r : Rd (Option α)) (P : α → Prop) : Prop :=
  ∀ o : Option α, (∀ v, o = some v → P v) →
    ∃ w, Writes (f o) w ∧ Reads r w o ∧ (w.head? = some 0xc0 ↔ o = none)

theorem optional_ok {α : Type} {f : α → Enc} {r : Rd α} {P : α → Prop} (e : α → Bytes)
    (hw : ∀ v, P v → Writes (f v) (e v)) (hr : ∀ v, P v → Reads r (e v) v)
    (hb : ∀ v, P v → ∃ b rest, e v = b :: rest ∧ b ≠ 0xc0) :
    OptionalOK (writeNillable f) (readNillable r) P := by
  intro o ho
  cases o with
  | none =>
    refine ⟨[0xc0], setUint8_writes _, ?_, by simp⟩
    have := isNextNil_nil.bind (f := fun isNil => if isNil then Rd.pure none else do
      let v ← r
      Rd.pure (some v)) (w := []) (b := none) (Reads.pure _)
    exact this
  | some v =>
    have hp := ho v rfl
    obtain ⟨b, rest, he, hne⟩ := hb v hp
    refine ⟨e v, hw v hp, ?_, by rw [he]; simpa using hne⟩
    intro pre rest' hl
    have hr' := hr v hp pre rest' hl
    rw [he, List.cons_append] at hr' ⊢
    rw [he] at hl
    unfold readNillable
    rw [rd_bind, isNextNil_other pre (rest ++ rest') b hne (by simpa [Nat.add_assoc] using hl)]
    show (r >>= fun v => Rd.pure (some v)) (at_ pre (b :: (rest ++ rest'))) = _
    rw [rd_bind, hr']
    rfl

theorem ofNat_ne_nil {n : Nat} (h : n < 256) (h' : n ≠ 0xc0) : UInt8.ofNat n ≠ 0xc0 := by
  intro he
  have := congrArg UInt8.toNat he
  rw [UInt8.toNat_ofNat_lt h] at this
  exact h' this

theorem sint_head (v : Int) : ∃ b rest, sint v = b :: rest ∧ b ≠ 0xc0 := by
  unfold sint
  split
  · exact ⟨_, _, rfl, ofNat_ne_nil (by omega) (by omega)⟩
  split
  · exact ⟨_, _, rfl, ofNat_ne_nil (by omega) (by omega)⟩
  repeat' split
  all_goals exact ⟨_, _, rfl, by decide⟩

theorem uint_head (v : Nat) : ∃ b rest, uint v = b :: rest ∧ b ≠ 0xc0 := by
  unfold uint
  split
  · exact ⟨_, _, rfl, ofNat_ne_nil (by omega) (by omega)⟩
  repeat' split
  all_goals exact ⟨_, _, rfl, by decide⟩

theorem str_head (s : Bytes) : ∃ b rest, str s = b :: rest ∧ b ≠ 0xc0 := by
  unfold str strHead
  split
  · exact ⟨_, _, rfl, ofNat_ne_nil (by omega) (by omega)⟩
  repeat' split
  all_goals exact ⟨_, _, rfl, by decide⟩

theorem bin_head (s : Bytes) : ∃ b rest, bin s = b :: rest ∧ b ≠ 0xc0 := by
  unfold bin binHead
  repeat' split
  all_goals exact ⟨_, _, rfl, by decide⟩

theorem time_head (s : Int) (n : Nat) : ∃ b rest, timestamp s n = b :: rest ∧ b ≠ 0xc0 := by
  unfold timestamp
  repeat' split
  all_goals exact ⟨_, _, rfl, by decide⟩

theorem sint_form8 (v : Int8) : SignedForm v.toInt (sint v.toInt) :=
  (sint_shortest (i8_range v).1 (i8_range v).2).1
theorem sint_form16 (v : Int16) : SignedForm v.toInt (sint v.toInt) :=
  (sint_shortest (i16_range v).1 (i16_range v).2).1
theorem sint_form32 (v : Int32) : SignedForm v.toInt (sint v.toInt) :=
  (sint_shortest (i32_range v).1 (i32_range v).2).1
theorem uint_form8 (v : UInt8) : UnsignedForm v.toNat (Spec.uint v.toNat) :=
  (uint_shortest (by have := v.toNat_lt; omega)).1
theorem uint_form16 (v : UInt16) : UnsignedForm v.toNat (Spec.uint v.toNat) :=
  (uint_shortest (by have := v.toNat_lt; omega)).1
theorem uint_form32 (v : UInt32) : UnsignedForm v.toNat (Spec.uint v.toNat) :=
  (uint_shortest (by have := v.toNat_lt; omega)).1

/-- C46: optional values of every primitive type (strings and byte arrays with a 32-bit length, times
as `time.Time` has them). -/
theorem C46_optional (lib : Lib) :
    OptionalOK (writeNillable writeBool) (readNillable readBool) (fun _ => True) ∧
    OptionalOK (writeNillable writeInt8) (readNillable readInt8) (fun _ => True) ∧
    OptionalOK (writeNillable writeInt16) (readNillable readInt16) (fun _ => True) ∧
    OptionalOK (writeNillable writeInt32) (readNillable readInt32) (fun _ => True) ∧
    OptionalOK (writeNillable writeInt64) (readNillable readInt64) (fun _ => True) ∧
    OptionalOK (writeNillable writeUint8) (readNillable readUint8) (fun _ => True) ∧
    OptionalOK (writeNillable writeUint16) (readNillable readUint16) (fun _ => True) ∧
    OptionalOK (writeNillable writeUint32) (readNillable readUint32) (fun _ => True) ∧
    OptionalOK (writeNillable writeUint64) (readNillable readUint64) (fun _ => True) ∧
    OptionalOK (writeNillable writeFloat32) (readNillable (readFloat32 lib)) (fun _ => True) ∧
    OptionalOK (writeNillable writeFloat64) (readNillable readFloat64) (fun _ => True) ∧
    OptionalOK (writeNillable writeString) (readNillable readString) (fun s => s.length < 2^32) ∧
    OptionalOK (writeNillable writeByteArray) (readNillable readByteArray) (fun s => s.length < 2^32) ∧
    OptionalOK (writeNillable writeTime) (readNillable (readTime lib)) (fun t => t.nsec.toNat < 10^9) :=
  ⟨optional_ok bool (fun v _ => writeBool_writes v) (fun v _ => readBool_reads v)
      (fun v _ => by cases v <;> exact ⟨_, _, rfl, by decide⟩),
    optional_ok _ (fun v _ => (sized_int8 v).1) (fun v _ => readInt8_reads v _ (sint_form8 v))
      (fun v _ => sint_head _),
    optional_ok _ (fun v _ => (sized_int16 v).1) (fun v _ => readInt16_reads v _ (sint_form16 v))
      (fun v _ => sint_head _),
    optional_ok _ (fun v _ => (sized_int32 v).1) (fun v _ => readInt32_reads v _ (sint_form32 v))
      (fun v _ => sint_head _),
    optional_ok _ (fun v _ => (sized_int64 v).1) (fun v _ => readInt64_reads v _ (sint_form v))
      (fun v _ => sint_head _),
    optional_ok _ (fun v _ => (sized_uint8 v).1) (fun v _ => readUint8_reads v _ (uint_form8 v))
      (fun v _ => uint_head _),
    optional_ok _ (fun v _ => (sized_uint16 v).1) (fun v _ => readUint16_reads v _ (uint_form16 v))
      (fun v _ => uint_head _),
    optional_ok _ (fun v _ => (sized_uint32 v).1) (fun v _ => readUint32_reads v _ (uint_form32 v))
      (fun v _ => uint_head _),
    optional_ok _ (fun v _ => (sized_uint64 v).1) (fun v _ => readUint64_reads v _ (uint_form v))
      (fun v _ => uint_head _),
    optional_ok _ (fun v _ => writeFloat32_writes v) (fun v _ => readFloat32_reads lib v)
      (fun v _ => ⟨_, _, rfl, by decide⟩),
    optional_ok _ (fun v _ => writeFloat64_writes v) (fun v _ => readFloat64_reads v)
      (fun v _ => ⟨_, _, rfl, by decide⟩),
    optional_ok _ (fun v h => writeString_writes v h) (fun v h => readString_reads v h)
      (fun v _ => str_head _),
    optional_ok _ (fun v h => writeByteArray_writes v h) (fun v h => readByteArray_reads v h)
      (fun v _ => bin_head _),
    optional_ok _ (fun v h => writeTime_writes v h) (fun v h => readTime_reads lib v h)
      (fun v _ => time_head _ _)⟩

/-- Optional strings: nil, the empty string, and one more. -/
example : writeNillable writeString none (DR.new [9]) = .ok ⟨[0xc0], 1, none⟩ ∧
    writeNillable writeString (some []) (DR.new [9]) = .ok ⟨[0xa0], 1, none⟩ ∧
    readNillable readString (DR.new [0xc0]) = .ok none ⟨[0xc0], 1, none⟩ ∧
    readNillable readString (DR.new [0xa0]) = .ok (some []) ⟨[0xa0], 1, none⟩ ∧
    readNillable readString (DR.new [0xa1, 98]) = .ok (some [98]) ⟨[0xa1, 98], 2, none⟩ := by
  decide +kernel

/-! ## C48 -/

/-- The value survives the transform and the payload ends where the value ends. -/
def Inverse {α : Type} (t : Transform α) (v : α) : Prop :=
  ∃ w d, t.encode v = .ok w ∧ t.decode w = .ok v d ∧ d.off.toNat = w.length

/-- C48 in full. -/
def C48_statement : Prop :=
  ∀ lib : Lib, (∀ v, Inverse .string v) ∧ (∀ v, Inverse .bool v) ∧ (∀ v, Inverse .bytes v) ∧
    (∀ v, Inverse .int v) ∧ (∀ v, Inverse .int8 v) ∧ (∀ v, Inverse .int16 v) ∧
    (∀ v, Inverse .int32 v) ∧ (∀ v, Inverse .int64 v) ∧ (∀ v, Inverse .uint v) ∧
    (∀ v, Inverse .uint8 v) ∧ (∀ v, Inverse .uint16 v) ∧ (∀ v, Inverse .uint32 v) ∧
    (∀ v, Inverse .uint64 v) ∧ (∀ v, Inverse (.float32 lib) v) ∧ (∀ v, Inverse .float64 v)

theorem inverse_of {α : Type} {r : Rd α} {c : α → Call} {v : α} {w : Bytes} {g : UInt32 → UInt32}
    (hs : Sized (writeCall (c v)) g w) (hg : ∀ s, Sizer.writeCall (c v) s = g s)
    (hr : Reads r w v) (hl : w.length < 2^32) : Inverse (.of r c) v := by
  have hs' : Sized (writeCalls [c v]) (Sizer.writeCalls [c v]) w := by
    refine ⟨writes_one hs.1, fun s => ?_⟩
    rw [← hs.2 s, ← hg]
    rfl
  have h1 := (toBytes_of_sized hs' hl).2.1
  have h2 := hr [] [] (by simpa using hl)
  rw [List.append_nil] at h2
  refine ⟨w, _, h1, h2, ?_⟩
  show (UInt32.ofNat ([] ++ w).length).toNat = _
  rw [List.nil_append, UInt32.toNat_ofNat_lt hl]

theorem sint_small (v : Int) : (sint v).length < 2^32 := by
  unfold sint; repeat' split
  all_goals simp [be_len]
theorem uint_small (v : Nat) : (Spec.uint v).length < 2^32 := by
  unfold Spec.uint; repeat' split
  all_goals simp [be_len]

/-- A byte array of 255 bytes gets a payload with an extra zero byte: the Sizer takes 255 for
a 16-bit length (sizer.go), the Encoder does not. -/
theorem bytes255 (s : Bytes) (h : s.length = 255) :
    ∃ d, Transform.bytes.encode s = .ok (bin s ++ [0]) ∧
      Transform.bytes.decode (bin s ++ [0]) = .ok s d ∧ d.off.toNat + 1 = (bin s ++ [0]).length := by
  have hlen : (bin s).length = 257 := by
    unfold bin binHead; rw [if_pos (by omega)]; simp [be_len, h]
  have hz : (Sizer.writeCalls [Call.bytes s] 0).toNat = 258 := by
    show (Sizer.writeByteArray s 0).toNat = 258
    unfold Sizer.writeByteArray
    rw [h]
    rfl
  have hw := writes_one (c := .bytes s) (writeByteArray_writes s (by omega)) []
    (List.replicate 257 0) [0] (by rw [hlen, List.length_replicate])
    (by rw [List.nil_append, List.length_append, List.length_replicate]; decide)
  have hr := readByteArray_reads s (by omega) [] [0]
    (by rw [List.nil_append, List.length_append, hlen]; decide)
  have hrep : List.replicate 258 (0 : UInt8) = List.replicate 257 0 ++ [0] := List.replicate_succ'
  refine ⟨_, ?_, hr, ?_⟩
  · show toBytes [Call.bytes s] = _
    unfold toBytes
    rw [hz, hrep]
    generalize List.replicate 257 (0 : UInt8) = z at hw ⊢
    have : DR.new (z ++ [0]) = at_ [] (z ++ [0]) := rfl
    rw [this, hw]
    rfl
  · show (UInt32.ofNat ([] ++ bin s).length).toNat + 1 = _
    rw [List.nil_append, hlen, List.length_append, hlen]
    rfl

/-- C48 fails for byte arrays of 255 bytes: the payload carries one extra byte. -/
theorem C48_violated : ¬ C48_statement := by
  intro h
  obtain ⟨w, d, h1, h2, h3⟩ := (h ⟨fun _ => 0, fun _ => none⟩).2.2.1 (List.replicate 255 0)
  obtain ⟨d', g1, g2, g3⟩ := bytes255 (List.replicate 255 0) List.length_replicate
  generalize List.replicate 255 (0 : UInt8) = z at *
  rw [g1] at h1
  injection h1 with h1
  subst h1
  rw [g2] at h2
  injection h2 with _ h2
  subst h2
  omega

/-- C48, partial: all of it, for strings and byte arrays whose encoding has a 32-bit length, except
for byte arrays of exactly 255 bytes; those are given back, too, but the payload has an extra byte.
Missing: exactly that (`C48_violated`) and strings and byte arrays of 2^32 bytes and more. -/
theorem C48_partial (lib : Lib) :
    (∀ v, (str v).length < 2^32 → Inverse .string v) ∧ (∀ v, Inverse .bool v) ∧
    (∀ v, (bin v).length < 2^32 → v.length ≠ 255 → Inverse .bytes v) ∧
    (∀ v : Bytes, v.length = 255 → ∃ w d, Transform.bytes.encode v = .ok w ∧
      Transform.bytes.decode w = .ok v d ∧ d.off.toNat + 1 = w.length) ∧
    (∀ v, Inverse .int v) ∧ (∀ v, Inverse .int8 v) ∧ (∀ v, Inverse .int16 v) ∧
    (∀ v, Inverse .int32 v) ∧ (∀ v, Inverse .int64 v) ∧ (∀ v, Inverse .uint v) ∧
    (∀ v, Inverse .uint8 v) ∧ (∀ v, Inverse .uint16 v) ∧ (∀ v, Inverse .uint32 v) ∧
    (∀ v, Inverse .uint64 v) ∧ (∀ v, Inverse (.float32 lib) v) ∧ (∀ v, Inverse .float64 v) := by
  refine ⟨fun v h => ?_, fun v => ?_, fun v h h' => ?_, fun v h => ?_, fun v => ?_, fun v => ?_, fun v => ?_,
    fun v => ?_, fun v => ?_, fun v => ?_, fun v => ?_, fun v => ?_, fun v => ?_, fun v => ?_,
    fun v => ?_, fun v => ?_⟩
  · exact inverse_of (sized_str v h) (fun _ => rfl) (readString_reads v (by
      simp only [str, List.length_append] at h; omega)) h
  · exact inverse_of (sized_bool v) (fun _ => rfl) (readBool_reads v) (by cases v <;> decide)
  · exact inverse_of (sized_bin v h h') (fun _ => rfl) (readByteArray_reads v (by
      simp only [bin, List.length_append] at h; omega)) h
  · obtain ⟨d, h⟩ := bytes255 v h
    exact ⟨_, d, h⟩
  · exact inverse_of (sized_int64 v) (fun _ => rfl) (readInt64_reads v _ (sint_form v)) (sint_small _)
  · exact inverse_of (sized_int8 v) (fun _ => rfl) (readInt8_reads v _ (sint_form8 v)) (sint_small _)
  · exact inverse_of (sized_int16 v) (fun _ => rfl) (readInt16_reads v _ (sint_form16 v)) (sint_small _)
  · exact inverse_of (sized_int32 v) (fun _ => rfl) (readInt32_reads v _ (sint_form32 v)) (sint_small _)
  · exact inverse_of (sized_int64 v) (fun _ => rfl) (readInt64_reads v _ (sint_form v)) (sint_small _)
  · exact inverse_of (sized_uint64 v) (fun _ => rfl) (readUint64_reads v _ (uint_form v)) (uint_small _)
  · exact inverse_of (sized_uint8 v) (fun _ => rfl) (readUint8_reads v _ (uint_form8 v)) (uint_small _)
  · exact inverse_of (sized_uint16 v) (fun _ => rfl) (readUint16_reads v _ (uint_form16 v)) (uint_small _)
  · exact inverse_of (sized_uint32 v) (fun _ => rfl) (readUint32_reads v _ (uint_form32 v)) (uint_small _)
  · exact inverse_of (sized_uint64 v) (fun _ => rfl) (readUint64_reads v _ (uint_form v)) (uint_small _)
  · exact inverse_of (sized_float32 v) (fun _ => rfl) (readFloat32_reads lib v) (by
      simp [Spec.float32, be_len])
  · exact inverse_of (sized_float64 v) (fun _ => rfl) (readFloat64_reads v) (by
      simp [Spec.float64, be_len])

example : Transform.int16.encode (-300) = .ok [0xd1, 0xfe, 0xd4] ∧
    Transform.int16.decode [0xd1, 0xfe, 0xd4] = .ok (-300) ⟨[0xd1, 0xfe, 0xd4], 3, none⟩ := by
  decide +kernel

end Verif.Props
