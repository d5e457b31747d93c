import Verif.Props.MsgpackSafety
/-
Property C41: the Decoder stays inside its buffer.
-/
set_option autoImplicit false
namespace Verif.Props
open Verif Spec Msgpack

/-- The position is inside the buffer. -/
def Inside (d : DR) : Prop := d.off.toNat ≤ d.buf.length

/-- From `d`, a read came to outcome `o` without leaving the buffer, without moving backwards,
without changing the buffer, and, if it succeeded, consuming at least `k` bytes. -/
def Kept {α : Type} (k : Nat) (d : DR) (o : Out α) : Prop :=
  match o with
  | .ok _ d' => d'.buf = d.buf ∧ d.off.toNat + k ≤ d'.off.toNat ∧ Inside d'
  | .fail _ d' => d'.buf = d.buf ∧ d.off.toNat ≤ d'.off.toNat ∧ Inside d'
  | .panic => False

/-- What a successful read consumes at least: one byte; `IsNextNil` may consume nothing. -/
def least : ReadOp → Nat
  | .isNextNil => 0
  | _ => 1

/-- The reads of a single value. -/
def primitive (op : ReadOp) : Prop := op ≠ .any ∧ op ≠ .skip

/-- C41 in full: every read of a primitive, on every buffer with a 32-bit length, at every
position. -/
def C41_statement : Prop :=
  ∀ (lib : Lib) (f : Nat) (op : ReadOp) (d : DR), primitive op → Inside d → d.buf.length < 2^32 →
    ∃ o, op.run lib f d = some o ∧ Kept (least op) d o

/-- C41 fails: a string that declares 2^32 - 1 bytes. `checkBufferSize` (data_reader.go 243) adds in 32
bits, the sum wraps and passes the check, and the slice expression panics. -/
theorem C41_violated : ¬ C41_statement := by
  intro h
  obtain ⟨o, ho, hk⟩ := h ⟨fun _ => 0, fun _ => none⟩ 0 .string (DR.new [0xdb, 0xff, 0xff, 0xff, 0xff])
    ⟨by decide, by decide⟩ (by show 0 ≤ 5; decide) (by decide)
  have : ReadOp.run ⟨fun _ => 0, fun _ => none⟩ 0 .string (DR.new [0xdb, 0xff, 0xff, 0xff, 0xff]) =
      some .panic := rfl
  rw [this] at ho
  cases ho
  exact hk

/-! ## What holds -/

/-- Room for the widest fixed-size read behind the end. -/
def Roomy (d : DR) : Prop := Inside d ∧ d.buf.length + 8 < 2^32

def Safe {α : Type} (r : Rd α) (k : Nat) : Prop := ∀ d, Roomy d → Kept k d (r d)

theorem kept_ok_roomy {d d' : DR} {k : Nat} (hd : Roomy d)
    (h : d'.buf = d.buf ∧ d.off.toNat + k ≤ d'.off.toNat ∧ Inside d') : Roomy d' :=
  ⟨h.2.2, by rw [h.1]; exact hd.2⟩

theorem Safe.bind {α β : Type} {x : Rd α} {f : α → Rd β} {a b k : Nat} (hx : Safe x a)
    (hf : ∀ v, Safe (f v) b) (hk : k ≤ a + b) : Safe (x >>= f) k := by
  intro d hd
  have h1 := hx d hd
  rw [rd_bind]
  generalize x d = o at h1
  cases o with
  | ok v d' =>
    have h2 := hf v d' (kept_ok_roomy hd h1)
    dsimp only
    generalize f v d' = o' at h2
    simp only [Kept] at h1
    cases o' with
    | ok w d'' =>
      simp only [Kept] at h2 ⊢
      exact ⟨h2.1.trans h1.1, by omega, h2.2.2⟩
    | fail e d'' =>
      simp only [Kept] at h2 ⊢
      exact ⟨h2.1.trans h1.1, by omega, h2.2.2⟩
    | panic => exact h2
  | fail e d' => exact h1
  | panic => exact h1

theorem Safe.weaken {α : Type} {r : Rd α} {k j : Nat} (h : Safe r k) (hj : j ≤ k) : Safe r j := by
  intro d hd
  have h1 := h d hd
  generalize r d = o at h1
  cases o with
  | ok v d' => exact ⟨h1.1, by have := h1.2.1; omega, h1.2.2⟩
  | fail e d' => exact h1
  | panic => exact h1

theorem safe_pure {α : Type} (a : α) : Safe (Rd.pure a) 0 := fun _ h => ⟨rfl, Nat.le_refl _, h.1⟩
theorem safe_fail {α : Type} (e : String) : Safe (Rd.fail e : Rd α) 0 :=
  fun _ h => ⟨rfl, Nat.le_refl _, h.1⟩

theorem safe_ite {α : Type} {c : Prop} [Decidable c] {a b : Rd α} {k : Nat} (ha : Safe a k)
    (hb : Safe b k) : Safe (if c then a else b) k := by split <;> assumption

/-- The outcome of `check` when the sum does not wrap. -/
theorem check_cases (n : UInt32) (d : DR) (hl : d.buf.length < 2^32)
    (hn : d.off.toNat + n.toNat < 2^32) :
    (check n d = .ok () d ∧ d.off.toNat + n.toNat ≤ d.buf.length ∧
      (d.off + n).toNat = d.off.toNat + n.toNat) ∨
    (∃ e d', check n d = .fail e d' ∧ d'.buf = d.buf ∧ d'.off = d.off) := by
  have hadd : (d.off + n).toNat = d.off.toNat + n.toNat := by
    rw [UInt32.toNat_add]; omega
  have hlen : (UInt32.ofNat d.buf.length).toNat = d.buf.length := UInt32.toNat_ofNat_lt hl
  unfold check
  cases d.err with
  | some e => exact .inr ⟨e, d, rfl, rfl, rfl⟩
  | none =>
    dsimp only
    split
    · exact .inr ⟨_, _, rfl, rfl, rfl⟩
    · rename_i h
      left
      refine ⟨rfl, ?_, hadd⟩
      rw [gt_iff_lt, UInt32.lt_iff_toNat_lt, hadd, hlen] at h
      omega

theorem safe_getWith {α : Type} (n : UInt32) (f : Bytes → Go α) (hn : n.toNat ≤ 8)
    (hf : ∀ b : Bytes, n.toNat ≤ b.length → ∃ a, f b = .ok a) : Safe (getWith n f) n.toNat := by
  intro d ⟨hd, hl⟩
  have hd' := hd
  unfold Inside at hd
  unfold getWith
  rw [rd_bind]
  rcases check_cases n d (by omega) (by omega) with ⟨h1, h2, h3⟩ | ⟨e, d', h1, h2, h3⟩
  · rw [h1]
    obtain ⟨a, ha⟩ := hf (d.buf.drop d.off.toNat) (by rw [List.length_drop]; omega)
    have hs : sliceFrom d.buf d.off.toNat = .ok (d.buf.drop d.off.toNat) := by
      unfold sliceFrom; rw [if_pos hd]
    simp only [rd_of]
    rw [hs]
    show Kept _ d (match f (d.buf.drop d.off.toNat) with
      | .ok a => Out.ok a { d with off := d.off + n }
      | _ => .panic)
    rw [ha]
    refine ⟨rfl, by show _ ≤ (d.off + n).toNat; omega, ?_⟩
    show (d.off + n).toNat ≤ d.buf.length
    omega
  · rw [h1]
    refine ⟨h2, by rw [h3]; exact Nat.le_refl _, ?_⟩
    unfold Inside
    rw [h2, h3]
    exact hd

theorem index0_ok (b : Bytes) (h : 1 ≤ b.length) : ∃ a, index b 0 = .ok a := by
  cases b with
  | nil => simp at h
  | cons x l => exact ⟨x, rfl⟩

theorem getU16_ok (b : Bytes) (h : 2 ≤ b.length) : ∃ a, getU16 b = .ok a := by
  match b, h with
  | x :: y :: l, _ => exact ⟨_, rfl⟩

theorem getU32_ok (b : Bytes) (h : 4 ≤ b.length) : ∃ a, getU32 b = .ok a := by
  match b, h with
  | x :: y :: z :: w :: l, _ => exact ⟨_, rfl⟩

theorem getU64_ok (b : Bytes) (h : 8 ≤ b.length) : ∃ a, getU64 b = .ok a := by
  match b, h with
  | _ :: _ :: _ :: _ :: _ :: _ :: _ :: _ :: l, _ => exact ⟨_, rfl⟩

theorem safe_uint8 : Safe getUint8 1 := safe_getWith 1 _ (by decide) index0_ok
theorem safe_uint16 : Safe getUint16 2 := safe_getWith 2 _ (by decide) getU16_ok
theorem safe_uint32 : Safe getUint32 4 := safe_getWith 4 _ (by decide) getU32_ok
theorem safe_uint64 : Safe getUint64 8 := safe_getWith 8 _ (by decide) getU64_ok
theorem safe_int8 : Safe getInt8 1 := safe_uint8.bind (fun _ => safe_pure _) (by decide)
theorem safe_int16 : Safe getInt16 2 := safe_uint16.bind (fun _ => safe_pure _) (by decide)
theorem safe_int32 : Safe getInt32 4 := safe_uint32.bind (fun _ => safe_pure _) (by decide)
theorem safe_int64 : Safe getInt64 8 := safe_uint64.bind (fun _ => safe_pure _) (by decide)
theorem safe_float32 : Safe getFloat32 4 := safe_uint32
theorem safe_float64 : Safe getFloat64 8 := safe_uint64

theorem safe_peek : Safe peekUint8 0 := by
  intro d ⟨hd, hl⟩
  have hd' := hd
  unfold Inside at hd
  unfold peekUint8
  rw [rd_bind]
  rcases check_cases 1 d (by omega) (by show _ + 1 < _; omega) with
    ⟨h1, h2, h3⟩ | ⟨e, d', h1, h2, h3⟩
  · rw [h1]
    simp only [rd_of]
    have h2 : d.off.toNat + 1 ≤ d.buf.length := h2
    have : index d.buf d.off.toNat = .ok (d.buf[d.off.toNat]'(by omega)) := by
      unfold index
      rw [List.getElem?_eq_getElem (by omega)]
    rw [this]
    exact ⟨rfl, Nat.le_refl _, hd⟩
  · rw [h1]
    refine ⟨h2, by rw [h3]; exact Nat.le_refl _, ?_⟩
    unfold Inside
    rw [h2, h3]
    exact hd

theorem safe_discard1 : Safe (discard 1) 1 := by
  intro d ⟨hd, hl⟩
  have hd' := hd
  unfold Inside at hd
  unfold Msgpack.discard
  rw [rd_bind]
  rcases check_cases 1 d (by omega) (by show _ + 1 < _; omega) with
    ⟨h1, h2, h3⟩ | ⟨e, d', h1, h2, h3⟩
  · rw [h1]
    have h2 : d.off.toNat + 1 ≤ d.buf.length := h2
    have h3 : (d.off + 1).toNat = d.off.toNat + 1 := h3
    exact ⟨rfl, by show _ ≤ (d.off + 1).toNat; omega, by show (d.off + 1).toNat ≤ d.buf.length; omega⟩
  · rw [h1]
    refine ⟨h2, by rw [h3]; exact Nat.le_refl _, ?_⟩
    unfold Inside
    rw [h2, h3]
    exact hd

theorem safe_discardQuiet1 : Safe (discardQuiet 1) 0 := by
  intro d hd
  have h := safe_discard1 d hd
  unfold discardQuiet
  generalize discard 1 d = o at h
  cases o with
  | ok _ d' => exact ⟨h.1, by have := h.2.1; omega, h.2.2⟩
  | fail _ d' => exact h
  | panic => exact h

/-- Works through a reader built from the primitives, after its first byte. -/
macro "safe" : tactic => `(tactic| repeat' (first
  | exact safe_pure _ | exact safe_fail _
  | exact safe_uint8.weaken (by decide) | exact safe_uint16.weaken (by decide)
  | exact safe_uint32.weaken (by decide) | exact safe_uint64.weaken (by decide)
  | exact safe_int8.weaken (by decide) | exact safe_int16.weaken (by decide)
  | exact safe_int32.weaken (by decide) | exact safe_int64.weaken (by decide)
  | exact safe_float32.weaken (by decide) | exact safe_float64.weaken (by decide)
  | exact Safe.weaken (by assumption) (by decide)
  | refine safe_ite ?_ ?_
  | refine Safe.bind (a := 0) (b := 0) ?_ (fun _ => ?_) (by decide)))

theorem safe_readBool : Safe readBool 1 :=
  safe_uint8.bind (b := 0) (fun _ => by safe) (by decide)
theorem safe_readInt64 : Safe readInt64 1 :=
  safe_uint8.bind (b := 0) (fun _ => by safe) (by decide)
theorem safe_readInt8 : Safe readInt8 1 :=
  safe_readInt64.bind (b := 0) (fun _ => by safe) (by decide)
theorem safe_readInt16 : Safe readInt16 1 :=
  safe_readInt64.bind (b := 0) (fun _ => by safe) (by decide)
theorem safe_readInt32 : Safe readInt32 1 :=
  safe_readInt64.bind (b := 0) (fun _ => by safe) (by decide)
theorem safe_readUint64 : Safe readUint64 1 :=
  safe_uint8.bind (b := 0) (fun _ => by safe) (by decide)
theorem safe_readUint8 : Safe readUint8 1 :=
  safe_readUint64.bind (b := 0) (fun _ => by safe) (by decide)
theorem safe_readUint16 : Safe readUint16 1 :=
  safe_readUint64.bind (b := 0) (fun _ => by safe) (by decide)
theorem safe_readUint32 : Safe readUint32 1 :=
  safe_readUint64.bind (b := 0) (fun _ => by safe) (by decide)
theorem safe_readFloat32 (lib : Lib) : Safe (readFloat32 lib) 1 :=
  safe_uint8.bind (b := 0) (fun _ => by safe) (by decide)
theorem safe_readFloat64 : Safe readFloat64 1 :=
  safe_uint8.bind (b := 0) (fun _ => by safe) (by decide)
theorem safe_readStringLength : Safe readStringLength 1 :=
  safe_uint8.bind (b := 0) (fun _ => by safe) (by decide)
theorem safe_readBinLength : Safe readBinLength 1 :=
  safe_uint8.bind (b := 0) (fun _ => by safe) (by decide)
theorem safe_readArraySize : Safe readArraySize 1 :=
  safe_uint8.bind (b := 0) (fun _ => by safe) (by decide)
theorem safe_readMapSize : Safe readMapSize 1 :=
  safe_uint8.bind (b := 0) (fun _ => by safe) (by decide)
theorem safe_parseExtLen (c : UInt8) : Safe (parseExtLen c) 0 := by
  have := safe_readUint8
  have := safe_readUint16
  have := safe_readUint32
  unfold parseExtLen; safe

/-- `IsNextNil` consumes one byte if it says yes. -/
theorem isNextNil_kept (d : DR) (hd : Roomy d) :
    match isNextNil d with
    | .ok true d' => d'.buf = d.buf ∧ d.off.toNat + 1 ≤ d'.off.toNat ∧ Inside d'
    | .ok false d' => d' = d
    | .fail _ d' => d'.buf = d.buf ∧ d.off.toNat ≤ d'.off.toNat ∧ Inside d'
    | .panic => False := by
  unfold isNextNil
  rw [rd_bind]
  have hp := safe_peek d hd
  cases hpo : peekUint8 d with
  | panic => rw [hpo] at hp; exact hp
  | fail e d' => rw [hpo] at hp; exact hp
  | ok p d' =>
    have hdd : d' = d ∧ check 1 d = .ok () d := by
      unfold peekUint8 at hpo
      rw [rd_bind] at hpo
      rcases check_cases 1 d (by have := hd.2; omega)
        (by have := hd.1; have := hd.2; unfold Inside at *; show _ + 1 < _; omega) with
        ⟨h1, _⟩ | ⟨e, d2, h1, _⟩
      · rw [h1] at hpo
        simp only [rd_of] at hpo
        split at hpo
        · cases hpo; exact ⟨rfl, h1⟩
        · cases hpo
      · rw [h1] at hpo; cases hpo
    obtain ⟨rfl, hc⟩ := hdd
    dsimp only
    by_cases hnil : p = fmtNil
    · rw [if_pos hnil]
      have h1 := safe_discard1 d' hd
      have h2 : discard 1 d' = .ok () { d' with off := d'.off + 1 } := by
        unfold Msgpack.discard; rw [rd_bind, hc]; rfl
      simp only [rd_of]
      rw [h2] at h1 ⊢
      exact h1
    · rw [if_neg hnil]
      rfl

theorem safe_isNextNil : Safe isNextNil 0 := by
  intro d hd
  have h := isNextNil_kept d hd
  generalize isNextNil d = o at h
  cases o with
  | ok b d' =>
    cases b with
    | true => exact ⟨h.1, by have := h.2.1; omega, h.2.2⟩
    | false => subst h; exact ⟨rfl, Nat.le_refl _, hd.1⟩
  | fail e d' => exact h
  | panic => exact h

theorem kept_nillable {α : Type} {r : Rd α} (d : DR) (hd : Roomy d) (h : Kept 1 d (r d)) :
    Kept 1 d (readNillable r d) := by
  have h1 := isNextNil_kept d hd
  unfold readNillable
  rw [rd_bind]
  generalize isNextNil d = o at h1
  cases o with
  | ok b d' =>
    cases b with
    | true => exact h1
    | false =>
      subst h1
      show Kept 1 d' ((r >>= fun v => Rd.pure (some v)) d')
      rw [rd_bind]
      generalize r d' = o at h
      cases o <;> exact h
  | fail e d' => exact h1
  | panic => exact h1

/-- The read is followed by a length that does not lead beyond 2^32. -/
def NoWrap (len : Rd UInt32) (d : DR) : Prop :=
  ∀ n d', len d = .ok n d' → d'.off.toNat + n.toNat < 2^32

theorem getBytes_kept (n : UInt32) (d : DR) (hd : Roomy d) (hn : d.off.toNat + n.toNat < 2^32) :
    Kept 0 d (getBytes n d) := by
  have hl := hd.2
  have hi := hd.1
  unfold Inside at hi
  unfold getBytes
  rw [rd_bind]
  rcases check_cases n d (by omega) hn with ⟨h1, h2, h3⟩ | ⟨e, d', h1, h2, h3⟩
  · rw [h1]
    simp only [rd_of]
    have : slice d.buf d.off.toNat (d.off + n).toNat =
        .ok ((d.buf.take (d.off + n).toNat).drop d.off.toNat) := by
      unfold slice; rw [if_pos (by omega)]
    rw [this]
    exact ⟨rfl, by show _ ≤ (d.off + n).toNat; omega,
      by show (d.off + n).toNat ≤ d.buf.length; omega⟩
  · rw [h1]
    refine ⟨h2, by rw [h3]; exact Nat.le_refl _, ?_⟩
    unfold Inside
    rw [h2, h3]
    exact hi

theorem getBytes_panics (n : UInt32) (d : DR) (hd : Roomy d) (he : d.err = none)
    (hn : 2^32 ≤ d.off.toNat + n.toNat) : getBytes n d = .panic := by
  have hl := hd.2
  have hi := hd.1
  unfold Inside at hi
  have hn' := n.toNat_lt
  have hadd : (d.off + n).toNat = d.off.toNat + n.toNat - 2^32 := by
    rw [UInt32.toNat_add]; omega
  have hlen : (UInt32.ofNat d.buf.length).toNat = d.buf.length := UInt32.toNat_ofNat_lt (by omega)
  unfold getBytes
  rw [rd_bind]
  have : check n d = .ok () d := by
    unfold check
    rw [he]
    dsimp only
    rw [if_neg]
    rw [gt_iff_lt, UInt32.lt_iff_toNat_lt, hadd, hlen]
    omega
  rw [this]
  simp only [rd_of]
  have : slice d.buf d.off.toNat (d.off + n).toNat = .panic := by
    unfold slice; rw [if_neg (by omega)]
  rw [this]

/-- A read of a length and then of that many bytes. -/
theorem lengthed_kept {len : Rd UInt32} (hs : Safe len 1) (d : DR) (hd : Roomy d)
    (hw : NoWrap len d) : Kept 1 d ((len >>= getBytes) d) := by
  have h1 := hs d hd
  rw [rd_bind]
  cases ho : len d with
  | ok n d' =>
    rw [ho] at h1
    have h2 := getBytes_kept n d' (kept_ok_roomy hd h1) (hw n d' ho)
    dsimp only
    generalize getBytes n d' = o at h2
    simp only [Kept] at h1
    cases o with
    | ok b d'' => exact ⟨h2.1.trans h1.1, by have := h2.2.1; omega, h2.2.2⟩
    | fail e d'' => exact ⟨h2.1.trans h1.1, by have := h2.2.1; omega, h2.2.2⟩
    | panic => exact h2
  | fail e d' => rw [ho] at h1; exact h1
  | panic => rw [ho] at h1; exact h1

/-- What `ReadTime` reads before it takes the bytes of a timestamp: their number. -/
def timeLength (p : UInt8) : Rd UInt32 := do
  discardQuiet 1
  let n ← parseExtLen p
  let id ← getUint8
  if id.toInt8 ≠ -1 ∧ id.toInt8 ≠ 13 then Rd.fail "msgpack: invalid time ext id" else Rd.pure n

theorem safe_timeLength (p : UInt8) : Safe (timeLength p) 1 :=
  safe_discardQuiet1.bind (b := 1) (fun _ => (safe_parseExtLen p).bind (b := 1)
    (fun _ => safe_uint8.bind (b := 0) (fun _ => by safe) (by decide)) (by decide)) (by decide)

/-- The length a time on the wire declares, as a string or as an extension, according to its first byte. -/
def timeNoWrap (d : DR) : Prop :=
  ∀ p, peekUint8 d = .ok p d → NoWrap (if isString p then readStringLength else timeLength p) d

theorem timeOfBytes_no_panic (b : Bytes) : timeOfBytes b ≠ .panic := by
  unfold timeOfBytes
  split
  · obtain ⟨a, ha⟩ := getU32_ok b (by omega)
    rw [ha]; exact fun h => by cases h
  split
  · obtain ⟨a, ha⟩ := getU64_ok b (by omega)
    rw [ha]; exact fun h => by cases h
  split
  · rename_i h12
    obtain ⟨a, ha⟩ := getU32_ok b (by omega)
    have hs : sliceFrom b 4 = .ok (b.drop 4) := by unfold sliceFrom; rw [if_pos (by omega)]
    obtain ⟨c, hc⟩ := getU64_ok (b.drop 4) (by rw [List.length_drop]; omega)
    rw [ha]
    show (sliceFrom b 4 >>= fun b => getU64 b >>= fun s => Go.ok (unixTime s a.toUInt64)) ≠ _
    rw [hs]
    show (getU64 (b.drop 4) >>= fun s => Go.ok (unixTime s a.toUInt64)) ≠ _
    rw [hc]
    exact fun h => by cases h
  · exact fun h => by cases h

theorem bind_kept {α β : Type} {x : Rd α} {f : α → Rd β} {d : DR} {k : Nat} (hd : Roomy d)
    (hx : Kept k d (x d)) (hf : ∀ v d', x d = .ok v d' → Roomy d' → Kept 0 d' (f v d')) :
    Kept k d ((x >>= f) d) := by
  rw [rd_bind]
  cases ho : x d with
  | ok v d' =>
    rw [ho] at hx
    have h2 := hf v d' ho (kept_ok_roomy hd hx)
    dsimp only
    generalize f v d' = o at h2
    simp only [Kept] at hx
    cases o with
    | ok b d'' => exact ⟨h2.1.trans hx.1, by have := h2.2.1; omega, h2.2.2⟩
    | fail e d'' => exact ⟨h2.1.trans hx.1, by have := h2.2.1; omega, h2.2.2⟩
    | panic => exact h2
  | fail e d' => rw [ho] at hx; exact hx
  | panic => rw [ho] at hx; exact hx

theorem readTime_ext (p : UInt8) : (do
    discardQuiet 1
    let n ← parseExtLen p
    let id ← getUint8
    if id.toInt8 ≠ -1 ∧ id.toInt8 ≠ 13 then Rd.fail "msgpack: invalid time ext id"
    else decodeTime n : Rd Time) = (timeLength p >>= decodeTime) := by
  funext x
  simp only [timeLength, rd_bind]
  cases discardQuiet 1 x with
  | ok a x =>
    dsimp only
    cases parseExtLen p x with
    | ok n x =>
      dsimp only
      cases getUint8 x with
      | ok id x => dsimp only; split <;> rfl
      | fail e x => rfl
      | panic => rfl
    | fail e x => rfl
    | panic => rfl
  | fail e x => rfl
  | panic => rfl

theorem readTime_kept (lib : Lib) (d : DR) (hd : Roomy d) (hw : timeNoWrap d) :
    Kept 1 d (readTime lib d) := by
  have hp := safe_peek d hd
  unfold readTime
  rw [rd_bind]
  cases hpo : peekUint8 d with
  | panic => rw [hpo] at hp; exact hp
  | fail e d' => rw [hpo] at hp; exact hp
  | ok p d' =>
    have hdd : d' = d := by
      unfold peekUint8 at hpo
      rw [rd_bind] at hpo
      rcases check_cases 1 d (by have := hd.2; omega)
        (by have := hd.1; have := hd.2; unfold Inside at *; show _ + 1 < _; omega) with
        ⟨h1, _⟩ | ⟨e, d2, h1, _⟩
      · rw [h1] at hpo
        simp only [rd_of] at hpo
        split at hpo
        · cases hpo; rfl
        · cases hpo
      · rw [h1] at hpo; cases hpo
    subst hdd
    have hw := hw p hpo
    dsimp only
    split
    · rename_i hs
      rw [if_pos hs] at hw
      refine bind_kept hd (lengthed_kept safe_readStringLength d' hd hw) fun s d2 _ hd2 => ?_
      cases lib.parseTime s with
      | some t => exact ⟨rfl, Nat.le_refl _, hd2.1⟩
      | none => exact ⟨rfl, Nat.le_refl _, hd2.1⟩
    · rename_i hs
      rw [if_neg hs] at hw
      rw [readTime_ext]
      refine bind_kept hd (safe_timeLength p d' hd) fun n d2 h2 hd2 => ?_
      unfold decodeTime
      refine bind_kept hd2 (getBytes_kept n d2 hd2 (hw n d2 h2)) fun b d3 _ hd3 => ?_
      simp only [rd_of]
      have := timeOfBytes_no_panic b
      cases ht : timeOfBytes b with
      | ok t => exact ⟨rfl, Nat.le_refl _, hd3.1⟩
      | err e => exact ⟨rfl, Nat.le_refl _, hd3.1⟩
      | panic => exact absurd ht this

/-- A successful read leaves no error behind. -/
def KeepsErr {α : Type} (r : Rd α) : Prop :=
  ∀ d, d.err = none → ∀ v d', r d = .ok v d' → d'.err = none

theorem KeepsErr.bind {α β : Type} {x : Rd α} {f : α → Rd β} (hx : KeepsErr x)
    (hf : ∀ v, KeepsErr (f v)) : KeepsErr (x >>= f) := by
  intro d hd v d' h
  rw [rd_bind] at h
  cases ho : x d with
  | ok a d1 => rw [ho] at h; exact hf a d1 (hx d hd a d1 ho) v d' h
  | fail e d1 => rw [ho] at h; cases h
  | panic => rw [ho] at h; cases h

theorem keepsErr_ite {α : Type} {c : Prop} [Decidable c] {a b : Rd α} (ha : KeepsErr a)
    (hb : KeepsErr b) : KeepsErr (if c then a else b) := by split <;> assumption

theorem keepsErr_pure {α : Type} (a : α) : KeepsErr (Rd.pure a) :=
  fun d hd v d' h => by cases h; exact hd

theorem keepsErr_fail {α : Type} (e : String) : KeepsErr (Rd.fail e : Rd α) :=
  fun d hd v d' h => by cases h

theorem keepsErr_getWith {α : Type} (n : UInt32) (f : Bytes → Go α) : KeepsErr (getWith n f) := by
  refine KeepsErr.bind ?_ fun _ => ?_
  · intro d hd v d' h
    unfold check at h
    rw [hd] at h
    dsimp only at h
    split at h
    · cases h
    · cases h; exact hd
  · intro d hd v d' h
    simp only [rd_of] at h
    split at h
    · cases h; exact hd
    · cases h

theorem keepsErr_readStringLength : KeepsErr readStringLength := by
  unfold readStringLength
  repeat' (first
    | exact keepsErr_pure _ | exact keepsErr_fail _ | exact keepsErr_getWith _ _
    | refine keepsErr_ite ?_ ?_ | refine KeepsErr.bind ?_ (fun _ => ?_))

theorem keepsErr_readBinLength : KeepsErr readBinLength := by
  unfold readBinLength
  repeat' (first
    | exact keepsErr_pure _ | exact keepsErr_fail _ | exact keepsErr_getWith _ _
    | refine keepsErr_ite ?_ ?_ | refine KeepsErr.bind ?_ (fun _ => ?_))

/-! ## When a read crashes -/

theorem getUint8_peek {d d' : DR} {p : UInt8} (h : getUint8 d = .ok p d') :
    peekUint8 d = .ok p d ∧ d.err = none ∧ d'.err = none := by
  unfold getUint8 getWith at h
  rw [rd_bind] at h
  unfold peekUint8
  rw [rd_bind]
  have hc : check 1 d = .ok () d ∧ d.err = none := by
    unfold check at h ⊢
    cases he : d.err with
    | some e => rw [he] at h; cases h
    | none =>
      rw [he] at h
      by_cases hx : d.off + 1 > UInt32.ofNat d.buf.length
      · rw [if_pos hx] at h; cases h
      · exact ⟨if_neg hx, rfl⟩
  rw [hc.1] at h ⊢
  simp only [rd_of] at h ⊢
  cases hs : sliceFrom d.buf d.off.toNat >>= fun b => index b 0 with
  | err e => rw [hs] at h; cases h
  | panic => rw [hs] at h; cases h
  | ok a =>
    rw [hs] at h
    cases h
    refine ⟨?_, hc.2, hc.2⟩
    unfold sliceFrom at hs
    split at hs
    · have h2 : index (d.buf.drop d.off.toNat) 0 = .ok p := hs
      have : index d.buf d.off.toNat = .ok p := by
        unfold index at h2 ⊢
        rw [List.getElem?_drop, Nat.add_zero] at h2
        exact h2
      rw [this]
    · cases hs

theorem nillable_panics {α : Type} {r : Rd α} {d : DR} {p : UInt8} (hp : peekUint8 d = .ok p d) (hn : p ≠ fmtNil)
    (hr : r d = .panic) : readNillable r d = .panic := by
  have h : isNextNil d = .ok false d := by
    unfold isNextNil
    rw [rd_bind, hp]
    dsimp only
    rw [if_neg hn]
    rfl
  unfold readNillable
  rw [rd_bind, h]
  dsimp only
  rw [if_neg (by decide), rd_bind, hr]

/-- A length is read after the first byte. -/
theorem first_byte {f : UInt8 → Rd UInt32} {d d' : DR} {n : UInt32} (h : (getUint8 >>= f) d = .ok n d') :
    ∃ p x, peekUint8 d = .ok p d ∧ f p x = .ok n d' := by
  rw [rd_bind] at h
  cases hg : getUint8 d with
  | fail e x => rw [hg] at h; cases h
  | panic => rw [hg] at h; cases h
  | ok p x => rw [hg] at h; exact ⟨p, x, (getUint8_peek hg).1, h⟩

theorem wraps {len : Rd UInt32} {d : DR} (h : ¬ NoWrap len d) :
    ∃ n d', len d = .ok n d' ∧ 2 ^ 32 ≤ d'.off.toNat + n.toNat := by
  unfold NoWrap at h
  simp only [Classical.not_forall, Nat.not_lt] at h
  obtain ⟨n, d', ho, hh⟩ := h
  exact ⟨n, d', ho, hh⟩

theorem lengthed_panics {len : Rd UInt32} {d : DR} (hr : Roomy d) (hs : Safe len 1)
    (hn : ∀ n d', len d = .ok n d' → d'.err = none) (hw : ¬ NoWrap len d) : (len >>= getBytes) d = .panic := by
  obtain ⟨n, d', ho, hh⟩ := wraps hw
  have h1 := hs d hr
  rw [ho] at h1
  rw [rd_bind, ho]
  exact getBytes_panics n d' (kept_ok_roomy hr h1) (hn n d' ho) hh

theorem string_first {d : DR} (h : ¬ NoWrap readStringLength d) : ∃ p, peekUint8 d = .ok p d ∧ p ≠ fmtNil := by
  obtain ⟨n, d', h, -⟩ := wraps h
  obtain ⟨p, x, h1, h2⟩ := first_byte h
  refine ⟨p, h1, ?_⟩
  rintro rfl
  cases h2

theorem bin_first {d : DR} (h : ¬ NoWrap readBinLength d) : ∃ p, peekUint8 d = .ok p d ∧ p ≠ fmtNil := by
  obtain ⟨n, d', h, hw⟩ := wraps h
  obtain ⟨p, x, h1, h2⟩ := first_byte h
  refine ⟨p, h1, ?_⟩
  rintro rfl
  cases h2
  have := d'.off.toNat_lt
  simp at hw
  omega

theorem timeLength_err {p : UInt8} {d d' : DR} {n : UInt32} (h : timeLength p d = .ok n d') :
    d'.err = none ∧ p ≠ fmtNil := by
  unfold timeLength at h
  rw [rd_bind] at h
  cases h1 : discardQuiet 1 d with
  | fail e x => rw [h1] at h; cases h
  | panic => rw [h1] at h; cases h
  | ok u x =>
    rw [h1] at h
    dsimp only at h
    rw [rd_bind] at h
    cases h2 : parseExtLen p x with
    | fail e x => rw [h2] at h; cases h
    | panic => rw [h2] at h; cases h
    | ok m y =>
      rw [h2] at h
      dsimp only at h
      rw [rd_bind] at h
      refine ⟨?_, by rintro rfl; cases h2⟩
      cases h3 : getUint8 y with
      | fail e x => rw [h3] at h; cases h
      | panic => rw [h3] at h; cases h
      | ok id z =>
        rw [h3] at h
        dsimp only at h
        split at h
        · cases h
        · cases h; exact (getUint8_peek h3).2.2

theorem time_panics (lib : Lib) {d : DR} (hr : Roomy d) (he : d.err = none) (h : ¬ timeNoWrap d) :
    ∃ p, peekUint8 d = .ok p d ∧ p ≠ fmtNil ∧ readTime lib d = .panic := by
  unfold timeNoWrap at h
  simp only [Classical.not_forall] at h
  obtain ⟨p, hp, hw⟩ := h
  refine ⟨p, hp, ?_⟩
  unfold readTime
  rw [rd_bind, hp]
  dsimp only
  by_cases hs : isString p = true
  · rw [if_pos hs] at hw ⊢
    obtain ⟨q, h1, h2⟩ := string_first hw
    rw [hp] at h1
    cases h1
    refine ⟨h2, ?_⟩
    rw [rd_bind, show readString d = .panic from
      lengthed_panics hr safe_readStringLength (keepsErr_readStringLength d he) hw]
  · rw [if_neg hs] at hw ⊢
    obtain ⟨n, d', ho, hh⟩ := wraps hw
    have h1 := safe_timeLength p d hr
    rw [ho] at h1
    have h2 := timeLength_err ho
    refine ⟨h2.2, ?_⟩
    rw [readTime_ext, rd_bind, ho]
    unfold decodeTime
    dsimp only
    rw [rd_bind, getBytes_panics n d' (kept_ok_roomy hr h1) h2.1 hh]

/-- The condition under which C41 holds for an operation: none, except that strings, byte arrays and
times must not declare a length that leads beyond 2^32. -/
def lengthsFit (op : ReadOp) (d : DR) : Prop :=
  match op with
  | .string | .nillableString => NoWrap readStringLength d
  | .bytes | .nillableBytes => NoWrap readBinLength d
  | .time | .nillableTime => timeNoWrap d
  | _ => True

theorem kept_void {α : Type} {k : Nat} {d : DR} {o : Out α} (h : Kept k d o) : Kept k d o.void := by
  cases o <;> exact h

/-- C41, partial: on every buffer shorter than 2^32 - 8 bytes, at every position, every read of a
primitive returns a value or an error, stays inside the buffer, never moves backwards, and consumes
at least one byte when it succeeds — provided that a string, byte array or time does not declare a
length that leads beyond 2^32. That condition is exact: otherwise the read crashes (unless an earlier error makes it
fail). Missing: exactly these inputs (`C41_violated`) and buffers of nearly 2^32 bytes. -/
theorem C41_partial (lib : Lib) (f : Nat) (op : ReadOp) (d : DR) (hp : primitive op) (hd : Inside d)
    (hl : d.buf.length + 8 < 2^32) :
    (lengthsFit op d → ∃ o, op.run lib f d = some o ∧ Kept (least op) d o) ∧
    (d.err = none → ¬ lengthsFit op d → op.run lib f d = some .panic) := by
  have hr : Roomy d := ⟨hd, hl⟩
  constructor
  · intro hw
    have a : ∀ {α : Type} {r : Rd α}, Safe r 1 →
        ∃ o, some (r d).void = some o ∧ Kept 1 d o := fun h => ⟨_, rfl, kept_void (h d hr)⟩
    have b : ∀ {α : Type} {r : Rd α}, Safe r 1 →
        ∃ o, some (readNillable r d).void = some o ∧ Kept 1 d o :=
      fun h => ⟨_, rfl, kept_void (kept_nillable d hr (h d hr))⟩
    cases op with
    | any => exact absurd rfl hp.1
    | skip => exact absurd rfl hp.2
    | isNextNil => exact ⟨_, rfl, kept_void (safe_isNextNil d hr)⟩
    | bool => exact a safe_readBool
    | int8 => exact a safe_readInt8
    | int16 => exact a safe_readInt16
    | int32 => exact a safe_readInt32
    | int64 => exact a safe_readInt64
    | uint8 => exact a safe_readUint8
    | uint16 => exact a safe_readUint16
    | uint32 => exact a safe_readUint32
    | uint64 => exact a safe_readUint64
    | float32 => exact a (safe_readFloat32 lib)
    | float64 => exact a safe_readFloat64
    | arraySize => exact a safe_readArraySize
    | mapSize => exact a safe_readMapSize
    | string => exact ⟨_, rfl, kept_void (lengthed_kept safe_readStringLength d hr hw)⟩
    | bytes => exact ⟨_, rfl, kept_void (lengthed_kept safe_readBinLength d hr hw)⟩
    | time => exact ⟨_, rfl, kept_void (readTime_kept lib d hr hw)⟩
    | nillableString => exact ⟨_, rfl, kept_void (kept_nillable d hr
        (lengthed_kept safe_readStringLength d hr hw))⟩
    | nillableBytes => exact ⟨_, rfl, kept_void (kept_nillable d hr
        (lengthed_kept safe_readBinLength d hr hw))⟩
    | nillableTime => exact ⟨_, rfl, kept_void (kept_nillable d hr (readTime_kept lib d hr hw))⟩
    | nillableBool => exact b safe_readBool
    | nillableInt8 => exact b safe_readInt8
    | nillableInt16 => exact b safe_readInt16
    | nillableInt32 => exact b safe_readInt32
    | nillableInt64 => exact b safe_readInt64
    | nillableUint8 => exact b safe_readUint8
    | nillableUint16 => exact b safe_readUint16
    | nillableUint32 => exact b safe_readUint32
    | nillableUint64 => exact b safe_readUint64
    | nillableFloat32 => exact b (safe_readFloat32 lib)
    | nillableFloat64 => exact b safe_readFloat64
  · intro he hw
    have str : ¬ NoWrap readStringLength d → readString d = .panic := lengthed_panics hr safe_readStringLength
      (keepsErr_readStringLength d he)
    have bin : ¬ NoWrap readBinLength d → readByteArray d = .panic := lengthed_panics hr safe_readBinLength
      (keepsErr_readBinLength d he)
    cases op with
    | string => show some (readString d).void = _; rw [str hw]; rfl
    | bytes => show some (readByteArray d).void = _; rw [bin hw]; rfl
    | time =>
      obtain ⟨p, -, -, h⟩ := time_panics lib hr he hw
      show some (readTime lib d).void = _
      rw [h]; rfl
    | nillableString =>
      obtain ⟨p, h1, h2⟩ := string_first hw
      show some (readNillable readString d).void = _
      rw [nillable_panics h1 h2 (str hw)]; rfl
    | nillableBytes =>
      obtain ⟨p, h1, h2⟩ := bin_first hw
      show some (readNillable readByteArray d).void = _
      rw [nillable_panics h1 h2 (bin hw)]; rfl
    | nillableTime =>
      obtain ⟨p, h1, h2, h⟩ := time_panics lib hr he hw
      show some (readNillable (readTime lib) d).void = _
      rw [nillable_panics h1 h2 h]; rfl
    | _ => exact absurd trivial hw

example : primitive .int32 ∧ Inside (DR.new [0xd2, 1]) ∧ lengthsFit .int32 (DR.new [0xd2, 1]) :=
  ⟨⟨by decide, by decide⟩, Nat.zero_le _, trivial⟩
/-- A time that declares 2^32 - 1 bytes; the reads of strings and byte arrays go on. -/
example : ¬ lengthsFit .time (DR.new [0xc9, 0xce, 0xff, 0xff, 0xff, 0xff, 0xff]) ∧
    lengthsFit .time (DR.new [0xd6, 0xff, 0, 0, 0, 1]) := by
  have key : ∀ {len : Rd UInt32} {d d' : DR} {n : UInt32}, len d = .ok n d' → d'.off.toNat + n.toNat < 2 ^ 32 → NoWrap len d := by
    intro len d d' n h1 h2 m x h3
    rw [h1] at h3
    cases h3
    exact h2
  refine ⟨fun h => ?_, fun p hp => ?_⟩
  · have := h 0xc9 (by decide +kernel) 0xffffffff ⟨[0xc9, 0xce, 0xff, 0xff, 0xff, 0xff, 0xff], 7, none⟩ (by decide +kernel)
    revert this
    decide
  · have : p = 0xd6 := by
      have h : peekUint8 (DR.new [0xd6, 0xff, 0, 0, 0, 1]) = .ok 0xd6 (DR.new [0xd6, 0xff, 0, 0, 0, 1]) := by decide +kernel
      rw [h] at hp
      cases hp
      rfl
    subst this
    exact key (n := 4) (d' := ⟨[0xd6, 0xff, 0, 0, 0, 1], 2, none⟩) (by decide +kernel) (by decide)
/-- A string whose declared length is too long for the input, but does not wrap, is an error. -/
example : readString (DR.new [0xda, 0xff, 0xff, 1]) =
    .fail errRange ⟨[0xda, 0xff, 0xff, 1], 3, some errRange⟩ := by decide +kernel

end Verif.Props
