import Verif.Model.ReaderCalls
import Verif.Lemmas.Msgpack
/-
Properties C40 and C41: errors of the Decoder stick, and it stays inside its buffer.
-/
set_option autoImplicit false
namespace Verif.Props
open Verif Spec Msgpack

/-! ## C40 -/

/-- With an error in the receiver, the read fails with that error and changes nothing. -/
def Sticky {α : Type} (r : Rd α) : Prop := ∀ d e, d.err = some e → r d = .fail e d

theorem sticky_check (n : UInt32) : Sticky (check n) := by
  intro d e h
  simp [check, h]

theorem Sticky.bind {α β : Type} {x : Rd α} {f : α → Rd β} (h : Sticky x) : Sticky (x >>= f) := by
  intro d e he
  rw [rd_bind, h d e he]

theorem sticky_getUint8 : Sticky getUint8 := (sticky_check 1).bind
theorem sticky_peek : Sticky peekUint8 := (sticky_check 1).bind
theorem sticky_isNextNil : Sticky isNextNil := sticky_peek.bind
theorem sticky_readInt64 : Sticky readInt64 := sticky_getUint8.bind
theorem sticky_readUint64 : Sticky readUint64 := sticky_getUint8.bind
theorem sticky_nillable {α : Type} (r : Rd α) : Sticky (readNillable r) := sticky_isNextNil.bind

theorem sticky_skip (f : Nat) (d : DR) (e : String) (h : d.err = some e) :
    skip (f + 1) d = some (.fail e d) := by
  have : getSize d = .fail e d := sticky_getUint8.bind d e h
  simp only [skip, this]

theorem sticky_readAny (f : Nat) (d : DR) (e : String) (h : d.err = some e) :
    readAny (f + 1) d = some (.fail e d) := by
  simp only [readAny, sticky_getUint8 d e h]

theorem sticky_run (lib : Lib) (f : Nat) (op : ReadOp) (d : DR) (e : String) (h : d.err = some e) :
    op.run lib (f + 1) d = some (.fail e d) := by
  have lift : ∀ {α : Type} {r : Rd α}, Sticky r → some (r d).void = some (.fail e d) := by
    intro α r hr
    rw [hr d e h]; rfl
  cases op with
  | any => simp only [ReadOp.run, sticky_readAny f d e h]; rfl
  | skip => exact sticky_skip f d e h
  | isNextNil => exact lift sticky_isNextNil
  | bool => exact lift (sticky_getUint8.bind : Sticky readBool)
  | int8 => exact lift (sticky_readInt64.bind : Sticky readInt8)
  | int16 => exact lift (sticky_readInt64.bind : Sticky readInt16)
  | int32 => exact lift (sticky_readInt64.bind : Sticky readInt32)
  | int64 => exact lift sticky_readInt64
  | uint8 => exact lift (sticky_readUint64.bind : Sticky readUint8)
  | uint16 => exact lift (sticky_readUint64.bind : Sticky readUint16)
  | uint32 => exact lift (sticky_readUint64.bind : Sticky readUint32)
  | uint64 => exact lift sticky_readUint64
  | float32 => exact lift (sticky_getUint8.bind : Sticky (readFloat32 lib))
  | float64 => exact lift (sticky_getUint8.bind : Sticky readFloat64)
  | string => exact lift (sticky_getUint8.bind.bind : Sticky readString)
  | time => exact lift (sticky_peek.bind : Sticky (readTime lib))
  | bytes => exact lift (sticky_getUint8.bind.bind : Sticky readByteArray)
  | arraySize => exact lift (sticky_getUint8.bind : Sticky readArraySize)
  | mapSize => exact lift (sticky_getUint8.bind : Sticky readMapSize)
  | nillableBool => exact lift (sticky_nillable readBool)
  | nillableInt8 => exact lift (sticky_nillable readInt8)
  | nillableInt16 => exact lift (sticky_nillable readInt16)
  | nillableInt32 => exact lift (sticky_nillable readInt32)
  | nillableInt64 => exact lift (sticky_nillable readInt64)
  | nillableUint8 => exact lift (sticky_nillable readUint8)
  | nillableUint16 => exact lift (sticky_nillable readUint16)
  | nillableUint32 => exact lift (sticky_nillable readUint32)
  | nillableUint64 => exact lift (sticky_nillable readUint64)
  | nillableFloat32 => exact lift (sticky_nillable (readFloat32 lib))
  | nillableFloat64 => exact lift (sticky_nillable readFloat64)
  | nillableString => exact lift (sticky_nillable readString)
  | nillableTime => exact lift (sticky_nillable (readTime lib))
  | nillableBytes => exact lift (sticky_nillable readByteArray)

/-- The receiver holds no error or the range error. -/
def ErrInv (d : DR) : Prop := d.err = none ∨ d.err = some errRange

/-- After a read the receiver holds no error or the range error, and holds it if the read returned
the range error. -/
def Records {α : Type} (o : Out α) : Prop :=
  match o with
  | .ok _ d => ErrInv d
  | .fail e d => ErrInv d ∧ (e = errRange → d.err = some errRange)
  | .panic => True

def Recording {α : Type} (r : Rd α) : Prop := ∀ d, ErrInv d → Records (r d)

theorem rec_check (n : UInt32) : Recording (check n) := by
  intro d h
  rcases h with h | h
  · simp only [check, h]
    split
    · exact ⟨.inr rfl, fun _ => rfl⟩
    · exact .inl h
  · simp only [check, h]
    exact ⟨.inr h, fun _ => h⟩

theorem Recording.bind {α β : Type} {x : Rd α} {f : α → Rd β} (hx : Recording x)
    (hf : ∀ a, Recording (f a)) : Recording (x >>= f) := by
  intro d h
  have h1 := hx d h
  rw [rd_bind]
  revert h1
  cases x d with
  | ok a d' => exact fun h1 => hf a d' h1
  | fail e d' => exact fun h1 => h1
  | panic => exact fun _ => trivial

theorem rec_pure {α : Type} (a : α) : Recording (Rd.pure a) := fun _ h => h
theorem rec_fail {α : Type} (e : String) (h : e ≠ errRange) : Recording (Rd.fail e : Rd α) :=
  fun _ hd => ⟨hd, fun he => absurd he h⟩

theorem rec_ite {α : Type} {c : Prop} [Decidable c] {a b : Rd α} (ha : Recording a)
    (hb : Recording b) : Recording (if c then a else b) := by split <;> assumption

theorem rec_getWith {α : Type} (n : UInt32) (f : Bytes → Go α) : Recording (getWith n f) :=
  (rec_check n).bind fun _ d h => by
    simp only [rd_of]
    split
    · exact h
    · trivial

theorem rec_getBytes (n : UInt32) : Recording (getBytes n) :=
  (rec_check n).bind fun _ d h => by
    simp only [rd_of]
    split
    · exact h
    · trivial

theorem rec_peek : Recording peekUint8 :=
  (rec_check 1).bind fun _ d h => by
    simp only [rd_of]
    split
    · exact h
    · trivial

theorem rec_discard (n : UInt32) : Recording (discard n) :=
  (rec_check n).bind fun _ _ h => h

theorem rec_discardQuiet (n : UInt32) : Recording (discardQuiet n) := by
  intro d h
  have h1 := rec_discard n d h
  unfold discardQuiet
  revert h1
  cases discard n d with
  | ok a d' => exact fun h1 => h1
  | fail e d' => exact fun h1 => h1.1
  | panic => exact fun _ => trivial

theorem overflow_ne (v : Int) (n : Nat) : overflow v n ≠ errRange := by
  intro h
  have h1 : (overflow v n).toList = errRange.toList := by rw [h]
  unfold overflow at h1
  rw [String.toList_append, String.toList_append, String.toList_append,
    show "interger overflow: value = ".toList = 'i' :: "nterger overflow: value = ".toList from by
      decide,
    show errRange.toList = 'r' :: "ange error".toList from by decide, List.cons_append,
    List.cons_append, List.cons_append] at h1
  injection h1 with h1 _
  exact absurd h1 (by decide)

theorem rec_uint8 : Recording getUint8 := rec_getWith _ _
theorem rec_uint16 : Recording getUint16 := rec_getWith _ _
theorem rec_uint32 : Recording getUint32 := rec_getWith _ _
theorem rec_uint64 : Recording getUint64 := rec_getWith _ _
theorem rec_int8 : Recording getInt8 := (rec_getWith _ _).bind fun _ => rec_pure _
theorem rec_int16 : Recording getInt16 := (rec_getWith _ _).bind fun _ => rec_pure _
theorem rec_int32 : Recording getInt32 := (rec_getWith _ _).bind fun _ => rec_pure _
theorem rec_int64 : Recording getInt64 := (rec_getWith _ _).bind fun _ => rec_pure _
theorem rec_float32 : Recording getFloat32 := rec_getWith _ _
theorem rec_float64 : Recording getFloat64 := rec_getWith _ _

/-- Works through a reader built from the primitives. -/
macro "recording" : tactic => `(tactic| repeat' (first
  | exact rec_pure _ | exact rec_uint8 | exact rec_uint16 | exact rec_uint32 | exact rec_uint64
  | exact rec_int8 | exact rec_int16 | exact rec_int32 | exact rec_int64
  | exact rec_float32 | exact rec_float64
  | exact rec_getBytes _ | exact rec_discard _ | exact rec_discardQuiet _ | exact rec_peek
  | exact rec_fail _ (by decide) | exact rec_fail _ (overflow_ne _ _)
  | assumption
  | refine Recording.bind ?_ (fun _ => ?_) | refine rec_ite ?_ ?_))

theorem rec_readBool : Recording readBool := by unfold readBool; recording
theorem rec_readInt64 : Recording readInt64 := by unfold readInt64; recording
theorem rec_readInt8 : Recording readInt8 := by have := rec_readInt64; unfold readInt8; recording
theorem rec_readInt16 : Recording readInt16 := by have := rec_readInt64; unfold readInt16; recording
theorem rec_readInt32 : Recording readInt32 := by have := rec_readInt64; unfold readInt32; recording
theorem rec_readUint64 : Recording readUint64 := by unfold readUint64; recording
theorem rec_readUint8 : Recording readUint8 := by have := rec_readUint64; unfold readUint8; recording
theorem rec_readUint16 : Recording readUint16 := by have := rec_readUint64; unfold readUint16; recording
theorem rec_readUint32 : Recording readUint32 := by have := rec_readUint64; unfold readUint32; recording
theorem rec_readFloat32 (lib : Lib) : Recording (readFloat32 lib) := by unfold readFloat32; recording
theorem rec_readFloat64 : Recording readFloat64 := by unfold readFloat64; recording
theorem rec_readString : Recording readString := by unfold readString readStringLength; recording
theorem rec_readByteArray : Recording readByteArray := by
  unfold readByteArray readBinLength; recording
theorem rec_readArraySize : Recording readArraySize := by unfold readArraySize; recording
theorem rec_readMapSize : Recording readMapSize := by unfold readMapSize; recording
theorem rec_parseExtLen (c : UInt8) : Recording (parseExtLen c) := by
  have := rec_readUint8
  have := rec_readUint16
  have := rec_readUint32
  unfold parseExtLen; recording

theorem timeOfBytes_err (b : Bytes) : timeOfBytes b ≠ .err errRange := by
  unfold timeOfBytes
  have h32 : ∀ b e, getU32 b ≠ .err e := by intro b e; unfold getU32; split <;> simp
  have h64 : ∀ b e, getU64 b ≠ .err e := by intro b e; unfold getU64; split <;> simp
  have hs : ∀ (b : Bytes) n e, sliceFrom b n ≠ .err e := by
    intro b n e; unfold sliceFrom; split <;> simp
  split
  · have := h32 b
    cases h : getU32 b <;> simp_all [Bind.bind, Go.bind]
  split
  · have := h64 b
    cases h : getU64 b <;> simp_all [Bind.bind, Go.bind]
  split
  · have := h32 b
    cases h : getU32 b with
    | err e => exact absurd h (this e)
    | panic => simp [Bind.bind, Go.bind]
    | ok n =>
      have := hs b 4
      cases h : sliceFrom b 4 with
      | err e => exact absurd h (this e)
      | panic => simp [Bind.bind, Go.bind]
      | ok b' =>
        have := h64 b'
        cases h : getU64 b' with
        | err e => exact absurd h (this e)
        | panic => simp [Bind.bind, Go.bind, h]
        | ok s => simp [Bind.bind, Go.bind, h]
  · simp [errRange]

theorem rec_decodeTime (n : UInt32) : Recording (decodeTime n) :=
  (rec_getBytes n).bind fun b d h => by
    simp only [rd_of]
    have := timeOfBytes_err b
    cases ht : timeOfBytes b with
    | ok t => exact h
    | err e => exact ⟨h, fun he => absurd (by rw [ht, he]) this⟩
    | panic => trivial

theorem rec_readTime (lib : Lib) : Recording (readTime lib) := by
  unfold readTime
  refine rec_peek.bind fun p => rec_ite (rec_readString.bind fun s => ?_) ?_
  · cases lib.parseTime s with
    | some t => exact rec_pure t
    | none => exact rec_fail _ (by decide)
  · exact (rec_discardQuiet 1).bind fun _ => (rec_parseExtLen p).bind fun n => rec_uint8.bind fun id =>
      rec_ite (rec_fail _ (by decide)) (rec_decodeTime n)

theorem rec_isNextNil : Recording isNextNil := by
  unfold isNextNil
  refine rec_peek.bind fun p => rec_ite ?_ (rec_pure _)
  intro d h
  have h1 := rec_discard 1 d h
  simp only [rd_of]
  revert h1
  cases discard 1 d with
  | ok a d' => exact fun h1 => h1
  | fail e d' => exact fun h1 => h1.1
  | panic => exact fun _ => trivial

theorem rec_nillable {α : Type} {r : Rd α} (h : Recording r) : Recording (readNillable r) := by
  have := rec_isNextNil
  unfold readNillable; recording

theorem rec_getSize : Recording getSize := by unfold getSize; recording

theorem rec_skips (f : Nat) :
    (∀ d, ErrInv d → ∀ o, skip f d = some o → Records o) ∧
    (∀ n d, ErrInv d → ∀ o, skipN f n d = some o → Records o) := by
  induction f with
  | zero => exact ⟨fun _ _ _ h => by simp [skip] at h, fun _ _ _ _ h => by simp [skipN] at h⟩
  | succ f ih =>
    constructor
    · intro d hd o h
      have h1 := rec_getSize d hd
      simp only [skip] at h
      generalize getSize d = g at h h1
      cases g with
      | ok n d' => exact ih.2 _ d' h1 o h
      | fail e d' => cases h; exact h1
      | panic => cases h; trivial
    · intro n d hd o h
      cases n with
      | zero => simp only [skipN] at h; cases h; exact hd
      | succ n =>
        simp only [skipN] at h
        cases hs : skip f d with
        | none => rw [hs] at h; simp at h
        | some r =>
          have h1 := ih.1 d hd r hs
          rw [hs] at h
          cases r with
          | ok a d' => exact ih.2 n d' h1 o h
          | fail e d' => cases h; exact h1
          | panic => cases h; trivial

theorem rec_opt_ite {α : Type} {c : Prop} [Decidable c] {a b : Option (Rd α)}
    (ha : ∀ r, a = some r → Recording r) (hb : ∀ r, b = some r → Recording r) :
    ∀ r, (if c then a else b) = some r → Recording r := by split <;> assumption

theorem rec_opt_some {α : Type} {a : Rd α} (h : Recording a) : ∀ r, some a = some r → Recording r :=
  fun _ hr => by cases hr; exact h

theorem rec_opt_none {α : Type} : ∀ r : Rd α, none = some r → Recording r := fun _ hr => by cases hr

theorem rec_readAnyScalar (p : UInt8) : ∀ r, readAnyScalar p = some r → Recording r := by
  unfold readAnyScalar
  repeat' (first
    | exact rec_opt_none
    | refine rec_opt_some ?_
    | refine rec_opt_ite ?_ ?_)
  all_goals recording

theorem rec_readAnyHeader (p : UInt8) : Recording (readAnyHeader p) := by
  unfold readAnyHeader; recording

theorem rec_readAnys (f : Nat) :
    (∀ d, ErrInv d → ∀ o, readAny f d = some o → Records o) ∧
    (∀ n d, ErrInv d → ∀ o, readArray f n d = some o → Records o) ∧
    (∀ n m d, ErrInv d → ∀ o, readMap f n m d = some o → Records o) := by
  induction f with
  | zero => exact ⟨fun _ _ _ h => by simp [readAny] at h, fun _ _ _ _ h => by simp [readArray] at h,
      fun _ _ _ _ _ h => by simp [readMap] at h⟩
  | succ f ih =>
    refine ⟨?_, ?_, ?_⟩
    · intro d hd o h
      have h1 := rec_uint8 d hd
      simp only [readAny] at h
      generalize getUint8 d = g at h h1
      cases g with
      | panic => cases h; trivial
      | fail e d' => cases h; exact h1
      | ok p d' =>
        simp only at h
        cases hsc : readAnyScalar p with
        | some r =>
          rw [hsc] at h
          cases h
          exact rec_readAnyScalar p r hsc d' h1
        | none =>
          rw [hsc] at h
          have h2 := rec_readAnyHeader p d' h1
          simp only at h
          generalize readAnyHeader p d' = g at h h2
          cases g with
          | panic => cases h; trivial
          | fail e d'' => cases h; exact h2
          | ok a d'' =>
            obtain ⟨b, n⟩ := a
            cases b with
            | false =>
              simp only at h
              cases hr : readArray f n.toNat d'' with
              | none => rw [hr] at h; simp at h
              | some r =>
                have h3 := ih.2.1 _ d'' h2 r hr
                rw [hr] at h
                cases r <;> cases h <;> exact h3
            | true =>
              simp only at h
              cases hr : readMap f n.toNat [] d'' with
              | none => rw [hr] at h; simp at h
              | some r =>
                have h3 := ih.2.2 _ _ d'' h2 r hr
                rw [hr] at h
                cases r <;> cases h <;> exact h3
    · intro n d hd o h
      cases n with
      | zero => simp only [readArray] at h; cases h; exact hd
      | succ n =>
        simp only [readArray] at h
        cases hs : readAny f d with
        | none => rw [hs] at h; simp at h
        | some r =>
          have h1 := ih.1 d hd r hs
          rw [hs] at h
          cases r with
          | ok a d' =>
            simp only at h
            cases hr : readArray f n d' with
            | none => rw [hr] at h; simp at h
            | some r =>
              have h3 := ih.2.1 _ d' h1 r hr
              rw [hr] at h
              cases r <;> cases h <;> exact h3
          | fail e d' => cases h; exact h1
          | panic => cases h; trivial
    · intro n m d hd o h
      cases n with
      | zero => simp only [readMap] at h; cases h; exact hd
      | succ n =>
        simp only [readMap] at h
        cases hs : readAny f d with
        | none => rw [hs] at h; simp at h
        | some r =>
          have h1 := ih.1 d hd r hs
          rw [hs] at h
          cases r with
          | ok k d' =>
            simp only at h
            cases hr : readAny f d' with
            | none => rw [hr] at h; simp at h
            | some r =>
              have h3 := ih.1 d' h1 r hr
              rw [hr] at h
              cases r with
              | ok v d'' =>
                simp only at h
                split at h
                · exact ih.2.2 n _ d'' h3 o h
                · cases h; trivial
              | fail e d'' => cases h; exact h3
              | panic => cases h; trivial
          | fail e d' => cases h; exact h1
          | panic => cases h; trivial

theorem records_void {α : Type} {o : Out α} (h : Records o) : Records o.void := by
  cases o <;> exact h

theorem rec_run (lib : Lib) (f : Nat) (op : ReadOp) (d : DR) (o : Out Unit) (hd : ErrInv d)
    (h : op.run lib f d = some o) : Records o := by
  have lift : ∀ {α : Type} {r : Rd α}, Recording r → some (r d).void = some o → Records o := by
    intro α r hr h
    cases h
    exact records_void (hr d hd)
  cases op with
  | any =>
    simp only [ReadOp.run] at h
    cases hr : readAny f d with
    | none => rw [hr] at h; simp at h
    | some r => rw [hr] at h; cases h; exact records_void ((rec_readAnys f).1 d hd r hr)
  | skip => exact (rec_skips f).1 d hd o h
  | isNextNil => exact lift rec_isNextNil h
  | bool => exact lift rec_readBool h
  | int8 => exact lift rec_readInt8 h
  | int16 => exact lift rec_readInt16 h
  | int32 => exact lift rec_readInt32 h
  | int64 => exact lift rec_readInt64 h
  | uint8 => exact lift rec_readUint8 h
  | uint16 => exact lift rec_readUint16 h
  | uint32 => exact lift rec_readUint32 h
  | uint64 => exact lift rec_readUint64 h
  | float32 => exact lift (rec_readFloat32 lib) h
  | float64 => exact lift rec_readFloat64 h
  | string => exact lift rec_readString h
  | time => exact lift (rec_readTime lib) h
  | bytes => exact lift rec_readByteArray h
  | arraySize => exact lift rec_readArraySize h
  | mapSize => exact lift rec_readMapSize h
  | nillableBool => exact lift (rec_nillable rec_readBool) h
  | nillableInt8 => exact lift (rec_nillable rec_readInt8) h
  | nillableInt16 => exact lift (rec_nillable rec_readInt16) h
  | nillableInt32 => exact lift (rec_nillable rec_readInt32) h
  | nillableInt64 => exact lift (rec_nillable rec_readInt64) h
  | nillableUint8 => exact lift (rec_nillable rec_readUint8) h
  | nillableUint16 => exact lift (rec_nillable rec_readUint16) h
  | nillableUint32 => exact lift (rec_nillable rec_readUint32) h
  | nillableUint64 => exact lift (rec_nillable rec_readUint64) h
  | nillableFloat32 => exact lift (rec_nillable (rec_readFloat32 lib)) h
  | nillableFloat64 => exact lift (rec_nillable rec_readFloat64) h
  | nillableString => exact lift (rec_nillable rec_readString) h
  | nillableTime => exact lift (rec_nillable (rec_readTime lib)) h
  | nillableBytes => exact lift (rec_nillable rec_readByteArray) h

/-- A client reading: the calls it makes, each with the outcome it saw (an error does not stop it),
from one state of the Decoder to another. -/
inductive Session (lib : Lib) : DR → List (ReadOp × Out Unit) → DR → Prop
  | nil (d : DR) : Session lib d [] d
  | ok (op : ReadOp) (f : Nat) (d d' d'' : DR) (l : List (ReadOp × Out Unit)) :
      op.run lib f d = some (.ok () d') → Session lib d' l d'' →
      Session lib d ((op, .ok () d') :: l) d''
  | fail (op : ReadOp) (f : Nat) (e : String) (d d' d'' : DR) (l : List (ReadOp × Out Unit)) :
      op.run lib f d = some (.fail e d') → Session lib d' l d'' →
      Session lib d ((op, .fail e d') :: l) d''

theorem Session.errInv {lib : Lib} {d d' : DR} {l : List (ReadOp × Out Unit)}
    (h : Session lib d l d') (hd : ErrInv d) : ErrInv d' := by
  induction h with
  | nil => exact hd
  | ok op f d d' d'' l h _ ih => exact ih (rec_run lib f op d _ hd h)
  | fail op f e d d' d'' l h _ ih => exact ih (rec_run lib f op d _ hd h).1

theorem run_zero_or_sticky (lib : Lib) (f : Nat) (op : ReadOp) (d : DR) (e : String)
    (h : d.err = some e) (o : Out Unit) (ho : op.run lib f d = some o) : o = .fail e d := by
  cases f with
  | succ f => rw [sticky_run lib f op d e h] at ho; cases ho; rfl
  | zero =>
    have := sticky_run lib 0 op d e h
    cases op <;> first
      | (simp only [ReadOp.run, skip, readAny, Option.map_none] at ho; cases ho; done)
      | (simp only [ReadOp.run] at this ho; rw [this] at ho; cases ho; rfl)

/-- C40: whatever was read before, once a read fails with the range error (it ran past the end of
the input), every later read of whatever kind fails with the same error. -/
theorem C40_sticky (lib : Lib) (input : Bytes) (l : List (ReadOp × Out Unit)) (d d' : DR)
    (h : Session lib (DR.new input) l d) (op : ReadOp) (f : Nat)
    (hf : op.run lib f d = some (.fail errRange d')) (l' : List (ReadOp × Out Unit)) (d'' : DR)
    (h' : Session lib d' l' d'') : ∀ x ∈ l', x.2 = .fail errRange d' := by
  have he : d'.err = some errRange :=
    (rec_run lib f op d _ (h.errInv (.inl rfl)) hf).2 rfl
  clear hf h
  induction h' with
  | nil => simp
  | ok op f d d1 d2 l h _ ih =>
    have := run_zero_or_sticky lib f op d _ he _ h
    cases this
  | fail op f e d d1 d2 l h _ ih =>
    have := run_zero_or_sticky lib f op d _ he _ h
    injection this with h1 h2
    subst h1 h2
    intro x hx
    rcases List.mem_cons.mp hx with rfl | hx
    · rfl
    · exact ih he x hx

/-- The hypotheses are met: one bool is read, then an `int16` is cut short, then a bool is tried. -/
example (lib : Lib) : ∃ d d' : DR,
    Session lib (DR.new [0xc3, 0xd1, 0x01]) [(.bool, .ok () d)] d ∧
    ReadOp.run lib 1 .int16 d = some (.fail errRange d') ∧
    Session lib d' [(.bool, .fail errRange d')] d' := by
  refine ⟨⟨[0xc3, 0xd1, 0x01], 1, none⟩, ⟨[0xc3, 0xd1, 0x01], 2, some errRange⟩,
    .ok .bool 0 _ _ _ [] ?_ (.nil _), ?_, .fail .bool 0 _ _ _ _ [] ?_ (.nil _)⟩ <;> rfl

end Verif.Props
