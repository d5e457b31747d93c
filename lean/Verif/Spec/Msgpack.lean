import Verif.Model.Decoder
import Verif.Spec.Wire
/-
Specification of the MessagePack format (https://github.com/msgpack/msgpack/blob/master/spec.md),
as byte strings, and of what it means to write and to read them. Independent of the
encoder, sizer and decoder; only the buffer record of the model is used.
-/
set_option autoImplicit false
namespace Verif.Spec
open Verif Msgpack

/-- A buffer positioned between `pre` and `rest`, without error. -/
def at_ (pre rest : Bytes) : DR := ⟨pre ++ rest, UInt32.ofNat pre.length, none⟩

/-- `f` writes exactly the bytes `w`: whatever is before and after the position, as long as there is
room, it replaces the next `w.length` bytes by `w`, touches nothing else and moves behind them. -/
def Writes (f : Enc) (w : Bytes) : Prop :=
  ∀ pre old rest : Bytes, old.length = w.length → (pre ++ old ++ rest).length < 2^32 →
    f (at_ pre (old ++ rest)) = .ok (at_ (pre ++ w) rest)

/-- `r` reads exactly the bytes `w` and returns `a`: whatever surrounds them. -/
def Reads {α : Type} (r : Rd α) (w : Bytes) (a : α) : Prop :=
  ∀ pre rest : Bytes, (pre ++ w ++ rest).length < 2^32 →
    r (at_ pre (w ++ rest)) = .ok a (at_ (pre ++ w) rest)

/-- `r` refuses the bytes `w` with an error other than running past the end. -/
def Refuses {α : Type} (r : Rd α) (w : Bytes) : Prop :=
  ∀ pre rest : Bytes, (pre ++ w ++ rest).length < 2^32 →
    ∃ e, r (at_ pre (w ++ rest)) = .fail e (at_ (pre ++ w) rest)

/-- The encodings MessagePack allows for a number in the signed formats. -/
inductive SignedForm : Int → Bytes → Prop
  | positiveFix (v : Int) : 0 ≤ v → v ≤ 127 → SignedForm v [UInt8.ofNat v.toNat]
  | negativeFix (v : Int) : -32 ≤ v → v ≤ -1 → SignedForm v [UInt8.ofNat (256 + v).toNat]
  | int8 (v : Int) : -2^7 ≤ v → v < 2^7 → SignedForm v (0xd0 :: bigEndian 1 (v % 2^8).toNat)
  | int16 (v : Int) : -2^15 ≤ v → v < 2^15 → SignedForm v (0xd1 :: bigEndian 2 (v % 2^16).toNat)
  | int32 (v : Int) : -2^31 ≤ v → v < 2^31 → SignedForm v (0xd2 :: bigEndian 4 (v % 2^32).toNat)
  | int64 (v : Int) : -2^63 ≤ v → v < 2^63 → SignedForm v (0xd3 :: bigEndian 8 (v % 2^64).toNat)

/-- The encodings MessagePack allows for a number in the unsigned formats. -/
inductive UnsignedForm : Nat → Bytes → Prop
  | positiveFix (v : Nat) : v ≤ 127 → UnsignedForm v [UInt8.ofNat v]
  | uint8 (v : Nat) : v < 2^8 → UnsignedForm v (0xcc :: bigEndian 1 v)
  | uint16 (v : Nat) : v < 2^16 → UnsignedForm v (0xcd :: bigEndian 2 v)
  | uint32 (v : Nat) : v < 2^32 → UnsignedForm v (0xce :: bigEndian 4 v)
  | uint64 (v : Nat) : v < 2^64 → UnsignedForm v (0xcf :: bigEndian 8 v)

/-- `w` is among the shortest byte strings with property `P`. -/
def Shortest (P : Bytes → Prop) (w : Bytes) : Prop := P w ∧ ∀ w', P w' → w.length ≤ w'.length

/-- The shortest signed form. -/
def sint (v : Int) : Bytes :=
  if 0 ≤ v ∧ v ≤ 127 then [UInt8.ofNat v.toNat]
  else if -32 ≤ v ∧ v < 0 then [UInt8.ofNat (256 + v).toNat]
  else if -2^7 ≤ v ∧ v < 2^7 then 0xd0 :: bigEndian 1 (v % 2^8).toNat
  else if -2^15 ≤ v ∧ v < 2^15 then 0xd1 :: bigEndian 2 (v % 2^16).toNat
  else if -2^31 ≤ v ∧ v < 2^31 then 0xd2 :: bigEndian 4 (v % 2^32).toNat
  else 0xd3 :: bigEndian 8 (v % 2^64).toNat

/-- The shortest unsigned form. -/
def uint (v : Nat) : Bytes :=
  if v ≤ 127 then [UInt8.ofNat v]
  else if v < 2^8 then 0xcc :: bigEndian 1 v
  else if v < 2^16 then 0xcd :: bigEndian 2 v
  else if v < 2^32 then 0xce :: bigEndian 4 v
  else 0xcf :: bigEndian 8 v

/-- String header. -/
def strHead (n : Nat) : Bytes :=
  if n ≤ 31 then [UInt8.ofNat (0xa0 + n)]
  else if n < 2^8 then 0xd9 :: bigEndian 1 n
  else if n < 2^16 then 0xda :: bigEndian 2 n
  else 0xdb :: bigEndian 4 n

/-- A string. -/
def str (s : Bytes) : Bytes := strHead s.length ++ s

/-- Byte-array header. -/
def binHead (n : Nat) : Bytes :=
  if n < 2^8 then 0xc4 :: bigEndian 1 n
  else if n < 2^16 then 0xc5 :: bigEndian 2 n
  else 0xc6 :: bigEndian 4 n

/-- A byte array. -/
def bin (s : Bytes) : Bytes := binHead s.length ++ s

/-- Array header. -/
def arrHead (n : Nat) : Bytes :=
  if n ≤ 15 then [UInt8.ofNat (0x90 + n)]
  else if n < 2^16 then 0xdc :: bigEndian 2 n
  else 0xdd :: bigEndian 4 n

/-- Map header. -/
def mapHead (n : Nat) : Bytes :=
  if n ≤ 15 then [UInt8.ofNat (0x80 + n)]
  else if n < 2^16 then 0xde :: bigEndian 2 n
  else 0xdf :: bigEndian 4 n

def nil : Bytes := [0xc0]
def bool (b : Bool) : Bytes := if b then [0xc3] else [0xc2]
def float32 (bits : Nat) : Bytes := 0xca :: bigEndian 4 bits
def float64 (bits : Nat) : Bytes := 0xcb :: bigEndian 8 bits

/-- Timestamp extension (type -1): 4 bytes for whole seconds that fit 32 bits; 8 bytes (30 bits of
nanoseconds, 34 bits of seconds) for seconds that fit 34 bits; else 12 bytes (nanoseconds, then
seconds as signed 64-bit number). -/
def timestamp (sec : Int) (nsec : Nat) : Bytes :=
  if 0 ≤ sec ∧ sec < 2^32 ∧ nsec = 0 then 0xd6 :: 0xff :: bigEndian 4 sec.toNat
  else if 0 ≤ sec ∧ sec < 2^34 then 0xd7 :: 0xff :: bigEndian 8 (nsec * 2^34 + sec.toNat)
  else 0xc7 :: 12 :: 0xff :: (bigEndian 4 nsec ++ bigEndian 8 (sec % 2^64).toNat)

end Verif.Spec
