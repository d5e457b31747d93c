import Verif.Base.Go
/-
Model of `msgpack/data_reader.go`.
-/
set_option autoImplicit false
namespace Verif.Msgpack
open Verif

/-- data_reader.go 9. -/
def errRange : String := "range error"

/-- data_reader.go 11-15. The capacity of the buffer is taken equal to its length. -/
structure DR where
  buf : Bytes
  off : UInt32
  err : Option String
  deriving Repr, DecidableEq

/-- data_reader.go 17-21. -/
def DR.new (b : Bytes) : DR := ⟨b, 0, none⟩

/-- Outcome of a reading method: a value, a returned error, or a panic; the receiver is changed in
the first two cases. -/
inductive Out (α : Type) where
  | ok (a : α) (d : DR)
  | fail (e : String) (d : DR)
  | panic
  deriving Repr, DecidableEq

/-- A reading method. -/
def Rd (α : Type) := DR → Out α

namespace Rd
variable {α β : Type}

/-- `x, err := f(); if err != nil { return ..., err }; ...` -/
@[inline] def bind (x : Rd α) (f : α → Rd β) : Rd β := fun d =>
  match x d with
  | .ok a d => f a d
  | .fail e d => .fail e d
  | .panic => .panic

@[inline] def pure (a : α) : Rd α := fun d => .ok a d

instance : Monad Rd where
  pure := Rd.pure
  bind := Rd.bind

/-- A step that looks at the whole receiver. -/
def of (f : DR → Out α) : Rd α := f

/-- `return ..., err`. -/
def fail (e : String) : Rd α := fun d => .fail e d

end Rd

/-- data_reader.go 239-249. The sum is 32-bit arithmetic and the length is cut to 32 bits. -/
def check (n : UInt32) : Rd Unit := fun d =>
  match d.err with
  | some e => .fail e d
  | none =>
    if d.off + n > UInt32.ofNat d.buf.length then .fail errRange { d with err := some errRange }
    else .ok () d

/-- data_reader.go 23-30. -/
def getBytes (n : UInt32) : Rd Bytes := do
  check n
  Rd.of fun d => match slice d.buf d.off.toNat (d.off + n).toNat with
    | .ok b => .ok b { d with off := d.off + n }
    | _ => .panic

/-- data_reader.go 42-47. -/
def peekUint8 : Rd UInt8 := do
  check 1
  Rd.of fun d => match index d.buf d.off.toNat with
    | .ok b => .ok b d
    | _ => .panic

/-- data_reader.go 49-55. -/
def discard (n : UInt32) : Rd Unit := do
  check n
  Rd.of fun d => .ok () { d with off := d.off + n }

/-- The methods `GetXxx` (data_reader.go 57-145) share this form: check, decode at
`d.buffer[d.byteOffset:]` (or `d.buffer[d.byteOffset]`), advance. -/
def getWith {α : Type} (n : UInt32) (f : Bytes → Go α) : Rd α := do
  check n
  Rd.of fun d => match sliceFrom d.buf d.off.toNat >>= f with
    | .ok a => .ok a { d with off := d.off + n }
    | _ => .panic

/-- data_reader.go 111-118. -/
def getUint8 : Rd UInt8 := getWith 1 (fun b => index b 0)
/-- data_reader.go 120-127. -/
def getUint16 : Rd UInt16 := getWith 2 getU16
/-- data_reader.go 129-136. -/
def getUint32 : Rd UInt32 := getWith 4 getU32
/-- data_reader.go 138-145. -/
def getUint64 : Rd UInt64 := getWith 8 getU64
/-- data_reader.go 75-82. -/
def getInt8 : Rd Int8 := do let v ← getWith 1 (fun b => index b 0); Rd.pure v.toInt8
/-- data_reader.go 84-91. -/
def getInt16 : Rd Int16 := do let v ← getWith 2 getU16; Rd.pure v.toInt16
/-- data_reader.go 93-100. -/
def getInt32 : Rd Int32 := do let v ← getWith 4 getU32; Rd.pure v.toInt32
/-- data_reader.go 102-109. -/
def getInt64 : Rd Int64 := do let v ← getWith 8 getU64; Rd.pure v.toInt64
/-- data_reader.go 57-64; a float is represented by its bits. -/
def getFloat32 : Rd UInt32 := getWith 4 getU32
/-- data_reader.go 66-73; a float is represented by its bits. -/
def getFloat64 : Rd UInt64 := getWith 8 getU64

/-- A writing method whose error result is ignored by the caller (the error stays in the receiver).
The Encoder ignores all of them. -/
abbrev Enc := DR → Go DR

/-- Two writes in a row. -/
def Enc.seq (a b : Enc) : Enc := fun d => a d >>= b

infixr:60 " ≫ " => Enc.seq

/-- The methods `SetXxx` (data_reader.go 147-237) share this form: check, store the big-endian
bytes `w` at the offset (panics when they do not fit), advance. -/
def setFixed (w : Bytes) : Enc := fun d =>
  match check (UInt32.ofNat w.length) d with
  | .fail _ d => .ok d
  | .panic => .panic
  | .ok _ d =>
    if d.off.toNat + w.length ≤ d.buf.length then
      .ok { d with buf := d.buf.take d.off.toNat ++ w ++ d.buf.drop (d.off.toNat + w.length),
                   off := d.off + UInt32.ofNat w.length }
    else .panic

/-- data_reader.go 32-40: as `setFixed`, but `copy` stores only what fits, and the length is cut to
32 bits. -/
def setBytes (w : Bytes) : Enc := fun d =>
  match check (UInt32.ofNat w.length) d with
  | .fail _ d => .ok d
  | .panic => .panic
  | .ok _ d =>
    if d.off.toNat ≤ d.buf.length then
      .ok { d with buf := d.buf.take d.off.toNat ++ w.take (d.buf.length - d.off.toNat) ++
                          d.buf.drop (d.off.toNat + w.length),
                   off := d.off + UInt32.ofNat w.length }
    else .panic

/-- data_reader.go 203-210. -/
def setUint8 (v : UInt8) : Enc := setFixed [v]
/-- data_reader.go 212-219. -/
def setUint16 (v : UInt16) : Enc := setFixed (be16 v)
/-- data_reader.go 221-228. -/
def setUint32 (v : UInt32) : Enc := setFixed (be32 v)
/-- data_reader.go 230-237. -/
def setUint64 (v : UInt64) : Enc := setFixed (be64 v)
/-- data_reader.go 167-174. -/
def setInt8 (v : Int8) : Enc := setFixed [v.toUInt8]
/-- data_reader.go 176-183. -/
def setInt16 (v : Int16) : Enc := setFixed (be16 v.toUInt16)
/-- data_reader.go 185-192. -/
def setInt32 (v : Int32) : Enc := setFixed (be32 v.toUInt32)
/-- data_reader.go 194-201. -/
def setInt64 (v : Int64) : Enc := setFixed (be64 v.toUInt64)
/-- data_reader.go 147-155. -/
def setFloat32 (bits : UInt32) : Enc := setFixed (be32 bits)
/-- data_reader.go 157-165. -/
def setFloat64 (bits : UInt64) : Enc := setFixed (be64 bits)

end Verif.Msgpack
