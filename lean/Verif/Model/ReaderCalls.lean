import Verif.Model.Decoder
/-
The `Reader` interface of `msgpack/interfaces.go`.
-/
set_option autoImplicit false
namespace Verif.Msgpack
open Verif

/-- One call of the `Reader` interface (interfaces.go 8-42), without `Err`. -/
inductive ReadOp where
  | isNextNil
  | bool | nillableBool
  | int8 | nillableInt8
  | int16 | nillableInt16
  | int32 | nillableInt32
  | int64 | nillableInt64
  | uint8 | nillableUint8
  | uint16 | nillableUint16
  | uint32 | nillableUint32
  | uint64 | nillableUint64
  | float32 | nillableFloat32
  | float64 | nillableFloat64
  | string | nillableString
  | time | nillableTime
  | bytes | nillableBytes
  | arraySize
  | mapSize
  | any
  | skip
  deriving DecidableEq, Repr

/-- The result of a read without the value. -/
def Out.void {α : Type} : Out α → Out Unit
  | .ok _ d => .ok () d
  | .fail e d => .fail e d
  | .panic => .panic

/-- One call of a `Reader` method; the value read is dropped. `fuel` bounds the recursion of `Skip` and
`ReadAny`; `none` is "still running". -/
def ReadOp.run (lib : Lib) (fuel : Nat) : ReadOp → DR → Option (Out Unit)
  | .isNextNil, d => some (Msgpack.isNextNil d).void
  | .bool, d => some (readBool d).void
  | .nillableBool, d => some (readNillable readBool d).void
  | .int8, d => some (readInt8 d).void
  | .nillableInt8, d => some (readNillable readInt8 d).void
  | .int16, d => some (readInt16 d).void
  | .nillableInt16, d => some (readNillable readInt16 d).void
  | .int32, d => some (readInt32 d).void
  | .nillableInt32, d => some (readNillable readInt32 d).void
  | .int64, d => some (readInt64 d).void
  | .nillableInt64, d => some (readNillable readInt64 d).void
  | .uint8, d => some (readUint8 d).void
  | .nillableUint8, d => some (readNillable readUint8 d).void
  | .uint16, d => some (readUint16 d).void
  | .nillableUint16, d => some (readNillable readUint16 d).void
  | .uint32, d => some (readUint32 d).void
  | .nillableUint32, d => some (readNillable readUint32 d).void
  | .uint64, d => some (readUint64 d).void
  | .nillableUint64, d => some (readNillable readUint64 d).void
  | .float32, d => some (readFloat32 lib d).void
  | .nillableFloat32, d => some (readNillable (readFloat32 lib) d).void
  | .float64, d => some (readFloat64 d).void
  | .nillableFloat64, d => some (readNillable readFloat64 d).void
  | .string, d => some (readString d).void
  | .nillableString, d => some (readNillable readString d).void
  | .time, d => some (readTime lib d).void
  | .nillableTime, d => some (readNillable (readTime lib) d).void
  | .bytes, d => some (readByteArray d).void
  | .nillableBytes, d => some (readNillable readByteArray d).void
  | .arraySize, d => some (readArraySize d).void
  | .mapSize, d => some (readMapSize d).void
  | .any, d => (readAny fuel d).map Out.void
  | .skip, d => Msgpack.skip fuel d

end Verif.Msgpack
