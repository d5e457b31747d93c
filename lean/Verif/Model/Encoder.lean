import Verif.Model.DataReader
/-
Model of `msgpack/encoder.go`, `msgpack/sizer.go` and `msgpack/codec.go`.

Strings are byte strings (`UnsafeBytes`/`UnsafeString` only reinterpret memory); floats are
represented by their IEEE bits; `int` and `uint` have 64 bits.
-/
set_option autoImplicit false
namespace Verif.Msgpack
open Verif

/-- An instant: Unix seconds and nanoseconds within the second (`time.Time`, without its location
and monotonic reading). `nsec` is below 10^9 for every `time.Time`. -/
structure Time where
  sec : Int64
  nsec : UInt32
  deriving Repr, DecidableEq

/-! format.go -/
def fmtNil : UInt8 := 0xc0
def fmtFalse : UInt8 := 0xc2
def fmtTrue : UInt8 := 0xc3
def fmtBin8 : UInt8 := 0xc4
def fmtBin16 : UInt8 := 0xc5
def fmtBin32 : UInt8 := 0xc6
def fmtExt8 : UInt8 := 0xc7
def fmtExt16 : UInt8 := 0xc8
def fmtExt32 : UInt8 := 0xc9
def fmtFloat32 : UInt8 := 0xca
def fmtFloat64 : UInt8 := 0xcb
def fmtUint8 : UInt8 := 0xcc
def fmtUint16 : UInt8 := 0xcd
def fmtUint32 : UInt8 := 0xce
def fmtUint64 : UInt8 := 0xcf
def fmtInt8 : UInt8 := 0xd0
def fmtInt16 : UInt8 := 0xd1
def fmtInt32 : UInt8 := 0xd2
def fmtInt64 : UInt8 := 0xd3
def fmtFixExt1 : UInt8 := 0xd4
def fmtFixExt2 : UInt8 := 0xd5
def fmtFixExt4 : UInt8 := 0xd6
def fmtFixExt8 : UInt8 := 0xd7
def fmtFixExt16 : UInt8 := 0xd8
def fmtString8 : UInt8 := 0xd9
def fmtString16 : UInt8 := 0xda
def fmtString32 : UInt8 := 0xdb
def fmtArray16 : UInt8 := 0xdc
def fmtArray32 : UInt8 := 0xdd
def fmtMap16 : UInt8 := 0xde
def fmtMap32 : UInt8 := 0xdf
def fmtNegativeFixInt : UInt8 := 0xe0
def fmtFixMap : UInt8 := 0x80
def fmtFixArray : UInt8 := 0x90
def fmtFixString : UInt8 := 0xa0

/-! ## Encoder -/

/-- encoder.go 22-24. -/
def writeNil : Enc := setUint8 fmtNil

/-- encoder.go 26-32. -/
def writeBool (v : Bool) : Enc := if v then setUint8 fmtTrue else setUint8 fmtFalse

/-- The shape of all `WriteNillableXxx` (encoder.go 34-40, 46-52, ..., 285-291). -/
def writeNillable {α : Type} (w : α → Enc) : Option α → Enc
  | none => writeNil
  | some v => w v

/-- encoder.go 78-96. -/
def writeInt64 (v : Int64) : Enc :=
  if v ≥ 0 ∧ v < 128 then setUint8 v.toUInt64.toUInt8
  else if v < 0 ∧ v ≥ -32 then setUint8 (v.toUInt64.toUInt8 ||| fmtNegativeFixInt)
  else if v ≤ 127 ∧ v ≥ -128 then setUint8 fmtInt8 ≫ setInt8 v.toInt8
  else if v ≤ 32767 ∧ v ≥ -32768 then setUint8 fmtInt16 ≫ setInt16 v.toInt16
  else if v ≤ 2147483647 ∧ v ≥ -2147483648 then setUint8 fmtInt32 ≫ setInt32 v.toInt32
  else setUint8 fmtInt64 ≫ setInt64 v

/-- encoder.go 42-44, 54-56, 66-68. -/
def writeInt8 (v : Int8) : Enc := writeInt64 v.toInt64
def writeInt16 (v : Int16) : Enc := writeInt64 v.toInt64
def writeInt32 (v : Int32) : Enc := writeInt64 v.toInt64

/-- encoder.go 142-158. -/
def writeUint64 (v : UInt64) : Enc :=
  if v < 128 then setUint8 v.toUInt8
  else if v ≤ 255 then setUint8 fmtUint8 ≫ setUint8 v.toUInt8
  else if v ≤ 65535 then setUint8 fmtUint16 ≫ setUint16 v.toUInt16
  else if v ≤ 4294967295 then setUint8 fmtUint32 ≫ setUint32 v.toUInt32
  else setUint8 fmtUint64 ≫ setUint64 v

/-- encoder.go 106-108, 118-120, 130-132. -/
def writeUint8 (v : UInt8) : Enc := writeUint64 v.toUInt64
def writeUint16 (v : UInt16) : Enc := writeUint64 v.toUInt64
def writeUint32 (v : UInt32) : Enc := writeUint64 v.toUInt64

/-- encoder.go 168-171. -/
def writeFloat32 (bits : UInt32) : Enc := setUint8 fmtFloat32 ≫ setFloat32 bits
/-- encoder.go 181-184. -/
def writeFloat64 (bits : UInt64) : Enc := setUint8 fmtFloat64 ≫ setFloat64 bits

/-- encoder.go 194-207. -/
def writeStringLength (n : UInt32) : Enc :=
  if n < 32 then setUint8 (n.toUInt8 ||| fmtFixString)
  else if n ≤ 255 then setUint8 fmtString8 ≫ setUint8 n.toUInt8
  else if n ≤ 65535 then setUint8 fmtString16 ≫ setUint16 n.toUInt16
  else setUint8 fmtString32 ≫ setUint32 n

/-- encoder.go 209-213. -/
def writeString (s : Bytes) : Enc := writeStringLength (UInt32.ofNat s.length) ≫ setBytes s

/-- encoder.go 239-259. -/
def encodeTime (t : Time) : Bytes :=
  let secs := t.sec.toUInt64
  if secs >>> 34 = 0 then
    let data := t.nsec.toUInt64 <<< 34 ||| secs
    if data &&& 0xffffffff00000000 = 0 then be32 data.toUInt32 else be64 data
  else be32 t.nsec ++ be64 secs

/-- encoder.go 524-569 with `write1`, `write2`, `write4`. -/
def encodeExtLen (l : Nat) : Enc :=
  if l = 1 then setUint8 fmtFixExt1
  else if l = 2 then setUint8 fmtFixExt2
  else if l = 4 then setUint8 fmtFixExt4
  else if l = 8 then setUint8 fmtFixExt8
  else if l = 16 then setUint8 fmtFixExt16
  else if l ≤ 255 then setBytes [fmtExt8, UInt8.ofNat l]
  else if l ≤ 65535 then setBytes (fmtExt16 :: be16 (UInt16.ofNat l))
  else setBytes (fmtExt32 :: be32 (UInt32.ofNat l))

/-- encoder.go 223-229. -/
def writeTime (t : Time) : Enc :=
  encodeExtLen (encodeTime t).length ≫ setInt8 (-1) ≫ setBytes (encodeTime t)

/-- encoder.go 261-272. -/
def writeBinLength (n : UInt32) : Enc :=
  if n ≤ 255 then setUint8 fmtBin8 ≫ setUint8 n.toUInt8
  else if n ≤ 65535 then setUint8 fmtBin16 ≫ setUint16 n.toUInt16
  else setUint8 fmtBin32 ≫ setUint32 n

/-- encoder.go 274-283. -/
def writeByteArray (b : Bytes) : Enc :=
  let n := UInt32.ofNat b.length
  if n = 0 then setUint8 fmtBin8 ≫ setUint8 0
  else writeBinLength n ≫ setBytes b

/-- encoder.go 293-303. -/
def writeArraySize (n : UInt32) : Enc :=
  if n < 16 then setUint8 (n.toUInt8 ||| fmtFixArray)
  else if n ≤ 65535 then setUint8 fmtArray16 ≫ setUint16 n.toUInt16
  else setUint8 fmtArray32 ≫ setUint32 n

/-- encoder.go 305-315. -/
def writeMapSize (n : UInt32) : Enc :=
  if n < 16 then setUint8 (n.toUInt8 ||| fmtFixMap)
  else if n ≤ 65535 then setUint8 fmtMap16 ≫ setUint16 n.toUInt16
  else setUint8 fmtMap32 ≫ setUint32 n

mutual
/-- Dynamically typed values as `WriteAny` tells them apart (encoder.go 317-522, sizer.go 281-494).
`arr` stands for `[]interface{}` and for every typed slice both of them handle (`[]string`,
`[]bool`, `[]int`...`[]uint64`), which are written element by element in the same way as the
corresponding `[]interface{}`; likewise `map` for `map[string]string`, `map[string]interface{}`,
`map[int]interface{}`..., `map[interface{}]interface{}`: the list is the order in which `range`
visits the entries. `int` and `uint` are 64-bit. `codec` is a user type with an `Encode` method that
makes the given calls. `other` is any value of another type (e.g. `[]float64`, `map[string]int`, a
struct without `Encode`). -/
inductive Dyn where
  | nil
  | codec (calls : List Call)
  | int (v : Int64)
  | int8 (v : Int8)
  | int16 (v : Int16)
  | int32 (v : Int32)
  | int64 (v : Int64)
  | uint (v : UInt64)
  | uint8 (v : UInt8)
  | uint16 (v : UInt16)
  | uint32 (v : UInt32)
  | uint64 (v : UInt64)
  | bool (v : Bool)
  | float32 (bits : UInt32)
  | float64 (bits : UInt64)
  | str (s : Bytes)
  | time (t : Time)
  | bytes (b : Bytes)
  | arr (l : List Dyn)
  | times (l : List Time)
  | map (m : List (Dyn × Dyn))
  | other

/-- One call of the `Writer` interface (interfaces.go 46-80). -/
inductive Call where
  | nil
  | bool (v : Bool)
  | nillableBool (v : Option Bool)
  | int8 (v : Int8)
  | nillableInt8 (v : Option Int8)
  | int16 (v : Int16)
  | nillableInt16 (v : Option Int16)
  | int32 (v : Int32)
  | nillableInt32 (v : Option Int32)
  | int64 (v : Int64)
  | nillableInt64 (v : Option Int64)
  | uint8 (v : UInt8)
  | nillableUint8 (v : Option UInt8)
  | uint16 (v : UInt16)
  | nillableUint16 (v : Option UInt16)
  | uint32 (v : UInt32)
  | nillableUint32 (v : Option UInt32)
  | uint64 (v : UInt64)
  | nillableUint64 (v : Option UInt64)
  | float32 (bits : UInt32)
  | nillableFloat32 (bits : Option UInt32)
  | float64 (bits : UInt64)
  | nillableFloat64 (bits : Option UInt64)
  | str (s : Bytes)
  | nillableStr (s : Option Bytes)
  | time (t : Time)
  | nillableTime (t : Option Time)
  | bytes (b : Bytes)
  | nillableBytes (b : Option Bytes)
  | arraySize (n : UInt32)
  | mapSize (n : UInt32)
  | any (d : Dyn)
end

mutual
/-- encoder.go 317-522. `nil` is written by the `if` in front of the `switch` and again by its
first case; `time.Time` and `[]time.Time` have no case. -/
def writeAny : Dyn → Enc
  | .nil => writeNil ≫ writeNil
  | .codec cs => writeCalls cs
  | .int v => writeInt64 v
  | .int8 v => writeInt8 v
  | .int16 v => writeInt16 v
  | .int32 v => writeInt32 v
  | .int64 v => writeInt64 v
  | .uint v => writeUint64 v
  | .uint8 v => writeUint8 v
  | .uint16 v => writeUint16 v
  | .uint32 v => writeUint32 v
  | .uint64 v => writeUint64 v
  | .bool v => writeBool v
  | .float32 b => writeFloat32 b
  | .float64 b => writeFloat64 b
  | .str s => writeString s
  | .time _ => .ok
  | .bytes b => writeByteArray b
  | .arr l => writeArraySize (UInt32.ofNat l.length) ≫ writeElems l
  | .times _ => .ok
  | .map m => writeMapSize (UInt32.ofNat m.length) ≫ writePairs m
  | .other => .ok

/-- The element loops (encoder.go 355-357, ...). -/
def writeElems : List Dyn → Enc
  | [] => .ok
  | d :: l => writeAny d ≫ writeElems l

/-- The entry loops (encoder.go 440-443, ...). -/
def writePairs : List (Dyn × Dyn) → Enc
  | [] => .ok
  | (k, v) :: m => writeAny k ≫ writeAny v ≫ writePairs m

/-- One `Writer` call on the Encoder. -/
def writeCall : Call → Enc
  | .nil => writeNil
  | .bool v => writeBool v
  | .nillableBool v => writeNillable writeBool v
  | .int8 v => writeInt8 v
  | .nillableInt8 v => writeNillable writeInt8 v
  | .int16 v => writeInt16 v
  | .nillableInt16 v => writeNillable writeInt16 v
  | .int32 v => writeInt32 v
  | .nillableInt32 v => writeNillable writeInt32 v
  | .int64 v => writeInt64 v
  | .nillableInt64 v => writeNillable writeInt64 v
  | .uint8 v => writeUint8 v
  | .nillableUint8 v => writeNillable writeUint8 v
  | .uint16 v => writeUint16 v
  | .nillableUint16 v => writeNillable writeUint16 v
  | .uint32 v => writeUint32 v
  | .nillableUint32 v => writeNillable writeUint32 v
  | .uint64 v => writeUint64 v
  | .nillableUint64 v => writeNillable writeUint64 v
  | .float32 b => writeFloat32 b
  | .nillableFloat32 b => writeNillable writeFloat32 b
  | .float64 b => writeFloat64 b
  | .nillableFloat64 b => writeNillable writeFloat64 b
  | .str s => writeString s
  | .nillableStr s => writeNillable writeString s
  | .time t => writeTime t
  | .nillableTime t => writeNillable writeTime t
  | .bytes b => writeByteArray b
  | .nillableBytes b => writeNillable writeByteArray b
  | .arraySize n => writeArraySize n
  | .mapSize n => writeMapSize n
  | .any d => writeAny d

/-- A sequence of calls on the Encoder. -/
def writeCalls : List Call → Enc
  | [] => .ok
  | c :: cs => writeCall c ≫ writeCalls cs
end

/-! ## Sizer

The state is the length so far (sizer.go 8-10), a 32-bit number. -/

namespace Sizer

/-- sizer.go 23-25. -/
def writeNil (s : UInt32) : UInt32 := s + 1

/-- The shape of all `WriteNillableXxx` (sizer.go 34-40, 90-96, ...). -/
def writeNillable {α : Type} (w : α → UInt32 → UInt32) : Option α → UInt32 → UInt32
  | none, s => writeNil s
  | some v, s => w v s

/-- sizer.go 42-52. -/
def writeStringLength (n : UInt32) (s : UInt32) : UInt32 :=
  if n < 32 then s + 1 else if n ≤ 255 then s + 2 else if n ≤ 65535 then s + 3 else s + 5

/-- sizer.go 27-32. -/
def writeString (b : Bytes) (s : UInt32) : UInt32 :=
  writeStringLength (UInt32.ofNat b.length) s + UInt32.ofNat b.length

/-- sizer.go 60-73. -/
def encodeTime (t : Time) : Nat :=
  let secs := t.sec.toUInt64
  if secs >>> 34 = 0 then
    let data := t.nsec.toUInt64 <<< 34 ||| secs
    if data &&& 0xffffffff00000000 = 0 then 4 else 8
  else 12

/-- sizer.go 75-88. -/
def encodeExtLen (l : Nat) (s : UInt32) : UInt32 :=
  if l = 1 ∨ l = 2 ∨ l = 4 ∨ l = 8 ∨ l = 16 then s + 1
  else if l ≤ 255 then s + 2 else if l ≤ 65535 then s + 3 else s + 5

/-- sizer.go 54-58. -/
def writeTime (t : Time) (s : UInt32) : UInt32 :=
  encodeExtLen (encodeTime t) s + (1 + UInt32.ofNat (encodeTime t))

/-- sizer.go 98-100. -/
def writeBool (_ : Bool) (s : UInt32) : UInt32 := s + 1

/-- sizer.go 110-118. -/
def writeArraySize (n : UInt32) (s : UInt32) : UInt32 :=
  if n < 16 then s + 1 else if n ≤ 65535 then s + 3 else s + 5

/-- sizer.go 120-128. -/
def writeBinLength (n : UInt32) (s : UInt32) : UInt32 :=
  if n < 255 then s + 1 else if n ≤ 65535 then s + 2 else s + 4

/-- sizer.go 130-138. -/
def writeByteArray (b : Bytes) (s : UInt32) : UInt32 :=
  let n := UInt32.ofNat b.length
  if n = 0 then s + 2 else writeBinLength n s + (n + 1)

/-- sizer.go 148-156. -/
def writeMapSize (n : UInt32) (s : UInt32) : UInt32 :=
  if n < 16 then s + 1 else if n ≤ 65535 then s + 3 else s + 5

/-- sizer.go 188-200. -/
def writeInt64 (v : Int64) (s : UInt32) : UInt32 :=
  if v ≥ -32 ∧ v < 128 then s + 1
  else if v < 128 ∧ v ≥ -128 then s + 2
  else if v < 32768 ∧ v ≥ -32768 then s + 3
  else if v < 2147483648 ∧ v ≥ -2147483648 then s + 5
  else s + 9

/-- sizer.go 158-160, 168-170, 178-180. -/
def writeInt8 (v : Int8) (s : UInt32) : UInt32 := writeInt64 v.toInt64 s
def writeInt16 (v : Int16) (s : UInt32) : UInt32 := writeInt64 v.toInt64 s
def writeInt32 (v : Int32) (s : UInt32) : UInt32 := writeInt64 v.toInt64 s

/-- sizer.go 239-251. -/
def writeUint64 (v : UInt64) (s : UInt32) : UInt32 :=
  if v < 128 then s + 1
  else if v < 256 then s + 2
  else if v < 65536 then s + 3
  else if v < 4294967296 then s + 5
  else s + 9

/-- sizer.go 209-211, 219-221, 229-231. -/
def writeUint8 (v : UInt8) (s : UInt32) : UInt32 := writeUint64 v.toUInt64 s
def writeUint16 (v : UInt16) (s : UInt32) : UInt32 := writeUint64 v.toUInt64 s
def writeUint32 (v : UInt32) (s : UInt32) : UInt32 := writeUint64 v.toUInt64 s

/-- sizer.go 260-262. -/
def writeFloat32 (_ : UInt32) (s : UInt32) : UInt32 := s + 5
/-- sizer.go 270-272. -/
def writeFloat64 (_ : UInt64) (s : UInt32) : UInt32 := s + 9

/-- sizer.go 341-346: the loop over `[]time.Time`. -/
def writeTimes : List Time → UInt32 → UInt32
  | [], s => s
  | t :: l, s => writeTimes l (writeTime t s)

mutual
/-- sizer.go 281-494. -/
def writeAny : Dyn → UInt32 → UInt32
  | .nil, s => writeNil (writeNil s)
  | .codec cs, s => writeCalls cs s
  | .int v, s => writeInt64 v s
  | .int8 v, s => writeInt8 v s
  | .int16 v, s => writeInt16 v s
  | .int32 v, s => writeInt32 v s
  | .int64 v, s => writeInt64 v s
  | .uint v, s => writeUint64 v s
  | .uint8 v, s => writeUint8 v s
  | .uint16 v, s => writeUint16 v s
  | .uint32 v, s => writeUint32 v s
  | .uint64 v, s => writeUint64 v s
  | .bool v, s => writeBool v s
  | .float32 b, s => writeFloat32 b s
  | .float64 b, s => writeFloat64 b s
  | .str b, s => writeString b s
  | .time t, s => writeTime t s
  | .bytes b, s => writeByteArray b s
  | .arr l, s => writeElems l (writeArraySize (UInt32.ofNat l.length) s)
  | .times l, s => writeTimes l (writeArraySize (UInt32.ofNat l.length) s)
  | .map m, s => writePairs m (writeMapSize (UInt32.ofNat m.length) s)
  | .other, s => s

def writeElems : List Dyn → UInt32 → UInt32
  | [], s => s
  | d :: l, s => writeElems l (writeAny d s)

def writePairs : List (Dyn × Dyn) → UInt32 → UInt32
  | [], s => s
  | (k, v) :: m, s => writePairs m (writeAny v (writeAny k s))

/-- One `Writer` call on the Sizer. -/
def writeCall : Call → UInt32 → UInt32
  | .nil, s => writeNil s
  | .bool v, s => writeBool v s
  | .nillableBool v, s => writeNillable writeBool v s
  | .int8 v, s => writeInt8 v s
  | .nillableInt8 v, s => writeNillable writeInt8 v s
  | .int16 v, s => writeInt16 v s
  | .nillableInt16 v, s => writeNillable writeInt16 v s
  | .int32 v, s => writeInt32 v s
  | .nillableInt32 v, s => writeNillable writeInt32 v s
  | .int64 v, s => writeInt64 v s
  | .nillableInt64 v, s => writeNillable writeInt64 v s
  | .uint8 v, s => writeUint8 v s
  | .nillableUint8 v, s => writeNillable writeUint8 v s
  | .uint16 v, s => writeUint16 v s
  | .nillableUint16 v, s => writeNillable writeUint16 v s
  | .uint32 v, s => writeUint32 v s
  | .nillableUint32 v, s => writeNillable writeUint32 v s
  | .uint64 v, s => writeUint64 v s
  | .nillableUint64 v, s => writeNillable writeUint64 v s
  | .float32 b, s => writeFloat32 b s
  | .nillableFloat32 b, s => writeNillable writeFloat32 b s
  | .float64 b, s => writeFloat64 b s
  | .nillableFloat64 b, s => writeNillable writeFloat64 b s
  | .str b, s => writeString b s
  | .nillableStr b, s => writeNillable writeString b s
  | .time t, s => writeTime t s
  | .nillableTime t, s => writeNillable writeTime t s
  | .bytes b, s => writeByteArray b s
  | .nillableBytes b, s => writeNillable writeByteArray b s
  | .arraySize n, s => writeArraySize n s
  | .mapSize n, s => writeMapSize n s
  | .any d, s => writeAny d s

def writeCalls : List Call → UInt32 → UInt32
  | [], s => s
  | c :: cs, s => writeCalls cs (writeCall c s)
end

end Sizer

/-! ## codec.go -/

/-- The shape of all `XxxToBytes` functions (codec.go 17-210) and of the `Encode` functions of
transform.go: size the calls, allocate, encode. The error of the Encoder is not looked at, except by
`AnyToBytes` (see `anyToBytes`), `SliceToBytes` and `MapToBytes`. -/
def toBytes (cs : List Call) : Go Bytes := do
  let d ← writeCalls cs (DR.new (List.replicate (Sizer.writeCalls cs 0).toNat 0))
  .ok d.buf

/-- codec.go 31-44; the same with the final error check, as in codec.go 186-210. -/
def toBytesChecked (cs : List Call) : Go Bytes := do
  let d ← writeCalls cs (DR.new (List.replicate (Sizer.writeCalls cs 0).toNat 0))
  match d.err with
  | some e => .err e
  | none => .ok d.buf

/-- codec.go 31-44. -/
def anyToBytes (d : Dyn) : Go Bytes := toBytesChecked [.any d]

end Verif.Msgpack
