import Verif.Model.Encoder
/-
Model of `msgpack/decoder.go` and `msgpack/utils.go`.
-/
set_option autoImplicit false
namespace Verif.Msgpack
open Verif

/-- Two library functions the decoder uses and we leave open: the conversion of a float64 to a
float32 (on bits) and `time.Parse(time.RFC3339Nano, s)` (`none` is an error). -/
structure Lib where
  narrow : UInt64 → UInt32
  parseTime : Bytes → Option Time

/-- decoder.go 933-956. -/
def isFixedInt (u : UInt8) : Bool := u >>> 7 == 0
def isNegativeFixedInt (u : UInt8) : Bool := u &&& 0xe0 == fmtNegativeFixInt
def isFixedMap (u : UInt8) : Bool := u &&& 0xf0 == fmtFixMap
def isFixedArray (u : UInt8) : Bool := u &&& 0xf0 == fmtFixArray
def isFixedString (u : UInt8) : Bool := u &&& 0xe0 == fmtFixString

/-- decoder.go 958-966. -/
def isString (u : UInt8) : Bool :=
  isFixedString u || u == fmtString8 || u == fmtString16 || u == fmtString32 || isFixedArray u ||
  u == fmtArray16 || u == fmtArray32

/-- `d.reader.Discard(n)` with the error ignored. -/
def discardQuiet (n : UInt32) : Rd Unit := fun d =>
  match discard n d with
  | .ok _ d => .ok () d
  | .fail _ d => .ok () d
  | .panic => .panic

/-- decoder.go 23-33; the error of `Discard` is ignored. -/
def isNextNil : Rd Bool := do
  let prefix_ ← peekUint8
  if prefix_ = fmtNil then
    Rd.of fun d => match discard 1 d with
      | .ok _ d => .ok true d
      | .fail _ d => .ok true d
      | .panic => .panic
  else Rd.pure false

/-- The shape of all `ReadNillableXxx` (decoder.go 48-58, 75-85, ...). -/
def readNillable {α : Type} (r : Rd α) : Rd (Option α) := do
  let isNil ← isNextNil
  if isNil then Rd.pure none else do
    let v ← r
    Rd.pure (some v)

/-- decoder.go 35-46. -/
def readBool : Rd Bool := do
  let p ← getUint8
  if p = fmtTrue then Rd.pure true
  else if p = fmtFalse then Rd.pure false
  else Rd.fail "bad value for bool"

/-- decoder.go 141-166. -/
def readInt64 : Rd Int64 := do
  let p ← getUint8
  if isFixedInt p || isNegativeFixedInt p then Rd.pure p.toInt8.toInt64
  else if p = fmtInt8 then do let v ← getInt8; Rd.pure v.toInt64
  else if p = fmtInt16 then do let v ← getInt16; Rd.pure v.toInt64
  else if p = fmtInt32 then do let v ← getInt32; Rd.pure v.toInt64
  else if p = fmtInt64 then getInt64
  else Rd.fail "bad prefix for int64"

/-- The error of decoder.go 68-72 and similar. -/
def overflow (v : Int) (bits : Nat) : String :=
  "interger overflow: value = " ++ toString v ++ "; bits = " ++ toString bits

/-- decoder.go 60-73. -/
def readInt8 : Rd Int8 := do
  let v ← readInt64
  if v ≤ 127 ∧ v ≥ -128 then Rd.pure v.toInt8 else Rd.fail (overflow v.toInt 8)

/-- decoder.go 87-100. -/
def readInt16 : Rd Int16 := do
  let v ← readInt64
  if v ≤ 32767 ∧ v ≥ -32768 then Rd.pure v.toInt16 else Rd.fail (overflow v.toInt 16)

/-- decoder.go 114-127. -/
def readInt32 : Rd Int32 := do
  let v ← readInt64
  if v ≤ 2147483647 ∧ v ≥ -2147483648 then Rd.pure v.toInt32 else Rd.fail (overflow v.toInt 32)

/-- decoder.go 261-316. -/
def readUint64 : Rd UInt64 := do
  let p ← getUint8
  if isFixedInt p then Rd.pure p.toUInt64
  else if isNegativeFixedInt p then
    (if p.toInt8 < 0 then Rd.fail "bad prefix for uint" else Rd.pure p.toInt8.toInt64.toUInt64)
  else if p = fmtUint8 then do let v ← getUint8; Rd.pure v.toUInt64
  else if p = fmtUint16 then do let v ← getUint16; Rd.pure v.toUInt64
  else if p = fmtUint32 then do let v ← getUint32; Rd.pure v.toUInt64
  else if p = fmtUint64 then getUint64
  else if p = fmtInt8 then do
    let v ← getInt8
    if v < 0 then Rd.fail "bad prefix for uint" else Rd.pure v.toInt64.toUInt64
  else if p = fmtInt16 then do
    let v ← getInt16
    if v < 0 then Rd.fail "bad prefix for uint" else Rd.pure v.toInt64.toUInt64
  else if p = fmtInt32 then do
    let v ← getInt32
    if v < 0 then Rd.fail "bad prefix for uint" else Rd.pure v.toInt64.toUInt64
  else if p = fmtInt64 then do
    let v ← getInt64
    if v < 0 then Rd.fail "bad prefix for uint" else Rd.pure v.toUInt64
  else Rd.fail "bad prefix for uint"

/-- decoder.go 180-193. -/
def readUint8 : Rd UInt8 := do
  let v ← readUint64
  if v ≤ 255 then Rd.pure v.toUInt8 else Rd.fail (overflow v.toNat 8)

/-- decoder.go 207-220. -/
def readUint16 : Rd UInt16 := do
  let v ← readUint64
  if v ≤ 65535 then Rd.pure v.toUInt16 else Rd.fail (overflow v.toNat 16)

/-- decoder.go 234-247. -/
def readUint32 : Rd UInt32 := do
  let v ← readUint64
  if v ≤ 4294967295 then Rd.pure v.toUInt32 else Rd.fail (overflow v.toNat 32)

/-- decoder.go 330-343. -/
def readFloat32 (lib : Lib) : Rd UInt32 := do
  let p ← getUint8
  if p = fmtFloat32 then getFloat32
  else if p = fmtFloat64 then do let v ← getFloat64; Rd.pure (lib.narrow v)
  else Rd.fail "bad prefix for float32"

/-- decoder.go 357-367. -/
def readFloat64 : Rd UInt64 := do
  let p ← getUint8
  if p = fmtFloat64 then getFloat64 else Rd.fail "bad prefix for float64"

/-- decoder.go 472-497. -/
def readStringLength : Rd UInt32 := do
  let p ← getUint8
  if isFixedString p then Rd.pure (p &&& 0x1f).toUInt32
  else if isFixedArray p then Rd.pure (p &&& 0x0f).toUInt32
  else if p = fmtString8 then do let v ← getUint8; Rd.pure v.toUInt32
  else if p = fmtString16 ∨ p = fmtArray16 then do let v ← getUint16; Rd.pure v.toUInt32
  else if p = fmtString32 ∨ p = fmtArray32 then getUint32
  else Rd.fail "bad prefix for string length"

/-- decoder.go 455-458, 499-508. -/
def readString : Rd Bytes := do
  let n ← readStringLength
  getBytes n

/-- decoder.go 530-553. -/
def readBinLength : Rd UInt32 := do
  let p ← getUint8
  if isFixedArray p then Rd.pure (p &&& 0x0f).toUInt32
  else if p = fmtNil then Rd.pure 0
  else if p = fmtBin8 then do let v ← getUint8; Rd.pure v.toUInt32
  else if p = fmtBin16 then do let v ← getUint16; Rd.pure v.toUInt32
  else if p = fmtBin32 then getUint32
  else Rd.fail "bad prefix for binary length"

/-- decoder.go 510-520. -/
def readByteArray : Rd Bytes := do
  let n ← readBinLength
  getBytes n

/-- decoder.go 555-573. -/
def readArraySize : Rd UInt32 := do
  let p ← getUint8
  if isFixedArray p then Rd.pure (p &&& 0x0f).toUInt32
  else if p = fmtArray16 then do let v ← getUint16; Rd.pure v.toUInt32
  else if p = fmtArray32 then getUint32
  else if p = fmtNil then Rd.pure 0
  else Rd.fail "bad prefix for array length"

/-- decoder.go 575-593. -/
def readMapSize : Rd UInt32 := do
  let p ← getUint8
  if isFixedMap p then Rd.pure (p &&& 0x0f).toUInt32
  else if p = fmtMap16 then do let v ← getUint16; Rd.pure v.toUInt32
  else if p = fmtMap32 then getUint32
  else if p = fmtNil then Rd.pure 0
  else Rd.fail "bad prefix for map length"

/-- decoder.go 879-903 (error text shortened). -/
def parseExtLen (c : UInt8) : Rd UInt32 :=
  if c = fmtFixExt1 then Rd.pure 1
  else if c = fmtFixExt2 then Rd.pure 2
  else if c = fmtFixExt4 then Rd.pure 4
  else if c = fmtFixExt8 then Rd.pure 8
  else if c = fmtFixExt16 then Rd.pure 16
  else if c = fmtExt8 then do let n ← readUint8; Rd.pure n.toUInt32
  else if c = fmtExt16 then do let n ← readUint16; Rd.pure n.toUInt32
  else if c = fmtExt32 then readUint32
  else Rd.fail "msgpack: invalid code decoding ext len"

/-- `time.Unix(sec, nsec)` for `nsec ≥ 0`: whole seconds are carried over. -/
def unixTime (sec : UInt64) (nsec : UInt64) : Time :=
  ⟨(sec + nsec / 1000000000).toInt64, (nsec % 1000000000).toUInt32⟩

/-- decoder.go 437-452 (error text shortened). -/
def timeOfBytes (b : Bytes) : Go Time :=
  if b.length = 4 then do
    let s ← getU32 b
    .ok (unixTime s.toUInt64 0)
  else if b.length = 8 then do
    let s ← getU64 b
    .ok (unixTime (s &&& 0x00000003ffffffff) (s >>> 34))
  else if b.length = 12 then do
    let n ← getU32 b
    let b ← sliceFrom b 4
    let s ← getU64 b
    .ok (unixTime s n.toUInt64)
  else .err "msgpack: invalid time ext len"

/-- decoder.go 431-453. -/
def decodeTime (n : UInt32) : Rd Time := do
  let b ← getBytes n
  Rd.of fun d => match timeOfBytes b with
    | .ok t => .ok t d
    | .err e => .fail e d
    | .panic => .panic

/-- decoder.go 381-417, with `extHeader` (857-869) and `readCode` (871-877); the location set for
the zero time is not part of the instant; error texts shortened. -/
def readTime (lib : Lib) : Rd Time := do
  let p ← peekUint8
  if isString p then do
    let s ← readString
    match lib.parseTime s with
    | some t => Rd.pure t
    | none => Rd.fail "parsing time"
  else do
    discardQuiet 1
    let n ← parseExtLen p
    let id ← getUint8
    if id.toInt8 ≠ -1 ∧ id.toInt8 ≠ 13 then Rd.fail "msgpack: invalid time ext id"
    else decodeTime n

/-- decoder.go 611-709: consumes the value, except the elements of an array or map, whose number it
returns (32-bit arithmetic). -/
def getSize : Rd UInt32 := do
  let b ← getUint8
  if isNegativeFixedInt b || isFixedInt b then Rd.pure 0
  else if isFixedString b then do discardQuiet (b &&& 0x1f).toUInt32; Rd.pure 0
  else if isFixedArray b then Rd.pure (b &&& 0x0f).toUInt32
  else if isFixedMap b then Rd.pure (2 * (b &&& 0x0f).toUInt32)
  else if b = fmtNil ∨ b = fmtTrue ∨ b = fmtFalse then Rd.pure 0
  else if b = fmtString8 ∨ b = fmtBin8 then do
    let n ← getUint8; discard n.toUInt32; Rd.pure 0
  else if b = fmtString16 ∨ b = fmtBin16 then do
    let n ← getUint16; discard n.toUInt32; Rd.pure 0
  else if b = fmtString32 ∨ b = fmtBin32 then do
    let n ← getUint32; discard n; Rd.pure 0
  else if b = fmtFloat32 then do discardQuiet 4; Rd.pure 0
  else if b = fmtFloat64 then do discardQuiet 8; Rd.pure 0
  else if b = fmtUint8 ∨ b = fmtInt8 then do discardQuiet 1; Rd.pure 0
  else if b = fmtUint16 ∨ b = fmtInt16 then do discardQuiet 2; Rd.pure 0
  else if b = fmtUint32 ∨ b = fmtInt32 then do discardQuiet 4; Rd.pure 0
  else if b = fmtUint64 ∨ b = fmtInt64 then do discardQuiet 8; Rd.pure 0
  else if b = fmtFixExt1 then do discardQuiet 1; Rd.pure 0
  else if b = fmtFixExt2 then do discardQuiet 3; Rd.pure 0
  else if b = fmtFixExt4 then do discardQuiet 5; Rd.pure 0
  else if b = fmtFixExt8 then do discardQuiet 9; Rd.pure 0
  else if b = fmtFixExt16 then do discardQuiet 17; Rd.pure 0
  else if b = fmtArray16 then do let v ← getUint16; Rd.pure v.toUInt32
  else if b = fmtArray32 then getUint32
  else if b = fmtMap16 then do let v ← getUint16; Rd.pure (2 * v.toUInt32)
  else if b = fmtMap32 then do let v ← getUint32; Rd.pure (2 * v)
  else Rd.fail "bad prefix"

mutual
/-- decoder.go 595-609. The first argument bounds the recursion; `none` is "still running". The Go
stack is taken to be unbounded. -/
def skip : Nat → DR → Option (Out Unit)
  | 0, _ => none
  | f + 1, d =>
    match getSize d with
    | .ok n d => skipN f n.toNat d
    | .fail e d => some (.fail e d)
    | .panic => some .panic

/-- decoder.go 601-607. -/
def skipN : Nat → Nat → DR → Option (Out Unit)
  | 0, _, _ => none
  | _ + 1, 0, d => some (.ok () d)
  | f + 1, n + 1, d =>
    match skip f d with
    | some (.ok _ d) => skipN f n d
    | r => r
end

/-- Whether a value may be a map key (slices and maps panic). -/
def Dyn.hashable : Dyn → Bool
  | .bytes _ => false
  | .arr _ => false
  | .map _ => false
  | .times _ => false
  | _ => true

/-- IEEE equality of floats given by their bits (`-0 = 0`, `NaN ≠ NaN`). -/
def f32Eq (a b : UInt32) : Bool :=
  let nan (x : UInt32) : Bool := (x &&& 0x7fffffff) > 0x7f800000
  !nan a && !nan b && (a == b || (a &&& 0x7fffffff == 0 && b &&& 0x7fffffff == 0))

def f64Eq (a b : UInt64) : Bool :=
  let nan (x : UInt64) : Bool := (x &&& 0x7fffffffffffffff) > 0x7ff0000000000000
  !nan a && !nan b && (a == b || (a &&& 0x7fffffffffffffff == 0 && b &&& 0x7fffffffffffffff == 0))

/-- Go's `==` on the interface values `ReadAny` can return and that can be keys: same dynamic type
and equal value. -/
def Dyn.keyEq : Dyn → Dyn → Bool
  | .nil, .nil => true
  | .int8 a, .int8 b => a == b
  | .int16 a, .int16 b => a == b
  | .int32 a, .int32 b => a == b
  | .int64 a, .int64 b => a == b
  | .uint8 a, .uint8 b => a == b
  | .uint16 a, .uint16 b => a == b
  | .uint32 a, .uint32 b => a == b
  | .uint64 a, .uint64 b => a == b
  | .bool a, .bool b => a == b
  | .float32 a, .float32 b => f32Eq a b
  | .float64 a, .float64 b => f64Eq a b
  | .str a, .str b => a == b
  | _, _ => false

/-- `m[key] = value` on a `map[any]any`, kept as a list of entries. -/
def mapAssign (k v : Dyn) : List (Dyn × Dyn) → List (Dyn × Dyn)
  | [] => [(k, v)]
  | (k', v') :: m => if k'.keyEq k then (k, v) :: m else (k', v') :: mapAssign k v m

/-- `readString`, `GetBytes` behind a length, the scalar cases of `ReadAny` (decoder.go 717-724,
740-775, 808-826); `none` when the prefix is that of an array or map. -/
def readAnyScalar (p : UInt8) : Option (Rd Dyn) :=
  if isFixedInt p || isNegativeFixedInt p then some (Rd.pure (.int64 p.toInt8.toInt64))
  else if isFixedString p then some do let s ← getBytes (p &&& 0x1f).toUInt32; Rd.pure (.str s)
  else if isFixedArray p then none
  else if isFixedMap p then none
  else if p = fmtNil then some (Rd.pure .nil)
  else if p = fmtTrue then some (Rd.pure (.bool true))
  else if p = fmtFalse then some (Rd.pure (.bool false))
  else if p = fmtInt8 then some do let v ← getInt8; Rd.pure (.int8 v)
  else if p = fmtInt16 then some do let v ← getInt16; Rd.pure (.int16 v)
  else if p = fmtInt32 then some do let v ← getInt32; Rd.pure (.int32 v)
  else if p = fmtInt64 then some do let v ← getInt64; Rd.pure (.int64 v)
  else if p = fmtUint8 then some do let v ← getUint8; Rd.pure (.uint8 v)
  else if p = fmtUint16 then some do let v ← getUint16; Rd.pure (.uint16 v)
  else if p = fmtUint32 then some do let v ← getUint32; Rd.pure (.uint32 v)
  else if p = fmtUint64 then some do let v ← getUint64; Rd.pure (.uint64 v)
  else if p = fmtFloat32 then some do let v ← getFloat32; Rd.pure (.float32 v)
  else if p = fmtFloat64 then some do let v ← getFloat64; Rd.pure (.float64 v)
  else if p = fmtString8 then some do let n ← getUint8; let s ← getBytes n.toUInt32; Rd.pure (.str s)
  else if p = fmtString16 then some do let n ← getUint16; let s ← getBytes n.toUInt32; Rd.pure (.str s)
  else if p = fmtString32 then some do let n ← getUint32; let s ← getBytes n; Rd.pure (.str s)
  else if p = fmtArray16 then none
  else if p = fmtArray32 then none
  else if p = fmtMap16 then none
  else if p = fmtMap32 then none
  else if p = fmtBin8 then some do let n ← getUint8; let s ← getBytes n.toUInt32; Rd.pure (.bytes s)
  else if p = fmtBin16 then some do let n ← getUint16; let s ← getBytes n.toUInt32; Rd.pure (.bytes s)
  else if p = fmtBin32 then some do let n ← getUint32; let s ← getBytes n; Rd.pure (.bytes s)
  else some (Rd.fail "bad value for bool")

/-- The header of an array or map in `ReadAny` (decoder.go 726-738, 776-807): whether it is a map,
and the number of elements or entries. -/
def readAnyHeader (p : UInt8) : Rd (Bool × UInt32) :=
  if isFixedArray p then Rd.pure (false, (p &&& 0x0f).toUInt32)
  else if isFixedMap p then Rd.pure (true, (p &&& 0x0f).toUInt32)
  else if p = fmtArray16 then do let v ← getUint16; Rd.pure (false, v.toUInt32)
  else if p = fmtArray32 then do let v ← getUint32; Rd.pure (false, v)
  else if p = fmtMap16 then do let v ← getUint16; Rd.pure (true, v.toUInt32)
  else do let v ← getUint32; Rd.pure (true, v)

mutual
/-- decoder.go 711-829. The first argument bounds the recursion; `none` is "still running".
Memory and the Go stack are taken to be unbounded. -/
def readAny : Nat → DR → Option (Out Dyn)
  | 0, _ => none
  | f + 1, d =>
    match getUint8 d with
    | .panic => some .panic
    | .fail e d => some (.fail e d)
    | .ok p d =>
      match readAnyScalar p with
      | some r => some (r d)
      | none =>
        match readAnyHeader p d with
        | .panic => some .panic
        | .fail e d => some (.fail e d)
        | .ok (false, n) d =>
          match readArray f n.toNat d with
          | none => none
          | some (.ok l d) => some (.ok (.arr l) d)
          | some (.fail e d) => some (.fail e d)
          | some .panic => some .panic
        | .ok (true, n) d =>
          match readMap f n.toNat [] d with
          | none => none
          | some (.ok m d) => some (.ok (.map m) d)
          | some (.fail e d) => some (.fail e d)
          | some .panic => some .panic

/-- decoder.go 831-840. -/
def readArray : Nat → Nat → DR → Option (Out (List Dyn))
  | 0, _, _ => none
  | _ + 1, 0, d => some (.ok [] d)
  | f + 1, n + 1, d =>
    match readAny f d with
    | none => none
    | some .panic => some .panic
    | some (.fail e d) => some (.fail e d)
    | some (.ok v d) =>
      match readArray f n d with
      | some (.ok l d) => some (.ok (v :: l) d)
      | r => r

/-- decoder.go 842-855; assigning an unhashable key panics. -/
def readMap : Nat → Nat → List (Dyn × Dyn) → DR → Option (Out (List (Dyn × Dyn)))
  | 0, _, _, _ => none
  | _ + 1, 0, m, d => some (.ok m d)
  | f + 1, n + 1, m, d =>
    match readAny f d with
    | none => none
    | some .panic => some .panic
    | some (.fail e d) => some (.fail e d)
    | some (.ok k d) =>
      match readAny f d with
      | none => none
      | some .panic => some .panic
      | some (.fail e d) => some (.fail e d)
      | some (.ok v d) =>
        if k.hashable then readMap f n (mapAssign k v m) d else some .panic
end

/-! ## utils.go

`WriteSlice` and `WriteMap` (utils.go 7-14, 34-44) make the calls below; element writers are functions
that make `Writer` calls. -/

/-- utils.go 7-14. -/
def writeSlice {α : Type} (valF : α → List Call) (l : List α) : List Call :=
  .arraySize (UInt32.ofNat l.length) :: l.flatMap valF

/-- utils.go 34-44; the list is the order in which `range` visits the map. -/
def writeMap {κ ν : Type} (keyF : κ → List Call) (valF : ν → List Call) (m : List (κ × ν)) :
    List Call :=
  .mapSize (UInt32.ofNat m.length) :: m.flatMap (fun e => keyF e.1 ++ valF e.2)

/-- utils.go 22-30: the loop. -/
def readElems {α : Type} (valF : Rd α) : Nat → Rd (List α)
  | 0 => Rd.pure []
  | n + 1 => do
    let v ← valF
    let l ← readElems valF n
    Rd.pure (v :: l)

/-- utils.go 16-32. -/
def readSlice {α : Type} (valF : Rd α) : Rd (List α) := do
  let n ← readArraySize
  readElems valF n.toNat

/-- `m[key] = value` for an ordered key type. -/
def assign {κ ν : Type} [BEq κ] (k : κ) (v : ν) : List (κ × ν) → List (κ × ν)
  | [] => [(k, v)]
  | (k', v') :: m => if k' == k then (k, v) :: m else (k', v') :: assign k v m

/-- utils.go 53-65: the loop. -/
def readEntries {κ ν : Type} [BEq κ] (keyF : Rd κ) (valF : Rd ν) :
    Nat → List (κ × ν) → Rd (List (κ × ν))
  | 0, m => Rd.pure m
  | n + 1, m => do
    let k ← keyF
    let v ← valF
    readEntries keyF valF n (assign k v m)

/-- utils.go 46-68. -/
def readMapOf {κ ν : Type} [BEq κ] (keyF : Rd κ) (valF : Rd ν) : Rd (List (κ × ν)) := do
  let n ← readMapSize
  readEntries keyF valF n.toNat []

end Verif.Msgpack
