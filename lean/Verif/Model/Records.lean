import Verif.Model.Decoder
/-
Model of the generated record codecs and of `transform/transform.go`.
-/
set_option autoImplicit false
namespace Verif.Msgpack
open Verif

/-- An ASCII string literal. -/
def ascii (s : String) : Bytes := s.toList.map (fun c => UInt8.ofNat c.toNat)

/-- The loop of every generated `Decode` (e.g. example/greeter/greeter.go 29-47): read a field name,
let `field` (the `switch`) choose the assignment, skip the value if there is none (`default`). The
first argument bounds the recursion of `Skip`. On an error the fields already assigned keep their
values; the record is not part of the result then. -/
def decodeFields {ρ : Type} (fuel : Nat) (field : Bytes → Option (ρ → Rd ρ)) :
    Nat → ρ → DR → Option (Out ρ)
  | 0, r, d => some (.ok r d)
  | n + 1, r, d =>
    match readString d with
    | .panic => some .panic
    | .fail e d => some (.fail e d)
    | .ok name d =>
      match field name with
      | some set =>
        match set r d with
        | .ok r d => decodeFields fuel field n r d
        | .fail e d => some (.fail e d)
        | .panic => some .panic
      | none =>
        match skip fuel d with
        | none => none
        | some (.ok _ d) => decodeFields fuel field n r d
        | some (.fail e d) => some (.fail e d)
        | some .panic => some .panic

/-- Every generated `Decode` (e.g. example/greeter/greeter.go 23-50). -/
def decodeRecord {ρ : Type} (fuel : Nat) (field : Bytes → Option (ρ → Rd ρ)) (r : ρ) (d : DR) :
    Option (Out ρ) :=
  match readMapSize d with
  | .panic => some .panic
  | .fail e d => some (.fail e d)
  | .ok n d => decodeFields fuel field n.toNat r d

/-- decoder.go 920-931 (`DecodeNillable`), starting from the zero value. -/
def decodeNillable {ρ : Type} (fuel : Nat) (field : Bytes → Option (ρ → Rd ρ)) (zero : ρ) (d : DR) :
    Option (Out (Option ρ)) :=
  match isNextNil d with
  | .panic => some .panic
  | .fail e d => some (.fail e d)
  | .ok true d => some (.ok none d)
  | .ok false d =>
    match decodeRecord fuel field zero d with
    | none => none
    | some (.ok r d) => some (.ok (some r) d)
    | some (.fail e d) => some (.fail e d)
    | some .panic => some .panic

/-- example/greeter/greeter.go 18-21; the same in transport/wasmrs/example/greeting.go 51-54 and, as
`Customer`, in transport/wasmrs/mesh/modules/customer/types.go 7-10. -/
structure GreetingRequest where
  firstName : Bytes
  lastName : Bytes
  deriving Repr, DecidableEq

/-- example/greeter/greeter.go 35-42. -/
def GreetingRequest.field (name : Bytes) : Option (GreetingRequest → Rd GreetingRequest) :=
  if name = ascii "firstName" then some fun r => do let s ← readString; Rd.pure { r with firstName := s }
  else if name = ascii "lastName" then some fun r => do let s ← readString; Rd.pure { r with lastName := s }
  else none

/-- example/greeter/greeter.go 52-63; `none` is a nil receiver. -/
def GreetingRequest.encode : Option GreetingRequest → List Call
  | none => [.nil]
  | some r => [.mapSize 2, .str (ascii "firstName"), .str r.firstName, .str (ascii "lastName"),
      .str r.lastName]

/-- transport/wasmrs/example/concat/generated.go 103-106; the same in
transport/wasmrs/mesh/modules/concat/types.go 7-10. -/
structure Strings where
  left : Bytes
  right : Bytes
  deriving Repr, DecidableEq

/-- transport/wasmrs/example/concat/generated.go 120-127. -/
def Strings.field (name : Bytes) : Option (Strings → Rd Strings) :=
  if name = ascii "left" then some fun r => do let s ← readString; Rd.pure { r with left := s }
  else if name = ascii "right" then some fun r => do let s ← readString; Rd.pure { r with right := s }
  else none

/-- transport/wasmrs/example/concat/generated.go 137-148. -/
def Strings.encode : Option Strings → List Call
  | none => [.nil]
  | some r => [.mapSize 2, .str (ascii "left"), .str r.left, .str (ascii "right"), .str r.right]

/-- transport/wasmrs/example/wordfrequency/generated.go 121-124. -/
structure WordCount where
  word : Bytes
  count : UInt64
  deriving Repr, DecidableEq

/-- transport/wasmrs/example/wordfrequency/generated.go 138-145. -/
def WordCount.field (name : Bytes) : Option (WordCount → Rd WordCount) :=
  if name = ascii "word" then some fun r => do let s ← readString; Rd.pure { r with word := s }
  else if name = ascii "count" then some fun r => do let n ← readUint64; Rd.pure { r with count := n }
  else none

/-- transport/wasmrs/example/wordfrequency/generated.go 155-166. -/
def WordCount.encode : Option WordCount → List Call
  | none => [.nil]
  | some r => [.mapSize 2, .str (ascii "word"), .str r.word, .str (ascii "count"), .uint64 r.count]

/-- transport/wasmrs/example/counter.go 42-44. -/
structure CounterRequest where
  to : UInt64
  deriving Repr, DecidableEq

/-- transport/wasmrs/example/counter.go 58-63. -/
def CounterRequest.field (name : Bytes) : Option (CounterRequest → Rd CounterRequest) :=
  if name = ascii "to" then some fun _ => do let n ← readUint64; Rd.pure ⟨n⟩
  else none

/-- transport/wasmrs/example/counter.go 73-82. -/
def CounterRequest.encode : Option CounterRequest → List Call
  | none => [.nil]
  | some r => [.mapSize 1, .str (ascii "to"), .uint64 r.to]

/-- transport/wasmrs/mesh/modules/greeting/types.go 7-9. -/
structure NameRequest where
  name : Bytes
  deriving Repr, DecidableEq

/-- transport/wasmrs/mesh/modules/greeting/types.go 23-28. -/
def NameRequest.field (name : Bytes) : Option (NameRequest → Rd NameRequest) :=
  if name = ascii "name" then some fun _ => do let s ← readString; Rd.pure ⟨s⟩
  else none

/-- transport/wasmrs/mesh/modules/greeting/types.go 38-47. -/
def NameRequest.encode : Option NameRequest → List Call
  | none => [.nil]
  | some r => [.mapSize 1, .str (ascii "name"), .str r.name]

/-! ## transform.go -/

/-- transform.go 16-19: `Decode` gets the data of a payload, `Encode` produces the data of a payload
without metadata. -/
structure Transform (α : Type) where
  decode : Bytes → Out α
  encode : α → Go Bytes

/-- The shape of all primitive transforms (transform.go 21-256): one call and the matching read. -/
def Transform.of {α : Type} (r : Rd α) (c : α → Call) : Transform α :=
  ⟨fun b => r (DR.new b), fun v => toBytes [c v]⟩

namespace Transform
/-- transform.go 21-35. -/
def string : Transform Bytes := .of readString .str
/-- transform.go 37-51; `int` has 64 bits. -/
def int : Transform Int64 := .of readInt64 .int64
/-- transform.go 53-67. -/
def int64 : Transform Int64 := .of readInt64 .int64
/-- transform.go 69-83. -/
def int32 : Transform Int32 := .of readInt32 .int32
/-- transform.go 85-99. -/
def int16 : Transform Int16 := .of readInt16 .int16
/-- transform.go 101-115. -/
def int8 : Transform Int8 := .of readInt8 .int8
/-- transform.go 117-131; `uint` has 64 bits. -/
def uint : Transform UInt64 := .of readUint64 .uint64
/-- transform.go 133-147. -/
def uint64 : Transform UInt64 := .of readUint64 .uint64
/-- transform.go 149-163. -/
def uint32 : Transform UInt32 := .of readUint32 .uint32
/-- transform.go 165-179. -/
def uint16 : Transform UInt16 := .of readUint16 .uint16
/-- transform.go 181-195. -/
def uint8 : Transform UInt8 := .of readUint8 .uint8
/-- transform.go 197-211; floats by their bits. -/
def float64 : Transform UInt64 := .of readFloat64 .float64
/-- transform.go 213-227. -/
def float32 (lib : Lib) : Transform UInt32 := .of (readFloat32 lib) .float32
/-- transform.go 229-243. -/
def bytes : Transform Bytes := .of readByteArray .bytes
/-- transform.go 245-259. -/
def bool : Transform Bool := .of readBool .bool
end Transform

end Verif.Msgpack
