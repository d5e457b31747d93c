import Verif.Model.Decoder
/-
Model of `msgpack/convert/convert.go`: functions that take the two results of a decoder method and convert
the value.

Simplifications: floats are left out of `Numeric`; `time.Parse` and `time.Format` are parameters.
-/
set_option autoImplicit false
namespace Verif.Convert
open Verif

variable {α β : Type}

/-- The two results of a Go function: a value and an error, nil or not. A pointer is an `Option`. -/
structure Res (α : Type) where
  val : α
  err : Option String
  deriving Repr, DecidableEq

/-- convert.go 9-18 `Format` -/
def format (fn : α → Bytes) (value : Option α) : Option Bytes :=
  match value with
  | none => none
  | some v => some (fn v)

/-- convert.go 20-27 `Parse`; `zero` is the zero value of the result type. -/
def parse (zero : β) (fn : α → Res β) (r : Res α) : Res β :=
  match r.err with
  | some e => ⟨zero, some e⟩
  | none => fn r.val

/-- convert.go 29-40 `NillableParse` -/
def nillableParse (fn : α → Res β) (r : Res (Option α)) : Res (Option β) :=
  match r.err, r.val with
  | some e, _ => ⟨none, some e⟩
  | none, none => ⟨none, none⟩
  | none, some v =>
    match (fn v).err with
    | some e => ⟨none, some e⟩
    | none => ⟨some (fn v).val, none⟩

/-- convert.go 42-47 `StringToTime` -/
def stringToTime (zero : β) (parseTime : Bytes → Res β) (r : Res Bytes) : Res β :=
  match r.err with
  | some e => ⟨zero, some e⟩
  | none => parseTime r.val

/-- convert.go 49-55 `StringToTimePtr`: when the text cannot be parsed the pointer is not nil. -/
def stringToTimePtr (parseTime : Bytes → Res β) (r : Res (Option Bytes)) : Res (Option β) :=
  match r.val, r.err with
  | none, e => ⟨none, e⟩
  | some _, some e => ⟨none, some e⟩
  | some s, none => ⟨some (parseTime s).val, (parseTime s).err⟩

/-- convert.go 61-67 `TimeToStringPtr` -/
def timeToStringPtr (fmt : α → Bytes) (t : Option α) : Option Bytes :=
  match t with
  | none => none
  | some v => some (fmt v)

/-- convert.go 69-71 `String`, 78-80 `Bool`, 102-104 `ByteArray`: `T(value)` has the same contents. -/
def same (r : Res α) : Res α := ⟨r.val, r.err⟩

/-- convert.go 73-76 `NillableString`, 82-85 `NillableBool`, 97-100 `NillableNumeric`: `T(*value)` panics
when `value` is nil. -/
def nillable (conv : α → β) (r : Res (Option α)) : Go (Res (Option β)) :=
  match r.val with
  | none => .panic
  | some v => .ok ⟨some (conv v), r.err⟩

/-- An integer type of Go: signed or not, and its number of bits. -/
structure IntType where
  signed : Bool
  bits : Nat
  deriving Repr, DecidableEq

/-- The conversion `T(v)` of integers (Go specification): keep the low bits. -/
def IntType.conv (t : IntType) (v : Int) : Int :=
  if t.signed then (v + 2 ^ (t.bits - 1)) % 2 ^ t.bits - 2 ^ (t.bits - 1) else v % 2 ^ t.bits

/-- convert.go 93-95 `Numeric` for integers -/
def numeric (t : IntType) (r : Res Int) : Res Int := ⟨t.conv r.val, r.err⟩

/-- The two results of a decoder method; a method that fails returns nil (decoder.go 48-58 and the
other `ReadNillable` methods). `none` is a panic. -/
def results (o : Msgpack.Out (Option α)) : Option (Res (Option α)) :=
  match o with
  | .ok v _ => some ⟨v, none⟩
  | .fail e _ => some ⟨none, some e⟩
  | .panic => none

end Verif.Convert
