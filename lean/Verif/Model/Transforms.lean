import Verif.Model.Records
import Verif.Model.Invoke
/-
Model of the generic transforms: transform/transform.go 425-498 (strings, slices, maps, object references); msgpack/codec.go
186-210 (`SliceToBytes`, `MapToBytes`) has the same bodies.

The other functions of transform.go (335-423) are the primitive transforms of Model/Records.lean for named types.
-/
set_option autoImplicit false
namespace Verif.Msgpack
open Verif

/-- transform.go 449-463 `SliceEncode`. -/
def sliceEncode {α : Type} (valF : α → List Call) (l : List α) : Go Bytes := toBytesChecked (writeSlice valF l)

/-- transform.go 442-447 `SliceDecode`. -/
def sliceDecode {α : Type} (valF : Rd α) (b : Bytes) : Out (List α) := readSlice valF (DR.new b)

/-- transform.go 472-486 `MapEncode`. The map is visited twice, for its size (475) and for its contents (480); Go leaves the
order open each time, so the two lists are any two orders of the same entries. -/
def mapEncode {κ ν : Type} (keyF : κ → List Call) (valF : ν → List Call) (sizing writing : List (κ × ν)) : Go Bytes := do
  let d ← writeCalls (writeMap keyF valF writing)
    (DR.new (List.replicate (Sizer.writeCalls (writeMap keyF valF sizing) 0).toNat 0))
  match d.err with
  | some e => .err e
  | none => .ok d.buf

/-- transform.go 465-470 `MapDecode`. -/
def mapDecode {κ ν : Type} [BEq κ] (keyF : Rd κ) (valF : Rd ν) (b : Bytes) : Out (List (κ × ν)) :=
  readMapOf keyF valF (DR.new b)

/-- transform.go 435-440 `ToStringEncode`. -/
def toStringEncode {T : Type} (f : T → Bytes) (v : T) : Go Bytes := Transform.string.encode (f v)

/-- transform.go 425-433 `ToStringDecode`. -/
def toStringDecode {T : Type} (f : Bytes → Except String T) (b : Bytes) : Out T :=
  match Transform.string.decode b with
  | .panic => .panic
  | .fail e d => .fail e d
  | .ok s d =>
    match f s with
    | .error e => .fail e d
    | .ok v => .ok v d

/-- transform.go 488-498 `InterfaceEncode`: the payload, and the tracker afterwards; `addr` is the address the allocator
returns in `Put`. -/
def interfaceEncode {T : Type} (tracker : Invoke.Live T) (inst : T) (addr : UInt64) : Go Bytes × Invoke.Live T :=
  (Transform.uint64.encode (tracker.put inst addr).1, (tracker.put inst addr).2)

end Verif.Msgpack
