import Verif.Spec.Msgpack
/-
What sequences of `Writer` calls are expected to put on the wire, in terms of the MessagePack forms of
`Spec/Msgpack.lean`.
-/
set_option autoImplicit false
namespace Verif.Spec
open Verif Msgpack

/-- An optional value: a nil marker or the value. -/
def optional {α : Type} (w : α → Bytes) : Option α → Bytes
  | none => nil
  | some v => w v

/-- A timestamp. -/
def instant (t : Time) : Bytes := timestamp t.sec.toInt t.nsec.toNat

mutual
/-- A dynamically typed value. Two oddities of `WriteAny` are included: a nil is written twice, and
times, lists of times and values of other types are written as nothing. -/
def emitDyn : Dyn → Bytes
  | .nil => nil ++ nil
  | .codec cs => emitCalls cs
  | .int v => sint v.toInt
  | .int8 v => sint v.toInt
  | .int16 v => sint v.toInt
  | .int32 v => sint v.toInt
  | .int64 v => sint v.toInt
  | .uint v => uint v.toNat
  | .uint8 v => uint v.toNat
  | .uint16 v => uint v.toNat
  | .uint32 v => uint v.toNat
  | .uint64 v => uint v.toNat
  | .bool v => bool v
  | .float32 b => float32 b.toNat
  | .float64 b => float64 b.toNat
  | .str s => str s
  | .time _ => []
  | .bytes b => bin b
  | .arr l => arrHead (l.length % 2^32) ++ emitElems l
  | .times _ => []
  | .map m => mapHead (m.length % 2^32) ++ emitPairs m
  | .other => []

def emitElems : List Dyn → Bytes
  | [] => []
  | d :: l => emitDyn d ++ emitElems l

def emitPairs : List (Dyn × Dyn) → Bytes
  | [] => []
  | (k, v) :: m => emitDyn k ++ (emitDyn v ++ emitPairs m)

/-- One call. -/
def emitCall : Call → Bytes
  | .nil => nil
  | .bool v => bool v
  | .nillableBool v => optional bool v
  | .int8 v => sint v.toInt
  | .nillableInt8 v => optional (fun v => sint v.toInt) v
  | .int16 v => sint v.toInt
  | .nillableInt16 v => optional (fun v => sint v.toInt) v
  | .int32 v => sint v.toInt
  | .nillableInt32 v => optional (fun v => sint v.toInt) v
  | .int64 v => sint v.toInt
  | .nillableInt64 v => optional (fun v => sint v.toInt) v
  | .uint8 v => uint v.toNat
  | .nillableUint8 v => optional (fun v => uint v.toNat) v
  | .uint16 v => uint v.toNat
  | .nillableUint16 v => optional (fun v => uint v.toNat) v
  | .uint32 v => uint v.toNat
  | .nillableUint32 v => optional (fun v => uint v.toNat) v
  | .uint64 v => uint v.toNat
  | .nillableUint64 v => optional (fun v => uint v.toNat) v
  | .float32 b => float32 b.toNat
  | .nillableFloat32 b => optional (fun b => float32 b.toNat) b
  | .float64 b => float64 b.toNat
  | .nillableFloat64 b => optional (fun b => float64 b.toNat) b
  | .str s => str s
  | .nillableStr s => optional str s
  | .time t => instant t
  | .nillableTime t => optional instant t
  | .bytes b => bin b
  | .nillableBytes b => optional bin b
  | .arraySize n => arrHead n.toNat
  | .mapSize n => mapHead n.toNat
  | .any d => emitDyn d

/-- A sequence of calls. -/
def emitCalls : List Call → Bytes
  | [] => []
  | c :: cs => emitCall c ++ emitCalls cs
end

/-- Every `time.Time` has fewer than 10^9 nanoseconds. -/
def validTime (t : Time) : Prop := t.nsec.toNat < 10^9

mutual
/-- No 255-byte byte array and no time inside a dynamic value; every time valid. -/
def plainDyn : Dyn → Prop
  | .codec cs => plainCalls cs
  | .time _ => False
  | .times _ => False
  | .bytes b => b.length ≠ 255
  | .arr l => plainElems l
  | .map m => plainPairs m
  | _ => True

def plainElems : List Dyn → Prop
  | [] => True
  | d :: l => plainDyn d ∧ plainElems l

def plainPairs : List (Dyn × Dyn) → Prop
  | [] => True
  | (k, v) :: m => plainDyn k ∧ plainDyn v ∧ plainPairs m

def plainCall : Call → Prop
  | .time t => validTime t
  | .nillableTime t => ∀ x, t = some x → validTime x
  | .bytes b => b.length ≠ 255
  | .nillableBytes b => ∀ x, b = some x → x.length ≠ 255
  | .any d => plainDyn d
  | _ => True

def plainCalls : List Call → Prop
  | [] => True
  | c :: cs => plainCall c ∧ plainCalls cs
end

end Verif.Spec
