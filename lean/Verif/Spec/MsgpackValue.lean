import Verif.Spec.MsgpackEmit
/-
MessagePack values and their encodings, and which dynamically typed Go values they represent.
-/
set_option autoImplicit false
namespace Verif.Spec
open Verif Msgpack

/-- A MessagePack value, with the integer family it is encoded in. -/
inductive Val where
  | nil
  | bool (b : Bool)
  | int (v : Int)
  | nat (n : Nat)
  | float32 (bits : Nat)
  | float64 (bits : Nat)
  | str (s : Bytes)
  | bin (s : Bytes)
  | time (sec : Int) (nsec : Nat)
  | arr (l : List Val)
  | map (m : List (Val × Val))

mutual
/-- Its (shortest) encoding. -/
def Val.enc : Val → Bytes
  | .nil => Spec.nil
  | .bool b => Spec.bool b
  | .int v => sint v
  | .nat n => uint n
  | .float32 b => Spec.float32 b
  | .float64 b => Spec.float64 b
  | .str s => Spec.str s
  | .bin s => Spec.bin s
  | .time s n => timestamp s n
  | .arr l => arrHead l.length ++ encList l
  | .map m => mapHead m.length ++ encPairs m

def encList : List Val → Bytes
  | [] => []
  | v :: l => v.enc ++ encList l

def encPairs : List (Val × Val) → Bytes
  | [] => []
  | (k, v) :: m => k.enc ++ (v.enc ++ encPairs m)
end

mutual
/-- Numbers in the range of their family (64 bits, 32 and 64 bits for floats, times as
`time.Time` has them). -/
def Val.valid : Val → Prop
  | .int v => -2^63 ≤ v ∧ v < 2^63
  | .nat n => n < 2^64
  | .float32 b => b < 2^32
  | .float64 b => b < 2^64
  | .time s n => -2^63 ≤ s ∧ s < 2^63 ∧ n < 10^9
  | .arr l => validList l
  | .map m => validPairs m
  | _ => True

def validList : List Val → Prop
  | [] => True
  | v :: l => v.valid ∧ validList l

def validPairs : List (Val × Val) → Prop
  | [] => True
  | (k, v) :: m => k.valid ∧ v.valid ∧ validPairs m
end

mutual
/-- The `Writer` calls that write a value: the primitive's own, and for an array or map its size and
then the elements. -/
def Val.calls : Val → List Call
  | .nil => [.nil]
  | .bool b => [.bool b]
  | .int v => [.int64 (Int64.ofInt v)]
  | .nat n => [.uint64 (UInt64.ofNat n)]
  | .float32 b => [.float32 (UInt32.ofNat b)]
  | .float64 b => [.float64 (UInt64.ofNat b)]
  | .str s => [.str s]
  | .bin s => [.bytes s]
  | .time s n => [.time ⟨Int64.ofInt s, UInt32.ofNat n⟩]
  | .arr l => .arraySize (UInt32.ofNat l.length) :: callsList l
  | .map m => .mapSize (UInt32.ofNat m.length) :: callsPairs m

def callsList : List Val → List Call
  | [] => []
  | v :: l => v.calls ++ callsList l

def callsPairs : List (Val × Val) → List Call
  | [] => []
  | (k, v) :: m => k.calls ++ (v.calls ++ callsPairs m)
end

mutual
/-- The value a dynamically typed Go value stands for. Types `WriteAny` does not know, and types with
their own `Encode`, stand for none. -/
def Val.ofDyn : Dyn → Option Val
  | .nil => some .nil
  | .int v => some (.int v.toInt)
  | .int8 v => some (.int v.toInt)
  | .int16 v => some (.int v.toInt)
  | .int32 v => some (.int v.toInt)
  | .int64 v => some (.int v.toInt)
  | .uint v => some (.nat v.toNat)
  | .uint8 v => some (.nat v.toNat)
  | .uint16 v => some (.nat v.toNat)
  | .uint32 v => some (.nat v.toNat)
  | .uint64 v => some (.nat v.toNat)
  | .bool b => some (.bool b)
  | .float32 b => some (.float32 b.toNat)
  | .float64 b => some (.float64 b.toNat)
  | .str s => some (.str s)
  | .bytes s => some (.bin s)
  | .time t => some (.time t.sec.toInt t.nsec.toNat)
  | .arr l => (listOfDyn l).map .arr
  | .map m => (pairsOfDyn m).map .map
  | .times _ => none
  | .codec _ => none
  | .other => none

def listOfDyn : List Dyn → Option (List Val)
  | [] => some []
  | d :: l => match Val.ofDyn d, listOfDyn l with
    | some v, some vs => some (v :: vs)
    | _, _ => none

def pairsOfDyn : List (Dyn × Dyn) → Option (List (Val × Val))
  | [] => some []
  | (k, v) :: m => match Val.ofDyn k, Val.ofDyn v, pairsOfDyn m with
    | some k, some v, some vs => some ((k, v) :: vs)
    | _, _, _ => none
end

mutual
/-- No nil and no time anywhere: the kinds `WriteAny` gets wrong. -/
def Val.solid : Val → Prop
  | .nil => False
  | .time _ _ => False
  | .arr l => solidList l
  | .map m => solidPairs m
  | _ => True

def solidList : List Val → Prop
  | [] => True
  | v :: l => v.solid ∧ solidList l

def solidPairs : List (Val × Val) → Prop
  | [] => True
  | (k, v) :: m => k.solid ∧ v.solid ∧ solidPairs m
end

mutual
/-- No time that needs the 12-byte form. -/
def Val.shortTimes : Val → Prop
  | .time s _ => 0 ≤ s ∧ s < 2^34
  | .arr l => shortTimesList l
  | .map m => shortTimesPairs m
  | _ => True

def shortTimesList : List Val → Prop
  | [] => True
  | v :: l => v.shortTimes ∧ shortTimesList l

def shortTimesPairs : List (Val × Val) → Prop
  | [] => True
  | (k, v) :: m => k.shortTimes ∧ v.shortTimes ∧ shortTimesPairs m
end

mutual
/-- Forgets in which family a number is encoded. -/
def Val.num : Val → Val
  | .nat n => .int n
  | .arr l => .arr (numList l)
  | .map m => .map (numPairs m)
  | v => v

def numList : List Val → List Val
  | [] => []
  | v :: l => v.num :: numList l

def numPairs : List (Val × Val) → List (Val × Val)
  | [] => []
  | (k, v) :: m => (k.num, v.num) :: numPairs m
end

mutual
/-- `P` holds of a value and everything inside it. -/
def Val.all (P : Val → Prop) : Val → Prop
  | .arr l => P (.arr l) ∧ allList P l
  | .map m => P (.map m) ∧ allPairs P m
  | v => P v

def allList (P : Val → Prop) : List Val → Prop
  | [] => True
  | v :: l => v.all P ∧ allList P l

def allPairs (P : Val → Prop) : List (Val × Val) → Prop
  | [] => True
  | (k, v) :: m => k.all P ∧ v.all P ∧ allPairs P m
end

/-- Not a time. -/
def Val.notTime : Val → Prop
  | .time _ _ => False
  | _ => True

/-- Two keys are the same number, boolean or string; floats are compared as Go does. -/
def Val.sameKey (a b : Val) : Bool :=
  match a.num, b.num with
  | .int x, .int y => x == y
  | .bool x, .bool y => x == y
  | .str x, .str y => x == y
  | .float32 x, .float32 y => f32Eq (UInt32.ofNat x) (UInt32.ofNat y)
  | .float64 x, .float64 y => f64Eq (UInt64.ofNat x) (UInt64.ofNat y)
  | _, _ => false

/-- A number, boolean or string. -/
def Val.scalar : Val → Prop
  | .bool _ => True
  | .int _ => True
  | .nat _ => True
  | .float32 _ => True
  | .float64 _ => True
  | .str _ => True
  | _ => False

/-- If a map: its keys are numbers, booleans and strings, no two of them the same. -/
def Val.keysApart : Val → Prop
  | .map m => (∀ e ∈ m, e.1.scalar) ∧ m.Pairwise (fun a b => a.1.sameKey b.1 = false)
  | _ => True

/-- Go's `==` on map keys. -/
def goEq : Dyn → Dyn → Bool
  | .int a, .int b => a == b
  | .uint a, .uint b => a == b
  | a, b => a.keyEq b

mutual
/-- Every map inside is one that Go can have: its keys can be keys and are different for Go. -/
def legal : Dyn → Prop
  | .arr l => legalList l
  | .map m => (∀ e ∈ m, e.1.hashable = true) ∧ m.Pairwise (fun a b => goEq a.1 b.1 = false) ∧
      legalPairs m
  | _ => True

def legalList : List Dyn → Prop
  | [] => True
  | d :: l => legal d ∧ legalList l

def legalPairs : List (Dyn × Dyn) → Prop
  | [] => True
  | (k, v) :: m => legal k ∧ legal v ∧ legalPairs m
end

end Verif.Spec
