import Verif.Base.Go
/-
Model of `proxy/lookup.go`: the doubly linked list of registered streams.
-/
set_option autoImplicit false
namespace Verif.Lookup
open Verif

/-- lookup.go 15-18. Pointers are positions in the heap (nodes are never freed). -/
structure Node (S : Type) where
  prev : Option Nat
  next : Option Nat
  id : UInt32
  stream : S
  deriving Repr, DecidableEq

/-- lookup.go 8-13. The mutex is not modelled: Add, Remove and Size hold it, Get does not, and
calls are taken one at a time. `tail` is written but never read, and left out. -/
structure State (S : Type) where
  heap : List (Node S)
  head : Option Nat
  count : Int
  deriving Repr, DecidableEq

def State.init {S : Type} : State S := ⟨[], none, 0⟩

/-- lookup.go 86-93 `find`, following `next` from `p`; the fuel bounds the walk (a walk longer
than the number of nodes would be a cycle; `none` then). -/
def findFrom {S : Type} (heap : List (Node S)) (id : UInt32) : Nat → Option Nat → Option Nat
  | 0, _ => none
  | _, none => none
  | fuel + 1, some p =>
    match heap[p]? with
    | none => none
    | some n => if n.id = id then some p else findFrom heap id fuel n.next

def find {S : Type} (l : State S) (id : UInt32) : Option Nat :=
  findFrom l.heap id (l.heap.length + 1) l.head

/-- lookup.go 35-41 `Get`. -/
def get {S : Type} (l : State S) (id : UInt32) : Option S :=
  match find l id with
  | some p => (l.heap[p]?).map (·.stream)
  | none => none

/-- lookup.go 54-57: the last node of the list starting at `p`. -/
def lastFrom {S : Type} (heap : List (Node S)) : Nat → Nat → Nat
  | 0, p => p
  | fuel + 1, p =>
    match heap[p]? with
    | some ⟨_, some q, _, _⟩ => lastFrom heap fuel q
    | _ => p

/-- lookup.go 43-63 `Add`. -/
def add {S : Type} (l : State S) (id : UInt32) (s : S) : State S :=
  let new := l.heap.length
  match l.head with
  | none => { heap := l.heap ++ [⟨none, none, id, s⟩], head := some new, count := l.count + 1 }
  | some h =>
    let cur := lastFrom l.heap l.heap.length h
    { heap := (l.heap.modify cur fun n => { n with next := some new }) ++
        [⟨some cur, none, id, s⟩],
      head := some h, count := l.count + 1 }

/-- lookup.go 65-84 `Remove`. -/
def remove {S : Type} (l : State S) (id : UInt32) : State S :=
  match find l id with
  | none => l
  | some d =>
    match l.heap[d]? with
    | none => l
    | some node =>
      let heap := match node.prev with
        | some p => l.heap.modify p fun n => { n with next := node.next }
        | none => l.heap
      let heap := match node.next with
        | some q => heap.modify q fun n => { n with prev := node.prev }
        | none => heap
      { l with heap := heap, count := l.count - 1 }

/-- lookup.go 21-26 `Size`. -/
def size {S : Type} (l : State S) : Int := l.count

inductive Op (S : Type)
  | add (id : UInt32) (s : S)
  | remove (id : UInt32)
  deriving Repr, DecidableEq

def step {S : Type} (l : State S) : Op S → State S
  | .add id s => add l id s
  | .remove id => remove l id

def run {S : Type} (l : State S) (ops : List (Op S)) : State S := ops.foldl step l

end Verif.Lookup
