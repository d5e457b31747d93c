import Verif.Model.WasmRecv
import Verif.Model.Operations
/-
Model of transport/wasmrs/mesh/mesh.go: loading modules, linking imports to exports and forwarding calls.
-/
set_option autoImplicit false
namespace Verif.Mesh
open Verif
open Verif.Invoke (Kind)
open Verif.WasmRecv (Slots setHandler getHandler)
open Verif.Operations (Operation Table)

/-- mesh.go 29-32; an instance is the number of the load that made it. -/
structure Dest where
  inst : Nat
  index : UInt32
  deriving Repr, DecidableEq

/-- Namespace and operation name. -/
abbrev Key := Bytes × Bytes

def keyOf (op : Operation) : Key := (op.ns, op.operation)

/-- mesh.go 34-37 -/
structure Pending where
  inst : Nat
  oper : Operation
  deriving Repr, DecidableEq

/-- mesh.go 22-27. `exports`: the map of maps of pointers, as one map from (namespace, operation) to what the
pointer holds (it is stored to right after it is made, mesh.go 199-208, and every function loads it
at once), newest entry first. `tables`: the handler tables of the instances (instance.go 50-53), which
only the mesh sets. `instances`: filename to instance, newest entry first. -/
structure St where
  exports : List (Key × Dest)
  unsatisfied : List Pending
  tables : Nat → Kind → Slots Dest
  instances : List (Bytes × Nat)

/-- mesh.go 48-60 -/
def St.init : St := ⟨[], [], fun _ _ => [], []⟩

/-- mesh.go 249-258 -/
def kindOf (t : UInt8) : Option Kind :=
  if t = Operations.requestResponse then some .rr
  else if t = Operations.fireAndForget then some .fnf
  else if t = Operations.requestStream then some .rs
  else if t = Operations.requestChannel then some .rc
  else none

/-- instance.go 591-645 on the table of one instance. -/
def setTable (s : St) (inst : Nat) (k : Kind) (index : UInt32) (d : Dest) : Go St := do
  let l ← setHandler (s.tables inst k) index d
  .ok { s with tables := fun i k' => if i = inst ∧ k' = k then l else s.tables i k' }

/-- mesh.go 237-261: `none` is the result false. -/
def linkOperation (s : St) (inst : Nat) (op : Operation) : Go (Option St) :=
  match s.exports.lookup (keyOf op) with
  | none => .ok none
  | some d =>
    match kindOf op.type with
    | none => .ok (some s)
    | some k => do
      let s' ← setTable s inst k op.index d
      .ok (some s')

/-- mesh.go 186-219: one operation; the number counts exports. -/
def linkOne (s : St) (n : Nat) (inst : Nat) (op : Operation) : Go (St × Nat) :=
  if op.direction = Operations.exportDir then
    .ok ({ s with exports := (keyOf op, ⟨inst, op.index⟩) :: s.exports }, n + 1)
  else if op.direction = Operations.importDir then do
    match ← linkOperation s inst op with
    | some s' => .ok (s', n)
    | none => .ok ({ s with unsatisfied := s.unsatisfied ++ [⟨inst, op⟩] }, n)
  else .ok (s, n)

/-- mesh.go 186-219 -/
def linkAll (s : St) (n : Nat) (inst : Nat) : List Operation → Go (St × Nat)
  | [] => .ok (s, n)
  | op :: ops => do
    let (s', n') ← linkOne s n inst op
    linkAll s' n' inst ops

/-- mesh.go 222-227: try the unsatisfied imports again; returns those that remain. -/
def retry (s : St) : List Pending → Go (St × List Pending)
  | [] => .ok (s, [])
  | u :: us => do
    match ← linkOperation s u.inst u.oper with
    | some s' => retry s' us
    | none =>
      let (s', l) ← retry s us
      .ok (s', u :: l)

/-- mesh.go 176-235 without the printing. -/
def linkOperations (s : St) (inst : Nat) (opers : Table) : Go St := do
  let (s', n) ← linkAll s 0 inst opers
  if n > 0 ∧ s'.unsatisfied.length > 0 then do
    let (s'', l) ← retry s' s'.unsatisfied
    .ok { s'' with unsatisfied := l }
  else .ok s'

/-- mesh.go 138-174: a module file whose instance reports these operations. Files that cannot be read, compiled or
instantiated change nothing. `inst` is the new instance. The replaced instance is closed five seconds later (not modelled). -/
def loadModule (s : St) (inst : Nat) (filename : Bytes) (opers : Table) : Go St :=
  linkOperations { s with instances := (filename, inst) :: s.instances } inst opers

/-- mesh.go 128-136, and later calls; the next instance is number `n`. -/
def loadAll (s : St) (n : Nat) : List (Bytes × Table) → Go St
  | [] => .ok s
  | (f, t) :: ms => do
    let s' ← loadModule s n f t
    loadAll s' (n + 1) ms

/-- Modules loaded one after the other into a new mesh; the i-th load makes instance i. -/
def load (ms : List (Bytes × Table)) : Go St := loadAll .init 0 ms

/-! ## Calls -/

/-- mesh.go 62-120: where a call by name goes (`none`: nothing happens, the result is nil). -/
def callByName (s : St) (key : Key) : Option Dest := s.exports.lookup key

/-- Where a call of instance `inst` through import `index` of kind `k` goes. -/
def callImport (s : St) (inst : Nat) (k : Kind) (index : UInt32) : Option Dest :=
  getHandler (s.tables inst k) index

/-- mesh.go 264-267, 272-275, 280-283, 288-291: the metadata of a forwarded payload; `none` is a nil slice. Too
short metadata panics. -/
def putIndex (index : UInt32) : Option Bytes → Go (Option Bytes)
  | none => .ok none
  | some md => if md.length < 4 then .panic else .ok (some (be32 index ++ md.drop 4))

/-- A payload: its metadata is a slice the holder of the payload still shares (`cell`). -/
structure PayRef where
  cell : Nat
  data : Bytes
  deriving Repr, DecidableEq

/-- A request to send: target instance, kind, metadata (shared), data. host/caller.go 31-79: the frame holds the
slice; it is encoded when the call is subscribed to (request/response, stream, channel) or, for
fire-and-forget, when it is made. -/
structure Call where
  inst : Nat
  kind : Kind
  pay : PayRef
  deriving Repr, DecidableEq

/-- What the target receives. -/
structure Sent where
  inst : Nat
  kind : Kind
  metadata : Option Bytes
  data : Bytes
  deriving Repr, DecidableEq

/-- The metadata slices, calls made and not subscribed to yet, and requests sent. -/
structure CallSt where
  cells : List (Option Bytes)
  pending : List Call
  sent : List Sent
  deriving Repr, DecidableEq

inductive CallAct
  /-- mesh.go 263-293: a call through the destination -/
  | call (d : Dest) (k : Kind) (p : PayRef)
  /-- the i-th pending call is subscribed to -/
  | subscribe (i : Nat)
  deriving Repr, DecidableEq

def sendNow (s : CallSt) (c : Call) : Sent := ⟨c.inst, c.kind, (s.cells[c.pay.cell]?).join, c.pay.data⟩

def callStep (s : CallSt) : CallAct → Go CallSt
  | .call d k p => do
    let md ← putIndex d.index (s.cells[p.cell]?).join
    let s' := { s with cells := s.cells.set p.cell md }
    match k with
    | .fnf => .ok { s' with sent := s'.sent ++ [sendNow s' ⟨d.inst, k, p⟩] }
    | _ => .ok { s' with pending := s'.pending ++ [⟨d.inst, k, p⟩] }
  | .subscribe i =>
    match s.pending[i]? with
    | some c => .ok { s with sent := s.sent ++ [sendNow s c] }
    | none => .ok s

def callRun (s : CallSt) : List CallAct → Go CallSt
  | [] => .ok s
  | a :: as => do
    let s' ← callStep s a
    callRun s' as

end Verif.Mesh
