import Verif.Base.Go
import Verif.Model.Operations
/-
Model of the `invoke` package: handlers.go (registries), portio.go, instances.go.
-/
set_option autoImplicit false
namespace Verif.Invoke
open Verif Operations

/-! ## handlers.go -/

/-- The four interaction kinds; handlers.go has one textually identical copy of each registry
function per kind, the model has one function taking the kind. -/
inductive Kind
  | rr | fnf | rs | rc
  deriving Repr, DecidableEq

/-- operatons.go 22-27: the request type written in the table. -/
def Kind.type : Kind → UInt8
  | .rr => requestResponse
  | .fnf => fireAndForget
  | .rs => requestStream
  | .rc => requestChannel

/-- handlers.go 19-22. -/
structure HandlerInfo where
  ns : Bytes
  operation : Bytes
  deriving Repr, DecidableEq

/-- handlers.go 36-53, the variables of one kind. `H` is the type of handler functions. -/
structure KindReg (H : Type) where
  handlers : List H
  handlerInfo : List HandlerInfo
  imports : List HandlerInfo

/-- All package variables, handlers.go 36-53. -/
abbrev Registry (H : Type) := Kind → KindReg H

/-- handlers.go 36-53: initially empty. -/
def Registry.init {H : Type} : Registry H := fun _ => ⟨[], [], []⟩

def Registry.set {H : Type} (r : Registry H) (k : Kind) (v : KindReg H) : Registry H :=
  fun k' => if k' = k then v else r k'

/-- handlers.go 112-115, 124-127, 136-139, 148-151 `Export*`. -/
def doExport {H : Type} (r : Registry H) (k : Kind) (ns op : Bytes) (h : H) : Registry H :=
  r.set k { r k with
    handlers := (r k).handlers ++ [h]
    handlerInfo := (r k).handlerInfo ++ [⟨ns, op⟩] }

/-- handlers.go 117-122, 129-134, 141-146, 153-158 `Get*Handler` (`none` is nil). -/
def getHandler {H : Type} (r : Registry H) (k : Kind) (id : UInt32) : Option H :=
  if UInt32.ofNat (r k).handlers.length ≤ id then none
  else (r k).handlers[id.toNat]?

/-- handlers.go 160-165 etc.: the loop looking for an already imported operation. -/
def findImport (ns op : Bytes) : Nat → List HandlerInfo → Option Nat
  | _, [] => none
  | i, x :: xs => if x.ns = ns ∧ x.operation = op then some i else findImport ns op (i + 1) xs

/-- handlers.go 160-202 `Import*`. -/
def doImport {H : Type} (r : Registry H) (k : Kind) (ns op : Bytes) : UInt32 × Registry H :=
  match findImport ns op 0 (r k).imports with
  | some i => (UInt32.ofNat i, r)
  | none => (UInt32.ofNat (r k).imports.length,
      r.set k { r k with imports := (r k).imports ++ [⟨ns, op⟩] })

/-- handlers.go 98-110. -/
def convertOperations (hs : List HandlerInfo) (type direction : UInt8) : Table :=
  hs.zipIdx.map fun (h, i) =>
    { index := UInt32.ofNat i, type := type, direction := direction, ns := h.ns,
      operation := h.operation }

/-- handlers.go 55-96 `GetOperations`, `GetOperationsTable`. -/
def getOperationsTable {H : Type} (r : Registry H) : Table :=
  convertOperations (r .rr).handlerInfo requestResponse exportDir ++
  convertOperations (r .fnf).handlerInfo fireAndForget exportDir ++
  convertOperations (r .rs).handlerInfo requestStream exportDir ++
  convertOperations (r .rc).handlerInfo requestChannel exportDir ++
  convertOperations (r .rr).imports requestResponse importDir ++
  convertOperations (r .fnf).imports fireAndForget importDir ++
  convertOperations (r .rs).imports requestStream importDir ++
  convertOperations (r .rc).imports requestChannel importDir

/-- A registration call. -/
inductive Call (H : Type)
  | exp (k : Kind) (ns op : Bytes) (h : H)
  | imp (k : Kind) (ns op : Bytes)

def step {H : Type} (r : Registry H) : Call H → Registry H
  | .exp k ns op h => doExport r k ns op h
  | .imp k ns op => (doImport r k ns op).2

/-- The package state after a sequence of calls (they run on one goroutine, at start-up; there is
no lock in the code). -/
def run {H : Type} (r : Registry H) (calls : List (Call H)) : Registry H := calls.foldl step r

/-! ## portio.go -/

/-- portio.go 8-13. -/
structure PortIO where
  port : Bytes
  data : Bytes
  complete : Bool
  next : Bool
  deriving Repr, DecidableEq

/-- portio.go 73-76: the second constant repeats the first expression, so both are 1. -/
def flagNext : UInt8 := 1
def flagComplete : UInt8 := 1

/-- portio.go 79-81. -/
def flagCheck (f flag : UInt8) : Bool := flag &&& f == flag

/-- portio.go 15-33. -/
def PortIO.decode (data : Bytes) : Go PortIO := do
  let flags ← index data 0
  let complete := flagCheck flags flagComplete
  let next := flagCheck flags flagNext
  let data ← sliceFrom data 1
  let portLength ← getU16 data
  let data ← sliceFrom data 2
  let port ← sliceTo data portLength.toNat
  let data ← sliceFrom data portLength.toNat
  .ok { port := port, data := data, complete := complete, next := next }

/-- portio.go 35-56. -/
def PortIO.encode (f : PortIO) : Go Bytes := do
  let c : Cur := ⟨[], List.replicate (3 + f.port.length + f.data.length) 0⟩
  let flags : UInt8 := 0
  let flags := if f.complete then flags ||| flagComplete else flags
  let flags := if f.next then flags ||| flagNext else flags
  let c ← c.put [flags]
  let c ← c.put (be16 (UInt16.ofNat f.port.length))
  let c ← (c.copy f.port).skip f.port.length
  .ok (c.copy f.data).all

/-! ## instances.go -/

/-- instances.go 15-18. `heap` is the memory the pointers refer to. Assumed: Go's collector does
not move objects, and keeps every object whose pointer is a key of the map. -/
structure Live (T : Type) where
  instances : List UInt64
  heap : UInt64 → T

/-- instances.go 26-35 `Get`. -/
def Live.get {T : Type} (l : Live T) (id : UInt64) : Option T :=
  if id ∈ l.instances then some (l.heap id) else none

/-- instances.go 37-44 `Put`; `addr` is the address the allocator returns. -/
def Live.put {T : Type} (l : Live T) (inst : T) (addr : UInt64) : UInt64 × Live T :=
  (addr, { instances := addr :: l.instances,
           heap := fun a => if a = addr then inst else l.heap a })

/-- instances.go 46-55 `Remove`. -/
def Live.remove {T : Type} (l : Live T) (id : UInt64) : Option T × Live T :=
  if id ∈ l.instances then
    (some (l.heap id), { l with instances := l.instances.filter (· ≠ id) })
  else (none, l)

/-- A call; for `put` the address chosen by the allocator is part of the history. -/
inductive LiveOp (T : Type)
  | put (inst : T) (addr : UInt64)
  | get (id : UInt64)
  | remove (id : UInt64)

def Live.step {T : Type} (l : Live T) : LiveOp T → Live T
  | .put i a => (l.put i a).2
  | .get _ => l
  | .remove id => (l.remove id).2

def Live.run {T : Type} (l : Live T) (ops : List (LiveOp T)) : Live T := ops.foldl Live.step l

/-- The allocator hands out an address that no live object occupies. (This excludes zero-size
instance types, for which Go returns the same address for all objects.) -/
def Live.validFrom {T : Type} : Live T → List (LiveOp T) → Prop
  | _, [] => True
  | l, op :: ops =>
    (match op with | .put _ a => a ∉ l.instances | _ => True) ∧ Live.validFrom (l.step op) ops

end Verif.Invoke
