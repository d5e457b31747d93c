import Verif.Model.Operations
import Verif.Model.WasmBuffers
/-
Starting a wasm guest: `Module.Instantiate` (transport/wasmrs/host/host.go 76-83), `NewInstance` (instance.go 67-104) and the functions of
the host the guest calls meanwhile (host.go 100-121, instance.go 167-170, 194-213).

What wazero (v1.0.0-pre.8) does is assumed: the functions named in `WithStartFunctions` (host.go 37) that the module has are called when it is
instantiated; a panic in a function of the host that the guest calls ends the guest's run and becomes the error of the
call (`Function.Call`); a module with a name in use is refused.
-/
set_option autoImplicit false
namespace Verif.Startup
open Verif

/-- A call the guest makes of a function of the host; `mem` is the guest's memory at that time. -/
inductive HostCall
  | initBuffers (sendPtr recvPtr : UInt32)
  | opList (mem : Bytes) (ptr size : UInt32)
  | send (mem : Bytes) (recvPos : UInt32)

/-- What running a function of the guest comes to: the calls it makes, whether it then fails (a trap, a panic), and what it returns
(`__wasmrs_init` returns a bool: guest.go 42-51). -/
structure Run where
  calls : List HostCall
  fails : Bool
  result : Bool

/-- A module: its start functions, and the functions NewInstance looks for; `none` if it has none of that name. -/
structure Guest where
  start : Run
  init : Option Run
  send : Bool
  opListRequest : Option Run

/-- The fields of an instance that starting it sets (instance.go 23-55). -/
structure Inst where
  sendPtr : UInt32
  recvPtr : UInt32
  operations : Operations.Table
  recvCh : List Bytes
  deriving Repr, DecidableEq

/-- How something ends: normally, with an error, with a panic of the host program, or never. -/
inductive Result (α : Type)
  | done (a : α)
  | error (m : String)
  | crash
  | hang
  deriving Repr, DecidableEq

/-- instance.go 76-87. -/
def Inst.new : Inst := ⟨0, 0, [], []⟩

/-- What a call of the host ends with if it panics: the panic is an error for the caller of the guest. -/
def recovered : String := "recovered by wazero"

/-- One call of the host. `setBuffers` (instance.go 167-170); `opList` (194-198), which drops the error of `FromBytes`, so that the
table is then nil (operations/operatons.go 66-76); `hostSend` (200-213), which puts each frame into `recvCh`, with space for 100 (80): nobody takes
one out before `NewInstance` starts `recvLoop` (100). -/
def hostCall (i : Inst) : HostCall → Result Inst
  | .initBuffers s r => .done { i with sendPtr := s, recvPtr := r }
  | .opList mem p n =>
    match Operations.fromBytes (Wasm.memRead mem p.toNat n.toNat) with
    | .ok t => .done { i with operations := t }
    | .err _ => .done { i with operations := [] }
    | .panic => .error recovered
  | .send mem pos =>
    let r := Wasm.hostSend mem i.recvPtr.toNat pos
    if i.recvCh.length + r.1.length > 100 then .hang
    else if r.2 then .error recovered
    else .done { i with recvCh := i.recvCh ++ r.1 }

/-- The calls of the host, one after the other. -/
def hostCalls (i : Inst) : List HostCall → Result Inst
  | [] => .done i
  | c :: cs =>
    match hostCall i c with
    | .done i => hostCalls i cs
    | r => r

/-- `Call` of a function of the guest. -/
def call (i : Inst) (r : Run) : Result Inst :=
  match hostCalls i r.calls with
  | .done i => if r.fails then .error "the guest failed" else .done i
  | e => e

/-- instance.go 67-104. Two of the functions are checked for (68-75); the third is not (94), and calling a method of a nil interface
panics (95). What `__wasmrs_init` returns is not looked at (89). -/
def newInstance (g : Guest) : Result Inst :=
  match g.init with
  | none => .error "module does not export __wasmrs_init"
  | some init =>
    if g.send = false then .error "module does not export __wasmrs_send"
    else
      match call .new init with
      | .done i =>
        match g.opListRequest with
        | none => .crash
        | some r => call i r
      | e => e

/-- The host: whether there is a module called "test", which is what all are called (host.go 77). Nothing ever closes one
(Instance.Close, instance.go 106-119, does not). -/
structure Host where
  taken : Bool

/-- host.go 76-83. The start functions run before there is an instance: in a call they make of the host the context has none, and the
conversion in host.go 103, 111 or 119 panics. wazero closes a module whose start functions failed. -/
def instantiate (h : Host) (g : Guest) : Host × Result Inst :=
  if h.taken then (h, .error "module[test] has already been instantiated")
  else if g.start.calls ≠ [] then (h, .error recovered)
  else if g.start.fails then (h, .error "the guest failed")
  else (⟨true⟩, newInstance g)

/-- Several modules on one host, one after the other (host.go 30-62 `New` makes a host without modules). A crash ends the program, and what
hangs goes on for ever: nothing comes after. -/
def instantiateAll (h : Host) : List Guest → List (Result Inst)
  | [] => []
  | g :: gs =>
    match instantiate h g with
    | (_, .crash) => [.crash]
    | (_, .hang) => [.hang]
    | (h, r) => r :: instantiateAll h gs

end Verif.Startup
