import Verif.Model.HostClose
/-
Closing a mesh: transport/wasmrs/mesh/mesh.go 122-126 (Close), 263-294 (the destinations, which send frames to other instances),
transport/wasmrs/host/instance.go 106-119 (Close), 151-165 (SendFrame).

Simplifications:
* The instances are listed in the order in which the `range` over the map `m.instances` visits them; Go leaves that order open, so
  every order is one of the runs. No module is loaded while the mesh is closed.
* What happens in each instance is Model/HostClose.lean; steps of different instances interleave freely.
* A call into the guest of an instance, by the application or by the handler of another instance (263-294), is abstracted to the
  one access that matters here: `i.sendCh <- f` in SendFrame.
-/
set_option autoImplicit false
namespace Verif.MeshClose
open Verif

structure St where
  insts : List HostClose.St
  /-- `none`: Close has not been called; otherwise the number of the instance it is closing (123-125). It has returned when
  there is no such instance. -/
  cur : Option Nat
  deriving Repr, DecidableEq

def St.init (n : Nat) : St := ⟨List.replicate n .init, none⟩

inductive Act
  /-- a step of an instance; `.close` is somebody else's `Close`, e.g. that of the application: `i.once` (107) runs the body once,
  whoever comes first, and lets the others wait for its end -/
  | inst (i : Nat) (a : HostClose.Act)
  /-- a frame is sent to the guest of an instance (instance.go 151-165) -/
  | call (i : Nat)
  /-- the next access of `Close` of the mesh -/
  | close
  deriving Repr, DecidableEq

/-- One step. Actions of instances that do not exist are ignored. -/
def step (s : St) : Act → Go St
  | .inst i a =>
    match s.insts[i]? with
    | none => .ok s
    | some x => do
      let y ← HostClose.step x a
      .ok { s with insts := s.insts.set i y }
  | .call i =>
    match s.insts[i]? with
    | none => .ok s
    | some x => if x.sendClosed then .panic else .ok s
  | .close =>
    match s.cur with
    | none => .ok { s with cur := some 0 }
    | some k =>
      match s.insts[k]? with
      | none => .ok s
      | some x => do
        let y ← HostClose.step x .close
        .ok ⟨s.insts.set k y, some (if y.closer = .done then k + 1 else k)⟩

/-- A schedule. A panic in any goroutine ends the process. -/
def runFrom (s : St) : List Act → Go St
  | [] => .ok s
  | a :: as => do
    let s' ← step s a
    runFrom s' as

def run (n : Nat) (as : List Act) : Go St := runFrom (.init n) as

end Verif.MeshClose
