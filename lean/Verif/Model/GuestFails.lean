import Verif.Model.Wasm
/-
A host whose guest may fail: running the guest's code can end with an error (a trap, a panic of the guest program, the guest exiting).
Here is the host with its two queues (transport/wasmrs/host/instance.go 26-27, 151-219); the guest is anything that sends
frames, and each time it is run it may return or fail.
-/
set_option autoImplicit false
namespace Verif.GuestFails
open Verif Frames Invoke Handler
open Verif.System (wire isFrame)

section
variable {H : Type}

/-- The host's end of the connection, `sendCh` and `recvCh` (instance.go 26-27; here they always have space, as in Model/Wasm.lean),
and, for the statements, the frames the guest failed with. -/
structure Host (H : Type) where
  st : St H
  sendCh : List AnyFrame
  recvCh : List AnyFrame
  crashed : List AnyFrame

/-- instance.go 67-104, when `__wasmrs_init` and the list of operations are done. -/
def Host.init (reg : Registry H) : Host H := ⟨.init reg (Wasm.Side.client .host), [], [], []⟩

inductive Act
  /-- anything the host or its application does, other than receiving a frame -/
  | act (a : Handler.Act)
  /-- `sendLoop` has the guest handle a frame; `out` is what the guest sends meanwhile, `failed` that it ends with an error -/
  | guest (out : List AnyFrame) (failed : Bool)
  /-- `recvLoop` handles a frame -/
  | recv (r : React)

/-- One step. What is sent goes to `sendCh` (instance.go 151-155). `sendLoop` takes a frame from there and calls the guest's `__wasmrs_send`
with it (172-189); in that call the guest sends frames, which go to `recvCh` (200-213). The error of the call (187) is not looked at: the loop goes
on with the next frame. `recvLoop` takes a frame from `recvCh` (215-219). With nothing in the channel the loops wait: no step. -/
def step (c : Host H) : Act → Go (Host H × List (Handler.Ev H))
  | .act a =>
    if isFrame a then .err "not a step"
    else do
      let r ← Wasm.step .host c.st a
      .ok ({ c with st := r.1, sendCh := c.sendCh ++ wire r.2 }, r.2)
  | .guest out failed =>
    match c.sendCh with
    | [] => .err "not a step"
    | f :: fs =>
      .ok ({ c with sendCh := fs, recvCh := c.recvCh ++ out, crashed := if failed then c.crashed ++ [f] else c.crashed }, [])
  | .recv x =>
    match c.recvCh with
    | [] => .err "not a step"
    | f :: fs => do
      let r ← Wasm.step .host c.st (.frame f x)
      .ok ({ c with st := r.1, recvCh := fs, sendCh := c.sendCh ++ wire r.2 }, r.2)

def runFrom (c : Host H) : List Act → Go (Host H × List (Handler.Ev H))
  | [] => .ok (c, [])
  | a :: as => do
    let r ← step c a
    let r' ← runFrom r.1 as
    .ok (r'.1, r.2 ++ r'.2)

def run (reg : Registry H) (as : List Act) : Go (Host H × List (Handler.Ev H)) := runFrom (.init reg) as

end
end Verif.GuestFails
