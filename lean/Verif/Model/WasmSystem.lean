import Verif.Model.Wasm
import Verif.Model.WasmBuffers
/-
Model of a whole connection between a host and its guest, down to the bytes in the guest's memory. The ends are those of
Model/Wasm.lean. The host puts what it sends in `sendCh`; `sendLoop` writes one frame after the other into `guestBuffer` and
calls the guest, which takes the frames out of the buffer and handles them before the call returns. The guest
writes each frame into `hostBuffer` and calls the host, which copies it into `recvCh`; `recvLoop` handles what is in there.
What is left out:
- the two queues hold 100 frames each; here there is always space (Model/WasmLink.lean);
- of the guest's memory around `hostBuffer` only what is there at the beginning: it does not change. It matters for frames that do
  not fit in the buffer only;
- a panic at one end ends the run;
- closing the instance (Model/HostClose.lean).
-/
set_option autoImplicit false
namespace Verif.WasmSystem
open Verif Frames Invoke Handler
open Verif.WasmRecv (Side)

section
variable {H : Type}

/-- instance.go 221-395 `recvOne`, guest.go 85-257: the bytes of one frame. Frames for a stream that is not there are
dropped before they are decoded. `Cancel` is not decoded at all (instance.go 322-324, guest.go 182-184). The application
reacts with `r`. -/
def recvBytes (s : St H) (data : Bytes) (r : React) : Go (Out H) := do
  let h ← parseHeader data
  let body ← sliceFrom data 6
  if h.type ≥ typeRequestN then
    match getStream s h.streamID with
    | none => .ok (s, [])
    | some j =>
      if h.type = typeRequestN then do
        let f ← RequestN.decode h body
        dispatch s r (.requestN f) (some j)
      else if h.type = typeCancel then dispatch s r (.cancel ⟨h.streamID⟩) (some j)
      else if h.type = typePayload then do
        let f ← Payload.decode h body
        dispatch s r (.payload f) (some j)
      else if h.type = typeError then do
        let f ← Error.decode h body
        dispatch s r (.error f) (some j)
      else .ok (s, [])
  else match kindOfType h.type with
    | some _ => do
      let f ← RequestPayload.decode h body
      if f.follows then .ok (s, []) else dispatch s r (.request f) none
    | none => .ok (s, [])

/-- guest.go 76-258: one frame after the other. -/
def recvAll (s : St H) (r : React) : List Bytes → Go (Out H)
  | [] => .ok (s, [])
  | b :: bs => andThen (recvBytes s b r) fun s => recvAll s r bs

/-- The sizes of the two buffers (instance.go 84, 89), and the guest's memory before and behind `hostBuffer`. -/
structure Mem where
  guestSize : Nat
  hostSize : Nat
  low : Bytes
  high : Bytes

/-- instance.go 84, 89: 16 KiB each. -/
def newInstance (low high : Bytes) : Mem := ⟨16384, 16384, low, high⟩

/-- The two ends, what is on its way between them, the two buffers, the frames that were handled (as bytes) and what was observed
at each end. -/
structure Sys (H : Type) where
  host : St H
  guest : St H
  sendCh : List AnyFrame
  recvCh : List Bytes
  guestBuf : Bytes
  hostBuf : Bytes
  mem : Mem
  atGuest : List Bytes
  atHost : List Bytes
  trHost : List (Ev H)
  trGuest : List (Ev H)

/-- instance.go 67-104, guest.go 45-53. -/
def Sys.init (mem : Mem) (regH regG : Registry H) : Sys H :=
  ⟨.init regH (Wasm.Side.client .host), .init regG (Wasm.Side.client .guest), [], [],
    List.replicate mem.guestSize 0, List.replicate mem.hostSize 0, mem, [], [], [], []⟩

/-- What happens next: something at one of the ends, `sendLoop` takes a frame and the guest handles it, or `recvLoop` takes a
frame and the host handles it. -/
inductive Move
  | atHost (a : Act)
  | atGuest (a : Act)
  | sendLoop (r : React)
  | recvLoop (r : React)

/-- guest.go 498-533, instance.go 200-213: the guest sends these frames, one after the other. -/
def guestSends (s : Sys H) : List AnyFrame → Go (Sys H)
  | [] => .ok s
  | f :: fs => do
    let (buf, n) ← Wasm.guestWrite s.hostBuf f
    let r := Wasm.hostSend (s.mem.low ++ buf ++ s.mem.high) s.mem.low.length n
    if r.2 then .panic
    else guestSends { s with hostBuf := buf, recvCh := s.recvCh ++ r.1 } fs

/-- What the host has done: instance.go 151-165 for the frames it sent. -/
def hostDid (s : Sys H) : Go (Out H) → Go (Sys H)
  | .ok (h, e) => .ok { s with host := h, sendCh := s.sendCh ++ System.wire e, trHost := s.trHost ++ e }
  | .err m => .err m
  | .panic => .panic

/-- The same for the guest. -/
def guestDid (s : Sys H) : Go (Out H) → Go (Sys H)
  | .ok (g, e) => guestSends { s with guest := g, trGuest := s.trGuest ++ e } (System.wire e)
  | .err m => .err m
  | .panic => .panic

def step (s : Sys H) : Move → Go (Sys H)
  | .atHost act => if System.isFrame act then .ok s else hostDid s (Wasm.step .host s.host act)
  | .atGuest act => if System.isFrame act then .ok s else guestDid s (Wasm.step .guest s.guest act)
  | .sendLoop r =>
    match s.sendCh with
    | [] => .ok s
    | f :: fs => do
      let (buf, n) ← Wasm.hostWrite s.guestBuf f
      let l := Wasm.guestSend buf 0 n
      let s' ← guestDid { s with sendCh := fs, guestBuf := buf, atGuest := s.atGuest ++ l.1 } (recvAll s.guest r l.1)
      if l.2 then .panic else .ok s'
  | .recvLoop r =>
    match s.recvCh with
    | [] => .ok s
    | b :: bs => hostDid { s with recvCh := bs, atHost := s.atHost ++ [b] } (recvBytes s.host b r)

def runFrom (s : Sys H) : List Move → Go (Sys H)
  | [] => .ok s
  | m :: ms => do
    let s ← step s m
    runFrom s ms

/-- A whole run of the connection. -/
def run (mem : Mem) (regH regG : Registry H) (ms : List Move) : Go (Sys H) := runFrom (.init mem regH regG) ms

end
end Verif.WasmSystem
