import Verif.Model.WasmRecv
import Verif.Model.System
/-
Model of a whole connection over wasm: a host instance (transport/wasmrs/host/instance.go,
host/caller.go) and the guest it runs (transport/wasmrs/guest/guest.go, guest/caller.go). Both are
modelled at the level of Model/Handler.lean, whose code they repeat (handler/handler.go); this file has
what is different. Streams of calls are the same code on all sides (proxy/mono.go, proxy/flux.go), and so
are the subscribers (rx/mono, rx/flux).

The frames of the host go through `sendCh` and `sendLoop` into the guest's memory (instance.go 151-189),
those of the guest through the host's memory, `hostSend` and `recvCh` (guest.go 498-533, instance.go 200-219):
a queue of frames in each direction. What is left out:
- encoding and the buffers give the frames back (C01-C06, C51; frames of more than the buffer do not, C52);
- the two queues hold 100 frames each; here there is always space;
- closing the instance and the count of active requests (Model/HostClose.lean);
- the contexts (instance.go 403-408);
- the tables of the host (instance.go 591-645, C78) have no gaps: an index below the length has a handler;
- the guest has no goroutines. What is a goroutine on the other sides runs to its end there before
  anything else happens, so that the guest does only some of the things a model with goroutines can do.
  The frames a callback sends come out in another order in one case: a callback that asks its
  subscription for more and then cancels it sends the two frames in this order on the guest; here, and
  on the other sides, the second may come first.
-/
set_option autoImplicit false
namespace Verif.Wasm
open Verif Frames Invoke Handler
open Verif.WasmRecv (Side registers handlerMeta)
open Verif.System (Sys Move wire isFrame)

section
variable {H : Type}

/-- Running a request: instance.go 397-419, 440-462, 464-515, 518-588; guest.go 261-295, 298-318, 320-366,
368-428. Like handler.go 242-410, but for what the handler is given and which streams are registered. -/
def serve (side : Side) (s : St H) (k : Kind) (id : UInt32) (data md : Bytes) (n : UInt32) (ret : Ret) : Go (Out H) :=
  if md.length < 8 then .ok (s, [.sent none (errorFrame id "Invalid metadata")])
  else do
    let op ← getU32 md
    match getHandler s.reg k op with
    | none => .ok (s, [.sent none (errorFrame id "not_found")])
    | some h =>
      let j := s.objs.length
      let p := Pay.mk data (handlerMeta side k md)
      let reg (s : St H) : St H := if registers side k then register s id j else s
      let opened : List (Ev H) := if registers side k then [.opened id j] else []
      match k with
      | .rr => do
        let r := monoSubscribe ret.mono
        let es ← answerEvs j id r.2
        .ok ({ s with objs := s.objs ++ [.answer id ret.mono r.1] }, .invoked .rr h id p :: es)
      | .fnf => .ok (reg { s with objs := s.objs ++ [.responder .fnf id none false none] },
          opened ++ [.invoked .fnf h id p])
      | k => .ok (addTasks (reg { s with objs := s.objs ++ [.responder k id none false none] })
            [.subscribe j ret.flux n],
          opened ++ [.invoked k h id p])

/-- A frame comes in: instance.go 221-395 `recvOne`, guest.go 85-257. Frames for a stream that is not
there are dropped (instance.go 230-236, guest.go 92-98); requests announcing fragments are put aside for good
(C65); there is no setup. The rest is what `HandleFrame` does (handler.go 126-237). -/
def recv (s : St H) (f : AnyFrame) (r : React) : Go (Out H) :=
  if f.type ≥ typeRequestN then
    match getStream s f.streamID with
    | none => .ok (s, [])
    | some j => dispatch s r f (some j)
  else match f with
    | .request v => if v.follows then .ok (s, []) else dispatch s r f none
    | _ => .ok (s, [])

/-- Which side enters streams and fire-and-forget requests in its table (`Ret.kept`). -/
def keeps : Side → Bool
  | .guest => true
  | .host => false

/-- One step of an end. Calls (host/caller.go 31-76, guest/caller.go 38-84) and what goes on in streams
is as in Model/Handler.lean. An action that has the table treated as the other side does is no step of this side. -/
def step (side : Side) (s : St H) : Act → Go (Out H)
  | .frame f r => recv s f r
  | .run t ret =>
    if ret.kept != keeps side then .err "not a step of this side"
    else match s.tasks[t]? with
    | some (.request k id data md n) => serve side { s with tasks := s.tasks.eraseIdx t } k id data md n ret
    | some task => runTask { s with tasks := s.tasks.eraseIdx t } ret task
    | none => .ok (s, [])
  | a => Handler.step s a

/-- A history of one end. -/
def runFrom (side : Side) (s : St H) : List Act → Go (Out H)
  | [] => .ok (s, [])
  | a :: as => andThen (step side s a) fun s => runFrom side s as

/-- The ids of the guest's calls are odd, those of the host's are even (guest/caller.go 19,
instance.go 33). -/
def Side.client : Side → Bool
  | .guest => true
  | .host => false

def Side.other : Side → Side
  | .guest => .host
  | .host => .guest

/-- instance.go 67-104, guest.go 20-58. -/
def run (side : Side) (reg : Registry H) (as : List Act) : Go (Out H) :=
  runFrom side (.init reg (Side.client side)) as

/-! ## Both ends -/

/-- A step of end `a`, which is on the side `side`; what it sends goes to `b`. -/
def moveA (side : Side) (s : Sys H) (act : Act) : Go (Sys H) :=
  match step side s.a act with
  | .ok (a, e) => .ok { s with a := a, ab := s.ab ++ wire e, histA := s.histA ++ [act], trA := s.trA ++ e }
  | .err m => .err m
  | .panic => .panic

/-- The same for end `b`, on the other side. -/
def moveB (side : Side) (s : Sys H) (act : Act) : Go (Sys H) :=
  match step (Side.other side) s.b act with
  | .ok (b, e) => .ok { s with b := b, ba := s.ba ++ wire e, histB := s.histB ++ [act], trB := s.trB ++ e }
  | .err m => .err m
  | .panic => .panic

/-- Frames are handed over in the order in which they were sent (instance.go 176, 216). -/
def stepSys (side : Side) (s : Sys H) : Move → Go (Sys H)
  | .atA act => if isFrame act then .ok s else moveA side s act
  | .atB act => if isFrame act then .ok s else moveB side s act
  | .toA r =>
    match s.ba with
    | [] => .ok s
    | f :: fs => moveA side { s with ba := fs } (.frame f r)
  | .toB r =>
    match s.ab with
    | [] => .ok s
    | f :: fs => moveB side { s with ab := fs } (.frame f r)

def runSysFrom (side : Side) (s : Sys H) : List Move → Go (Sys H)
  | [] => .ok s
  | m :: ms => match stepSys side s m with
    | .ok s' => runSysFrom side s' ms
    | .err e => .err e
    | .panic => .panic

/-- A whole run: end `a` is the host or the guest, as `side` says, end `b` the other one. A panic at one
end ends it. -/
def runSys (side : Side) (regA regB : Registry H) (ms : List Move) : Go (Sys H) :=
  runSysFrom side (.init regA regB (Side.client side)) ms

end
end Verif.Wasm
