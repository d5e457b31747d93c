import Verif.Model.Invoke
/-
Closing a host instance while requests run: transport/wasmrs/host/instance.go 40-43 (counter and flags),
106-125 (Close, reduceActiveRequests), 151-165 (SendFrame), 200-213 (hostSend: queueing frames),
215-219 (recvLoop) and the parts of 221-395 (recvOne) and 397-589 (handlers) that count requests, send
frames and give requests back.

Every access to a shared variable (the atomic counter, the atomic flag, the channels) is one step, and
steps of different goroutines interleave freely.

Simplifications:
* A received request is abstracted to what decides its fate here: its kind, whether its metadata are
  long enough, whether a handler is set. (recvOne and the handlers themselves: Model/WasmRecv.lean.)
* Channels do not fill up (they hold 100 frames and are drained by sendLoop and recvLoop); taking a
  request from `recvCh` and counting it is one step.
* The callbacks of one subscriber do not run concurrently with each other, and the last of them is the
  answer (see C20-C25 for what the reactive types guarantee). Callbacks of the input flux of a channel
  run concurrently with those of its output.
* `Close` may be called often; `sync.Once` runs the body once, so the state has one body. Other callers
  return when it is done.
-/
set_option autoImplicit false
namespace Verif.HostClose
open Verif
open Verif.Invoke (Kind)

/-- A request frame as far as counting is concerned. -/
structure Req where
  kind : Kind
  /-- instance.go checkMetadata: at least 8 bytes -/
  metaOK : Bool
  /-- a handler is set for the operation -/
  found : Bool
  deriving Repr, DecidableEq

/-- One access to shared state. -/
inductive Atom
  /-- SendFrame (151-165) with an element, a request-n or a cancel frame: `i.sendCh <- f`. -/
  | send
  /-- SendFrame with the frame that answers the request. -/
  | sendEnd
  /-- `i.activeRequests.Add(-1)` (122) -/
  | dec
  /-- `i.closing.Load()` and `close(i.closed)` (122-123), when the counter was not above zero -/
  | chk
  deriving Repr, DecidableEq

/-- A request being served. -/
structure Proc where
  req : Req
  /-- the handler runs: its mono or flux has not ended -/
  running : Bool
  /-- what the goroutine serving the request, or the callback running on its output, still has to do -/
  todo : List Atom
  /-- the same for callbacks of the input flux of a channel -/
  inp : List Atom
  /-- the answering frame was sent (not in the code) -/
  answered : Bool
  deriving Repr, DecidableEq

/-- Where the body of `Close` (107-116) is. -/
inductive Closer
  | idle
  /-- before line 110 -/
  | stored
  /-- at line 111 -/
  | waiting
  /-- before line 114 -/
  | closeSend
  /-- before line 115 -/
  | closeRecv
  | done
  deriving Repr, DecidableEq

structure St where
  active : Int
  closing : Bool
  closedCh : Bool
  sendClosed : Bool
  recvClosed : Bool
  queue : List Req
  procs : List Proc
  closer : Closer
  deriving Repr, DecidableEq

/-- 75-85 -/
def St.init : St := ⟨0, false, false, false, false, [], [], .idle⟩

/-- recvOne 256, 273, 289, 306: fire-and-forget requests are not counted. -/
def counted : Kind → Bool
  | .fnf => false
  | _ => true

/-- What the goroutine of a request does until its handler has been subscribed to:
398-417 (request/response), 441-461 (fire and forget), 465-484 (stream: the counter is not decremented),
519-538 (channel); 647-657 checkMetadata sends the error frame and nobody decrements the counter. -/
def serve (r : Req) : Proc :=
  if !r.metaOK then ⟨r, false, [.sendEnd], [], false⟩
  else if !r.found then
    match r.kind with
    | .rr => ⟨r, false, [.sendEnd, .dec], [], false⟩
    | .fnf => ⟨r, false, [.sendEnd], [], false⟩
    | .rs => ⟨r, false, [.sendEnd], [], false⟩
    | .rc => ⟨r, false, [.sendEnd, .dec], [], false⟩
  else
    match r.kind with
    | .fnf => ⟨r, false, [], [], false⟩
    | _ => ⟨r, true, [], [], false⟩

/-- Which list of pending accesses. -/
inductive Side
  | out
  | inp
  deriving Repr, DecidableEq

inductive Act
  /-- hostSend 210: the guest sends a request -/
  | arrive (r : Req)
  /-- recvLoop 216 and recvOne: take a request, count it, start its goroutine -/
  | recv
  /-- the handler's flux emits an element (489-496, 562-569) -/
  | next (i : Nat)
  /-- the handler's mono or flux ends (420-436, 497-510, 570-583) -/
  | answer (i : Nat)
  /-- the handler of a channel asks its input for elements (546-551) -/
  | requestIn (i : Nat)
  /-- the handler of a channel cancels its input (552-557) -/
  | cancelIn (i : Nat)
  /-- next shared access of a callback of request `i` -/
  | thread (i : Nat) (side : Side)
  /-- next access of `Close` -/
  | close
  deriving Repr, DecidableEq

def setProc (s : St) (i : Nat) (p : Proc) : St := { s with procs := s.procs.set i p }

/-- One shared access of request `i`; `set` stores what is left to do. -/
def atom (s : St) (i : Nat) (p : Proc) (set : List Atom → Proc → Proc) (a : Atom) (rest : List Atom) : Go St :=
  match a with
  | .send => if s.sendClosed then .panic else .ok (setProc s i (set rest p))
  | .sendEnd => if s.sendClosed then .panic else .ok (setProc s i (set rest { p with answered := true }))
  | .dec =>
    .ok (setProc { s with active := s.active - 1 } i
      (set (if s.active - 1 ≤ 0 then .chk :: rest else rest) p))
  | .chk =>
    if s.closing then
      if s.closedCh then .panic else .ok (setProc { s with closedCh := true } i (set rest p))
    else .ok (setProc s i (set rest p))

def setOut (l : List Atom) (p : Proc) : Proc := { p with todo := l }
def setInp (l : List Atom) (p : Proc) : Proc := { p with inp := l }

/-- Accesses of `Close` (107-116). -/
def closeStep (s : St) : Go St :=
  match s.closer with
  | .idle => .ok { s with closing := true, closer := .stored }
  | .stored => .ok { s with closer := if s.active > 0 then .waiting else .closeSend }
  | .waiting => .ok (if s.closedCh then { s with closer := .closeSend } else s)
  | .closeSend => if s.sendClosed then .panic else .ok { s with sendClosed := true, closer := .closeRecv }
  | .closeRecv => if s.recvClosed then .panic else .ok { s with recvClosed := true, closer := .done }
  | .done => .ok s

/-- An event that cannot happen leaves the state alone. -/
def step (s : St) : Act → Go St
  | .arrive r => if s.recvClosed then .panic else .ok { s with queue := s.queue ++ [r] }
  | .recv =>
    match s.queue with
    | [] => .ok s
    | r :: q => .ok { s with queue := q, active := if counted r.kind then s.active + 1 else s.active,
                             procs := s.procs ++ [serve r] }
  | .next i =>
    match s.procs[i]? with
    | some p => .ok (if p.running && p.todo.isEmpty && (p.req.kind == .rs || p.req.kind == .rc)
        then setProc s i { p with todo := [.send] } else s)
    | none => .ok s
  | .answer i =>
    match s.procs[i]? with
    | some p => .ok (if p.running && p.todo.isEmpty
        then setProc s i { p with todo := [.sendEnd, .dec], running := false } else s)
    | none => .ok s
  | .requestIn i =>
    match s.procs[i]? with
    | some p => .ok (if p.inp.isEmpty && p.req.kind == .rc && p.req.metaOK && p.req.found
        then setProc s i { p with inp := [.send] } else s)
    | none => .ok s
  | .cancelIn i =>
    match s.procs[i]? with
    | some p => .ok (if p.inp.isEmpty && p.req.kind == .rc && p.req.metaOK && p.req.found
        then setProc s i { p with inp := [.send, .dec] } else s)
    | none => .ok s
  | .thread i .out =>
    match s.procs[i]? with
    | some p => match p.todo with
      | [] => .ok s
      | a :: rest => atom s i p setOut a rest
    | none => .ok s
  | .thread i .inp =>
    match s.procs[i]? with
    | some p => match p.inp with
      | [] => .ok s
      | a :: rest => atom s i p setInp a rest
    | none => .ok s
  | .close => closeStep s

/-- A schedule. A panic in any goroutine ends the process. -/
def runFrom (s : St) : List Act → Go St
  | [] => .ok s
  | a :: as => match step s a with
    | .ok s' => runFrom s' as
    | r => r

def run (as : List Act) : Go St := runFrom .init as

end Verif.HostClose
