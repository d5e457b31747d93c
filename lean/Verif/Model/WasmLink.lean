import Verif.Base.Go
/-
Model of the two queues between a wasm host and its guest: transport/wasmrs/host/instance.go 67-104
(NewInstance: `sendCh` and `recvCh` hold 100 entries each, two goroutines are started), 151-165 (SendFrame),
172-189 (sendLoop), 200-213 (hostSend), 215-219 (recvLoop).

`sendLoop` takes a frame and calls the guest with it, and goes on when the guest returns. All that the guest
sends meanwhile goes through `hostSend`, in the same goroutine, into `recvCh`; if that is full, the call waits.
`recvLoop` takes a frame and runs `recvOne`, and goes on when that returns. The callbacks of subscribers run
inside it (instance.go 332-391), so what they send goes into `sendCh` in the same goroutine; if that is full,
`recvOne` waits. Other goroutines call SendFrame as well (handlers, subscribers asking for more, the application).

Left out: the frames themselves (encoding: C01-C06, C51), closing the instance (Model/HostClose.lean), and that a
goroutine may wait for others before it sends.
-/
set_option autoImplicit false
namespace Verif.WasmLink

/-- instance.go 80, 81. -/
def cap : Nat := 100

section
variable {α β : Type}

/-- `α` are the frames of the host, `β` those of the guest. -/
structure Link (α β : Type) where
  /-- `sendCh` -/
  sendQ : List α
  /-- `recvCh` -/
  recvQ : List β
  /-- `sendLoop`: at the receive (none), or in a call of the guest, with what the guest has left to send. -/
  sender : Option (List β)
  /-- `recvLoop`: at the receive (none), or in `recvOne`, with what its callbacks have left to send. -/
  receiver : Option (List α)
  /-- The frames with which SendFrame has returned so far. -/
  accepted : List α
  /-- The frames the guest was called with so far. -/
  toGuest : List α
  /-- What the guest's code sends, in all calls so far. -/
  said : List β
  /-- The frames `recvOne` was called with so far. -/
  handled : List β
  deriving DecidableEq

/-- Who runs next. `sender out`: `sendLoop`; if that calls the guest, the guest sends `out` before it returns.
`receiver out`: `recvLoop`; if that calls `recvOne`, its callbacks send `out`. `other f`: a goroutine in SendFrame(f). -/
inductive Ev (α β : Type) where
  | sender (out : List β)
  | receiver (out : List α)
  | other (f : α)
  deriving DecidableEq

/-- instance.go 83-88. -/
def Link.init : Link α β := ⟨[], [], none, none, [], [], [], []⟩

/-- instance.go 163 `i.sendCh <- f`: waits while the channel is full (nothing happens). -/
def push (s : Link α β) (f : α) (done : Link α β → Link α β) : Link α β :=
  if s.sendQ.length < cap then done { s with sendQ := s.sendQ ++ [f], accepted := s.accepted ++ [f] } else s

/-- One step; a goroutine that waits stays where it is. -/
def step (s : Link α β) : Ev α β → Link α β
  | .other f => push s f fun s => s
  | .sender out =>
    match s.sender with
    | none =>
      match s.sendQ with
      | [] => s
      | f :: q => { s with sendQ := q, toGuest := s.toGuest ++ [f], sender := some out, said := s.said ++ out }
    | some [] => { s with sender := none }
    | some (g :: gs) =>
      if s.recvQ.length < cap then { s with recvQ := s.recvQ ++ [g], sender := some gs } else s
  | .receiver out =>
    match s.receiver with
    | none =>
      match s.recvQ with
      | [] => s
      | g :: q => { s with recvQ := q, handled := s.handled ++ [g], receiver := some out }
    | some [] => { s with receiver := none }
    | some (f :: fs) => push s f fun s => { s with receiver := some fs }

def run (s : Link α β) : List (Ev α β) → Link α β
  | [] => s
  | e :: es => run (step s e) es

end
end Verif.WasmLink
