import Verif.Base.Go
/-
Model of the TCP server: transport/rsocket/tcp_transport.go 16-145 (`Accept`, `Close`, `Listen`,
`putTransport`, `removeTransport`).

A step is one critical section (the functions that hold `mu`) or one blocking call of the accept
loop; steps of different goroutines interleave freely.

Simplifications:
* `Listen` is called once. The assignment of `t.l` (55) is one step although it is made without the lock.
* What goes over a connection is not part of this model (Model/Transport.lean); a connection is open or
  closed on the server's side. Closing it never fails.
* The callback registered with `Accept` is the user's; what it can do with the server is to call
  `onClose`, here `remove`.
-/
set_option autoImplicit false
namespace Verif.TcpServer
open Verif

/-- What the server did with a connection it accepted. -/
inductive Fate
  /-- between `Accept` (82) and `putTransport` (99) -/
  | pending
  /-- `putTransport` returned true: `go tp.Start(ctx)` (100) -/
  | served
  /-- `putTransport` returned false (107-109) -/
  | refused
  deriving Repr, DecidableEq

structure Conn where
  opened : Bool
  fate : Fate
  deriving Repr, DecidableEq

/-- `t.l` -/
inductive Lis
  | none
  | opened
  | closed
  deriving Repr, DecidableEq

/-- Where `Listen` (54-112) is. -/
inductive Loop
  /-- not called -/
  | idle
  /-- in `t.l.Accept()` (82) -/
  | accepting
  /-- before `putTransport` (99) with connection `i` -/
  | got (i : Nat)
  /-- before `t.Close()` (108) -/
  | refusing
  /-- before the deferred `t.Close()` (63) -/
  | deferred
  /-- returned; `true`: with a nil error -/
  | returned (ok : Bool)
  deriving Repr, DecidableEq

/-- 16-24. `m` is the set of transports, `none` the nil map; connections are numbered in the order of
their arrival, and `conns` is all of them. -/
structure Srv where
  done : Bool
  lis : Lis
  m : Option (List Nat)
  conns : List Conn
  loop : Loop
  ctx : Bool
  deriving Repr, DecidableEq

/-- 137-145 NewTCPServerTransport -/
def Srv.init : Srv := ⟨false, .none, some [], [], .idle, false⟩

/-- transport.go 133-138: close connection `i`. -/
def closeConn (cs : List Conn) (i : Nat) : List Conn := cs.modify i (fun c => { c with opened := false })

/-- 32-52 Close -/
def close (s : Srv) : Srv :=
  if s.done then s
  else if s.lis = .none then { s with done := true }
  else { s with done := true, lis := .closed, conns := (s.m.getD []).foldl closeConn s.conns, m := none }

/-- 120-134 putTransport -/
def put (s : Srv) (i : Nat) : Srv × Bool :=
  if s.done then (s, false)
  else match s.m with
    | none => (s, false)
    | some m => ({ s with m := some (i :: m) }, true)

def setFate (cs : List Conn) (i : Nat) (f : Fate) : List Conn := cs.modify i (fun c => { c with fate := f })

inductive Ev
  /-- `Listen` is called and the listener factory succeeds or fails (55-60). -/
  | listen (ok : Bool)
  /-- a peer connects: `t.l.Accept()` returns a connection (82) -/
  | connect
  /-- `t.l.Accept()` fails with `io.EOF` (83-86) -/
  | eof
  /-- `t.l.Accept()` fails with another error than the ones of 83: tried again (87-90) -/
  | acceptErr
  /-- the accept loop runs -/
  | loop
  /-- the user calls `Close` -/
  | close
  /-- the context given to `Listen` is cancelled -/
  | cancel
  /-- the goroutine of 69-77 sees the cancelled context -/
  | daemon
  /-- the peer hangs up or an error occurs: `tp.Start` (100) ends and closes the connection -/
  | connEnd (i : Nat)
  /-- the acceptor calls `onClose` (103-105, 114-118) -/
  | remove (i : Nat)
  deriving Repr, DecidableEq

/-- One step of `Listen`; blocked in `Accept` while the listener is open. -/
def loopStep (s : Srv) : Srv :=
  match s.loop with
  | .idle => s
  /- `Accept` on a closed listener: "use of closed network connection" (misc.go 15) -/
  | .accepting => if s.lis = .closed then { s with loop := .deferred } else s
  | .got i =>
    if (put s i).2 then { (put s i).1 with conns := setFate s.conns i .served, loop := .accepting }
    else { (put s i).1 with conns := setFate s.conns i .refused, loop := .refusing }
  | .refusing => { close s with loop := .accepting }
  | .deferred => { close s with loop := .returned true }
  | .returned _ => s

/-- Events that cannot happen leave the state alone. -/
def step (s : Srv) : Ev → Srv
  | .listen ok =>
    if s.loop = .idle then
      if ok then { s with lis := .opened, loop := .accepting } else { s with loop := .returned false }
    else s
  | .connect =>
    if s.loop = .accepting ∧ s.lis = .opened then
      { s with conns := s.conns ++ [⟨true, .pending⟩], loop := .got s.conns.length }
    else s
  | .eof => if s.loop = .accepting then { s with loop := .deferred } else s
  | .acceptErr => s
  | .loop => loopStep s
  | .close => close s
  | .cancel => { s with ctx := true }
  | .daemon => if s.ctx ∧ s.lis ≠ .none then close s else s
  | .connEnd i =>
    match s.conns[i]? with
    | some c => if c.fate = .served then { s with conns := closeConn s.conns i } else s
    | none => s
  | .remove i => { s with m := s.m.map (·.filter (· ≠ i)) }

def runFrom (s : Srv) : List Ev → Srv
  | [] => s
  | e :: es => runFrom (step s e) es

def run (es : List Ev) : Srv := runFrom .init es

end Verif.TcpServer
