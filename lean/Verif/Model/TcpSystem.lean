import Verif.Model.System
import Verif.Model.Scanner
import Verif.Model.TcpConn
/-
Model of a whole connection over `transport/rsocket`, down to the bytes on the wire. The ends are those of
Model/System.lean; what one sends is written as bytes (tcp_conn.go `Write`), TCP carries the bytes in pieces of any
size, the other end's `Start` reads frame after frame from them (decoder.go, tcp_conn.go `Read`) and puts them in the
queue from which `loopReadBuffer` takes them. What is left out:
- a frame is written as a whole (transport.go `Send` has no lock, see C50) and flushed at once, as `Send` is always called with
  `flush` (init.go 38, tcp_transport.go 96), so that the buffer of the writer is empty between frames;
- a frame that was read keeps its contents until it is handled (not so in the code, see C54);
- the queue is a list (C13, C14: the unbounded buffer is a FIFO that loses nothing);
- the setup frame (C53), and the end of the connection: the transport stops after an error of HandleFrame, here it may
  stop at any time, or go on.
-/
set_option autoImplicit false
namespace Verif.TcpSystem
open Verif Frames Invoke Handler

/-- One direction of the connection: the bytes written and not yet arrived, the pieces that have arrived and were not
read, the scanner of the receiver (decoder.go 63-70), the frames read and not yet handled (transport.go 187), and whether `Read`
has returned an error, after which nothing is read any more (transport.go 222-227). -/
structure Pipe where
  out : Bytes
  segs : List Bytes
  scn : Scanner.Scn
  queue : List AnyFrame
  ended : Bool

def Pipe.init : Pipe := ⟨[], [], Scanner.new, [], false⟩

/-- TCP carries the next `n` bytes, or as many as there are. -/
def Pipe.carry (p : Pipe) (n : Nat) : Pipe :=
  if p.out.take n = [] then p else { p with out := p.out.drop n, segs := p.segs ++ [p.out.take n] }

/-- The pieces among the events. -/
def pieces (es : List Scanner.Ev) : List Bytes := es.filterMap fun | .data b => some b | _ => none

/-- transport.go 221-230, tcp_conn.go 39-98: one `Read`, and `Put` if it returns a frame. A `Read` for which not enough bytes have arrived is
taken not to have begun: it is repeated from the same state when there are more. The number of rounds given
is always enough. -/
def Pipe.read (p : Pipe) : Go Pipe :=
  if p.ended then .ok p
  else match Scanner.read (p.segs.flatten.length + 2) p.scn (p.segs.map .data) with
    | none => .ok p
    | some (_, _, .inr .blocked) => .ok p
    | some (_, _, .inr _) => .ok { p with ended := true }
    | some (s, es, .inl v) =>
      match TcpConn.parse (s.look v) with
      | .ok f => .ok { p with segs := pieces es, scn := s, queue := p.queue ++ [f] }
      | .err _ => .ok { p with ended := true }
      | .panic => .panic

/-- transport.go 100-121 `Send` of these frames, one after the other. -/
def Pipe.send (p : Pipe) : List AnyFrame → Go Pipe
  | [] => .ok p
  | f :: fs => do
    let b ← TcpConn.pack f
    Pipe.send { p with out := p.out ++ b } fs

/-- The two ends and the two directions; what each end did and what was observed there. -/
structure Sys (H : Type) where
  a : St H
  b : St H
  ab : Pipe
  ba : Pipe
  histA : List Act
  histB : List Act
  trA : List (Ev H)
  trB : List (Ev H)

/-- What happens next: something at one of the ends, TCP carries bytes, an end reads a frame, or handles the next one it
has read (`r` is how the application reacts). -/
inductive Move
  | atA (a : Act)
  | atB (a : Act)
  | carryAB (n : Nat)
  | carryBA (n : Nat)
  | readA
  | readB
  | toA (r : React)
  | toB (r : React)

section
variable {H : Type}

def Sys.init (regA regB : Registry H) (clientA : Bool) : Sys H :=
  ⟨.init regA clientA, .init regB (!clientA), .init, .init, [], [], [], []⟩

/-- A step of end `a`; what it sends is written to its connection. -/
def moveA (s : Sys H) (act : Act) : Go (Sys H) :=
  match settle s.a (Handler.step s.a act) with
  | .ok (a, e) => do
    let ab ← s.ab.send (System.wire e)
    .ok { s with a := a, ab := ab, histA := s.histA ++ [act], trA := s.trA ++ e }
  | .err m => .err m
  | .panic => .panic

/-- The same for end `b`. -/
def moveB (s : Sys H) (act : Act) : Go (Sys H) :=
  match settle s.b (Handler.step s.b act) with
  | .ok (b, e) => do
    let ba ← s.ba.send (System.wire e)
    .ok { s with b := b, ba := ba, histB := s.histB ++ [act], trB := s.trB ++ e }
  | .err m => .err m
  | .panic => .panic

def step (s : Sys H) : Move → Go (Sys H)
  | .atA act => if System.isFrame act then .ok s else moveA s act
  | .atB act => if System.isFrame act then .ok s else moveB s act
  | .carryAB n => .ok { s with ab := s.ab.carry n }
  | .carryBA n => .ok { s with ba := s.ba.carry n }
  | .readB => do
    let ab ← s.ab.read
    .ok { s with ab := ab }
  | .readA => do
    let ba ← s.ba.read
    .ok { s with ba := ba }
  | .toA r =>
    match s.ba.queue with
    | [] => .ok s
    | f :: fs => moveA { s with ba := { s.ba with queue := fs } } (.frame f r)
  | .toB r =>
    match s.ab.queue with
    | [] => .ok s
    | f :: fs => moveB { s with ab := { s.ab with queue := fs } } (.frame f r)

def runFrom (s : Sys H) : List Move → Go (Sys H)
  | [] => .ok s
  | m :: ms => do
    let s ← step s m
    runFrom s ms

/-- A whole run of the connection; a panic at one end ends it. -/
def run (regA regB : Registry H) (clientA : Bool) (ms : List Move) : Go (Sys H) :=
  runFrom (.init regA regB clientA) ms

end
end Verif.TcpSystem
