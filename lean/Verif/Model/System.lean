import Verif.Model.Handler
/-
Model of a whole connection over `transport/rsocket`: two ends (`handler/handler.go`), one of them
the client (init.go 24-26), the other the server (tcp_transport.go 93), each with its own registry, and
the two directions of the wire between them. The frame sender of each end is the transport's `Send`
(tcp_transport.go 95-97, init.go 37-39), so what one end sends is, in this order, what the other
end's `loopReadBuffer` (transport.go 157-175) hands to `HandleFrame`. A wire is therefore a queue of
frames. What is left out of it:
- encoding, framing and decoding give the frames back (properties C01-C06, C49), and the buffer
  between the reading goroutines loses none (C13, C14);
- frames are sent one at a time and received frames are not overwritten before they are handled.
  The code does not guarantee either (C50, C54): this is the wire it would have to provide;
- the setup frame sent when connecting, and keep-alive;
- the transport stops reading after HandleFrame returned an error (transport.go 218-219): here the
  wire may stop at any time, or go on.
-/
set_option autoImplicit false
namespace Verif.System
open Verif Frames Invoke Handler

/-- The two ends `a` and `b`; `ab` are the frames sent by `a` and not yet handed to `b`, `ba` those of
the other direction. What each end did and what was observed there is recorded in `histA`, `trA`,
`histB`, `trB`. -/
structure Sys (H : Type) where
  a : St H
  b : St H
  ab : List AnyFrame
  ba : List AnyFrame
  histA : List Act
  histB : List Act
  trA : List (Ev H)
  trB : List (Ev H)

/-- What happens next: something at one of the ends (a goroutine moves, the application does
something), or an end is handed the next frame of its wire; `r` is how the application reacts to it. -/
inductive Move
  | atA (a : Act)
  | atB (a : Act)
  | toA (r : React)
  | toB (r : React)

section
variable {H : Type}

/-- The frames among the events. -/
def wire (e : List (Ev H)) : List AnyFrame := e.filterMap fun | .sent _ f => some f | _ => none

def Sys.init (regA regB : Registry H) (clientA : Bool) : Sys H :=
  ⟨.init regA clientA, .init regB (!clientA), [], [], [], [], [], []⟩

/-- A step of end `a`; what it sends goes on the wire to `b`. -/
def moveA (s : Sys H) (act : Act) : Go (Sys H) :=
  match settle s.a (Handler.step s.a act) with
  | .ok (a, e) => .ok { s with a := a, ab := s.ab ++ wire e, histA := s.histA ++ [act], trA := s.trA ++ e }
  | .err m => .err m
  | .panic => .panic

/-- The same for end `b`. -/
def moveB (s : Sys H) (act : Act) : Go (Sys H) :=
  match settle s.b (Handler.step s.b act) with
  | .ok (b, e) => .ok { s with b := b, ba := s.ba ++ wire e, histB := s.histB ++ [act], trB := s.trB ++ e }
  | .err m => .err m
  | .panic => .panic

/-- Does the act hand over a frame? Frames only come from the wire. -/
def isFrame : Act → Bool
  | .frame .. => true
  | _ => false

/-- transport.go 157-175: frames are handed over in the order in which they came in. -/
def step (s : Sys H) : Move → Go (Sys H)
  | .atA act => if isFrame act then .ok s else moveA s act
  | .atB act => if isFrame act then .ok s else moveB s act
  | .toA r =>
    match s.ba with
    | [] => .ok s
    | f :: fs => moveA { s with ba := fs } (.frame f r)
  | .toB r =>
    match s.ab with
    | [] => .ok s
    | f :: fs => moveB { s with ab := fs } (.frame f r)

def runFrom (s : Sys H) : List Move → Go (Sys H)
  | [] => .ok s
  | m :: ms => match step s m with
    | .ok s' => runFrom s' ms
    | .err e => .err e
    | .panic => .panic

/-- A whole run of the connection; a panic at one end ends it. -/
def run (regA regB : Registry H) (clientA : Bool) (ms : List Move) : Go (Sys H) :=
  runFrom (.init regA regB clientA) ms

end
end Verif.System
