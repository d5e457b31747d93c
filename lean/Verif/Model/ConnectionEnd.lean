import Verif.Model.Handler
/-
The end of a TCP connection, as its handler sees it: `Start` (transport/rsocket/transport.go 178-232) returns when `conn.Read` fails or
reports the end (221-227), the context is done (216-217) or a frame could not be handled (218-219). The deferred functions close the
connection (179-181) and wait until the frames that were read have been handled (190-194).
-/
set_option autoImplicit false
namespace Verif.ConnectionEnd
open Verif
open Verif.Invoke (Registry)

section
variable {H : Type}

/-- The handler of a connection, and whether `Start` has returned. -/
structure Conn (H : Type) where
  st : Handler.St H
  over : Bool

/-- handler.go 61-72. -/
def Conn.init (reg : Registry H) (client : Bool) : Conn H := ⟨.init reg client, false⟩

inductive Act
  /-- anything the handler or the application does -/
  | act (a : Handler.Act)
  /-- `Start` returns -/
  | over

/-- One step. `Start` hands frames to the handler (transport.go 164, 204) and nothing else does, so that none comes once it has
returned. It tells the handler nothing: `DuplexHandler` (32-35) has no function for that, and `Handler.Close` (handler.go 78-80) does nothing
and is not called. Sending fails from then on (111-114, 118), but no sender of a frame looks at the error (proxy/mono.go 70; proxy/flux.go 83,
88-106, 111, 119; caller.go 78; handler.go 262-271, 323-337, 371-377, 386-400): what is `sent` is then lost. -/
def step (c : Conn H) : Act → Go (Conn H × List (Handler.Ev H))
  | .over => .ok ({ c with over := true }, [])
  | .act a => do
    match a, c.over with
    | .frame _ _, true => .ok (c, [])
    | a, _ =>
      let r ← Handler.settle c.st (Handler.step c.st a)
      .ok ({ c with st := r.1 }, r.2)

def runFrom (c : Conn H) : List Act → Go (Conn H × List (Handler.Ev H))
  | [] => .ok (c, [])
  | a :: as => do
    let r ← step c a
    let r' ← runFrom r.1 as
    .ok (r'.1, r.2 ++ r'.2)

def run (reg : Registry H) (client : Bool) (as : List Act) : Go (Conn H × List (Handler.Ev H)) :=
  runFrom (.init reg client) as

end
end Verif.ConnectionEnd
