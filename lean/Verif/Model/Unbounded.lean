import Verif.Base.Go
/-
Model of `internal/buffer/unbounded.go`.
-/
set_option autoImplicit false
namespace Verif.Unbounded
open Verif

variable {T : Type}

/-- unbounded.go 38-43: the channel `c` has capacity 1, so it holds at most one value;
`closed` says that it was closed. -/
structure St (T : Type) where
  chan : Option T
  closed : Bool
  backlog : List T
  disposed : Bool

/-- unbounded.go 46-48 `NewUnbounded`. -/
def init : St T := ⟨none, false, [], false⟩

/-- `select { case b.c <- t: ... default: ... }`: `some s` if sent, `none` for the default
branch; sending on a closed channel panics (also inside `select`). -/
def trySend (s : St T) (t : T) : Go (Option (St T)) :=
  if s.closed then .panic
  else match s.chan with
    | none => .ok (some { s with chan := some t })
    | some _ => .ok none

/-- unbounded.go 51-72 `Put`. -/
def put (s : St T) (t : T) : Go (St T × Bool) :=
  if s.disposed then .ok (s, false)
  else if s.backlog.isEmpty then do
    match ← trySend s t with
    | some s' => .ok (s', true)
    | none => .ok ({ s with backlog := s.backlog ++ [t] }, true)
  else .ok ({ s with backlog := s.backlog ++ [t] }, true)

/-- unbounded.go 115-121 `close`: closing twice panics, which is recovered. -/
def close (s : St T) : St T := { s with closed := true }

/-- unbounded.go 77-94 `Load`. -/
def load (s : St T) : Go (St T × Int) :=
  match s.backlog with
  | b :: bs => do
    match ← trySend s b with
    | some s' => .ok ({ s' with backlog := bs }, 1)
    | none => .ok (s, 0)
  | [] => if s.disposed then .ok (close s, -1) else .ok (s, 0)

/-- unbounded.go 106-113 `Dispose`. -/
def dispose (s : St T) : St T :=
  let s := { s with disposed := true }
  if s.backlog.isEmpty then close s else s

/-- What a receive from `Get()` (101-103) does at this moment: a value, "closed", or it has to
wait (and nothing happens). -/
inductive Recv (T : Type) where
  | val (t : T)
  | closed
  | wait

/-- Receive on the channel. -/
def recv (s : St T) : St T × Recv T :=
  match s.chan with
  | some t => ({ s with chan := none }, .val t)
  | none => if s.closed then (s, .closed) else (s, .wait)

/-- Operations; `Put`, `Load`, `Dispose` run under the mutex and a channel receive is atomic, so
every concurrent execution is a sequence of these. -/
inductive Op (T : Type) where
  | put (t : T)
  | load
  | dispose
  | recv

/-- Results of operations. -/
inductive Out (T : Type) where
  | put (ok : Bool)
  | load (n : Int)
  | dispose
  | recv (r : Recv T)

/-- One operation. -/
def step (s : St T) : Op T → Go (St T × Out T)
  | .put t => do let (s', b) ← put s t; .ok (s', .put b)
  | .load => do let (s', n) ← load s; .ok (s', .load n)
  | .dispose => .ok (dispose s, .dispose)
  | .recv => .ok ((recv s).1, .recv (recv s).2)

/-- A sequence of operations: final state and the history of operations with their results. -/
def run (s : St T) : List (Op T) → Go (St T × List (Op T × Out T))
  | [] => .ok (s, [])
  | op :: ops => do
    let (s', o) ← step s op
    let (s'', h) ← run s' ops
    .ok (s'', (op, o) :: h)

end Verif.Unbounded
