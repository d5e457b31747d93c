import Verif.Base.Go
/-
Model of `rx/flow/flow.go`.
-/
set_option autoImplicit false
namespace Verif.Flow
open Verif

/-- What one call of a step function (flow.go 22 `StepFn`) does: it fails, calls `End`, or returns a
group of awaitables; of each awaitable we know whether it has already finished when `next` calls
`Notify` on it (then `Notify` calls back at once; e.g. `mono.Just`, or any mono that completes
during `Async`). A step does the same each time it is run. -/
inductive Step
  | fail
  | endFlow
  | group (finished : List Bool)
  deriving Repr, DecidableEq

inductive Ev
  /-- step number `i` was run -/
  | ran (i : Nat)
  /-- the failure was delivered to the flow's sink (flow.go 96-101) -/
  | failed
  deriving Repr, DecidableEq

/-- flow.go 11-20. `idx` is the number of steps dropped so far; `waiting` are the awaitables (by
their place in their group) that hold a `check` callback and have not finished. -/
structure St where
  steps : List Step
  idx : Nat
  ended : Bool
  completed : Nat
  size : Nat
  waiting : List Nat
  trace : List Ev
  deriving Repr, DecidableEq

mutual
/-- flow.go 87-115 `next`; `none` is out of fuel. Awaitables finishing in other goroutines while
the loop of lines 109-112 is still registering callbacks are not modelled. -/
def next : Nat → St → Option (Go St)
  | 0, _ => none
  | f + 1, s =>
    match s.steps with
    | [] => some (.ok s)
    | step :: _ =>
      let s := { s with completed := 0, trace := s.trace ++ [Ev.ran s.idx] }
      match step with
      | .fail => some (.ok { s with trace := s.trace ++ [Ev.failed] })
      | .endFlow => some (.ok { s with ended := true })
      | .group g =>
        match register f g 0 { s with size := g.length } with
        | some (.ok s) =>
          match s.steps with
          | [] => some .panic
          | _ :: rest => some (.ok { s with steps := rest, idx := s.idx + 1 })
        | r => r

/-- flow.go 109-112: the loop over the group, from awaitable `j` on. -/
def register : Nat → List Bool → Nat → St → Option (Go St)
  | 0, _, _, _ => none
  | _ + 1, [], _, s => some (.ok s)
  | f + 1, a :: g, j, s =>
    if a then
      match check f s with
      | some (.ok s) => register f g (j + 1) s
      | r => r
    else register f g (j + 1) { s with waiting := s.waiting ++ [j] }

/-- flow.go 117-122 `check`. -/
def check : Nat → St → Option (Go St)
  | 0, _ => none
  | f + 1, s =>
    let s := { s with completed := s.completed + 1 }
    if s.completed ≥ s.size then next f s else some (.ok s)
end

/-- Awaitable `j` finishes and calls its callback, if it holds one. -/
def finish (fuel : Nat) (j : Nat) (s : St) : Option (Go St) :=
  if j ∈ s.waiting then check fuel { s with waiting := s.waiting.erase j } else some (.ok s)

def finishAll (fuel : Nat) : List Nat → St → Option (Go St)
  | [], s => some (.ok s)
  | j :: js, s =>
    match finish fuel j s with
    | some (.ok s) => finishAll fuel js s
    | r => r

/-- flow.go 73-85: subscribing to `Mono()` or `Flux()` calls `next`; then awaitables finish in the
given order. -/
def run (fuel : Nat) (steps : List Step) (order : List Nat) : Option (Go St) :=
  match next fuel ⟨steps, 0, false, 0, 0, [], []⟩ with
  | some (.ok s) => finishAll fuel order s
  | r => r

end Verif.Flow
