import Verif.Model.Flow
import Verif.Model.Flux
/-
Model of the result side of `rx/flow/flow.go`: what the steps of a flow tell the mono or stream
made from it.
-/
set_option autoImplicit false
namespace Verif.FlowResult
open Verif
open Verif.Mono (Err)

/-- What a step function may call on its flow to report a result: `Next`, `Complete`, `Success`
and `Error` (flow.go 38-71). -/
inductive Say (T : Type)
  | next (v : T)
  | complete
  | success (v : T)
  | error (e : Err)
  deriving Repr, DecidableEq

/-- flow.go 73-85: which of the two sinks of the flow is set. A flow of which both results were
made is not modelled. -/
inductive Sink
  | mono
  | flux
  deriving Repr, DecidableEq

/-- A step function: what it reports, then what it returns, and the error it returns if it fails
(`return f.Error(err)` is the report `error err` followed by failing with `err`). -/
structure RStep (T : Type) where
  says : List (Say T)
  out : Flow.Step
  err : Err
  deriving Repr, DecidableEq

/-- flow.go 39-41, 46-48, 55-57: `Next` and `Complete` panic unless the flow makes a stream,
`Success` unless it makes a mono; `Error` (63-71) takes whichever sink is set. -/
def allowed {T : Type} : Sink → Say T → Bool
  | .mono, .next _ => false
  | .mono, .complete => false
  | .mono, .success _ => true
  | .mono, .error _ => true
  | .flux, .next _ => true
  | .flux, .complete => true
  | .flux, .success _ => false
  | .flux, .error _ => true

/-- flow.go 38-71: the reports of one step that reach the sink, and whether the step panicked. -/
def tell {T : Type} (k : Sink) : List (Say T) → List (Say T) × Bool
  | [] => ([], false)
  | s :: r =>
    if allowed k s then ((s :: (tell k r).1), (tell k r).2) else ([], true)

/-- flow.go 87-115: what the sink is told in the course of a run of the flow. Running a step
reports what it reports (94); a failure is passed on to the sink (95-102). `e` is the error
returned by the step run last. A panic in a step ends the run. -/
def told {T : Type} (k : Sink) (steps : List (RStep T)) : Err → List Flow.Ev →
    List (Say T) × Bool
  | _, [] => ([], false)
  | e, .ran i :: t =>
    match steps[i]? with
    | none => told k steps e t
    | some st =>
      if (tell k st.says).2 then tell k st.says
      else ((tell k st.says).1 ++ (told k steps st.err t).1, (told k steps st.err t).2)
  | e, .failed :: t => (.error e :: (told k steps e t).1, (told k steps e t).2)

/-- flow.go 58, 64-65, 97: the calls on the mono's sink. -/
def monoSig {T : Type} : Say T → Option (Mono.Sig T)
  | .success v => some (.success v)
  | .error e => some (.error e)
  | _ => none

/-- flow.go 42, 49, 66-67, 99: the calls on the stream's sink. -/
def fluxOp {T : Type} : Say T → Option (Flux.Op T)
  | .next v => some (.next v [] [])
  | .complete => some (.complete [])
  | .error e => some (.error e [])
  | .success _ => none

/-- flow.go 73-78 `Mono` and a subscription to it: the callbacks the subscriber sees, and whether a
step panicked. No outcome is given if the flow itself never comes back. -/
def viaMono {T : Type} (fuel : Nat) (inst : Mono.Installed) (steps : List (RStep T))
    (order : List Nat) : Option (Go (List (Mono.Ev T) × Bool)) :=
  match Flow.run fuel (steps.map (·.out)) order with
  | none => none
  | some .panic => some .panic
  | some (.err e) => some (.err e)
  | some (.ok s) =>
    let r := told .mono steps none s.trace
    some (.ok ((Mono.run (.subscribe inst ::
      (r.1.filterMap monoSig).map (.signal 0 · [] []))).2, r.2))

/-- flow.go 80-85 `Flux` and a subscription to it. `k` is the number of reports made before
`Subscribe` gets to its end (flux.go 90-91). The subscriber's callbacks do not call back. -/
def viaFlux {T : Type} (fuel : Nat) (inst : Flux.Installed) (k : Nat) (steps : List (RStep T))
    (order : List Nat) : Option (Go (List (Flux.Ev T) × Bool)) :=
  match Flow.run fuel (steps.map (·.out)) order with
  | none => none
  | some .panic => some .panic
  | some (.err e) => some (.err e)
  | some (.ok s) =>
    let r := told .flux steps none s.trace
    let ops := r.1.filterMap fluxOp
    some (.ok ((Flux.run inst [] (ops.take k ++ .start [] :: ops.drop k)).2, r.2))

end Verif.FlowResult
