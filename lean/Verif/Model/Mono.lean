import Verif.Base.Go
/-
Model of `rx/mono/mono.go` and `rx/mono/processor.go`. Callbacks become events of a trace.
-/
set_option autoImplicit false
namespace Verif.Mono
open Verif

/-- A Go `error` value; `none` is nil. -/
abbrev Err := Option String

/-- rx.go 14-21 `SignalType`; the zero value is `complete`. -/
inductive Signal
  | complete | cancel | error
  deriving Repr, DecidableEq

/-- Which of the callbacks of `Subscribe[T]` (mono.go 21-26) are installed. `OnRequest` is stored
but never called (mono.go 153), so it is left out. -/
structure Installed where
  onSuccess : Bool
  onError : Bool
  fin : Bool
  deriving Repr, DecidableEq

/-- What the outside world sees. `sub` numbers the `Subscribe` calls on the mono from 0. -/
inductive Ev (T : Type)
  | success (sub : Nat) (v : T)
  | error (sub : Nat) (e : Err)
  | fin (sub : Nat) (s : Signal)
  | notified (cb : Nat) (s : Signal)
  deriving Repr, DecidableEq

/-- mono.go 144-155 `subscriber`. `value = none` is the zero value of `T`. -/
structure Sub (T : Type) where
  closed : Bool
  value : Option T
  err : Err
  signal : Signal
  inst : Installed
  deriving Repr, DecidableEq

/-- mono.go 101-105; `m.subscriber` is the last element of `subs` (each `Subscribe` overwrites
it); older subscribers stay reachable for the source. -/
structure State (T : Type) where
  subs : List (Sub T)
  callbacks : List Nat
  deriving Repr, DecidableEq

def State.init {T : Type} : State T := ⟨[], []⟩

/-- mono.go 107-118 `Subscribe`. Calling the source is not part of the step: what the source
does with the sink, then or later, are the following `signal` steps. -/
def subscribe {T : Type} (m : State T) (inst : Installed) : State T :=
  { m with subs := m.subs ++ [⟨false, none, none, .complete, inst⟩] }

/-- mono.go 123-135 `Notify`; `cb` names the callback. -/
def notify {T : Type} (m : State T) (cb : Nat) : State T × List (Ev T) :=
  match m.subs.getLast? with
  | some s => if s.closed then (m, [.notified cb s.signal])
              else ({ m with callbacks := m.callbacks ++ [cb] }, [])
  | none => ({ m with callbacks := m.callbacks ++ [cb] }, [])

/-- Several `Notify` calls in a row. -/
def notifyAll {T : Type} (m : State T) : List Nat → State T × List (Ev T)
  | [] => (m, [])
  | cb :: cbs =>
    let (m1, e1) := notify m cb
    let (m2, e2) := notifyAll m1 cbs
    (m2, e1 ++ e2)

/-- What a source tells its sink. -/
inductive Sig (T : Type)
  | success (v : T)
  | error (e : Err)
  | cancel
  deriving Repr, DecidableEq

/-- mono.go 181-189 `finally` of subscriber `i`; `inner` are `Notify` calls made from inside the
Finally callback. -/
def doFinally {T : Type} (m : State T) (i : Nat) (s : Sub T) (sig : Signal) (inner : List Nat) :
    State T × List (Ev T) :=
  let m := { m with subs := m.subs.set i { s with signal := sig } }
  let (m, e1) := if s.inst.fin then
      let (m, e) := notifyAll m inner
      (m, .fin i sig :: e)
    else (m, [])
  (m, e1 ++ m.callbacks.map (.notified · sig))

/-- mono.go 157-197 `Success`, `Error`, `Cancel` of subscriber `i`. `inner` are `Notify` calls
made from inside the OnSuccess / OnError callback, `innerFin` those made from inside Finally.
Other re-entrant calls are not modelled, except that signals from inside a callback are no-ops
(the subscriber is closed by then). -/
def signal {T : Type} (m : State T) (i : Nat) (sig : Sig T) (inner innerFin : List Nat) :
    State T × List (Ev T) :=
  match m.subs[i]? with
  | none => (m, [])
  | some s =>
    if s.closed then (m, [])
    else match sig with
      | .success v =>
        let s := { s with value := some v, closed := true }
        let m := { m with subs := m.subs.set i s }
        let (m, e1) := if s.inst.onSuccess then
            let (m, e) := notifyAll m inner
            (m, .success i v :: e)
          else (m, [])
        let (m, e2) := doFinally m i s .complete innerFin
        (m, e1 ++ e2)
      | .error err =>
        let s := { s with err := err, closed := true }
        let m := { m with subs := m.subs.set i s }
        let (m, e1) := if s.inst.onError then
            let (m, e) := notifyAll m inner
            (m, .error i err :: e)
          else (m, [])
        let (m, e2) := doFinally m i s .error innerFin
        (m, e1 ++ e2)
      | .cancel =>
        let s := { s with closed := true }
        let m := { m with subs := m.subs.set i s }
        doFinally m i s .cancel innerFin

/-- mono.go 137-142 `Get` (nil subscriber: nil dereference). -/
def getValue {T : Type} (m : State T) : Go (Option T × Err) :=
  match m.subs.getLast? with
  | none => .panic
  | some s => if s.closed then .ok (s.value, s.err) else .panic

inductive Op (T : Type)
  | subscribe (inst : Installed)
  | signal (sub : Nat) (sig : Sig T) (inner innerFin : List Nat)
  | notify (cb : Nat)
  deriving Repr, DecidableEq

def step {T : Type} (m : State T) : Op T → State T × List (Ev T)
  | .subscribe i => (subscribe m i, [])
  | .signal i s a b => signal m i s a b
  | .notify cb => notify m cb

/-- State and trace after a history. -/
def runFrom {T : Type} (m : State T) : List (Op T) → State T × List (Ev T)
  | [] => (m, [])
  | op :: ops =>
    let (m1, e1) := step m op
    let (m2, e2) := runFrom m1 ops
    (m2, e1 ++ e2)

def run {T : Type} (ops : List (Op T)) : State T × List (Ev T) := runFrom State.init ops

/-! ## Just and Error (mono.go 33-93) -/

/-- mono.go 41-46: `Subscribe` on `Error(err)`. -/
def errorSubscribe {T : Type} (e : Err) (inst : Installed) : List (Ev T) :=
  if inst.onError then [.error 0 e] else []

/-- mono.go 73-78: `Subscribe` on `Just(v)`. -/
def justSubscribe {T : Type} (v : T) (inst : Installed) : List (Ev T) :=
  if inst.onSuccess then [.success 0 v] else []

/-- mono.go 61-63, 91-93 `Notify`. -/
def errorNotify {T : Type} (cb : Nat) : List (Ev T) := [.notified cb .error]
def justNotify {T : Type} (cb : Nat) : List (Ev T) := [.notified cb .complete]

/-- mono.go 53-56, 84-86 `Get`. -/
def errorGet {T : Type} (e : Err) : Go (Option T × Err) := .ok (none, e)
def justGet {T : Type} (v : T) : Go (Option T × Err) := .ok (some v, none)

/-! ## Map (mono.go 199-247) -/

/-- A transform: value, or (non-nil) error. -/
abbrev Transform (S D : Type) := S → Except String D

/-- mono.go 211-230: the callbacks the mapper installs on the source, given those of its
subscriber. -/
def mapInstalled (inst : Installed) : Installed := { inst with onSuccess := true }

/-- mono.go 213-227: what the mapper's subscriber sees for one callback of the source. -/
def mapEv {S D : Type} (tx : Transform S D) (inst : Installed) : Ev S → List (Ev D)
  | .success i v =>
    match tx v with
    | .error e => if inst.onError then [.error i (some e)] else []
    | .ok d => if inst.onSuccess then [.success i d] else []
  | .error i e => [.error i e]
  | .fin i s => [.fin i s]
  | .notified cb s => [.notified cb s]

/-- mono.go 240-247 `Get` of a mapper. `zero` is the zero value of `S`. -/
def mapGet {S D : Type} (tx : Transform S D) (zero : S) (g : Go (Option S × Err)) :
    Go (Option D × Err) := do
  let (v, err) ← g
  if err ≠ none then .ok (none, err)
  else match tx (v.getD zero) with
    | .ok d => .ok (some d, none)
    | .error e => .ok (none, some e)

/-! ## Processor (processor.go) -/

/-- processor.go 8-13: the sink is the subscriber with that number. -/
structure Proc (T : Type) where
  mono : State T
  sink : Option Nat
  success : Option T
  err : Err
  deriving Repr, DecidableEq

def Proc.init {T : Type} : Proc T := ⟨State.init, none, none, none⟩

inductive POp (T : Type)
  | subscribe (inst : Installed)
  | success (v : T)
  | error (e : Err)
  deriving Repr, DecidableEq

/-- processor.go 15-43 together with mono.go 107-118 (`Subscribe` calls the source function of
lines 17-24). -/
def Proc.step {T : Type} (p : Proc T) : POp T → Proc T × List (Ev T)
  | .subscribe inst =>
    let m := subscribe p.mono inst
    let i := p.mono.subs.length
    let p := { p with mono := m, sink := some i }
    match p.success with
    | some v =>
      let (m, e) := signal p.mono i (.success v) [] []
      ({ p with mono := m }, e)
    | none =>
      if p.err ≠ none then
        let (m, e) := signal p.mono i (.error p.err) [] []
        ({ p with mono := m }, e)
      else (p, [])
  | .success v =>
    match p.sink with
    | some i =>
      let (m, e) := signal p.mono i (.success v) [] []
      ({ p with mono := m }, e)
    | none => ({ p with success := some v }, [])
  | .error err =>
    match p.sink with
    | some i =>
      let (m, e) := signal p.mono i (.error err) [] []
      ({ p with mono := m }, e)
    | none => ({ p with err := err }, [])

def Proc.run {T : Type} (p : Proc T) : List (POp T) → Proc T × List (Ev T)
  | [] => (p, [])
  | op :: ops =>
    let (p1, e1) := p.step op
    let (p2, e2) := Proc.run p1 ops
    (p2, e1 ++ e2)

end Verif.Mono
