import Verif.Model.Flux
/-
Model of the service `Uppercase` of the example host and guest: transport/wasmrs/cmd/host/main.go 84-102 and
transport/wasmrs/cmd/guest/main.go 95-113 (the same but for the printing). It is a stream that subscribes to another one.
-/
set_option autoImplicit false
namespace Verif.Uppercase
open Verif
open Verif.Mono (Err)
open Verif.Flux (Call)

/-- What happens to a subscription of the stream that `Uppercase` returns. -/
inductive Op (T : Type)
  /-- The source of the input calls `Next`; `inner` and `reqInner` are what the subscriber calls from inside OnNext and OnRequest. -/
  | next (v : T) (inner reqInner : List Call)
  | complete (inner : List Call)
  | error (e : Err) (inner : List Call)
  /-- The source of the input calls `OnSubscribe`. -/
  | onSubscribe (hasCancel : Bool)
  /-- The end of `in.Subscribe` (flux.go 91). -/
  | started
  /-- The end of the subscriber's own `Subscribe`; the source of that stream has no `OnSubscribe` of its own. -/
  | start (reqInner : List Call)
  /-- The subscriber calls its subscription. -/
  | call (c : Call)
  deriving Repr, DecidableEq

/-- The subscription to the input, the one to the result, and the two traces. -/
structure St (T : Type) where
  inp : Flux.State
  out : Flux.State
  inEvs : List (Flux.Ev T)
  outEvs : List (Flux.Ev T)
  deriving Repr, DecidableEq

/-- host/main.go 86-100: the callbacks installed on the input. -/
def installed : Flux.Installed := ⟨true, true, true, true, false, false⟩

def St.init {T : Type} (inst : Flux.Installed) (cbs inCbs : List Nat) : St T :=
  ⟨Flux.State.init installed inCbs, Flux.State.init inst cbs, [], []⟩

/-- What the subscription to the input is called with; OnRequest requests 2 (host/main.go 97-99). -/
def inOp {T : Type} : Op T → List (Flux.Op T)
  | .next v _ _ => [.next v [] [.request 2]]
  | .complete _ => [.complete []]
  | .error e _ => [.error e []]
  | .onSubscribe c => [.onSubscribe c]
  | .started => [.start [.request 2]]
  | .start _ => []
  | .call _ => []

/-- host/main.go 87-96: what the callbacks on the input call on the sink; `upper` is `strings.ToUpper`, and the lists are what the
subscriber calls from inside its callbacks. -/
def onEv {T : Type} (upper : T → T) (inner reqInner : List Call) : Flux.Ev T → List (Flux.Op T)
  | .next v => [.next (upper v) inner reqInner]
  | .complete => [.complete inner]
  | .error e => [.error e inner]
  | _ => []

/-- The calls made from inside the subscriber's callbacks. -/
def inners {T : Type} : Op T → List Call × List Call
  | .next _ a b => (a, b)
  | .complete a => (a, [])
  | .error _ a => (a, [])
  | _ => ([], [])

/-- What the subscriber itself calls. -/
def ownOp {T : Type} : Op T → List (Flux.Op T)
  | .start a => [.start a]
  | .call c => [.call c]
  | _ => []

def step {T : Type} (upper : T → T) (s : St T) (op : Op T) : St T :=
  let r := Flux.runFrom s.inp (inOp op)
  let o := Flux.runFrom s.out (r.2.flatMap (onEv upper (inners op).1 (inners op).2) ++ ownOp op)
  ⟨r.1, o.1, s.inEvs ++ r.2, s.outEvs ++ o.2⟩

def run {T : Type} (upper : T → T) (inst : Flux.Installed) (cbs inCbs : List Nat) (ops : List (Op T)) : St T :=
  ops.foldl (step upper) (St.init inst cbs inCbs)

end Verif.Uppercase
