import Verif.Model.Mono
/-
Model of `rx/flux/flux.go`, `rx/flux/flux_webassembly.go`, `rx/flux/slice.go`,
`rx/flux/response.go` and of the adapters in `transform/transform.go`. Callbacks become events of
a trace.
-/
set_option autoImplicit false
namespace Verif.Flux
open Verif
open Verif.Mono (Err Signal Transform)

/-- flux.go 17-24 `Subscribe[T]`: which callbacks are installed. -/
structure Installed where
  onNext : Bool
  onComplete : Bool
  onError : Bool
  onRequest : Bool
  fin : Bool
  noRequest : Bool
  deriving Repr, DecidableEq

/-- What the outside world sees: the subscriber's callbacks, the completion callbacks of the
stream, what the source is asked for, and the subscriber's own Cancel calls. -/
inductive Ev (T : Type)
  | next (v : T)
  | complete
  | error (e : Err)
  | fin (s : Signal)
  | onRequest
  | notified (cb : Nat) (s : Signal)
  | cancelled
  | upRequest (n : Int)
  | upCancel
  deriving Repr, DecidableEq

/-- flux.go 109-125 `subscriber` (and the callbacks of its stream, 76). One subscription of one
stream: a second subscription gets a fresh subscriber and shares only the callbacks; it is not
modelled. `n` is a Go int, taken without overflow. -/
structure State where
  closed : Bool
  n : Int
  err : Err
  hasRequest : Bool
  hasCancel : Bool
  signal : Signal
  inst : Installed
  callbacks : List Nat
  deriving Repr, DecidableEq

/-- flux.go 79-89: the fresh subscriber of `Subscribe`; `cbs` were registered before. -/
def State.init (inst : Installed) (cbs : List Nat) : State :=
  ⟨false, 0, none, false, false, .complete, inst, cbs⟩

/-- What a subscriber may call on its subscription. -/
inductive Call
  | request (k : Int)
  | cancel
  deriving Repr, DecidableEq

/-- flux.go 195-211 `Request`, `Cancel`. That the source serves a request is not part of the step
(on the host it happens in a goroutine, flux_host.go 20-26); for the synchronous build see
`Sync` below. -/
def call {T : Type} (m : State) : Call → State × List (Ev T)
  | .request k => ({ m with n := m.n + k }, if m.hasRequest then [.upRequest k] else [])
  | .cancel => ({ m with closed := true },
      .cancelled :: ((if m.hasCancel then [.upCancel] else []) ++
        (if m.inst.fin then [.fin .cancel] else [])))

def calls {T : Type} (m : State) : List Call → State × List (Ev T)
  | [] => (m, [])
  | c :: cs =>
    let r1 := call (T := T) m c
    let r2 := calls r1.1 cs
    (r2.1, r1.2 ++ r2.2)

/-- rx.go 8 `RequestMax`. -/
def requestMax : Int := 2147483647

/-- flux.go 184-193 `handleOnSubscribe`; `inner` is what the OnRequest callback calls. -/
def handleOnSubscribe {T : Type} (m : State) (inner : List Call) : State × List (Ev T) :=
  if m.inst.noRequest then (m, [])
  else if m.inst.onRequest then
    let r := calls (T := T) m inner
    (r.1, .onRequest :: r.2)
  else call m (.request requestMax)

/-- flux.go 132-134: calling OnNext. -/
def onNext {T : Type} (m : State) (v : T) (inner : List Call) : State × List (Ev T) :=
  if m.inst.onNext then
    let r := calls (T := T) m inner
    (r.1, .next v :: r.2)
  else (m, [])

/-- flux.go 127-139 `Next`; `inner` is what OnNext calls, `reqInner` what OnRequest calls. -/
def next {T : Type} (m : State) (v : T) (inner reqInner : List Call) : State × List (Ev T) :=
  if m.closed then (m, [])
  else
    let r := onNext { m with n := m.n - 1 } v inner
    if r.1.n = 0 then
      let r2 := handleOnSubscribe (T := T) r.1 reqInner
      (r2.1, r.2 ++ r2.2)
    else r

/-- flux.go 164-172 `finally`. Calls from inside Finally are not modelled. -/
def doFinally {T : Type} (m : State) (s : Signal) : State × List (Ev T) :=
  ({ m with signal := s },
    (if m.inst.fin then [.fin s] else []) ++ m.callbacks.map (.notified · s))

/-- flux.go 141-150 `Complete`; `inner` is what OnComplete calls. -/
def complete {T : Type} (m : State) (inner : List Call) : State × List (Ev T) :=
  if m.closed then (m, [])
  else
    let m := { m with closed := true }
    let r := if m.inst.onComplete then
        let r := calls (T := T) m inner
        (r.1, .complete :: r.2)
      else (m, [])
    let r2 := doFinally (T := T) r.1 .complete
    (r2.1, r.2 ++ r2.2)

/-- flux.go 152-162 `Error`; `inner` is what OnError calls. -/
def error {T : Type} (m : State) (e : Err) (inner : List Call) : State × List (Ev T) :=
  if m.closed then (m, [])
  else
    let m := { m with err := e, closed := true }
    let r := if m.inst.onError then
        let r := calls (T := T) m inner
        (r.1, .error e :: r.2)
      else (m, [])
    let r2 := doFinally (T := T) r.1 .error
    (r2.1, r.2 ++ r2.2)

/-- flux.go 101-107 `Notify`, after the subscription. -/
def notify {T : Type} (m : State) (cb : Nat) : State × List (Ev T) :=
  if m.closed then (m, [.notified cb m.signal])
  else ({ m with callbacks := m.callbacks ++ [cb] }, [])

inductive Op (T : Type)
  | next (v : T) (inner reqInner : List Call)
  | complete (inner : List Call)
  | error (e : Err) (inner : List Call)
  /-- flux.go 174-182 `OnSubscribe` of a source that provides Request, and perhaps Cancel. (A source
  without Request crashes with a nil call when elements were requested before; every source in
  the code base provides it.) -/
  | onSubscribe (hasCancel : Bool)
  /-- the end of `Subscribe` (flux.go 91) -/
  | start (reqInner : List Call)
  | call (c : Call)
  | notify (cb : Nat)
  deriving Repr, DecidableEq

def step {T : Type} (m : State) : Op T → State × List (Ev T)
  | .next v a b => next m v a b
  | .complete a => complete m a
  | .error e a => error m e a
  | .onSubscribe c => if m.closed then (m, []) else
      let m := { m with hasRequest := true, hasCancel := c }
      (m, if m.n > 0 then [.upRequest m.n] else [])
  | .start a => handleOnSubscribe m a
  | .call c => call m c
  | .notify cb => notify m cb

def runFrom {T : Type} (m : State) : List (Op T) → State × List (Ev T)
  | [] => (m, [])
  | op :: ops =>
    let r1 := step m op
    let r2 := runFrom r1.1 ops
    (r2.1, r1.2 ++ r2.2)

/-- State and trace after a history of one subscription. -/
def run {T : Type} (inst : Installed) (cbs : List Nat) (ops : List (Op T)) :
    State × List (Ev T) := runFrom (State.init inst cbs) ops

/-! ## Error (flux.go 40-66) -/

/-- flux.go 48-53. -/
def errorSubscribe {T : Type} (e : Err) (inst : Installed) : List (Ev T) :=
  if inst.onError then [.error e] else []

/-! ## Map (flux.go 217-262) -/

/-- flux.go 233-257: the callbacks the mapper installs on the source. -/
def mapInstalled (inst : Installed) : Installed := { inst with onNext := true }

/-- flux.go 234-250: what the mapper's subscriber sees for one event of the source. The `Close`
call of line 236 never happens: neither `*flux`, `mapper`, `errorFlow` nor `processor` has a
`Close` method. -/
def mapEv {S D : Type} (tx : Transform S D) (inst : Installed) : Ev S → List (Ev D)
  | .next v =>
    match tx v with
    | .error e => (if inst.onError then [.error (some e)] else []) ++
        (if inst.fin then [.fin .error] else [])
    | .ok d => if inst.onNext then [.next d] else []
  | .complete => [.complete]
  | .error e => [.error e]
  | .fin s => [.fin s]
  | .onRequest => [.onRequest]
  | .notified cb s => [.notified cb s]
  | .cancelled => [.cancelled]
  | .upRequest n => [.upRequest n]
  | .upCancel => [.upCancel]

/-! ## Slices, each request served before the next -/

/-- What a source calls on its sink. -/
inductive SinkCall (T : Type)
  | next (v : T)
  | complete
  deriving Repr, DecidableEq

/-- slice.go 7-16: the request function of `FromSlice`: (remaining values, calls). -/
def fromSliceLoop {T : Type} : Nat → List T → List T × List (SinkCall T)
  | 0, vs => (vs, [])
  | _ + 1, [] => ([], [])
  | i + 1, v :: vs =>
    let r := fromSliceLoop i vs
    (r.1, .next v :: r.2)

def fromSlice {T : Type} (vs : List T) (n : Int) : List T × List (SinkCall T) :=
  let r := fromSliceLoop n.toNat vs
  (r.1, r.2 ++ if r.1.length = 0 then [.complete] else [])

/-- response.go 3-18: the request function of `SliceResponse`. A negative `n` makes
`slice[num:]` panic. -/
def sliceResponse {T : Type} (vs : List T) (n : Int) : Go (List T × List (SinkCall T)) :=
  let num : Int := if n < vs.length then n else vs.length
  if num < 0 then .panic
  else
    let out := (vs.take num.toNat).map SinkCall.next
    let rest := vs.drop num.toNat
    .ok (rest, out ++ if rest.length = 0 then [.complete] else [])

/-! ## Slices on the single-threaded build

flux_webassembly.go 11-13: `doRequest` calls the source at once, so that a request made from
inside OnNext or OnRequest runs the source's request function re-entrantly. -/

namespace Sync

/-- The subscriber, the source's remaining values, and what the subscriber has seen. `asked`
counts the OnRequest calls. -/
structure St (T : Type) where
  closed : Bool
  n : Int
  values : List T
  asked : Nat
  trace : List (Ev T)
  deriving Repr, DecidableEq

/-- What the subscriber does: `inNext k` is what it requests from inside OnNext of its k-th element
(0: nothing), `inRequest k` what it requests from inside the k-th OnRequest. -/
structure Sub where
  inNext : Nat → Nat
  inRequest : Nat → Nat

/-- Elements seen so far. -/
def seen {T : Type} (t : List (Ev T)) : Nat :=
  (t.filter fun | .next _ => true | _ => false).length

/-- flux.go 141-150 with OnComplete installed. -/
def complete {T : Type} (s : St T) : St T :=
  if s.closed then s else { s with closed := true, trace := s.trace ++ [.complete] }

mutual
/-- slice.go 8-15 with `i` iterations to go. `none`: out of fuel. -/
def loop {T : Type} (sub : Sub) : Nat → Nat → St T → Option (St T)
  | 0, _, _ => none
  | _ + 1, 0, s => some (if s.values.length = 0 then complete s else s)
  | f + 1, i + 1, s =>
    match s.values with
    | [] => some (complete s)
    | v :: vs => do
      let s ← next sub f v { s with values := vs }
      loop sub f i s

/-- flux.go 127-139 `Next`, with OnNext installed. -/
def next {T : Type} (sub : Sub) : Nat → T → St T → Option (St T)
  | 0, _, _ => none
  | f + 1, v, s =>
    if s.closed then some s
    else
      let k := sub.inNext (seen s.trace)
      let s := { s with n := s.n - 1, trace := s.trace ++ [.next v] }
      (if k = 0 then some s else request sub f k s).bind fun s =>
      if s.n = 0 then handle sub f s else some s

/-- flux.go 184-193 with OnRequest installed. -/
def handle {T : Type} (sub : Sub) : Nat → St T → Option (St T)
  | 0, _ => none
  | f + 1, s => request sub f (sub.inRequest s.asked) { s with asked := s.asked + 1 }

/-- flux.go 195-200 `Request` and flux_webassembly.go 11-13. -/
def request {T : Type} (sub : Sub) : Nat → Nat → St T → Option (St T)
  | 0, _, _ => none
  | f + 1, k, s => loop sub f k { s with n := s.n + k }
end

/-- flux.go 79-93 `Subscribe` on `FromSlice(values)`. -/
def fromSlice {T : Type} (sub : Sub) (fuel : Nat) (values : List T) : Option (St T) :=
  handle sub fuel ⟨false, 0, values, 0, []⟩

mutual
/-- response.go 5-17: `slice` is shared by re-entrant calls (it is captured by the closure) and
only advanced after the loop; `num` and `i` are local. The loop indexes the current `slice`, so it
panics (`none` inside) if a re-entrant call has shortened it. -/
def respLoop {T : Type} (sub : Sub) : Nat → Nat → Nat → St T → Option (Go (St T))
  | 0, _, _, _ => none
  | f + 1, i, num, s =>
    if i < num then
      match s.values[i]? with
      | none => some .panic
      | some v =>
        match respNext sub f v s with
        | some (.ok s) => respLoop sub f (i + 1) num s
        | r => r
    else
      if s.values.length < num then some .panic
      else
        let s := { s with values := s.values.drop num }
        some (.ok (if s.values.length = 0 then complete s else s))

/-- flux.go 127-139. -/
def respNext {T : Type} (sub : Sub) : Nat → T → St T → Option (Go (St T))
  | 0, _, _ => none
  | f + 1, v, s =>
    if s.closed then some (.ok s)
    else
      let k := sub.inNext (seen s.trace)
      let s := { s with n := s.n - 1, trace := s.trace ++ [.next v] }
      let r := if k = 0 then some (.ok s) else respRequest sub f k s
      match r with
      | some (.ok s) => if s.n = 0 then respHandle sub f s else some (.ok s)
      | r => r

/-- flux.go 184-193. -/
def respHandle {T : Type} (sub : Sub) : Nat → St T → Option (Go (St T))
  | 0, _ => none
  | f + 1, s => respRequest sub f (sub.inRequest s.asked) { s with asked := s.asked + 1 }

/-- flux.go 195-200 and response.go 4-8. -/
def respRequest {T : Type} (sub : Sub) : Nat → Nat → St T → Option (Go (St T))
  | 0, _, _ => none
  | f + 1, k, s => respLoop sub f 0 (min s.values.length k) { s with n := s.n + k }
end

/-- `Subscribe` on a stream whose source answers with `SliceResponse(sink, values)`. -/
def sliceResponse {T : Type} (sub : Sub) (fuel : Nat) (values : List T) : Option (Go (St T)) :=
  respHandle sub fuel ⟨false, 0, values, 0, []⟩

end Sync

/-! ## Adapters (transform.go 500-540) -/

/-- transform.go 500-511 `FluxToVoid`: what the mono's sink is told for one event of the stream.
Success values are `()`. -/
def fluxToVoid {T : Type} : Ev T → List (Mono.Sig Unit)
  | .complete => [.success ()]
  | .error e => [.error e]
  | _ => []

/-- transform.go 513-524 `FluxToMono`. -/
def fluxToMono {T : Type} : Ev T → List (Mono.Sig T)
  | .next v => [.success v]
  | .error e => [.error e]
  | _ => []

/-- transform.go 526-538 `MonoToFlux`: what the stream's sink is told for one event of the mono; the
lists are what the stream's subscriber calls from inside its callbacks. -/
def monoToFlux {T : Type} (inNext inReq inComplete inError : List Call) :
    Mono.Ev T → List (Op T)
  | .success _ v => [.next v inNext inReq, .complete inComplete]
  | .error _ e => [.error e inError]
  | _ => []

/-- The callbacks the adapters install. -/
def fluxToVoidInstalled : Installed := ⟨false, true, true, false, false, false⟩
def fluxToMonoInstalled : Installed := ⟨true, false, true, false, false, false⟩
def monoToFluxInstalled : Mono.Installed := ⟨true, true, false⟩

end Verif.Flux
