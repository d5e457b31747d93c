import Verif.Model.Flux
/-
Model of blocking calls: `rx/mono/mono_host.go` and `rx/flux/flux_host.go`, and `Block` of `Just` and
`Error` (mono.go 48-51, 80-82) and `flux.Error` (flux.go 59-61). The blocked goroutine is a fold over the
callbacks it installed.
-/
set_option autoImplicit false
namespace Verif.Block
open Verif
open Verif.Mono (Err Transform)

/-- The variables of a blocked caller: `cur` are the named results its callbacks assign, `result` what it
returns (set when `done` is closed), `crashed`: a callback closed `done` a second time. -/
structure Waiter (R : Type) where
  cur : R
  result : Option R
  crashed : Bool
  deriving Repr, DecidableEq

/-- mono_host.go 20, 24, 43, 47 and flux_host.go 53: `close(done)`. Closing a closed channel panics. The
caller's `return` reads the named results as they are when `done` is closed (a later assignment races with
it; the only callbacks that assign also close `done` again and crash). -/
def finish {R : Type} (w : Waiter R) : Waiter R :=
  if w.result.isSome then { w with crashed := true } else { w with result := some w.cur }

/-- What a `Block` call has come to. -/
inductive Out (R : Type)
  | waiting
  | returned (r : R)
  | crashed
  deriving Repr, DecidableEq

def Waiter.out {R : Type} (w : Waiter R) : Out R :=
  if w.crashed then .crashed else
  match w.result with
  | none => .waiting
  | some r => .returned r

/-! ## Monos -/

/-- mono_host.go 18-25 and 37-44: the callbacks of `Block`. -/
def monoFeed {T : Type} (w : Waiter (Option T × Err)) : Mono.Ev T → Waiter (Option T × Err)
  | .success _ v => finish { w with cur := (some v, w.cur.2) }
  | .error _ e => finish { w with cur := (w.cur.1, e) }
  | _ => w

/-- mono_host.go 15-30: the caller waits for the callbacks of its subscription. -/
def monoWait {T : Type} (t : List (Mono.Ev T)) : Out (Option T × Err) :=
  (t.foldl monoFeed ⟨(none, none), none, false⟩).out

/-- The callbacks of subscription `k` in a trace. -/
def mine {T : Type} (k : Nat) (t : List (Mono.Ev T)) : List (Mono.Ev T) :=
  t.filter fun
    | .success j _ => j = k
    | .error j _ => j = k
    | .fin j _ => j = k
    | .notified .. => false

/-- mono_host.go 18-25: `OnSuccess` and `OnError`, no `Finally`. -/
def monoInstalled : Mono.Installed := ⟨true, true, false⟩

/-- mono_host.go 10-31 `(*mono).Block` after the history `before`; `between` happens after the test of line
11 and before the goroutine of line 16 subscribes, `after` afterwards. -/
def mono {T : Type} (before between after : List (Mono.Op T)) : Out (Option T × Err) :=
  let wait :=
    let k := (Mono.run (before ++ between)).1.subs.length
    monoWait (mine k (Mono.run (before ++ between ++ .subscribe monoInstalled :: after)).2)
  match (Mono.run before).1.subs.getLast? with
  | some s => if s.closed then .returned (s.value, s.err) else wait
  | none => wait

/-- mono_host.go 33-50 `(*mapper).Block`, over a mono made with `Create`. -/
def monoMapper {S D : Type} (tx : Transform S D) (before after : List (Mono.Op S)) :
    Out (Option D × Err) :=
  let k := (Mono.run before).1.subs.length
  monoWait ((mine k (Mono.run (before ++ .subscribe (Mono.mapInstalled monoInstalled) :: after)).2).flatMap
    (Mono.mapEv tx monoInstalled))

/-- mono.go 80-82 and 48-51: `Block` of `Just` and `Error`. -/
def monoJust {T : Type} (v : T) : Out (Option T × Err) := .returned (some v, none)
def monoError {T : Type} (e : Err) : Out (Option T × Err) := .returned (none, e)

/-- mono_host.go 33-50 over `Just` and `Error`. -/
def monoMapJust {S D : Type} (tx : Transform S D) (v : S) : Out (Option D × Err) :=
  monoWait ((Mono.justSubscribe v (Mono.mapInstalled monoInstalled)).flatMap (Mono.mapEv tx monoInstalled))
def monoMapError {S D : Type} (tx : Transform S D) (e : Err) : Out (Option D × Err) :=
  monoWait ((Mono.errorSubscribe e (Mono.mapInstalled monoInstalled)).flatMap (Mono.mapEv tx monoInstalled))

/-- mono_host.go 10-31 on a processor (processor.go 8-13 embeds the mono). -/
def proc {T : Type} (before between after : List (Mono.POp T)) : Out (Option T × Err) :=
  let p := (Mono.Proc.run Mono.Proc.init (before ++ between)).1
  let wait := monoWait (mine p.mono.subs.length (Mono.Proc.run Mono.Proc.init
    (before ++ between ++ .subscribe monoInstalled :: after)).2)
  match (Mono.Proc.run Mono.Proc.init before).1.mono.subs.getLast? with
  | some s => if s.closed then .returned (s.value, s.err) else wait
  | none => wait

/-! ## Streams -/

/-- flux_host.go 43-54: what `Block` does in the callbacks it replaces. -/
def fluxFeed {T : Type} (w : Waiter Err) : Flux.Ev T → Waiter Err
  | .error e => { w with cur := e }
  | .fin _ => finish w
  | _ => w

/-- flux_host.go 57-58. -/
def fluxWait {T : Type} (t : List (Flux.Ev T)) : Out Err :=
  (t.foldl fluxFeed ⟨none, none, false⟩).out

/-- flux_host.go 43-54: `OnError` and `Finally` are always installed. -/
def fluxInstalled (inst : Flux.Installed) : Flux.Installed := { inst with onError := true, fin := true }

/-- flux_host.go 40-59 `Block` on a stream made with `Create`; `cbs` are completion callbacks registered
before, `ops` what happens from the subscription on. -/
def fluxBlock {T : Type} (inst : Flux.Installed) (cbs : List Nat) (ops : List (Flux.Op T)) : Out Err :=
  fluxWait (Flux.run (fluxInstalled inst) cbs ops).2

/-- flux_host.go 28-34 `(*flux).Block`. `last` is the stream's subscriber (nil before the first
subscription; line 29 dereferences it). -/
def fluxMethod {T : Type} (last : Option Flux.State) (inst : Flux.Installed) (cbs : List Nat)
    (ops : List (Flux.Op T)) : Out Err :=
  match last with
  | none => .crashed
  | some s => if s.closed then .returned s.err else fluxBlock inst cbs ops

/-- flux_host.go 36-38 `mapper.Block`, over a stream made with `Create`. -/
def fluxMapper {S D : Type} (tx : Transform S D) (inst : Flux.Installed) (cbs : List Nat)
    (ops : List (Flux.Op S)) : Out Err :=
  fluxWait ((Flux.run (Flux.mapInstalled (fluxInstalled inst)) cbs ops).2.flatMap
    (Flux.mapEv tx (fluxInstalled inst)))

/-- flux.go 59-61: `Block` of `flux.Error`. -/
def fluxError (e : Err) : Out Err := .returned e

/-- flux_host.go 36-38 over `flux.Error`. -/
def fluxMapError {S D : Type} (tx : Transform S D) (inst : Flux.Installed) (e : Err) : Out Err :=
  fluxWait ((Flux.errorSubscribe (T := S) e (Flux.mapInstalled (fluxInstalled inst))).flatMap
    (Flux.mapEv tx (fluxInstalled inst)))

end Verif.Block
