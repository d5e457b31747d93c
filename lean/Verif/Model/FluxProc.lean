import Verif.Model.Flux
/-
Model of `rx/flux/processor.go`: a stream and its sink in one. Callbacks become events of a trace.
-/
set_option autoImplicit false
namespace Verif.Flux
open Verif
open Verif.Mono (Err)

/-- processor.go 8-12. `subs` are the subscribers of the stream, in the order of the `Subscribe` calls; `sink` is the
last of them (each `Subscribe` calls the source function of lines 16-22, which overwrites it). `stored` is `sub`: whether it has Cancel.
`Notify` of the processor is not modelled. -/
structure Proc where
  subs : List State
  stored : Option Bool
  deriving Repr, DecidableEq

/-- processor.go 14-25 `NewProcessor`. -/
def Proc.init : Proc := ⟨[], none⟩

/-- What is called on the processor, and what its subscribers call on their subscriptions. The lists are what is called from
inside callbacks, as in `Op`. -/
inductive POp (T : Type)
  | subscribe (inst : Installed) (reqInner : List Call)
  | next (v : T) (inner reqInner : List Call)
  | complete (inner : List Call)
  | error (e : Err) (inner : List Call)
  | onSubscribe (hasCancel : Bool)
  | call (i : Nat) (c : Call)
  deriving Repr, DecidableEq

/-- Subscriber `i` makes a step; the events are marked with its number. -/
def Proc.stepAt {T : Type} (p : Proc) (i : Nat) (op : Op T) : Proc × List (Nat × Ev T) :=
  match p.subs[i]? with
  | none => (p, [])
  | some m =>
    let r := step m op
    ({ p with subs := p.subs.set i r.1 }, r.2.map fun e => (i, e))

/-- processor.go 27-43: to the sink, if there is one. -/
def Proc.push {T : Type} (p : Proc) (op : Op T) : Proc × List (Nat × Ev T) :=
  if p.subs.length = 0 then (p, []) else p.stepAt (p.subs.length - 1) op

def Proc.step {T : Type} (p : Proc) : POp T → Proc × List (Nat × Ev T)
  /- flux.go 78-93 with the source function of processor.go 16-22 -/
  | .subscribe inst reqInner =>
    let i := p.subs.length
    let p1 : Proc := ⟨p.subs ++ [State.init inst []], none⟩
    let r1 := match p.stored with
      | some c => p1.stepAt i (.onSubscribe c)
      | none => (p1, [])
    let r2 := r1.1.stepAt i (.start reqInner)
    (r2.1, r1.2 ++ r2.2)
  | .next v a b => p.push (.next v a b)
  | .complete a => p.push (.complete a)
  | .error e a => p.push (.error e a)
  /- processor.go 45-51 -/
  | .onSubscribe c => if p.subs.length = 0 then ({ p with stored := some c }, []) else p.push (.onSubscribe c)
  | .call i c => p.stepAt i (.call c)

def Proc.runFrom {T : Type} (p : Proc) : List (POp T) → Proc × List (Nat × Ev T)
  | [] => (p, [])
  | op :: ops =>
    let r1 := p.step op
    let r2 := Proc.runFrom r1.1 ops
    (r2.1, r1.2 ++ r2.2)

/-- Everything that was called on a processor, and what it led to. -/
def Proc.run {T : Type} (ops : List (POp T)) : Proc × List (Nat × Ev T) := Proc.init.runFrom ops

end Verif.Flux
