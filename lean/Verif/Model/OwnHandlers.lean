import Verif.Model.Handler
import Verif.Model.WasmRecv
/-
The handlers set on the handler of a connection itself (handler/handler.go 36-39, 603-657), beside the exported operations that
Model/Handler.lean has.
-/
set_option autoImplicit false
namespace Verif.OwnHandlers
open Verif
open Verif.Invoke (Kind Registry)
open Verif.WasmRecv (Slots setHandler getHandler)

section
variable {H : Type}

/-- handler.go 36-39: one table for each kind of request, beside the other fields. -/
structure Own (H : Type) where
  st : Handler.St H
  rr : Slots H
  fnf : Slots H
  rs : Slots H
  rc : Slots H

/-- handler.go 61-72 `New`: the tables are nil. -/
def Own.init (reg : Registry H) (client : Bool) : Own H := ⟨.init reg client, [], [], [], []⟩

/-- handler.go 603-608, 617-622, 631-636, 645-650: the same text as instance.go 591-596 (`setHandler`). -/
def Own.set (o : Own H) (k : Kind) (i : UInt32) (h : H) : Go (Own H) :=
  match k with
  | .rr => do let l ← setHandler o.rr i h; .ok { o with rr := l }
  | .fnf => do let l ← setHandler o.fnf i h; .ok { o with fnf := l }
  | .rs => do let l ← setHandler o.rs i h; .ok { o with rs := l }
  | .rc => do let l ← setHandler o.rc i h; .ok { o with rc := l }

/-- handler.go 610-615, 624-629, 638-643, 652-657. Nothing calls these functions. -/
def Own.get (o : Own H) (k : Kind) (i : UInt32) : Option H :=
  match k with
  | .rr => getHandler o.rr i
  | .fnf => getHandler o.fnf i
  | .rs => getHandler o.rs i
  | .rc => getHandler o.rc i

inductive Act (H : Type)
  /-- the application sets a handler -/
  | set (k : Kind) (i : UInt32) (h : H)
  /-- anything else -/
  | act (a : Handler.Act)

/-- handler.go 242-406: requests are served from the exported operations (`invoke.Get…Handler`, 248, 285, 307, 355). -/
def step (o : Own H) : Act H → Go (Own H × List (Handler.Ev H))
  | .set k i h => do let o' ← o.set k i h; .ok (o', [])
  | .act a => do
    let r ← Handler.settle o.st (Handler.step o.st a)
    .ok ({ o with st := r.1 }, r.2)

def runFrom (o : Own H) : List (Act H) → Go (Own H × List (Handler.Ev H))
  | [] => .ok (o, [])
  | a :: as => do
    let r ← step o a
    let r' ← runFrom r.1 as
    .ok (r'.1, r.2 ++ r'.2)

def run (reg : Registry H) (client : Bool) (as : List (Act H)) : Go (Own H × List (Handler.Ev H)) :=
  runFrom (.init reg client) as

end
end Verif.OwnHandlers
