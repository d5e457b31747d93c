import Verif.Model.Mesh
import Verif.Model.Wasm
/-
Model of the modules of a mesh running: transport/wasmrs/mesh/mesh.go 263-293 on top of Model/Wasm.lean. Every
module is a host instance and the guest it runs; end `a` of its `Sys` is the host, end `b` the guest. The mesh has
set its destinations as handlers of the hosts (Model/Mesh.lean). When the guest of one module makes a request for
such an import, its host calls the destination, which makes a call on the host of the other module, and passes on
to its own guest what the callbacks of that call are told. For a stream, the subscriber of the host that answers is
the one on the flux of the call: in the model these are two, one in each module, that are told the same; what the one
asks for, the other one asks for.

What is left out:
- loading modules while others run: all handlers are set before the first request;
- channels: requests of this kind for an import of the mesh are never run here;
- closing instances, and the limits named in Model/Wasm.lean.
-/
set_option autoImplicit false
namespace Verif.MeshSystem
open Verif Frames Invoke Handler
open Verif.System (Sys Move)

/-- A request that was passed on (mesh.go 263-277): the one with this id, from the guest of module `caller`, whose
host has stream `answer` for it; it became the call with id `id` on the host of module `target`, which has stream
`call` for it, if there is an answer. -/
structure Link where
  caller : Nat
  request : UInt32
  answer : Nat
  target : Nat
  id : UInt32
  call : Option Nat
  deriving Repr, DecidableEq

/-- The modules, by number, and the calls passed on between them. -/
structure MSys (H : Type) where
  inst : Nat → Sys H
  links : List Link

section
variable {H : Type}

def MSys.set (s : MSys H) (i : Nat) (x : Sys H) : MSys H := { s with inst := fun k => if k = i then x else s.inst k }

/-- Something happens in module `i`. -/
def stepIn (s : MSys H) (i : Nat) (m : Move) : Go (MSys H) :=
  match Wasm.stepSys .host (s.inst i) m with
  | .ok x => .ok (s.set i x)
  | .err e => .err e
  | .panic => .panic

/-- instance.go 419-436: the two callbacks the host installs in the mono it was given by the destination. -/
def told : Mono.Ev Pay → Option (Mono.Sig Pay)
  | .success _ p => some (.success p)
  | .error _ e => some (.error e)
  | _ => none

/-- instance.go 488-512: the three callbacks the host installs in the flux it was given by the destination. -/
def toldFlux : Flux.Ev Pay → Option SrcOp
  | .next p => some (.next p)
  | .complete => some .complete
  | .error e => some (.error e)
  | _ => none

/-- instance.go 513-515: what the host does with the subscription of that flux. -/
def asked (l : Link) : Flux.Ev Pay → Option (Nat × Act)
  | .upRequest n => l.call.map fun j => (l.target, .fluxCall j (.request n))
  | _ => none

/-- What is passed on when something was observed in module `k`: to which module, and what happens there. The callbacks
of a call of the mesh tell the stream that answers the request; what this stream asks its source for is asked for on
the flux of the call. -/
def passedOn (links : List Link) (k : Nat) (evs : List (Ev H)) : List (Nat × Act) :=
  evs.flatMap fun
    | .mono j e =>
      match told e with
      | none => []
      | some sig => (links.filter fun l => l.target == k && l.call == some j).map fun l => (l.caller, .answer l.answer sig)
    | .flux j e =>
      match toldFlux e with
      | none => []
      | some op => (links.filter fun l => l.target == k && l.call == some j).map fun l => (l.caller, .out l.answer op)
    | .src j e => (links.filter fun l => l.caller == k && l.answer == j).filterMap fun l => asked l e
    | _ => []

/-- The callbacks run in the goroutine of the module that got the answer. In the model of the caller's host they are
the source of the mono or flux that answers the request: a mono hands on the first thing it is told, a flux everything
up to its end. None of this calls callbacks again. -/
def passOn (s : MSys H) : List (Nat × Act) → Go (MSys H)
  | [] => .ok s
  | (c, a) :: q => do
    let s' ← stepIn s c (.atA a)
    passOn s' q

/-- Something happens in module `i`, and what the callbacks of calls of the mesh are told is passed on. -/
def act (s : MSys H) (i : Nat) (m : Move) : Go (MSys H) := do
  let s' ← stepIn s i m
  passOn s' (passedOn s.links i ((s'.inst i).trA.drop (s.inst i).trA.length))

/-- instance.go 402-410, 445-453: the handler a request names, if that is a destination of the mesh. -/
def destOf (dest : H → Option Mesh.Dest) (reg : Registry H) (k : Kind) (md : Bytes) : Option Mesh.Dest :=
  if md.length < 8 then none
  else match getU32 md with
    | .ok op => (getHandler reg k op).bind dest
    | _ => none

/-- The same for a goroutine of a host. -/
def taskDest (dest : H → Option Mesh.Dest) (a : St H) (t : Nat) : Option Mesh.Dest :=
  match a.tasks[t]? with
  | some (.request k _ _ md _) => destOf dest a.reg k md
  | _ => none

/-- The callbacks call nothing on their subscription. -/
def quiet (r : React) : Bool := r.next.isEmpty && r.req.isEmpty && r.fin.isEmpty

/-- What a host does by itself, without the mesh: the handlers of the mesh run in `forward`, nobody but the mesh has
the monos and fluxes it made, and its callbacks call nothing on their subscription. (`Act.input` does nothing to a
stream that answers, and neither does anything to a stream there is not yet.) -/
def allowed (dest : H → Option Mesh.Dest) (s : MSys H) (i : Nat) : Move → Bool
  | .atA (.run t _) => (taskDest dest (s.inst i).a t).isNone
  | .atA (.answer j _) => !(s.links.any fun l => l.caller == i && l.answer == j)
  | .atA (.out j _) | .atA (.input j _) =>
    j < (s.inst i).a.objs.length && !(s.links.any fun l => l.caller == i && l.answer == j)
  | .atA (.subscribeMono j _) => !(s.links.any fun l => l.target == i && l.call == some j)
  | .atA (.subscribeFlux j _ _) => !(s.links.any fun l => l.target == i && l.call == some j)
  | .atA (.fluxCall j _) => !(s.links.any fun l => l.target == i && l.call == some j)
  | .toA r => quiet r || !(((s.inst i).ba.head?.bind fun f => getStream (s.inst i).a f.streamID).any fun j =>
      s.links.any fun l => l.target == i && l.call == some j)
  | _ => true

/-- mesh.go 263-285 with instance.go 397-515: the host of module `i` runs request number `t`, whose handler is a
destination. For request/response and streams what the destination returns is subscribed to at once; for streams the
goroutine of the host goes on with what the request asks for (`Task.firstRequest`). None of this calls a callback of a
subscriber. -/
def forward (dest : H → Option Mesh.Dest) (s : MSys H) (i t : Nat) : Go (MSys H) :=
  match (s.inst i).a.tasks[t]?, taskDest dest (s.inst i).a t with
  | some (.request k id data md _), some d =>
    match k with
    | .rr => do
      let md' ← Mesh.putIndex d.index (some md)
      let s1 ← stepIn s i (.atA (.run t ⟨.created, .created, false⟩))
      let h := (s1.inst d.inst).a
      let s2 ← stepIn s1 d.inst (.atA (.call .rr ⟨data, md'.getD []⟩ .created))
      let s3 ← stepIn s2 d.inst (.atA (.subscribeMono h.objs.length answerInst))
      .ok { s3 with links := s3.links ++
        [⟨i, id, (s.inst i).a.objs.length, d.inst, (nextID h.client h.streamIDs).2, some h.objs.length⟩] }
    | .fnf => do
      let md' ← Mesh.putIndex d.index (some md)
      let s1 ← stepIn s i (.atA (.run t ⟨.created, .created, false⟩))
      let h := (s1.inst d.inst).a
      let s2 ← stepIn s1 d.inst (.atA (.call .fnf ⟨data, md'.getD []⟩ .created))
      .ok { s2 with links := s2.links ++
        [⟨i, id, (s.inst i).a.objs.length, d.inst, (nextID h.client h.streamIDs).2, none⟩] }
    | .rs => do
      let md' ← Mesh.putIndex d.index (some md)
      let s1 ← stepIn s i (.atA (.run t ⟨.created, .created, false⟩))
      let h := (s1.inst d.inst).a
      let s2 ← stepIn s1 d.inst (.atA (.call .rs ⟨data, md'.getD []⟩ .created))
      let s3 ← stepIn s2 i (.atA (.run ((s2.inst i).a.tasks.length - 1) ⟨.created, .created, false⟩))
      let s4 ← stepIn s3 i (.atA (.out (s.inst i).a.objs.length (.onSubscribe true)))
      let s5 ← stepIn s4 d.inst (.atA (.subscribeFlux h.objs.length replyInst []))
      .ok { s5 with links := s5.links ++
        [⟨i, id, (s.inst i).a.objs.length, d.inst, (nextID h.client h.streamIDs).2, some h.objs.length⟩] }
    | .rc => .ok s
  | _, _ => .ok s

/-- What happens next: something in a module, or a request is passed on. -/
inductive MMove
  | other (i : Nat) (m : Move)
  | forward (i t : Nat)

def step (dest : H → Option Mesh.Dest) (s : MSys H) : MMove → Go (MSys H)
  | .other i m => if allowed dest s i m then act s i m else .ok s
  | .forward i t => forward dest s i t

def runFrom (dest : H → Option Mesh.Dest) (s : MSys H) : List MMove → Go (MSys H)
  | [] => .ok s
  | m :: ms => do
    let s' ← step dest s m
    runFrom dest s' ms

/-- Module `i` has the handlers `host i` on the host and `guest i` on the guest. -/
def MSys.init (host guest : Nat → Registry H) : MSys H :=
  ⟨fun i => .init (host i) (guest i) (Wasm.Side.client .host), []⟩

/-- A whole run; a panic in one module ends it. -/
def run (dest : H → Option Mesh.Dest) (host guest : Nat → Registry H) (ms : List MMove) : Go (MSys H) :=
  runFrom dest (.init host guest) ms

end
end Verif.MeshSystem
