import Verif.Model.Handler
/-
Receiving frames over wasm: transport/wasmrs/host/instance.go 221-395 (recvOne), 397-589 (handlers),
591-669 (handler tables, checkMetadata, checkFollows) and transport/wasmrs/guest/guest.go 70-259
(GuestSend, the body of its loop), 261-455. The two are copies of each other with a few differences,
which the model keeps as a parameter. How the frames get into the two memories is in
Model/WasmBuffers.lean; closing the host instance in Model/HostClose.lean.
-/
set_option autoImplicit false
namespace Verif.WasmRecv
open Verif Frames Invoke
open Verif.Handler (Pay strOf kindOfType)

inductive Side
  | host
  | guest
  deriving Repr, DecidableEq

/-- A registered stream, as far as receiving frames is concerned. -/
inductive Stm
  /-- `requestStream` (instance.go 677-713, guest.go 539-575): whether `sub` and `sink` are set -/
  | responder (sub sink : Bool)
  /-- proxy `streamMono` (it has no DoRequest method) or `streamFlux` (whether its input is subscribed,
  DoRequest panics before) -/
  | mono
  | flux (input : Bool)
  deriving Repr, DecidableEq

/-- instance.go 58-63, guest.go 37-42 -/
structure Frag where
  frameType : UInt8
  initialN : UInt32
  metadata : Bytes
  data : Bytes
  deriving Repr, DecidableEq

/-- instance.go 33-50, guest.go 20-35; streams are pointers (positions in `objs`). The map of fragments is
a list of entries, the newest first. -/
structure St where
  guestStreams : Lookup.State Nat
  hostStreams : Lookup.State Nat
  objs : List Stm
  frags : List (UInt32 × Frag)

def St.init : St := ⟨.init, .init, [], []⟩

/-- What can be observed. -/
inductive Ev (H : Type)
  /-- a handler is called -/
  | invoked (k : Kind) (h : H) (id : UInt32) (p : Pay) (n : UInt32)
  /-- an error frame is sent -/
  | error (id : UInt32) (msg : String)
  /-- calls on a registered stream -/
  | onNext (j : Nat) (p : Pay)
  | onComplete (j : Nat)
  | onError (j : Nat) (msg : String)
  | doRequest (j : Nat) (n : Nat)
  deriving DecidableEq

/-- instance.go 127-149, guest.go 457-479 -/
def getStream (s : St) (id : UInt32) : Option Nat :=
  if id &&& 1 = 1 then Lookup.get s.guestStreams id else Lookup.get s.hostStreams id

def register (s : St) (id : UInt32) (j : Nat) : St :=
  if id &&& 1 = 1 then { s with guestStreams := Lookup.add s.guestStreams id j }
  else { s with hostStreams := Lookup.add s.hostStreams id j }

def remove (s : St) (id : UInt32) : St :=
  if id &&& 1 = 1 then { s with guestStreams := Lookup.remove s.guestStreams id }
  else { s with hostStreams := Lookup.remove s.hostStreams id }

/-- The handlers set: on the host importedRR … importedRC (instance.go 50-53), on the guest the registry of
the `invoke` package. -/
abbrev Handlers (H : Type) := Kind → UInt32 → Option H

/-- Which requests are registered so that frames of the peer find them: on the host channels only
(instance.go 543), on the guest all but request/response (guest.go 317, 343, 395). -/
def registers : Side → Kind → Bool
  | .host, .rc => true
  | .host, _ => false
  | .guest, .rr => false
  | .guest, _ => true

/-- The metadata the handler gets: instance.go 418, 460, 486, 540 (all of it); guest.go 276, 315
(without the first 8 bytes), 341, 393 (all of it). -/
def handlerMeta : Side → Kind → Bytes → Bytes
  | .guest, .rr, md => md.drop 8
  | .guest, .fnf, md => md.drop 8
  | _, _, md => md

/-- instance.go 397-419, 440-462, 464-488, 518-559; guest.go 261-279, 300-319, 321-346, 373-416: up to
and including the call of the handler. On the host this runs in a goroutine of its own, here at once:
requests do not share anything but the tables. The context of the parent stream (instance.go 403-408) is
not modelled. -/
def serve {H : Type} (side : Side) (hs : Handlers H) (s : St) (k : Kind) (id : UInt32) (data md : Bytes) (n : UInt32) :
    Go (St × List (Ev H)) :=
  if md.length < 8 then .ok (s, [.error id "Invalid metadata"])
  else do
    let op ← getU32 md
    match hs k op with
    | none => .ok (s, [.error id "not_found"])
    | some h =>
      let s' := if registers side k then register { s with objs := s.objs ++ [.responder false false] } id s.objs.length
        else s
      .ok (s', [.invoked k h id ⟨data, handlerMeta side k md⟩ n])

/-- instance.go 659-671, guest.go 443-455: note the frame type stored. -/
def checkFollows (s : St) (r : RequestPayload) : Option St :=
  if r.follows then
    some { s with frags := (r.streamID, ⟨typeRequestResponse, r.initialN, r.metadata, r.data⟩) :: s.frags }
  else none

/-- The sink of a stream: calls on a nil interface panic (instance.go 703-713, guest.go 565-575). -/
def sink {H : Type} (s : St) (j : Nat) (e : List (Ev H)) : Go (List (Ev H)) :=
  match s.objs[j]? with
  | some (.responder _ false) => .panic
  | some _ => .ok e
  | none => .panic

/-- `DoRequest` (instance.go 319-320, guest.go 179-180). -/
def request {H : Type} (s : St) (j : Nat) (n : UInt32) : Go (List (Ev H)) :=
  match s.objs[j]? with
  | some (.responder true _) => .ok [.doRequest j n.toNat]
  | some (.flux true) => .ok [.doRequest j n.toNat]
  | _ => .panic

/-- A request frame: instance.go 242-307, guest.go 105-167. `Decode` never returns an error. -/
def onRequest {H : Type} (side : Side) (hs : Handlers H) (s : St) (k : Kind) (h : Header) (body : Bytes) :
    Go (St × List (Ev H)) := do
  let r ← RequestPayload.decode h body
  match checkFollows s r with
  | some s' => .ok (s', [])
  | none => serve side hs s k r.streamID r.data r.metadata r.initialN

/-- instance.go 377-384, guest.go 227-247: the calls a payload frame makes. -/
def onPayload {H : Type} (s : St) (j : Nat) (f : Payload) : Go (List (Ev H)) :=
  if f.next || f.complete then
    sink s j ((if f.next then [.onNext j ⟨f.data, f.metadata⟩] else []) ++ (if f.complete then [.onComplete j] else []))
  else .ok []

/-- A frame for the stream `j`: instance.go 309-393, guest.go 169-256. -/
def onStream {H : Type} (s : St) (j : Nat) (h : Header) (body : Bytes) : Go (St × List (Ev H)) :=
  if h.type = typeRequestN then do
    let f ← RequestN.decode h body
    let e ← request s j f.n
    .ok (s, e)
  else if h.type = typeCancel then do
    let e ← sink s j [.onComplete j]
    .ok (remove s h.streamID, e)
  else if h.type = typePayload then do
    let f ← Payload.decode h body
    let e ← onPayload s j f
    .ok (if f.complete then remove s h.streamID else s, e)
  else if h.type = typeError then do
    let f ← Error.decode h body
    let e ← sink s j [.onError j (strOf f.data), .onComplete j]
    .ok (remove s h.streamID, e)
  else .ok (s, [])

/-- instance.go 221-395 recvOne, guest.go 85-257. -/
def recvOne {H : Type} (side : Side) (hs : Handlers H) (s : St) (data : Bytes) : Go (St × List (Ev H)) := do
  let h ← parseHeader data
  let body ← sliceFrom data 6
  if h.type ≥ typeRequestN then
    match getStream s h.streamID with
    | none => .ok (s, [])
    | some j => onStream s j h body
  else match kindOfType h.type with
    | some k => onRequest side hs s k h body
    | none => .ok (s, [])

/-- Frames one after the other. -/
def recvAll {H : Type} (side : Side) (hs : Handlers H) (s : St) : List Bytes → Go (St × List (Ev H))
  | [] => .ok (s, [])
  | b :: bs => do
    let (s', e) ← recvOne side hs s b
    let (s'', e') ← recvAll side hs s' bs
    .ok (s'', e ++ e')

/-! ## Handler tables of the host (instance.go 591-645) -/

/-- One table: `none` is a nil handler. -/
abbrev Slots (H : Type) := List (Option H)

/-- instance.go 592-594, 606-608, 620-622, 634-636: append nil until the length is `index+1` (`uint32`). -/
def pad {H : Type} (l : Slots H) (index : UInt32) : Slots H :=
  l ++ List.replicate ((index + 1).toNat - l.length) none

/-- instance.go 591-596, 605-610, 619-624, 633-638; writing past the end panics. Tables have fewer than
2^32 entries. -/
def setHandler {H : Type} (l : Slots H) (index : UInt32) (h : H) : Go (Slots H) :=
  if index.toNat < (pad l index).length then .ok ((pad l index).set index.toNat (some h)) else .panic

/-- instance.go 598-603, 612-617, 626-631, 640-645 -/
def getHandler {H : Type} (l : Slots H) (index : UInt32) : Option H :=
  if UInt32.ofNat l.length ≤ index then none else (l[index.toNat]?).join

end Verif.WasmRecv
