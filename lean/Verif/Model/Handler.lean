import Verif.Model.AnyFrame
import Verif.Model.Invoke
import Verif.Model.Lookup
import Verif.Model.Flux
import Verif.Model.Small
/-
Model of `handler/handler.go`, `handler/caller.go`, `proxy/mono.go`, `proxy/flux.go` and
`rx/flux/processor.go`: one end of a connection as a state machine. A step is a frame handed to
`HandleFrame`, one goroutine making progress, or the application doing something. Goroutines that
are not finished are the `tasks` of the state; any of them may move next.
-/
set_option autoImplicit false
namespace Verif.Handler
open Verif Frames Invoke

/-- payload/payload.go: `payload.Payload`. -/
structure Pay where
  data : Bytes
  metadata : Bytes
  deriving Repr, DecidableEq

/-- A Go string as an error message: one character per byte (Go strings are byte sequences). -/
def strOf (b : Bytes) : String := String.ofList (b.map fun x => Char.ofNat x.toNat)
def bytesOf (s : String) : Bytes := s.toList.map fun c => UInt8.ofNat c.toNat

/-- `uint32(n)` of a Go `int`. -/
def u32 (n : Int) : UInt32 := UInt32.ofNat (n % 4294967296).toNat

/-! ## What applications supply -/

/-- A `flux.Flux` of the application: made with `Create` (its source acts later), `Map` over such
a one, or `flux.Error`. Other implementations of the interface are not modelled. -/
inductive Src
  | created
  | mapped (tx : Pay → Except String Pay)
  | failed (e : Mono.Err)

/-- A `mono.Mono` of the application: `Create`, `Map` over such a one, `Just`, `Error`. -/
inductive MonoSrc
  | created
  | mapped (tx : Pay → Except String Pay)
  | just (p : Pay)
  | failed (e : Mono.Err)

/-- What an application handler returns when invoked: the mono (request/response handlers) or the
flux (stream and channel handlers). `kept` is not the application's: it says whether the stream of a stream or
fire-and-forget request is entered in the table. handler.go always does that (296, 318); the instance on the
wasm host, which is modelled with the same steps, does not (Model/Wasm.lean). What is proved for all histories holds
either way. -/
structure Ret where
  mono : MonoSrc
  flux : Src
  kept : Bool := true

/-- What an application calls on its subscription from inside OnNext, OnRequest and OnComplete /
OnError. -/
structure React where
  next : List Flux.Call
  req : List Flux.Call
  fin : List Flux.Call

/-- What the source of a `Create`d flux calls on its sink. -/
inductive SrcOp
  | next (p : Pay)
  | complete
  | error (e : Mono.Err)
  | onSubscribe (hasCancel : Bool)

/-- As a call on the subscriber whose callbacks call nothing back. -/
def SrcOp.op : SrcOp → Flux.Op Pay
  | .next p => .next p [] []
  | .complete => .complete []
  | .error e => .error e []
  | .onSubscribe c => .onSubscribe c

/-! ## State -/

/-- The channel input of a requester (proxy/flux.go 36): not subscribed yet, or subscribed. -/
inductive Input
  | fresh (src : Src)
  | subscribed (src : Src) (st : Flux.State)

/-- Streams. Each flux and each channel input is subscribed at most once (a second subscription
is not modelled); a requester's mono any number of times. -/
inductive Obj
  /-- handler.go 242-277: a request/response request being answered; never registered. -/
  | answer (id : UInt32) (src : MonoSrc) (st : Mono.State Pay)
  /-- handler.go 689-695 `requestStream`. `out` is the subscriber of the flux returned by the
  handler, `subSet` whether `sub` is set, `inp` is `sink` (none: nil). `k` is the kind of the request
  (not a field; only channels have an input to subscribe to). -/
  | responder (k : Kind) (id : UInt32) (out : Option (Src × Flux.State)) (subSet : Bool)
      (inp : Option Flux.State)
  /-- proxy/mono.go 24-32 `streamMono`. -/
  | mono (req : RequestPayload) (proc : Mono.Proc Pay)
  /-- proxy/flux.go 30-41 `streamFlux`; `sub` is the sink of its processor (none: nil). -/
  | flux (req : RequestPayload) (first complete : Bool) (input : Option Input)
      (sub : Option Flux.State)

/-- Goroutines. -/
inductive Task
  /-- handler.go 143, 151, 159, 167 -/
  | request (k : Kind) (id : UInt32) (data metadata : Bytes) (n : UInt32)
  /-- handler.go 320-321, 383-384: the handler has returned `f`, `f.Subscribe` comes next -/
  | subscribe (j : Nat) (f : Src) (n : UInt32)
  /-- handler.go 344-346, 407-409 -/
  | firstRequest (j : Nat) (f : Src) (n : UInt32)
  /-- handler.go 172 -/
  | doRequest (j : Nat) (n : Int)
  /-- rx/flux/flux_host.go 20-26: `sub.Request(n)` on a requester's stream (proxy/flux.go 76), or on
  the input of a channel being answered (handler.go 370-375). The mutex that serialises these is
  not modelled, so more interleavings are allowed than in the code. -/
  | upRequest (j : Nat) (n : Int)
  /-- proxy/flux.go 85-107: the rest of the first Request -/
  | subscribeIn (j : Nat)

/-- handler.go 22-45 (`ctx`, `sendFrame` and the unused imported handlers left out), the memory
holding streams, and the goroutines. Positions in `objs` are the pointers in the tables. -/
structure St (H : Type) where
  reg : Registry H
  client : Bool
  streamIDs : UInt64
  guestStreams : Lookup.State Nat
  hostStreams : Lookup.State Nat
  opTable : Option Operations.Table
  objs : List Obj
  tasks : List Task

/-- handler.go 61-72 `New`; the handlers were exported before. -/
def St.init {H : Type} (reg : Registry H) (client : Bool) : St H :=
  ⟨reg, client, 0, .init, .init, none, [], []⟩

/-- What can be observed. `sent` names the stream on whose behalf a frame was sent (none: a
rejected request or a fire-and-forget call). `opened` and `closed` are the calls of registerStream
and removeStream. -/
inductive Ev (H : Type)
  | sent (by_ : Option Nat) (f : AnyFrame)
  | invoked (k : Kind) (h : H) (id : UInt32) (p : Pay)
  | refused (msg : String)
  | opened (id : UInt32) (j : Nat)
  | closed (id : UInt32)
  /-- callbacks of a requester's mono -/
  | mono (j : Nat) (e : Mono.Ev Pay)
  /-- callbacks and calls of the subscriber of a requester's flux -/
  | flux (j : Nat) (e : Flux.Ev Pay)
  /-- the same for the input of a channel being answered -/
  | inp (j : Nat) (e : Flux.Ev Pay)
  /-- what the source of an application's flux is asked for -/
  | src (j : Nat) (e : Flux.Ev Pay)
  deriving DecidableEq

/-- State and trace. -/
abbrev Out (H : Type) := St H × List (Ev H)

section
variable {H : Type}

/-- Run `x`, then `f` on its state; the traces are concatenated. -/
def andThen (x : Go (Out H)) (f : St H → Go (Out H)) : Go (Out H) :=
  match x with
  | .ok (s, e) => match f s with
    | .ok (s', e') => .ok (s', e ++ e')
    | .err m => .err m
    | .panic => .panic
  | .err m => .err m
  | .panic => .panic

/-- handler.go 82-88 `registerStream`. -/
def register (s : St H) (id : UInt32) (j : Nat) : St H :=
  if id &&& 1 = 1 then { s with guestStreams := Lookup.add s.guestStreams id j }
  else { s with hostStreams := Lookup.add s.hostStreams id j }

/-- handler.go 90-96 `removeStream`. -/
def remove (s : St H) (id : UInt32) : St H :=
  if id &&& 1 = 1 then { s with guestStreams := Lookup.remove s.guestStreams id }
  else { s with hostStreams := Lookup.remove s.hostStreams id }

/-- handler.go 98-104 `getStream`. -/
def getStream (s : St H) (id : UInt32) : Option Nat :=
  if id &&& 1 = 1 then Lookup.get s.guestStreams id else Lookup.get s.hostStreams id

def setObj (s : St H) (j : Nat) (o : Obj) : St H := { s with objs := s.objs.set j o }
def addTasks (s : St H) (ts : List Task) : St H := { s with tasks := s.tasks ++ ts }

/-! ## Answering -/

/-- error.go: an error frame without code, as the handler sends them. -/
def errorFrame (id : UInt32) (msg : String) : AnyFrame := .error ⟨id, 0, bytesOf msg⟩

/-- handler.go 321-343, 384-406 and proxy/flux.go 86-106: the callbacks installed. -/
def replyInst : Flux.Installed := ⟨true, true, true, false, false, true⟩

/-- handler.go 322-341, 385-404, proxy/flux.go 87-105: what the callbacks send (`err.Error()` of a
nil error panics); everything else the subscriber does concerns its source. -/
def replyEv (j : Nat) (id : UInt32) : Flux.Ev Pay → Go (List (Ev H))
  | .next p => .ok [.sent (some j) (.payload ⟨id, p.metadata, p.data, false, false, true⟩)]
  | .complete => .ok [.sent (some j) (.payload ⟨id, [], [], false, true, false⟩)]
  | .error none => .panic
  | .error (some e) => .ok [.sent (some j) (errorFrame id e)]
  | e => .ok [.src j e]

def replyEvs (j : Nat) (id : UInt32) : List (Flux.Ev Pay) → Go (List (Ev H))
  | [] => .ok []
  | e :: es => do
    let a ← replyEv j id e
    let b ← replyEvs j id es
    .ok (a ++ b)

/-- What reaches the callbacks through a `Map` (flux.go 232-257). -/
def throughMap (f : Src) (es : List (Flux.Ev Pay)) : List (Flux.Ev Pay) :=
  match f with
  | .mapped tx => es.flatMap (Flux.mapEv tx replyInst)
  | _ => es

/-- handler.go 260-276: what the callbacks of a request/response answer send. -/
def answerEv (j : Nat) (id : UInt32) : Mono.Ev Pay → Go (List (Ev H))
  | .success _ p => .ok [.sent (some j) (.payload ⟨id, p.metadata, p.data, false, true, true⟩)]
  | .error _ none => .panic
  | .error _ (some e) => .ok [.sent (some j) (errorFrame id e)]
  | _ => .ok []

def answerEvs (j : Nat) (id : UInt32) : List (Mono.Ev Pay) → Go (List (Ev H))
  | [] => .ok []
  | e :: es => do
    let a ← answerEv j id e
    let b ← answerEvs j id es
    .ok (a ++ b)

/-- handler.go 260-276: the callbacks installed on the mono. -/
def answerInst : Mono.Installed := ⟨true, true, false⟩

/-- What reaches the callbacks through a `mono.Map`. -/
def throughMonoMap (m : MonoSrc) (es : List (Mono.Ev Pay)) : List (Mono.Ev Pay) :=
  match m with
  | .mapped tx => es.flatMap (Mono.mapEv tx answerInst)
  | _ => es

/-- mono.go: `Subscribe` with these callbacks. -/
def monoSubscribe : MonoSrc → Mono.State Pay × List (Mono.Ev Pay)
  | .created => (Mono.subscribe .init answerInst, [])
  | .mapped _ => (Mono.subscribe .init (Mono.mapInstalled answerInst), [])
  | .just p => (.init, Mono.justSubscribe p answerInst)
  | .failed e => (.init, Mono.errorSubscribe e answerInst)

/-- handler.go 242-410: a request goroutine, up to and including the call of the application's
handler (and its whole rest for request/response and fire-and-forget). For channels the input
`in` exists from here on. -/
def serve (s : St H) (k : Kind) (id : UInt32) (data md : Bytes) (n : UInt32) (ret : Ret) : Go (Out H) :=
  if md.length < 8 then .ok (s, [.sent none (errorFrame id "Invalid metadata")])
  else do
    let op ← getU32 md
    match getHandler s.reg k op with
    | none => .ok (s, [.sent none (errorFrame id "not_found")])
    | some h =>
      let j := s.objs.length
      match k with
      | .rr => do
        let p := Pay.mk data (md.drop 8)
        let r := monoSubscribe ret.mono
        let es ← answerEvs j id r.2
        .ok ({ s with objs := s.objs ++ [.answer id ret.mono r.1] }, .invoked .rr h id p :: es)
      | .fnf =>
        let s := { s with objs := s.objs ++ [.responder .fnf id none false none] }
        if ret.kept then .ok (register s id j, [.opened id j, .invoked .fnf h id ⟨data, md.drop 8⟩])
        else .ok (s, [.invoked .fnf h id ⟨data, md.drop 8⟩])
      | k =>
        let s := { s with objs := s.objs ++ [.responder k id none false none] }
        if ret.kept || k == .rc then .ok (addTasks (register s id j) [.subscribe j ret.flux n],
          [.opened id j, .invoked k h id ⟨data, md⟩])
        else .ok (addTasks s [.subscribe j ret.flux n], [.invoked k h id ⟨data, md⟩])

/-! ## Streams with a subscriber of the application -/

/-- Goroutines started by what a subscriber of the application does. -/
def demandTasks (j : Nat) : List (Flux.Ev Pay) → List Task
  | [] => []
  | .upRequest n :: es => .upRequest j n :: demandTasks j es
  | _ :: es => demandTasks j es

/-- What is observed: each event, and the frame sent when it cancels (proxy/flux.go 118-122,
handler.go 376-380). -/
def demandEvs (j : Nat) (id : UInt32) (wrap : Flux.Ev Pay → Ev H) : List (Flux.Ev Pay) → List (Ev H)
  | [] => []
  | .upCancel :: es => wrap .upCancel :: .sent (some j) (.cancel ⟨id⟩) :: demandEvs j id wrap es
  | e :: es => wrap e :: demandEvs j id wrap es

/-- One operation on the subscriber of a requester's flux. -/
def onFlux (s : St H) (j : Nat) (req : RequestPayload) (first complete : Bool)
    (input : Option Input) (st : Flux.State) (op : Flux.Op Pay) : St H × List (Ev H) :=
  let r := Flux.step st op
  (addTasks (setObj s j (.flux req first complete input (some r.1))) (demandTasks j r.2),
    demandEvs j req.streamID (.flux j) r.2)

/-- One operation on the subscriber of a channel input. -/
def onInp (s : St H) (j : Nat) (k : Kind) (id : UInt32) (out : Option (Src × Flux.State))
    (subSet : Bool) (st : Flux.State) (op : Flux.Op Pay) : St H × List (Ev H) :=
  let r := Flux.step st op
  (addTasks (setObj s j (.responder k id out subSet (some r.1))) (demandTasks j r.2),
    demandEvs j id (.inp j) r.2)

/-- `OnNext`, `OnComplete`, `OnError` of a registered stream: handler.go 715-725 (a nil sink
panics), proxy/mono.go 42-52, proxy/flux.go 51-62 and processor.go 29-45. -/
def deliver (s : St H) (j : Nat) (op : Flux.Op Pay) : Go (Out H) :=
  match s.objs[j]? with
  | some (.responder k id out subSet (some st)) => .ok (onInp s j k id out subSet st op)
  | some (.mono req proc) =>
    match op with
    | .next p _ _ =>
      let r := proc.step (.success p)
      .ok (setObj s j (.mono req r.1), r.2.map (.mono j))
    | .error e _ =>
      let r := proc.step (.error e)
      .ok (setObj s j (.mono req r.1), r.2.map (.mono j))
    | _ => .ok (s, [])
  | some (.flux req first complete input sub) =>
    let done := match op with | .complete _ => true | _ => complete
    match sub with
    | some st => .ok (onFlux s j req first done input st op)
    | none => .ok (setObj s j (.flux req first done input none), [])
  | _ => .panic

/-! ## HandleFrame -/

/-- handler.go 137-168: the kind of a request frame. -/
def kindOfType (t : UInt8) : Option Kind :=
  if t = typeRequestResponse then some .rr
  else if t = typeRequestFNF then some .fnf
  else if t = typeRequestStream then some .rs
  else if t = typeRequestChannel then some .rc
  else none

/-- handler.go 120. -/
def notFound (id : UInt32) : String := "stream ID " ++ toString id.toNat ++ " not found"

/-- handler.go 170-172: the type assertion fails for a `streamMono`. -/
def canRequest (s : St H) (j : Nat) : Bool :=
  match s.objs[j]? with
  | some (.responder ..) => true
  | some (.flux ..) => true
  | _ => false

/-- Then remove the stream (handler.go 176, 230, 236). -/
def closing (id : UInt32) (s : St H) : Go (Out H) := .ok (remove s id, [.closed id])

/-- handler.go 126-237: the switch; `str` is the stream found (none: nil), `r` how the application
reacts inside its callbacks. -/
def dispatch (s : St H) (r : React) (f : AnyFrame) (str : Option Nat) : Go (Out H) :=
  match f, str with
  | .setup v, _ =>
    if s.opTable.isNone then
      match Operations.fromBytes v.data with
      | .ok t => .ok ({ s with opTable := some t }, [])
      | .err _ => .err "could not read operations list"
      | .panic => .panic
    else .ok (s, [])
  | .request v, _ =>
    match kindOfType v.frameType with
    | some k => .ok (addTasks s [.request k v.streamID v.data v.metadata v.initialN], [])
    | none => .ok (s, [])
  | .requestN v, some j =>
    if canRequest s j then .ok (addTasks s [.doRequest j v.n.toNat], []) else .panic
  | .cancel v, some j => andThen (deliver s j (.complete r.fin)) (closing v.streamID)
  | .payload v, some j =>
    andThen (if v.next then deliver s j (.next ⟨v.data, v.metadata⟩ r.next r.req) else .ok (s, []))
      fun s => if v.complete then andThen (deliver s j (.complete r.fin)) (closing v.streamID)
        else .ok (s, [])
  | .error v, some j =>
    andThen (deliver s j (.error (some (strOf v.data)) r.fin)) fun s =>
      andThen (deliver s j (.complete [])) (closing v.streamID)
  | _, none => .panic

/-- handler.go 110-240 `HandleFrame`. -/
def handleFrame (s : St H) (f : AnyFrame) (r : React) : Go (Out H) :=
  if f.type ≥ typeRequestN then
    match getStream s f.streamID with
    | none => if f.type ≠ typeRequestN then .err (notFound f.streamID) else .ok (s, [])
    | some j => dispatch s r f (some j)
  else dispatch s r f none

/-! ## Goroutines -/

/-- Replace the subscriber of an answered stream and send what its callbacks send. -/
def onOut (s : St H) (j : Nat) (k : Kind) (id : UInt32) (f : Src) (subSet : Bool)
    (inp : Option Flux.State) (r : Flux.State × List (Flux.Ev Pay)) : Go (Out H) := do
  let es ← replyEvs j id (throughMap f r.2)
  .ok (setObj s j (.responder k id (some (f, r.1)) subSet inp), es)

/-- The same for the input of a requester's channel. -/
def onInput (s : St H) (j : Nat) (req : RequestPayload) (first complete : Bool) (f : Src)
    (sub : Option Flux.State) (r : Flux.State × List (Flux.Ev Pay)) : Go (Out H) := do
  let es ← replyEvs j req.streamID (throughMap f r.2)
  .ok (setObj s j (.flux req first complete (some (.subscribed f r.1)) sub), es)

/-- flux.go 79-93 `Subscribe` with these callbacks: a fresh subscriber; `flux.Error` calls OnError
at once (48-53). -/
def subscribeSrc : Src → Flux.State × List (Flux.Ev Pay)
  | .failed e => (.init replyInst [], Flux.errorSubscribe e replyInst)
  | _ => (.init replyInst [], [])

/-- flux.go 64-66, 95-97, 260-262 `Subscription()` is nil. -/
def Src.noSubscription : Src → Bool
  | .failed _ => true
  | _ => false

/-- One goroutine (already taken off the list) makes its move. -/
def runTask (s : St H) (ret : Ret) : Task → Go (Out H)
  | .request k id data md n => serve s k id data md n ret
  | .subscribe j f n =>
    match s.objs[j]? with
    | some (.responder k id _ subSet inp) =>
      onOut (addTasks s [.firstRequest j f n]) j k id f subSet inp (subscribeSrc f)
    | _ => .panic
  | .firstRequest j f n =>
    match s.objs[j]? with
    | some (.responder k id (some (_, st)) _ inp) =>
      if f.noSubscription then .panic
      else onOut s j k id f true inp (Flux.call st (.request n.toNat))
    | _ => .panic
  | .doRequest j n =>
    match s.objs[j]? with
    | some (.responder k id (some (f, st)) true inp) =>
      onOut s j k id f true inp (Flux.call st (.request n))
    | some (.flux req first complete (some (.subscribed f st)) sub) =>
      if f.noSubscription then .panic
      else onInput s j req first complete f sub (Flux.call st (.request n))
    | _ => .panic
  | .upRequest j n =>
    match s.objs[j]? with
    | some (.responder k id _ _ _) => .ok (s, [.sent (some j) (.requestN ⟨id, u32 n⟩)])
    | some (.flux req first complete input sub) =>
      if complete then .ok (s, [])
      else if first then
        let req := { req with initialN := u32 n }
        .ok (addTasks (setObj s j (.flux req false complete input sub))
            (if input.isSome then [.subscribeIn j] else []),
          [.sent (some j) (.request req)])
      else .ok (s, [.sent (some j) (.requestN ⟨req.streamID, u32 n⟩)])
    | _ => .panic
  | .subscribeIn j =>
    match s.objs[j]? with
    | some (.flux req first complete (some (.fresh f)) sub) =>
      onInput s j req first complete f sub (subscribeSrc f)
    | _ => .panic

/-! ## Calls -/

/-- stream_id.go 18-40 `Next`: advance until the value is not 0 (one retry always suffices). -/
def nextID (client : Bool) (p : UInt64) : UInt64 × UInt32 :=
  let step := if client then StreamIds.clientStep else StreamIds.serverStep
  match step p with
  | (p, some (id, _)) => (p, id)
  | (p, none) => match step p with
    | (p, some (id, _)) => (p, id)
    | (p, none) => (p, 0)

/-- rx.go 8. -/
def requestMax : UInt32 := 2147483647

/-- caller.go 66-106: the four kinds of calls. `input` is the channel's input. -/
def call (s : St H) (k : Kind) (p : Pay) (input : Src) : St H × List (Ev H) :=
  let (c, id) := nextID s.client s.streamIDs
  let s := { s with streamIDs := c }
  match k with
  | .rr => ({ s with objs := s.objs ++
      [.mono ⟨typeRequestResponse, id, p.metadata, p.data, false, true, 1⟩ .init] }, [])
  | .fnf => (s, [.sent none (.request ⟨typeRequestFNF, id, p.metadata, p.data, false, true, 1⟩)])
  | .rs => ({ s with objs := s.objs ++
      [.flux ⟨typeRequestStream, id, p.metadata, p.data, false, false, requestMax⟩ true false none
        none] }, [])
  | .rc => ({ s with objs := s.objs ++
      [.flux ⟨typeRequestChannel, id, p.metadata, p.data, false, false, requestMax⟩ true false
        (some (.fresh input)) none] }, [])

/-! ## Steps -/

inductive Act
  /-- a frame arrives -/
  | frame (f : AnyFrame) (r : React)
  /-- goroutine number `t` moves; `ret` is what an application handler returns, if one is called -/
  | run (t : Nat) (ret : Ret)
  /-- the source of a mono that answers a request signals -/
  | answer (j : Nat) (sig : Mono.Sig Pay)
  /-- the source of a flux that answers a request calls its sink -/
  | out (j : Nat) (op : SrcOp)
  /-- the application subscribes to the input of a channel it answers -/
  | subscribeInp (j : Nat) (inst : Flux.Installed) (start : List Flux.Call)
  | inpCall (j : Nat) (c : Flux.Call)
  /-- the application makes a call -/
  | call (k : Kind) (p : Pay) (input : Src)
  | subscribeMono (j : Nat) (inst : Mono.Installed)
  | subscribeFlux (j : Nat) (inst : Flux.Installed) (start : List Flux.Call)
  | fluxCall (j : Nat) (c : Flux.Call)
  /-- the source of a requester's channel input calls its sink -/
  | input (j : Nat) (op : SrcOp)

/-- One step; what is not possible does nothing. -/
def step (s : St H) : Act → Go (Out H)
  | .frame f r => handleFrame s f r
  | .run t ret =>
    match s.tasks[t]? with
    | some task => runTask { s with tasks := s.tasks.eraseIdx t } ret task
    | none => .ok (s, [])
  | .answer j sig =>
    match s.objs[j]? with
    | some (.answer id m st) => do
      let r := Mono.signal st 0 sig [] []
      let es ← answerEvs j id (throughMonoMap m r.2)
      .ok (setObj s j (.answer id m r.1), es)
    | _ => .ok (s, [])
  | .out j op =>
    match s.objs[j]? with
    | some (.responder k id (some (f, st)) subSet inp) =>
      if f.noSubscription then .ok (s, [])
      else onOut s j k id f subSet inp (Flux.step st op.op)
    | _ => .ok (s, [])
  /- handler.go 369-381: OnSubscribe with Request and Cancel; then flux.go 91 -/
  | .subscribeInp j inst start =>
    match s.objs[j]? with
    | some (.responder .rc id out subSet none) =>
      let r := Flux.runFrom (.init inst []) [.onSubscribe true, .start start]
      .ok (addTasks (setObj s j (.responder .rc id out subSet (some r.1))) (demandTasks j r.2),
        demandEvs j id (.inp j) r.2)
    | _ => .ok (s, [])
  | .inpCall j c =>
    match s.objs[j]? with
    | some (.responder k id out subSet (some st)) => .ok (onInp s j k id out subSet st (.call c))
    | _ => .ok (s, [])
  | .call k p input => .ok (call s k p input)
  /- proxy/mono.go 66-72 -/
  | .subscribeMono j inst =>
    match s.objs[j]? with
    | some (.mono req proc) =>
      let r := proc.step (.subscribe inst)
      .ok (setObj (register s req.streamID j) j (.mono req r.1),
        .opened req.streamID j :: r.2.map (.mono j) ++ [.sent (some j) (.request req)])
    | _ => .ok (s, [])
  /- proxy/flux.go 129-134, processor.go 18-24, flux.go 79-93 -/
  | .subscribeFlux j inst start =>
    match s.objs[j]? with
    | some (.flux req first complete input none) =>
      let r := Flux.runFrom (.init inst []) [.onSubscribe true, .start start]
      .ok (addTasks (setObj (register s req.streamID j) j
            (.flux req first complete input (some r.1))) (demandTasks j r.2),
        .opened req.streamID j :: demandEvs j req.streamID (.flux j) r.2)
    | _ => .ok (s, [])
  | .fluxCall j c =>
    match s.objs[j]? with
    | some (.flux req first complete input (some st)) =>
      .ok (onFlux s j req first complete input st (.call c))
    | _ => .ok (s, [])
  | .input j op =>
    match s.objs[j]? with
    | some (.flux req first complete (some (.subscribed f st)) sub) =>
      if f.noSubscription then .ok (s, [])
      else onInput s j req first complete f sub (Flux.step st op.op)
    | _ => .ok (s, [])

/-- An error returned by HandleFrame is noted; what the transport does then is up to it. -/
def settle (s : St H) : Go (Out H) → Go (Out H)
  | .err m => .ok (s, [.refused m])
  | r => r

/-- A history; a panic ends the process. -/
def runFrom (s : St H) : List Act → Go (Out H)
  | [] => .ok (s, [])
  | a :: as => andThen (settle s (step s a)) fun s => runFrom s as

def run (reg : Registry H) (client : Bool) (as : List Act) : Go (Out H) :=
  runFrom (.init reg client) as

/-! ## Import lookup (caller.go 18-64) -/

/-- caller.go 18-64: the four functions differ in the type only. `none` is a nil table. -/
def importOp (opTable : Option Operations.Table) (k : Kind) (ns op : Bytes) : UInt32 :=
  match (opTable.getD []).find? fun o => o.direction = Operations.exportDir ∧ o.type = k.type ∧
      o.ns = ns ∧ o.operation = op with
  | some o => o.index
  | none => 0

end
end Verif.Handler
