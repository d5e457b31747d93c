import Verif.Props.TypedCalls
import Verif.Props.WasmStreams
/-
Property C113: the generated clients and handlers of operations that give a stream of strings.
-/
set_option autoImplicit false
namespace Verif.Props
open Verif Spec Frames Handler Msgpack Typed
open Verif.Invoke (Kind Registry)
open Verif.WasmRecv (Side registers)

section
variable {H ρ : Type}

/-! ## Specification -/

/-- A step of a stream of strings. -/
inductive StrSig
  | element (s : Bytes)
  | complete
  | error (e : Mono.Err)
  deriving DecidableEq

/-- What the source of a `flux.Flux[string]` tells its sink. -/
def strSig : StreamSig → StrSig
  | .element p => .element p.data
  | .complete => .complete
  | .error e => .error e

/-- What a flux of the service says, given what its source tells its sink: that up to its end, or the error of
`flux.Error`. -/
def fluxSaid (m : StrFlux) (sigs : List StreamSig) : List StrSig :=
  match m with
  | .created => (cutAtEnd sigs).map strSig
  | .failed e => [.error e]

/-- The callbacks of a subscriber for it, without and with Finally. -/
def strCalls (inst : Flux.Installed) : StrSig → List (Flux.Ev Bytes)
  | .element s => if inst.onNext then [.next s] else []
  | .complete => if inst.onComplete then [.complete] else []
  | .error e => if inst.onError then [.error e] else []

def strCallbacks (inst : Flux.Installed) : StrSig → List (Flux.Ev Bytes)
  | .element s => strCalls inst (.element s)
  | .complete => strCalls inst .complete ++ if inst.fin then [.fin .complete] else []
  | .error e => strCalls inst (.error e) ++ if inst.fin then [.fin .error] else []

/-- Errors keep only the bytes of their message. -/
def strSigOverWire : StrSig → StrSig
  | .error (some e) => .error (some (strOf (bytesOf e)))
  | x => x

/-- The encodings of the strings have 32-bit lengths. -/
def allShort (l : List StrSig) : Prop := ∀ s, .element s ∈ l → (str s).length < 2 ^ 32

/-- At this point of the history `as` of an end, run with `run`, the goroutine `t` of a request ran; the application's handler
returned `ret`. -/
structure RanIn (run : List Act → Go (Handler.Out H)) (as as1 as2 : List Act) (t : Nat) (ret : Ret) (s1 : St H)
    (t1 : List (Handler.Ev H)) (k : Kind) (id : UInt32) (data md : Bytes) (n : UInt32) : Prop where
  split : as = as1 ++ .run t ret :: as2
  before : run as1 = .ok (s1, t1)
  task : s1.tasks[t]? = some (.request k id data md n)

/-- Number `op` of the stream operations is the generated handler around a service which for the record `r` may return any
flux `m` with `svc r m`. -/
def ServesStream (run : List Act → Go (Handler.Out H)) (as : List Act) (c : Codec ρ) (svc : ρ → StrFlux → Prop) (op : UInt32) : Prop :=
  ∀ as1 as2 t ret s1 t1 id data md n, RanIn run as as1 as2 t ret s1 t1 .rs id data md n → opIdOf md = op.toNat →
    ∃ reply : ρ → StrFlux, (∀ r, svc r (reply r)) ∧
      ∃ f0, ∀ f, f0 ≤ f → streamRequest f c.field c.zero reply data = some ret.flux

/-- Number `op` of the channel operations is the generated handler around a service which may return any flux `m` with
`svc m`. -/
def ServesChannel (run : List Act → Go (Handler.Out H)) (as : List Act) (svc : StrFlux → Prop) (op : UInt32) : Prop :=
  ∀ as1 as2 t ret s1 t1 id data md n, RanIn run as as1 as2 t ret s1 t1 .rc id data md n → opIdOf md = op.toNat →
    ∃ m, svc m ∧ ret.flux = answerChannel m

/-- What the service has said to the request `id` so far: the service has returned `m` to it, one it could (`given`). If the flux
was not subscribed to yet, nothing; otherwise what its source has said since (`as4`). -/
inductive StreamSaid (run : List Act → Go (Handler.Out H)) (as : List Act) (k : Kind) (id : UInt32) (p : Pay)
    (given : StrFlux → Prop) : List StrSig → Prop
  | waiting (as1 as2 : List Act) (t : Nat) (ret : Ret) (s1 : St H) (t1 : List (Handler.Ev H)) (n : UInt32) (m : StrFlux)
      (ran : RanIn run as as1 as2 t ret s1 t1 k id p.data p.metadata n) (gave : given m) (is : ret.flux = m.encoded)
      (s : St H) (tr : List (Handler.Ev H)) (n' : UInt32) (now : run as = .ok (s, tr))
      (task : .subscribe s1.objs.length ret.flux n' ∈ s.tasks) :
      StreamSaid run as k id p given []
  | served (as1 as2 : List Act) (t : Nat) (ret : Ret) (s1 : St H) (t1 : List (Handler.Ev H)) (n : UInt32) (m : StrFlux)
      (ran : RanIn run as as1 as2 t ret s1 t1 k id p.data p.metadata n) (gave : given m) (is : ret.flux = m.encoded)
      (as3 as4 : List Act) (t' : Nat) (ret' : Ret) (s3 : St H) (t3 : List (Handler.Ev H)) (n' : UInt32)
      (split : as2 = as3 ++ .run t' ret' :: as4) (before : run (as1 ++ .run t ret :: as3) = .ok (s3, t3))
      (task : s3.tasks[t']? = some (.subscribe s1.objs.length ret.flux n')) :
      StreamSaid run as k id p given (fluxSaid m (outSigs s1.objs.length as4))

/-- C113: the subscriber of what the client function returned (which sees `seen`) sees the beginning of what the service has
said to this very call, in order and without a gap; if nothing is under way any more (`over`), all of it. This for the streams
that meet `ok`. -/
def typedStreamed (ok : List StrSig → Prop) (run : List Act → Go (Handler.Out H)) (as : List Act) (k : Kind) (id : UInt32)
    (p : Pay) (given : StrFlux → Prop) (inst : Flux.Installed) (over : Prop) (seen : List (Flux.Ev Bytes)) : Prop :=
  (fluxSignals seen = [] ∨ ∃ l, StreamSaid run as k id p given l ∧
    (ok l → ∃ l', l' <+: l ∧ fluxSignals seen = (l'.map strSigOverWire).flatMap (strCalls inst))) ∧
  (over → ∃ l, StreamSaid run as k id p given l ∧
    (ok l → fluxCallbacks seen = (l.map strSigOverWire).flatMap (strCallbacks inst)))

/-- C113 for streams over TCP with the generated code of the record type `c`: A calls number `op`, under which B has exported the
generated handler. A has asked for something and has not cancelled. -/
def C113_for (H : Type) {ρ : Type} (c : Codec ρ) : Prop :=
  ∀ (regA : Registry H) (callsB : List (Invoke.Call H)) (client : Bool) (pre mid post : List TcpSystem.Move)
    (t0 t : TcpSystem.Sys H) (r : ρ) (op : UInt32) (ns opn : Bytes) (h : H) (p : Pay) (src : Src) (inst : Flux.Installed)
    (start : List Flux.Call) (svc : ρ → StrFlux → Prop),
    fewCalls callsB → (exportsOf .rs callsB)[op.toNat]? = some (ns, opn, h) → c.short r →
    requestPay (c.encode (some r)) op = .ok p →
    tcpStream regA (Invoke.run Registry.init callsB) client pre t0 .rs p src mid (Flux.mapInstalled inst) start post t →
    TcpTidy t → below4G t.trA → below4G t.trB →
    ServesStream (Handler.run (Invoke.run Registry.init callsB) (!client)) t.histB c svc op →
    typedStreamed allShort (Handler.run (Invoke.run Registry.init callsB) (!client)) t.histB .rs (callId t0.a) p (svc r) inst
      ((∃ f, f.streamID = callId t0.a ∧ .request f ∈ sentFrames t.trA) ∧
        .cancelled ∉ fluxEvs t0.a.objs.length t.trA ∧ tcpSettled t (callId t0.a))
      (decodedFlux inst (fluxEvs t0.a.objs.length t.trA))

/-- The same for channels (`Uppercase`), whose input the handler does not cancel. -/
def C113_channel_for (H : Type) : Prop :=
  ∀ (regA : Registry H) (callsB : List (Invoke.Call H)) (client : Bool) (pre mid post : List TcpSystem.Move)
    (t0 t : TcpSystem.Sys H) (op : UInt32) (ns opn : Bytes) (h : H) (m : StrFlux) (inst : Flux.Installed)
    (start : List Flux.Call) (svc : StrFlux → Prop),
    fewCalls callsB → (exportsOf .rc callsB)[op.toNat]? = some (ns, opn, h) →
    tcpStream regA (Invoke.run Registry.init callsB) client pre t0 .rc (channelPay op) (channelInput m) mid
      (Flux.mapInstalled inst) start post t →
    TcpTidy t → below4G t.trA → below4G t.trB → .cancel ⟨callId t0.a⟩ ∉ sentFrames t.trB →
    ServesChannel (Handler.run (Invoke.run Registry.init callsB) (!client)) t.histB svc op →
    typedStreamed allShort (Handler.run (Invoke.run Registry.init callsB) (!client)) t.histB .rc (callId t0.a) (channelPay op) svc inst
      ((∃ f, f.streamID = callId t0.a ∧ .request f ∈ sentFrames t.trA) ∧
        .cancelled ∉ fluxEvs t0.a.objs.length t.trA ∧ tcpSettled t (callId t0.a))
      (decodedFlux inst (fluxEvs t0.a.objs.length t.trA))

/-- C113 between a wasm host and its guest, in either direction. -/
def C113_wasm_for (H : Type) {ρ : Type} (c : Codec ρ) : Prop :=
  ∀ (side : Side) (regA : Registry H) (callsB : List (Invoke.Call H)) (pre mid post : List System.Move)
    (s0 s : System.Sys H) (r : ρ) (op : UInt32) (ns opn : Bytes) (h : H) (p : Pay) (src : Src) (inst : Flux.Installed)
    (start : List Flux.Call) (svc : ρ → StrFlux → Prop),
    fewCalls callsB → (exportsOf .rs callsB)[op.toNat]? = some (ns, opn, h) → c.short r →
    requestPay (c.encode (some r)) op = .ok p →
    wasmStream side regA (Invoke.run Registry.init callsB) pre s0 .rs p src mid (Flux.mapInstalled inst) start post s → Tidy s →
    ServesStream (Wasm.run (Wasm.Side.other side) (Invoke.run Registry.init callsB)) s.histB c svc op →
    typedStreamed allShort (Wasm.run (Wasm.Side.other side) (Invoke.run Registry.init callsB)) s.histB .rs (callId s0.a) p (svc r) inst
      (requestSent s (callId s0.a) ∧ .cancelled ∉ fluxEvs s0.a.objs.length s.trA ∧ settled s (callId s0.a))
      (decodedFlux inst (fluxEvs s0.a.objs.length s.trA))

def C113_wasm_channel_for (H : Type) : Prop :=
  ∀ (side : Side) (regA : Registry H) (callsB : List (Invoke.Call H)) (pre mid post : List System.Move)
    (s0 s : System.Sys H) (op : UInt32) (ns opn : Bytes) (h : H) (m : StrFlux) (inst : Flux.Installed)
    (start : List Flux.Call) (svc : StrFlux → Prop),
    fewCalls callsB → (exportsOf .rc callsB)[op.toNat]? = some (ns, opn, h) →
    wasmStream side regA (Invoke.run Registry.init callsB) pre s0 .rc (channelPay op) (channelInput m) mid
      (Flux.mapInstalled inst) start post s → Tidy s → inputKept s (callId s0.a) →
    ServesChannel (Wasm.run (Wasm.Side.other side) (Invoke.run Registry.init callsB)) s.histB svc op →
    typedStreamed allShort (Wasm.run (Wasm.Side.other side) (Invoke.run Registry.init callsB)) s.histB .rc (callId s0.a) (channelPay op)
      svc inst
      (requestSent s (callId s0.a) ∧ .cancelled ∉ fluxEvs s0.a.objs.length s.trA ∧ settled s (callId s0.a))
      (decodedFlux inst (fluxEvs s0.a.objs.length s.trA))

/-! ## Proof -/

theorem fluxSignals_decoded (inst : Flux.Installed) (es : List (Flux.Ev Pay)) :
    fluxSignals (decodedFlux inst es) = fluxSignals (decodedFlux inst (fluxSignals es)) := by
  induction es with
  | nil => rfl
  | cons e es ih =>
    have h : fluxSignals (decodedFlux inst (e :: es)) =
        fluxSignals (Flux.mapEv decodeString inst e) ++ fluxSignals (decodedFlux inst es) := by
      simp only [decodedFlux, List.flatMap_cons, fluxSignals, List.filter_append]
    have h' : ∀ r, fluxSignals (decodedFlux inst (e :: r)) =
        fluxSignals (Flux.mapEv decodeString inst e) ++ fluxSignals (decodedFlux inst r) := by
      intro r
      simp only [decodedFlux, List.flatMap_cons, fluxSignals, List.filter_append]
    rw [h, ih]
    cases e with
    | next v => exact (h' (fluxSignals es)).symm
    | complete => exact (h' (fluxSignals es)).symm
    | error v => exact (h' (fluxSignals es)).symm
    | _ => rfl

theorem fluxCallbacks_decoded (inst : Flux.Installed) (es : List (Flux.Ev Pay)) :
    fluxCallbacks (decodedFlux inst es) = fluxCallbacks (decodedFlux inst (fluxCallbacks es)) := by
  induction es with
  | nil => rfl
  | cons e es ih =>
    have h' : ∀ r, fluxCallbacks (decodedFlux inst (e :: r)) =
        fluxCallbacks (Flux.mapEv decodeString inst e) ++ fluxCallbacks (decodedFlux inst r) := by
      intro r
      simp only [decodedFlux, List.flatMap_cons, fluxCallbacks, List.filter_append]
    rw [h', ih]
    cases e with
    | next v => exact (h' (fluxCallbacks es)).symm
    | complete => exact (h' (fluxCallbacks es)).symm
    | error v => exact (h' (fluxCallbacks es)).symm
    | fin v => exact (h' (fluxCallbacks es)).symm
    | _ => rfl

/-- One signal, from the sink of the service to the subscriber of the client. -/
theorem sig_decoded (inst : Flux.Installed) (x : StreamSig)
    (hx : ∀ s, strSig x = .element s → (str s).length < 2 ^ 32) :
    fluxSignals (decodedFlux inst (sigCalls (Flux.mapInstalled inst) (sigOverWire (mapSig encodeString x)))) =
      strCalls inst (strSigOverWire (strSig x)) ∧
    fluxCallbacks (decodedFlux inst (sigCallbacks (Flux.mapInstalled inst) (sigOverWire (mapSig encodeString x)))) =
      strCallbacks inst (strSigOverWire (strSig x)) := by
  obtain ⟨a1, a2, a3, a4, a5, a6⟩ := inst
  cases x with
  | element p =>
    obtain ⟨w, h1, h2⟩ := string_coded p.data p.metadata [] (hx _ rfl)
    have h1 : encodeString p = .ok ⟨w, []⟩ := h1
    simp only [mapSig, h1, sigOverWire, sigCalls, sigCallbacks, Flux.mapInstalled, strSig, strSigOverWire, strCalls, strCallbacks,
      decodedFlux, List.flatMap_cons, List.flatMap_nil, Flux.mapEv, h2, if_true]
    cases a1 <;> exact ⟨rfl, rfl⟩
  | complete =>
    simp only [mapSig, sigOverWire, sigCalls, sigCallbacks, Flux.mapInstalled, strSig, strSigOverWire, strCalls, strCallbacks]
    cases a2 <;> cases a5 <;> exact ⟨rfl, rfl⟩
  | error e =>
    cases e <;>
    simp only [mapSig, sigOverWire, sigCalls, sigCallbacks, Flux.mapInstalled, strSig, strSigOverWire, strCalls, strCallbacks] <;>
    cases a3 <;> cases a5 <;> exact ⟨rfl, rfl⟩

theorem sigs_decoded (inst : Flux.Installed) (l : List StreamSig) (hl : allShort (l.map strSig)) :
    fluxSignals (decodedFlux inst (((l.map (mapSig encodeString)).map sigOverWire).flatMap (sigCalls (Flux.mapInstalled inst)))) =
      ((l.map strSig).map strSigOverWire).flatMap (strCalls inst) ∧
    fluxCallbacks (decodedFlux inst
        (((l.map (mapSig encodeString)).map sigOverWire).flatMap (sigCallbacks (Flux.mapInstalled inst)))) =
      ((l.map strSig).map strSigOverWire).flatMap (strCallbacks inst) := by
  induction l with
  | nil => exact ⟨rfl, rfl⟩
  | cons x l ih =>
    have h1 := sig_decoded inst x (fun s hs => hl s (by rw [List.map_cons, hs]; exact List.mem_cons_self))
    have h2 := ih (fun s hs => hl s (List.mem_cons_of_mem _ hs))
    simp only [List.map_cons, List.flatMap_cons]
    constructor
    · rw [← h1.1, ← h2.1]
      simp only [decodedFlux, List.flatMap_append, fluxSignals, List.filter_append]
    · rw [← h1.2, ← h2.2]
      simp only [decodedFlux, List.flatMap_append, fluxCallbacks, List.filter_append]

theorem cutAtEnd_idem (l : List StreamSig) : cutAtEnd (cutAtEnd l) = cutAtEnd l := by
  induction l with
  | nil => rfl
  | cons x l ih => cases x <;> simp [cutAtEnd, StreamSig.ends, ih]

/-- What the flux of the handler says are the encodings of what the flux of the service says. -/
theorem fluxSaid_encoded (m : StrFlux) (sigs : List StreamSig) :
    ∃ l, relayed m.encoded sigs = l.map (mapSig encodeString) ∧ fluxSaid m sigs = l.map strSig ∧ cutAtEnd l = l := by
  cases m with
  | created => exact ⟨cutAtEnd sigs, rfl, rfl, cutAtEnd_idem sigs⟩
  | failed e => exact ⟨[.error e], rfl, rfl, rfl⟩

theorem cutAtEnd_coded (l : List StreamSig) (h : cutAtEnd l = l) (hl : allShort (l.map strSig)) :
    cutAtEnd (l.map (mapSig encodeString)) = l.map (mapSig encodeString) := by
  induction l with
  | nil => rfl
  | cons x l ih =>
    cases x with
    | element p =>
      obtain ⟨w, h1, -⟩ := string_coded p.data p.metadata [] (hl p.data (by simp [strSig]))
      have h1 : encodeString p = .ok ⟨w, []⟩ := h1
      have h2 : cutAtEnd l = l := by simpa [cutAtEnd, StreamSig.ends] using h
      have h3 := ih h2 (fun s hs => hl s (List.mem_cons_of_mem _ hs))
      simp [mapSig, h1, cutAtEnd, StreamSig.ends, h3]
    | complete =>
      have : l = [] := by simpa [cutAtEnd, StreamSig.ends] using h.symm
      subst this; rfl
    | error e =>
      have : l = [] := by simpa [cutAtEnd, StreamSig.ends] using h.symm
      subst this; rfl

/-- The part common to all transports and both kinds of streams. -/
theorem typed_streamed {run : List Act → Go (Handler.Out H)} {as : List Act} {k : Kind} {id : UInt32} {p : Pay}
    {given : StrFlux → Prop} {inst : Flux.Installed} {over : Prop} {seen : List (Flux.Ev Pay)}
    (streamed : List StreamSig → Prop)
    (hh : ∀ r, streamed r → (r = [] ∧ StreamSaid run as k id p given []) ∨
      ∃ m sigs, r = relayed m.encoded sigs ∧ StreamSaid run as k id p given (fluxSaid m sigs))
    (h1 : fluxSignals seen = [] ∨ ∃ r, streamed r ∧ ∃ q, q <+: cutAtEnd r ∧
      fluxSignals seen = (q.map sigOverWire).flatMap (sigCalls (Flux.mapInstalled inst)))
    (h2 : over → ∃ r, streamed r ∧
      fluxCallbacks seen = ((cutAtEnd r).map sigOverWire).flatMap (sigCallbacks (Flux.mapInstalled inst))) :
    typedStreamed allShort run as k id p given inst over (decodedFlux inst seen) := by
  unfold typedStreamed
  rw [fluxSignals_decoded, fluxCallbacks_decoded]
  refine ⟨?_, fun ho => ?_⟩
  · rcases h1 with h1 | ⟨r, h1, q, h3, h4⟩
    · rw [h1]; exact .inl rfl
    · rcases hh r h1 with ⟨rfl, h5⟩ | ⟨m, sigs, rfl, h5⟩
      · have : q = [] := List.prefix_nil.1 h3
        subst this
        rw [h4]; exact .inl rfl
      · obtain ⟨l, h6, h7, h8⟩ := fluxSaid_encoded m sigs
        rw [h7] at h5
        refine .inr ⟨_, h5, fun hs => ?_⟩
        rw [h6, cutAtEnd_coded l h8 hs] at h3
        obtain ⟨l', h9, rfl⟩ := map_prefix_inv _ h3
        refine ⟨l'.map strSig, h9.map strSig, ?_⟩
        rw [h4]
        exact (sigs_decoded inst l' (fun s hm => hs s ((h9.map strSig).subset hm))).1
  · obtain ⟨r, h3, h4⟩ := h2 ho
    rcases hh r h3 with ⟨rfl, h5⟩ | ⟨m, sigs, rfl, h5⟩
    · refine ⟨[], h5, fun _ => ?_⟩
      rw [h4]; rfl
    · obtain ⟨l, h6, h7, h8⟩ := fluxSaid_encoded m sigs
      rw [h7] at h5
      refine ⟨_, h5, fun hs => ?_⟩
      rw [h4, h6, cutAtEnd_coded l h8 hs]
      exact (sigs_decoded inst l hs).2

theorem serves_record {run : List Act → Go (Handler.Out H)} {as : List Act} {c : Codec ρ} {ok : Val → Prop}
    (hc : RecordOK c.fields c.encode c.field c.zero ok) {r : ρ} (hr : c.short r) {op : UInt32} {p : Pay}
    (hp : requestPay (c.encode (some r)) op = .ok p) (hn : (c.fields r).length < 2 ^ 32) {svc : ρ → StrFlux → Prop}
    (hs : ServesStream run as c svc op) {as1 as2 : List Act} {t : Nat} {ret : Ret} {s1 : St H} {t1 : List (Handler.Ev H)}
    {id n : UInt32} (h : RanIn run as as1 as2 t ret s1 t1 .rs id p.data p.metadata n) :
    ∃ m, svc r m ∧ ret.flux = m.encoded := by
  obtain ⟨hm, f0, hd⟩ := request_decoded hc hr hp hn
  obtain ⟨reply, h5, f1, h6⟩ := hs _ _ _ _ _ _ _ _ _ _ h (by rw [hm, opIdOf_be32])
  have h6 := h6 (max f0 f1) (by omega)
  simp only [streamRequest, hd (max f0 f1) (by omega)] at h6
  injection h6 with h6
  exact ⟨reply r, h5 r, h6.symm⟩

/-- What a served request comes to, over TCP. -/
theorem streamed_said {reg : Registry H} {client : Bool} {k : Kind} {id : UInt32} {p : Pay} {as : List Act} {r : List StreamSig}
    {given : StrFlux → Prop} (hex : (exported reg k p.metadata).isSome = true)
    (hg : ∀ as1 as2 t ret s1 t1 n, RanIn (Handler.run reg client) as as1 as2 t ret s1 t1 k id p.data p.metadata n →
      ∃ m, given m ∧ ret.flux = m.encoded) (h : Streamed reg client k id p as r) :
    (r = [] ∧ StreamSaid (Handler.run reg client) as k id p given []) ∨
      ∃ m sigs, r = relayed m.encoded sigs ∧ StreamSaid (Handler.run reg client) as k id p given (fluxSaid m sigs) := by
  cases h with
  | rejected as1 as2 t ret s1 t1 n ran bad => rw [bad] at hex; cases hex
  | waiting as1 as2 t ret s1 t1 n ran good s tr n' now task =>
    have ran' : RanIn (Handler.run reg client) as as1 as2 t ret s1 t1 k id p.data p.metadata n := ⟨ran.split, ran.before, ran.task⟩
    obtain ⟨m, h1, h2⟩ := hg _ _ _ _ _ _ _ ran'
    exact .inl ⟨rfl, .waiting as1 as2 t ret s1 t1 n m ran' h1 h2 s tr n' now task⟩
  | served as1 as2 t ret s1 t1 n ran good as3 as4 t' ret' s3 t3 n' split before task =>
    have ran' : RanIn (Handler.run reg client) as as1 as2 t ret s1 t1 k id p.data p.metadata n := ⟨ran.split, ran.before, ran.task⟩
    obtain ⟨m, h1, h2⟩ := hg _ _ _ _ _ _ _ ran'
    exact .inr ⟨m, _, by rw [h2], .served as1 as2 t ret s1 t1 n m ran' h1 h2 as3 as4 t' ret' s3 t3 n' split before task⟩

/-- The same between host and guest. -/
theorem streamedOn_said {side : Side} {reg : Registry H} {k : Kind} {id : UInt32} {p : Pay} {as : List Act}
    {r : List StreamSig} {given : StrFlux → Prop} (hex : (exported reg k p.metadata).isSome = true)
    (hg : ∀ as1 as2 t ret s1 t1 n, RanIn (Wasm.run side reg) as as1 as2 t ret s1 t1 k id p.data p.metadata n →
      ∃ m, given m ∧ ret.flux = m.encoded) (h : StreamedOn side reg k id p as r) :
    (r = [] ∧ StreamSaid (Wasm.run side reg) as k id p given []) ∨
      ∃ m sigs, r = relayed m.encoded sigs ∧ StreamSaid (Wasm.run side reg) as k id p given (fluxSaid m sigs) := by
  cases h with
  | rejected as1 as2 t ret s1 t1 n ran bad => rw [bad] at hex; cases hex
  | waiting as1 as2 t ret s1 t1 n ran good s tr n' now task =>
    have ran' : RanIn (Wasm.run side reg) as as1 as2 t ret s1 t1 k id p.data p.metadata n := ⟨ran.split, ran.before, ran.task⟩
    obtain ⟨m, h1, h2⟩ := hg _ _ _ _ _ _ _ ran'
    exact .inl ⟨rfl, .waiting as1 as2 t ret s1 t1 n m ran' h1 h2 s tr n' now task⟩
  | served as1 as2 t ret s1 t1 n ran good as3 as4 t' ret' s3 t3 n' split before task =>
    have ran' : RanIn (Wasm.run side reg) as as1 as2 t ret s1 t1 k id p.data p.metadata n := ⟨ran.split, ran.before, ran.task⟩
    obtain ⟨m, h1, h2⟩ := hg _ _ _ _ _ _ _ ran'
    exact .inr ⟨m, _, by rw [h2], .served as1 as2 t ret s1 t1 n m ran' h1 h2 as3 as4 t' ret' s3 t3 n' split before task⟩

/-- C113 over TCP, partial: `CountToN`. Missing: what C111 misses, and strings of 2^32 bytes and more. -/
theorem C113_tcp_partial (H : Type) : C113_for H counterCodec := by
  intro regA callsB client pre mid post t0 t r op ns opn h p src inst start svc hf hx hr hp hcall ht ha hb hs
  have hn : (counterCodec.fields r).length < 2 ^ 32 := by show 1 < 2 ^ 32; omega
  have hm := (request_decoded counter_ok hr hp hn).1
  obtain ⟨h1, h2⟩ := C111_stream_partial _ _ _ _ _ _ _ _ _ _ _ _ _ hcall ht ha hb (fun hk => by cases hk)
  exact typed_streamed _ (fun _ => streamed_said (by rw [hm]; exact named_exported callsB hf .rs op _ hx)
    (fun as1 as2 t ret s1 t1 n hran => serves_record counter_ok hr hp hn hs hran)) h1 (fun ho => h2 ho.1 ho.2.1 ho.2.2)

/-- C113 over TCP for channels, partial: `Uppercase`. Missing also: what C91 misses. -/
theorem C113_channel_partial (H : Type) : C113_channel_for H := by
  intro regA callsB client pre mid post t0 t op ns opn h m inst start svc hf hx hcall ht ha hb hin hs
  obtain ⟨h1, h2⟩ := C111_stream_partial _ _ _ _ _ _ _ _ _ _ _ _ _ hcall ht ha hb (fun _ => hin)
  exact typed_streamed _ (fun _ => streamed_said (named_exported callsB hf .rc op _ hx)
    (fun as1 as2 t ret s1 t1 n hran => hs _ _ _ _ _ _ _ _ _ _ hran (opIdOf_be32 op _))) h1 (fun ho => h2 ho.1 ho.2.1 ho.2.2)

/-- C113 between host and guest: `CountToN`. -/
theorem C113_wasm_partial (H : Type) : C113_wasm_for H counterCodec := by
  intro side regA callsB pre mid post s0 s r op ns opn h p src inst start svc hf hx hr hp hcall ht hs
  have hn : (counterCodec.fields r).length < 2 ^ 32 := by show 1 < 2 ^ 32; omega
  have hm := (request_decoded counter_ok hr hp hn).1
  exact typed_streamed _ (fun _ => streamedOn_said (by rw [hm]; exact named_exported callsB hf .rs op _ hx)
    (fun as1 as2 t ret s1 t1 n hran => serves_record counter_ok hr hp hn hs hran))
    (C99_stream _ _ _ _ _ _ _ _ _ _ _ _ _ hcall ht (fun hk => by cases hk))
    (fun ho => C99_completes _ _ _ _ _ _ _ _ _ _ _ _ _ hcall ht (fun hk => by cases hk) ho.1 ho.2.1 ho.2.2)

/-- C113 between host and guest for channels: `Uppercase`. -/
theorem C113_wasm_channel_partial (H : Type) : C113_wasm_channel_for H := by
  intro side regA callsB pre mid post s0 s op ns opn h m inst start svc hf hx hcall ht hin hs
  exact typed_streamed _ (fun _ => streamedOn_said (named_exported callsB hf .rc op _ hx)
    (fun as1 as2 t ret s1 t1 n hran => hs _ _ _ _ _ _ _ _ _ _ hran (opIdOf_be32 op _)))
    (C99_stream _ _ _ _ _ _ _ _ _ _ _ _ _ hcall ht (fun _ => hin))
    (fun ho => C99_completes _ _ _ _ _ _ _ _ _ _ _ _ _ hcall ht (fun _ => hin) ho.1 ho.2.1 ho.2.2)

/-- C113 as stated in English, for streams: strings of every size, over TCP and between host and guest. -/
def C113_statement (H : Type) {ρ : Type} (c : Codec ρ) : Prop :=
  (∀ (regA : Registry H) (callsB : List (Invoke.Call H)) (client : Bool) (pre mid post : List TcpSystem.Move)
    (t0 t : TcpSystem.Sys H) (r : ρ) (op : UInt32) (ns opn : Bytes) (h : H) (p : Pay) (src : Src) (inst : Flux.Installed)
    (start : List Flux.Call) (svc : ρ → StrFlux → Prop),
    fewCalls callsB → (exportsOf .rs callsB)[op.toNat]? = some (ns, opn, h) →
    requestPay (c.encode (some r)) op = .ok p →
    tcpStream regA (Invoke.run Registry.init callsB) client pre t0 .rs p src mid (Flux.mapInstalled inst) start post t →
    TcpTidy t → ServesStream (Handler.run (Invoke.run Registry.init callsB) (!client)) t.histB c svc op →
    typedStreamed (fun _ => True) (Handler.run (Invoke.run Registry.init callsB) (!client)) t.histB .rs (callId t0.a) p (svc r)
      inst
      ((∃ f, f.streamID = callId t0.a ∧ .request f ∈ sentFrames t.trA) ∧
        .cancelled ∉ fluxEvs t0.a.objs.length t.trA ∧ tcpSettled t (callId t0.a))
      (decodedFlux inst (fluxEvs t0.a.objs.length t.trA))) ∧
  (∀ (side : Side) (regA : Registry H) (callsB : List (Invoke.Call H)) (pre mid post : List System.Move)
    (s0 s : System.Sys H) (r : ρ) (op : UInt32) (ns opn : Bytes) (h : H) (p : Pay) (src : Src) (inst : Flux.Installed)
    (start : List Flux.Call) (svc : ρ → StrFlux → Prop),
    fewCalls callsB → (exportsOf .rs callsB)[op.toNat]? = some (ns, opn, h) →
    requestPay (c.encode (some r)) op = .ok p →
    wasmStream side regA (Invoke.run Registry.init callsB) pre s0 .rs p src mid (Flux.mapInstalled inst) start post s → Tidy s →
    ServesStream (Wasm.run (Wasm.Side.other side) (Invoke.run Registry.init callsB)) s.histB c svc op →
    typedStreamed (fun _ => True) (Wasm.run (Wasm.Side.other side) (Invoke.run Registry.init callsB)) s.histB .rs
      (callId s0.a) p (svc r) inst
      (requestSent s (callId s0.a) ∧ .cancelled ∉ fluxEvs s0.a.objs.length s.trA ∧ settled s (callId s0.a))
      (decodedFlux inst (fluxEvs s0.a.objs.length s.trA)))

/-! ## Where handlers ran in a concrete history -/

/-- The requests that were run, by their position in the history. -/
def ranInAll (run : List Act → Go (Handler.Out H)) (as : List Act) : List (Option (Kind × UInt32 × Bytes × Bytes)) :=
  (List.range as.length).map fun i =>
    match (as[i]? : Option Act) with
    | some (.run t _) =>
      match run (as.take i) with
      | .ok (s, _) => match s.tasks[t]? with
        | some (.request k id data md _) => some (k, id, data, md)
        | _ => none
      | _ => none
    | _ => none

theorem ranIn_all {run : List Act → Go (Handler.Out H)} {as as1 as2 : List Act} {t : Nat} {ret : Ret} {s1 : St H}
    {t1 : List (Handler.Ev H)} {k : Kind} {id : UInt32} {data md : Bytes} {n : UInt32}
    (h : RanIn run as as1 as2 t ret s1 t1 k id data md n) : some (k, id, data, md) ∈ ranInAll run as := by
  refine List.mem_map.2 ⟨as1.length, List.mem_range.2 (by rw [h.split]; simp), ?_⟩
  have h1 : as[as1.length]? = some (.run t ret) := by rw [h.split]; simp
  have h2 : as.take as1.length = as1 := by rw [h.split]; simp
  simp only [h1, h2, h.before, h.task]

/-- Every handler that ran returned the flux of a service that returns `m`, and was given this request. -/
theorem servesStream_of {run : List Act → Go (Handler.Out H)} {as : List Act} {c : Codec ρ} {r : ρ} {d : Bytes} {m : StrFlux}
    {op : UInt32} (hret : ∀ i ret, .run i ret ∈ as → ret.flux = m.encoded)
    (hall : ∀ x ∈ ranInAll run as, x = none ∨ x.map (·.2.2.1) = some d)
    (hok : ∃ f0, ∀ f, f0 ≤ f → decodeRequest f c.field c.zero d = some (.ok r)) :
    ServesStream run as c (fun _ m' => m' = m) op := by
  intro as1 as2 t ret s1 t1 id data md n h _
  have h1 := hret t ret (by rw [h.split]; simp)
  have h2 := hall _ (ranIn_all h)
  simp only [reduceCtorEq, false_or, Option.map_some, Option.some.injEq] at h2
  obtain ⟨f0, hok⟩ := hok
  refine ⟨fun _ => m, fun _ => rfl, f0, fun f hf => ?_⟩
  rw [h2, h1]
  simp only [streamRequest, hok f hf]

theorem servesChannel_of {run : List Act → Go (Handler.Out H)} {as : List Act} {m : StrFlux} {op : UInt32}
    (hret : ∀ i ret, .run i ret ∈ as → ret.flux = m.encoded) : ServesChannel run as (fun m' => m' = m) op :=
  fun _ _ t ret _ _ _ _ _ _ h _ => ⟨m, rfl, hret t ret (by rw [h.split]; simp)⟩

end

/-! ## Concrete runs -/

/-- The end B of the examples: a stream operation and a channel operation. -/
def exports113 : List (Invoke.Call Unit) := [.exp .rs [1] [2] (), .exp .rc [1] [2] ()]

def inst113 : Flux.Installed := ⟨true, true, true, true, true, false⟩

/-- `CountToN` with `to = 3`, as the client encodes it. -/
def count113 : Pay := ⟨[0x81, 0xa2, 0x74, 0x6f, 0x03], eightZeros⟩

theorem request113 : requestPay (counterCodec.encode (some ⟨3⟩)) 0 = .ok count113 := by
  have h1 : (match requestPay (counterCodec.encode (some ⟨3⟩)) 0 with | .ok p => some p | _ => none) = some count113 := by
    decide +kernel
  split at h1
  · rename_i p hp; rw [hp]; cases h1; rfl
  · cases h1

theorem short113 : counterCodec.short ⟨3⟩ := by unfold Codec.short; decide +kernel

/-- What the handlers return: the flux of a service that is `Create`d. -/
def ret113 (kept : Bool) : Ret := ⟨.created, .mapped encodeString, kept⟩

/-- The request goes over, B serves it, and its source says "1", "2" and completes. -/
def moves113 : List TcpSystem.Move :=
  [.atA (.run 0 retCreated), .carryAB 4, .readB, .carryAB 99, .readB, .toB noReact, .atB (.run 0 (ret113 true)),
   .atB (.run 0 (ret113 true)), .atB (.run 0 (ret113 true)), .atB (.out 0 (.next ⟨ascii "1", []⟩)),
   .atB (.out 0 (.next ⟨ascii "2", []⟩)),
   .atB (.out 0 .complete), .carryBA 99, .readA, .toA noReact, .readA, .readA, .toA noReact, .toA noReact]

def whole113 (k : Kind) (p : Pay) (src : Src) : List TcpSystem.Move :=
  [] ++ .atA (.call k p src) :: [] ++ .atA (.subscribeFlux 0 (Flux.mapInstalled inst113) [.request 3]) :: moves113

def end113 (k : Kind) (p : Pay) (src : Src) : TcpSystem.Sys Unit :=
  tcpAfter (TcpSystem.run oneHandler (Invoke.run Registry.init exports113) true (whole113 k p src))

theorem rets113 {k : Kind} {p : Pay} {src : Src}
    (h : TcpSystem.run oneHandler (Invoke.run Registry.init exports113) true (whole113 k p src) = .ok (end113 k p src)) :
    ∀ i ret, .run i ret ∈ (end113 k p src).histB → ret.flux = StrFlux.created.encoded := by
  intro i ret hm
  rcases tcp_hist_moves h i ret hm with h3 | h3
  · cases h3
  · simp only [whole113, moves113, List.nil_append, List.cons_append, List.mem_cons, reduceCtorEq, false_or,
      TcpSystem.Move.atB.injEq, Act.run.injEq, List.not_mem_nil, or_false] at h3
    rcases h3 with ⟨-, rfl⟩ | ⟨-, rfl⟩ | ⟨-, rfl⟩ <;> rfl

/-- The hypotheses of C113_tcp_partial are met, and the caller of `CountToN` sees all of it. -/
example : fewCalls exports113 ∧ (exportsOf .rs exports113)[(0 : UInt32).toNat]? = some ([1], [2], ()) ∧
    counterCodec.short ⟨3⟩ ∧ requestPay (counterCodec.encode (some ⟨3⟩)) 0 = .ok count113 ∧
    tcpStream oneHandler (Invoke.run Registry.init exports113) true []
      (.init oneHandler (Invoke.run Registry.init exports113) true) .rs count113 .created [] (Flux.mapInstalled inst113)
      [.request 3] moves113 (end113 .rs count113 .created) ∧
    TcpTidy (end113 .rs count113 .created) ∧ below4G (end113 .rs count113 .created).trA ∧
    below4G (end113 .rs count113 .created).trB ∧
    ServesStream (Handler.run (Invoke.run Registry.init exports113) (!true)) (end113 .rs count113 .created).histB counterCodec
      (fun _ m => m = .created) 0 ∧
    fluxCallbacks (decodedFlux inst113 (fluxEvs 0 (end113 .rs count113 .created).trA)) =
      [.next (ascii "1"), .next (ascii "2"), .complete, .fin .complete] := by
  have hrun : TcpSystem.run oneHandler (Invoke.run Registry.init exports113) true (whole113 .rs count113 .created) =
      .ok (end113 .rs count113 .created) := tcp_ok (by decide +kernel)
  refine ⟨by show 2 < 2 ^ 32; omega, by decide +kernel, short113, request113,
    ⟨.inl rfl, rfl, (fun _ _ h => by cases h), hrun⟩,
    tcpTidy_of (by decide +kernel) (by decide +kernel) (by decide +kernel) (by decide +kernel),
    by unfold below4G; decide +kernel, by unfold below4G; decide +kernel, ?_, by decide +kernel⟩
  exact servesStream_of (d := count113.data) (rets113 hrun) (by decide +kernel)
    (request_decoded counter_ok short113 request113 (by show 1 < 2 ^ 32; omega)).2

/-- The hypotheses of C113_channel_partial are met, and the caller of `Uppercase` sees all of it. -/
example : fewCalls exports113 ∧ (exportsOf .rc exports113)[(0 : UInt32).toNat]? = some ([1], [2], ()) ∧
    tcpStream oneHandler (Invoke.run Registry.init exports113) true []
      (.init oneHandler (Invoke.run Registry.init exports113) true) .rc (channelPay 0) (channelInput .created) []
      (Flux.mapInstalled inst113) [.request 3] moves113 (end113 .rc (channelPay 0) (channelInput .created)) ∧
    TcpTidy (end113 .rc (channelPay 0) (channelInput .created)) ∧
    below4G (end113 .rc (channelPay 0) (channelInput .created)).trA ∧
    below4G (end113 .rc (channelPay 0) (channelInput .created)).trB ∧
    .cancel ⟨1⟩ ∉ sentFrames (end113 .rc (channelPay 0) (channelInput .created)).trB ∧
    ServesChannel (Handler.run (Invoke.run Registry.init exports113) (!true))
      (end113 .rc (channelPay 0) (channelInput .created)).histB (fun m => m = .created) 0 ∧
    fluxCallbacks (decodedFlux inst113 (fluxEvs 0 (end113 .rc (channelPay 0) (channelInput .created)).trA)) =
      [.next (ascii "1"), .next (ascii "2"), .complete, .fin .complete] := by
  have hrun : TcpSystem.run oneHandler (Invoke.run Registry.init exports113) true
      (whole113 .rc (channelPay 0) (channelInput .created)) =
      .ok (end113 .rc (channelPay 0) (channelInput .created)) := tcp_ok (by decide +kernel)
  exact ⟨by show 2 < 2 ^ 32; omega, by decide +kernel, ⟨.inr rfl, rfl, (fun _ _ h => by cases h), hrun⟩,
    tcpTidy_of (by decide +kernel) (by decide +kernel) (by decide +kernel) (by decide +kernel),
    by unfold below4G; decide +kernel, by unfold below4G; decide +kernel, by decide +kernel,
    servesChannel_of (rets113 hrun), by decide +kernel⟩

/-- The same between host and guest. -/
def begin113 (side : Side) : List System.Move :=
  [.atA (.run 0 (retOn side)), .toB noReact, .atB (.run 0 (ret113 (Wasm.keeps (Wasm.Side.other side)))),
   .atB (.run 0 (ret113 (Wasm.keeps (Wasm.Side.other side))))]

def wasmMoves113 (side : Side) : List System.Move :=
  begin113 side ++ [.atB (.out 0 (.next ⟨ascii "1", []⟩)), .toA noReact,
    .atB (.out 0 (.next ⟨ascii "2", []⟩)), .atB (.out 0 .complete), .toA noReact, .toA noReact]

def wasmWhole113 (k : Kind) (p : Pay) (src : Src) (ms : List System.Move) : List System.Move :=
  [] ++ .atA (.call k p src) :: [] ++ .atA (.subscribeFlux 0 (Flux.mapInstalled inst113) [.request 3]) :: ms

def wasmEnd113 (side : Side) (k : Kind) (p : Pay) (src : Src) (ms : List System.Move) : System.Sys Unit :=
  sysAfter (Wasm.runSys side oneHandler (Invoke.run Registry.init exports113) (wasmWhole113 k p src ms))

theorem wasmRets113 {side : Side} {k : Kind} {p : Pay} {src : Src} {ms : List System.Move}
    (hms : ∀ i ret, .atB (.run i ret) ∈ ms → ret.flux = StrFlux.created.encoded)
    (h : Wasm.runSys side oneHandler (Invoke.run Registry.init exports113) (wasmWhole113 k p src ms) =
      .ok (wasmEnd113 side k p src ms)) :
    ∀ i ret, .run i ret ∈ (wasmEnd113 side k p src ms).histB → ret.flux = StrFlux.created.encoded := by
  intro i ret hm
  rcases wasm_hist_moves h i ret hm with h3 | h3
  · cases h3
  · simp only [wasmWhole113, List.nil_append, List.cons_append, List.mem_cons, reduceCtorEq, false_or] at h3
    exact hms i ret h3

theorem wasmMoves113_rets (side : Side) : ∀ i ret, .atB (.run i ret) ∈ wasmMoves113 side →
    ret.flux = StrFlux.created.encoded := by
  intro i ret h3
  simp only [wasmMoves113, begin113, List.cons_append, List.nil_append, List.mem_cons, reduceCtorEq, false_or,
      System.Move.atB.injEq, Act.run.injEq, List.not_mem_nil, or_false] at h3
  rcases h3 with ⟨-, rfl⟩ | ⟨-, rfl⟩ <;> rfl

/-- The hypotheses of C113_wasm_partial are met, whoever calls. -/
example (side : Side) : fewCalls exports113 ∧ (exportsOf .rs exports113)[(0 : UInt32).toNat]? = some ([1], [2], ()) ∧
    counterCodec.short ⟨3⟩ ∧ requestPay (counterCodec.encode (some ⟨3⟩)) 0 = .ok count113 ∧
    wasmStream side oneHandler (Invoke.run Registry.init exports113) []
      (.init oneHandler (Invoke.run Registry.init exports113) (Wasm.Side.client side)) .rs count113 .created []
      (Flux.mapInstalled inst113) [.request 3] (wasmMoves113 side) (wasmEnd113 side .rs count113 .created (wasmMoves113 side)) ∧
    Tidy (wasmEnd113 side .rs count113 .created (wasmMoves113 side)) ∧
    ServesStream (Wasm.run (Wasm.Side.other side) (Invoke.run Registry.init exports113))
      (wasmEnd113 side .rs count113 .created (wasmMoves113 side)).histB counterCodec (fun _ m => m = .created) 0 ∧
    fluxCallbacks (decodedFlux inst113 (fluxEvs 0 (wasmEnd113 side .rs count113 .created (wasmMoves113 side)).trA)) =
      [.next (ascii "1"), .next (ascii "2"), .complete, .fin .complete] := by
  have hrun : Wasm.runSys side oneHandler (Invoke.run Registry.init exports113)
      (wasmWhole113 .rs count113 .created (wasmMoves113 side)) =
      .ok (wasmEnd113 side .rs count113 .created (wasmMoves113 side)) := sys_ok (by cases side <;> decide +kernel)
  refine ⟨by show 2 < 2 ^ 32; omega, by decide +kernel, short113, request113,
    ⟨.inl rfl, rfl, (fun _ _ h => by cases h), hrun⟩, tidy_of ?_ ?_ ?_ ?_,
    servesStream_of (d := count113.data) (wasmRets113 (wasmMoves113_rets side) hrun) ?_
      (request_decoded counter_ok short113 request113 (by show 1 < 2 ^ 32; omega)).2, ?_⟩
  all_goals cases side <;> decide +kernel

/-- The hypotheses of C113_wasm_channel_partial are met, whoever calls. -/
example (side : Side) : fewCalls exports113 ∧ (exportsOf .rc exports113)[(0 : UInt32).toNat]? = some ([1], [2], ()) ∧
    wasmStream side oneHandler (Invoke.run Registry.init exports113) []
      (.init oneHandler (Invoke.run Registry.init exports113) (Wasm.Side.client side)) .rc (channelPay 0)
      (channelInput .created) [] (Flux.mapInstalled inst113) [.request 3] (wasmMoves113 side)
      (wasmEnd113 side .rc (channelPay 0) (channelInput .created) (wasmMoves113 side)) ∧
    Tidy (wasmEnd113 side .rc (channelPay 0) (channelInput .created) (wasmMoves113 side)) ∧
    inputKept (wasmEnd113 side .rc (channelPay 0) (channelInput .created) (wasmMoves113 side))
      (callId (St.init oneHandler (Wasm.Side.client side))) ∧
    ServesChannel (Wasm.run (Wasm.Side.other side) (Invoke.run Registry.init exports113))
      (wasmEnd113 side .rc (channelPay 0) (channelInput .created) (wasmMoves113 side)).histB (fun m => m = .created) 0 ∧
    fluxCallbacks (decodedFlux inst113
      (fluxEvs 0 (wasmEnd113 side .rc (channelPay 0) (channelInput .created) (wasmMoves113 side)).trA)) =
      [.next (ascii "1"), .next (ascii "2"), .complete, .fin .complete] := by
  have hrun : Wasm.runSys side oneHandler (Invoke.run Registry.init exports113)
      (wasmWhole113 .rc (channelPay 0) (channelInput .created) (wasmMoves113 side)) =
      .ok (wasmEnd113 side .rc (channelPay 0) (channelInput .created) (wasmMoves113 side)) :=
    sys_ok (by cases side <;> decide +kernel)
  refine ⟨by show 2 < 2 ^ 32; omega, by decide +kernel, ⟨.inr rfl, rfl, (fun _ _ h => by cases h), hrun⟩, tidy_of ?_ ?_ ?_ ?_,
    ?_, servesChannel_of (wasmRets113 (wasmMoves113_rets side) hrun), ?_⟩
  case refine_5 => unfold inputKept; cases side <;> decide +kernel
  all_goals cases side <;> decide +kernel

/-! ## An element of 4 GiB -/

theorem next_same (st : Flux.State) (tx : Pay → Except String Pay) {p q : Pay} (hpq : tx p = tx q) :
    (Flux.next st p [] []).1 = (Flux.next st q [] []).1 ∧
    throughMap (.mapped tx) (Flux.next st p [] []).2 = throughMap (.mapped tx) (Flux.next st q [] []).2 := by
  have h1 : ∀ m : Flux.State, (Flux.onNext m p []).1 = (Flux.onNext m q []).1 := by
    intro m
    simp only [Flux.onNext]
    split <;> rfl
  have h2 : ∀ m : Flux.State, throughMap (.mapped tx) (Flux.onNext m p []).2 = throughMap (.mapped tx) (Flux.onNext m q []).2 := by
    intro m
    simp only [Flux.onNext]
    split
    · simp only [throughMap, List.flatMap_cons, Flux.mapEv, hpq]
    · rfl
  simp only [Flux.next, h1]
  split
  · exact ⟨rfl, rfl⟩
  · split
    · refine ⟨rfl, ?_⟩
      have h3 := h2 { st with n := st.n - 1 }
      simp only [throughMap, List.flatMap_append] at h3 ⊢
      rw [h3]
    · exact ⟨h1 _, h2 _⟩

/-- The sink of a mapped flux sends what the transformation makes of the element, whatever that was. -/
theorem out_same {side : Side} {s : System.Sys Unit} {j : Nat} {k : Kind} {id : UInt32} {tx : Pay → Except String Pay}
    {st : Flux.State} {a : Bool} {b : Option Flux.State} {p q : Pay}
    (h : s.b.objs[j]? = some (.responder k id (some (.mapped tx, st)) a b)) (hpq : tx p = tx q) {s' : System.Sys Unit}
    (hs : Wasm.stepSys side s (.atB (.out j (.next q))) = .ok s') :
    Wasm.stepSys side s (.atB (.out j (.next p))) = .ok { s' with histB := s.histB ++ [.out j (.next p)] } := by
  have h1 : Wasm.step (Wasm.Side.other side) s.b (.out j (.next p)) = Wasm.step (Wasm.Side.other side) s.b (.out j (.next q)) := by
    have h2 := next_same st tx hpq
    simp only [Wasm.step, Handler.step, h, Src.noSubscription, SrcOp.op, Flux.step, onOut, h2.1, h2.2]
    rfl
  have e : ∀ x, Wasm.stepSys side s (.atB (.out j (.next x))) = Wasm.moveB side s (.out j (.next x)) := fun _ => rfl
  rw [e] at hs ⊢
  simp only [Wasm.moveB] at hs ⊢
  rw [h1]
  split at hs
  · cases hs; rfl
  · cases hs
  · cases hs

theorem toA_hist {side : Side} {s s' : System.Sys Unit} {r : React} {h : List Act}
    (hs : Wasm.stepSys side s (.toA r) = .ok s') :
    Wasm.stepSys side { s with histB := h } (.toA r) = .ok { s' with histB := h } := by
  simp only [Wasm.stepSys] at hs ⊢
  split at hs
  · cases hs; rfl
  · simp only [Wasm.moveA] at hs ⊢
    split at hs
    · cases hs; rfl
    · cases hs
    · cases hs

/-- The run so far: the guest's flux is subscribed to. -/
def ready113 : System.Sys Unit := wasmEnd113 .host .rs count113 .created (begin113 .host)

/-- The guest's source calls its sink with `p`, and the frame goes over. -/
def say113 (p : Pay) : List System.Move := begin113 .host ++ [.atB (.out 0 (.next p)), .toA noReact]

/-- If this is the empty string. -/
def empty113 : System.Sys Unit := wasmEnd113 .host .rs count113 .created (say113 ⟨[], []⟩)

theorem flux113 : ∃ id st a b, ready113.b.objs[0]? = some (.responder .rs id (some (.mapped encodeString, st)) a b) :=
  ⟨_, _, _, _, rfl⟩

theorem sysFrom_append {H : Type} {side : Side} (ms ms' : List System.Move) : ∀ {s s1 : System.Sys H},
    Wasm.runSysFrom side s ms = .ok s1 → Wasm.runSysFrom side s (ms ++ ms') = Wasm.runSysFrom side s1 ms' := by
  induction ms with
  | nil => intro s s1 h; cases h; rfl
  | cons m ms ih =>
    intro s s1 h
    simp only [Wasm.runSysFrom, List.cons_append] at h ⊢
    split at h
    · exact ih h
    · cases h
    · cases h

theorem ready113_run : Wasm.runSys .host oneHandler (Invoke.run Registry.init exports113)
    (wasmWhole113 .rs count113 .created (begin113 .host)) = .ok ready113 := sys_ok (by decide +kernel)

theorem empty113_run : Wasm.runSys .host oneHandler (Invoke.run Registry.init exports113)
    (wasmWhole113 .rs count113 .created (say113 ⟨[], []⟩)) = .ok empty113 := sys_ok (by decide +kernel)

theorem whole113_say (p : Pay) : wasmWhole113 .rs count113 .created (say113 p) =
    wasmWhole113 .rs count113 .created (begin113 .host) ++ [.atB (.out 0 (.next p)), .toA noReact] := rfl

/-- An element of 2^32 bytes arrives as the empty string. -/
theorem huge113_run (s : Bytes) (hl : s.length = 2 ^ 32) :
    Wasm.runSys .host oneHandler (Invoke.run Registry.init exports113)
      (wasmWhole113 .rs count113 .created (say113 ⟨s, []⟩)) =
      .ok { empty113 with histB := ready113.histB ++ [.out 0 (.next ⟨s, []⟩)] } := by
  have h1 := empty113_run
  obtain ⟨id, st, a, b, hf⟩ := flux113
  have h2 : encodeString ⟨s, []⟩ = encodeString ⟨[], []⟩ := by
    rw [encode_4G s [] hl]
    rfl
  unfold Wasm.runSys at h1 ⊢
  rw [whole113_say, sysFrom_append _ _ ready113_run] at h1 ⊢
  simp only [Wasm.runSysFrom] at h1 ⊢
  cases h3 : Wasm.stepSys Side.host ready113 (.atB (.out 0 (.next ⟨[], []⟩))) with
  | ok s1 =>
    rw [h3] at h1
    rw [out_same hf h2 h3]
    dsimp only at h1 ⊢
    cases h4 : Wasm.stepSys Side.host s1 (.toA noReact) with
    | ok s2 =>
      rw [h4] at h1
      rw [toA_hist h4]
      cases h1
      rfl
    | err e => rw [h4] at h1; cases h1
    | panic => rw [h4] at h1; cases h1
  | err e => rw [h3] at h1; cases h1
  | panic => rw [h3] at h1; cases h1

theorem element_mem {i : Nat} {p : Pay} {as : List Act} (h : .element p ∈ cutAtEnd (outSigs i as)) :
    .out i (.next p) ∈ as := by
  have h := cutAtEnd_mem h
  obtain ⟨x, h1, h2⟩ := List.mem_flatMap.1 h
  cases x with
  | out j op =>
    dsimp only at h2
    split at h2
    · subst_vars
      cases op with
      | next q => simp only [srcSigs, List.mem_singleton, StreamSig.element.injEq] at h2; subst h2; exact h1
      | complete => simp [srcSigs] at h2
      | error e => simp [srcSigs] at h2
      | onSubscribe c => simp [srcSigs] at h2
    · cases h2
  | _ => cases h2

/-- A later signal of the source changes nothing about which requests ran. -/
theorem ServesStream.later {H ρ : Type} {run : List Act → Go (Handler.Out H)} {as : List Act} {c : Codec ρ}
    {svc : ρ → StrFlux → Prop} {op : UInt32} (h : ServesStream run as c svc op) (j : Nat) (o : SrcOp) :
    ServesStream run (as ++ [.out j o]) c svc op := by
  intro as1 as2 t ret s1 t1 id data md n hr ho
  have hs := hr.split
  rcases List.eq_nil_or_concat as2 with rfl | ⟨as3, x, rfl⟩
  · have := (List.append_inj' hs rfl).2
    cases this
  · rw [List.concat_eq_append, ← List.cons_append, ← List.append_assoc] at hs
    have := List.append_inj' hs rfl
    exact h as1 as3 t ret s1 t1 id data md n ⟨this.1, hr.before, hr.task⟩ ho

theorem ready113_serves : ServesStream (Wasm.run .guest (Invoke.run Registry.init exports113)) ready113.histB counterCodec
    (fun _ m => m = .created) 0 := by
  refine servesStream_of (d := count113.data) (wasmRets113 ?_ ready113_run) (by decide +kernel)
    (request_decoded counter_ok short113 request113 (by show 1 < 2 ^ 32; omega)).2
  intro i ret h
  exact wasmMoves113_rets .host i ret (List.mem_append_left _ h)

theorem empty113_seen : fluxSignals (decodedFlux inst113 (fluxEvs 0 empty113.trA)) = [.next []] := by decide +kernel

theorem ready113_silent : ∀ a ∈ ready113.histB, (match a with | .out _ _ => false | _ => true) = true := by decide +kernel

theorem tidy113 (h : List Act) (h1 : callCount h = 0) (h2 : h.countP isMonoSub = 0) : Tidy { empty113 with histB := h } :=
  tidy_of (show callCount empty113.histA < 2 ^ 30 by decide +kernel) (by rw [h1]; omega)
    (show empty113.histA.countP isMonoSub ≤ 1 by decide +kernel) (by rw [h2]; omega)

/-- C113 fails for an element of 2^32 bytes: the caller sees an empty string. -/
theorem C113_violated : ¬ C113_statement Unit counterCodec := by
  intro hc
  have hl : (List.replicate (2 ^ 32) (0 : UInt8)).length = 2 ^ 32 := List.length_replicate
  generalize List.replicate (2 ^ 32) (0 : UInt8) = s at hl
  have h1 := (hc.2 .host oneHandler exports113 [] [] (say113 ⟨s, []⟩) _ _ ⟨3⟩ 0 [1] [2] () count113 .created inst113 [.request 3]
    (fun _ m => m = .created) (by show 2 < 2 ^ 32; omega) (by decide +kernel) request113
    ⟨.inl rfl, rfl, (fun _ _ h => by cases h), huge113_run s hl⟩
    (tidy113 _ (by
        have : callCount ready113.histB = 0 := by decide +kernel
        rw [callCount_append, this]; rfl) (by
        have : ready113.histB.countP isMonoSub = 0 := by decide +kernel
        rw [List.countP_append, this]; rfl)) (ready113_serves.later 0 _)).1
  have h0 : (System.Sys.init oneHandler (Invoke.run Registry.init exports113) (Wasm.Side.client .host)).a.objs.length = 0 := rfl
  rw [h0] at h1
  dsimp only at h1
  rw [empty113_seen] at h1
  rcases h1 with h1 | ⟨l, h1, h2⟩
  · cases h1
  · obtain ⟨l', h2, h3⟩ := h2 trivial
    have h4 : StrSig.element [] ∈ l := by
      refine h2.subset ?_
      have h5 : Flux.Ev.next [] ∈ (l'.map strSigOverWire).flatMap (strCalls inst113) := by rw [← h3]; simp
      obtain ⟨x, h6, h7⟩ := List.mem_flatMap.1 h5
      obtain ⟨y, h8, rfl⟩ := List.mem_map.1 h6
      cases y with
      | element z =>
        simp only [strSigOverWire, strCalls, inst113, if_true, List.mem_singleton, Flux.Ev.next.injEq] at h7
        subst h7; exact h8
      | complete => simp [strSigOverWire, strCalls] at h7
      | error e => cases e <;> simp [strSigOverWire, strCalls] at h7
    cases h1 with
    | waiting => cases h4
    | served as1 as2 t ret s1 t1 n m ran gave is as3 as4 t' ret' s3 t3 n' split before task =>
      have gave : m = .created := gave
      subst gave
      obtain ⟨x, h5, h6⟩ := List.mem_map.1 h4
      cases x with
      | element p =>
        have h6 : p.data = [] := by simpa [strSig] using h6
        have h7 : .out s1.objs.length (.next p) ∈ ready113.histB ++ [.out 0 (.next ⟨s, []⟩)] := by
          rw [ran.split, split]
          simp [element_mem h5]
        rcases List.mem_append.1 h7 with h7 | h7
        · cases ready113_silent _ h7
        · have h8 : p = ⟨s, []⟩ := by
            have := List.mem_singleton.1 h7
            simp only [Act.out.injEq, SrcOp.next.injEq] at this
            exact this.2
          rw [h8] at h6
          have h6 : s = [] := h6
          rw [h6] at hl
          cases hl
      | complete => cases h6
      | error e => cases h6

end Verif.Props
