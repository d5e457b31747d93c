import Verif.Props.TypedStreams
import Verif.Props.WasmInput
/-
Properties C114 and C115: the generated clients and handlers of channels of strings.
-/
set_option autoImplicit false
namespace Verif.Props
open Verif Spec Frames Handler Msgpack Typed
open Verif.Invoke (Kind Registry)
open Verif.WasmRecv (Side registers)

section
variable {H : Type}

/-! ## Specification of C114

As for C94 and C105: after `pre`, end A calls `Uppercase` with the input `m`, a `flux.Flux[string]`; the handler of end B serves
the call as its stream number `i`, and its service subscribes to the `flux.Flux[string]` it was given, installing the callbacks
`inst`. -/

/-- What the application's `flux.Flux[string]` `m`, the input of the channel call `j` made at the end of `as1`, has said by the
end of `as1 ++ as2`: nothing before it was subscribed to, what its source has said since otherwise. -/
inductive StrSaid (run : List Act → Go (Handler.Out H)) (as1 : List Act) (j : Nat) (m : StrFlux) (as2 : List Act) :
    List StrSig → Prop
  | waiting (unsub : ∀ as3 as4 t ret s3 t3, as2 = as3 ++ .run t ret :: as4 →
      run (as1 ++ as3) = .ok (s3, t3) → s3.tasks[t]? ≠ some (.subscribeIn j)) :
      StrSaid run as1 j m as2 []
  | subscribed (as3 as4 : List Act) (t : Nat) (ret : Ret) (s3 : St H) (t3 : List (Handler.Ev H))
      (split : as2 = as3 ++ .run t ret :: as4) (before : run (as1 ++ as3) = .ok (s3, t3))
      (task : s3.tasks[t]? = some (.subscribeIn j)) :
      StrSaid run as1 j m as2 (fluxSaid m (inputSigs j as4))

/-- C114: the service sees (`seen`) the beginning of what the caller's application has said on the input, in order and without a
gap; if nothing is under way to it and it has not cancelled (`over`), all of it. -/
def typedInput (ok : List StrSig → Prop) (run : List Act → Go (Handler.Out H)) (s0 s : System.Sys H) (op : UInt32) (m : StrFlux)
    (inst : Flux.Installed) (over : Prop) (seen : List (Flux.Ev Bytes)) : Prop :=
  ∃ rest l, s.histA = s0.histA ++ .call .rc (channelPay op) (channelInput m) :: rest ∧
    StrSaid run (s0.histA ++ [.call .rc (channelPay op) (channelInput m)]) s0.a.objs.length m rest l ∧
    (ok l → (∃ l', l' <+: l ∧ fluxSignals seen = (l'.map strSigOverWire).flatMap (strCalls inst)) ∧
      (over → fluxCallbacks seen = (l.map strSigOverWire).flatMap (strCallbacks inst)))

/-! ## Proof -/

theorem relayed_decoded (inst : Flux.Installed) (m : StrFlux) (sigs q : List StreamSig) (hs : allShort (fluxSaid m sigs))
    (hq : q <+: cutAtEnd (relayed m.encoded sigs)) :
    (∃ l', l' <+: fluxSaid m sigs ∧
      fluxSignals (decodedFlux inst ((q.map sigOverWire).flatMap (sigCalls (Flux.mapInstalled inst)))) =
        (l'.map strSigOverWire).flatMap (strCalls inst)) ∧
    fluxCallbacks (decodedFlux inst
        (((cutAtEnd (relayed m.encoded sigs)).map sigOverWire).flatMap (sigCallbacks (Flux.mapInstalled inst)))) =
      ((fluxSaid m sigs).map strSigOverWire).flatMap (strCallbacks inst) := by
  obtain ⟨l, h6, h7, h8⟩ := fluxSaid_encoded m sigs
  rw [h7] at hs ⊢
  rw [h6, cutAtEnd_coded l h8 hs] at hq ⊢
  obtain ⟨l', h9, rfl⟩ := map_prefix_inv _ hq
  exact ⟨⟨l'.map strSig, h9.map strSig, (sigs_decoded inst l' (fun s hm => hs s ((h9.map strSig).subset hm))).1⟩,
    (sigs_decoded inst l hs).2⟩

/-- The part common to all transports. -/
theorem typed_input {run : List Act → Go (Handler.Out H)} {s0 s : System.Sys H} {op : UInt32} {m : StrFlux}
    {inst : Flux.Installed} {over : Prop} {seen : List (Flux.Ev Pay)} {r q : List StreamSig} {rest : List Act}
    (hh : s.histA = s0.histA ++ .call .rc (channelPay op) (channelInput m) :: rest)
    (hr : (r = [] ∧ StrSaid run (s0.histA ++ [.call .rc (channelPay op) (channelInput m)]) s0.a.objs.length m rest []) ∨
      ∃ sigs, r = relayed (channelInput m) sigs ∧
        StrSaid run (s0.histA ++ [.call .rc (channelPay op) (channelInput m)]) s0.a.objs.length m rest (fluxSaid m sigs))
    (hq : q <+: cutAtEnd r)
    (h1 : fluxSignals seen = (q.map sigOverWire).flatMap (sigCalls (Flux.mapInstalled inst)))
    (h2 : over → fluxCallbacks seen = ((cutAtEnd r).map sigOverWire).flatMap (sigCallbacks (Flux.mapInstalled inst))) :
    typedInput allShort run s0 s op m inst over (decodedFlux inst seen) := by
  unfold typedInput
  rw [fluxSignals_decoded, fluxCallbacks_decoded, h1]
  rcases hr with ⟨rfl, h3⟩ | ⟨sigs, rfl, h3⟩
  · have : q = [] := List.prefix_nil.1 hq
    subst this
    exact ⟨rest, [], hh, h3, fun _ => ⟨⟨[], List.nil_prefix, rfl⟩, fun ho => by rw [h2 ho]; rfl⟩⟩
  · refine ⟨rest, _, hh, h3, fun hs => ?_⟩
    obtain ⟨h4, h5⟩ := relayed_decoded inst m sigs q hs hq
    exact ⟨h4, fun ho => by rw [h2 ho]; exact h5⟩

theorem inputSaid_str {regA : Registry H} {client : Bool} {as1 as2 : List Act} {j : Nat} {m : StrFlux} {r : List StreamSig}
    (h : InputSaid regA client as1 j (channelInput m) as2 r) :
    (r = [] ∧ StrSaid (Handler.run regA client) as1 j m as2 []) ∨
      ∃ sigs, r = relayed (channelInput m) sigs ∧ StrSaid (Handler.run regA client) as1 j m as2 (fluxSaid m sigs) := by
  cases h with
  | waiting unsub => exact .inl ⟨rfl, .waiting unsub⟩
  | subscribed as3 as4 t ret s3 t3 split before task => exact .inr ⟨_, rfl, .subscribed as3 as4 t ret s3 t3 split before task⟩

theorem saidWasm_str {side : Side} {regA : Registry H} {as1 as2 : List Act} {j : Nat} {m : StrFlux} {r : List StreamSig}
    (h : SaidOn side regA as1 j (channelInput m) as2 r) :
    (r = [] ∧ StrSaid (Wasm.run side regA) as1 j m as2 []) ∨
      ∃ sigs, r = relayed (channelInput m) sigs ∧ StrSaid (Wasm.run side regA) as1 j m as2 (fluxSaid m sigs) := by
  cases h with
  | waiting unsub => exact .inl ⟨rfl, .waiting unsub⟩
  | subscribed as3 as4 t ret s3 t3 split before task => exact .inr ⟨_, rfl, .subscribed as3 as4 t ret s3 t3 split before task⟩

/-- C114 between two ends of an rsocket connection, partial. Missing: a caller that cancels the output, elements that arrive before
the service subscribed, strings of 2^32 bytes and more. -/
theorem C114_input_partial (regA regB : Registry H) (client : Bool) (pre mid post : List System.Move) (s0 s1 s : System.Sys H)
    (op : UInt32) (m : StrFlux) (i : Nat) (inst : Flux.Installed) (start : List Flux.Call)
    (h : inputRun regA regB client pre s0 (channelPay op) (channelInput m) mid s1 i (Flux.mapInstalled inst) start post s)
    (ht : Tidy s) (hk : outputKept s (callId s0.a)) (hearly : arrivals (callId s0.a) s1.histB = []) :
    typedInput allShort (Handler.run regA client) s0 s op m inst (.cancelled ∉ inpEvs i s.trB ∧ s.ab = [])
      (decodedFlux inst (inpEvs i s.trB)) := by
  obtain ⟨r, c⟩ := input_called h ht hk hearly
  obtain ⟨rest, h1, h2⟩ := c.said
  obtain ⟨q, q1, q2⟩ := c.part
  obtain ⟨seen, h4, rfl⟩ := map_prefix_inv sigOverWire (q1.trans c.came)
  exact typed_input h1 (inputSaid_str h2) h4 q2 fun ho => by rw [c.whole ho.1, c.all ho.2]

/-- C114 between a wasm host and its guest, in either direction. -/
theorem C114_wasm_partial (side : Side) (regA regB : Registry H) (pre mid post : List System.Move) (s0 s1 s : System.Sys H)
    (op : UInt32) (m : StrFlux) (i : Nat) (inst : Flux.Installed) (start : List Flux.Call)
    (h : wasmInput side regA regB pre s0 (channelPay op) (channelInput m) mid s1 i (Flux.mapInstalled inst) start post s)
    (ht : Tidy s) (hk : outputKept s (callId s0.a)) (hearly : arrivals (callId s0.a) s1.histB = []) :
    typedInput allShort (Wasm.run side regA) s0 s op m inst (.cancelled ∉ inpEvs i s.trB ∧ s.ab = [])
      (decodedFlux inst (inpEvs i s.trB)) := by
  obtain ⟨s0', s1', s', ea, eh, eb, hr, ho⟩ := h.rsocket
  obtain ⟨r, c⟩ := input_called hr (ho.tidy ht) (by rw [ea]; exact ho.outputKept hk) (by rw [ea, eb]; exact hearly)
  obtain ⟨rest, h1, h2⟩ := saidOnCall_of ho ea eh c.said
  obtain ⟨q, q1, q2⟩ := c.part
  obtain ⟨seen, h4, rfl⟩ := map_prefix_inv sigOverWire (q1.trans c.came)
  rw [inpEvs_alike ho.alike.trB]
  exact typed_input h1 (saidWasm_str h2) h4 q2 fun ho' => by rw [c.whole ho'.1, c.all (ho.alike.ab.trans ho'.2)]

/-- C114 in full: the same whatever the caller does, however soon the input speaks, and for strings of every size. -/
def C114_statement (H : Type) : Prop :=
  (∀ (regA regB : Registry H) (client : Bool) (pre mid post : List System.Move) (s0 s1 s : System.Sys H)
    (op : UInt32) (m : StrFlux) (i : Nat) (inst : Flux.Installed) (start : List Flux.Call),
    inputRun regA regB client pre s0 (channelPay op) (channelInput m) mid s1 i (Flux.mapInstalled inst) start post s → Tidy s →
    typedInput (fun _ => True) (Handler.run regA client) s0 s op m inst (.cancelled ∉ inpEvs i s.trB ∧ s.ab = [])
      (decodedFlux inst (inpEvs i s.trB))) ∧
  (∀ (side : Side) (regA regB : Registry H) (pre mid post : List System.Move) (s0 s1 s : System.Sys H)
    (op : UInt32) (m : StrFlux) (i : Nat) (inst : Flux.Installed) (start : List Flux.Call),
    wasmInput side regA regB pre s0 (channelPay op) (channelInput m) mid s1 i (Flux.mapInstalled inst) start post s → Tidy s →
    typedInput (fun _ => True) (Wasm.run side regA) s0 s op m inst (.cancelled ∉ inpEvs i s.trB ∧ s.ab = [])
      (decodedFlux inst (inpEvs i s.trB)))

/-! ## Specification and proof of C115

`Greeting.Uppercase` calls a channel operation with a payload without metadata. -/

/-- C115, what happens: no operation is invoked for the call, and its subscriber sees nothing or the error "Invalid metadata";
once nothing is under way it has seen that. -/
def neverServed (id : UInt32) (trB : List (Handler.Ev H)) (inst : Flux.Installed) (over : Prop)
    (seen : List (Flux.Ev Bytes)) : Prop :=
  (∀ k h p, .invoked k h id p ∉ verdicts trB) ∧
  (∃ l, l <+: [StrSig.error (some "Invalid metadata")] ∧ fluxSignals seen = l.flatMap (strCalls inst)) ∧
  (over → fluxCallbacks seen = strCallbacks inst (.error (some "Invalid metadata")))

theorem metadata_message : sigOverWire (.error (some "Invalid metadata")) = .error (some "Invalid metadata") := by
  decide +kernel

theorem error_decoded (inst : Flux.Installed) (e : Mono.Err) :
    fluxSignals (decodedFlux inst (sigCalls (Flux.mapInstalled inst) (.error e))) = strCalls inst (.error e) ∧
    fluxCallbacks (decodedFlux inst (sigCallbacks (Flux.mapInstalled inst) (.error e))) = strCallbacks inst (.error e) := by
  obtain ⟨a1, a2, a3, a4, a5, a6⟩ := inst
  simp only [sigCalls, sigCallbacks, Flux.mapInstalled, strCalls, strCallbacks]
  cases a3 <;> cases a5 <;> exact ⟨rfl, rfl⟩

theorem never_served {id : UInt32} {trB : List (Handler.Ev H)} {inst : Flux.Installed} {over : Prop}
    {seen : List (Flux.Ev Pay)} (streamed : List StreamSig → Prop)
    (hr : ∀ r, streamed r → r = [.error (some "Invalid metadata")])
    (hv : (verdicts trB).filter (fun v => decide (v.id = id)) = [] ∨
      (verdicts trB).filter (fun v => decide (v.id = id)) = [.rejected id])
    (h1 : fluxSignals seen = [] ∨ ∃ r, streamed r ∧ ∃ q, q <+: cutAtEnd r ∧
      fluxSignals seen = (q.map sigOverWire).flatMap (sigCalls (Flux.mapInstalled inst)))
    (h2 : over → ∃ r, streamed r ∧
      fluxCallbacks seen = ((cutAtEnd r).map sigOverWire).flatMap (sigCallbacks (Flux.mapInstalled inst))) :
    neverServed id trB inst over (decodedFlux inst seen) := by
  refine ⟨fun k h p hm => ?_, ?_, fun ho => ?_⟩
  · have h3 : Verdict.invoked k h id p ∈ (verdicts trB).filter (fun v => decide (v.id = id)) :=
      List.mem_filter.2 ⟨hm, by simp [Verdict.id]⟩
    rcases hv with hv | hv <;> rw [hv] at h3
    · cases h3
    · cases List.mem_singleton.1 h3
  · rw [fluxSignals_decoded]
    rcases h1 with h1 | ⟨r, h1, q, h3, h4⟩
    · rw [h1]; exact ⟨[], List.nil_prefix, rfl⟩
    · rw [hr r h1] at h3
      have h3 : q <+: [.error (some "Invalid metadata")] := h3
      rw [h4]
      rcases List.prefix_cons_iff.1 h3 with rfl | ⟨q', rfl, h5⟩
      · exact ⟨[], List.nil_prefix, rfl⟩
      · have : q' = [] := List.prefix_nil.1 h5
        subst this
        refine ⟨[.error (some "Invalid metadata")], List.prefix_rfl, ?_⟩
        simp only [List.map_cons, List.map_nil, metadata_message, List.flatMap_cons, List.flatMap_nil, List.append_nil]
        exact (error_decoded inst _).1
  · rw [fluxCallbacks_decoded]
    obtain ⟨r, h3, h4⟩ := h2 ho
    rw [h4, hr r h3]
    show fluxCallbacks (decodedFlux inst ((([.error (some "Invalid metadata")] : List StreamSig).map sigOverWire).flatMap _)) = _
    simp only [List.map_cons, List.map_nil, metadata_message, List.flatMap_cons, List.flatMap_nil, List.append_nil]
    exact (error_decoded inst _).2

/-- C115 over TCP: `Greeting.Uppercase` is always refused. -/
theorem C115_tcp_partial (regA : Registry H) (callsB : List (Invoke.Call H)) (hf : fewCalls callsB) (client : Bool)
    (pre mid post : List TcpSystem.Move) (t0 t : TcpSystem.Sys H) (m : StrFlux) (inst : Flux.Installed)
    (start : List Flux.Call)
    (h : tcpStream regA (Invoke.run Registry.init callsB) client pre t0 .rc uppercasePay (channelInput m) mid
      (Flux.mapInstalled inst) start post t) (ht : TcpTidy t) (ha : below4G t.trA) (hb : below4G t.trB)
    (hin : .cancel ⟨callId t0.a⟩ ∉ sentFrames t.trB) :
    neverServed (callId t0.a) t.trB inst
      ((∃ f, f.streamID = callId t0.a ∧ .request f ∈ sentFrames t.trA) ∧
        .cancelled ∉ fluxEvs t0.a.objs.length t.trA ∧ tcpSettled t (callId t0.a))
      (decodedFlux inst (fluxEvs t0.a.objs.length t.trA)) := by
  obtain ⟨h1, h2⟩ := C111_stream_partial _ _ _ _ _ _ _ _ _ _ _ _ _ h ht ha hb (fun _ => hin)
  have h3 := (C111_stream_invoked_partial _ _ hf _ _ _ _ _ _ _ _ _ _ _ h ht ha hb).1
  refine never_served _ (fun r hr => ?_) h3 h1 (fun ho => h2 ho.1 ho.2.1 ho.2.2)
  cases hr with
  | rejected => rfl
  | waiting as1 as2 t ret s1 t1 n ran good => cases good
  | served as1 as2 t ret s1 t1 n ran good => cases good

/-- C115 between a wasm host and its guest, in either direction (the host of transport/wasmrs/cmd/host calls it). -/
theorem C115_wasm_partial (side : Side) (regA : Registry H) (callsB : List (Invoke.Call H)) (hf : fewCalls callsB)
    (pre mid post : List System.Move) (s0 s : System.Sys H) (m : StrFlux) (inst : Flux.Installed) (start : List Flux.Call)
    (h : wasmStream side regA (Invoke.run Registry.init callsB) pre s0 .rc uppercasePay (channelInput m) mid
      (Flux.mapInstalled inst) start post s) (ht : Tidy s) (hin : inputKept s (callId s0.a)) :
    neverServed (callId s0.a) s.trB inst
      (requestSent s (callId s0.a) ∧ .cancelled ∉ fluxEvs s0.a.objs.length s.trA ∧ settled s (callId s0.a))
      (decodedFlux inst (fluxEvs s0.a.objs.length s.trA)) := by
  have h3 := (C99_invoked _ _ _ hf _ _ _ _ _ _ _ _ _ _ h ht).1
  refine never_served (StreamedOn (Wasm.Side.other side) (Invoke.run Registry.init callsB) .rc (callId s0.a) uppercasePay s.histB)
    (fun r hr => ?_) h3 (C99_stream _ _ _ _ _ _ _ _ _ _ _ _ _ h ht (fun _ => hin))
    (fun ho => C99_completes _ _ _ _ _ _ _ _ _ _ _ _ _ h ht (fun _ => hin) ho.1 ho.2.1 ho.2.2)
  cases hr with
  | rejected => rfl
  | waiting as1 as2 t ret s1 t1 n ran good => cases good
  | served as1 as2 t ret s1 t1 n ran good => cases good

/-- C115 in full: once nothing is under way, the channel operation the other end exports has been invoked for a call of
`Greeting.Uppercase` whose request was sent. -/
def C115_statement (H : Type) : Prop :=
  (∀ (regA : Registry H) (callsB : List (Invoke.Call H)), fewCalls callsB → exportsOf .rc callsB ≠ [] → ∀ (client : Bool)
    (pre mid post : List TcpSystem.Move) (t0 t : TcpSystem.Sys H) (m : StrFlux) (inst : Flux.Installed) (start : List Flux.Call),
    tcpStream regA (Invoke.run Registry.init callsB) client pre t0 .rc uppercasePay (channelInput m) mid
      (Flux.mapInstalled inst) start post t → TcpTidy t → below4G t.trA → below4G t.trB →
    (∃ f, f.streamID = callId t0.a ∧ .request f ∈ sentFrames t.trA) → tcpSettled t (callId t0.a) →
    ∃ h p, .invoked .rc h (callId t0.a) p ∈ verdicts t.trB) ∧
  (∀ (side : Side) (regA : Registry H) (callsB : List (Invoke.Call H)), fewCalls callsB → exportsOf .rc callsB ≠ [] →
    ∀ (pre mid post : List System.Move) (s0 s : System.Sys H) (m : StrFlux) (inst : Flux.Installed) (start : List Flux.Call),
    wasmStream side regA (Invoke.run Registry.init callsB) pre s0 .rc uppercasePay (channelInput m) mid
      (Flux.mapInstalled inst) start post s → Tidy s → requestSent s (callId s0.a) → settled s (callId s0.a) →
    ∃ h p, .invoked .rc h (callId s0.a) p ∈ verdicts s.trB)

end

/-! ## Concrete runs for C114 -/

def called114 (mid post : List System.Move) : List System.Move :=
  [] ++ .atA (.call .rc (channelPay 0) (channelInput .created)) :: mid ++
    .atB (.subscribeInp 0 (Flux.mapInstalled inst113) [.request 3]) :: post

/-- A subscribes to the output and asks for three elements, the request goes over and is served; meanwhile
A subscribes to the input. -/
def served114 : List System.Move :=
  [.atA (.subscribeFlux 0 (Flux.mapInstalled inst113) [.request 3]), .atA (.run 0 retCreated), .toB noReact,
   .atB (.run 0 (ret113 true)), .atB (.run 0 (ret113 true)), .atA (.run 0 retCreated)]

/-- The service asks for three strings; the input gives "one" and "two" and is complete. -/
def input114 : List System.Move :=
  [.atB (.run 1 retCreated), .toA noReact, .atA (.run 0 retCreated), .atA (.input 0 (.next ⟨ascii "one", []⟩)), .toB noReact,
   .atB (.out 0 (.next ⟨ascii "ONE", []⟩)), .atA (.input 0 (.next ⟨ascii "two", []⟩)), .atA (.input 0 .complete), .toB noReact,
   .toB noReact]

def mid114 : System.Sys Unit := sysAfter (System.run oneHandler oneHandler true
  ([] ++ .atA (.call .rc (channelPay 0) (channelInput .created)) :: served114))
def end114 (post : List System.Move) : System.Sys Unit :=
  sysAfter (System.run oneHandler oneHandler true (called114 served114 post))

theorem responder_at {o : Option Obj} {x : UInt32}
    (h : (match o with | some (.responder .rc y _ _ none) => y == x | _ => false) = true) :
    ∃ out b, o = some (.responder .rc x out b none) := by
  split at h
  · simp only [beq_iff_eq] at h
    subst h; exact ⟨_, _, rfl⟩
  · cases h

/-- The hypotheses of C114_input_partial are met, and the service sees two strings and the completion. -/
example : inputRun oneHandler oneHandler true [] (.init oneHandler oneHandler true) (channelPay 0) (channelInput .created)
      served114 mid114 0 (Flux.mapInstalled inst113) [.request 3] input114 (end114 input114) ∧ Tidy (end114 input114) ∧
    outputKept (end114 input114) (callId (St.init oneHandler true)) ∧ arrivals (callId (St.init oneHandler true)) mid114.histB = [] ∧
    .cancelled ∉ inpEvs 0 (end114 input114).trB ∧ (end114 input114).ab = [] ∧
    fluxCallbacks (decodedFlux inst113 (inpEvs 0 (end114 input114).trB)) =
      [.next (ascii "one"), .next (ascii "two"), .complete, .fin .complete] :=
  ⟨⟨rfl, sys_ok (by decide +kernel), responder_at (by decide +kernel), sys_ok (by decide +kernel)⟩,
    tidy_of (by decide +kernel) (by decide +kernel) (by decide +kernel) (by decide +kernel),
    by unfold outputKept; decide +kernel, by decide +kernel, by decide +kernel, by decide +kernel, by decide +kernel⟩

/-- The same between host and guest. -/
def wasmServed114 (side : Side) : List System.Move :=
  [.atA (.subscribeFlux 0 (Flux.mapInstalled inst113) [.request 3]), .atA (.run 0 (retOn side)), .toB noReact,
   .atB (.run 0 (ret113 (Wasm.keeps (Wasm.Side.other side)))), .atA (.run 0 (retOn side))]

def wasmInput114 (side : Side) : List System.Move :=
  let b := Act.run 0 (retOn (Wasm.Side.other side))
  [.atB b, .atB b, .atB b, .toA noReact, .atA (.run 0 (retOn side)), .atA (.input 0 (.next ⟨ascii "one", []⟩)), .toB noReact,
   .atB (.out 0 (.next ⟨ascii "ONE", []⟩)), .atA (.input 0 (.next ⟨ascii "two", []⟩)), .atA (.input 0 .complete), .toB noReact,
   .toB noReact]

def wasmMid114 (side : Side) : System.Sys Unit := sysAfter (Wasm.runSys side oneHandler oneHandler
  ([] ++ .atA (.call .rc (channelPay 0) (channelInput .created)) :: wasmServed114 side))
def wasmEnd114 (side : Side) : System.Sys Unit :=
  sysAfter (Wasm.runSys side oneHandler oneHandler (called114 (wasmServed114 side) (wasmInput114 side)))

/-- The hypotheses of C114_wasm_partial are met, whoever calls. -/
example (side : Side) : wasmInput side oneHandler oneHandler [] (start105 side) (channelPay 0) (channelInput .created)
      (wasmServed114 side) (wasmMid114 side) 0 (Flux.mapInstalled inst113) [.request 3] (wasmInput114 side) (wasmEnd114 side) ∧
    Tidy (wasmEnd114 side) ∧ outputKept (wasmEnd114 side) (callId (start105 side).a) ∧
    arrivals (callId (start105 side).a) (wasmMid114 side).histB = [] ∧
    .cancelled ∉ inpEvs 0 (wasmEnd114 side).trB ∧ (wasmEnd114 side).ab = [] ∧
    fluxCallbacks (decodedFlux inst113 (inpEvs 0 (wasmEnd114 side).trB)) =
      [.next (ascii "one"), .next (ascii "two"), .complete, .fin .complete] := by
  refine ⟨⟨rfl, sys_ok ?_, responder_at ?_, sys_ok ?_⟩, tidy_of ?_ ?_ ?_ ?_, ?_, ?_, ?_, ?_, ?_⟩
  case refine_8 => unfold outputKept; cases side <;> decide +kernel
  all_goals cases side <;> decide +kernel

/-- A cancels the output after the first string of the input. -/
def cancelOut114 : List System.Move :=
  [.atA (.input 0 (.next ⟨ascii "one", []⟩)), .atA (.fluxCall 0 .cancel), .toB noReact, .toB noReact]

theorem cancelled114 : fluxSignals (decodedFlux inst113 (inpEvs 0 (end114 cancelOut114).trB)) = [.next (ascii "one"), .complete] := by
  decide +kernel

theorem said114 : inputSigs 0 (end114 cancelOut114).histA = [.element ⟨ascii "one", []⟩] := by decide +kernel

/-- C114 fails when the caller cancels the output: the service sees the input complete, which nobody said. -/
theorem C114_violated : ¬ C114_statement Unit := by
  intro h
  have h1 := h.1 oneHandler oneHandler true [] served114 cancelOut114 (.init oneHandler oneHandler true) mid114
    (end114 cancelOut114) 0 .created 0 inst113 [.request 3]
    ⟨rfl, sys_ok (by decide +kernel), responder_at (by decide +kernel), sys_ok (by decide +kernel)⟩
    (tidy_of (by decide +kernel) (by decide +kernel) (by decide +kernel) (by decide +kernel))
  have h0 : (System.Sys.init oneHandler oneHandler true).a.objs.length = 0 := rfl
  obtain ⟨rest, l, h2, h3, h4⟩ := h1
  rw [h0] at h3
  obtain ⟨⟨l', h5, h6⟩, -⟩ := h4 trivial
  rw [cancelled114] at h6
  have h7 : Flux.Ev.complete ∈ (l'.map strSigOverWire).flatMap (strCalls inst113) := by rw [← h6]; simp
  obtain ⟨x, h8, h9⟩ := List.mem_flatMap.1 h7
  obtain ⟨y, h10, rfl⟩ := List.mem_map.1 h8
  have h11 : y = .complete := by
    cases y with
    | complete => rfl
    | element s => simp [strSigOverWire, strCalls] at h9
    | error e => cases e <;> simp [strSigOverWire, strCalls] at h9
  subst h11
  have h12 := h5.subset h10
  cases h3 with
  | waiting => cases h12
  | subscribed as3 as4 t ret s3 t3 split =>
    have h13 : StreamSig.complete ∈ inputSigs 0 as4 := by
      obtain ⟨z, h14, h15⟩ := List.mem_map.1 h12
      cases z with
      | complete => exact cutAtEnd_mem h14
      | element p => cases h15
      | error e => cases h15
    have h14 : StreamSig.complete ∈ inputSigs 0 (end114 cancelOut114).histA := by
      rw [h2, split]
      simp only [inputSigs, List.mem_flatMap] at h13 ⊢
      obtain ⟨a, h3, h4⟩ := h13
      exact ⟨a, by simp [h3], h4⟩
    rw [said114] at h14
    simp at h14

/-! ## Concrete runs for C115 -/

/-- The request goes over, and the answer comes back. -/
def moves115 : List TcpSystem.Move :=
  [.atA (.run 0 retCreated), .carryAB 99, .readB, .toB noReact, .atB (.run 0 retCreated), .carryBA 99, .readA, .toA noReact]

def end115 : TcpSystem.Sys Unit :=
  tcpAfter (TcpSystem.run oneHandler (Invoke.run Registry.init exports113) true ([] ++ .atA (.call .rc uppercasePay
    (channelInput .created)) :: [] ++ .atA (.subscribeFlux 0 (Flux.mapInstalled inst113) [.request 3]) :: moves115))

theorem end115_run : tcpStream oneHandler (Invoke.run Registry.init exports113) true []
    (.init oneHandler (Invoke.run Registry.init exports113) true) .rc uppercasePay (channelInput .created) []
    (Flux.mapInstalled inst113) [.request 3] moves115 end115 :=
  ⟨.inr rfl, rfl, (fun _ _ h => by cases h), tcp_ok (by decide +kernel)⟩

theorem end115_tidy : TcpTidy end115 :=
  tcpTidy_of (by decide +kernel) (by decide +kernel) (by decide +kernel) (by decide +kernel)

theorem end115_settled : tcpSettled end115 1 := by
  refine ⟨by decide +kernel, by decide +kernel, ?_⟩
  have ht : end115.b.tasks = [] := List.eq_nil_of_length_eq_zero (by decide +kernel)
  intro k d m n h
  rw [ht] at h
  cases h

theorem end115_small : below4G end115.trA ∧ below4G end115.trB := by unfold below4G; decide +kernel

theorem end115_sent : ∃ f, f.streamID = 1 ∧ .request f ∈ sentFrames end115.trA :=
  ⟨fluxRequest .rc 1 uppercasePay 3, rfl, by decide +kernel⟩

/-- The hypotheses of C115_tcp_partial are met, by an end B that exports a channel operation. -/
example : fewCalls exports113 ∧ exportsOf .rc exports113 = [([1], [2], ())] ∧
    tcpStream oneHandler (Invoke.run Registry.init exports113) true []
      (.init oneHandler (Invoke.run Registry.init exports113) true) .rc uppercasePay (channelInput .created) []
      (Flux.mapInstalled inst113) [.request 3] moves115 end115 ∧ TcpTidy end115 ∧ below4G end115.trA ∧ below4G end115.trB ∧
    .cancel ⟨1⟩ ∉ sentFrames end115.trB ∧
    (∃ f, f.streamID = 1 ∧ .request f ∈ sentFrames end115.trA) ∧ .cancelled ∉ fluxEvs 0 end115.trA ∧ tcpSettled end115 1 ∧
    fluxCallbacks (decodedFlux inst113 (fluxEvs 0 end115.trA)) =
      [.error (some "Invalid metadata"), .fin .error] :=
  ⟨by show 2 < 2 ^ 32; omega, by decide +kernel, end115_run, end115_tidy, end115_small.1, end115_small.2,
    by decide +kernel, end115_sent, by decide +kernel, end115_settled, by decide +kernel⟩

/-- The same between host and guest. -/
def wasmMoves115 (side : Side) : List System.Move :=
  [.atA (.run 0 (retOn side)), .toB noReact, .atB (.run 0 (retOn (Wasm.Side.other side))), .toA noReact]

/-- The hypotheses of C115_wasm_partial are met, whoever calls. -/
example (side : Side) : fewCalls exports113 ∧ exportsOf .rc exports113 = [([1], [2], ())] ∧
    wasmStream side oneHandler (Invoke.run Registry.init exports113) []
      (.init oneHandler (Invoke.run Registry.init exports113) (Wasm.Side.client side)) .rc uppercasePay
      (channelInput .created) [] (Flux.mapInstalled inst113) [.request 3] (wasmMoves115 side)
      (wasmEnd113 side .rc uppercasePay (channelInput .created) (wasmMoves115 side)) ∧
    Tidy (wasmEnd113 side .rc uppercasePay (channelInput .created) (wasmMoves115 side)) ∧
    inputKept (wasmEnd113 side .rc uppercasePay (channelInput .created) (wasmMoves115 side))
      (callId (St.init oneHandler (Wasm.Side.client side))) ∧
    fluxCallbacks (decodedFlux inst113
      (fluxEvs 0 (wasmEnd113 side .rc uppercasePay (channelInput .created) (wasmMoves115 side)).trA)) =
      [.error (some "Invalid metadata"), .fin .error] := by
  refine ⟨by show 2 < 2 ^ 32; omega, by decide +kernel, ⟨.inr rfl, rfl, (fun _ _ h => by cases h), sys_ok ?_⟩,
    tidy_of ?_ ?_ ?_ ?_, ?_, ?_⟩
  case refine_6 => unfold inputKept; cases side <;> decide +kernel
  all_goals cases side <;> decide +kernel

/-- C115 fails: in no such run is the operation invoked. -/
theorem C115_violated : ¬ C115_statement Unit := by
  intro h
  have hf : fewCalls exports113 := by show 2 < 2 ^ 32; omega
  obtain ⟨h0, p, h1⟩ := h.1 oneHandler exports113 hf (by decide +kernel) true [] [] moves115 _ end115 .created inst113
    [.request 3] end115_run end115_tidy end115_small.1 end115_small.2 end115_sent end115_settled
  exact (C115_tcp_partial oneHandler exports113 hf true [] [] moves115 _ end115 .created inst113
    [.request 3] end115_run end115_tidy end115_small.1 end115_small.2 (by decide +kernel)).1 _ _ _ h1

end Verif.Props
