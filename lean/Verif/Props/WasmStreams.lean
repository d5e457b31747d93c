import Verif.Props.WasmCalls
/-
Property C99: streams and channels over wasm, in both directions, in the direction of the answer.
-/
set_option autoImplicit false
namespace Verif.Props
open Verif Frames Handler
open Verif.Invoke (Kind Registry getHandler)
open Verif.System (Sys Move)
open Verif.WasmRecv (Side)

section
variable {H : Type}

/-! ## Specification

As for C98 (`wasmCall`), with a stream or channel. A installs the callbacks `inst` and calls `start` from inside
OnSubscribe. `fluxEvs` is what A's application sees. -/

/-- After `pre`, end A calls an operation of kind `k` with payload `p` (and the input `src`, for a channel), things go
on (`mid`), A subscribes to the flux the call returned, and things go on (`post`). -/
structure wasmStream (side : Side) (regA regB : Registry H) (pre : List Move) (s0 : Sys H) (k : Kind) (p : Pay)
    (src : Src) (mid : List Move) (inst : Flux.Installed) (start : List Flux.Call) (post : List Move)
    (s : Sys H) : Prop where
  kind : k = .rs ∨ k = .rc
  before : Wasm.runSys side regA regB pre = .ok s0
  once : ∀ inst start, .atA (.subscribeFlux s0.a.objs.length inst start) ∉ mid
  whole : Wasm.runSys side regA regB (pre ++ .atA (.call k p src) :: mid ++
    .atA (.subscribeFlux s0.a.objs.length inst start) :: post) = .ok s

/-- What became of the stream or channel request `id` with payload `p` at the end on side `side` with the exported
operations `reg`, by its history `as`: what it has to say to the caller so far. When it was run, it was rejected, or
the operation it names was invoked, returning `ret`. Then that flux is still to be subscribed to, or this was done,
and it says what its source has said since. -/
inductive StreamedOn (side : Side) (reg : Registry H) (k : Kind) (id : UInt32) (p : Pay) (as : List Act) :
    List StreamSig → Prop
  | rejected (as1 as2 : List Act) (t : Nat) (ret : Ret) (s1 : St H) (t1 : List (Handler.Ev H)) (n : UInt32)
      (ran : RanOn side reg as as1 as2 t ret s1 t1 k id p.data p.metadata n)
      (bad : exported reg k p.metadata = none) :
      StreamedOn side reg k id p as
        [.error (some (if p.metadata.length < 8 then "Invalid metadata" else "not_found"))]
  | waiting (as1 as2 : List Act) (t : Nat) (ret : Ret) (s1 : St H) (t1 : List (Handler.Ev H)) (n : UInt32)
      (ran : RanOn side reg as as1 as2 t ret s1 t1 k id p.data p.metadata n)
      (good : (exported reg k p.metadata).isSome = true) (s : St H) (tr : List (Handler.Ev H)) (n' : UInt32)
      (now : Wasm.run side reg as = .ok (s, tr)) (task : .subscribe s1.objs.length ret.flux n' ∈ s.tasks) :
      StreamedOn side reg k id p as []
  | served (as1 as2 : List Act) (t : Nat) (ret : Ret) (s1 : St H) (t1 : List (Handler.Ev H)) (n : UInt32)
      (ran : RanOn side reg as as1 as2 t ret s1 t1 k id p.data p.metadata n)
      (good : (exported reg k p.metadata).isSome = true) (as3 as4 : List Act) (t' : Nat) (ret' : Ret) (s3 : St H)
      (t3 : List (Handler.Ev H)) (n' : UInt32) (split : as2 = as3 ++ .run t' ret' :: as4)
      (before : Wasm.run side reg (as1 ++ .run t ret :: as3) = .ok (s3, t3))
      (task : s3.tasks[t']? = some (.subscribe s1.objs.length ret.flux n')) :
      StreamedOn side reg k id p as (relayed ret.flux (outSigs s1.objs.length as4))

/-! ## From one transport to the other -/

theorem runOn {side : Side} {reg : Registry H} {as more : List Act} {s s' : St H} {tr tr' : List (Handler.Ev H)}
    (hw : Wasm.run side reg (as ++ more) = .ok (s, tr)) (hf : ∀ f ∈ handedOver (as ++ more), fits f)
    (h : Handler.run reg (Wasm.Side.client side) as = .ok (s', tr')) : ∃ t, Wasm.run side reg as = .ok (s', t) := by
  obtain ⟨s1', t1', -, h1, -⟩ := wasm_run_prefix hw
  obtain ⟨t', h2, -⟩ := run_alike as h1 fun f hm => hf f (by rw [handedOver_append]; exact List.mem_append_left _ hm)
  rw [h2] at h
  cases h
  exact ⟨t1', h1⟩

theorem streamedOn {side : Side} {reg : Registry H} {as : List Act} {s : St H} {tr : List (Handler.Ev H)}
    {k : Kind} {x : UInt32} {p : Pay} {r : List StreamSig}
    (hw : Wasm.run side reg as = .ok (s, tr)) (hf : ∀ f ∈ handedOver as, fits f)
    (h : Streamed reg (Wasm.Side.client side) k x p as r) : StreamedOn side reg k x p as r := by
  cases h with
  | rejected as1 as2 t ret s1 t1 n ran bad =>
    obtain ⟨t1', h⟩ := ranOn hw hf ran
    exact .rejected as1 as2 t ret s1 t1' n h bad
  | waiting as1 as2 t ret s1 t1 n ran good s tr n' now task =>
    obtain ⟨t1', h⟩ := ranOn hw hf ran
    obtain ⟨tr', h'⟩ := runOn (more := []) (by rw [List.append_nil]; exact hw) (by rw [List.append_nil]; exact hf) now
    exact .waiting as1 as2 t ret s1 t1' n h good s tr' n' h' task
  | served as1 as2 t ret s1 t1 n ran good as3 as4 t' ret' s3 t3 n' split before task =>
    obtain ⟨t1', h⟩ := ranOn hw hf ran
    have e : as = (as1 ++ .run t ret :: as3) ++ .run t' ret' :: as4 := by rw [ran.split, split]; simp
    obtain ⟨t3', h'⟩ := runOn (e ▸ hw) (e ▸ hf) before
    exact .served as1 as2 t ret s1 t1' n h good as3 as4 t' ret' s3 t3' n' split h' task

section
variable {side : Side} {regA regB : Registry H} {ms : List Move} {s s' : Sys H}

theorem OverRsocket.fluxEvs (h : OverRsocket side regA regB ms s s') (j : Nat) : fluxEvs j s.trA = fluxEvs j s'.trA :=
  h.alike.trA.filterMap _ (fun _ => rfl) (fun _ _ _ _ => rfl)

theorem OverRsocket.inputKept (h : OverRsocket side regA regB ms s s') {x : UInt32} (hi : inputKept s x) :
    inputKept s' x := by
  unfold Props.inputKept at hi ⊢
  rw [← wire_alike h.alike.trB]; exact hi

theorem OverRsocket.requestSent (h : OverRsocket side regA regB ms s s') {x : UInt32} (hi : requestSent s x) :
    requestSent s' x := by
  unfold Props.requestSent at hi ⊢
  rw [← wire_alike h.alike.trA]; exact hi

end

theorem wasmStream.rsocket {side : Side} {regA regB : Registry H} {pre mid post : List Move} {s0 s : Sys H} {k : Kind}
    {p : Pay} {src : Src} {inst : Flux.Installed} {start : List Flux.Call}
    (h : wasmStream side regA regB pre s0 k p src mid inst start post s) :
    ∃ s0' s', s0'.a = s0.a ∧ streamRun regA regB (Wasm.Side.client side) pre s0' k p src mid inst start post s' ∧
      OverRsocket side regA regB (pre ++ .atA (.call k p src) :: mid ++
        .atA (.subscribeFlux s0.a.objs.length inst start) :: post) s s' := by
  obtain ⟨s0', h0⟩ := overRsocket h.before
  obtain ⟨s', h1⟩ := overRsocket h.whole
  have e0 := h0.alike.a
  exact ⟨s0', s', e0, ⟨h.kind, h0.run, by rw [e0]; exact h.once, by rw [e0]; exact h1.run⟩, h1⟩

/-! ## C99 -/

/-- C99: what the subscriber of a stream sees, at any point of any run, is the beginning of what the other side's
application has answered to this very call, in that order and without gaps. The same for a channel whose input the other
side has not cancelled. -/
theorem C99_stream (side : Side) (regA regB : Registry H) (pre mid post : List Move) (s0 s : Sys H) (k : Kind)
    (p : Pay) (src : Src) (inst : Flux.Installed) (start : List Flux.Call)
    (h : wasmStream side regA regB pre s0 k p src mid inst start post s) (ht : Tidy s)
    (hin : k = .rc → inputKept s (callId s0.a)) :
    fluxSignals (fluxEvs s0.a.objs.length s.trA) = [] ∨
    ∃ r, StreamedOn (Wasm.Side.other side) regB k (callId s0.a) p s.histB r ∧ ∃ seen, seen <+: cutAtEnd r ∧
      fluxSignals (fluxEvs s0.a.objs.length s.trA) = (seen.map sigOverWire).flatMap (sigCalls inst) := by
  obtain ⟨s0', s', e0, h0, h1⟩ := h.rsocket
  have := C91_stream_partial _ _ _ _ _ _ _ _ _ _ _ _ _ h0 (h1.tidy ht) (fun hk => by rw [e0]; exact h1.inputKept (hin hk))
  rw [e0, ← h1.fluxEvs] at this
  rcases this with h2 | ⟨r, h2, h3⟩
  · exact .inl h2
  · refine .inr ⟨r, ?_, h3⟩
    rw [← other_client, h1.alike.histB] at h2
    exact streamedOn h1.endB h1.fitsB h2

/-- C99: once nothing of it is under way, a subscriber that has asked for elements and has not cancelled has seen
exactly what the other side's application has answered, up to the end of the stream. -/
theorem C99_completes (side : Side) (regA regB : Registry H) (pre mid post : List Move) (s0 s : Sys H) (k : Kind)
    (p : Pay) (src : Src) (inst : Flux.Installed) (start : List Flux.Call)
    (h : wasmStream side regA regB pre s0 k p src mid inst start post s) (ht : Tidy s)
    (hin : k = .rc → inputKept s (callId s0.a)) (hs : requestSent s (callId s0.a))
    (hc : .cancelled ∉ fluxEvs s0.a.objs.length s.trA) (hq : settled s (callId s0.a)) :
    ∃ r, StreamedOn (Wasm.Side.other side) regB k (callId s0.a) p s.histB r ∧
      fluxCallbacks (fluxEvs s0.a.objs.length s.trA) =
        ((cutAtEnd r).map sigOverWire).flatMap (sigCallbacks inst) := by
  obtain ⟨s0', s', e0, h0, h1⟩ := h.rsocket
  obtain ⟨r, h2, h3⟩ := C91_completes_partial _ _ _ _ _ _ _ _ _ _ _ _ _ h0 (h1.tidy ht)
    (fun hk => by rw [e0]; exact h1.inputKept (hin hk)) (by rw [e0]; exact h1.requestSent hs)
    (by rw [e0, ← h1.fluxEvs]; exact hc) (by rw [e0]; exact h1.settled hq)
  rw [e0, ← h1.fluxEvs] at h3
  rw [e0, ← other_client, h1.alike.histB] at h2
  exact ⟨r, streamedOn h1.endB h1.fitsB h2, h3⟩

/-- C99: of a stream or channel request, the other side has done nothing yet, or exactly one thing: rejected it, or invoked
the operation it names, once, with the payload of the call. Once nothing of it is under way and it was sent, it has. -/
theorem C99_invoked (side : Side) (regA : Registry H) (callsB : List (Invoke.Call H)) (hc : fewCalls callsB)
    (pre mid post : List Move) (s0 s : Sys H) (k : Kind) (p : Pay) (src : Src) (inst : Flux.Installed)
    (start : List Flux.Call)
    (h : wasmStream side regA (Invoke.run Registry.init callsB) pre s0 k p src mid inst start post s) (ht : Tidy s) :
    let done := (verdicts s.trB).filter fun v => decide (v.id = callId s0.a)
    let due := wasmVerdict (Wasm.Side.other side) callsB k (callId s0.a) p.data p.metadata
    (done = [] ∨ done = [due]) ∧ (settled s (callId s0.a) → requestSent s (callId s0.a) → done = [due]) := by
  intro done due
  obtain ⟨s0', s', e0, h0, h1⟩ := h.rsocket
  have c := stream_called h0 (h1.tidy ht)
  obtain ⟨sv, hsv⟩ := c.grants
  rw [← c.sent, c.joined.ab, withId_append, List.filter_append, e0] at hsv
  obtain ⟨q1, q2⟩ := C91_invoked _ _ hc _ _ _ _ _ _ _ _ _ _ _ h0 (h1.tidy ht)
  rw [e0] at q1 q2
  obtain ⟨r1, r2⟩ := verdict_on (k := k) (x := callId s0.a) (data := p.data) (md := p.metadata) hc h1.endB h1.fitsB
    h1.alike.trB (by
      intro g hg hx
      have : .request g ∈ (withId (callId s0.a) (handedOver s'.histB)).filter isGrant ++
          (withId (callId s0.a) s'.ab).filter isGrant :=
        List.mem_append_left _ (List.mem_filter.mpr
          ⟨List.mem_filter.mpr ⟨by rw [h1.alike.histB]; exact hg, decide_eq_true hx⟩, rfl⟩)
      rw [hsv] at this
      obtain ⟨n, rfl⟩ := grants_request this
      exact ⟨rfl, rfl⟩)
  exact ⟨q1.elim (fun q => .inl (r1 q)) (fun q => .inr (r2 q)), fun hq hs => r2 (q2 (h1.settled hq) (h1.requestSent hs))⟩

/-! ## Example -/

/-- The request goes over, B serves it, asks its source for elements and gets two, and the end. -/
def wasmStreamed (side : Side) : List Move :=
  [.atA (.run 0 (retOn side)), .toB noReact, .atB (.run 0 (retOn (Wasm.Side.other side))),
   .atB (.run 0 (retOn (Wasm.Side.other side))), .atB (.out 0 (.next ⟨[7], [8]⟩)), .toA noReact,
   .atB (.out 0 (.next ⟨[6], []⟩)), .atB (.out 0 .complete), .toA noReact, .toA noReact]

def end99 (side : Side) (k : Kind) : Sys Unit :=
  sysAfter (Wasm.runSys side oneHandler oneHandler
    ([] ++ .atA (.call k ⟨[5], eightZeros⟩ .created) :: [] ++
      .atA (.subscribeFlux 0 ⟨true, true, true, true, true, false⟩ [.request 3]) :: wasmStreamed side))

/-- The hypotheses of the theorems hold for it, whoever calls; the subscriber sees the elements and the end. -/
example (side : Side) : wasmStream side oneHandler oneHandler [] (.init oneHandler oneHandler (Wasm.Side.client side))
      .rs ⟨[5], eightZeros⟩ .created [] ⟨true, true, true, true, true, false⟩ [.request 3] (wasmStreamed side)
      (end99 side .rs) ∧ Tidy (end99 side .rs) ∧
    requestSent (end99 side .rs) (callId (St.init oneHandler (Wasm.Side.client side))) ∧
    .cancelled ∉ fluxEvs 0 (end99 side .rs).trA ∧
    settled (end99 side .rs) (callId (St.init oneHandler (Wasm.Side.client side))) ∧
    fluxCallbacks (fluxEvs 0 (end99 side .rs).trA) = [.next ⟨[7], [8]⟩, .next ⟨[6], []⟩, .complete, .fin .complete] := by
  refine ⟨⟨.inl rfl, rfl, by simp, by cases side <;> rfl⟩, tidy_of ?_ ?_ ?_ ?_,
    ⟨⟨typeRequestStream, callId (St.init oneHandler (Wasm.Side.client side)), eightZeros, [5], false, false, 3⟩, rfl, ?_⟩,
    ?_, ⟨?_, ?_, ?_⟩, ?_⟩
  case refine_9 =>
    intro k d m n h
    have : ∀ t ∈ (end99 side .rs).b.tasks, t.isRequest = false := by cases side <;> decide +kernel
    cases this _ h
  all_goals cases side <;> decide +kernel

end
end Verif.Props
