import Verif.Props.TypedStreams
import Verif.Props.WasmMemory
/-
Properties C112 and C113, down to the bytes in the guest's memory: generated clients and handlers on a wasm host and its guest
(C127).
-/
set_option autoImplicit false
namespace Verif.Props
open Verif Spec Frames Handler Msgpack Typed
open Verif.Invoke (Kind Registry)
open Verif.WasmRecv (Side)

section
variable {H ρ : Type}

/-! ## Specification

As in C127: the calls `calls` export the operations of both sides; after `pre` (ending in `t0`) the application of the side
`side` uses a generated client, and subscribes to what it has returned after `mid`. -/

/-- What has happened at the other side, if frames are handed over as they are instead of as bytes in the memory (C98). The
theorems say that it is what has happened there (`HistoryAt`). -/
def memHistory (reg : Side → Registry H) (side : Side) (ms : List WasmSystem.Move) : List Act :=
  match Wasm.runSys side (reg side) (reg (Wasm.Side.other side)) (ms.map (sideMove side)) with
  | .ok s => s.histB
  | _ => []

/-- C112 between a wasm host and its guest through the guest's memory, in either direction, for frames that fit in the buffers. -/
def C112_memory_for (H : Type) {ρ : Type} (c : Codec ρ) : Prop :=
  ∀ (mem : WasmSystem.Mem) (calls : Side → List (Invoke.Call H)) (side : Side) (pre mid post : List WasmSystem.Move)
    (t0 t : WasmSystem.Sys H) (r : ρ) (op : UInt32) (ns opn : Bytes) (h : H) (p : Pay) (src : Src) (inst : Mono.Installed)
    (svc : ρ → StrMono → Prop),
    fewCalls (calls (Wasm.Side.other side)) →
    (exportsOf .rr (calls (Wasm.Side.other side)))[op.toNat]? = some (ns, opn, h) → c.short r →
    requestPay (c.encode (some r)) op = .ok p →
    let reg := fun side => Invoke.run Registry.init (calls side)
    let ms := memCall side (endOf side t0).objs.length pre p src mid (Mono.mapInstalled inst) post
    memRun mem reg pre t0 → memTidy ms → memRun mem reg ms t → allFit mem t.trHost t.trGuest →
    let as := memHistory reg side ms
    HistoryAt reg (Wasm.Side.other side) ms t as ∧
      (Serves (RanOn (Wasm.Side.other side) (reg (Wasm.Side.other side)) as) c svc op →
        typedAnswered (RanOn (Wasm.Side.other side) (reg (Wasm.Side.other side)) as) svc (callId (endOf side t0)) p r inst
          (memSettled side t (callId (endOf side t0)))
          (decodedMono inst (monoEvs (endOf side t0).objs.length (seenAt side t))))

/-- C113 between a wasm host and its guest through the guest's memory. -/
def C113_memory_for (H : Type) {ρ : Type} (c : Codec ρ) : Prop :=
  ∀ (mem : WasmSystem.Mem) (calls : Side → List (Invoke.Call H)) (side : Side) (pre mid post : List WasmSystem.Move)
    (t0 t : WasmSystem.Sys H) (r : ρ) (op : UInt32) (ns opn : Bytes) (h : H) (p : Pay) (src : Src) (inst : Flux.Installed)
    (start : List Flux.Call) (svc : ρ → StrFlux → Prop),
    fewCalls (calls (Wasm.Side.other side)) →
    (exportsOf .rs (calls (Wasm.Side.other side)))[op.toNat]? = some (ns, opn, h) → c.short r →
    requestPay (c.encode (some r)) op = .ok p →
    (∀ i c, doneBy side (.subscribeFlux (endOf side t0).objs.length i c) ∉ mid) →
    let reg := fun side => Invoke.run Registry.init (calls side)
    let ms := memStream side (endOf side t0).objs.length pre .rs p src mid (Flux.mapInstalled inst) start post
    memRun mem reg pre t0 → memTidy ms → memRun mem reg ms t → allFit mem t.trHost t.trGuest →
    let as := memHistory reg side ms
    HistoryAt reg (Wasm.Side.other side) ms t as ∧
      (ServesStream (Wasm.run (Wasm.Side.other side) (reg (Wasm.Side.other side))) as c svc op →
        typedStreamed allShort (Wasm.run (Wasm.Side.other side) (reg (Wasm.Side.other side))) as .rs (callId (endOf side t0)) p
          (svc r) inst
          (memSent side t (callId (endOf side t0)) ∧ .cancelled ∉ fluxEvs (endOf side t0).objs.length (seenAt side t) ∧
            memSettled side t (callId (endOf side t0)))
          (decodedFlux inst (fluxEvs (endOf side t0).objs.length (seenAt side t))))

/-- The same for channels of strings, whose input the handler does not cancel. -/
def C113_memory_channel_for (H : Type) : Prop :=
  ∀ (mem : WasmSystem.Mem) (calls : Side → List (Invoke.Call H)) (side : Side) (pre mid post : List WasmSystem.Move)
    (t0 t : WasmSystem.Sys H) (op : UInt32) (ns opn : Bytes) (h : H) (m : StrFlux) (inst : Flux.Installed)
    (start : List Flux.Call) (svc : StrFlux → Prop),
    fewCalls (calls (Wasm.Side.other side)) →
    (exportsOf .rc (calls (Wasm.Side.other side)))[op.toNat]? = some (ns, opn, h) →
    (∀ i c, doneBy side (.subscribeFlux (endOf side t0).objs.length i c) ∉ mid) →
    let reg := fun side => Invoke.run Registry.init (calls side)
    let ms := memStream side (endOf side t0).objs.length pre .rc (channelPay op) (channelInput m) mid (Flux.mapInstalled inst)
      start post
    memRun mem reg pre t0 → memTidy ms → memRun mem reg ms t → allFit mem t.trHost t.trGuest →
    .cancel ⟨callId (endOf side t0)⟩ ∉ sentFrames (seenAt (Wasm.Side.other side) t) →
    let as := memHistory reg side ms
    HistoryAt reg (Wasm.Side.other side) ms t as ∧
      (ServesChannel (Wasm.run (Wasm.Side.other side) (reg (Wasm.Side.other side))) as svc op →
        typedStreamed allShort (Wasm.run (Wasm.Side.other side) (reg (Wasm.Side.other side))) as .rc (callId (endOf side t0))
          (channelPay op) svc inst
          (memSent side t (callId (endOf side t0)) ∧ .cancelled ∉ fluxEvs (endOf side t0).objs.length (seenAt side t) ∧
            memSettled side t (callId (endOf side t0)))
          (decodedFlux inst (fluxEvs (endOf side t0).objs.length (seenAt side t))))

/-! ## Proof -/

theorem memHistory_eq {reg : Side → Registry H} {side : Side} {ms : List WasmSystem.Move} {t : WasmSystem.Sys H}
    {s : System.Sys H} (o : OnSide reg side ms t s) : memHistory reg side ms = s.histB := by
  unfold memHistory
  rw [o.run]

theorem typed_memory {c : Codec ρ} {ok : Val → Prop} (hc : RecordOK c.fields c.encode c.field c.zero ok)
    (hn : ∀ r, (c.fields r).length < 2 ^ 32) : C112_memory_for H c := by
  intro mem calls side pre mid post t0 t r op ns opn h p src inst svc hf hx hr hp reg ms h0 ht hrun hfit as
  obtain ⟨s0, s, o0, o, hcall⟩ := memCall_frames h0 hrun hfit
  have he : as = s.histB := memHistory_eq o
  rw [he]
  refine ⟨o.history, fun hs => ?_⟩
  have := typed_wasm hc hn side _ _ _ _ _ s0 s r op ns opn h p src inst svc hf hx hr hp hcall (o.tidy ht) hs
  rw [← o0.a, ← o.trA] at this
  exact ⟨this.1, fun hq => this.2 (o.settled hq)⟩

/-- C112 through the guest's memory, partial: `SayHello` of example/greeter and of transport/wasmrs/mesh/modules/greeting, and
`Concat`. Missing: what C127 misses, and records and strings of 2^32 bytes and more. -/
theorem C112_memory_partial (H : Type) :
    C112_memory_for H greetingCodec ∧ C112_memory_for H nameCodec ∧ C112_memory_for H stringsCodec :=
  ⟨typed_memory greeting_ok (fun _ => by show 2 < 2 ^ 32; omega), typed_memory name_ok (fun _ => by show 1 < 2 ^ 32; omega),
   typed_memory strings_ok (fun _ => by show 2 < 2 ^ 32; omega)⟩

/-- C113 through the guest's memory, partial: `CountToN`. Missing: what C127 misses, and strings of 2^32 bytes and more. -/
theorem C113_memory_partial (H : Type) : C113_memory_for H counterCodec := by
  intro mem calls side pre mid post t0 t r op ns opn h p src inst start svc hf hx hr hp ho reg ms h0 ht hrun hfit as
  obtain ⟨s0, s, o0, o, hcall⟩ := memStream_frames (.inl rfl) ho h0 hrun hfit
  have he : as = s.histB := memHistory_eq o
  rw [he]
  refine ⟨o.history, fun hs => ?_⟩
  have := C113_wasm_partial H side _ _ _ _ _ s0 s r op ns opn h p src inst start svc hf hx hr hp hcall (o.tidy ht) hs
  rw [← o0.a, ← o.trA] at this
  refine ⟨this.1, fun hq => this.2 ⟨?_, hq.2.1, o.settled hq.2.2⟩⟩
  have := hq.1
  unfold memSent at this
  rw [o.trA] at this
  exact this

/-- C113 through the guest's memory for channels, partial: `Uppercase`. Missing also: what C99 misses. -/
theorem C113_memory_channel_partial (H : Type) : C113_memory_channel_for H := by
  intro mem calls side pre mid post t0 t op ns opn h m inst start svc hf hx ho reg ms h0 ht hrun hfit hin as
  obtain ⟨s0, s, o0, o, hcall⟩ := memStream_frames (.inr rfl) ho h0 hrun hfit
  have he : as = s.histB := memHistory_eq o
  rw [he]
  rw [o0.a, o.trB] at hin
  refine ⟨o.history, fun hs => ?_⟩
  have := C113_wasm_channel_partial H side _ _ _ _ _ s0 s op ns opn h m inst start svc hf hx hcall (o.tidy ht) hin hs
  rw [← o0.a, ← o.trA] at this
  refine ⟨this.1, fun hq => this.2 ⟨?_, hq.2.1, o.settled hq.2.2⟩⟩
  have := hq.1
  unfold memSent at this
  rw [o.trA] at this
  exact this

end

/-! ## Concrete runs -/

def memTyped : WasmSystem.Mem := ⟨128, 128, [9], [8, 7]⟩

/-- Both sides have the same operations: `greeting.sayHello`, a stream and a channel. -/
def callsTyped : Side → List (Invoke.Call Unit) := fun _ => exports112 ++ exports113

def regTyped : Side → Registry Unit := fun side => Invoke.run Registry.init (callsTyped side)

def initTyped : WasmSystem.Sys Unit := .init memTyped (regTyped .host) (regTyped .guest)

def afterTyped (ms : List WasmSystem.Move) : WasmSystem.Sys Unit :=
  match WasmSystem.run memTyped (regTyped .host) (regTyped .guest) ms with
  | .ok t => t
  | _ => initTyped

theorem afterTyped_run {ms : List WasmSystem.Move}
    (h : (match WasmSystem.run memTyped (regTyped .host) (regTyped .guest) ms with | .ok _ => true | _ => false) = true) :
    memRun memTyped regTyped ms (afterTyped ms) := by
  unfold memRun afterTyped
  revert h
  cases WasmSystem.run memTyped (regTyped .host) (regTyped .guest) ms with
  | ok t => intro _; rfl
  | err e => intro h; cases h
  | panic => intro h; cases h

def fitTyped (t : WasmSystem.Sys Unit) : Bool :=
  (sentFrames t.trHost).all (fun f => decide (3 + (frameWire f).length ≤ 128)) &&
    (sentFrames t.trGuest).all (fun f => decide (3 + (frameWire f).length ≤ 128))

theorem fitTyped_ok {t : WasmSystem.Sys Unit} (h : fitTyped t = true) : allFit memTyped t.trHost t.trGuest := by
  simp only [fitTyped, Bool.and_eq_true, List.all_eq_true, decide_eq_true_eq] at h
  have key : ∀ f, 3 + (frameWire f).length ≤ 128 → fitsIn 128 f := fun f hf => ⟨hf, by omega⟩
  exact ⟨fun f hf => key f (h.1 f hf), fun f hf => key f (h.2 f hf)⟩

/-- What was run in the history is what the moves say. -/
theorem memHistory_runs {reg : Side → Registry Unit} {side : Side} {ms : List WasmSystem.Move} {i : Nat} {ret : Ret}
    (h : .run i ret ∈ memHistory reg side ms) : .run i ret ∈ ms.filterMap (actBy (Wasm.Side.other side)) := by
  unfold memHistory at h
  split at h
  · rename_i s hs
    have := (runSys_acts _ hs).2
    rw [List.filterMap_map] at this
    have e : (actB ∘ sideMove side) = actBy (Wasm.Side.other side) := by funext m; exact actB_sideMove side m
    rw [e] at this
    rw [← this]
    exact List.mem_filter.2 ⟨h, rfl⟩
  · cases h

def greetTyped (side : Side) : List WasmSystem.Move :=
  memCall side 0 [] (pay112 greetingCodec ⟨ascii "Ada", ascii "L"⟩) .created [] (Mono.mapInstalled ⟨true, true, true⟩)
    [loopsTo (Wasm.Side.other side), doneBy (Wasm.Side.other side) (.run 0 (retWasm112 side)),
     doneBy (Wasm.Side.other side) (.answer 0 (.success ⟨ascii "Hello, Ada L", []⟩)), loopsTo side]

theorem greetTyped_serves (side : Side) :
    Serves (RanOn (Wasm.Side.other side) (regTyped (Wasm.Side.other side)) (memHistory regTyped side (greetTyped side)))
      greetingCodec (fun _ m => m = .created) 0 := by
  intro as1 as2 t ret s1 t1 id data md n h ho
  have h1 : ret = retWasm112 side := by
    have h2 : Act.run t ret ∈ memHistory regTyped side (greetTyped side) := by rw [h.split]; simp
    have h3 := memHistory_runs h2
    cases side <;>
    · simp [greetTyped, memCall, doneBy, loopsTo, actBy, Wasm.Side.other, System.isFrame] at h3
      exact h3.2.symm
  have hall : ∀ x ∈ ranAllOn (Wasm.Side.other side) (regTyped (Wasm.Side.other side))
      (memHistory regTyped side (greetTyped side)),
      x = none ∨ x.map (·.2.2.1) = some (pay112 greetingCodec ⟨ascii "Ada", ascii "L"⟩).data := by
    cases side <;> decide +kernel
  have h2 := hall _ (ranOn_all h)
  simp only [reduceCtorEq, false_or, Option.map_some, Option.some.injEq] at h2
  obtain ⟨f0, hok⟩ := (request_decoded greeting_ok short_ada112 request112 (by show 2 < 2 ^ 32; omega)).2
  refine ⟨fun _ => .created, fun _ => rfl, f0, fun f hf => ?_⟩
  rw [h2, h1]
  simp only [answerRequest, hok f hf, retWasm112]

/-- The hypotheses of `C112_memory_partial` are met, whoever calls, and the caller of `SayHello` gets the greeting. -/
example (side : Side) : fewCalls (callsTyped (Wasm.Side.other side)) ∧
    (exportsOf .rr (callsTyped (Wasm.Side.other side)))[(0 : UInt32).toNat]? =
      some (ascii "greeting", ascii "sayHello", ()) ∧
    greetingCodec.short ⟨ascii "Ada", ascii "L"⟩ ∧
    requestPay (greetingCodec.encode (some ⟨ascii "Ada", ascii "L"⟩)) 0 = .ok (pay112 greetingCodec ⟨ascii "Ada", ascii "L"⟩) ∧
    memRun memTyped regTyped [] initTyped ∧ memTidy (greetTyped side) ∧
    memRun memTyped regTyped (greetTyped side) (afterTyped (greetTyped side)) ∧
    allFit memTyped (afterTyped (greetTyped side)).trHost (afterTyped (greetTyped side)).trGuest ∧
    Serves (RanOn (Wasm.Side.other side) (regTyped (Wasm.Side.other side)) (memHistory regTyped side (greetTyped side)))
      greetingCodec (fun _ m => m = .created) 0 ∧
    decodedMono ⟨true, true, true⟩ (monoEvs 0 (seenAt side (afterTyped (greetTyped side)))) =
      [.success 0 (ascii "Hello, Ada L"), .fin 0 .complete] := by
  refine ⟨by show 3 < 2 ^ 32; omega, ?_, short_ada112, request112, rfl, memTidy_of fun s => ?_, afterTyped_run ?_,
    fitTyped_ok ?_, greetTyped_serves side, ?_⟩
  · cases side <;> decide +kernel
  · cases side <;> cases s <;> decide +kernel
  all_goals cases side <;> decide +kernel

def streamTyped (side : Side) (k : Kind) (p : Pay) (src : Src) : List WasmSystem.Move :=
  memStream side 0 [] k p src [] (Flux.mapInstalled inst113) [.request 3]
    [doneBy side (.run 0 (retOn side)), loopsTo (Wasm.Side.other side),
     doneBy (Wasm.Side.other side) (.run 0 (ret113 (Wasm.keeps (Wasm.Side.other side)))),
     doneBy (Wasm.Side.other side) (.run 0 (ret113 (Wasm.keeps (Wasm.Side.other side)))),
     doneBy (Wasm.Side.other side) (.out 0 (.next ⟨ascii "1", []⟩)), loopsTo side,
     doneBy (Wasm.Side.other side) (.out 0 (.next ⟨ascii "2", []⟩)),
     doneBy (Wasm.Side.other side) (.out 0 .complete), loopsTo side, loopsTo side]

theorem streamTyped_rets {side : Side} {k : Kind} {p : Pay} {src : Src} :
    ∀ i ret, .run i ret ∈ memHistory regTyped side (streamTyped side k p src) → ret.flux = StrFlux.created.encoded := by
  intro i ret h
  have h3 := memHistory_runs h
  cases side <;>
  · simp [streamTyped, memStream, doneBy, loopsTo, actBy, Wasm.Side.other, System.isFrame] at h3
    rw [← h3.2]
    rfl

/-- The hypotheses of `C113_memory_partial` are met, whoever calls. -/
example (side : Side) : fewCalls (callsTyped (Wasm.Side.other side)) ∧
    (exportsOf .rs (callsTyped (Wasm.Side.other side)))[(0 : UInt32).toNat]? = some ([1], [2], ()) ∧
    counterCodec.short ⟨3⟩ ∧ requestPay (counterCodec.encode (some ⟨3⟩)) 0 = .ok count113 ∧
    memRun memTyped regTyped [] initTyped ∧ memTidy (streamTyped side .rs count113 .created) ∧
    memRun memTyped regTyped (streamTyped side .rs count113 .created) (afterTyped (streamTyped side .rs count113 .created)) ∧
    allFit memTyped (afterTyped (streamTyped side .rs count113 .created)).trHost
      (afterTyped (streamTyped side .rs count113 .created)).trGuest ∧
    ServesStream (Wasm.run (Wasm.Side.other side) (regTyped (Wasm.Side.other side)))
      (memHistory regTyped side (streamTyped side .rs count113 .created)) counterCodec (fun _ m => m = .created) 0 ∧
    fluxCallbacks (decodedFlux inst113 (fluxEvs 0 (seenAt side (afterTyped (streamTyped side .rs count113 .created))))) =
      [.next (ascii "1"), .next (ascii "2"), .complete, .fin .complete] := by
  refine ⟨by show 3 < 2 ^ 32; omega, ?_, short113, request113, rfl, memTidy_of fun s => ?_, afterTyped_run ?_,
    fitTyped_ok ?_, servesStream_of (d := count113.data) streamTyped_rets ?_
      (request_decoded counter_ok short113 request113 (by show 1 < 2 ^ 32; omega)).2, ?_⟩
  · cases side <;> decide +kernel
  · cases side <;> cases s <;> decide +kernel
  all_goals cases side <;> decide +kernel

/-- Those of `C113_memory_channel_partial`. -/
example (side : Side) : (exportsOf .rc (callsTyped (Wasm.Side.other side)))[(0 : UInt32).toNat]? = some ([1], [2], ()) ∧
    memTidy (streamTyped side .rc (channelPay 0) (channelInput .created)) ∧
    memRun memTyped regTyped (streamTyped side .rc (channelPay 0) (channelInput .created))
      (afterTyped (streamTyped side .rc (channelPay 0) (channelInput .created))) ∧
    allFit memTyped (afterTyped (streamTyped side .rc (channelPay 0) (channelInput .created))).trHost
      (afterTyped (streamTyped side .rc (channelPay 0) (channelInput .created))).trGuest ∧
    .cancel ⟨callId (endOf side initTyped)⟩ ∉ sentFrames (seenAt (Wasm.Side.other side)
      (afterTyped (streamTyped side .rc (channelPay 0) (channelInput .created)))) ∧
    ServesChannel (Wasm.run (Wasm.Side.other side) (regTyped (Wasm.Side.other side)))
      (memHistory regTyped side (streamTyped side .rc (channelPay 0) (channelInput .created))) (fun m => m = .created) 0 ∧
    fluxCallbacks (decodedFlux inst113 (fluxEvs 0 (seenAt side
      (afterTyped (streamTyped side .rc (channelPay 0) (channelInput .created)))))) =
      [.next (ascii "1"), .next (ascii "2"), .complete, .fin .complete] := by
  refine ⟨?_, memTidy_of fun s => ?_, afterTyped_run ?_, fitTyped_ok ?_, ?_, servesChannel_of streamTyped_rets, ?_⟩
  · cases side <;> decide +kernel
  · cases side <;> cases s <;> decide +kernel
  all_goals cases side <;> decide +kernel

end Verif.Props
