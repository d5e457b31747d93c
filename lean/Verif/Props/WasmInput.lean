import Verif.Props.WasmCancel
/-
Property C105: the input of a channel between a wasm host and its guest.
-/
set_option autoImplicit false
namespace Verif.Props
open Verif Frames Handler
open Verif.Invoke (Kind Registry getHandler)
open Verif.System (Sys Move)
open Verif.WasmRecv (Side)

section
variable {H : Type}

/-! ## Specification

As for C94, between a wasm host and its guest: after `pre`, end A calls a channel operation with payload `p` and the input
`src`, things go on (`mid`), the handler of end B serves the call as its stream number `i` and subscribes to the
input it was given, installing the callbacks `inst` and calling `start` from inside OnSubscribe, and things go on
(`post`). End A is the host or the guest, as `side` says. `inpEvs` is what B's handler sees of the input. -/

/-- The run described above, ending in `s`. -/
structure wasmInput (side : Side) (regA regB : Registry H) (pre : List Move) (s0 : Sys H) (p : Pay)
    (src : Src) (mid : List Move) (s1 : Sys H) (i : Nat) (inst : Flux.Installed) (start : List Flux.Call)
    (post : List Move) (s : Sys H) : Prop where
  before : Wasm.runSys side regA regB pre = .ok s0
  call : Wasm.runSys side regA regB (pre ++ .atA (.call .rc p src) :: mid) = .ok s1
  channel : ∃ out b, s1.b.objs[i]? = some (.responder .rc (callId s0.a) out b none)
  whole : Wasm.runSys side regA regB (pre ++ .atA (.call .rc p src) :: mid ++
    .atB (.subscribeInp i inst start) :: post) = .ok s

/-- What the input `src` of the channel call `j`, made at the end of `as1` on side `side`, has said by the end of
`as1 ++ as2`: nothing before the subscription to it was carried out, what its source has said since otherwise. -/
inductive SaidOn (side : Side) (reg : Registry H) (as1 : List Act) (j : Nat) (src : Src) (as2 : List Act) :
    List StreamSig → Prop
  | waiting (unsub : ∀ as3 as4 t ret s3 t3, as2 = as3 ++ .run t ret :: as4 →
      Wasm.run side reg (as1 ++ as3) = .ok (s3, t3) → s3.tasks[t]? ≠ some (.subscribeIn j)) :
      SaidOn side reg as1 j src as2 []
  | subscribed (as3 as4 : List Act) (t : Nat) (ret : Ret) (s3 : St H) (t3 : List (Handler.Ev H))
      (split : as2 = as3 ++ .run t ret :: as4) (before : Wasm.run side reg (as1 ++ as3) = .ok (s3, t3))
      (task : s3.tasks[t]? = some (.subscribeIn j)) :
      SaidOn side reg as1 j src as2 (relayed src (inputSigs j as4))

/-- What A's application has said on the input of the call by the end of the run. -/
def saidOnCall (side : Side) (regA : Registry H) (s0 s : Sys H) (p : Pay) (src : Src) (r : List StreamSig) : Prop :=
  ∃ rest, s.histA = s0.histA ++ .call .rc p src :: rest ∧
    SaidOn side regA (s0.histA ++ [.call .rc p src]) s0.a.objs.length src rest r

/-- What B's handler sees of the input is the beginning of what A's application has said on it. -/
def faithfulInput (side : Side) (regA : Registry H) (s0 s : Sys H) (p : Pay) (src : Src) (i : Nat)
    (inst : Flux.Installed) : Prop :=
  ∃ r, saidOnCall side regA s0 s p src r ∧ ∃ seen, seen <+: cutAtEnd r ∧
    fluxSignals (inpEvs i s.trB) = (seen.map sigOverWire).flatMap (sigCalls inst)

/-! ## From one transport to the other -/

theorem saidOn {side : Side} {reg : Registry H} {as1 as2 : List Act} {j : Nat} {src : Src} {r : List StreamSig}
    {s : St H} {tr : List (Handler.Ev H)} (hw : Wasm.run side reg (as1 ++ as2) = .ok (s, tr))
    (hf : ∀ f ∈ handedOver (as1 ++ as2), fits f)
    (h : InputSaid reg (Wasm.Side.client side) as1 j src as2 r) : SaidOn side reg as1 j src as2 r := by
  cases h with
  | waiting unsub =>
    refine .waiting fun as3 as4 t ret s3 t3 hs hr => ?_
    obtain ⟨t', h2, -⟩ := run_alike _ hr fun f hm => hf f (by
      rw [hs, ← List.append_assoc, handedOver_append]; exact List.mem_append_left _ hm)
    exact unsub as3 as4 t ret s3 t' hs h2
  | subscribed as3 as4 t ret s3 t3 split before task =>
    have e : as1 ++ as2 = (as1 ++ as3) ++ .run t ret :: as4 := by rw [split]; simp
    obtain ⟨t3', h'⟩ := runOn (e ▸ hw) (e ▸ hf) before
    exact .subscribed as3 as4 t ret s3 t3' split h' task

theorem OverRsocket.outputKept {side : Side} {regA regB : Registry H} {ms : List Move} {s s' : Sys H}
    (h : OverRsocket side regA regB ms s s') {x : UInt32} (hi : outputKept s x) : outputKept s' x := by
  unfold Props.outputKept at hi ⊢
  rw [← wire_alike h.alike.trA]; exact hi

theorem wasmInput.rsocket {side : Side} {regA regB : Registry H} {pre mid post : List Move} {s0 s1 s : Sys H} {p : Pay}
    {src : Src} {i : Nat} {inst : Flux.Installed} {start : List Flux.Call}
    (h : wasmInput side regA regB pre s0 p src mid s1 i inst start post s) :
    ∃ s0' s1' s', s0'.a = s0.a ∧ s0'.histA = s0.histA ∧ s1'.histB = s1.histB ∧
      inputRun regA regB (Wasm.Side.client side) pre s0' p src mid s1' i inst start post s' ∧
      OverRsocket side regA regB (pre ++ .atA (.call .rc p src) :: mid ++
        .atB (.subscribeInp i inst start) :: post) s s' := by
  obtain ⟨s0', h0⟩ := overRsocket h.before
  obtain ⟨s1', h1⟩ := overRsocket h.call
  obtain ⟨s', h2⟩ := overRsocket h.whole
  exact ⟨s0', s1', s', h0.alike.a, h0.alike.histA, h1.alike.histB,
    ⟨h0.run, h1.run, by rw [h1.alike.b, h0.alike.a]; exact h.channel, h2.run⟩, h2⟩

theorem saidOnCall_of {side : Side} {regA regB : Registry H} {ms : List Move} {s0 s0' s s' : Sys H} {p : Pay} {src : Src}
    {r : List StreamSig} (h : OverRsocket side regA regB ms s s') (ea : s0'.a = s0.a) (eh : s0'.histA = s0.histA)
    (hr : saidOnInput regA (Wasm.Side.client side) s0' s' p src r) : saidOnCall side regA s0 s p src r := by
  obtain ⟨rest, h1, h2⟩ := hr
  rw [h.alike.histA, eh] at h1
  rw [eh, ea] at h2
  have e : s.histA = (s0.histA ++ [.call .rc p src]) ++ rest := by rw [h1]; simp
  exact ⟨rest, h1, saidOn (e ▸ h.endA) (e ▸ h.fitsA) h2⟩

/-! ## C105 -/

/-- C105: what the handler of a channel sees of its input, at any point of any run, is the beginning of what the
caller's application has said on that input, in that order and without gaps, provided that the caller does not cancel the
output and that nothing arrived before the handler subscribed. -/
theorem C105_input_partial (side : Side) (regA regB : Registry H) (pre mid post : List Move) (s0 s1 s : Sys H) (p : Pay)
    (src : Src) (i : Nat) (inst : Flux.Installed) (start : List Flux.Call)
    (h : wasmInput side regA regB pre s0 p src mid s1 i inst start post s) (ht : Tidy s)
    (hk : outputKept s (callId s0.a)) (hearly : arrivals (callId s0.a) s1.histB = []) :
    faithfulInput side regA s0 s p src i inst := by
  obtain ⟨s0', s1', s', ea, eh, eb, hr, ho⟩ := h.rsocket
  obtain ⟨r, h1, seen, h2, h3⟩ := C94_input_partial _ _ _ _ _ _ _ _ _ _ _ _ _ _ hr (ho.tidy ht)
    (by rw [ea]; exact ho.outputKept hk) (by rw [ea, eb]; exact hearly)
  exact ⟨r, saidOnCall_of ho ea eh h1, seen, h2, by rw [inpEvs_alike ho.alike.trB]; exact h3⟩

/-- C105: once nothing is under way to it, a handler that has not cancelled its input has seen exactly what the
caller's application has said on it, up to the end of the input. -/
theorem C105_completes_partial (side : Side) (regA regB : Registry H) (pre mid post : List Move) (s0 s1 s : Sys H)
    (p : Pay) (src : Src) (i : Nat) (inst : Flux.Installed) (start : List Flux.Call)
    (h : wasmInput side regA regB pre s0 p src mid s1 i inst start post s) (ht : Tidy s)
    (hk : outputKept s (callId s0.a)) (hearly : arrivals (callId s0.a) s1.histB = [])
    (hc : .cancelled ∉ inpEvs i s.trB) (hq : s.ab = []) :
    ∃ r, saidOnCall side regA s0 s p src r ∧
      fluxCallbacks (inpEvs i s.trB) = ((cutAtEnd r).map sigOverWire).flatMap (sigCallbacks inst) := by
  obtain ⟨s0', s1', s', ea, eh, eb, hr, ho⟩ := h.rsocket
  obtain ⟨r, h1, h2⟩ := C94_completes_partial _ _ _ _ _ _ _ _ _ _ _ _ _ _ hr (ho.tidy ht)
    (by rw [ea]; exact ho.outputKept hk) (by rw [ea, eb]; exact hearly)
    (by rw [← inpEvs_alike ho.alike.trB]; exact hc) (ho.alike.ab.trans hq)
  exact ⟨r, saidOnCall_of ho ea eh h1, by rw [inpEvs_alike ho.alike.trB]; exact h2⟩

/-- C105 in full: the same whatever the caller does and however soon the input speaks. -/
def C105_statement (side : Side) : Prop :=
  ∀ (regA regB : Registry Unit) (pre mid post : List Move) (s0 s1 s : Sys Unit) (p : Pay)
    (src : Src) (i : Nat) (inst : Flux.Installed) (start : List Flux.Call),
    wasmInput side regA regB pre s0 p src mid s1 i inst start post s → Tidy s →
    (side = .host → promptGuest regB s) → faithfulInput side regA s0 s p src i inst

/-! ## Examples -/

def called105 (mid post : List Move) : List Move :=
  [] ++ .atA (.call .rc ⟨[5], eightZeros⟩ .created) :: mid ++ .atB (.subscribeInp 0 inst96 [.request 3]) :: post

/-- A subscribes to the output and asks for three elements, the request goes over and is served; meanwhile
A subscribes to the input. -/
def served105 (side : Side) : List Move :=
  let a := Act.run 0 (retOn side)
  [.atA (.subscribeFlux 0 inst96 [.request 3]), .atA a, .toB noReact, .atB (.run 0 (retOn (Wasm.Side.other side))), .atA a]

/-- B asks for three elements; the input gives two and is complete. -/
def input105 (side : Side) : List Move :=
  let a := Act.run 0 (retOn side)
  let b := Act.run 0 (retOn (Wasm.Side.other side))
  [.atB b, .atB b, .atB b, .toA noReact, .atA a, .atA (.input 0 (.next ⟨[7], [8]⟩)), .toB noReact,
   .atB (.out 0 (.next ⟨[1], []⟩)), .atA (.input 0 (.next ⟨[6], []⟩)), .atA (.input 0 .complete), .toB noReact, .toB noReact]

def start105 (side : Side) : Sys Unit := .init oneHandler oneHandler (Wasm.Side.client side)
def mid105 (side : Side) : Sys Unit :=
  sysAfter (Wasm.runSys side oneHandler oneHandler ([] ++ .atA (.call .rc ⟨[5], eightZeros⟩ .created) :: served105 side))
def end105 (side : Side) : Sys Unit := sysAfter (Wasm.runSys side oneHandler oneHandler (called105 (served105 side) (input105 side)))

/-- The hypotheses of the theorems hold for it, and the handler sees two elements and the completion. -/
example (side : Side) : wasmInput side oneHandler oneHandler [] (start105 side) ⟨[5], eightZeros⟩ .created (served105 side)
      (mid105 side) 0 inst96 [.request 3] (input105 side) (end105 side) ∧ Tidy (end105 side) ∧
    outputKept (end105 side) (callId (start105 side).a) ∧ arrivals (callId (start105 side).a) (mid105 side).histB = [] ∧
    .cancelled ∉ inpEvs 0 (end105 side).trB ∧ (end105 side).ab = [] ∧
    fluxCallbacks (inpEvs 0 (end105 side).trB) = [.next ⟨[7], [8]⟩, .next ⟨[6], []⟩, .complete, .fin .complete] := by
  refine ⟨⟨rfl, ?_, ?_, ?_⟩, tidy_of ?_ ?_ ?_ ?_, ?_, ?_, ?_, ?_, ?_⟩
  case refine_1 => cases side <;> rfl
  case refine_2 => cases side <;> exact ⟨_, _, rfl⟩
  case refine_3 => cases side <;> rfl
  case refine_8 => unfold outputKept; cases side <;> decide +kernel
  all_goals cases side <;> decide +kernel

/-- A cancels the output after the first element of the input. -/
def cancelOut105 (side : Side) : List Move :=
  let b := Act.run 0 (retOn (Wasm.Side.other side))
  [.atB b, .atB b, .atB b, .atA (.input 0 (.next ⟨[7], [8]⟩)), .atA (.fluxCall 0 .cancel), .toB noReact, .toB noReact]

def endCancel105 (side : Side) : Sys Unit :=
  sysAfter (Wasm.runSys side oneHandler oneHandler (called105 (served105 side) (cancelOut105 side)))

/-- What has been said on an input that is not a failed flux was said by its source. -/
theorem saidOnCall_mem {side : Side} {regA : Registry Unit} {s0 s : Sys Unit} {p : Pay} {r : List StreamSig}
    (h : saidOnCall side regA s0 s p .created r) {y : StreamSig} (hy : y ∈ r) : y ∈ inputSigs s0.a.objs.length s.histA := by
  obtain ⟨rest, h1, h2⟩ := h
  cases h2 with
  | waiting => cases hy
  | subscribed as3 as4 t ret s3 t3 split =>
    have := cutAtEnd_mem (show y ∈ cutAtEnd (inputSigs s0.a.objs.length as4) from hy)
    rw [h1, split]
    simp only [inputSigs, List.mem_flatMap] at this ⊢
    obtain ⟨a, h3, h4⟩ := this
    exact ⟨a, by simp [h3], h4⟩

/-- Whoever calls, the handler is told that its input is complete, which the caller's application has not said, although
the input speaks only after the handler subscribed: the caller cancelled the output. -/
theorem C105_cancel_violated (side : Side) : ¬ ∀ (regA regB : Registry Unit) (pre mid post : List Move) (s0 s1 s : Sys Unit)
    (p : Pay) (src : Src) (i : Nat) (inst : Flux.Installed) (start : List Flux.Call),
    wasmInput side regA regB pre s0 p src mid s1 i inst start post s → Tidy s →
    (side = .host → promptGuest regB s) → arrivals (callId s0.a) s1.histB = [] →
    faithfulInput side regA s0 s p src i inst := by
  intro h
  obtain ⟨r, h1, seen, h2, h3⟩ := h oneHandler oneHandler [] (served105 side) (cancelOut105 side) (start105 side) (mid105 side)
    (endCancel105 side) ⟨[5], eightZeros⟩ .created 0 inst96 [.request 3]
    ⟨rfl, by cases side <;> rfl, by cases side <;> exact ⟨_, _, rfl⟩, by cases side <;> rfl⟩
    (tidy_of (by cases side <;> decide +kernel) (by cases side <;> decide +kernel) (by cases side <;> decide +kernel)
      (by cases side <;> decide +kernel))
    (by rintro rfl; exact promptGuest_of (by decide +kernel)) (by cases side <;> decide +kernel)
  have hs : fluxSignals (inpEvs 0 (endCancel105 side).trB) = [.next ⟨[7], [8]⟩, .complete] := by cases side <;> decide +kernel
  have hc : Flux.Ev.complete ∈ (seen.map sigOverWire).flatMap (sigCalls inst96) := by rw [← h3, hs]; simp
  obtain ⟨y, h4, h5⟩ := List.mem_flatMap.mp hc
  obtain ⟨z, h6, rfl⟩ := List.mem_map.mp h4
  have h7 := saidOnCall_mem h1 (cutAtEnd_mem (h2.subset h6))
  have h8 : inputSigs (start105 side).a.objs.length (endCancel105 side).histA = [.element ⟨[7], [8]⟩] := by
    cases side <;> decide +kernel
  rw [h8] at h7
  simp only [List.mem_singleton] at h7
  subst h7
  simp [sigOverWire, sigCalls] at h5

theorem C105_violated (side : Side) : ¬ C105_statement side :=
  fun h => C105_cancel_violated side fun regA regB pre mid post s0 s1 s p src i inst start h1 h2 h3 _ =>
    h regA regB pre mid post s0 s1 s p src i inst start h1 h2 h3

/-- The guest subscribes to the input, which speaks before the host's goroutine serving the request has run. -/
def early105 : List Move :=
  let a := Act.run 0 (retOn .guest)
  [.atA (.subscribeFlux 0 inst96 [.request 3]), .atA a, .atA a, .atA (.input 0 (.next ⟨[7], [8]⟩)),
   .atA (.input 0 (.next ⟨[6], []⟩)), .toB noReact, .toB noReact, .atB (.run 0 (retOn .host))]

def midEarly105 : Sys Unit :=
  sysAfter (Wasm.runSys .guest oneHandler oneHandler ([] ++ .atA (.call .rc ⟨[5], eightZeros⟩ .created) :: early105))
def endEarly105 : Sys Unit := sysAfter (Wasm.runSys .guest oneHandler oneHandler (called105 early105 [.toB noReact]))

/-- The host's handler misses the first element and sees the second one, although the guest does not cancel: the first one
arrived before the goroutine serving the request had run. -/
theorem C105_early_violated : ¬ ∀ (regA regB : Registry Unit) (pre mid post : List Move) (s0 s1 s : Sys Unit)
    (p : Pay) (src : Src) (i : Nat) (inst : Flux.Installed) (start : List Flux.Call),
    wasmInput .guest regA regB pre s0 p src mid s1 i inst start post s → Tidy s →
    outputKept s (callId s0.a) → faithfulInput .guest regA s0 s p src i inst := by
  intro h
  obtain ⟨r, ⟨rest, h0, h1⟩, seen, h2, h3⟩ := h oneHandler oneHandler [] early105 [.toB noReact] (start105 .guest)
    midEarly105 endEarly105 ⟨[5], eightZeros⟩ .created 0 inst96 [.request 3]
    ⟨rfl, rfl, ⟨_, _, rfl⟩, rfl⟩ (tidy_of (by decide +kernel) (by decide +kernel) (by decide +kernel) (by decide +kernel))
    (by unfold outputKept; decide +kernel)
  have hs : fluxSignals (inpEvs 0 endEarly105.trB) = [.next ⟨[6], []⟩] := by decide +kernel
  rw [hs] at h3
  have hh : endEarly105.histA = (start105 .guest).histA ++ .call .rc ⟨[5], eightZeros⟩ .created ::
      [.subscribeFlux 0 inst96 [.request 3], .run 0 (retOn .guest), .run 0 (retOn .guest),
       .input 0 (.next ⟨[7], [8]⟩), .input 0 (.next ⟨[6], []⟩)] := rfl
  rw [hh] at h0
  have h0 := (List.cons.inj (List.append_cancel_left h0)).2
  have hr : r = [] ∨ r = [.element ⟨[7], [8]⟩, .element ⟨[6], []⟩] := by
    cases h1 with
    | waiting => exact .inl rfl
    | subscribed as3 as4 t ret s3 t3 split =>
      right
      rw [← h0] at split
      have : inputSigs 0 as4 = [.element ⟨[7], [8]⟩, .element ⟨[6], []⟩] := by
        match as3, split with
        | [], split => simp at split
        | [a], split => simp at split; rw [← split.2.2]; rfl
        | [a, b], split => simp at split; rw [← split.2.2.2]; rfl
        | [a, b, c], split => simp at split
        | [a, b, c, d], split => simp at split
        | a :: b :: c :: d :: e :: l, split => simp at split
      show cutAtEnd (inputSigs 0 as4) = _
      rw [this]; rfl
  rcases hr with rfl | rfl
  · rw [List.prefix_nil.mp h2] at h3; cases h3
  · match seen, h2 with
    | [], _ => cases h3
    | a :: l, h2 =>
      obtain ⟨rfl, -⟩ := List.cons_prefix_cons.mp h2
      simp [sigOverWire, sigCalls, inst96] at h3

end
end Verif.Props
