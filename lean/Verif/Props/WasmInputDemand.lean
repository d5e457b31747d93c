import Verif.Props.WasmInput
/-
Property C106: the demand for the input of a channel between a wasm host and its guest.
-/
set_option autoImplicit false
namespace Verif.Props
open Verif Frames Handler
open Verif.Invoke (Kind Registry getHandler)
open Verif.System (Sys Move)
open Verif.WasmRecv (Side)

section
variable {H : Type}

/-! ## Specification

As for C96, between a wasm host and its guest: stream number `j` of end A is a call of a channel operation with an input,
and stream number `i` of end B, with the same id, is the call as B's handler serves it (`channelEnds`). `inputDemands` is
what B's handler requests of the input, `asks` is what the source of A's input is asked for. End A is the host or the guest,
as `side` says. -/

/-- The source of A's input keeps to the protocol: it calls OnSubscribe at most once, and says an element only after it
has been asked for some. -/
structure politeInputOn (side : Side) (regA : Registry H) (s : Sys H) (j : Nat) : Prop where
  once : s.histA.countP (isOnSub j) ≤ 1
  asked : ∀ b1 a b2, s.histA = b1 ++ a :: b2 → saysNext j a = true →
    ∀ s1 t1, Wasm.run side regA b1 = .ok (s1, t1) → asks j t1 ≠ []

/-- Each request for input is handed to A while A has the stream open. -/
def inputHeardOn (side : Side) (regA : Registry H) (s : Sys H) (j : Nat) (x : UInt32) : Prop :=
  ∀ b1 f r b2, s.histA = b1 ++ .frame (.requestN f) r :: b2 → f.streamID = x →
    ∀ s1 t1, Wasm.run side regA b1 = .ok (s1, t1) → .opened x j ∈ t1 ∧ .closed x ∉ t1

/-- C106 as stated in English. -/
def C106_statement (H : Type) (side : Side) : Prop :=
  ∀ (regA regB : Registry H) (ms : List Move) (s : Sys H),
    Wasm.runSys side regA regB ms = .ok s → Tidy s →
    ∀ j i x, channelEnds s j i x → sensibleInputDemands s i → politeInputOn side regA s j →
      (asks j s.trA).sum ≤ (inputDemands i s.trB).sum ∧
      (inputSettled s j i → (asks j s.trA).sum = (inputDemands i s.trB).sum)

/-! ## From one transport to the other -/

section
variable {side : Side} {regA regB : Registry H} {ms : List Move} {s s' : Sys H}

theorem inputDemands_alike {e e' : List (Handler.Ev H)} (h : Alike side e e') (i : Nat) : inputDemands i e = inputDemands i e' :=
  h.filterMap _ (fun _ => rfl) (fun _ _ _ _ => rfl)

theorem OverRsocket.channelEnds (h : OverRsocket side regA regB ms s s') {j i : Nat} {x : UInt32} (hb : channelEnds s j i x) :
    channelEnds s' j i x :=
  ⟨by rw [h.alike.a]; exact hb.caller, by rw [h.alike.b]; exact hb.server⟩

theorem OverRsocket.sensibleInput (h : OverRsocket side regA regB ms s s') {i : Nat} (hn : sensibleInputDemands s i) :
    sensibleInputDemands s' i := by
  unfold sensibleInputDemands at hn ⊢
  rw [← inputDemands_alike h.alike.trB]; exact hn

theorem OverRsocket.inputSettled (h : OverRsocket side regA regB ms s s') {j i : Nat} (hs : inputSettled s j i) :
    inputSettled s' j i :=
  ⟨h.alike.ba.trans hs.wire, by rw [h.alike.b]; exact hs.atB, by rw [h.alike.a]; exact hs.atA,
    by rw [h.alike.b]; exact hs.goesOn, by rw [h.alike.a]; exact hs.ready⟩

/-- What A has done by a point of its history. -/
theorem OverRsocket.beginA (h : OverRsocket side regA regB ms s s') {b1 b2 : List Act} {a : Act} (hb : s.histA = b1 ++ a :: b2)
    {s1 : St H} {t1 : List (Handler.Ev H)} (hr : Handler.run regA (Wasm.Side.client side) b1 = .ok (s1, t1)) :
    ∃ t2, Wasm.run side regA b1 = .ok (s1, t2) ∧ Alike side t2 t1 := by
  have hw := h.endA
  have hf := h.fitsA
  rw [hb] at hw hf
  obtain ⟨s2, t2, -, h1, -⟩ := wasm_run_prefix hw
  obtain ⟨t', h2, h3⟩ := run_alike b1 h1 fun f hm => hf f (by rw [handedOver_append]; exact List.mem_append_left _ hm)
  rw [h2] at hr; cases hr
  exact ⟨t2, h1, h3⟩

theorem OverRsocket.politeInput (h : OverRsocket side regA regB ms s s') {j : Nat} (hp : politeInputOn side regA s j) :
    politeInput regA (Wasm.Side.client side) s' j := by
  refine ⟨by rw [h.alike.histA]; exact hp.once, fun b1 a b2 hb ha s1 t1 hr => ?_⟩
  rw [h.alike.histA] at hb
  obtain ⟨t2, h1, h3⟩ := h.beginA hb hr
  rw [← asks_alike h3]
  exact hp.asked b1 a b2 hb ha _ _ h1

theorem OverRsocket.inputHeard (h : OverRsocket side regA regB ms s s') {j : Nat} {x : UInt32}
    (hp : inputHeardOn side regA s j x) : inputHeardInTime regA (Wasm.Side.client side) s' j x := by
  intro b1 f r b2 hb hx s1 t1 hr
  rw [h.alike.histA] at hb
  obtain ⟨t2, h1, h3⟩ := h.beginA hb hr
  have := hp b1 f r b2 hb hx s1 t2 h1
  rwa [mem_alike h3 (by simp) (by simp), mem_alike h3 (by simp) (by simp)] at this

/-! ## C106 -/

/-- C106: the source of a channel's input is never asked for more than the handler at the other end has requested. -/
theorem C106_bound_partial (h : Wasm.runSys side regA regB ms = .ok s) (ht : Tidy s) (j i : Nat) (x : UInt32)
    (hb : channelEnds s j i x) (hn : sensibleInputDemands s i) (hone : s.histA.countP (isOnSub j) ≤ 1) :
    (asks j s.trA).sum ≤ (inputDemands i s.trB).sum := by
  obtain ⟨s', hr⟩ := overRsocket h
  have := C96_bound_partial _ _ _ _ _ hr.run (hr.tidy ht) j i x (hr.channelEnds hb) (hr.sensibleInput hn)
    (by rw [hr.alike.histA]; exact hone)
  rwa [← asks_alike hr.alike.trA, ← inputDemands_alike hr.alike.trB] at this

/-- C106: once nothing is under way the source of the input has been asked for exactly as much as the handler has
requested, provided A had the stream open whenever more was requested. -/
theorem C106_exact_partial (h : Wasm.runSys side regA regB ms = .ok s) (ht : Tidy s) (j i : Nat) (x : UInt32)
    (hb : channelEnds s j i x) (hn : sensibleInputDemands s i) (hp : politeInputOn side regA s j) (hs : inputSettled s j i)
    (hh : inputHeardOn side regA s j x) : (asks j s.trA).sum = (inputDemands i s.trB).sum := by
  obtain ⟨s', hr⟩ := overRsocket h
  have := C96_exact_partial _ _ _ _ _ hr.run (hr.tidy ht) j i x (hr.channelEnds hb) (hr.sensibleInput hn)
    (hr.politeInput hp) (hr.inputSettled hs) (hr.inputHeard hh)
  rwa [← asks_alike hr.alike.trA, ← inputDemands_alike hr.alike.trB] at this

/-- How a request for input gets lost: when A no longer has the stream open, because the completion of the output has
reached it first, it drops the request. -/
theorem C106_dropped_partial (s : Sys H) (x : UInt32) (hg : getStream s.a x = none)
    (f : RequestN) (hx : f.streamID = x) (fs : List AnyFrame) (hf : s.ba = .requestN f :: fs) (r : React) :
    ∃ s', Wasm.stepSys side s (.toA r) = .ok s' ∧ s'.a = s.a ∧ s'.trA = s.trA ∧ s'.ab = s.ab := by
  have hid : (AnyFrame.requestN f).streamID = x := hx
  refine ⟨{ s with ba := fs, histA := s.histA ++ [.frame (.requestN f) r] }, ?_, rfl, rfl, rfl⟩
  simp [Wasm.stepSys, hf, Wasm.moveA, Wasm.step, Wasm.recv, hid, hg, System.wire]

end
end

/-! ## Concrete runs -/

section
variable {H : Type}

theorem politeInputOn_of {side : Side} {regA : Registry H} {s : Sys H} {j : Nat} (h1 : s.histA.countP (isOnSub j) ≤ 1)
    (h2 : atEach side regA (fun a _ t => !saysNext j a || !(asks j t).isEmpty) s.histA = true) :
    politeInputOn side regA s j := by
  refine ⟨h1, fun b1 a b2 hb ha s1 t1 hr hc => ?_⟩
  have := atEach_mem h2 hb hr
  simp [ha, hc] at this

/-- The stream `x` has been opened as number `j` and not been closed. -/
def openIn (x : UInt32) (j : Nat) (t : List (Handler.Ev H)) : Bool :=
  (t.any fun | .opened y i => decide (y = x ∧ i = j) | _ => false) && !(t.any fun | .closed y => decide (y = x) | _ => false)

theorem inputHeardOn_of {side : Side} {regA : Registry H} {s : Sys H} {j : Nat} {x : UInt32}
    (h : atEach side regA (fun a _ t => (match a with | .frame (.requestN _) _ => false | _ => true) || openIn x j t) s.histA = true) :
    inputHeardOn side regA s j x := by
  intro b1 f r b2 hb hx s1 t1 hr
  have := atEach_mem h hb hr
  simp only [Bool.false_or, openIn, Bool.and_eq_true, Bool.not_eq_true'] at this
  obtain ⟨h1, h2⟩ := this
  constructor
  · obtain ⟨e, he, h3⟩ := List.any_eq_true.mp h1
    cases e with
    | opened y i => obtain ⟨rfl, rfl⟩ := of_decide_eq_true h3; exact he
    | _ => cases h3
  · intro hm
    exact absurd (List.any_eq_false.mp h2 _ hm) (by simp)

end

/-- A makes a call it never requests anything of, and calls a channel operation; B's handler subscribes to the input
and requests one element of it; A's source gets ready. -/
def open106 (side : Side) : List Move :=
  let a := Act.run 0 (retOn side)
  let b (n : Nat) := Act.run n (retOn (Wasm.Side.other side))
  [.atA (.call .rs ⟨[], eightZeros⟩ .created), .atA (.subscribeFlux 0 inst96 []),
   .atA (.call .rc ⟨[5], eightZeros⟩ .created), .atA (.subscribeFlux 1 inst96 [.request 1]), .atA a,
   .atA a, .toB noReact, .atB (b 0), .atB (.subscribeInp 0 inst96 [.request 1]),
   .atB (b 1), .toA noReact, .atA a, .atA (.input 1 (.onSubscribe true))]

/-- A's source says an element, and B's handler requests two more. -/
def goesOn106 (side : Side) : List Move := open106 side ++
  [.atA (.input 1 (.next ⟨[7], []⟩)), .toB noReact, .atB (.inpCall 0 (.request 2)), .atB (.run 1 (retOn (Wasm.Side.other side))),
   .toA noReact, .atA (.run 0 (retOn side))]

/-- B's handler completes the output of the channel, and then requests two more elements of the input. -/
def halfDone106 (side : Side) : List Move :=
  let b := Act.run 0 (retOn (Wasm.Side.other side))
  open106 side ++
  [.atB b, .atB b, .atB (.out 0 (.onSubscribe true)), .atB (.out 0 .complete), .toA noReact,
   .atB (.inpCall 0 (.request 2)), .atB b, .toA noReact]

def end106 (side : Side) : Sys Unit := sysAfter (Wasm.runSys side oneHandler oneHandler (goesOn106 side))
def lost106 (side : Side) : Sys Unit := sysAfter (Wasm.runSys side oneHandler oneHandler (halfDone106 side))

/-- The id of the second call. -/
def id106 : Side → UInt32
  | .guest => 3
  | .host => 4

/-- The hypotheses of both theorems hold for the first run, where the source is asked for one element, then two. -/
example (side : Side) : Wasm.runSys side oneHandler oneHandler (goesOn106 side) = .ok (end106 side) ∧ Tidy (end106 side) ∧
    channelEnds (end106 side) 1 0 (id106 side) ∧
    sensibleInputDemands (end106 side) 0 ∧ politeInputOn side oneHandler (end106 side) 1 ∧ inputSettled (end106 side) 1 0 ∧
    inputHeardOn side oneHandler (end106 side) 1 (id106 side) ∧ asks 1 (end106 side).trA = [1, 2] ∧
    inputDemands 0 (end106 side).trB = [1, 2] := by
  refine ⟨by cases side <;> rfl, tidy_of ?_ ?_ ?_ ?_, ⟨?_, ?_⟩, ?_, politeInputOn_of ?_ ?_, ⟨?_, ?_, ?_, ?_, ?_⟩, inputHeardOn_of ?_, ?_, ?_⟩
  case refine_5 => cases side <;> exact ⟨_, _, _, _, _, rfl, rfl⟩
  case refine_6 => cases side <;> exact ⟨_, _, _, rfl⟩
  case refine_7 => unfold sensibleInputDemands; cases side <;> decide +kernel
  case refine_13 => cases side <;> exact ⟨_, _, _, _, _, rfl, rfl⟩
  case refine_14 => cases side <;> exact ⟨_, _, _, _, _, _, rfl, rfl⟩
  all_goals cases side <;> decide +kernel

/-- C106 fails: once B's handler has completed the output, A has forgotten the stream, and what the handler requests of
the input afterwards is lost. -/
theorem C106_half_violated (side : Side) : asks 1 (lost106 side).trA = [1] ∧ inputDemands 0 (lost106 side).trB = [1, 2] := by
  cases side <;> decide +kernel

theorem C106_violated (side : Side) : ¬ C106_statement Unit side := by
  intro h
  have := (h oneHandler oneHandler (halfDone106 side) (lost106 side) (by cases side <;> rfl)
    (tidy_of (by cases side <;> decide +kernel) (by cases side <;> decide +kernel) (by cases side <;> decide +kernel)
      (by cases side <;> decide +kernel)) 1 0 (id106 side)
    ⟨by cases side <;> exact ⟨_, _, _, _, _, rfl, rfl⟩, by cases side <;> exact ⟨_, _, _, rfl⟩⟩
    (by unfold sensibleInputDemands; cases side <;> decide +kernel)
    (politeInputOn_of (by cases side <;> decide +kernel) (by cases side <;> decide +kernel))).2
    ⟨by cases side <;> rfl, by cases side <;> decide +kernel, by cases side <;> decide +kernel,
      by cases side <;> exact ⟨_, _, _, _, _, rfl, rfl⟩, by cases side <;> exact ⟨_, _, _, _, _, _, rfl, rfl⟩⟩
  rw [(C106_half_violated side).1, (C106_half_violated side).2] at this
  revert this; decide

/-- The hypotheses of `C106_dropped_partial` are met before the last step of that run. -/
example (side : Side) : ∃ s f, Wasm.runSys side oneHandler oneHandler ((halfDone106 side).dropLast) = .ok s ∧
    getStream s.a (id106 side) = none ∧ f.streamID = id106 side ∧ f.n = 2 ∧ s.ba = [.requestN f] := by
  cases side
  all_goals exact ⟨_, _, rfl, by decide +kernel, rfl, by decide +kernel, rfl⟩

end Verif.Props
