import Verif.Props.WasmDemand
import Verif.Props.SystemInputCancel
/-
Property C104: cancelling streams and inputs between a wasm host and its guest.
-/
set_option autoImplicit false
namespace Verif.Props
open Verif Frames Handler
open Verif.Invoke (Kind Registry getHandler)
open Verif.System (Sys Move)
open Verif.WasmRecv (Side registers)

section
variable {H : Type}

/-! ## Specification

As for C97 and C103, with a host and its guest (`Wasm.runSys`): `side` says which of them is end A, the caller. -/

/-- C104 as stated in English. -/
def C104_statement (H : Type) : Prop :=
  ∀ (side : Side) (regA regB : Registry H) (ms : List Move) (s : Sys H),
    Wasm.runSys side regA regB ms = .ok s → Tidy s → ∀ j i x, bothEnds s j i x →
      (quietAfterCancel s j ∧ quietAfterInputCancel s i) ∧
      (cancelFrames x (sentFrames s.trA) = cancels j s.trA ∧ cancelFrames x (sentFrames s.trB) = inputCancels i s.trB) ∧
      (∀ fs r, s.ab = .cancel ⟨x⟩ :: fs → Wasm.stepSys side s (.toB r) ≠ .panic) ∧
      (∀ fs r s', s.ba = .cancel ⟨x⟩ :: fs → Wasm.stepSys side s (.toA r) = .ok s' → .flux j .complete ∈ s'.trA →
        .flux j .complete ∈ s.trA) ∧
      (cancelArrived s x → .src i .upCancel ∈ s.trB) ∧ (inputCancelArrived s x → .src j .upCancel ∈ s.trA)

/-! ## From one transport to the other -/

theorem hush_no_signal {l : List (Flux.Ev Pay)} (h1 : fluxSignals l = []) {y : Flux.Ev Pay} (hy : fluxSignals [y] = [y]) : y ∉ l := by
  intro h2
  obtain ⟨l1, l2, h3⟩ := List.append_of_mem h2
  have h4 : fluxSignals l = fluxSignals l1 ++ (fluxSignals [y] ++ fluxSignals l2) := by
    rw [h3, ← fluxSignals_append, ← fluxSignals_append]; rfl
  rw [h1, hy] at h4
  simp at h4

theorem mem_alike {side : Side} {e e' : List (Handler.Ev H)} (h : Alike side e e') {y : Handler.Ev H}
    (h1 : ∀ m, y ≠ .refused m) (h2 : ∀ k hd id p, y ≠ .invoked k hd id p) : y ∈ e ↔ y ∈ e' := by
  induction h with
  | nil => exact Iff.rfl
  | same e _ ih => simp only [List.mem_cons, ih]
  | refused m _ ih => simp only [List.mem_cons, ih, h1, false_or]
  | prefixed k hd id data md hs hk _ ih => simp only [List.mem_cons, ih, h2, false_or]

theorem sentFrames_alike {side : Side} {e e' : List (Handler.Ev H)} (h : Alike side e e') : sentFrames e = sentFrames e' :=
  h.filterMap _ (fun _ => rfl) (fun _ _ _ _ => rfl)

theorem inpEvs_alike {side : Side} {e e' : List (Handler.Ev H)} (h : Alike side e e') (j : Nat) : inpEvs j e = inpEvs j e' :=
  h.filterMap _ (fun _ => rfl) (fun _ _ _ _ => rfl)

theorem fluxEvs_alike {side : Side} {e e' : List (Handler.Ev H)} (h : Alike side e e') (j : Nat) : fluxEvs j e = fluxEvs j e' :=
  h.filterMap _ (fun _ => rfl) (fun _ _ _ _ => rfl)

/-- A responder is in the table if it was kept, or is one of a channel. -/
theorem responder_opened' {reg : Registry H} {client : Bool} {as : List Act} {s : St H} {tr : List (Handler.Ev H)}
    (h : Handler.run reg client as = .ok (s, tr)) {i : Nat} {k : Kind} {x : UInt32} {out : Option (Src × Flux.State)} {b : Bool}
    {inp : Option Flux.State} (ho : s.objs[i]? = some (.responder k x out b inp)) (hk : allKept as ∨ k = .rc) : .opened x i ∈ tr := by
  obtain ⟨as1, as2, t, ret, s1, t1, k', data, md, n, hr, hi, hex, htag⟩ := served_origin as h i _ ho rfl
  have hk' : k' ≠ .rr := fun e => by have := htag.mpr e; cases this
  have h1 := hr.before
  have ht := hr.task
  have hret : allKept as → ret.kept = true := fun hk => hk t ret (by rw [hr.split]; simp)
  rw [hr.split] at h
  have e1 : as1 ++ .run t ret :: as2 = (as1 ++ [.run t ret]) ++ as2 := by simp
  rw [e1] at h
  unfold Handler.run at h h1
  rw [handler_runFrom_append] at h
  obtain ⟨s2, t2, t3, q1, q4, rfl⟩ := andThen_ok h
  obtain ⟨s0, t0, e, q2, q3, rfl⟩ := run_snoc_inv reg client _ _ _ _ q1
  unfold Handler.run at q2
  rw [h1] at q2; cases q2
  have hborn := served_born hk' h1 ht hex q3
  have hkk : k' = k := by
    have ho2 : s2.objs[i]? = some (.responder k' x none false none) := by
      rw [hborn.1, hi]; simp [Obj.sid]
    obtain ⟨o', w1, w2⟩ := (loc_runFrom i _ _ _ _ q4).1 _ ho2
    rw [ho] at w1; cases w1
    obtain ⟨_, _, _, hx⟩ := responder_kind_run w2 ⟨_, _, _, rfl⟩
    cases hx; rfl
  have := hborn.2.2.2 (hk.elim (fun h => .inl (hret h)) (fun h => .inr (hkk.trans h)))
  rw [hi]
  exact List.mem_append_left _ (List.mem_append_right _ this)

/-! ## C104 -/

section
variable {side : Side} {regA regB : Registry H} {ms : List Move} {s : Sys H} {j i : Nat} {x : UInt32}

/-- C104: whoever cancels sees nothing more of what was cancelled. -/
theorem C104_quiet_partial (h : Wasm.runSys side regA regB ms = .ok s) (hb : bothEnds s j i x) :
    quietAfterCancel s j ∧ quietAfterInputCancel s i := by
  obtain ⟨s', hr⟩ := overRsocket h
  have hJ := joined_run _ hr.run
  obtain ⟨req, first, c, input, sub, ho, -⟩ := (hr.bothEnds hb).caller
  obtain ⟨k, out, b, inp, -, ho'⟩ := (hr.bothEnds hb).server
  have h1 := (cancel_history _ _ _ _ _ hJ.a j req first c input sub ho).hush
  have h2 := (inputCancel_history _ _ _ _ _ hJ.b i k x out b inp ho').hush
  rw [fluxEvs_evsOf, ← fluxEvs_alike hr.alike.trA] at h1
  rw [inpEvs_evsOf, ← inpEvs_alike hr.alike.trB] at h2
  constructor
  · intro a b hab p e
    have h3 : fluxSignals (fluxEvs j b) = [] := h1 (fluxEvs j a) _ (by rw [hab, fluxEvs_append]; simp [fluxEvs])
    have key : ∀ y : Flux.Ev Pay, fluxSignals [y] = [y] → .flux j y ∉ b :=
      fun y hy hm => hush_no_signal h3 hy (List.mem_filterMap.mpr ⟨_, hm, by simp⟩)
    exact ⟨key _ rfl, key _ rfl, key _ rfl⟩
  · intro a b hab p e
    have h3 : fluxSignals (inpEvs i b) = [] := h2 (inpEvs i a) _ (by rw [hab, inpEvs_append]; simp [inpEvs])
    have key : ∀ y : Flux.Ev Pay, fluxSignals [y] = [y] → .inp i y ∉ b :=
      fun y hy hm => hush_no_signal h3 hy (List.mem_filterMap.mpr ⟨_, hm, by simp⟩)
    exact ⟨key _ rfl, key _ rfl, key _ rfl⟩

/-- C104: each cancellation sends one cancel frame. -/
theorem C104_told_partial (h : Wasm.runSys side regA regB ms = .ok s) (ht : Tidy s) (hb : bothEnds s j i x) :
    cancelFrames x (sentFrames s.trA) = cancels j s.trA ∧ cancelFrames x (sentFrames s.trB) = inputCancels i s.trB := by
  obtain ⟨s', hr⟩ := overRsocket h
  have h1 := C97_told_partial _ _ _ _ _ hr.run (hr.tidy ht) j i x (hr.bothEnds hb)
  have h2 := C103_told_partial _ _ _ _ _ hr.run (hr.tidy ht) j i x (hr.bothEnds hb)
  rw [cancels_eq, ← fluxEvs_alike hr.alike.trA, ← cancels_eq, ← sentFrames_alike hr.alike.trA] at h1
  rw [inputCancels_eq, ← inpEvs_alike hr.alike.trB, ← inputCancels_eq, ← sentFrames_alike hr.alike.trB] at h2
  exact ⟨h1, h2⟩

/-- The stream found for a cancel frame. -/
theorem wasm_found (h : Wasm.runSys side regA regB ms = .ok s) (ht : Tidy s) (hb : bothEnds s j i x) {i' : Nat}
    (hg : getStream s.b x = some i') : i' = i ∧ ∀ k out b inp, s.b.objs[i]? = some (.responder k x out b inp) →
      registers (Wasm.Side.other side) k = true := by
  obtain ⟨s', hr⟩ := overRsocket h
  have hJ := joined_run _ hr.run
  rw [← hr.alike.b] at hg
  have hop := getStream_opened _ _ _ _ _ hJ.b x i' hg
  obtain ⟨k, out, b, inp, hk, ho⟩ := (hr.bothEnds hb).server
  obtain ⟨o, w1, w2⟩ := opened_history _ _ _ _ _ hJ.b i' _ hop
  have hu := hJ.usesB (hr.tidy ht) x
  rw [uses_parts] at hu
  have hi : i' = i := index_unique (p := fun o : Obj => decide (o.key.2 = x)) (by omega) w1
    (by simp [Obj.key, w2]) ho (by simp [Obj.key, Obj.sid])
  subst hi
  refine ⟨rfl, fun k' out' b' inp' ho' => ?_⟩
  rw [← hr.alike.b, ho] at ho'; cases ho'
  cases side with
  | host => rcases hk with rfl | rfl <;> rfl
  | guest =>
    rcases hk with rfl | rfl
    · have hkept : ∀ t ret, .run t ret ∈ s'.histB → ret.kept = false := by
        rw [hr.alike.histB]
        exact registers_keeps (Wasm.Side.other .guest) hr.endB false rfl
      exact absurd hop (rs_unopened _ hJ.b hkept ho _)
    · rfl

/-- C104: what being told of it does to the end that serves. It crashes, unless its handler has subscribed to the input
of the channel, or it is the host and serves a stream operation. -/
theorem C104_crash_partial (h : Wasm.runSys side regA regB ms = .ok s) (ht : Tidy s) (hb : bothEnds s j i x)
    (fs : List AnyFrame) (hf : s.ab = .cancel ⟨x⟩ :: fs) (r : React) :
    Wasm.stepSys side s (.toB r) = .panic ↔
      ∃ k out b, s.b.objs[i]? = some (.responder k x out b none) ∧ registers (Wasm.Side.other side) k = true := by
  obtain ⟨k, out, b, inp, hk, ho⟩ := hb.server
  have hty : (AnyFrame.cancel ⟨x⟩).type ≥ typeRequestN := by show typeCancel ≥ typeRequestN; decide
  have hid : (AnyFrame.cancel ⟨x⟩).streamID = x := rfl
  have step : Wasm.stepSys side s (.toB r) = Wasm.moveB side { s with ab := fs } (.frame (.cancel ⟨x⟩) r) := by
    simp only [Wasm.stepSys, hf]
  rw [step]
  cases hg : getStream s.b x with
  | some i' =>
    obtain ⟨rfl, hreg⟩ := wasm_found h ht hb hg
    cases inp with
    | none =>
      refine ⟨fun _ => ⟨_, _, _, ho, hreg _ _ _ _ ho⟩, fun _ => ?_⟩
      simp only [Wasm.moveB, Wasm.step, Wasm.recv, if_pos hty, hid, hg, dispatch, deliver_unsubscribed ho, andThen]
    | some st =>
      refine ⟨fun hp => ?_, fun ⟨_, _, _, hq, _⟩ => by rw [ho] at hq; cases hq⟩
      simp only [Wasm.moveB, Wasm.step, Wasm.recv, if_pos hty, hid, hg, dispatch, deliver, ho, andThen, closing] at hp
      cases hp
  | none =>
    constructor
    · intro hp
      simp only [Wasm.moveB, Wasm.step, Wasm.recv, if_pos hty, hid, hg] at hp
      cases hp
    · rintro ⟨k', out', b', hq, hreg⟩
      rw [ho] at hq; cases hq
      exfalso
      obtain ⟨s', hr⟩ := overRsocket h
      have hJ := joined_run _ hr.run
      have hopen := hJ.openedB (hr.tidy ht)
      rw [← hr.alike.b] at ho hg
      have hkept : allKept s'.histB ∨ k = .rc := by
        cases side with
        | host =>
          left
          rw [hr.alike.histB]
          exact fun t ret hm => registers_keeps (Wasm.Side.other .host) hr.endB true rfl t ret hm
        | guest =>
          rcases hk with rfl | rfl
          · cases hreg
          · exact .inr rfl
      have hop := responder_opened' hJ.b ho hkept
      have hcl : .closed x ∉ s'.trB := fun hc => unsubscribed_open _ hJ.b hopen x i hop hc ⟨_, _, _, _, ho⟩
      rw [getStream_live _ _ _ _ _ hJ.b x i hopen hop hcl] at hg
      cases hg

/-- C104 fails when the guest cancels the stream of a stream operation of the host: the host drops the frame, and nothing
else happens. -/
theorem C104_dropped_violated (h : Wasm.runSys .guest regA regB ms = .ok s) (ht : Tidy s) (hb : bothEnds s j i x)
    (hrs : ∃ out b inp, s.b.objs[i]? = some (.responder .rs x out b inp)) (fs : List AnyFrame) (hf : s.ab = .cancel ⟨x⟩ :: fs)
    (r : React) : ∃ s', Wasm.stepSys .guest s (.toB r) = .ok s' ∧ s'.b = s.b ∧ s'.trB = s.trB ∧ s'.ba = s.ba ∧ s'.ab = fs := by
  have hty : (AnyFrame.cancel ⟨x⟩).type ≥ typeRequestN := by show typeCancel ≥ typeRequestN; decide
  have hid : (AnyFrame.cancel ⟨x⟩).streamID = x := rfl
  obtain ⟨out, b, inp, ho⟩ := hrs
  have hg : getStream s.b x = none := by
    cases hg : getStream s.b x with
    | none => rfl
    | some i' =>
      obtain ⟨rfl, hreg⟩ := wasm_found h ht hb hg
      cases hreg _ _ _ _ ho
  refine ⟨{ s with ab := fs, histB := s.histB ++ [.frame (.cancel ⟨x⟩) r] }, ?_, rfl, rfl, rfl, rfl⟩
  simp [Wasm.stepSys, hf, Wasm.moveB, Wasm.step, Wasm.recv, hid, hg, System.wire, show typeCancel ≥ typeRequestN by decide, AnyFrame.type]

/-- C104 fails whenever the cancellation of the input is handed to a caller whose subscriber of the output is still
waiting: the subscriber is told that the output is complete, and the stream is closed. -/
theorem C104_ends_violated (h : Wasm.runSys side regA regB ms = .ok s) (ht : Tidy s)
    (req : RequestPayload) (first c : Bool) (input : Option Input) (st : Flux.State)
    (ho : s.a.objs[j]? = some (.flux req first c input (some st)))
    (hwait : st.closed = false) (hinst : st.inst.onComplete = true) (hopen : .opened x j ∈ s.trA) (hcl : .closed x ∉ s.trA)
    (fs : List AnyFrame) (hf : s.ba = .cancel ⟨x⟩ :: fs) (r : React) :
    ∃ s' e, Wasm.stepSys side s (.toA r) = .ok s' ∧ s'.trA = s.trA ++ e ∧ .flux j .complete ∈ e ∧ .closed x ∈ e := by
  obtain ⟨s', hr⟩ := overRsocket h
  have hJ := joined_run _ hr.run
  rw [mem_alike hr.alike.trA (by simp) (by simp)] at hopen hcl
  have hg := getStream_live _ _ _ _ _ hJ.a x j (hJ.openedA (hr.tidy ht)) hopen hcl
  rw [hr.alike.a] at hg
  have hty : (AnyFrame.cancel ⟨x⟩).type ≥ typeRequestN := by show typeCancel ≥ typeRequestN; decide
  have hid : (AnyFrame.cancel ⟨x⟩).streamID = x := rfl
  have step : Wasm.stepSys side s (.toA r) = Wasm.moveA side { s with ba := fs } (.frame (.cancel ⟨x⟩) r) := by
    simp only [Wasm.stepSys, hf]
  rw [step]
  simp only [Wasm.moveA, Wasm.step, Wasm.recv, if_pos hty, hid, hg, dispatch, deliver, ho, andThen, closing]
  refine ⟨_, _, rfl, rfl, ?_, ?_⟩
  · refine List.mem_append_left _ ?_
    simp only [onFlux, Flux.step, Flux.complete, hwait, Bool.false_eq_true, if_false, hinst, if_true]
    simp [demandEvs]
  · simp

/-- C104 fails for every run: no source of a flux is ever cancelled. -/
theorem C104_stop_violated (h : Wasm.runSys side regA regB ms = .ok s) (n : Nat) :
    .src n .upCancel ∉ s.trA ∧ .src n .upCancel ∉ s.trB := by
  obtain ⟨s', hr⟩ := overRsocket h
  have hJ := joined_run _ hr.run
  rw [mem_alike hr.alike.trA (by simp) (by simp), mem_alike hr.alike.trB (by simp) (by simp)]
  exact ⟨no_stop _ _ _ _ _ hJ.a n, no_stop _ _ _ _ _ hJ.b n⟩

end
end

/-! ## Concrete runs -/

/-- A calls a stream operation, and B serves it; A's subscriber sees one element and cancels, and another one comes. -/
def cancel104 (side : Side) : List Move :=
  let a := Act.run 0 (retOn side)
  let b := Act.run 0 (retOn (Wasm.Side.other side))
  [.atA (.call .rs ⟨[5], eightZeros⟩ .created), .atA (.subscribeFlux 0 inst96 [.request 5]), .atA a, .toB noReact,
   .atB b, .atB b, .atB b, .atB (.out 0 (.onSubscribe true)), .atB (.out 0 (.next ⟨[7], []⟩)), .toA noReact,
   .atA (.fluxCall 0 .cancel), .atB (.out 0 (.next ⟨[8], []⟩)), .toA noReact]

def end104 (side : Side) : Sys Unit := sysAfter (Wasm.runSys side oneHandler oneHandler (cancel104 side))

/-- The id of the first call. -/
def id104 (side : Side) : UInt32 := callId (St.init oneHandler (Wasm.Side.client side))

theorem hyps104 (side : Side) : Wasm.runSys side oneHandler oneHandler (cancel104 side) = .ok (end104 side) ∧ Tidy (end104 side) ∧
    bothEnds (end104 side) 0 0 (id104 side) ∧ (end104 side).ab = [.cancel ⟨id104 side⟩] ∧
    (∃ out b, (end104 side).b.objs[0]? = some (.responder .rs (id104 side) out b none)) ∧ cancels 0 (end104 side).trA = 1 ∧
    fluxSignals (fluxEvs 0 (end104 side).trA) = [.next ⟨[7], []⟩] ∧
    arrivals (id104 side) (end104 side).histA = [.element ⟨[7], []⟩, .element ⟨[8], []⟩] := by
  refine ⟨by cases side <;> rfl, tidy_of ?_ ?_ ?_ ?_, ⟨?_, ?_⟩, ?_, ?_, ?_, ?_, ?_⟩
  case refine_5 => cases side <;> exact ⟨_, _, _, _, _, rfl, rfl⟩
  case refine_6 => cases side <;> exact ⟨_, _, _, _, .inl rfl, rfl⟩
  case refine_7 => cases side <;> rfl
  case refine_8 => cases side <;> exact ⟨_, _, rfl⟩
  all_goals cases side <;> decide +kernel

/-- C104 fails: when the host cancels a stream, the guest crashes; when the guest does, the host does not. -/
theorem C104_crash_violated : Wasm.stepSys .host (end104 .host) (.toB noReact) = .panic ∧
    Wasm.stepSys .guest (end104 .guest) (.toB noReact) ≠ .panic := by
  obtain ⟨h1, h2, h3, h4, ⟨out, b, h5⟩, -⟩ := hyps104 .host
  obtain ⟨g1, g2, g3, g4, ⟨out', b', g5⟩, -⟩ := hyps104 .guest
  refine ⟨(C104_crash_partial h1 h2 h3 [] h4 noReact).mpr ⟨_, _, _, h5, rfl⟩, fun hp => ?_⟩
  obtain ⟨k, _, _, w1, w2⟩ := (C104_crash_partial g1 g2 g3 [] g4 noReact).mp hp
  rw [g5] at w1; cases w1; cases w2

/-- The hypotheses of `C104_dropped_violated` hold when the guest calls. -/
example : ∃ s', Wasm.stepSys .guest (end104 .guest) (.toB noReact) = .ok s' ∧ s'.trB = (end104 .guest).trB := by
  obtain ⟨g1, g2, g3, g4, ⟨out', b', g5⟩, -⟩ := hyps104 .guest
  obtain ⟨s', e1, -, e2, -⟩ := C104_dropped_violated g1 g2 g3 ⟨_, _, _, g5⟩ [] g4 noReact
  exact ⟨s', e1, e2⟩

/-- A calls a channel operation; B's handler subscribes to the input, sees one element, cancels the input, and says an
element of the output. -/
def input104 (side : Side) : List Move :=
  let a := Act.run 0 (retOn side)
  let b (n : Nat) := Act.run n (retOn (Wasm.Side.other side))
  [.atA (.call .rc ⟨[5], eightZeros⟩ .created), .atA (.subscribeFlux 0 inst96 [.request 1]), .atA a, .atA a, .toB noReact, .atB (b 0),
   .atB (.subscribeInp 0 inst96 [.request 1]), .atB (b 1), .toA noReact, .atA a, .atA (.input 0 (.onSubscribe true)),
   .atA (.input 0 (.next ⟨[7], []⟩)), .toB noReact, .atB (.inpCall 0 .cancel), .atB (b 0), .atB (b 0),
   .atB (.out 0 (.onSubscribe true)), .atB (.out 0 (.next ⟨[9], []⟩))]

def inEnd104 (side : Side) : Sys Unit := sysAfter (Wasm.runSys side oneHandler oneHandler (input104 side))

theorem inHyps104 (side : Side) : Wasm.runSys side oneHandler oneHandler (input104 side) = .ok (inEnd104 side) ∧ Tidy (inEnd104 side) ∧
    bothEnds (inEnd104 side) 0 0 (id104 side) ∧ (∃ f, (inEnd104 side).ba = [.cancel ⟨id104 side⟩, f]) ∧
    inputCancels 0 (inEnd104 side).trB = 1 ∧ fluxSignals (inpEvs 0 (inEnd104 side).trB) = [.next ⟨[7], []⟩] ∧
    .opened (id104 side) 0 ∈ (inEnd104 side).trA ∧ .closed (id104 side) ∉ (inEnd104 side).trA ∧
    .flux 0 .complete ∉ (inEnd104 side).trA ∧
    ∃ req first c input st, (inEnd104 side).a.objs[0]? = some (.flux req first c input (some st)) ∧ st.closed = false ∧
      st.inst.onComplete = true := by
  refine ⟨by cases side <;> rfl, tidy_of ?_ ?_ ?_ ?_, ⟨?_, ?_⟩, ?_, ?_, ?_, ?_, ?_, ?_, ?_⟩
  case refine_5 => cases side <;> exact ⟨_, _, _, _, _, rfl, rfl⟩
  case refine_6 => cases side <;> exact ⟨_, _, _, _, .inr rfl, rfl⟩
  case refine_7 => cases side <;> exact ⟨_, rfl⟩
  case refine_13 => cases side <;> exact ⟨_, _, _, _, _, rfl, rfl, rfl⟩
  all_goals cases side <;> decide +kernel

theorem C104_violated : ¬ C104_statement Unit := by
  intro h
  obtain ⟨h1, h2, h3, h4, -⟩ := hyps104 .host
  exact (h .host oneHandler oneHandler _ _ h1 h2 0 0 _ h3).2.2.1 [] noReact h4 C104_crash_violated.1

end Verif.Props
