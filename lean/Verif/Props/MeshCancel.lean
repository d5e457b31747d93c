import Verif.Props.MeshDemand
import Verif.Props.WasmCancel
/-
Property C125: cancelling a stream through a mesh.
-/
set_option autoImplicit false
namespace Verif.Props
open Verif Frames Handler
open Verif.Invoke (Kind Registry getHandler)
open Verif.System (Sys Move)
open Verif.WasmRecv (Side)
open Verif.MeshSystem (MSys Link MMove)

section
variable {H : Type}

/-! ## Specification

As for C123 (`meshStream`), with the words of C97: `cancels` is how often a subscriber has cancelled its flux,
`cancelFrames` counts the cancel frames of a stream. End A of a module is its host, end B its guest. -/

/-- After a cancellation the guest's subscriber sees no element and no end. -/
def guestQuiet (m : Sys H) (j : Nat) : Prop :=
  ∀ a b, m.trB = a ++ .flux j .cancelled :: b →
    ∀ p e, .flux j (.next p) ∉ b ∧ .flux j .complete ∉ b ∧ .flux j (.error e) ∉ b

/-- The host of the module has been handed the cancellation of its guest's request `x`. -/
def hostTold (m : Sys H) (x : UInt32) : Prop := cancelFrames x (handedOver m.histA) ≠ 0

/-- Nothing is under way in the module. -/
def idleModule (m : Sys H) : Prop := m.a.tasks = [] ∧ m.b.tasks = [] ∧ m.ab = [] ∧ m.ba = []

/-- C125 as stated in English. -/
def C125_statement (H : Type) : Prop :=
  ∀ (dest : H → Option Mesh.Dest) (host guest : Nat → Registry H) (i : Nat) (pre : List MMove) (s0 : MSys H)
    (p : Pay) (src : Src) (mid : List MMove) (inst : Flux.Installed) (start : List Flux.Call) (post : List MMove)
    (s : MSys H), meshStream dest host guest i pre s0 p src mid inst start post s → (∀ k, Tidy (s.inst k)) →
    guestQuiet (s.inst i) (s0.inst i).b.objs.length ∧
    cancelFrames (callId (s0.inst i).b) (sentFrames (s.inst i).trB) = cancels (s0.inst i).b.objs.length (s.inst i).trB ∧
    ∀ k y, passedAs s i (callId (s0.inst i).b) k y →
      (∀ fs r, (s.inst i).ba = .cancel ⟨callId (s0.inst i).b⟩ :: fs →
        MeshSystem.step dest s (.other i (.toA r)) ≠ .panic) ∧
      (hostTold (s.inst i) (callId (s0.inst i).b) → idleModule (s.inst i) →
        cancelFrames y (sentFrames (s.inst k).trA) ≠ 0) ∧
      (hostTold (s.inst i) (callId (s0.inst i).b) → idleModule (s.inst i) → idleModule (s.inst k) →
        ∀ v, (∃ out b inp, (s.inst k).b.objs[v]? = some (.responder .rs y out b inp)) → .src v .upCancel ∈ (s.inst k).trB)

/-! ## C125 -/

section
variable {dest : H → Option Mesh.Dest} {host guest : Nat → Registry H} {i : Nat} {pre mid post : List MMove}
    {s0 s : MSys H} {p : Pay} {src : Src} {inst : Flux.Installed} {start : List Flux.Call}

/-- C125: a subscriber that cancels sees nothing more. -/
theorem C125_quiet_partial (h : meshStream dest host guest i pre s0 p src mid inst start post s) :
    guestQuiet (s.inst i) (s0.inst i).b.objs.length := by
  obtain ⟨ms, hms⟩ := (meshRun_run h.whole).reach i
  obtain ⟨pre2, mid2, post2, hw⟩ := guest_stream h
  obtain ⟨x, hr⟩ := overRsocket (runSys_swap hms)
  have hJ := joined_run _ hr.run
  obtain ⟨req, first, c, input, sub, ho, -⟩ := wasm_object hw
  rw [← hr.alike.a] at ho
  have h1 := (cancel_history _ _ _ _ _ hJ.a _ req first c input sub ho).hush
  rw [fluxEvs_evsOf, ← fluxEvs_alike hr.alike.trA] at h1
  intro a b hab p e
  have h3 : fluxSignals (fluxEvs (s0.inst i).b.objs.length b) = [] := h1 (fluxEvs (s0.inst i).b.objs.length a) _ (by
    rw [show (swapSys (s.inst i)).trA = _ from hab, fluxEvs_append]; simp [fluxEvs, swapSys]; rfl)
  have key : ∀ y : Flux.Ev Pay, fluxSignals [y] = [y] → .flux (s0.inst i).b.objs.length y ∉ b :=
    fun y hy hm => hush_no_signal h3 hy (List.mem_filterMap.mpr ⟨_, hm, by simp⟩)
  exact ⟨key _ rfl, key _ rfl, key _ rfl⟩

/-- C125: for each time it cancels, one cancel frame is sent to the host of its module. -/
theorem C125_told_partial (h : meshStream dest host guest i pre s0 p src mid inst start post s) (ht : Tidy (s.inst i)) :
    cancelFrames (callId (s0.inst i).b) (sentFrames (s.inst i).trB) = cancels (s0.inst i).b.objs.length (s.inst i).trB := by
  obtain ⟨ms, hms⟩ := (meshRun_run h.whole).reach i
  obtain ⟨pre2, mid2, post2, hw⟩ := guest_stream h
  obtain ⟨x, hr⟩ := overRsocket (runSys_swap hms)
  have hJ := joined_run _ hr.run
  obtain ⟨req, first, c, input, sub, ho, hid⟩ := wasm_object hw
  rw [← hr.alike.a] at ho
  have hfr := (cancel_history _ _ _ _ _ hJ.a _ req first c input sub ho).frames
  rw [fluxEvs_evsOf, framesBy_evsOf] at hfr
  have h1 := cancelFrames_withId (callId (swapSys (s0.inst i)).a) (sentFrames x.trA)
  rw [withId_of_obj _ hJ.a (hJ.usesA (hr.tidy (swap_tidy ht)) _) ho hid, hfr] at h1
  rw [← fluxEvs_alike hr.alike.trA, ← sentFrames_alike hr.alike.trA] at h1
  rw [cancels_eq]
  exact h1

/-- The stream of the call, and what answers it in the host of its module. -/
theorem passed_ends (h : meshStream dest host guest i pre s0 p src mid inst start post s) (ht : Tidy (s.inst i))
    {k : Nat} {y : UInt32} (hy : passedAs s i (callId (s0.inst i).b) k y) :
    ∃ n, bothEnds (swapSys (s.inst i)) (s0.inst i).b.objs.length n (callId (s0.inst i).b) ∧
      ∃ out b inp, (swapSys (s.inst i)).b.objs[n]? = some (.responder .rs (callId (s0.inst i).b) out b inp) := by
  have I := meshRun_run h.whole
  obtain ⟨l, hl, rfl, hx, rfl, rfl⟩ := hy
  obtain ⟨r, d', h1, h2, h3⟩ := I.each l hl
  obtain ⟨e1, -, -⟩ := stream_payload h ht h1 (h3.request.symm.trans hx)
  obtain ⟨out, b, inp, w⟩ := (link_answers I h1 h2 h3 e1).object
  obtain ⟨pre2, mid2, post2, hw⟩ := guest_stream h
  rw [hx] at w
  exact ⟨l.answer, ⟨wasm_object hw, ⟨_, _, _, _, .inl rfl, w⟩⟩, _, _, _, w⟩

/-- C125 fails whenever the host is handed a cancellation: it drops it, and nothing else happens. -/
theorem C125_dropped_violated (h : meshStream dest host guest i pre s0 p src mid inst start post s) (ht : Tidy (s.inst i))
    {k : Nat} {y : UInt32} (hy : passedAs s i (callId (s0.inst i).b) k y) (fs : List AnyFrame) (r : React)
    (hf : (s.inst i).ba = .cancel ⟨callId (s0.inst i).b⟩ :: fs) :
    ∃ s', MeshSystem.step dest s (.other i (.toA r)) = .ok s' ∧ (∀ n, n ≠ i → s'.inst n = s.inst n) ∧ s'.links = s.links ∧
      s'.inst i = { s.inst i with ba := fs, histA := (s.inst i).histA ++ [.frame (.cancel ⟨callId (s0.inst i).b⟩) r] } := by
  obtain ⟨ms, hms⟩ := (meshRun_run h.whole).reach i
  obtain ⟨n, hb, out, b, inp, ho⟩ := passed_ends h ht hy
  have hg : getStream (s.inst i).a (callId (s0.inst i).b) = none := by
    cases hg : getStream (s.inst i).a (callId (s0.inst i).b) with
    | none => rfl
    | some i' =>
      obtain ⟨rfl, hreg⟩ := wasm_found (runSys_swap hms) (swap_tidy ht) hb hg
      cases hreg _ _ _ _ ho
  have hty : (AnyFrame.cancel ⟨callId (s0.inst i).b⟩).type ≥ typeRequestN := by show typeCancel ≥ typeRequestN; decide
  have hid : (AnyFrame.cancel ⟨callId (s0.inst i).b⟩).streamID = callId (s0.inst i).b := rfl
  have hstep : MeshSystem.stepIn s i (.toA r) = .ok (s.set i { s.inst i with
      ba := fs, histA := (s.inst i).histA ++ [.frame (.cancel ⟨callId (s0.inst i).b⟩) r] }) := by
    simp [MeshSystem.stepIn, Wasm.stepSys, hf, Wasm.moveA, Wasm.step, Wasm.recv, hid, hg, System.wire,
      show typeCancel ≥ typeRequestN by decide, AnyFrame.type]
  have hal : MeshSystem.allowed dest s i (.toA r) = true := by
    simp [MeshSystem.allowed, hf, hid, hg]
  refine ⟨s.set i { s.inst i with ba := fs, histA := (s.inst i).histA ++ [.frame (.cancel ⟨callId (s0.inst i).b⟩) r] }, ?_,
    fun n hn => if_neg hn, rfl, if_pos rfl⟩
  simp only [MeshSystem.step, hal, if_true, MeshSystem.act, hstep]
  simp [bind, Go.bind, MSys.set, MeshSystem.passedOn, MeshSystem.passOn]

/-- C125: the host that is told does not crash, nor does any other module. -/
theorem C125_survives_partial (h : meshStream dest host guest i pre s0 p src mid inst start post s) (ht : Tidy (s.inst i))
    {k : Nat} {y : UInt32} (hy : passedAs s i (callId (s0.inst i).b) k y) (fs : List AnyFrame) (r : React)
    (hf : (s.inst i).ba = .cancel ⟨callId (s0.inst i).b⟩ :: fs) : MeshSystem.step dest s (.other i (.toA r)) ≠ .panic := by
  obtain ⟨s', h1, -⟩ := C125_dropped_violated h ht hy fs r hf
  rw [h1]
  exact fun h => by cases h

/-- C125 fails for every call: the host never passes a cancellation on to the module of the export. -/
theorem C125_kept_violated (h : meshStream dest host guest i pre s0 p src mid inst start post s) (ht : ∀ k, Tidy (s.inst k))
    {k : Nat} {y : UInt32} (hy : passedAs s i (callId (s0.inst i).b) k y) : cancelFrames y (sentFrames (s.inst k).trA) = 0 := by
  have I := meshRun_run h.whole
  obtain ⟨l, hl, rfl, hx, rfl, rfl⟩ := hy
  obtain ⟨r, d', h1, h2, h3⟩ := I.each l hl
  obtain ⟨e1, -, -⟩ := stream_payload h (ht _) h1 (h3.request.symm.trans hx)
  obtain ⟨pre', s0', mid', post', q1, q2, q3, q4⟩ := h3.rs e1
  rw [h3.target]
  obtain ⟨ms, hms⟩ := I.reach d'.inst
  obtain ⟨x, hr⟩ := overRsocket hms
  have hJ := joined_run _ hr.run
  obtain ⟨req, first, c, input, sub, ho, hid⟩ := wasm_object q1
  rw [← hr.alike.a] at ho
  have hfr := (cancel_history _ _ _ _ _ hJ.a _ req first c input sub ho).frames
  rw [fluxEvs_evsOf, framesBy_evsOf] at hfr
  have h1 := cancelFrames_withId l.id (sentFrames x.trA)
  rw [withId_of_obj _ hJ.a (hJ.usesA (hr.tidy (ht _)) _) ho (hid.trans q3.symm), hfr] at h1
  rw [← fluxEvs_alike hr.alike.trA, ← sentFrames_alike hr.alike.trA] at h1
  rw [h1]
  have hc := q4.calm
  rw [cancelled_mem_iff] at hc
  omega

/-- C125 fails for every run: no source of a flux is ever cancelled. -/
theorem C125_stop_violated (h : meshStream dest host guest i pre s0 p src mid inst start post s) (k v : Nat) :
    .src v .upCancel ∉ (s.inst k).trB := by
  obtain ⟨ms, hms⟩ := (meshRun_run h.whole).reach k
  exact (C104_stop_violated hms v).2

end

/-! ## Example -/

/-- As in the example of C124, but when the first element has come, the guest of module 1 cancels; the source of the export
says another element. -/
def post125 : List MMove :=
  [.other 1 (.atB (.run 0 ret121)), .other 1 (.toA noReact), .forward 1 0,
   .other 1 (.atA (.run 0 ⟨.created, .created, false⟩)),
   .other 0 (.atA (.run 0 ⟨.created, .created, false⟩)), .other 0 (.toB noReact), .other 0 (.atB (.run 0 ret121)),
   .other 0 (.atB (.run 0 ret121)), .other 0 (.atB (.out 0 (.onSubscribe true))), .other 0 (.atB (.run 0 ret121)),
   .other 0 (.atB (.out 0 (.next ⟨[7], [8]⟩))), .other 0 (.toA noReact), .other 1 (.toB noReact),
   .other 1 (.atB (.fluxCall 0 .cancel)), .other 0 (.atB (.out 0 (.next ⟨[9], []⟩))), .other 0 (.toA noReact),
   .other 1 (.toB noReact)]

def run125 (more : List MMove) : Go (MSys (Option Mesh.Dest)) :=
  MeshSystem.run id hosts123 guests123 ([] ++ .other 1 (.atB (.call .rs ⟨[5], eightZeros ++ [6]⟩ .created)) ::
    [] ++ .other 1 (.atB (.subscribeFlux 0 ⟨true, true, true, true, true, false⟩ [.request 3])) :: (post125 ++ more))

/-- Before the host of module 1 is handed the cancellation, and after. -/
def mid125 : MSys (Option Mesh.Dest) := meshAfter (run125 [])
def end125 : MSys (Option Mesh.Dest) := meshAfter (run125 [.other 1 (.toA noReact)])

theorem stream125 : meshStream id hosts123 guests123 1 [] (.init hosts123 guests123) ⟨[5], eightZeros ++ [6]⟩ .created []
      ⟨true, true, true, true, true, false⟩ [.request 3] post125 mid125 ∧
    meshStream id hosts123 guests123 1 [] (.init hosts123 guests123) ⟨[5], eightZeros ++ [6]⟩ .created []
      ⟨true, true, true, true, true, false⟩ [.request 3] (post125 ++ [.other 1 (.toA noReact)]) end125 :=
  ⟨⟨rfl, by simp, rfl⟩, ⟨rfl, by simp, rfl⟩⟩

theorem tidy125 : ∀ k, Tidy (end125.inst k) := by
  intro k
  match k with
  | 0 => exact tidy_few (by decide +kernel) (by decide +kernel) (by decide +kernel) (by decide +kernel)
  | 1 => exact tidy_few (by decide +kernel) (by decide +kernel) (by decide +kernel) (by decide +kernel)
  | k + 2 =>
    have h1 : (end125.inst (k + 2)).histA = [] := rfl
    have h2 : (end125.inst (k + 2)).histB = [] := rfl
    exact tidy_few (by rw [h1]; decide) (by rw [h2]; decide) (by rw [h1]; decide) (by rw [h2]; decide)

theorem passed125 : passedAs mid125 1 1 0 2 ∧ passedAs end125 1 1 0 2 :=
  ⟨⟨⟨1, 1, 0, 0, 2, some 0⟩, .head _, rfl, rfl, rfl, rfl⟩, ⟨⟨1, 1, 0, 0, 2, some 0⟩, .head _, rfl, rfl, rfl, rfl⟩⟩

/-- The subscriber saw the first element and cancelled once; the second one reached its guest. -/
theorem seen125 : fluxSignals (fluxEvs 0 (end125.inst 1).trB) = [.next ⟨[7], [8]⟩] ∧ cancels 0 (end125.inst 1).trB = 1 ∧
    arrivals 1 (end125.inst 1).histB = [.element ⟨[7], [8]⟩, .element ⟨[9], []⟩] := by decide +kernel

theorem told125 : hostTold (end125.inst 1) 1 := by unfold hostTold; decide +kernel

theorem idle125 : idleModule (end125.inst 1) ∧ idleModule (end125.inst 0) := ⟨⟨rfl, rfl, rfl, rfl⟩, ⟨rfl, rfl, rfl, rfl⟩⟩

/-- The hypotheses of `C125_dropped_violated` are met. -/
example : ∃ s', MeshSystem.step id mid125 (.other 1 (.toA noReact)) = .ok s' ∧ s'.inst 0 = mid125.inst 0 := by
  have ht : Tidy (mid125.inst 1) := tidy_few (by decide +kernel) (by decide +kernel) (by decide +kernel) (by decide +kernel)
  obtain ⟨s', h1, h2, -⟩ := C125_dropped_violated stream125.1 ht passed125.1 [] noReact rfl
  exact ⟨s', h1, h2 0 (by decide)⟩

theorem C125_violated : ¬ C125_statement (Option Mesh.Dest) := by
  intro h
  exact ((h _ _ _ _ _ _ _ _ _ _ _ _ _ stream125.2 tidy125).2.2 0 2 passed125.2).2.1 told125 idle125.1
    (C125_kept_violated stream125.2 tidy125 passed125.2)

end
end Verif.Props
