import Verif.Model.FlowResult
import Verif.Props.FlowExact
import Verif.Props.Flux
/-
Property C139: what the steps of a flow report reaches the subscriber of its result.
-/
set_option autoImplicit false
namespace Verif.Props
open Verif
open Verif.FlowResult (Say Sink RStep)

/-! ## Specification -/

/-- Everything the steps of a flow report when they are run in order, each once its predecessor's
awaitables have finished, up to the first failing step or End; a failing step reports its error. -/
def flowReports {T : Type} : List (RStep T) → List Nat → List (Say T)
  | [], _ => []
  | st :: rest, order => st.says ++ match st.out with
    | .fail => [.error st.err]
    | .endFlow => []
    | .group g => match awaitAll (unfinished 0 g) order with
      | none => []
      | some order => flowReports rest order

/-- What the subscriber of a mono is to see of reports: the first one, then Finally. -/
def flowMonoSees {T : Type} (inst : Mono.Installed) : List (Say T) → List (Mono.Ev T)
  | .success v :: _ => (if inst.onSuccess then [.success 0 v] else []) ++
      (if inst.fin then [.fin 0 .complete] else [])
  | .error e :: _ => (if inst.onError then [.error 0 e] else []) ++
      (if inst.fin then [.fin 0 .error] else [])
  | _ => []

/-- What the subscriber of a stream is to see of reports: the elements in order, then the first
end. -/
def flowStreamSees {T : Type} (inst : Flux.Installed) : List (Say T) → List (Flux.Ev T)
  | .next v :: r => (if inst.onNext then [.next v] else []) ++ flowStreamSees inst r
  | .complete :: _ => if inst.onComplete then [.complete] else []
  | .error e :: _ => if inst.onError then [.error e] else []
  | _ => []

/-- A report that fits a mono. -/
def fitsMono {T : Type} : Say T → Prop
  | .success _ => True
  | .error _ => True
  | _ => False

/-- A report that fits a stream. -/
def fitsStream {T : Type} : Say T → Prop
  | .success _ => False
  | _ => True

/-! ## Lemmas -/

theorem tell_append {T : Type} (k : Sink) (a b : List (Say T)) :
    FlowResult.tell k (a ++ b) =
      if (FlowResult.tell k a).2 then FlowResult.tell k a
      else ((FlowResult.tell k a).1 ++ (FlowResult.tell k b).1, (FlowResult.tell k b).2) := by
  induction a with
  | nil => simp [FlowResult.tell]
  | cons x a ih =>
    simp only [List.cons_append, FlowResult.tell]
    by_cases h : FlowResult.allowed k x = true
    · simp only [if_pos h]
      rw [ih]
      split
      · rfl
      · rfl
    · simp only [if_neg h]; rfl

theorem told_reports {T : Type} (k : Sink) (all : List (RStep T)) (rest : List (RStep T)) :
    ∀ (i : Nat) (order : List Nat) (e : Mono.Err), all.drop i = rest →
      FlowResult.told k all e (flowSpec i (rest.map (·.out)) order) =
        FlowResult.tell k (flowReports rest order) := by
  induction rest with
  | nil => intro i order e _; simp [flowSpec, flowReports, FlowResult.told, FlowResult.tell]
  | cons st rest ih =>
    intro i order e h
    have hi : all[i]? = some st := by
      have := congrArg (·[0]?) h
      simpa using this
    have hd : all.drop (i + 1) = rest := by
      have := congrArg (·.drop 1) h
      simpa [Nat.add_comm] using this
    simp only [List.map_cons, flowReports]
    rw [tell_append]
    have err : FlowResult.allowed k (Say.error st.err : Say T) = true := by cases k <;> rfl
    cases ho : st.out with
    | fail =>
      simp only [flowSpec, FlowResult.told, hi, FlowResult.tell, err, if_true]
    | endFlow =>
      simp only [flowSpec, FlowResult.told, hi, FlowResult.tell]
    | group g =>
      simp only [flowSpec]
      cases ha : awaitAll (unfinished 0 g) order with
      | none => simp only [FlowResult.told, hi, FlowResult.tell]
      | some order' =>
        simp only [FlowResult.told, hi]
        rw [ih (i + 1) order' st.err hd]

theorem tell_all {T : Type} (k : Sink) (l : List (Say T))
    (h : ∀ x ∈ l, FlowResult.allowed k x = true) : FlowResult.tell k l = (l, false) := by
  induction l with
  | nil => rfl
  | cons x l ih =>
    simp only [FlowResult.tell, h x (by simp), if_true]
    rw [ih (fun y hy => h y (by simp [hy]))]

theorem tell_bad {T : Type} (k : Sink) (a b : List (Say T)) (x : Say T)
    (h : ∀ y ∈ a, FlowResult.allowed k y = true) (hx : FlowResult.allowed k x = false) :
    FlowResult.tell k (a ++ x :: b) = (a, true) := by
  rw [tell_append, tell_all k a h]
  simp [FlowResult.tell, hx]

theorem mono_over {T : Type} (s : Mono.Sub T) (h : s.closed = true) (l : List (Mono.Sig T)) :
    (Mono.runFrom ⟨[s], []⟩ (l.map (.signal 0 · [] []))).2 = [] := by
  induction l with
  | nil => rfl
  | cons x l ih => simp [Mono.runFrom, Mono.step, Mono.signal, h, ih]

theorem mono_sees {T : Type} (inst : Mono.Installed) (l : List (Say T))
    (h : ∀ x ∈ l, fitsMono x) :
    (Mono.run (.subscribe inst :: (l.filterMap FlowResult.monoSig).map (.signal 0 · [] []))).2 =
      flowMonoSees inst l := by
  cases l with
  | nil => rfl
  | cons x l =>
    have hx := h x (by simp)
    obtain ⟨a, b, c⟩ := inst
    cases x with
    | next v => exact absurd hx id
    | complete => exact absurd hx id
    | success v =>
      cases a <;> cases c <;>
        simp [Mono.run, Mono.runFrom, Mono.step, Mono.subscribe, Mono.State.init, Mono.signal,
          FlowResult.monoSig, Mono.doFinally, Mono.notifyAll, mono_over, flowMonoSees]
    | error e =>
      cases b <;> cases c <;>
        simp [Mono.run, Mono.runFrom, Mono.step, Mono.subscribe, Mono.State.init, Mono.signal,
          FlowResult.monoSig, Mono.doFinally, Mono.notifyAll, mono_over, flowMonoSees]

/-- A report as a call on the sink; `none` is the end of `Subscribe`. -/
def callFor {T : Type} : Option (Say T) → Flux.Op T
  | some (.next v) => .next v [] []
  | some .complete => .complete []
  | some (.error e) => .error e []
  | some (.success _) => .start []
  | none => .start []

theorem handle_closed {T : Type} (m : Flux.State) :
    (Flux.handleOnSubscribe (T := T) m []).1.closed = m.closed ∧
    (Flux.handleOnSubscribe (T := T) m []).1.inst = m.inst := by
  simp only [Flux.handleOnSubscribe]
  split
  · exact ⟨rfl, rfl⟩
  · split
    · exact ⟨rfl, rfl⟩
    · exact ⟨rfl, rfl⟩

theorem callFor_closed {T : Type} (m : Flux.State) (x : Option (Say T)) :
    (Flux.step m (callFor x)).1.closed = (m.closed || isTerminal (callFor x)) := by
  have hh := fun m => (handle_closed (T := T) m).1
  cases x with
  | none => simp [callFor, Flux.step, hh, isTerminal]
  | some x =>
    cases hm : m.closed <;> cases x <;>
      simp only [callFor, Flux.step, Flux.next, Flux.complete, Flux.error, hm, isTerminal, hh,
        Bool.or_false, Bool.or_true, Bool.false_eq_true, if_false, if_true]
    · simp only [Flux.onNext, Flux.calls]
      split <;> split <;> simp [hh, hm]
    · simp only [Flux.calls, Flux.doFinally]
      split <;> rfl
    · simp only [Flux.calls, Flux.doFinally]
      split <;> rfl

theorem stream_sees {T : Type} (l : List (Option (Say T))) : ∀ (m : Flux.State),
    (∀ x, some x ∈ l → fitsStream x) →
    fluxSignals (Flux.runFrom m (l.map callFor)).2 =
      if m.closed then [] else flowStreamSees m.inst (l.filterMap id) := by
  induction l with
  | nil => intro m _; simp [Flux.runFrom, fluxSignals, flowStreamSees]
  | cons x l ih =>
    intro m h
    have s := flux_step_spec m (callFor x)
    have c := callFor_closed m x
    simp only [List.map_cons, Flux.runFrom, fluxSignals_append]
    rw [s.signals, ih _ (fun y hy => h y (by simp [hy])), c, s.inst]
    cases hm : m.closed with
    | true => simp
    | false =>
      cases x with
      | none => simp [callFor, isTerminal, fluxExpected]
      | some x =>
        have hx := h x (by simp)
        cases x with
        | success v => exact absurd hx id
        | next v => simp [callFor, isTerminal, fluxExpected, flowStreamSees]
        | complete => simp [callFor, isTerminal, fluxExpected, flowStreamSees]
        | error e => simp [callFor, isTerminal, fluxExpected, flowStreamSees]

theorem fluxOp_map {T : Type} (l : List (Say T)) (h : ∀ x ∈ l, fitsStream x) :
    l.filterMap FlowResult.fluxOp = (l.map some).map callFor := by
  induction l with
  | nil => rfl
  | cons x l ih =>
    have hx := h x (by simp)
    have := ih (fun y hy => h y (by simp [hy]))
    cases x with
    | success v => exact absurd hx id
    | next v => simpa [FlowResult.fluxOp, callFor] using this
    | complete => simpa [FlowResult.fluxOp, callFor] using this
    | error e => simpa [FlowResult.fluxOp, callFor] using this

theorem stream_started {T : Type} (inst : Flux.Installed) (k : Nat) (l : List (Say T))
    (h : ∀ x ∈ l, fitsStream x) :
    fluxSignals (Flux.run inst [] ((l.filterMap FlowResult.fluxOp).take k ++ .start [] ::
      (l.filterMap FlowResult.fluxOp).drop k)).2 = flowStreamSees inst l := by
  have e : (l.filterMap FlowResult.fluxOp).take k ++ .start [] ::
      (l.filterMap FlowResult.fluxOp).drop k =
      ((l.take k).map some ++ none :: (l.drop k).map some).map callFor := by
    rw [fluxOp_map l h]
    simp [callFor, List.map_take, List.map_drop]
  rw [e, Flux.run, stream_sees]
  · have : ((l.take k).map some ++ none :: (l.drop k).map some).filterMap id = l := by
      have a : ∀ l : List (Say T), (l.map some).filterMap id = l := by
        intro l; simp [List.filterMap_map]
      rw [List.filterMap_append, List.filterMap_cons_none rfl, a, a, List.take_append_drop]
    rw [this]
    rfl
  · intro x hx
    simp only [List.mem_append, List.mem_map, List.mem_cons] at hx
    rcases hx with ⟨y, hy, h1⟩ | h1 | ⟨y, hy, h1⟩
    · cases h1; exact h _ (List.mem_of_mem_take hy)
    · cases h1
    · cases h1; exact h _ (List.mem_of_mem_drop hy)

theorem fitsMono_iff {T : Type} (x : Say T) : fitsMono x ↔ FlowResult.allowed .mono x = true := by
  cases x <;> simp [fitsMono, FlowResult.allowed]

theorem fitsStream_iff {T : Type} (x : Say T) :
    fitsStream x ↔ FlowResult.allowed .flux x = true := by
  cases x <;> simp [fitsStream, FlowResult.allowed]

theorem viaMono_of {T : Type} (inst : Mono.Installed) (steps : List (RStep T)) (order : List Nat)
    (hf : flowFit (steps.map (·.out)) order) :
    ∃ fuel, FlowResult.viaMono fuel inst steps order = some (.ok
      ((Mono.run (.subscribe inst :: (((FlowResult.tell .mono (flowReports steps order)).1).filterMap
        FlowResult.monoSig).map (.signal 0 · [] []))).2,
       (FlowResult.tell .mono (flowReports steps order)).2)) := by
  obtain ⟨fuel, s, h1, h2⟩ := (C31_flow_iff _ order).mpr hf
  refine ⟨fuel, ?_⟩
  simp only [FlowResult.viaMono, h1, h2]
  rw [told_reports .mono steps steps 0 order none rfl]

theorem viaFlux_of {T : Type} (inst : Flux.Installed) (k : Nat) (steps : List (RStep T))
    (order : List Nat) (hf : flowFit (steps.map (·.out)) order) :
    ∃ fuel, FlowResult.viaFlux fuel inst k steps order = some (.ok
      ((Flux.run inst [] ((((FlowResult.tell .flux (flowReports steps order)).1).filterMap
        FlowResult.fluxOp).take k ++ .start [] ::
        (((FlowResult.tell .flux (flowReports steps order)).1).filterMap FlowResult.fluxOp).drop k)).2,
       (FlowResult.tell .flux (flowReports steps order)).2)) := by
  obtain ⟨fuel, s, h1, h2⟩ := (C31_flow_iff _ order).mpr hf
  refine ⟨fuel, ?_⟩
  simp only [FlowResult.viaFlux, h1, h2]
  rw [told_reports .flux steps steps 0 order none rfl]

/-! ## C139 -/

/-- C139 for a mono: of all that the steps report (values, errors reported and errors returned) the
subscriber sees exactly the first, once, followed by Finally. -/
theorem C139_mono {T : Type} (inst : Mono.Installed) (steps : List (RStep T)) (order : List Nat)
    (hf : flowFit (steps.map (·.out)) order) (hm : ∀ x ∈ flowReports steps order, fitsMono x) :
    ∃ fuel, FlowResult.viaMono fuel inst steps order =
      some (.ok (flowMonoSees inst (flowReports steps order), false)) := by
  obtain ⟨fuel, h⟩ := viaMono_of inst steps order hf
  rw [tell_all .mono _ (fun x hx => (fitsMono_iff x).mp (hm x hx))] at h
  exact ⟨fuel, by rw [h, mono_sees inst _ hm]⟩

/-- C139 for a stream: the subscriber sees all elements reported before the first end, in order, and
then that end, once; wherever the end of `Subscribe` falls. -/
theorem C139_stream {T : Type} (inst : Flux.Installed) (k : Nat) (steps : List (RStep T))
    (order : List Nat) (hf : flowFit (steps.map (·.out)) order)
    (hm : ∀ x ∈ flowReports steps order, fitsStream x) :
    ∃ fuel t, FlowResult.viaFlux fuel inst k steps order = some (.ok (t, false)) ∧
      fluxSignals t = flowStreamSees inst (flowReports steps order) := by
  obtain ⟨fuel, h⟩ := viaFlux_of inst k steps order hf
  rw [tell_all .flux _ (fun x hx => (fitsStream_iff x).mp (hm x hx))] at h
  exact ⟨fuel, _, h, stream_started inst k _ hm⟩

/-- C139: a report that does not fit the result crashes the flow; the subscriber has seen what the
reports before it amount to. -/
theorem C139_unfit {T : Type} (mi : Mono.Installed) (fi : Flux.Installed) (k : Nat)
    (steps : List (RStep T)) (order : List Nat) (hf : flowFit (steps.map (·.out)) order)
    (a b : List (Say T)) (x : Say T) (hr : flowReports steps order = a ++ x :: b) :
    ((∀ y ∈ a, fitsMono y) → ¬ fitsMono x →
      ∃ fuel, FlowResult.viaMono fuel mi steps order = some (.ok (flowMonoSees mi a, true))) ∧
    ((∀ y ∈ a, fitsStream y) → ¬ fitsStream x →
      ∃ fuel t, FlowResult.viaFlux fuel fi k steps order = some (.ok (t, true)) ∧
        fluxSignals t = flowStreamSees fi a) := by
  constructor
  · intro ha hx
    obtain ⟨fuel, h⟩ := viaMono_of mi steps order hf
    rw [hr, tell_bad .mono a b x (fun y hy => (fitsMono_iff y).mp (ha y hy))
      (by rw [fitsMono_iff] at hx; simpa using hx)] at h
    exact ⟨fuel, by rw [h, mono_sees mi _ ha]⟩
  · intro ha hx
    obtain ⟨fuel, h⟩ := viaFlux_of fi k steps order hf
    rw [hr, tell_bad .flux a b x (fun y hy => (fitsStream_iff y).mp (ha y hy))
      (by rw [fitsStream_iff] at hx; simpa using hx)] at h
    exact ⟨fuel, _, h, stream_started fi k _ ha⟩

/-- The second step reports an error and returns it: the subscriber hears of it once. -/
example :
    let steps : List (RStep Nat) := [⟨[], .group [false, false], none⟩,
      ⟨[.error (some "no")], .fail, some "no"⟩]
    flowFit (steps.map (·.out)) [1, 0] ∧ (∀ x ∈ flowReports steps [1, 0], fitsMono x) ∧
    flowReports steps [1, 0] = [.error (some "no"), .error (some "no")] ∧
    flowMonoSees ⟨true, true, true⟩ (flowReports steps [1, 0]) =
      [.error 0 (some "no"), .fin 0 .error] := by
  refine ⟨?_, ?_, ?_, ?_⟩ <;>
    simp [flowFit, flowReports, unfinished, awaitAll, fitsMono, flowMonoSees]

/-- Elements before and after a wait, then Complete, then an element that comes too late. -/
example :
    let steps : List (RStep Nat) := [⟨[.next 1, .next 2], .group [false], none⟩,
      ⟨[.next 3, .complete, .next 4], .endFlow, none⟩]
    flowFit (steps.map (·.out)) [0] ∧ (∀ x ∈ flowReports steps [0], fitsStream x) ∧
    flowStreamSees ⟨true, true, true, false, false, false⟩ (flowReports steps [0]) =
      [.next 1, .next 2, .next 3, .complete] := by
  refine ⟨?_, ?_, ?_⟩ <;>
    simp [flowFit, flowReports, unfinished, awaitAll, fitsStream, flowStreamSees]

/-- `Success` in a flow that makes a stream, after one element. -/
example :
    let steps : List (RStep Nat) := [⟨[.next 1, .success 2], .endFlow, none⟩]
    flowFit (steps.map (·.out)) [] ∧
    flowReports steps [] = [.next 1] ++ .success 2 :: [] ∧ fitsStream (.next 1 : Say Nat) ∧
    ¬ fitsStream (.success 2 : Say Nat) := by
  refine ⟨?_, ?_, ?_, ?_⟩ <;> simp [flowFit, flowReports, fitsStream]

end Verif.Props
