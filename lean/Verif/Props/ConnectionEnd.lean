import Verif.Model.ConnectionEnd
import Verif.Props.StreamSeen
import Verif.Props.WasmBuffers
/-
Property C135 (the end of a connection is reported to the calls on it).
-/
set_option autoImplicit false
namespace Verif.Props
open Verif Frames Handler
open Verif.Invoke (Kind Registry)
open Verif.ConnectionEnd (Conn)

/-! ## The claim -/

/-- What the handler and the application do in a history (`over`: the connection is over already); frames that would come after
the end do not. -/
def doings : Bool → List ConnectionEnd.Act → List Act
  | _, [] => []
  | _, .over :: as => doings true as
  | true, .act (.frame _ _) :: as => doings true as
  | over, .act a :: as => a :: doings over as

/-- The connection is over at the end of the history. -/
def overAfter (over : Bool) (as : List ConnectionEnd.Act) : Prop := over = true ∨ .over ∈ as

/-- C135 in full, for a call or stream with all callbacks that is subscribed once, before or after the end: if the connection has ended
and no goroutine has anything left to do, the subscriber has been told the result of the call, or the end of the stream. -/
def C135_statement : Prop :=
  ∀ (H : Type) (reg : Registry H) (client : Bool) (before after : List ConnectionEnd.Act) (c1 c2 : Conn H)
    (t1 t2 : List (Handler.Ev H)) (j : Nat), ConnectionEnd.run reg client before = .ok (c1, t1) →
    (∀ req, c1.st.objs[j]? = some (.mono req .init) →
      ConnectionEnd.runFrom c1 (.act (.subscribeMono j ⟨true, true, true⟩) :: after) = .ok (c2, t2) →
      (openedIds (t1 ++ t2)).Nodup → overAfter c1.over after → c2.st.tasks = [] → monoEvs j t2 ≠ []) ∧
    (∀ req first c input start, c1.st.objs[j]? = some (.flux req first c input none) →
      ConnectionEnd.runFrom c1 (.act (.subscribeFlux j ⟨true, true, true, true, true, false⟩ start) :: after) = .ok (c2, t2) →
      (openedIds (t1 ++ t2)).Nodup → overAfter c1.over after → c2.st.tasks = [] → Flux.Ev.cancelled ∉ fluxEvs j t2 →
      Flux.Ev.complete ∈ fluxEvs j t2 ∨ ∃ e, Flux.Ev.error e ∈ fluxEvs j t2)

section
variable {H : Type}

/-! ## Histories -/

theorem end_runFrom (as : List ConnectionEnd.Act) : ∀ (c c' : Conn H) (tr : List (Handler.Ev H)),
    ConnectionEnd.runFrom c as = .ok (c', tr) → Handler.runFrom c.st (doings c.over as) = .ok (c'.st, tr) := by
  induction as with
  | nil =>
    intro c c' tr h
    cases h
    simp only [doings, Handler.runFrom]
  | cons a as ih =>
    intro c c' tr h
    obtain ⟨r, h1, h⟩ := bind_ok_inv h
    obtain ⟨r', h2, h⟩ := bind_ok_inv h
    cases h
    have h2 := ih _ _ _ h2
    cases a with
    | over =>
      cases h1
      simpa only [doings, List.nil_append] using h2
    | act a =>
      have key : (do
          let r ← Handler.settle c.st (Handler.step c.st a)
          Go.ok (({ c with st := r.1 } : Conn H), r.2)) = .ok r →
          Handler.runFrom c.st (a :: doings c.over as) = .ok (r'.1.st, r.2 ++ r'.2) := by
        intro h1
        obtain ⟨q, h3, h4⟩ := bind_ok_inv h1
        cases h4
        simp only [Handler.runFrom, h3, Handler.andThen, h2]
      obtain ⟨st, over⟩ := c
      cases over with
      | false =>
        cases a <;> exact key h1
      | true =>
        cases a
        case frame f x =>
          cases h1
          exact h2
        all_goals exact key h1

theorem end_subscribed {c c' : Conn H} {a : Act} {as : List ConnectionEnd.Act} {tr : List (Handler.Ev H)}
    (ha : ∀ f r, a ≠ .frame f r) (h : ConnectionEnd.runFrom c (.act a :: as) = .ok (c', tr)) :
    Handler.runFrom c.st (a :: doings c.over as) = .ok (c'.st, tr) := by
  have := end_runFrom _ _ _ _ h
  obtain ⟨st, over⟩ := c
  cases over with
  | false => cases a <;> exact this
  | true =>
    cases a
    case frame f r => exact absurd rfl (ha f r)
    all_goals exact this

theorem end_over (as : List ConnectionEnd.Act) : ∀ (c c' : Conn H) (tr : List (Handler.Ev H)),
    ConnectionEnd.runFrom c as = .ok (c', tr) → (c'.over = true ↔ overAfter c.over as) := by
  induction as with
  | nil => intro c c' tr h; cases h; simp [overAfter]
  | cons a as ih =>
    intro c c' tr h
    obtain ⟨r, h1, h⟩ := bind_ok_inv h
    obtain ⟨r', h2, h⟩ := bind_ok_inv h
    cases h
    rw [ih _ _ _ h2]
    cases a with
    | over => cases h1; simp [overAfter]
    | act a =>
      have : r.1.over = c.over := by
        simp only [ConnectionEnd.step] at h1
        split at h1
        · cases h1; rfl
        · obtain ⟨q, h3, h4⟩ := bind_ok_inv h1
          cases h4
          rfl
      simp [overAfter, this]

/-- C135: there is a connection until it ends, and none after that. -/
theorem C135_over_iff (reg : Registry H) (client : Bool) (as : List ConnectionEnd.Act) (c : Conn H) (tr : List (Handler.Ev H))
    (h : ConnectionEnd.run reg client as = .ok (c, tr)) : c.over = true ↔ .over ∈ as := by
  have := end_over as _ _ _ h
  simpa [overAfter, ConnectionEnd.Conn.init] using this

/-! ## What subscribers see -/

/-- C135, partial, calls: the subscriber of a call sees exactly the result that was received while there was a connection, as its
only outcome. Missing: an outcome if there was none (`C135_call_waits_violated`). -/
theorem C135_call_partial (reg : Registry H) (client : Bool) (before after : List ConnectionEnd.Act) (c1 c2 : Conn H)
    (t1 t2 : List (Handler.Ev H)) (j : Nat) (req : RequestPayload) (inst : Mono.Installed)
    (h1 : ConnectionEnd.run reg client before = .ok (c1, t1)) (hj : c1.st.objs[j]? = some (.mono req .init))
    (hnew : .closed req.streamID ∉ t1)
    (h2 : ConnectionEnd.runFrom c1 (.act (.subscribeMono j inst) :: after) = .ok (c2, t2))
    (hu : (openedIds (t1 ++ t2)).Nodup) (hs : ∀ a ∈ doings c1.over after, subscribesTo j a = false)
    (hne : noEmptyEnd req.streamID (doings c1.over after)) :
    monoEvs j t2 = outcome 0 inst (results req.streamID (doings c1.over after)) :=
  (C62_outcome_partial reg client _ _ _ _ _ _ j req inst (end_runFrom before _ _ _ h1) hj hnew
    (end_subscribed (fun _ _ h => by cases h) h2) hu hs hne).2

/-- C135, partial, streams: the subscriber of a stream or channel sees what arrived while there was a connection, up to the first
end; all of it if it does not cancel. Missing: an end if none arrived (`C135_stream_waits_violated`). -/
theorem C135_stream_partial (reg : Registry H) (client : Bool) (before after : List ConnectionEnd.Act) (c1 c2 : Conn H)
    (t1 t2 : List (Handler.Ev H)) (j : Nat) (req : RequestPayload) (first c : Bool) (input : Option Input)
    (inst : Flux.Installed) (start : List Flux.Call)
    (h1 : ConnectionEnd.run reg client before = .ok (c1, t1)) (hj : c1.st.objs[j]? = some (.flux req first c input none))
    (h2 : ConnectionEnd.runFrom c1 (.act (.subscribeFlux j inst start) :: after) = .ok (c2, t2))
    (hu : (openedIds (t1 ++ t2)).Nodup) :
    (∃ r, r <+: cutAtEnd (arrivals req.streamID (doings c1.over after)) ∧
      fluxSignals (fluxEvs j t2) = r.flatMap (sigCalls inst)) ∧
    (.cancelled ∉ fluxEvs j t2 → fluxCallbacks (fluxEvs j t2) =
      (cutAtEnd (arrivals req.streamID (doings c1.over after))).flatMap (sigCallbacks inst)) :=
  (C90_received reg client _ _ _ _ _ _ j req first c input inst start (end_runFrom before _ _ _ h1) hj
    (end_subscribed (fun _ _ h => by cases h) h2) hu).2

/-- No frame for the stream arrives while there is a connection. -/
def neverAnswered (id : UInt32) (as : List Act) : Prop := ∀ f r, Act.frame f r ∈ as → f.streamID ≠ id

theorem never_results {id : UInt32} {as : List Act} (h : neverAnswered id as) : results id as = [] ∧ noEmptyEnd id as := by
  induction as with
  | nil => exact ⟨rfl, trivial⟩
  | cons a as ih =>
    obtain ⟨h1, h2⟩ := ih fun f r hf => h f r (List.mem_cons_of_mem _ hf)
    have h3 : resultOf id a = none ∧ endsEmpty id a = false := by
      cases a
      case frame f r =>
        have hf := h f r List.mem_cons_self
        refine ⟨?_, by simp [endsEmpty, hf]⟩
        cases f <;> simp only [resultOf, AnyFrame.streamID] at hf ⊢
        · exact if_neg fun e => hf e.1
        · exact if_neg hf
      all_goals exact ⟨rfl, rfl⟩
    exact ⟨by rw [results, List.filterMap_cons, h3.1]; exact h1, .inr ⟨h3.2, h2⟩⟩

theorem never_arrivals {id : UInt32} {as : List Act} (h : neverAnswered id as) : arrivals id as = [] := by
  refine List.flatMap_eq_nil_iff.2 fun a ha => ?_
  cases a
  case frame f r =>
    have hf := h f r ha
    cases f <;> simp only [frameSigs, AnyFrame.streamID] at hf ⊢ <;> exact if_neg hf
  all_goals rfl

/-- Nothing arrives after the end. -/
theorem over_never (id : UInt32) (as : List ConnectionEnd.Act) : neverAnswered id (doings true as) := by
  induction as with
  | nil => exact fun f r h => absurd h List.not_mem_nil
  | cons a as ih =>
    cases a with
    | over => exact ih
    | act a =>
      cases a
      case frame f r => exact ih
      all_goals
        intro f r h
        rcases List.mem_cons.1 h with h | h
        · cases h
        · exact ih f r h

/-- C135 fails for calls: the subscriber of a call that was not answered while there was a connection, and of one made after its end,
never sees anything, whatever happens. -/
theorem C135_call_waits_violated (reg : Registry H) (client : Bool) (before after : List ConnectionEnd.Act) (c1 c2 : Conn H)
    (t1 t2 : List (Handler.Ev H)) (j : Nat) (req : RequestPayload) (inst : Mono.Installed)
    (h1 : ConnectionEnd.run reg client before = .ok (c1, t1)) (hj : c1.st.objs[j]? = some (.mono req .init))
    (hnew : .closed req.streamID ∉ t1)
    (h2 : ConnectionEnd.runFrom c1 (.act (.subscribeMono j inst) :: after) = .ok (c2, t2))
    (hu : (openedIds (t1 ++ t2)).Nodup) (hs : ∀ a ∈ doings c1.over after, subscribesTo j a = false)
    (hn : c1.over = true ∨ neverAnswered req.streamID (doings c1.over after)) : monoEvs j t2 = [] := by
  have hn : neverAnswered req.streamID (doings c1.over after) := by
    rcases hn with h | h
    · rw [h]; exact over_never _ _
    · exact h
  rw [C135_call_partial reg client before after c1 c2 t1 t2 j req inst h1 hj hnew h2 hu hs (never_results hn).2,
    (never_results hn).1]
  rfl

/-- The same for streams and channels: no element, no completion, no error. -/
theorem C135_stream_waits_violated (reg : Registry H) (client : Bool) (before after : List ConnectionEnd.Act) (c1 c2 : Conn H)
    (t1 t2 : List (Handler.Ev H)) (j : Nat) (req : RequestPayload) (first c : Bool) (input : Option Input)
    (inst : Flux.Installed) (start : List Flux.Call)
    (h1 : ConnectionEnd.run reg client before = .ok (c1, t1)) (hj : c1.st.objs[j]? = some (.flux req first c input none))
    (h2 : ConnectionEnd.runFrom c1 (.act (.subscribeFlux j inst start) :: after) = .ok (c2, t2))
    (hu : (openedIds (t1 ++ t2)).Nodup)
    (hn : c1.over = true ∨ neverAnswered req.streamID (doings c1.over after)) : fluxSignals (fluxEvs j t2) = [] := by
  have hn : neverAnswered req.streamID (doings c1.over after) := by
    rcases hn with h | h
    · rw [h]; exact over_never _ _
    · exact h
  obtain ⟨r, hr, h⟩ := (C135_stream_partial reg client before after c1 c2 t1 t2 j req first c input inst start h1 hj h2 hu).1
  rw [never_arrivals hn] at hr
  rw [h, List.prefix_nil.1 hr]
  rfl

end

/-! ## Cases -/

/-- What happened, by index of the calls. -/
def endTrace {H : Type} (x : Go (Conn H × List (Handler.Ev H))) : List (Handler.Ev H) :=
  match x with
  | .ok (_, tr) => tr
  | _ => []

/-- Two calls; the first is answered, then the connection ends, then the answer to the second would have come. -/
def twoThenEnd : List ConnectionEnd.Act :=
  [.act (.call .rr ⟨[1], []⟩ .created), .act (.call .rr ⟨[2], []⟩ .created), .act (.subscribeMono 0 ⟨true, true, true⟩),
   .act (.subscribeMono 1 ⟨true, true, true⟩), .act (.frame (.payload ⟨1, [], [7], false, true, true⟩) noReact), .over,
   .act (.frame (.payload ⟨3, [], [8], false, true, true⟩) noReact)]

example : monoEvs 0 (endTrace (ConnectionEnd.run oneHandler true twoThenEnd)) = outcome 0 ⟨true, true, true⟩ [.success ⟨[7], []⟩] ∧
    monoEvs 1 (endTrace (ConnectionEnd.run oneHandler true twoThenEnd)) = [] := by decide +kernel

/-- A stream; one element arrives, the connection ends, then the completion would have come. -/
def streamThenEnd : List ConnectionEnd.Act :=
  [.act (.call .rs ⟨[1], []⟩ .created), .act (.subscribeFlux 0 ⟨true, true, true, true, true, false⟩ []),
   .act (.frame (.payload ⟨1, [], [7], false, false, true⟩) noReact), .over,
   .act (.frame (.payload ⟨1, [], [], false, true, false⟩) noReact)]

example : fluxSignals (fluxEvs 0 (endTrace (ConnectionEnd.run oneHandler true streamThenEnd))) = [.next ⟨[7], []⟩] ∧
    fluxSignals (fluxEvs 0 (endTrace (ConnectionEnd.run oneHandler true (.over :: streamThenEnd)))) = [] ∧
    (endTrace (ConnectionEnd.run oneHandler true (.over :: streamThenEnd))).length > 0 := by decide +kernel

/-- C135 fails: a call is made and the connection ends. -/
theorem C135_violated : ¬ C135_statement := by
  intro h
  have e : ∃ (c1 c2 : Conn Unit) (req : RequestPayload) (t2 : List (Handler.Ev Unit)),
      ConnectionEnd.run oneHandler true [.act (.call .rr ⟨[], []⟩ .created)] = .ok (c1, []) ∧
      c1.st.objs[0]? = some (.mono req .init) ∧
      ConnectionEnd.runFrom c1 [.act (.subscribeMono 0 ⟨true, true, true⟩), .over] = .ok (c2, t2) ∧
      openedIds ([] ++ t2) = [1] ∧ c2.st.tasks = [] ∧ monoEvs 0 t2 = [] := ⟨_, _, _, _, rfl, rfl, rfl, rfl, rfl, rfl⟩
  obtain ⟨c1, c2, req, t2, e1, e2, e3, e4, e5, e6⟩ := e
  exact (h Unit oneHandler true _ _ c1 c2 _ t2 0 e1).1 req e2 e3 (by rw [e4]; decide) (.inr (by simp)) e5 e6

end Verif.Props
