import Verif.Model.Flux
import Verif.Props.Mono
/-
Properties C26, C27, C28, C32: streams.
-/
set_option autoImplicit false
namespace Verif.Props
open Verif
open Verif.Mono (Err Signal Transform)
open Verif.Flux (Call State Op call calls handleOnSubscribe)

section
variable {T : Type}

/-! ## Specification -/

/-- The signals a subscriber sees. -/
def fluxSignals (t : List (Flux.Ev T)) : List (Flux.Ev T) :=
  t.filter fun | .next _ => true | .complete => true | .error _ => true | _ => false

/-- What a subscriber with these callbacks is to see for one signal of the source. -/
def fluxExpected (inst : Flux.Installed) : Op T → List (Flux.Ev T)
  | .next v _ _ => if inst.onNext then [.next v] else []
  | .complete _ => if inst.onComplete then [.complete] else []
  | .error e _ => if inst.onError then [.error e] else []
  | _ => []

/-- Complete or Error. -/
def isTerminal : Op T → Bool
  | .complete _ => true
  | .error .. => true
  | _ => false

/-- The stream is over: the source has terminated it or the subscriber has cancelled it. -/
def fluxOver (inst : Flux.Installed) (cbs : List Nat) (ops : List (Op T)) : Prop :=
  (∃ op ∈ ops, isTerminal op = true) ∨ .cancelled ∈ (Flux.run inst cbs ops).2

/-! ## Lemmas -/

theorem fluxSignals_append (a b : List (Flux.Ev T)) :
    fluxSignals (a ++ b) = fluxSignals a ++ fluxSignals b := by simp [fluxSignals]

theorem flux_runFrom_append (m : State) (a b : List (Op T)) :
    Flux.runFrom m (a ++ b) = ((Flux.runFrom (Flux.runFrom m a).1 b).1,
      (Flux.runFrom m a).2 ++ (Flux.runFrom (Flux.runFrom m a).1 b).2) := by
  induction a generalizing m with
  | nil => simp [Flux.runFrom]
  | cons op a ih => simp [Flux.runFrom, ih]

theorem flux_run_snoc (inst : Flux.Installed) (cbs : List Nat) (ops : List (Op T)) (op : Op T) :
    Flux.run inst cbs (ops ++ [op]) = ((Flux.step (Flux.run inst cbs ops).1 op).1,
      (Flux.run inst cbs ops).2 ++ (Flux.step (Flux.run inst cbs ops).1 op).2) := by
  simp [Flux.run, flux_runFrom_append, Flux.runFrom]

/-- Number of Finally calls in a trace. -/
def finCount (t : List (Flux.Ev T)) : Nat :=
  (t.filter fun | .fin _ => true | _ => false).length

/-- Number of Cancel calls in a trace. -/
def cancelCount (t : List (Flux.Ev T)) : Nat :=
  (t.filter fun | .cancelled => true | _ => false).length

/-- The completion callbacks called in a trace. -/
def fluxNotifications (t : List (Flux.Ev T)) : List (Nat × Signal) :=
  t.filterMap fun | .notified cb s => some (cb, s) | _ => none

theorem finCount_append (a b : List (Flux.Ev T)) : finCount (a ++ b) = finCount a + finCount b := by
  simp [finCount]
theorem cancelCount_append (a b : List (Flux.Ev T)) :
    cancelCount (a ++ b) = cancelCount a + cancelCount b := by simp [cancelCount]
theorem fluxNotifications_append (a b : List (Flux.Ev T)) :
    fluxNotifications (a ++ b) = fluxNotifications a ++ fluxNotifications b := by
  simp [fluxNotifications]

theorem cancelled_mem_iff (t : List (Flux.Ev T)) : Flux.Ev.cancelled ∈ t ↔ cancelCount t ≠ 0 := by
  unfold cancelCount
  rw [Ne, List.length_eq_zero_iff, List.filter_eq_nil_iff]
  constructor
  · intro h h'; exact h' _ h rfl
  · intro h
    apply Classical.byContradiction
    intro h'
    apply h
    intro e he
    cases e <;> simp
    exact h' he

/-- Everything a `call` or several do. -/
structure Quiet (m : State) (r : State × List (Flux.Ev T)) : Prop where
  inst : r.1.inst = m.inst
  cbs : r.1.callbacks = m.callbacks
  sig : r.1.signal = m.signal
  closed : r.1.closed = (m.closed || decide (cancelCount r.2 ≠ 0))
  signals : fluxSignals r.2 = []
  fins : finCount r.2 = if m.inst.fin then cancelCount r.2 else 0
  notes : fluxNotifications r.2 = []

theorem Quiet.nil (m : State) : Quiet (T := T) m (m, []) := by
  constructor <;> simp [cancelCount, fluxSignals, finCount, fluxNotifications]

theorem Quiet.trans {m m1 m2 : State} {e1 e2 : List (Flux.Ev T)} (h1 : Quiet m (m1, e1))
    (h2 : Quiet m1 (m2, e2)) : Quiet m (m2, e1 ++ e2) := by
  constructor
  · exact h2.inst.trans h1.inst
  · exact h2.cbs.trans h1.cbs
  · exact h2.sig.trans h1.sig
  · have a := h1.closed; have b := h2.closed
    simp only at a b ⊢
    rw [b, a, cancelCount_append]
    cases m.closed <;> simp
  · have a := h1.signals; have b := h2.signals
    simp only at a b ⊢
    rw [fluxSignals_append, a, b]; rfl
  · have a := h1.fins; have b := h2.fins; have c := h1.inst
    simp only at a b c ⊢
    rw [finCount_append, cancelCount_append, a, b, c]
    cases m.inst.fin <;> simp
  · have a := h1.notes; have b := h2.notes
    simp only at a b ⊢
    rw [fluxNotifications_append, a, b]; rfl

theorem quiet_call (m : State) (c : Call) : Quiet (T := T) m (call m c) := by
  cases c with
  | request k =>
    unfold call
    cases hr : m.hasRequest <;>
    constructor <;> simp [cancelCount, fluxSignals, finCount, fluxNotifications]
  | cancel =>
    unfold call
    cases h1 : m.hasCancel <;> cases h2 : m.inst.fin <;>
    constructor <;> simp [cancelCount, fluxSignals, finCount, fluxNotifications, h2]

theorem quiet_calls (m : State) (cs : List Call) : Quiet (T := T) m (calls m cs) := by
  induction cs generalizing m with
  | nil => exact Quiet.nil m
  | cons c cs ih => exact Quiet.trans (quiet_call m c) (ih _)

theorem quiet_cons (m : State) (r : State × List (Flux.Ev T)) (h : Quiet m r) :
    Quiet m (r.1, .onRequest :: r.2) := by
  obtain ⟨a, b, c, d, e, f, g⟩ := h
  exact ⟨a, b, c, d, e, f, g⟩

theorem quiet_handle (m : State) (cs : List Call) : Quiet (T := T) m (handleOnSubscribe m cs) := by
  unfold handleOnSubscribe
  split
  · exact Quiet.nil m
  · split
    · exact quiet_cons _ _ (quiet_calls m cs)
    · exact quiet_call _ _

/-- What one step does, in terms of the state before. -/
structure StepSpec (m : State) (op : Op T) (r : State × List (Flux.Ev T)) : Prop where
  inst : r.1.inst = m.inst
  closed : r.1.closed = (m.closed || isTerminal op || decide (cancelCount r.2 ≠ 0))
  signals : fluxSignals r.2 = if m.closed then [] else fluxExpected m.inst op
  fins : finCount r.2 = if m.inst.fin then
    cancelCount r.2 + (if m.closed = false ∧ isTerminal op = true then 1 else 0) else 0

theorem Quiet.toStep {m : State} {op : Op T} {r : State × List (Flux.Ev T)} (h : Quiet m r)
    (ht : isTerminal op = false) (he : fluxExpected m.inst op = []) : StepSpec m op r :=
  ⟨h.inst, by rw [h.closed, ht]; simp, by rw [h.signals, he]; simp, by rw [h.fins, ht]; simp⟩

theorem signals_cons_expected (e : Flux.Ev T) (l : List (Flux.Ev T)) :
    fluxSignals (e :: l) = fluxSignals [e] ++ fluxSignals l := by
  rw [← fluxSignals_append]; rfl

theorem callbacks_quiet (l : List Nat) (s : Signal) :
    fluxSignals (l.map (Flux.Ev.notified (T := T) · s)) = [] ∧
    finCount (l.map (Flux.Ev.notified (T := T) · s)) = 0 ∧
    cancelCount (l.map (Flux.Ev.notified (T := T) · s)) = 0 ∧
    fluxNotifications (l.map (Flux.Ev.notified (T := T) · s)) = l.map (·, s) := by
  induction l with
  | nil => exact ⟨rfl, rfl, rfl, rfl⟩
  | cons a l ih =>
    obtain ⟨h1, h2, h3, h4⟩ := ih
    refine ⟨h1, h2, h3, ?_⟩
    simp only [List.map_cons]
    rw [← h4]; rfl

theorem finally_spec (m : State) (s : Signal) :
    fluxSignals (Flux.doFinally (T := T) m s).2 = [] ∧
    finCount (Flux.doFinally (T := T) m s).2 = (if m.inst.fin then 1 else 0) ∧
    cancelCount (Flux.doFinally (T := T) m s).2 = 0 ∧
    fluxNotifications (Flux.doFinally (T := T) m s).2 = m.callbacks.map (·, s) := by
  obtain ⟨h1, h2, h3, h4⟩ := callbacks_quiet (T := T) m.callbacks s
  unfold Flux.doFinally
  simp only [fluxSignals_append, finCount_append, cancelCount_append, fluxNotifications_append,
    h1, h2, h3, h4]
  cases m.inst.fin <;> simp [fluxSignals, finCount, cancelCount, fluxNotifications]

theorem count_cons (e : Flux.Ev T) (l : List (Flux.Ev T)) (h : fluxSignals [e] = [e]) :
    finCount (e :: l) = finCount l ∧ cancelCount (e :: l) = cancelCount l ∧
    fluxNotifications (e :: l) = fluxNotifications l := by
  cases e <;> first | exact ⟨rfl, rfl, rfl⟩ | (exfalso; revert h; simp [fluxSignals])

theorem flux_step_spec (m : State) (op : Op T) : StepSpec m op (Flux.step m op) := by
  cases op with
  | start a => exact (quiet_handle m a).toStep rfl rfl
  | call c => exact (quiet_call m c).toStep rfl rfl
  | onSubscribe c =>
    simp only [Flux.step]
    split
    · exact (Quiet.nil m).toStep rfl rfl
    · constructor
      · rfl
      · simp only [isTerminal]; split <;> simp [cancelCount]
      · simp only; split <;> simp [fluxSignals, fluxExpected]
      · simp only [isTerminal]; split <;> simp [finCount, cancelCount]
  | notify cb =>
    simp only [Flux.step, Flux.notify]
    split
    · constructor
      · rfl
      · simp [isTerminal, cancelCount]
      · simp [fluxSignals, fluxExpected]
      · simp [finCount, cancelCount, isTerminal]
    · constructor
      · rfl
      · simp [isTerminal, cancelCount]
      · simp [fluxSignals, fluxExpected]
      · simp [finCount, cancelCount, isTerminal]
  | next v a b =>
    simp only [Flux.step, Flux.next]
    split
    · rename_i hc
      refine ⟨rfl, by simp [hc], by simp [hc, fluxSignals], ?_⟩
      simp [finCount, cancelCount, hc]
    · rename_i hc
      have hc : m.closed = false := by simpa using hc
      -- the part up to the callback
      have key : ∀ r : State × List (Flux.Ev T),
          r = (Flux.onNext { m with n := m.n - 1 } v a) →
          StepSpec m (.next v a b) r := by
        intro r hr
        have q := quiet_calls (T := T) { m with n := m.n - 1 } a
        unfold Flux.onNext at hr
        simp only at hr
        rcases Bool.eq_false_or_eq_true m.inst.onNext with ho | ho
        · rw [ho, if_pos rfl] at hr
          subst hr
          obtain ⟨c1, c2, -⟩ := count_cons (Flux.Ev.next v)
            (calls (T := T) { m with n := m.n - 1 } a).2 rfl
          refine ⟨q.inst, ?_, ?_, ?_⟩
          · simp only [c2]; rw [q.closed]; simp [isTerminal]
          · rw [if_neg (by simp [hc])]; simp only; rw [signals_cons_expected, q.signals]
            simp [fluxExpected, ho, fluxSignals]
          · simp only [c1, c2]; rw [q.fins]; simp [isTerminal]
        · rw [ho] at hr
          simp only [Bool.false_eq_true, if_false] at hr
          subst hr
          refine ⟨rfl, by simp [isTerminal, cancelCount], by simp [fluxExpected, ho, fluxSignals],
            by simp [isTerminal, finCount, cancelCount]⟩
      split
      · -- handleOnSubscribe
        have k := key _ rfl
        have q := quiet_handle (T := T) (Flux.onNext { m with n := m.n - 1 } v a).1 b
        refine ⟨q.inst.trans k.inst, ?_, ?_, ?_⟩
        · rw [q.closed, k.closed, cancelCount_append]
          simp only [isTerminal, hc, Bool.or_false, Bool.false_or]
          rw [← Bool.decide_or]
          congr 1
          simp only [eq_iff_iff]; omega
        · rw [fluxSignals_append, q.signals, k.signals]; simp
        · rw [finCount_append, cancelCount_append, q.fins, k.fins, k.inst]
          cases m.inst.fin <;> simp [isTerminal]
      · exact key _ rfl
  | complete a =>
    simp only [Flux.step, Flux.complete]
    split
    · rename_i hc
      refine ⟨rfl, by simp [hc], by simp [hc, fluxSignals], ?_⟩
      simp [finCount, cancelCount, hc]
    · rename_i hc
      have hc : m.closed = false := by simpa using hc
      have q := quiet_calls (T := T) { m with closed := true } a
      rcases Bool.eq_false_or_eq_true m.inst.onComplete with ho | ho
      · simp only [ho, if_true]
        obtain ⟨f1, f2, f3, -⟩ := finally_spec (T := T) (calls (T := T) { m with closed := true } a).1
          .complete
        obtain ⟨c1, c2, -⟩ := count_cons Flux.Ev.complete
            (calls (T := T) { m with closed := true } a).2 rfl
        refine ⟨q.inst, ?_, ?_, ?_⟩
        · simp only [Flux.doFinally, q.closed, isTerminal]; simp
        · rw [fluxSignals_append, signals_cons_expected, q.signals, f1]
          simp [hc, fluxExpected, ho, fluxSignals]
        · simp only [finCount_append, cancelCount_append]
          rw [c1, c2, f2, f3, q.fins, q.inst]
          cases m.inst.fin <;> simp [hc, isTerminal]
      · simp only [ho, Bool.false_eq_true, if_false, List.nil_append]
        obtain ⟨f1, f2, f3, -⟩ := finally_spec (T := T) { m with closed := true } .complete
        refine ⟨rfl, ?_, ?_, ?_⟩
        · simp [Flux.doFinally, isTerminal]
        · rw [f1]; simp [fluxExpected, ho]
        · rw [f2, f3]; simp [hc, isTerminal]
  | error e a =>
    simp only [Flux.step, Flux.error]
    split
    · rename_i hc
      refine ⟨rfl, by simp [hc], by simp [hc, fluxSignals], ?_⟩
      simp [finCount, cancelCount, hc]
    · rename_i hc
      have hc : m.closed = false := by simpa using hc
      have q := quiet_calls (T := T) { m with err := e, closed := true } a
      rcases Bool.eq_false_or_eq_true m.inst.onError with ho | ho
      · simp only [ho, if_true]
        obtain ⟨f1, f2, f3, -⟩ := finally_spec (T := T)
          (calls (T := T) { m with err := e, closed := true } a).1 .error
        obtain ⟨c1, c2, -⟩ := count_cons (Flux.Ev.error e)
            (calls (T := T) { m with err := e, closed := true } a).2 rfl
        refine ⟨q.inst, ?_, ?_, ?_⟩
        · simp only [Flux.doFinally, q.closed, isTerminal]; simp
        · rw [fluxSignals_append, signals_cons_expected, q.signals, f1]
          simp [hc, fluxExpected, ho, fluxSignals]
        · simp only [finCount_append, cancelCount_append]
          rw [c1, c2, f2, f3, q.fins, q.inst]
          cases m.inst.fin <;> simp [hc, isTerminal]
      · simp only [ho, Bool.false_eq_true, if_false, List.nil_append]
        obtain ⟨f1, f2, f3, -⟩ := finally_spec (T := T) { m with err := e, closed := true } .error
        refine ⟨rfl, ?_, ?_, ?_⟩
        · simp [Flux.doFinally, isTerminal]
        · rw [f1]; simp [fluxExpected, ho]
        · rw [f2, f3]; simp [hc, isTerminal]

theorem flux_state (inst : Flux.Installed) (cbs : List Nat) (ops : List (Op T)) :
    (Flux.run inst cbs ops).1.inst = inst ∧
    ((Flux.run inst cbs ops).1.closed = true ↔ fluxOver inst cbs ops) := by
  induction ops using mono_snoc_induction with
  | nil => exact ⟨rfl, by simp [fluxOver, Flux.run, Flux.runFrom, State.init]⟩
  | snoc ops op ih =>
    have s := flux_step_spec (Flux.run inst cbs ops).1 op
    refine ⟨by rw [flux_run_snoc]; exact s.inst.trans ih.1, ?_⟩
    rw [fluxOver, flux_run_snoc]
    simp only [s.closed, Bool.or_eq_true, ih.2, decide_eq_true_eq, fluxOver, List.mem_append,
      ← cancelled_mem_iff]
    constructor
    · rintro (((⟨o, ho, ht⟩ | h) | h) | h)
      · exact Or.inl ⟨o, Or.inl ho, ht⟩
      · exact Or.inr (Or.inl h)
      · exact Or.inl ⟨op, by simp, h⟩
      · exact Or.inr (Or.inr h)
    · rintro (⟨o, ho | ho, ht⟩ | h | h)
      · exact Or.inl (Or.inl (Or.inl ⟨o, ho, ht⟩))
      · simp at ho; subst ho; exact Or.inl (Or.inr ht)
      · exact Or.inl (Or.inl (Or.inr h))
      · exact Or.inr h

/-! ## C26 -/

open Classical in
/-- C26: each signal of the source reaches the subscriber, exactly as it is, unless the stream is
over by then. -/
theorem C26_flux_signals_step (inst : Flux.Installed) (cbs : List Nat) (ops : List (Op T))
    (op : Op T) :
    fluxSignals (Flux.run inst cbs (ops ++ [op])).2 = fluxSignals (Flux.run inst cbs ops).2 ++
      if fluxOver inst cbs ops then [] else fluxExpected inst op := by
  have s := flux_step_spec (Flux.run inst cbs ops).1 op
  have st := flux_state inst cbs ops
  rw [flux_run_snoc, fluxSignals_append, s.signals, st.1]
  congr 1
  by_cases h : fluxOver inst cbs ops
  · rw [if_pos h, if_pos (st.2.mpr h)]
  · rw [if_neg h, if_neg (fun hc => h (st.2.mp hc))]

/-- Over stays over. -/
theorem over_mono (inst : Flux.Installed) (cbs : List Nat) (ops : List (Op T)) (op : Op T)
    (h : fluxOver inst cbs ops) : fluxOver inst cbs (ops ++ [op]) := by
  rcases h with ⟨o, ho, ht⟩ | h
  · exact Or.inl ⟨o, by simp [ho], ht⟩
  · right; rw [flux_run_snoc]; simp [h]

/-- C26: the subscriber sees the source's signals up to and including the first one that ends the
stream (or during which it cancels), and nothing more. -/
theorem C26_flux_signals (inst : Flux.Installed) (cbs : List Nat) (ops : List (Op T)) :
    ∃ k, k ≤ ops.length ∧
      fluxSignals (Flux.run inst cbs ops).2 = (ops.take k).flatMap (fluxExpected inst) ∧
      (∀ j, j < k → ¬ fluxOver inst cbs (ops.take j)) ∧
      (k = ops.length ∨ fluxOver inst cbs (ops.take k)) := by
  induction ops using mono_snoc_induction with
  | nil => exact ⟨0, by simp, rfl, by simp, by simp⟩
  | snoc ops op ih =>
    obtain ⟨k, hk, hs, hn, ho⟩ := ih
    have tk : ∀ j, j ≤ ops.length → (ops ++ [op]).take j = ops.take j := by
      intro j hj; rw [List.take_append_of_le_length hj]
    rw [C26_flux_signals_step]
    by_cases h : fluxOver inst cbs ops
    · refine ⟨k, by simp; omega, ?_, ?_, ?_⟩
      · rw [if_pos h, List.append_nil, hs, tk k hk]
      · intro j hj; rw [tk j (by omega)]; exact hn j hj
      · right
        rw [tk k hk]
        rcases ho with rfl | ho
        · rw [List.take_length]; exact h
        · exact ho
    · have hk' : k = ops.length := by
        rcases ho with e | ho
        · exact e
        · exfalso
          apply h
          -- over at k implies over at the end
          have : ∀ d, k + d ≤ ops.length → fluxOver inst cbs (ops.take (k + d)) := by
            intro d
            induction d with
            | zero => intro _; exact ho
            | succ d ih =>
              intro hd
              have := over_mono inst cbs _ ops[k + d] (ih (by omega))
              rw [← Nat.add_assoc, List.take_succ_eq_append_getElem (by omega)]
              exact this
          have := this (ops.length - k) (by omega)
          rwa [show k + (ops.length - k) = ops.length by omega, List.take_length] at this
      subst hk'
      rw [List.take_length] at hs
      refine ⟨ops.length + 1, by simp, ?_, ?_, by simp⟩
      · rw [if_neg h, hs, List.take_of_length_le (by simp)]; simp
      · intro j hj
        rw [tk j (by omega)]
        by_cases hj' : j < ops.length
        · exact hn j hj'
        · rw [List.take_of_length_le (by omega)]; exact h

/-- C26: zero or more OnNext, then at most one OnComplete or OnError, then nothing. -/
theorem C26_flux_grammar (inst : Flux.Installed) (cbs : List Nat) (ops : List (Op T)) :
    ∃ (vs : List T) (t : List (Flux.Ev T)),
      fluxSignals (Flux.run inst cbs ops).2 = vs.map .next ++ t ∧
      (t = [] ∨ t = [.complete] ∨ ∃ e, t = [.error e]) := by
  suffices h : (∃ (vs : List T) (t : List (Flux.Ev T)),
      fluxSignals (Flux.run inst cbs ops).2 = vs.map .next ++ t ∧
      (t = [] ∨ (fluxOver inst cbs ops ∧ (t = [.complete] ∨ ∃ e, t = [.error e])))) by
    obtain ⟨vs, t, h, h'⟩ := h
    exact ⟨vs, t, h, h'.imp id (·.2)⟩
  induction ops using mono_snoc_induction with
  | nil => exact ⟨[], [], rfl, Or.inl rfl⟩
  | snoc ops op ih =>
    obtain ⟨vs, t, h, ht⟩ := ih
    rw [C26_flux_signals_step, h]
    by_cases ho : fluxOver inst cbs ops
    · rw [if_pos ho]
      exact ⟨vs, t, by simp, ht.imp id (fun x => ⟨over_mono _ _ _ _ ho, x.2⟩)⟩
    · rw [if_neg ho]
      have ht : t = [] := ht.resolve_right (fun x => ho x.1)
      subst ht
      cases op with
      | next v a b =>
        cases hn : inst.onNext
        · exact ⟨vs, [], by simp [fluxExpected, hn], Or.inl rfl⟩
        · exact ⟨vs ++ [v], [], by simp [fluxExpected, hn], Or.inl rfl⟩
      | complete a =>
        cases hn : inst.onComplete
        · exact ⟨vs, [], by simp [fluxExpected, hn], Or.inl rfl⟩
        · exact ⟨vs, [.complete], by simp [fluxExpected, hn],
            Or.inr ⟨Or.inl ⟨.complete a, by simp, rfl⟩, Or.inl rfl⟩⟩
      | error e a =>
        cases hn : inst.onError
        · exact ⟨vs, [], by simp [fluxExpected, hn], Or.inl rfl⟩
        · exact ⟨vs, [.error e], by simp [fluxExpected, hn],
            Or.inr ⟨Or.inl ⟨.error e a, by simp, rfl⟩, Or.inr ⟨e, rfl⟩⟩⟩
      | _ => exact ⟨vs, [], by simp [fluxExpected], Or.inl rfl⟩

example : fluxSignals (Flux.run ⟨true, true, true, false, true, false⟩ []
    ([.onSubscribe true, .start [], .next 1 [] [], .next 2 [.cancel] [], .next 3 [] [],
      .complete []] : List (Op Nat))).2 = [.next 1, .next 2] := by decide

/-! ## C27 -/

/-- The source ends the stream before any cancellation. -/
def sourceEnds (inst : Flux.Installed) (cbs : List Nat) (ops : List (Op T)) : Prop :=
  ∃ a op b, ops = a ++ op :: b ∧ isTerminal op = true ∧ .cancelled ∉ (Flux.run inst cbs a).2

/-- The completion callbacks registered over a history. -/
def fluxRegistered (cbs : List Nat) (ops : List (Op T)) : List Nat :=
  cbs ++ ops.filterMap fun | .notify cb => some cb | _ => none

/-- C27 as stated in English: once the stream is over, Finally and each registered completion
callback have been called exactly once. -/
def C27_statement (T : Type) : Prop :=
  ∀ (inst : Flux.Installed) (cbs : List Nat) (ops : List (Op T)), fluxOver inst cbs ops →
    (inst.fin = true → finCount (Flux.run inst cbs ops).2 = 1) ∧
    ((fluxNotifications (Flux.run inst cbs ops).2).map (·.1)).Perm (fluxRegistered cbs ops)

/-- C27 fails: cancelling twice (or cancelling a completed stream) calls Finally again. -/
theorem C27_finally_once_violated : ¬ C27_statement Nat := by
  intro h
  have := (h ⟨true, true, true, false, true, false⟩ [] [.call .cancel, .call .cancel]
    (Or.inr (by decide))).1 rfl
  revert this; decide

/-- C27: completion callbacks are not called when a stream is cancelled. -/
theorem C27_notify_cancel_violated :
    fluxOver (T := Nat) ⟨true, true, true, false, true, false⟩ [7] [.call .cancel] ∧
    fluxNotifications (Flux.run (T := Nat) ⟨true, true, true, false, true, false⟩ [7]
      [.call .cancel]).2 = [] :=
  ⟨Or.inr (by decide), by decide⟩

open Classical in
/-- C27: Finally is called once per Cancel call, plus once if the source ended the stream before
any of them. So it is called exactly once when exactly one of these happens. Missing: Cancel after
the end, and repeated Cancel. -/
theorem C27_finally_once_partial (inst : Flux.Installed) (cbs : List Nat) (ops : List (Op T))
    (hf : inst.fin = true) :
    finCount (Flux.run inst cbs ops).2 = cancelCount (Flux.run inst cbs ops).2 +
      if sourceEnds inst cbs ops then 1 else 0 := by
  induction ops using mono_snoc_induction with
  | nil =>
    rw [if_neg]
    · rfl
    · rintro ⟨a, op, b, h, -⟩
      simp at h
  | snoc ops op ih =>
    have s := flux_step_spec (Flux.run inst cbs ops).1 op
    have st := flux_state inst cbs ops
    rw [flux_run_snoc, finCount_append, cancelCount_append, ih, s.fins, st.1, if_pos hf]
    have key : (if sourceEnds inst cbs (ops ++ [op]) then 1 else 0) =
        (if sourceEnds inst cbs ops then 1 else 0) +
        (if (Flux.run inst cbs ops).1.closed = false ∧ isTerminal op = true then 1 else 0) := by
      by_cases h1 : sourceEnds inst cbs ops
      · have h2 : sourceEnds inst cbs (ops ++ [op]) := by
          obtain ⟨a, o, b, h, ht, hc⟩ := h1
          exact ⟨a, o, b ++ [op], by simp [h], ht, hc⟩
        have h3 : ¬ ((Flux.run inst cbs ops).1.closed = false ∧ isTerminal op = true) := by
          rintro ⟨h, -⟩
          obtain ⟨a, o, b, h', ht, hc⟩ := h1
          have := st.2.mpr (Or.inl ⟨o, by simp [h'], ht⟩)
          rw [h] at this; cases this
        rw [if_pos h1, if_pos h2, if_neg h3]
      · by_cases h3 : (Flux.run inst cbs ops).1.closed = false ∧ isTerminal op = true
        · have h2 : sourceEnds inst cbs (ops ++ [op]) := by
            refine ⟨ops, op, [], rfl, h3.2, ?_⟩
            intro hc
            have := st.2.mpr (Or.inr hc)
            rw [h3.1] at this; cases this
          rw [if_neg h1, if_pos h2, if_pos h3]
        · have h2 : ¬ sourceEnds inst cbs (ops ++ [op]) := by
            rintro ⟨a, o, b, h, ht, hc⟩
            rcases List.eq_nil_or_concat b with rfl | ⟨b', x, rfl⟩
            · have := List.append_inj' h rfl
              obtain ⟨rfl, h'⟩ := this
              simp at h'; subst h'
              apply h3
              refine ⟨?_, ht⟩
              cases hcl : (Flux.run inst cbs ops).1.closed with
              | false => rfl
              | true =>
                rcases st.2.mp hcl with ⟨o', ho', ht'⟩ | hh
                · exfalso
                  -- an earlier terminal exists: take the first
                  apply h1
                  obtain ⟨a', b', hab⟩ := List.append_of_mem ho'
                  refine ⟨a', o', b', hab, ht', ?_⟩
                  intro hc'
                  apply hc
                  rw [hab, Flux.run, flux_runFrom_append]
                  simp only [List.mem_append]
                  exact Or.inl hc'
                · exact absurd hh hc
            · apply h1
              rw [List.concat_eq_append, ← List.cons_append, ← List.append_assoc] at h
              have := (List.append_inj' h rfl).1
              exact ⟨a, o, b', this, ht, hc⟩
          rw [if_neg h1, if_neg h2, if_neg h3]
    rw [key]; omega

/-- The first terminal signal of a history. -/
def firstTerminal : List (Op T) → Option Signal
  | [] => none
  | .complete _ :: _ => some .complete
  | .error .. :: _ => some .error
  | _ :: r => firstTerminal r

/-- What one step does to the completion callbacks, without Cancel. -/
theorem step_notes (m : State) (op : Op T) (hc : cancelCount (Flux.step m op).2 = 0) :
    match op with
    | .notify cb => if m.closed then
          (Flux.step m op).1 = m ∧ fluxNotifications (Flux.step m op).2 = [(cb, m.signal)]
        else (Flux.step m op).1.callbacks = m.callbacks ++ [cb] ∧
          fluxNotifications (Flux.step m op).2 = []
    | _ => (Flux.step m op).1.callbacks = m.callbacks ∧
        (if m.closed = false ∧ isTerminal op = true then
          fluxNotifications (Flux.step m op).2 =
            m.callbacks.map (·, (Flux.step m op).1.signal) ∧
          some (Flux.step m op).1.signal = firstTerminal [op]
        else fluxNotifications (Flux.step m op).2 = [] ∧ (Flux.step m op).1.signal = m.signal) := by
  cases op with
  | notify cb =>
    simp only [Flux.step, Flux.notify]
    cases m.closed <;> simp [fluxNotifications]
  | start a =>
    have q := quiet_handle (T := T) m a
    simp only [isTerminal]
    exact ⟨q.cbs, by simp; exact ⟨q.notes, q.sig⟩⟩
  | call c =>
    have q := quiet_call (T := T) m c
    simp only [isTerminal]
    exact ⟨q.cbs, by simp; exact ⟨q.notes, q.sig⟩⟩
  | onSubscribe c =>
    simp only [Flux.step, isTerminal]
    split
    · simp [fluxNotifications]
    · rename_i hcl
      simp only [Bool.false_eq_true, and_false, if_false]
      refine ⟨trivial, ?_, trivial⟩
      split <;> rfl
  | next v a b =>
    simp only [Flux.step, Flux.next, isTerminal]
    split
    · simp [fluxNotifications]
    · have key : ∀ r : State × List (Flux.Ev T),
          r = (Flux.onNext { m with n := m.n - 1 } v a) →
          r.1.callbacks = m.callbacks ∧ fluxNotifications r.2 = [] ∧ r.1.signal = m.signal := by
        intro r hr
        have q := quiet_calls (T := T) { m with n := m.n - 1 } a
        unfold Flux.onNext at hr
        simp only at hr
        rcases Bool.eq_false_or_eq_true m.inst.onNext with ho | ho
        · rw [ho, if_pos rfl] at hr
          subst hr
          exact ⟨q.cbs, (count_cons (Flux.Ev.next v) _ rfl).2.2.trans q.notes, q.sig⟩
        · rw [ho] at hr
          simp only [Bool.false_eq_true, if_false] at hr
          subst hr
          exact ⟨rfl, rfl, rfl⟩
      split
      · have k := key _ rfl
        have q := quiet_handle (T := T) (Flux.onNext { m with n := m.n - 1 } v a).1 b
        refine ⟨q.cbs.trans k.1, ?_⟩
        simp only [Bool.false_eq_true, and_false, if_false]
        refine ⟨?_, q.sig.trans k.2.2⟩
        rw [fluxNotifications_append, q.notes, k.2.1]; rfl
      · have k := key _ rfl
        refine ⟨k.1, ?_⟩
        simp only [Bool.false_eq_true, and_false, if_false]
        exact k.2
  | complete a =>
    simp only [Flux.step, Flux.complete, isTerminal]
    split
    · rename_i h; simp [h, fluxNotifications]
    · rename_i h
      have h : m.closed = false := by simpa using h
      have q := quiet_calls (T := T) { m with closed := true } a
      simp only [h, and_self, if_true]
      rcases Bool.eq_false_or_eq_true m.inst.onComplete with ho | ho
      · simp only [ho, if_true]
        have f := finally_spec (T := T) (calls (T := T) { m with closed := true } a).1 .complete
        refine ⟨q.cbs, ?_, rfl⟩
        rw [fluxNotifications_append, (count_cons Flux.Ev.complete _ rfl).2.2, q.notes, f.2.2.2,
          q.cbs]; rfl
      · simp only [ho, Bool.false_eq_true, if_false, List.nil_append]
        exact ⟨rfl, (finally_spec (T := T) { m with closed := true } .complete).2.2.2, rfl⟩
  | error e a =>
    simp only [Flux.step, Flux.error, isTerminal]
    split
    · rename_i h; simp [h, fluxNotifications]
    · rename_i h
      have h : m.closed = false := by simpa using h
      have q := quiet_calls (T := T) { m with err := e, closed := true } a
      simp only [h, and_self, if_true]
      rcases Bool.eq_false_or_eq_true m.inst.onError with ho | ho
      · simp only [ho, if_true]
        have f := finally_spec (T := T) (calls (T := T) { m with err := e, closed := true } a).1 .error
        refine ⟨q.cbs, ?_, rfl⟩
        rw [fluxNotifications_append, (count_cons (Flux.Ev.error e) _ rfl).2.2, q.notes, f.2.2.2,
          q.cbs]; rfl
      · simp only [ho, Bool.false_eq_true, if_false, List.nil_append]
        exact ⟨rfl, (finally_spec (T := T) { m with err := e, closed := true } .error).2.2.2, rfl⟩

theorem firstTerminal_append (a b : List (Op T)) :
    firstTerminal (a ++ b) = (firstTerminal a).or (firstTerminal b) := by
  induction a with
  | nil => rfl
  | cons o a ih => cases o <;> simp [firstTerminal, ih]

theorem firstTerminal_none (a : List (Op T)) :
    firstTerminal a = none ↔ ∀ op ∈ a, isTerminal op = false := by
  induction a with
  | nil => simp [firstTerminal]
  | cons o a ih => cases o <;> simp [firstTerminal, ih, isTerminal]

/-- C27: without Cancel, each completion callback is called exactly once, in the order of
registration, with the signal that ended the stream; before the end none is called. Missing:
cancelled streams. -/
theorem C27_notify_once_partial (inst : Flux.Installed) (cbs : List Nat) (ops : List (Op T))
    (hc : .cancelled ∉ (Flux.run inst cbs ops).2) :
    fluxNotifications (Flux.run inst cbs ops).2 =
      match firstTerminal ops with
      | none => []
      | some s => (fluxRegistered cbs ops).map (·, s) := by
  suffices h : fluxNotifications (Flux.run inst cbs ops).2 =
      (match firstTerminal ops with
      | none => []
      | some s => (fluxRegistered cbs ops).map (·, s)) ∧
      (firstTerminal ops = none → (Flux.run inst cbs ops).1.callbacks = fluxRegistered cbs ops) ∧
      (∀ s, firstTerminal ops = some s → (Flux.run inst cbs ops).1.signal = s) from h.1
  induction ops using mono_snoc_induction with
  | nil => exact ⟨rfl, fun _ => by simp [Flux.run, Flux.runFrom, State.init, fluxRegistered],
      by simp [firstTerminal]⟩
  | snoc ops op ih =>
    rw [flux_run_snoc] at hc
    simp only [List.mem_append, not_or] at hc
    obtain ⟨ih1, ih2, ih3⟩ := ih hc.1
    have hcs : cancelCount (Flux.step (Flux.run inst cbs ops).1 op).2 = 0 := by
      have := hc.2; rw [cancelled_mem_iff] at this; omega
    have sn := step_notes (Flux.run inst cbs ops).1 op hcs
    have hcl : (Flux.run inst cbs ops).1.closed = true ↔ firstTerminal ops ≠ none := by
      rw [(flux_state inst cbs ops).2, fluxOver, Ne, firstTerminal_none]
      constructor
      · rintro (⟨o, ho, ht⟩ | h)
        · intro h; rw [h o ho] at ht; cases ht
        · exact absurd h hc.1
      · intro h
        left
        apply Classical.byContradiction
        intro h'
        apply h
        intro o ho
        cases hh : isTerminal o with
        | false => rfl
        | true => exact absurd ⟨o, ho, hh⟩ h'
    rw [flux_run_snoc, fluxNotifications_append, firstTerminal_append]
    have hreg : fluxRegistered cbs (ops ++ [op]) = fluxRegistered cbs ops ++
        match op with | .notify cb => [cb] | _ => [] := by
      cases op <;> simp [fluxRegistered]
    cases op with
    | notify cb =>
      simp only at sn hreg
      rw [hreg]
      cases hf : firstTerminal ops with
      | none =>
        have hcl' : (Flux.run inst cbs ops).1.closed = false := by
          cases h : (Flux.run inst cbs ops).1.closed with
          | false => rfl
          | true => exact absurd hf (hcl.mp h)
        rw [hcl'] at sn
        simp only [Bool.false_eq_true, if_false] at sn
        rw [hf] at ih1
        refine ⟨by rw [ih1, sn.2]; rfl, fun _ => by rw [sn.1, ih2 hf], by simp [firstTerminal]⟩
      | some s =>
        have hcl' : (Flux.run inst cbs ops).1.closed = true := hcl.mpr (by simp [hf])
        rw [hcl'] at sn
        simp only [if_true] at sn
        rw [hf] at ih1
        have hs := ih3 s hf
        refine ⟨?_, by simp, ?_⟩
        · rw [ih1, sn.2, hs]; simp
        · intro s' h'; rw [sn.1]; simp at h'; rw [hs, h']
    | _ =>
      simp only at sn hreg
      rw [hreg, List.append_nil]
      cases hf : firstTerminal ops with
      | none =>
        have hcl' : (Flux.run inst cbs ops).1.closed = false := by
          cases h : (Flux.run inst cbs ops).1.closed with
          | false => rfl
          | true => exact absurd hf (hcl.mp h)
        rw [hcl'] at sn
        rw [hf] at ih1
        simp only [true_and, isTerminal, Bool.false_eq_true, if_false, if_true] at sn
        simp only [Option.none_or]
        first
        | (rw [← sn.2.2]
           refine ⟨by rw [ih1, sn.2.1, ih2 hf]; rfl, by simp, fun s h => by simpa using h⟩)
        | (refine ⟨by rw [ih1, sn.2.1]; rfl, fun _ => by rw [sn.1, ih2 hf], by simp [firstTerminal]⟩)
      | some s =>
        have hcl' : (Flux.run inst cbs ops).1.closed = true := hcl.mpr (by simp [hf])
        rw [hcl'] at sn
        rw [hf] at ih1
        simp only [Bool.true_eq_false, false_and, if_false] at sn
        refine ⟨by rw [ih1, sn.2.1]; simp, by simp, ?_⟩
        intro s' h'
        rw [sn.2.2, ih3 s hf]; simpa using h'

example : Flux.Ev.cancelled ∉ (Flux.run ⟨true, true, true, false, true, false⟩ [7]
      ([.next 1 [] [], .notify 8, .error (some "x") [], .notify 9] : List (Op Nat))).2 ∧
    fluxNotifications (Flux.run ⟨true, true, true, false, true, false⟩ [7]
      ([.next 1 [] [], .notify 8, .error (some "x") [], .notify 9] : List (Op Nat))).2 =
      [(7, .error), (8, .error), (9, .error)] := by decide

/-! ## C28 -/

/-- The callbacks (signals and Finally) of a subscriber. -/
def fluxCallbacks (t : List (Flux.Ev T)) : List (Flux.Ev T) :=
  t.filter fun
    | .next _ => true | .complete => true | .error _ => true | .fin _ => true | _ => false

/-- What the subscriber of a mapped stream is to see, given what a subscriber of the source would
see: values mapped, up to the first failure, which ends the stream. -/
def mapSpec {D : Type} (f : Transform T D) (inst : Flux.Installed) :
    List (Flux.Ev T) → List (Flux.Ev D)
  | [] => []
  | .next v :: r =>
    match f v with
    | .ok d => (if inst.onNext then [.next d] else []) ++ mapSpec f inst r
    | .error e => (if inst.onError then [.error (some e)] else []) ++
        (if inst.fin then [.fin .error] else [])
  | .complete :: r => .complete :: mapSpec f inst r
  | .error e :: r => .error e :: mapSpec f inst r
  | .fin s :: r => .fin s :: mapSpec f inst r
  | _ :: r => mapSpec f inst r

/-- What the code shows to the subscriber of a mapped stream. -/
def mappedTrace {D : Type} (f : Transform T D) (inst : Flux.Installed) (cbs : List Nat)
    (ops : List (Op T)) : List (Flux.Ev D) :=
  (Flux.run (Flux.mapInstalled inst) cbs ops).2.flatMap (Flux.mapEv f inst)

/-- C28 as stated in English. -/
def C28_statement (T D : Type) : Prop :=
  ∀ (f : Transform T D) (inst : Flux.Installed) (cbs : List Nat) (ops : List (Op T)),
    fluxCallbacks (mappedTrace f inst cbs ops) =
      mapSpec f inst (Flux.run (Flux.mapInstalled inst) cbs ops).2

/-- C28 fails: after a failing transform the stream goes on: more elements, and Finally again. -/
theorem C28_map_violated : ¬ C28_statement Nat Nat := by
  intro h
  have := h (fun n => if n = 1 then .error "one" else .ok n) ⟨true, true, true, false, true, false⟩ []
    [.next 1 [] [], .next 2 [] [], .complete []]
  revert this; decide

theorem fluxCallbacks_append (a b : List (Flux.Ev T)) :
    fluxCallbacks (a ++ b) = fluxCallbacks a ++ fluxCallbacks b := by simp [fluxCallbacks]

theorem mapSpec_quiet {D : Type} (f : Transform T D) (inst : Flux.Installed)
    (t : List (Flux.Ev T)) (h : fluxCallbacks t = []) : mapSpec f inst t = [] := by
  induction t with
  | nil => rfl
  | cons y t ih =>
    cases y <;> first
      | (exfalso; revert h; simp [fluxCallbacks]; done)
      | (simp only [mapSpec]; exact ih h)

/-- C28 up to and including the first failure: if the transform succeeds on every value the source
delivers, or fails only on the last event of the source, the subscriber sees what it should.
Missing: the stream is not ended by the failure, later source events still arrive. -/
theorem C28_map_partial {D : Type} (f : Transform T D) (inst : Flux.Installed) (cbs : List Nat)
    (ops : List (Op T))
    (hf : ∀ a v b e, (Flux.run (Flux.mapInstalled inst) cbs ops).2 = a ++ .next v :: b →
      f v = .error e → fluxCallbacks b = []) :
    fluxCallbacks (mappedTrace f inst cbs ops) =
      mapSpec f inst (Flux.run (Flux.mapInstalled inst) cbs ops).2 := by
  unfold mappedTrace
  generalize (Flux.run (Flux.mapInstalled inst) cbs ops).2 = t at hf
  induction t with
  | nil => rfl
  | cons x t ih =>
    have ih := ih (fun a v b e h => hf (x :: a) v b e (by simp [h]))
    rw [List.flatMap_cons, fluxCallbacks_append, ih]
    cases x with
    | next v =>
      simp only [Flux.mapEv, mapSpec]
      cases hv : f v with
      | ok d => cases inst.onNext <;> simp [fluxCallbacks]
      | error e =>
        have hb := hf [] v t e rfl hv
        have : mapSpec f inst t = [] := mapSpec_quiet f inst t hb
        rw [this]
        cases inst.onError <;> cases inst.fin <;> simp [fluxCallbacks]
    | _ => simp [Flux.mapEv, mapSpec, fluxCallbacks]

example : ∀ a v b e, (Flux.run (Flux.mapInstalled ⟨true, true, true, false, true, false⟩) []
      ([.next 5 [] [], .next 1 [] []] : List (Op Nat))).2 = a ++ .next v :: b →
      (fun n : Nat => (if n = 1 then .error "one" else .ok n : Except String Nat)) v = .error e →
      fluxCallbacks b = [] := by
  intro a v b e h he
  have ht : (Flux.run (Flux.mapInstalled ⟨true, true, true, false, true, false⟩) []
      ([.next 5 [] [], .next 1 [] []] : List (Op Nat))).2 = [.next 5, .next 1] := by decide
  rw [ht] at h
  have hv : v = 1 := by
    apply Classical.byContradiction; intro hn; simp [hn] at he
  subst hv
  match a, h with
  | [], h => simp at h
  | [_], h => simp at h; rw [h.2]; rfl
  | _ :: _ :: a, h => simp at h

/-! ## C32 -/

/-- C32: a mono turned into a stream: one element and completion, or the error, or nothing yet. The
mono is any mono made with `Create` or a processor, the adapter's subscription being number `i`. -/
theorem C32_mono_to_flux (mops : List (Mono.Op T)) (i : Nat) (inst : Flux.Installed)
    (cbs : List Nat) (a b c d : List Call)
    (hi : (subscriptions mops)[i]? = some Flux.monoToFluxInstalled)
    (hn : inst.onNext = true) (hc : inst.onComplete = true) (he : inst.onError = true)
    (hcancel : Call.cancel ∉ a ∧ Call.cancel ∉ b) :
    fluxSignals (Flux.run inst cbs
        ((eventsOf i (Mono.run mops).2).flatMap (Flux.monoToFlux a b c d))).2 =
      match signalsTo i 0 mops with
      | .success v :: _ => [.next v, .complete]
      | .error e :: _ => [.error e]
      | _ => [] := by
  rw [C22_mono_outcome_partial.1 mops i _ hi]
  cases hs : signalsTo i 0 mops with
  | nil => rfl
  | cons x l =>
    cases x with
    | success v =>
      have h1 := C26_flux_signals_step inst cbs ([.next v a b] : List (Op T)) (.complete c)
      have h2 := C26_flux_signals_step inst cbs ([] : List (Op T)) (.next v a b)
      have hno : ∀ (m : State) (l : List Call), Call.cancel ∉ l →
          cancelCount (calls (T := T) m l).2 = 0 := by
        intro m l
        induction l generalizing m with
        | nil => intro _; rfl
        | cons x l ih =>
          intro h
          simp only [List.mem_cons, not_or] at h
          simp only [calls, cancelCount_append, ih _ h.2]
          cases x with
          | request k => simp only [call]; split <;> rfl
          | cancel => exact absurd rfl h.1
      have ho : ¬ fluxOver inst cbs ([.next v a b] : List (Op T)) := by
        rintro (⟨o, ho, ht⟩ | h)
        · simp at ho; subst ho; cases ht
        · rw [cancelled_mem_iff] at h
          apply h
          simp only [Flux.run, Flux.runFrom, Flux.step, Flux.next, Flux.onNext, State.init, List.append_nil,
            Bool.false_eq_true, if_false, hn, if_true]
          split
          · rw [cancelCount_append, (count_cons (Flux.Ev.next v) _ rfl).2.1, hno _ _ hcancel.1,
              Nat.zero_add, handleOnSubscribe]
            split
            · rfl
            · split
              · exact hno _ _ hcancel.2
              · simp only [call]; split <;> rfl
          · simp only; rw [(count_cons (Flux.Ev.next v) _ rfl).2.1, hno _ _ hcancel.1]
      rw [if_neg ho] at h1
      rw [if_neg (by rintro (⟨o, ho, -⟩ | h); · cases ho
                     · cases h)] at h2
      simp only [List.nil_append] at h2
      simp only [outcome, Flux.monoToFluxInstalled, if_true, Bool.false_eq_true, if_false,
        List.append_nil, List.flatMap_cons, List.flatMap_nil, Flux.monoToFlux]
      rw [show ([.next v a b, .complete c] : List (Op T)) = [.next v a b] ++ [.complete c] from rfl,
        h1, h2]
      simp [fluxExpected, hn, hc, Flux.run, Flux.runFrom, fluxSignals]
    | error e =>
      have h2 := C26_flux_signals_step inst cbs ([] : List (Op T)) (.error e d)
      rw [if_neg (by rintro (⟨o, ho, -⟩ | h); · cases ho
                     · cases h)] at h2
      simp only [List.nil_append] at h2
      simp only [outcome, Flux.monoToFluxInstalled, if_true, Bool.false_eq_true, if_false,
        List.append_nil, List.flatMap_cons, List.flatMap_nil, Flux.monoToFlux]
      rw [h2]
      simp [fluxExpected, he, Flux.run, Flux.runFrom, fluxSignals]
    | cancel =>
      simp [outcome, Flux.monoToFluxInstalled, Flux.run, Flux.runFrom, fluxSignals]

/-- The signals of a source as a stream subscriber of the adapter sees them: up to the end. -/
def untilEnd : List (Op T) → List (Op T)
  | [] => []
  | op :: r => if isTerminal op then [op] else op :: untilEnd r

/-- A mono that is sent these signals tells its (only) subscriber this. -/
def monoSees (sigs : List (Mono.Sig T)) (inst : Mono.Installed) : List (Mono.Ev T) :=
  eventsOf 0 (Mono.run (.subscribe inst :: sigs.map fun s => .signal 0 s [] [])).2

theorem monoSees_eq (sigs : List (Mono.Sig T)) (inst : Mono.Installed) :
    monoSees sigs inst = outcome 0 inst sigs := by
  unfold monoSees
  rw [C22_mono_outcome_partial.1 _ 0 inst (by simp [subscriptions])]
  congr 1
  simp only [signalsTo]
  induction sigs with
  | nil => rfl
  | cons s l ih => simp [signalsTo, ih]

theorem adapter_signals (inst : Flux.Installed) (cbs : List Nat) (ops : List (Op T))
    (hno : ∀ op ∈ ops, match op with
      | .next _ a b => a = [] ∧ b = []
      | .complete a => a = []
      | .error _ a => a = []
      | .start a => a = []
      | .call c => c ≠ .cancel
      | _ => True) :
    fluxSignals (Flux.run inst cbs ops).2 = (untilEnd ops).flatMap (fluxExpected inst) := by
  have nc : ∀ ops : List (Op T), (∀ op ∈ ops, match op with
      | .next _ a b => a = [] ∧ b = []
      | .complete a => a = []
      | .error _ a => a = []
      | .start a => a = []
      | .call c => c ≠ .cancel
      | _ => True) → cancelCount (Flux.run inst cbs ops).2 = 0 := by
    have hh : ∀ m : State, cancelCount (handleOnSubscribe (T := T) m []).2 = 0 := by
      intro m
      unfold handleOnSubscribe
      split
      · rfl
      · split
        · rfl
        · simp only [call]; split <;> rfl
    intro ops
    induction ops using mono_snoc_induction with
    | nil => intro _; rfl
    | snoc ops op ih =>
      intro h
      rw [flux_run_snoc, cancelCount_append, ih (fun o ho => h o (by simp [ho])), Nat.zero_add]
      have hop := h op (by simp)
      generalize (Flux.run inst cbs ops).1 = m
      cases op with
      | next v a b =>
        obtain ⟨rfl, rfl⟩ := hop
        have hn : ∀ m' : State, cancelCount (Flux.onNext m' v []).2 = 0 := by
          intro m'; simp only [Flux.onNext, calls]; split <;> rfl
        simp only [Flux.step, Flux.next]
        split
        · rfl
        · split
          · simp only; rw [cancelCount_append, hh, hn]
          · exact hn _
      | complete a =>
        subst hop
        simp only [Flux.step, Flux.complete, calls]
        split
        · rfl
        · simp only [cancelCount_append]
          rw [(finally_spec _ _).2.2.1]; split <;> rfl
      | error e a =>
        subst hop
        simp only [Flux.step, Flux.error, calls]
        split
        · rfl
        · simp only [cancelCount_append]
          rw [(finally_spec _ _).2.2.1]; split <;> rfl
      | start a => subst hop; exact hh m
      | call c =>
        cases c with
        | request k => simp only [Flux.step, call]; split <;> rfl
        | cancel => exact absurd rfl hop
      | notify cb => simp only [Flux.step, Flux.notify]; split <;> rfl
      | onSubscribe c =>
        simp only [Flux.step]
        split
        · rfl
        · simp only; split <;> rfl
  have over_iff : ∀ ops : List (Op T), (∀ op ∈ ops, match op with
      | .next _ a b => a = [] ∧ b = []
      | .complete a => a = []
      | .error _ a => a = []
      | .start a => a = []
      | .call c => c ≠ .cancel
      | _ => True) → (fluxOver inst cbs ops ↔ ∃ op ∈ ops, isTerminal op = true) := by
    intro ops h
    rw [fluxOver, cancelled_mem_iff, nc ops h]; simp
  induction ops using mono_snoc_induction with
  | nil => rfl
  | snoc ops op ih =>
    have h' : ∀ o ∈ ops, _ := fun o ho => hno o (List.mem_append_left [op] ho)
    rw [C26_flux_signals_step, ih h']
    have key : ∀ l : List (Op T), untilEnd (l ++ [op]) =
        if (∃ o ∈ l, isTerminal o = true) then untilEnd l else untilEnd l ++ [op] := by
      intro l
      induction l with
      | nil => simp [untilEnd]
      | cons x l ih =>
        cases hx : isTerminal x with
        | true => simp [untilEnd, hx]
        | false =>
          simp only [List.cons_append, untilEnd, hx, ih, Bool.false_eq_true, if_false,
            List.mem_cons, exists_eq_or_imp, false_or]
          split <;> rfl
    rw [key]
    by_cases ho : fluxOver inst cbs ops
    · rw [if_pos ho, if_pos ((over_iff ops h').mp ho)]; simp
    · rw [if_neg ho, if_neg (fun h => ho ((over_iff ops h').mpr h))]; simp

/-- A source history in which nobody cancels; the adapters make no calls of their own. -/
def adapterOp : Op T → Prop
  | .next _ a b => a = [] ∧ b = []
  | .complete a => a = []
  | .error _ a => a = []
  | .start a => a = []
  | .call c => c ≠ .cancel
  | _ => True

/-- The first element or error of a source history, unless it completes before. -/
def firstElement : List (Op T) → List (Mono.Sig T)
  | [] => []
  | .next v _ _ :: _ => [.success v]
  | .error e _ :: _ => [.error e]
  | .complete _ :: _ => []
  | _ :: r => firstElement r

/-- How a source history ends. -/
def ending : List (Op T) → List (Mono.Sig Unit)
  | [] => []
  | .complete _ :: _ => [.success ()]
  | .error e _ :: _ => [.error e]
  | _ :: r => ending r

/-- C32: a stream turned into a mono succeeds with the stream's first element, or fails with its
error if that comes first. -/
theorem C32_flux_to_mono (ops : List (Op T)) (cbs : List Nat) (hno : ∀ op ∈ ops, adapterOp op)
    (inst : Mono.Installed) :
    monoSees ((fluxSignals (Flux.run Flux.fluxToMonoInstalled cbs ops).2).flatMap Flux.fluxToMono)
      inst = outcome 0 inst (firstElement ops) := by
  rw [monoSees_eq, adapter_signals _ _ _ hno]
  clear hno
  induction ops with
  | nil => rfl
  | cons op ops ih =>
    cases op with
    | next v a b =>
      simp [untilEnd, isTerminal, fluxExpected, Flux.fluxToMonoInstalled, Flux.fluxToMono,
        firstElement, outcome]
    | complete a => simp [untilEnd, isTerminal, fluxExpected, Flux.fluxToMonoInstalled,
        firstElement, outcome]
    | error e a => simp [untilEnd, isTerminal, fluxExpected, Flux.fluxToMonoInstalled,
        Flux.fluxToMono, firstElement, outcome]
    | _ => simpa [untilEnd, isTerminal, fluxExpected, firstElement] using ih

/-- C32: a stream turned into a void mono succeeds exactly when the stream completes, and fails
exactly when it fails. -/
theorem C32_flux_to_void (ops : List (Op T)) (cbs : List Nat) (hno : ∀ op ∈ ops, adapterOp op)
    (inst : Mono.Installed) :
    monoSees ((fluxSignals (Flux.run Flux.fluxToVoidInstalled cbs ops).2).flatMap Flux.fluxToVoid)
      inst = outcome 0 inst (ending ops) := by
  rw [monoSees_eq, adapter_signals _ _ _ hno]
  clear hno
  induction ops with
  | nil => rfl
  | cons op ops ih =>
    cases op with
    | complete a => simp [untilEnd, isTerminal, fluxExpected, Flux.fluxToVoidInstalled,
        Flux.fluxToVoid, ending]
    | error e a => simp [untilEnd, isTerminal, fluxExpected, Flux.fluxToVoidInstalled,
        Flux.fluxToVoid, ending]
    | _ => simpa [untilEnd, isTerminal, fluxExpected, ending, Flux.fluxToVoidInstalled] using ih

example : (∀ op ∈ ([.onSubscribe true, .start [], .next 4 [] [], .next 5 [] [], .complete []] :
      List (Op Nat)), adapterOp op) ∧
    monoSees ((fluxSignals (Flux.run Flux.fluxToMonoInstalled [] ([.onSubscribe true, .start [],
      .next 4 [] [], .next 5 [] [], .complete []] : List (Op Nat))).2).flatMap Flux.fluxToMono)
      ⟨true, true, true⟩ = [.success 0 4, .fin 0 .complete] := by
  constructor
  · intro op h; simp at h; rcases h with rfl | rfl | rfl | rfl | rfl <;> simp [adapterOp]
  · decide

end

end Verif.Props
