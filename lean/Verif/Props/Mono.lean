import Verif.Model.Mono
/-
Properties C22, C23, C24, C25: monos.
-/
set_option autoImplicit false
namespace Verif.Props
open Verif Mono

section
variable {T : Type}

/-! ## Specification -/

/-- The subscriptions of a history: which callbacks each one installed. -/
def subscriptions (ops : List (Op T)) : List Installed :=
  ops.filterMap fun | .subscribe i => some i | _ => none

/-- The signals the source sent to subscription `i` (`n` subscriptions exist already). -/
def signalsTo (i : Nat) : Nat → List (Op T) → List (Sig T)
  | _, [] => []
  | n, .subscribe _ :: r => signalsTo i (n + 1) r
  | n, .signal j s _ _ :: r => if j = i ∧ i < n then s :: signalsTo i n r else signalsTo i n r
  | n, .notify _ :: r => signalsTo i n r

/-- What subscription `i` is to see: only the first signal counts; Finally after the outcome,
with the matching signal. -/
def outcome (i : Nat) (inst : Installed) : List (Sig T) → List (Ev T)
  | [] => []
  | .success v :: _ => (if inst.onSuccess then [.success i v] else []) ++
      (if inst.fin then [.fin i .complete] else [])
  | .error e :: _ => (if inst.onError then [.error i e] else []) ++
      (if inst.fin then [.fin i .error] else [])
  | .cancel :: _ => if inst.fin then [.fin i .cancel] else []

/-- The callbacks of subscription `i` in a trace. -/
def eventsOf (i : Nat) (t : List (Ev T)) : List (Ev T) :=
  t.filter fun
    | .success j _ => j = i
    | .error j _ => j = i
    | .fin j _ => j = i
    | .notified .. => false

/-- The value and error `Get` should report after these signals. -/
def recorded : List (Sig T) → Option (Option T × Err)
  | [] => none
  | .success v :: _ => some (some v, none)
  | .error e :: _ => some (none, e)
  | .cancel :: _ => some (none, none)

/-! ## Lemmas -/

theorem mono_snoc_induction {α : Type} {P : List α → Prop} (nil : P [])
    (snoc : ∀ l a, P l → P (l ++ [a])) (l : List α) : P l := by
  have h : ∀ r : List α, P r.reverse := by
    intro r; induction r with
    | nil => exact nil
    | cons a r ih => rw [List.reverse_cons]; exact snoc _ _ ih
  simpa using h l.reverse

theorem runFrom_append (m : State T) (a b : List (Op T)) :
    runFrom m (a ++ b) = ((runFrom (runFrom m a).1 b).1,
      (runFrom m a).2 ++ (runFrom (runFrom m a).1 b).2) := by
  induction a generalizing m with
  | nil => simp [runFrom]
  | cons op a ih => simp [runFrom, ih]

theorem run_snoc_mono (ops : List (Op T)) (op : Op T) :
    run (ops ++ [op]) = ((step (run ops).1 op).1, (run ops).2 ++ (step (run ops).1 op).2) := by
  simp [run, runFrom_append, runFrom]

theorem notify_subs (m : State T) (cb : Nat) : (notify m cb).1.subs = m.subs := by
  unfold notify; cases m.subs.getLast? with
  | none => rfl
  | some s => simp only; split <;> rfl

theorem notify_events (m : State T) (cb i : Nat) : eventsOf i (notify m cb).2 = [] := by
  unfold notify; cases m.subs.getLast? with
  | none => rfl
  | some s => simp only; split <;> rfl

theorem notifyAll_subs (m : State T) (cbs : List Nat) : (notifyAll m cbs).1.subs = m.subs := by
  induction cbs generalizing m with
  | nil => rfl
  | cons cb cbs ih => simp only [notifyAll]; rw [ih, notify_subs]

theorem eventsOf_append (i : Nat) (a b : List (Ev T)) :
    eventsOf i (a ++ b) = eventsOf i a ++ eventsOf i b := by simp [eventsOf]

theorem notifyAll_events (m : State T) (cbs : List Nat) (i : Nat) :
    eventsOf i (notifyAll m cbs).2 = [] := by
  induction cbs generalizing m with
  | nil => rfl
  | cons cb cbs ih => simp only [notifyAll, eventsOf_append, notify_events, ih]; rfl

theorem callbacks_events (l : List Nat) (sig : Signal) (i : Nat) :
    eventsOf i (l.map (Ev.notified (T := T) · sig)) = [] := by
  induction l with
  | nil => rfl
  | cons a l ih => simpa [eventsOf] using ih

theorem doFinally_spec (m : State T) (i : Nat) (s : Mono.Sub T) (sig : Signal) (inner : List Nat) (j : Nat) :
    (doFinally m i s sig inner).1.subs = m.subs.set i { s with signal := sig } ∧
    eventsOf j (doFinally m i s sig inner).2 =
      if j = i ∧ s.inst.fin then [.fin i sig] else [] := by
  unfold doFinally
  cases hf : s.inst.fin with
  | false => simp [callbacks_events]
  | true =>
    simp only [if_true, notifyAll_subs, eventsOf_append, callbacks_events, true_and, and_true,
      List.append_nil]
    rw [show ∀ (e : Ev T) (l : List (Ev T)), e :: l = [e] ++ l from fun _ _ => rfl,
      eventsOf_append, notifyAll_events, List.append_nil]
    by_cases h : j = i
    · subst h; simp [eventsOf]
    · have : ¬ i = j := fun e => h e.symm
      simp [eventsOf, h, this]

/-- The subscriber after a signal. -/
def closeSub (s : Mono.Sub T) : Sig T → Mono.Sub T
  | .success v => { s with value := some v, closed := true, signal := .complete }
  | .error e => { s with err := e, closed := true, signal := .error }
  | .cancel => { s with closed := true, signal := .cancel }

theorem eventsOf_outcomeEvents (j i : Nat) (e : Ev T) (l : List (Ev T)) (h : ∀ i', eventsOf i' l = []) :
    eventsOf j (e :: l) = eventsOf j [e] := by
  rw [show e :: l = [e] ++ l from rfl, eventsOf_append, h, List.append_nil]

theorem signal_spec (m : State T) (i : Nat) (sig : Sig T) (a b : List Nat) (s : Mono.Sub T)
    (hs : m.subs[i]? = some s) (hc : s.closed = false) (j : Nat) :
    (signal m i sig a b).1.subs = m.subs.set i (closeSub s sig) ∧
    eventsOf j (signal m i sig a b).2 = if j = i then outcome i s.inst [sig] else [] := by
  unfold signal
  simp only [hs, hc, Bool.false_eq_true, if_false]
  cases sig with
  | success v =>
    cases ho : s.inst.onSuccess with
    | false =>
      simp only [Bool.false_eq_true, if_false, List.nil_append, ho]
      rw [(doFinally_spec _ _ _ _ _ j).1, (doFinally_spec _ _ _ _ _ j).2]
      refine ⟨by simp [closeSub], ?_⟩
      by_cases h : j = i <;> simp [h, outcome, ho]
    | true =>
      simp only [if_true, ho]
      rw [(doFinally_spec _ _ _ _ _ j).1, eventsOf_append, (doFinally_spec _ _ _ _ _ j).2,
        notifyAll_subs]
      refine ⟨by simp [closeSub], ?_⟩
      rw [eventsOf_outcomeEvents j i _ _ (notifyAll_events _ _)]
      by_cases h : j = i
      · subst h; simp [outcome, ho, eventsOf]
      · have : ¬ i = j := fun e => h e.symm
        simp [h, this, eventsOf]
  | error e =>
    cases ho : s.inst.onError with
    | false =>
      simp only [Bool.false_eq_true, if_false, List.nil_append, ho]
      rw [(doFinally_spec _ _ _ _ _ j).1, (doFinally_spec _ _ _ _ _ j).2]
      refine ⟨by simp [closeSub], ?_⟩
      by_cases h : j = i <;> simp [h, outcome, ho]
    | true =>
      simp only [if_true, ho]
      rw [(doFinally_spec _ _ _ _ _ j).1, eventsOf_append, (doFinally_spec _ _ _ _ _ j).2,
        notifyAll_subs]
      refine ⟨by simp [closeSub], ?_⟩
      rw [eventsOf_outcomeEvents j i _ _ (notifyAll_events _ _)]
      by_cases h : j = i
      · subst h; simp [outcome, ho, eventsOf]
      · have : ¬ i = j := fun e => h e.symm
        simp [h, this, eventsOf]
  | cancel =>
    rw [(doFinally_spec _ _ _ _ _ j).1, (doFinally_spec _ _ _ _ _ j).2]
    refine ⟨by simp [closeSub], ?_⟩
    by_cases h : j = i <;> simp [h, outcome]

theorem signal_closed (m : State T) (i : Nat) (sig : Sig T) (a b : List Nat)
    (h : m.subs[i]? = none ∨ ∃ s, m.subs[i]? = some s ∧ s.closed = true) :
    signal m i sig a b = (m, []) := by
  unfold signal
  rcases h with h | ⟨s, h, hc⟩
  · rw [h]
  · rw [h]; simp [hc]

theorem signalsTo_snoc (i : Nat) (op : Op T) : ∀ (ops : List (Op T)) (n : Nat),
    signalsTo i n (ops ++ [op]) = signalsTo i n ops ++
      match op with
      | .signal j s _ _ => if j = i ∧ i < n + (subscriptions ops).length then [s] else []
      | _ => [] := by
  intro ops
  induction ops with
  | nil =>
    intro n
    cases op with
    | signal j s a b =>
      simp only [List.nil_append, signalsTo, subscriptions, List.filterMap_nil, List.length_nil,
        Nat.add_zero]
      by_cases h : j = i ∧ i < n <;> simp only [h, if_true, if_false]
    | subscribe => rfl
    | notify => rfl
  | cons o ops ih =>
    intro n
    cases o with
    | subscribe x =>
      simp only [List.cons_append, signalsTo, ih]
      have : (subscriptions (Op.subscribe x :: ops)).length = (subscriptions ops).length + 1 := by
        simp [subscriptions]
      rw [this]
      cases op with
      | signal j s a b => simp only; rw [show n + 1 + (subscriptions ops).length =
          n + ((subscriptions ops).length + 1) by omega]
      | subscribe => rfl
      | notify => rfl
    | signal j s a b =>
      simp only [List.cons_append, signalsTo, ih]
      have : subscriptions (Op.signal j s a b :: ops) = subscriptions ops := by simp [subscriptions]
      rw [this]
      split <;> simp
    | notify cb =>
      simp only [List.cons_append, signalsTo, ih]
      have : subscriptions (Op.notify cb :: ops) = subscriptions ops := by simp [subscriptions]
      rw [this]

theorem signalsTo_nil_of_ge (i : Nat) : ∀ (ops : List (Op T)),
    (subscriptions ops).length ≤ i → signalsTo i 0 ops = [] := by
  intro ops
  induction ops using mono_snoc_induction with
  | nil => intro _; rfl
  | snoc ops op ih =>
    intro h
    have h' : (subscriptions ops).length ≤ i := by
      simp only [subscriptions, List.filterMap_append, List.length_append] at h ⊢; omega
    rw [signalsTo_snoc, ih h']
    cases op with
    | signal j s a b => simp only [List.nil_append]; rw [if_neg (by omega)]
    | subscribe => rfl
    | notify => rfl

/-- What the state remembers about each subscription. -/
structure MonoInv (ops : List (Op T)) : Prop where
  len : (run ops).1.subs.length = (subscriptions ops).length
  sub : ∀ (i : Nat) (s : Mono.Sub T), (run ops).1.subs[i]? = some s →
    (subscriptions ops)[i]? = some s.inst ∧
    (s.closed = true ↔ signalsTo i 0 ops ≠ []) ∧
    (s.closed = true → recorded (signalsTo i 0 ops) = some (s.value, s.err)) ∧
    (s.closed = false → s.value = none ∧ s.err = none)
  ev : ∀ (i : Nat) (inst : Installed), (subscriptions ops)[i]? = some inst →
    eventsOf i (run ops).2 = outcome i inst (signalsTo i 0 ops)
  evNew : ∀ (i : Nat), (subscriptions ops).length ≤ i → eventsOf i (run ops).2 = []

theorem outcome_more (i : Nat) (inst : Installed) (l m : List (Sig T)) (h : l ≠ []) :
    outcome i inst (l ++ m) = outcome i inst l := by
  cases l with
  | nil => exact absurd rfl h
  | cons x l => cases x <;> rfl

theorem recorded_more (l m : List (Sig T)) (h : l ≠ []) : recorded (l ++ m) = recorded l := by
  cases l with
  | nil => exact absurd rfl h
  | cons x l => cases x <;> rfl

theorem mono_inv (ops : List (Op T)) : MonoInv ops := by
  induction ops using mono_snoc_induction with
  | nil => exact ⟨rfl, by simp [run, runFrom, State.init], by simp [subscriptions],
      by intro i _; rfl⟩
  | snoc ops op ih =>
    obtain ⟨hlen, hsub, hev, hnew⟩ := ih
    cases op with
    | subscribe inst =>
      have hs : subscriptions (ops ++ [Op.subscribe inst]) = subscriptions ops ++ [inst] := by
        simp [subscriptions]
      have hr : run (ops ++ [Op.subscribe inst]) = (subscribe (run ops).1 inst, (run ops).2) := by
        rw [run_snoc_mono]; simp [step]
      have hg : ∀ i, signalsTo i 0 (ops ++ [Op.subscribe inst]) = signalsTo i 0 ops := by
        intro i; rw [signalsTo_snoc]; simp
      refine ⟨?_, ?_, ?_, ?_⟩
      · rw [hr, hs]; simp [subscribe, hlen]
      · intro i s hi
        rw [hr] at hi
        rw [hg, hs]
        simp only [subscribe, List.getElem?_append] at hi ⊢
        split at hi
        · obtain ⟨a, b⟩ := hsub i s hi
          rename_i hlt
          rw [hlen] at hlt
          rw [if_pos hlt]
          exact ⟨a, b⟩
        · rename_i hge
          rw [hlen] at hge hi
          rw [if_neg hge]
          have h0 : i - (subscriptions ops).length = 0 := by
            have := (List.getElem?_eq_some_iff.mp hi).1; simp at this; omega
          rw [h0] at hi ⊢
          simp at hi; subst hi
          have := signalsTo_nil_of_ge i ops (by omega)
          simp [this]
      · intro i x hi
        rw [hr, hg]
        rw [hs] at hi
        rw [List.getElem?_append] at hi
        split at hi
        · exact hev i x hi
        · rename_i hge
          rw [hnew i (by omega), signalsTo_nil_of_ge i ops (by omega)]; rfl
      · intro i hi
        rw [hr]; rw [hs] at hi
        exact hnew i (by simp at hi; omega)
    | notify cb =>
      have hs : subscriptions (ops ++ [(Op.notify cb : Op T)]) = subscriptions ops := by
        simp [subscriptions]
      have hg : ∀ i, signalsTo i 0 (ops ++ [(Op.notify cb : Op T)]) = signalsTo i 0 ops := by
        intro i; rw [signalsTo_snoc]; simp
      have hr1 : (run (ops ++ [(Op.notify cb : Op T)])).1.subs = (run ops).1.subs := by
        rw [run_snoc_mono]; exact notify_subs _ _
      have hr2 : ∀ i, eventsOf i (run (ops ++ [(Op.notify cb : Op T)])).2 =
          eventsOf i (run ops).2 := by
        intro i; rw [run_snoc_mono, eventsOf_append]
        simp only [step, notify_events, List.append_nil]
      refine ⟨by rw [hr1, hs, hlen], ?_, ?_, ?_⟩
      · intro i s hi; rw [hr1] at hi; rw [hg, hs]; exact hsub i s hi
      · intro i x hi; rw [hs] at hi; rw [hr2, hg]; exact hev i x hi
      · intro i hi; rw [hs] at hi; rw [hr2]; exact hnew i hi
    | signal j sig a b =>
      have hs : subscriptions (ops ++ [Op.signal j sig a b]) = subscriptions ops := by
        simp [subscriptions]
      cases hj : (run ops).1.subs[j]? with
      | none =>
        have hjl := List.getElem?_eq_none_iff.mp hj
        have hr : run (ops ++ [Op.signal j sig a b]) = run ops := by
          rw [run_snoc_mono]; simp [step, signal_closed _ _ _ _ _ (Or.inl hj)]
        have hg : ∀ i, signalsTo i 0 (ops ++ [Op.signal j sig a b]) = signalsTo i 0 ops := by
          intro i; rw [signalsTo_snoc]; simp only; rw [if_neg (by omega)]; simp
        refine ⟨by rw [hr, hs, hlen], ?_, ?_, ?_⟩
        · intro i s hi; rw [hr] at hi; rw [hg, hs]; exact hsub i s hi
        · intro i x hi; rw [hs] at hi; rw [hr, hg]; exact hev i x hi
        · intro i hi; rw [hs] at hi; rw [hr]; exact hnew i hi
      | some s =>
        have hjl := (List.getElem?_eq_some_iff.mp hj).1
        have hg : ∀ i, i ≠ j → signalsTo i 0 (ops ++ [Op.signal j sig a b]) = signalsTo i 0 ops := by
          intro i hne; rw [signalsTo_snoc]; simp only; rw [if_neg (fun h => hne h.1.symm)]; simp
        have hgj : signalsTo j 0 (ops ++ [Op.signal j sig a b]) = signalsTo j 0 ops ++ [sig] := by
          rw [signalsTo_snoc]; simp only; rw [if_pos ⟨trivial, by omega⟩]
        obtain ⟨hinst, hcl, hrec, hopen⟩ := hsub j s hj
        cases hc : s.closed with
        | true =>
          have hne := hcl.mp hc
          have hr : run (ops ++ [Op.signal j sig a b]) = run ops := by
            rw [run_snoc_mono]; simp [step, signal_closed _ _ _ _ _ (Or.inr ⟨s, hj, hc⟩)]
          refine ⟨by rw [hr, hs, hlen], ?_, ?_, ?_⟩
          · intro i s' hi; rw [hr] at hi; rw [hs]
            by_cases hij : i = j
            · subst hij
              obtain ⟨h1, h2, h3, h4⟩ := hsub i s' hi
              have h2' := h2.mpr hne
              rw [hgj, recorded_more _ _ hne]
              exact ⟨h1, ⟨fun _ => by simp, fun _ => h2'⟩, h3, fun h => absurd h (by simp [h2'])⟩
            · rw [hg i hij]; exact hsub i s' hi
          · intro i x hi; rw [hs] at hi; rw [hr]
            by_cases hij : i = j
            · subst hij; rw [hgj, outcome_more _ _ _ _ hne]; exact hev i x hi
            · rw [hg i hij]; exact hev i x hi
          · intro i hi; rw [hs] at hi; rw [hr]; exact hnew i hi
        | false =>
          have hnil : signalsTo j 0 ops = [] := by
            cases hx : signalsTo j 0 ops with
            | nil => rfl
            | cons y l => exact absurd (hcl.mpr (by simp [hx])) (by simp [hc])
          have sp := signal_spec (run ops).1 j sig a b s hj hc
          have hr1 : (run (ops ++ [Op.signal j sig a b])).1.subs =
              (run ops).1.subs.set j (closeSub s sig) := by
            rw [run_snoc_mono]; exact (sp 0).1
          have hr2 : ∀ i, eventsOf i (run (ops ++ [Op.signal j sig a b])).2 =
              eventsOf i (run ops).2 ++ if i = j then outcome j s.inst [sig] else [] := by
            intro i; rw [run_snoc_mono, eventsOf_append]; simp only [step]; rw [(sp i).2]
          refine ⟨by rw [hr1, hs]; simpa using hlen, ?_, ?_, ?_⟩
          · intro i s' hi
            rw [hr1, List.getElem?_set] at hi; rw [hs]
            by_cases hij : j = i
            · subst hij
              rw [if_pos rfl, if_pos hjl] at hi
              have hi := Option.some.inj hi
              subst hi
              obtain ⟨hv, he⟩ := hopen hc
              rw [hgj, hnil]
              cases sig <;> simp [closeSub, recorded, hinst, hv, he]
            · rw [if_neg hij] at hi
              rw [hg i (fun e => hij e.symm)]; exact hsub i s' hi
          · intro i x hi; rw [hs] at hi; rw [hr2]
            by_cases hij : i = j
            · subst hij
              rw [hev i x hi, hgj, hnil, if_pos rfl]
              rw [hinst] at hi
              have hi := Option.some.inj hi
              subst hi; rfl
            · rw [hg i hij, if_neg hij, List.append_nil]; exact hev i x hi
          · intro i hi; rw [hs] at hi; rw [hr2, if_neg (by omega), List.append_nil]; exact hnew i hi

/-! ## C22 -/

/-- C22 as stated in English, for monos made with `Create` (and processors), `Just`, `Error`. -/
def C22_statement (T : Type) : Prop :=
  (∀ (ops : List (Op T)) (i : Nat) (inst : Installed), (subscriptions ops)[i]? = some inst →
    eventsOf i (run ops).2 = outcome i inst (signalsTo i 0 ops)) ∧
  (∀ (v : T) (inst : Installed), justSubscribe v inst = outcome 0 inst [.success v]) ∧
  (∀ (e : Err) (inst : Installed), errorSubscribe e inst = outcome 0 inst [(.error e : Sig T)])

/-- C22 fails for `Just` and `Error`: they never call Finally. -/
theorem C22_mono_outcome_violated : ¬ C22_statement Nat := by
  intro h
  have := h.2.1 5 ⟨true, true, true⟩
  revert this; decide

/-- C22 for monos made with `Create` in full: any number of subscriptions, any signals, any
callbacks; and for `Just`/`Error` when no Finally is installed. Missing: Finally of `Just` and
`Error`. -/
theorem C22_mono_outcome_partial :
    (∀ (ops : List (Op T)) (i : Nat) (inst : Installed), (subscriptions ops)[i]? = some inst →
      eventsOf i (run ops).2 = outcome i inst (signalsTo i 0 ops)) ∧
    (∀ (v : T) (inst : Installed), inst.fin = false →
      justSubscribe v inst = outcome 0 inst [.success v]) ∧
    (∀ (e : Err) (inst : Installed), inst.fin = false →
      errorSubscribe e inst = outcome 0 inst [(.error e : Sig T)]) := by
  refine ⟨fun ops => (mono_inv ops).ev, ?_, ?_⟩
  · intro v inst h; simp [justSubscribe, outcome, h]
  · intro v inst h; simp [errorSubscribe, outcome, h]

/-- C22: `Get` reports what was delivered to the latest subscription; before that (or without
any subscription) it panics. -/
theorem C22_mono_get (ops : List (Op T)) :
    getValue (run ops).1 =
      match subscriptions ops with
      | [] => .panic
      | _ :: _ => match recorded (signalsTo ((subscriptions ops).length - 1) 0 ops) with
        | some r => .ok r
        | none => .panic := by
  have hi := mono_inv ops
  unfold getValue
  rw [List.getLast?_eq_getElem?, hi.len]
  cases hs : subscriptions ops with
  | nil =>
    have : (run ops).1.subs = [] := List.length_eq_zero_iff.mp (by rw [hi.len, hs]; rfl)
    simp [this]
  | cons x xs =>
    have hlt : (subscriptions ops).length - 1 < (run ops).1.subs.length := by
      rw [hi.len, hs]; simp
    rw [← hs]
    rw [List.getElem?_eq_getElem hlt]
    have hg := List.getElem?_eq_getElem hlt
    obtain ⟨-, hcl, hrec, -⟩ := hi.sub _ _ hg
    simp only
    generalize (run ops).1.subs[(subscriptions ops).length - 1] = s at hcl hrec ⊢
    cases hc : s.closed with
    | true => rw [hrec hc]; simp only [hs, if_true]
    | false =>
      have hnil : signalsTo ((subscriptions ops).length - 1) 0 ops = [] := by
        cases hx : signalsTo ((subscriptions ops).length - 1) 0 ops with
        | nil => rfl
        | cons y l => exact absurd (hcl.mpr (by simp [hx])) (by simp [hc])
      rw [hnil]; simp only [recorded, hs, Bool.false_eq_true, if_false]

example : (subscriptions ([.subscribe ⟨true, true, true⟩, .signal 0 (.error (some "x")) [] [],
      .signal 0 (.success 3) [] []] : List (Op Nat)))[0]? = some ⟨true, true, true⟩ ∧
    (run ([.subscribe ⟨true, true, true⟩, .signal 0 (.error (some "x")) [] [],
      .signal 0 (.success 3) [] []] : List (Op Nat))).2 = [.error 0 (some "x"), .fin 0 .error] := by
  decide

/-! ## C23 -/

/-- The completion callbacks called in a trace. -/
def notifications (t : List (Ev T)) : List (Nat × Signal) :=
  t.filterMap fun | .notified cb s => some (cb, s) | _ => none

/-- The signal type of a signal. -/
def kindOf : Sig T → Signal
  | .success _ => .complete
  | .error _ => .error
  | .cancel => .cancel

/-- Is the outcome callback for this signal installed? -/
def hasCallback (inst : Installed) : Sig T → Bool
  | .success _ => inst.onSuccess
  | .error _ => inst.onError
  | .cancel => false

/-- The callbacks registered after the subscription: by `Notify`, or by `Notify` from inside the
outcome callback or Finally of the first signal. -/
def registrations (inst : Installed) : Bool → List (Op T) → List Nat
  | _, [] => []
  | t, .notify cb :: r => cb :: registrations inst t r
  | true, .signal .. :: r => registrations inst true r
  | false, .signal _ s a b :: r =>
    (if hasCallback inst s then a else []) ++ (if inst.fin then b else []) ++
      registrations inst true r
  | t, .subscribe _ :: r => registrations inst t r

/-- The history uses the one subscription only. -/
def oneSubscription (ops : List (Op T)) : Prop :=
  ∀ op ∈ ops, match op with
    | .subscribe _ => False
    | .signal i _ _ _ => i = 0
    | .notify _ => True

/-- The first signal of a history. -/
def firstSignal : List (Op T) → Option (Sig T)
  | [] => none
  | .signal _ s _ _ :: _ => some s
  | _ :: r => firstSignal r

/-- The full history: callbacks registered before the subscription, the subscription, the rest. -/
def history (before : List Nat) (inst : Installed) (ops : List (Op T)) : List (Op T) :=
  before.map .notify ++ .subscribe inst :: ops

/-- C23 as stated in English: once there is a signal, exactly the registered callbacks have been
called, once per registration, with that signal; before, none. -/
def C23_statement (T : Type) : Prop :=
  ∀ (before : List Nat) (inst : Installed) (ops : List (Op T)), oneSubscription ops →
    match firstSignal ops with
    | none => notifications (run (history before inst ops)).2 = []
    | some s => (notifications (run (history before inst ops)).2).Perm
        ((before ++ registrations inst false ops).map (·, kindOf s))

/-- C23 fails: a callback registered from inside OnError is told COMPLETE. -/
theorem C23_notify_violated : ¬ C23_statement Nat := by
  intro h
  have := h [] ⟨true, true, true⟩ [.signal 0 (.error (some "x")) [7] []] (by
    intro op hop; simp at hop; subst hop; rfl)
  have h2 : notifications (run (history [] ⟨true, true, true⟩
      [.signal 0 (.error (some "x")) [7] []] : List (Op Nat))).2 = [(7, .complete)] := by decide
  simp only [firstSignal] at this
  rw [h2] at this
  have := this.mem_iff (a := (7, Signal.complete))
  revert this; decide

/-- C23 also fails when the mono is subscribed twice: callbacks are called once per
subscription. -/
theorem C23_notify_twice_violated :
    notifications (run ([.notify 7, .subscribe ⟨true, true, true⟩, .signal 0 (.success 1) [] [],
      .subscribe ⟨true, true, true⟩, .signal 1 (.success 2) [] []] : List (Op Nat))).2 =
    [(7, .complete), (7, .complete)] := by decide

theorem notifications_append (a b : List (Ev T)) :
    notifications (a ++ b) = notifications a ++ notifications b := by simp [notifications]

theorem notifyAll_closed (m : State T) (s : Mono.Sub T) (hm : m.subs = [s]) (hc : s.closed = true)
    (cbs : List Nat) : notifyAll m cbs = (m, cbs.map (.notified · s.signal)) := by
  induction cbs with
  | nil => rfl
  | cons cb cbs ih =>
    have : notify m cb = (m, [.notified cb s.signal]) := by simp [notify, hm, hc]
    simp [notifyAll, this, ih]

theorem notifications_map (cbs : List Nat) (sig : Signal) :
    notifications (cbs.map (Ev.notified (T := T) · sig)) = cbs.map (·, sig) := by
  induction cbs with
  | nil => rfl
  | cons a l ih => simp [notifications] at ih ⊢; exact ih

theorem closed_run (inst : Installed) (s : Mono.Sub T) (hc : s.closed = true) (ops : List (Op T))
    (ho : oneSubscription ops) : ∀ (m : State T), m.subs = [s] →
    notifications (runFrom m ops).2 = (registrations inst true ops).map (·, s.signal) := by
  induction ops with
  | nil => intro m _; rfl
  | cons op ops ih =>
    intro m hm
    have ho' : oneSubscription ops := fun o h => ho o (by simp [h])
    cases op with
    | subscribe x => exact absurd (ho (.subscribe x) (by simp)) (by simp)
    | notify cb =>
      have : notify m cb = (m, [.notified cb s.signal]) := by simp [notify, hm, hc]
      simp only [runFrom, step, this, notifications_append, registrations, List.map_cons]
      rw [ih ho' m hm]; rfl
    | signal i sig a b =>
      have hi : i = 0 := ho (.signal i sig a b) (by simp)
      subst hi
      have : signal m 0 sig a b = (m, []) := signal_closed _ _ _ _ _ (Or.inr ⟨s, by simp [hm], hc⟩)
      simp only [runFrom, step, this, List.nil_append, registrations]
      exact ih ho' m hm

theorem open_run (s : Mono.Sub T) (hc : s.closed = false)
    (hsig : s.signal = .complete) (ops : List (Op T))
    (ho : oneSubscription ops)
    (hno : ∀ e a b i, Op.signal i (.error e) a b ∈ ops → s.inst.onError = true → a = []) :
    ∀ (m : State T), m.subs = [s] →
    match firstSignal ops with
    | none => notifications (runFrom m ops).2 = []
    | some sg => (notifications (runFrom m ops).2).Perm
        ((m.callbacks ++ registrations s.inst false ops).map (·, kindOf sg)) := by
  induction ops with
  | nil => intro m _; rfl
  | cons op ops ih =>
    intro m hm
    have ho' : oneSubscription ops := fun o h => ho o (by simp [h])
    have hno' : ∀ e a b i, Op.signal i (.error e) a b ∈ ops → s.inst.onError = true → a = [] :=
      fun e a b i h => hno e a b i (by simp [h])
    cases op with
    | subscribe x => exact absurd (ho (.subscribe x) (by simp)) (by simp)
    | notify cb =>
      have : notify m cb = ({ m with callbacks := m.callbacks ++ [cb] }, []) := by
        simp [notify, hm, hc]
      simp only [runFrom, step, this, List.nil_append, registrations, firstSignal]
      have := ih ho' hno' { m with callbacks := m.callbacks ++ [cb] } hm
      simpa using this
    | signal i sig a b =>
      have hi0 : i = 0 := ho (.signal i sig a b) (by simp)
      subst hi0
      simp only [firstSignal]
      have hm0 : m.subs[0]? = some s := by simp [hm]
      -- what `doFinally` does in the closed state
      have fin : ∀ (m' : State T) (s' : Mono.Sub T) (sg : Signal), m'.subs = [s'] → s'.closed = true →
          s'.inst = s.inst →
          (doFinally m' 0 s' sg b).1.subs = [{ s' with signal := sg }] ∧
          notifications (doFinally m' 0 s' sg b).2 =
            ((if s.inst.fin then b else []) ++ m'.callbacks).map (·, sg) := by
        intro m' s' sg h1 h2 h3
        unfold doFinally
        simp only [h3]
        cases s.inst.fin with
        | false => simp [h1, notifications_map]
        | true =>
          have := notifyAll_closed { m' with subs := m'.subs.set 0 { s' with signal := sg } }
            { s' with signal := sg } (by simp [h1]) h2 b
          rw [h1, List.set_cons_zero] at this ⊢
          rw [h3] at this
          simp only [if_true, this, notifications_append, notifications_map, List.map_append]
          rw [show ∀ (e : Ev T) (l : List (Ev T)), e :: l = [e] ++ l from fun _ _ => rfl,
            notifications_append, notifications_map]
          exact ⟨trivial, rfl⟩
      have key : ∃ (ns : List (Nat × Signal)) (s' : Mono.Sub T),
          (signal m 0 sig a b).1.subs = [s'] ∧ s'.closed = true ∧ s'.signal = kindOf sig ∧
          notifications (signal m 0 sig a b).2 =
            (((if hasCallback s.inst sig then a else []) ++ (if s.inst.fin then b else [])) ++
              m.callbacks).map (·, kindOf sig) := by
        unfold signal
        simp only [hm0, hc, Bool.false_eq_true, if_false]
        cases sig with
        | success v =>
          simp only [hasCallback]
          rcases (Bool.eq_false_or_eq_true s.inst.onSuccess).symm with ho2 | ho2
          · simp only [ho2, Bool.false_eq_true, if_false, List.nil_append]
            have f := fin { m with subs := m.subs.set 0 { s with value := some v, closed := true } }
              { s with value := some v, closed := true } .complete (by simp [hm]) rfl rfl
            exact ⟨[], _, f.1, rfl, rfl, by simpa [kindOf, ho2] using f.2⟩
          · have n := notifyAll_closed
              { m with subs := m.subs.set 0 { s with value := some v, closed := true } }
              { s with value := some v, closed := true } (by simp [hm]) rfl a
            have f := fin { m with subs := m.subs.set 0 { s with value := some v, closed := true } }
              { s with value := some v, closed := true } .complete (by simp [hm]) rfl rfl
            simp only [ho2, if_true, n]
            refine ⟨[], _, f.1, rfl, rfl, ?_⟩
            rw [show ∀ (e : Ev T) (l : List (Ev T)), e :: l = [e] ++ l from fun _ _ => rfl,
              notifications_append, notifications_append, notifications_map, f.2, hsig]
            simp [kindOf, notifications]
        | error e =>
          simp only [hasCallback]
          rcases (Bool.eq_false_or_eq_true s.inst.onError).symm with ho2 | ho2
          · simp only [ho2, Bool.false_eq_true, if_false, List.nil_append]
            have f := fin { m with subs := m.subs.set 0 { s with err := e, closed := true } }
              { s with err := e, closed := true } .error (by simp [hm]) rfl rfl
            exact ⟨[], _, f.1, rfl, rfl, by simpa [kindOf, ho2] using f.2⟩
          · have ha : a = [] := hno e a b 0 (by simp) ho2
            subst ha
            have f := fin { m with subs := m.subs.set 0 { s with err := e, closed := true } }
              { s with err := e, closed := true } .error (by simp [hm]) rfl rfl
            simp only [ho2, if_true, notifyAll]
            refine ⟨[], _, f.1, rfl, rfl, ?_⟩
            rw [notifications_append, f.2]
            simp [kindOf, notifications]
        | cancel =>
          have f := fin { m with subs := m.subs.set 0 { s with closed := true } }
            { s with closed := true } .cancel (by simp [hm]) rfl rfl
          exact ⟨[], _, f.1, rfl, rfl, by simpa [kindOf, hasCallback] using f.2⟩
      obtain ⟨-, s', h1, h2, h3, h4⟩ := key
      simp only [runFrom, step, notifications_append, registrations]
      rw [h4, closed_run s.inst s' h2 ops ho' _ h1, h3, ← List.map_append]
      apply List.Perm.map
      refine (List.Perm.append_right _ List.perm_append_comm).trans ?_
      rw [List.append_assoc]

theorem before_run (before : List Nat) (ops : List (Op T)) : ∀ (m : State T), m.subs = [] →
    runFrom m (before.map .notify ++ ops) =
      runFrom { m with callbacks := m.callbacks ++ before } ops := by
  induction before with
  | nil => intro m _; simp
  | cons cb before ih =>
    intro m hm
    have : notify m cb = ({ m with callbacks := m.callbacks ++ [cb] }, []) := by
      simp [notify, hm]
    simp only [List.map_cons, List.cons_append, runFrom, step, this]
    rw [ih { m with callbacks := m.callbacks ++ [cb] } hm]; simp

/-- C23 for a mono that is subscribed once, with callbacks registered at any time except from
inside OnError. Missing: those registrations, and several subscriptions (both fail). -/
theorem C23_notify_partial (before : List Nat) (inst : Installed) (ops : List (Op T))
    (ho : oneSubscription ops)
    (hno : ∀ e a b i, Op.signal i (.error e) a b ∈ ops → inst.onError = true → a = []) :
    match firstSignal ops with
    | none => notifications (run (history before inst ops)).2 = []
    | some s => (notifications (run (history before inst ops)).2).Perm
        ((before ++ registrations inst false ops).map (·, kindOf s)) := by
  have h := open_run ⟨false, none, none, .complete, inst⟩ rfl rfl ops ho hno
    ⟨[⟨false, none, none, .complete, inst⟩], before⟩ rfl
  have e : run (history before inst ops) =
      runFrom ⟨[⟨false, none, none, .complete, inst⟩], before⟩ ops := by
    unfold run history
    rw [before_run _ _ _ rfl]
    simp [runFrom, step, subscribe, State.init]
  rw [e]; exact h

example : oneSubscription ([.notify 1, .signal 0 (.success 3) [4] [5], .notify 6] : List (Op Nat)) ∧
    registrations ⟨true, true, true⟩ false
      ([.notify 1, .signal 0 (.success 3) [4] [5], .notify 6] : List (Op Nat)) = [1, 4, 5, 6] := by
  refine ⟨?_, by decide⟩
  intro op hop
  simp at hop
  rcases hop with rfl | rfl | rfl <;> simp

/-- C23 for monos that are resolved from the start: a callback is called at once, exactly once, with
the kind of the mono's signal. -/
theorem C23_resolved (cb : Nat) :
    notifications (justNotify cb : List (Ev T)) = [(cb, kindOf (.success () : Sig Unit))] ∧
    ∀ e : Err, notifications (errorNotify cb : List (Ev T)) = [(cb, kindOf (.error e : Sig Unit))] :=
  ⟨rfl, fun _ => rfl⟩

/-! ## C24 -/

/-- A call on the sink side of a processor. -/
def sigOfPOp : Sig T → POp T
  | .success v => .success v
  | .error e => .error e
  | .cancel => .error none

/-- Success or Error (a processor has no Cancel). -/
def isResult : Sig T → Prop
  | .cancel => False
  | _ => True

instance (s : Sig T) : Decidable (isResult s) := by cases s <;> unfold isResult <;> infer_instance

/-- The calls of a processor's life: results, one subscription, more results. -/
def procHistory (before : List (Sig T)) (inst : Installed) (after : List (Sig T)) : List (POp T) :=
  before.map sigOfPOp ++ .subscribe inst :: after.map sigOfPOp

/-- C24 as stated in English: the subscriber gets exactly the first result. -/
def C24_statement (T : Type) : Prop :=
  ∀ (before after : List (Sig T)) (inst : Installed),
    (∀ s ∈ before ++ after, isResult s) →
    (Proc.run Proc.init (procHistory before inst after)).2 = outcome 0 inst (before ++ after)

/-- C24 fails: a success overrides an earlier error (and an earlier success). -/
theorem C24_processor_violated : ¬ C24_statement Nat := by
  intro h
  have := h [.error (some "x"), .success 3] [] ⟨true, true, true⟩ (by decide)
  revert this; decide

/-- ... and `Error(nil)` before the subscription is lost. -/
theorem C24_processor_nil_violated :
    (Proc.run Proc.init (procHistory [.error none] ⟨true, true, true⟩ ([] : List (Sig Nat)))).2 = [] := by
  decide

/-- What a processor keeps of the results signalled before the subscription: the last success, or
else the last error. -/
def kept (before : List (Sig T)) : List (Sig T) :=
  match before.reverse.findSome? (fun | .success v => some v | _ => none) with
  | some v => [.success v]
  | none => match before.getLast? with
    | some (.error (some e)) => [.error (some e)]
    | _ => []

theorem proc_run_append (p : Proc T) (a b : List (POp T)) :
    p.run (a ++ b) = (((p.run a).1.run b).1, (p.run a).2 ++ ((p.run a).1.run b).2) := by
  induction a generalizing p with
  | nil => simp [Proc.run]
  | cons op a ih => simp [Proc.run, ih]

theorem proc_before (before : List (Sig T)) (hb : ∀ s ∈ before, isResult s) :
    ∃ su er, (Proc.init : Proc T).run (before.map sigOfPOp) = (⟨State.init, none, su, er⟩, []) ∧
      su = before.reverse.findSome? (fun | .success v => some v | _ => none) ∧
      (su = none → er = match before.getLast? with | some (.error e) => e | _ => none) := by
  induction before using mono_snoc_induction with
  | nil => exact ⟨none, none, rfl, rfl, fun _ => rfl⟩
  | snoc before s ih =>
    obtain ⟨su, er, h1, h2, h3⟩ := ih (fun x hx => hb x (by simp [hx]))
    rw [List.map_append, proc_run_append, h1]
    have hs := hb s (by simp)
    cases s with
    | success v =>
      refine ⟨some v, er, by simp [sigOfPOp, Proc.run, Proc.step], by simp, ?_⟩
      intro h; cases h
    | error e =>
      refine ⟨su, e, by simp [sigOfPOp, Proc.run, Proc.step], by simp [h2], ?_⟩
      intro _; simp
    | cancel => exact absurd hs (by simp [isResult])

theorem proc_open (inst : Installed) (after : List (Sig T)) (ha : ∀ s ∈ after, isResult s)
    (p : Proc T) (s : Mono.Sub T) (hp : p.mono.subs = [s]) (hcb : p.mono.callbacks = [])
    (hi : s.inst = inst) (hs : p.sink = some 0) (past : List (Sig T)) (hc : s.closed = true ↔ past ≠ []) :
    outcome 0 inst past ++ (p.run (after.map sigOfPOp)).2 = outcome 0 inst (past ++ after) := by
  induction after generalizing p s past with
  | nil => simp [Proc.run]
  | cons x after ih =>
    have hstep : p.step (sigOfPOp x) =
        ({ p with mono := (signal p.mono 0 x [] []).1 }, (signal p.mono 0 x [] []).2) := by
      have hx := ha x (by simp)
      cases x with
      | success v => simp [sigOfPOp, Proc.step, hs]
      | error e => simp [sigOfPOp, Proc.step, hs]
      | cancel => exact absurd hx (by simp [isResult])
    simp only [List.map_cons, Proc.run, hstep]
    rw [show past ++ x :: after = (past ++ [x]) ++ after by simp]
    have ha' : ∀ y ∈ after, isResult y := fun y hy => ha y (by simp [hy])
    have h0 : p.mono.subs[0]? = some s := by simp [hp]
    cases hcl : s.closed with
    | true =>
      have hne := hc.mp hcl
      rw [signal_closed _ _ _ _ _ (Or.inr ⟨s, h0, hcl⟩)]
      rw [← ih ha' p s hp hcb hi hs (past ++ [x]) (by simp [hcl]), outcome_more _ _ _ _ hne]
      rfl
    | false =>
      have hnil : past = [] := by
        cases past with
        | nil => rfl
        | cons y l => exact absurd (hc.mpr (by simp)) (by simp [hcl])
      subst hnil
      have hsp := signal_spec p.mono 0 x [] [] s h0 hcl 0
      have hcb' : (signal p.mono 0 x [] []).1.callbacks = [] ∧
          (signal p.mono 0 x [] []).2 = outcome 0 inst [x] := by
        unfold signal
        simp only [h0, hcl, Bool.false_eq_true, if_false]
        cases x <;> simp only [doFinally, notifyAll] <;>
          cases h1 : s.inst.onSuccess <;> cases h2 : s.inst.onError <;> cases h3 : s.inst.fin <;>
          simp [hcb, outcome, ← hi, h1, h2, h3]
      rw [hcb'.2]
      have := ih ha' { p with mono := (signal p.mono 0 x [] []).1 } (closeSub s x)
        (by simp [hsp.1, hp]) hcb'.1 (by cases x <;> simpa [closeSub] using hi) hs [x]
        (by cases x <;> simp [closeSub])
      simpa [outcome] using this

/-- C24, exactly what the code does: results signalled before the subscription collapse to the
last success or else the last error; then the first result counts. In particular the property
holds when at most one result, not `Error(nil)`, is signalled before the subscription. Missing:
several early results, which the code reorders. -/
theorem C24_processor_partial (before after : List (Sig T)) (inst : Installed)
    (hr : ∀ s ∈ before ++ after, isResult s) :
    (Proc.run Proc.init (procHistory before inst after)).2 = outcome 0 inst (kept before ++ after) ∧
    (before.length ≤ 1 → (.error none : Sig T) ∉ before →
      (Proc.run Proc.init (procHistory before inst after)).2 = outcome 0 inst (before ++ after)) := by
  have main : (Proc.run Proc.init (procHistory before inst after)).2 =
      outcome 0 inst (kept before ++ after) := by
    obtain ⟨su, er, h1, h2, h3⟩ := proc_before before (fun s hs => hr s (by simp [hs]))
    have ha : ∀ s ∈ after, isResult s := fun s hs => hr s (by simp [hs])
    unfold procHistory
    rw [proc_run_append, h1]
    simp only [List.nil_append, Proc.run]
    have op := proc_open inst after ha
    unfold kept
    rw [← h2]
    have s0 : (subscribe (State.init : State T) inst).subs[0]? =
        some ⟨false, none, none, .complete, inst⟩ := rfl
    cases su with
    | some v =>
      simp only [Proc.step, State.init, List.length_nil]
      have hsp := signal_spec (subscribe (State.init : State T) inst) 0 (.success v) [] [] _ s0 rfl 0
      have hcb : (signal (subscribe (State.init : State T) inst) 0 (.success v) [] []).1.callbacks = [] ∧
          (signal (subscribe (State.init : State T) inst) 0 (.success v) [] []).2 =
            outcome 0 inst [.success v] := by
        cases inst with
        | mk a b c => cases a <;> cases b <;> cases c <;> exact ⟨rfl, rfl⟩
      have := op ⟨(signal (subscribe (State.init : State T) inst) 0 (.success v) [] []).1, some 0,
        some v, er⟩ _ (by rw [hsp.1]; rfl) hcb.1 rfl rfl [.success v] (by simp [closeSub])
      rw [← this, ← hcb.2]; rfl
    | none =>
      have h3 := h3 rfl
      cases er with
      | some e =>
        have hl : before.getLast? = some (.error (some e)) := by
          cases hg : before.getLast? with
          | none => rw [hg] at h3; cases h3
          | some x =>
            rw [hg] at h3
            cases x with
            | error e' => simp only at h3; rw [← h3]
            | success v => cases h3
            | cancel => cases h3
        rw [hl]
        simp only [Proc.step, State.init, List.length_nil, ne_eq, reduceCtorEq, not_false_eq_true,
          if_true]
        have hsp := signal_spec (subscribe (State.init : State T) inst) 0 (.error (some e)) [] [] _ s0
          rfl 0
        have hcb : (signal (subscribe (State.init : State T) inst) 0 (.error (some e)) [] []).1.callbacks
              = [] ∧
            (signal (subscribe (State.init : State T) inst) 0 (.error (some e)) [] []).2 =
              outcome 0 inst [.error (some e)] := by
          cases inst with
          | mk a b c => cases a <;> cases b <;> cases c <;> exact ⟨rfl, rfl⟩
        have := op ⟨(signal (subscribe (State.init : State T) inst) 0 (.error (some e)) [] []).1, some 0,
          none, some e⟩ _ (by rw [hsp.1]; rfl) hcb.1 rfl rfl [.error (some e)] (by simp [closeSub])
        rw [← this, ← hcb.2]; rfl
      | none =>
        have hl : (match before.getLast? with
            | some (.error (some e)) => [(.error (some e) : Sig T)]
            | _ => []) = [] := by
          cases hg : before.getLast? with
          | none => rfl
          | some x =>
            rw [hg] at h3
            cases x with
            | error e' => simp only at h3; rw [← h3]
            | success v => rfl
            | cancel => rfl
        simp only
        rw [hl]
        have := op ⟨subscribe (State.init : State T) inst, some 0, none, none⟩
          ⟨false, none, none, .complete, inst⟩ rfl rfl rfl rfl [] (by simp)
        rw [show outcome 0 inst ([] : List (Sig T)) = [] from rfl, List.nil_append,
          List.nil_append] at this
        simp only [Proc.step, List.nil_append, ne_eq, not_true_eq_false, if_false]
        rw [← this]; rfl
  refine ⟨main, ?_⟩
  intro hl hn
  rw [main]
  match before, hl with
  | [], _ => rfl
  | [.success v], _ => rfl
  | [.error (some e)], _ => rfl
  | [.error none], _ => exact absurd (by simp) hn
  | [.cancel], _ => exact absurd (hr .cancel (by simp)) (by simp [isResult])

example : (∀ s ∈ ([.error (some "x")] ++ [.success 3] : List (Sig Nat)), isResult s) ∧
    outcome 0 ⟨true, true, true⟩ ([.error (some "x")] ++ [.success 3] : List (Sig Nat)) =
      [.error 0 (some "x"), .fin 0 .error] := by decide

/-! ## C25 -/

/-- The outcome (without Finally) a mapped subscription is to see. -/
def mappedOutcome {D : Type} (f : Transform T D) (i : Nat) (inst : Installed) :
    List (Sig T) → List (Ev D)
  | .success v :: _ => match f v with
    | .ok d => if inst.onSuccess then [.success i d] else []
    | .error e => if inst.onError then [.error i (some e)] else []
  | .error e :: _ => if inst.onError then [.error i e] else []
  | _ => []

/-- Outcome callbacks only. -/
def outcomesOnly {D : Type} (t : List (Ev D)) : List (Ev D) :=
  t.filter fun | .success .. => true | .error .. => true | _ => false

/-- C25: the subscriber of a mapped mono, subscribed as number `i` on the source, sees the mapped
outcome of the first signal. -/
theorem C25_map_outcome {D : Type} (f : Transform T D) (ops : List (Op T)) (i : Nat)
    (inst : Installed) (hi : (subscriptions ops)[i]? = some (mapInstalled inst)) :
    outcomesOnly ((eventsOf i (run ops).2).flatMap (mapEv f inst)) =
      mappedOutcome f i inst (signalsTo i 0 ops) := by
  rw [(mono_inv ops).ev i _ hi]
  obtain ⟨oS, oE, oF⟩ := inst
  cases hs : signalsTo i 0 ops with
  | nil => rfl
  | cons x l =>
    cases x with
    | success v =>
      simp only [outcome, mapInstalled, if_true, mappedOutcome]
      cases hf : f v with
      | ok d =>
        cases oS <;> cases oF <;>
          simp [mapEv, hf, outcomesOnly]
      | error e =>
        cases oE <;> cases oF <;>
          simp [mapEv, hf, outcomesOnly]
    | error e =>
      simp only [outcome, mapInstalled, mappedOutcome]
      cases oE <;> cases oF <;> simp [mapEv, outcomesOnly]
    | cancel =>
      simp only [outcome, mapInstalled, mappedOutcome]
      cases oF <;> simp [mapEv, outcomesOnly]

/-- C25: the same for `Just` and `Error`. -/
theorem C25_map_just_error {D : Type} (f : Transform T D) (inst : Installed) :
    (∀ v, outcomesOnly ((justSubscribe v (mapInstalled inst)).flatMap (mapEv f inst)) =
      mappedOutcome f 0 inst [.success v]) ∧
    (∀ e, outcomesOnly ((errorSubscribe (T := T) e (mapInstalled inst)).flatMap (mapEv f inst)) =
      mappedOutcome f 0 inst [.error e]) := by
  obtain ⟨oS, oE, oF⟩ := inst
  constructor
  · intro v
    simp only [justSubscribe, mapInstalled, mappedOutcome]
    cases hf : f v <;> cases oS <;> cases oE <;>
      simp [mapEv, hf, outcomesOnly]
  · intro e
    simp only [errorSubscribe, mapInstalled, mappedOutcome]
    cases oE <;> simp [mapEv, outcomesOnly]

/-- C25: `Get` on the mapped mono agrees with what was delivered to the latest subscription, for
successes and (non-nil) errors. -/
theorem C25_map_get {D : Type} (f : Transform T D) (zero : T) (ops : List (Op T))
    (l : List (Sig T)) :
    (∀ v, signalsTo ((subscriptions ops).length - 1) 0 ops = .success v :: l →
      mapGet f zero (getValue (run ops).1) = match f v with
        | .ok d => .ok (some d, none)
        | .error e => .ok (none, some e)) ∧
    (∀ e, signalsTo ((subscriptions ops).length - 1) 0 ops = .error (some e) :: l →
      mapGet f zero (getValue (run ops).1) = .ok (none, some e)) := by
  have hne : ∀ x, signalsTo ((subscriptions ops).length - 1) 0 ops = x :: l →
      subscriptions ops ≠ [] := by
    intro x h h'
    rw [signalsTo_nil_of_ge _ _ (by simp [h'])] at h
    cases h
  constructor
  · intro v hs
    have := hne _ hs
    rw [C22_mono_get, hs]
    cases hsb : subscriptions ops with
    | nil => exact absurd hsb this
    | cons a b => simp only [recorded, mapGet]; rfl
  · intro v hs
    have := hne _ hs
    rw [C22_mono_get, hs]
    cases hsb : subscriptions ops with
    | nil => exact absurd hsb this
    | cons a b => simp only [recorded, mapGet]; rfl

example : (subscriptions ([.subscribe (mapInstalled ⟨true, true, true⟩),
      .signal 0 (.success 3) [] []] : List (Op Nat)))[0]? = some (mapInstalled ⟨true, true, true⟩) ∧
    mappedOutcome (fun n => if n < 5 then .error "small" else .ok (n + 1)) 0 ⟨true, true, true⟩
      (signalsTo 0 0 ([.subscribe (mapInstalled ⟨true, true, true⟩),
      .signal 0 (.success 3) [] []] : List (Op Nat))) = [.error 0 (some "small")] := by decide

end

end Verif.Props
