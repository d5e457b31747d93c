import Verif.Props.Flow
/-
Property C31, exactly: for every flow and every finishing order, whether the flow does what it
should.
-/
set_option autoImplicit false
namespace Verif.Props
open Verif Flow

/-! ## Specification -/

/-- The flow never reaches a group that has nothing left to wait for: each group that is reached
has an awaitable that has yet to finish. A reached group may be empty only if it belongs to the
last step. -/
def flowFit : List Step → List Nat → Prop
  | [], _ => True
  | .fail :: _, _ => True
  | .endFlow :: _, _ => True
  | .group g :: rest, order =>
    (g = [] ∧ rest = []) ∨
    (false ∈ g ∧ ∀ order', awaitAll (unfinished 0 g) order = some order' → flowFit rest order')

/-- What a flow really does; `none`: it calls itself for ever. -/
def flowDoes : Nat → List Step → List Nat → Option (List Ev)
  | _, [], _ => some []
  | i, .fail :: _, _ => some [.ran i, .failed]
  | i, .endFlow :: _, _ => some [.ran i]
  | i, .group g :: rest, order =>
    if g = [] then some [.ran i]
    else if false ∈ g then
      match awaitAll (unfinished 0 g) order with
      | none => some [.ran i]
      | some order => (flowDoes (i + 1) rest order).map (.ran i :: ·)
    else none

/-! ## More fuel changes nothing -/

theorem flow_more (f : Nat) :
    (∀ s r, Flow.next f s = some r → Flow.next (f + 1) s = some r) ∧
    (∀ g j s r, Flow.register f g j s = some r → Flow.register (f + 1) g j s = some r) ∧
    (∀ s r, Flow.check f s = some r → Flow.check (f + 1) s = some r) := by
  induction f with
  | zero => simp [Flow.next, Flow.register, Flow.check]
  | succ f ih =>
    obtain ⟨hn, hr, hc⟩ := ih
    refine ⟨?_, ?_, ?_⟩
    · intro s r h
      rw [Flow.next] at h ⊢
      cases hs : s.steps with
      | nil => simpa only [hs] using h
      | cons step rest =>
        cases step with
        | fail => simpa only [hs] using h
        | endFlow => simpa only [hs] using h
        | group g =>
          simp only [hs] at h ⊢
          generalize hx : Flow.register f g 0 _ = x at h
          cases x with
          | none => cases h
          | some x => rw [hr _ _ _ _ hx]; exact h
    · intro g j s r h
      cases g with
      | nil => rw [Flow.register] at h ⊢; exact h
      | cons a g =>
        rw [Flow.register] at h ⊢
        by_cases ha : a = true
        · rw [if_pos ha] at h ⊢
          cases hx : Flow.check f s with
          | none => rw [hx] at h; cases h
          | some x =>
            rw [hx] at h
            rw [hc _ _ hx]
            cases x with
            | ok s' => exact hr _ _ _ _ h
            | err e => exact h
            | panic => exact h
        · rw [if_neg ha] at h ⊢
          exact hr _ _ _ _ h
    · intro s r h
      rw [Flow.check] at h ⊢
      dsimp only at h ⊢
      split at h
      · rename_i hh
        rw [if_pos hh]; exact hn _ _ h
      · rename_i hh
        rw [if_neg hh]; exact h

theorem flow_finish_more (f j : Nat) (s : Flow.St) (r : Go Flow.St)
    (h : finish f j s = some r) : finish (f + 1) j s = some r := by
  simp only [finish] at h ⊢
  split at h
  · rename_i hh; rw [if_pos hh]; exact (flow_more f).2.2 _ _ h
  · rename_i hh; rw [if_neg hh]; exact h

theorem flow_finishAll_more (f : Nat) (order : List Nat) : ∀ (s : Flow.St) (r : Go Flow.St),
    finishAll f order s = some r → finishAll (f + 1) order s = some r := by
  induction order with
  | nil => intro s r h; exact h
  | cons j js ih =>
    intro s r h
    simp only [finishAll] at h ⊢
    cases hx : finish f j s with
    | none => rw [hx] at h; cases h
    | some x =>
      rw [hx] at h
      rw [flow_finish_more f j s x hx]
      cases x with
      | ok s' => exact ih _ _ h
      | err e => exact h
      | panic => exact h

theorem flow_run_more (f k : Nat) (steps : List Step) (order : List Nat) (r : Go Flow.St)
    (h : Flow.run f steps order = some r) : Flow.run (f + k) steps order = some r := by
  induction k with
  | zero => exact h
  | succ k ih =>
    rw [← Nat.add_assoc]
    simp only [Flow.run] at ih ⊢
    generalize f + k = f' at ih
    cases hx : Flow.next f' ⟨steps, 0, false, 0, 0, [], []⟩ with
    | none => rw [hx] at ih; cases ih
    | some x =>
      rw [hx] at ih
      rw [(flow_more f').1 _ _ hx]
      cases x with
      | ok s' => exact flow_finishAll_more _ _ _ _ ih
      | err e => exact ih
      | panic => exact ih

/-! ## A group that has finished altogether -/

theorem register_forever (steps : List Step) (f : Nat)
    (hn : ∀ f', f' < f → ∀ s : Flow.St, s.steps = steps → Flow.next f' s = none)
    (g : List Bool) : ∀ (f' j : Nat) (s : Flow.St), f' ≤ f → s.steps = steps → g ≠ [] →
    false ∉ g → s.completed + g.length = s.size → Flow.register f' g j s = none := by
  induction g with
  | nil => intro f' j s _ _ h; exact absurd rfl h
  | cons a g ih =>
    intro f' j s hf hs _ hg hc
    cases f' with
    | zero => rw [Flow.register]
    | succ f' =>
      have ha : a = true := by
        cases a with
        | true => rfl
        | false => exact absurd (List.mem_cons_self ..) hg
      rw [Flow.register, if_pos ha]
      cases f' with
      | zero => rw [Flow.check]
      | succ f' =>
        rw [Flow.check]
        dsimp only
        simp only [List.length_cons] at hc
        by_cases hh : s.completed + 1 ≥ s.size
        · rw [if_pos hh, hn f' (by omega) { s with completed := s.completed + 1 } hs]
        · rw [if_neg hh]
          dsimp only
          exact ih _ _ _ (by omega) hs (by intro h; subst h; simp at hc; omega)
            (fun h => hg (List.mem_cons_of_mem _ h)) (by dsimp only; omega)

theorem next_forever_all (g : List Bool) (rest : List Step) (h1 : g ≠ []) (h2 : false ∉ g)
    (f : Nat) : ∀ s : Flow.St, s.steps = .group g :: rest → Flow.next f s = none := by
  induction f using Nat.strongRecOn with
  | ind f ih =>
    intro s hs
    cases f with
    | zero => rw [Flow.next]
    | succ f =>
      rw [Flow.next]
      simp only [hs]
      rw [register_forever (.group g :: rest) f (fun f' hf => ih f' (by omega)) g f 0 _
        (Nat.le_refl _) rfl h1 h2 (by simp)]

/-! ## Waiting for a group -/

/-- Go on with the finishing order after `next`. -/
def flowThen (F : Nat) (order : List Nat) : Option (Go Flow.St) → Option (Go Flow.St)
  | some (.ok s) => finishAll F order s
  | r => r

theorem wait_loop (f : Nat) (order : List Nat) : ∀ (w : List Nat) (s : Flow.St), w ≠ [] →
    Waiting s w →
    (awaitAll w order = none →
      ∃ s', finishAll (f + 1) order s = some (.ok s') ∧ s'.trace = s.trace) ∧
    (∀ order', awaitAll w order = some order' →
      finishAll (f + 1) order s =
        flowThen (f + 1) order' (Flow.next f { s with waiting := [], completed := s.size })) := by
  induction order with
  | nil =>
    intro w s hw hs
    cases w with
    | nil => exact absurd rfl hw
    | cons a w =>
      exact ⟨fun _ => ⟨s, rfl, rfl⟩, fun o h => by simp [awaitAll] at h⟩
  | cons j order ih =>
    intro w s hw hs
    cases w with
    | nil => exact absurd rfl hw
    | cons a w =>
      have hc := hs.count
      simp only [List.length_cons] at hc
      by_cases hj : j ∈ a :: w
      · have hlen : ((a :: w).erase j).length = w.length := by
          rw [List.length_erase_of_mem hj]; simp
        by_cases hlast : (a :: w).erase j = []
        · have hw' : w.length = 0 := by rw [← hlen, hlast]; rfl
          have e : s.completed + 1 = s.size := by omega
          simp only [awaitAll, hlast]
          refine ⟨fun h => by simp at h, fun o h => ?_⟩
          cases h
          simp only [finishAll, finish, hs.wait, if_pos hj, hlast, Flow.check]
          rw [if_pos (by omega), e]
          rfl
        · have hpos : 0 < w.length := by rw [← hlen]; exact List.length_pos_iff.mpr hlast
          have hck : finish (f + 1) j s = some (.ok
              { s with waiting := (a :: w).erase j, completed := s.completed + 1 }) := by
            simp only [finish, hs.wait, if_pos hj, Flow.check]
            rw [if_neg (by omega)]
          have := ih ((a :: w).erase j)
              { s with waiting := (a :: w).erase j, completed := s.completed + 1 } hlast
              ⟨rfl, by dsimp only; rw [hlen]; omega⟩
          simp only [awaitAll, finishAll, hck]
          exact this
      · have := ih (a :: w) s hw hs
        simp only [awaitAll, finishAll, finish, hs.wait, if_neg hj, List.erase_of_not_mem hj]
        exact this

theorem flow_ready (f : Nat) (steps : List Step) : ∀ (n : Nat) (order : List Nat) (s : Flow.St),
    enough f steps → enough n steps → 2 ≤ n → 2 ≤ f → s.waiting = [] → s.steps = steps →
    match flowDoes s.idx steps order with
    | none => flowThen (f + 1) order (Flow.next n s) = none
    | some t => ∃ s', flowThen (f + 1) order (Flow.next n s) = some (.ok s') ∧
        s'.trace = s.trace ++ t := by
  induction steps with
  | nil =>
    intro n order s _ _ hn _ hw hs
    obtain ⟨n, rfl⟩ : ∃ n', n = n' + 1 := ⟨n - 1, by omega⟩
    simp only [flowDoes]
    rw [Flow.next]
    simp only [hs, flowThen]
    exact ⟨s, finishAll_idle _ _ _ hw, by simp⟩
  | cons step rest ih =>
    intro n order s hf hen hn hf2 hw hs
    obtain ⟨n, rfl⟩ : ∃ n', n = n' + 1 := ⟨n - 1, by omega⟩
    cases step with
    | fail =>
      simp only [flowDoes]
      rw [Flow.next]
      simp only [hs, flowThen]
      exact ⟨_, finishAll_idle _ _ _ hw, by simp⟩
    | endFlow =>
      simp only [flowDoes]
      rw [Flow.next]
      simp only [hs, flowThen]
      exact ⟨_, finishAll_idle _ _ _ hw, by simp⟩
    | group g =>
      by_cases hg : g = []
      · subst hg
        simp only [flowDoes, if_true]
        obtain ⟨n, rfl⟩ : ∃ n', n = n' + 1 := ⟨n - 1, by omega⟩
        rw [Flow.next]
        simp only [hs, Flow.register, flowThen]
        exact ⟨_, finishAll_idle _ _ _ hw, by simp⟩
      · by_cases hfalse : false ∈ g
        · have hu : unfinished 0 g ≠ [] := by
            have hl := unfinished_length g 0
            have : (g.filter (· = true)).length < g.length :=
              List.length_filter_lt_length_iff_exists.mpr ⟨false, hfalse, by simp⟩
            intro h; rw [h, List.length_nil] at hl; omega
          have hul := unfinished_length g 0
          have hup := List.length_pos_iff.mpr hu
          have hgl := hen g (by simp)
          have hnext : Flow.next (n + 1) s = some (.ok
              { s with steps := rest, idx := s.idx + 1,
                       completed := (g.filter (· = true)).length, size := g.length,
                       waiting := unfinished 0 g, trace := s.trace ++ [.ran s.idx] }) := by
            rw [Flow.next]
            simp only [hs]
            rw [register_spec g.length g n 0 _ (by omega) rfl (by dsimp only; omega)]
            simp [hw]
          have wl := wait_loop f order (unfinished 0 g)
            { s with steps := rest, idx := s.idx + 1,
                     completed := (g.filter (· = true)).length, size := g.length,
                     waiting := unfinished 0 g, trace := s.trace ++ [.ran s.idx] } hu
            ⟨rfl, by dsimp only; omega⟩
          rw [hnext]
          simp only [flowDoes, if_neg hg, if_pos hfalse]
          cases ho : awaitAll (unfinished 0 g) order with
          | none =>
            obtain ⟨s', h1, h2⟩ := wl.1 ho
            exact ⟨s', h1, h2⟩
          | some order' =>
            have h1 := wl.2 order' ho
            have h2 := ih f order'
              { s with steps := rest, idx := s.idx + 1, completed := g.length, size := g.length,
                       waiting := [], trace := s.trace ++ [.ran s.idx] }
              (fun g h => hf g (by simp [h])) (fun g h => hf g (by simp [h])) hf2 hf2 rfl rfl
            dsimp only at h1 h2 ⊢
            cases hd : flowDoes (s.idx + 1) rest order' with
            | none =>
              rw [hd] at h2
              exact h1.trans h2
            | some t =>
              rw [hd] at h2
              obtain ⟨s', h3, h4⟩ := h2
              exact ⟨s', h1.trans h3, by rw [h4]; simp⟩
        · simp only [flowDoes, if_neg hg, if_neg hfalse]
          rw [next_forever_all g rest hg hfalse _ s hs]
          rfl

theorem flow_bound (steps : List Step) : ∃ b, enough b steps := by
  induction steps with
  | nil => exact ⟨0, by intro g h; simp at h⟩
  | cons step rest ih =>
    obtain ⟨b, hb⟩ := ih
    cases step with
    | fail => exact ⟨b, fun g h => hb g (by simpa using h)⟩
    | endFlow => exact ⟨b, fun g h => hb g (by simpa using h)⟩
    | group g' =>
      refine ⟨b + g'.length + 2, fun g h => ?_⟩
      rcases List.mem_cons.mp h with h | h
      · cases h; omega
      · have := hb g h; omega

theorem flow_exact (steps : List Step) (order : List Nat) :
    match flowDoes 0 steps order with
    | none => ∀ fuel, Flow.run fuel steps order = none
    | some t => ∃ fuel s, Flow.run fuel steps order = some (.ok s) ∧ s.trace = t := by
  obtain ⟨b, hb⟩ := flow_bound steps
  have key : ∀ k, _ := fun k => flow_ready (b + k + 2) steps (b + k + 3) order
    ⟨steps, 0, false, 0, 0, [], []⟩ (fun g h => by have := hb g h; omega)
    (fun g h => by have := hb g h; omega) (by omega) (by omega) rfl rfl
  have hrun : ∀ k, Flow.run (b + k + 3) steps order = flowThen (b + k + 2 + 1) order
      (Flow.next (b + k + 3) ⟨steps, 0, false, 0, 0, [], []⟩) := by
    intro k
    simp only [Flow.run, flowThen]
    generalize Flow.next (b + k + 3) _ = x
    cases x with
    | none => rfl
    | some x => cases x <;> rfl
  dsimp only at key
  cases hd : flowDoes 0 steps order with
  | none =>
    intro fuel
    cases hr : Flow.run fuel steps order with
    | none => rfl
    | some r =>
      have h1 := flow_run_more fuel (b + 3) steps order r hr
      have h2 := key fuel
      rw [hd] at h2
      dsimp only at h2
      rw [← hrun, show b + fuel + 3 = fuel + (b + 3) by omega, h1] at h2
      cases h2
  | some t =>
    have h2 := key 0
    rw [hd] at h2
    obtain ⟨s, h3, h4⟩ := h2
    exact ⟨_, s, (hrun 0).trans h3, by simpa using h4⟩

theorem flowSpec_ne_nil (i : Nat) (step : Step) (rest : List Step) (order : List Nat) :
    flowSpec i (step :: rest) order ≠ [] := by
  cases step <;> simp [flowSpec]

theorem flowDoes_iff (steps : List Step) : ∀ (i : Nat) (order : List Nat),
    flowDoes i steps order = some (flowSpec i steps order) ↔ flowFit steps order := by
  induction steps with
  | nil => intro i order; simp [flowDoes, flowSpec, flowFit]
  | cons step rest ih =>
    intro i order
    cases step with
    | fail => simp [flowDoes, flowSpec, flowFit]
    | endFlow => simp [flowDoes, flowSpec, flowFit]
    | group g =>
      simp only [flowDoes, flowSpec, flowFit]
      by_cases hg : g = []
      · subst hg
        cases rest with
        | nil => simp [unfinished, awaitAll, flowSpec]
        | cons step rest => simp [unfinished, awaitAll, (flowSpec_ne_nil _ step rest order).symm,
            flowSpec_ne_nil]
      · rw [if_neg hg]
        by_cases hf : false ∈ g
        · rw [if_pos hf]
          cases ho : awaitAll (unfinished 0 g) order with
          | none => simp [hg, hf]
          | some order' =>
            simp only [hg, hf, false_and, true_and, false_or, Option.some.injEq, forall_eq']
            rw [← ih (i + 1) order']
            cases flowDoes (i + 1) rest order' <;> simp
        · simp [hg, hf]

/-- C31 exactly: for every list of steps and every finishing order, the flow does what it should if
and only if every group it reaches has something left to wait for (or is empty and belongs to the
last step). -/
theorem C31_flow_iff (steps : List Step) (order : List Nat) :
    (∃ fuel s, Flow.run fuel steps order = some (.ok s) ∧ s.trace = flowSpec 0 steps order) ↔
      flowFit steps order := by
  rw [← flowDoes_iff steps 0 order]
  have h := flow_exact steps order
  cases hd : flowDoes 0 steps order with
  | none =>
    rw [hd] at h
    dsimp only at h
    simp [h]
  | some t =>
    rw [hd] at h
    obtain ⟨fuel, s, h1, h2⟩ := h
    constructor
    · rintro ⟨fuel', s', h3, h4⟩
      have a := flow_run_more fuel fuel' steps order _ h1
      have b := flow_run_more fuel' fuel steps order _ h3
      rw [Nat.add_comm, b] at a
      cases a
      rw [← h2, h4]
    · intro h5
      cases h5
      exact ⟨fuel, s, h1, h2⟩

/-- C31 fails whenever a flow reaches a group all of whose awaitables have finished: whatever comes
before and after that step, the flow never comes back. -/
theorem C31_flow_finished_violated (g : List Bool) (before after : List Step) (order : List Nat)
    (h1 : g ≠ []) (h2 : false ∉ g) (hb : ∀ st ∈ before, ∃ b, st = .group b ∧ false ∈ b)
    (hr : .ran before.length ∈ flowSpec 0 (before ++ .group g :: after) order) (fuel : Nat) :
    Flow.run fuel (before ++ .group g :: after) order = none := by
  have main : ∀ (before : List Step) (i : Nat) (order : List Nat),
      (∀ st ∈ before, ∃ b, st = .group b ∧ false ∈ b) →
      .ran (i + before.length) ∈ flowSpec i (before ++ .group g :: after) order →
      flowDoes i (before ++ .group g :: after) order = none := by
    intro before
    induction before with
    | nil => intro i order _ _; simp [flowDoes, h1, h2]
    | cons st before ih =>
      intro i order hb hr
      obtain ⟨b, rfl, hbf⟩ := hb st (by simp)
      have hne : b ≠ [] := by intro h; subst h; simp at hbf
      simp only [List.cons_append, flowDoes, if_neg hne, if_pos hbf]
      simp only [List.cons_append, flowSpec, List.length_cons, List.mem_cons, Ev.ran.injEq] at hr
      rcases hr with hr | hr
      · omega
      · cases ho : awaitAll (unfinished 0 b) order with
        | none => simp [ho] at hr
        | some order' =>
          simp only [ho] at hr
          dsimp only
          rw [ih (i + 1) order' (fun st h => hb st (by simp [h]))
            (by rw [show i + 1 + before.length = i + (before.length + 1) by omega]; exact hr)]
          rfl
  have h := flow_exact (before ++ .group g :: after) order
  rw [main before 0 order hb (by simpa using hr)] at h
  exact h fuel

/-- The second step's awaitables have both finished when they are registered. -/
example : ∀ fuel, Flow.run fuel [.group [false], .group [true, true], .endFlow] [0] = none :=
  C31_flow_finished_violated [true, true] [.group [false]] [.endFlow] [0] (by decide) (by decide)
    (by simp) (by decide)

/-- The same flow does what it should as long as the first step's awaitable has not finished. -/
example : flowFit [.group [false], .group [true, true], .endFlow] [] ∧
    ¬ flowFit [.group [false], .group [true, true], .endFlow] [0] ∧
    flowFit [.group [false, true], .group []] [0] := by
  refine ⟨?_, ?_, ?_⟩ <;> simp [flowFit, unfinished, awaitAll]

end Verif.Props
