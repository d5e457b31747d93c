import Verif.Model.Flow
/-
Property C31: flows.
-/
set_option autoImplicit false
namespace Verif.Props
open Verif Flow

/-! ## Specification -/

/-- The awaitables of a group that have yet to finish. -/
def unfinished : Nat → List Bool → List Nat
  | _, [] => []
  | j, true :: g => unfinished (j + 1) g
  | j, false :: g => j :: unfinished (j + 1) g

/-- Wait until all of `w` have finished; the finishing order that is left then. -/
def awaitAll : List Nat → List Nat → Option (List Nat)
  | [], order => some order
  | _ :: _, [] => none
  | w, j :: order => awaitAll (w.erase j) order

/-- What a flow is to do: run the steps in order; fail; end; or wait for the group and go on. -/
def flowSpec : Nat → List Step → List Nat → List Ev
  | _, [], _ => []
  | i, .fail :: _, _ => [.ran i, .failed]
  | i, .endFlow :: _, _ => [.ran i]
  | i, .group g :: rest, order =>
    .ran i :: match awaitAll (unfinished 0 g) order with
      | none => []
      | some order => flowSpec (i + 1) rest order

/-- C31 as stated in English. -/
def C31_statement : Prop :=
  ∀ (steps : List Step) (order : List Nat),
    ∃ fuel s, Flow.run fuel steps order = some (.ok s) ∧ s.trace = flowSpec 0 steps order

theorem next_forever (f : Nat) (s : Flow.St)
    (h : s.steps = [.group [true], .endFlow]) : Flow.next f s = none := by
  induction f using Nat.strongRecOn generalizing s with
  | ind f ih =>
    obtain ⟨steps, idx, ended, completed, size, waiting, trace⟩ := s
    simp only at h; subst h
    match f with
    | 0 => simp [Flow.next]
    | 1 => simp [Flow.next, Flow.register]
    | 2 => simp [Flow.next, Flow.register, Flow.check]
    | f + 3 =>
      have := ih f (by omega) ⟨[.group [true], .endFlow], idx, ended, 1, 1, waiting,
        trace ++ [.ran idx]⟩ rfl
      simp [Flow.next, Flow.register, Flow.check, this]

/-- C31 fails: a step whose awaitables have all finished already is run for ever. -/
theorem C31_flow_violated :
    (∀ fuel order, Flow.run fuel [.group [true], .endFlow] order = none) ∧ ¬ C31_statement := by
  have main : ∀ fuel order, Flow.run fuel [.group [true], .endFlow] order = none := by
    intro fuel order
    rw [Flow.run, next_forever fuel _ rfl]
  refine ⟨main, ?_⟩
  intro h
  obtain ⟨fuel, s, hs, -⟩ := h [.group [true], .endFlow] []
  rw [main] at hs; cases hs

theorem finishAll_idle (fuel : Nat) (order : List Nat) (s : Flow.St) (h : s.waiting = []) :
    finishAll fuel order s = some (.ok s) := by
  induction order with
  | nil => rfl
  | cons j js ih => simp [finishAll, finish, h, ih]

/-- C31: a step with an empty group is never followed by the next step. -/
theorem C31_flow_empty_group_violated (order : List Nat) :
    ∃ s, Flow.run 5 [.group [], .endFlow] order = some (.ok s) ∧ s.trace = [.ran 0] ∧
      flowSpec 0 [.group [], .endFlow] order = [.ran 0, .ran 1] := by
  refine ⟨⟨[.endFlow], 1, false, 0, 0, [], [.ran 0]⟩, ?_, rfl, by simp [flowSpec, awaitAll, unfinished]⟩
  simp [Flow.run, Flow.next, Flow.register, finishAll_idle]

/-! ## The part that holds -/

theorem register_spec (size : Nat) (g : List Bool) : ∀ (f j : Nat) (s : Flow.St),
    g.length + 1 ≤ f → s.size = size → s.completed + (g.filter (· = true)).length < size →
    Flow.register f g j s = some (.ok { s with
      completed := s.completed + (g.filter (· = true)).length,
      waiting := s.waiting ++ unfinished j g }) := by
  induction g with
  | nil =>
    intro f j s hf hs hc
    obtain ⟨f, rfl⟩ : ∃ f', f = f' + 1 := ⟨f - 1, by simp at hf; omega⟩
    simp [Flow.register, unfinished]
  | cons a g ih =>
    intro f j s hf hs hc
    obtain ⟨f, rfl⟩ : ∃ f', f = f' + 1 := ⟨f - 1, by simp at hf; omega⟩
    simp only [List.length_cons] at hf
    cases a with
    | true =>
      have h1 : s.completed + 1 + (g.filter (· = true)).length < size := by
        simp only [decide_eq_true_eq, List.filter_cons, if_true, List.length_cons] at hc; omega
      have hcheck : Flow.check f s = some (.ok { s with completed := s.completed + 1 }) := by
        obtain ⟨f, rfl⟩ : ∃ f', f = f' + 1 := ⟨f - 1, by omega⟩
        rw [Flow.check]
        simp only
        rw [if_neg (by omega)]
      rw [Flow.register, if_pos rfl, hcheck]
      simp only
      rw [ih f (j + 1) { s with completed := s.completed + 1 } (by omega) hs h1]
      simp [unfinished]
      omega
    | false =>
      rw [Flow.register, if_neg (by simp)]
      rw [ih f (j + 1) { s with waiting := s.waiting ++ [j] } (by omega) hs
        (by simpa using hc)]
      simp [unfinished]

theorem unfinished_length (g : List Bool) (j : Nat) :
    (unfinished j g).length + (g.filter (· = true)).length = g.length := by
  induction g generalizing j with
  | nil => rfl
  | cons a g ih => cases a <;> simp [unfinished, ← ih (j + 1)] <;> omega

/-- The state in which a flow waits for `w`. -/
structure Waiting (s : Flow.St) (w : List Nat) : Prop where
  wait : s.waiting = w
  count : s.completed + w.length = s.size

/-- Every group has an awaitable that has yet to finish when its callback is registered. -/
def groupsWait (steps : List Step) : Prop := ∀ g, Step.group g ∈ steps → false ∈ g

/-- Enough fuel for the largest group. -/
def enough (fuel : Nat) (steps : List Step) : Prop := ∀ g, Step.group g ∈ steps → g.length + 2 ≤ fuel

theorem flow_wait (steps : List Step) : groupsWait steps → ∀ (fuel : Nat), 3 ≤ fuel →
    enough (fuel - 1) steps → ∀ (order w : List Nat) (s : Flow.St), w ≠ [] → Waiting s w →
      s.steps = steps →
      ∃ s', finishAll fuel order s = some (.ok s') ∧ s'.trace = s.trace ++
        (match awaitAll w order with
          | none => []
          | some order => flowSpec s.idx steps order) := by
  induction steps with
  | nil =>
    intro _ fuel hf _ order
    induction order with
    | nil =>
      intro w s hw hs hst
      cases w with
      | nil => exact absurd rfl hw
      | cons a w => exact ⟨s, rfl, by simp [awaitAll]⟩
    | cons j order ih =>
      intro w s hw hs hst
      cases w with
      | nil => exact absurd rfl hw
      | cons a w =>
        by_cases hj : j ∈ a :: w
        · have hlen : ((a :: w).erase j).length = w.length := by
            rw [List.length_erase_of_mem hj]; simp
          by_cases hlast : (a :: w).erase j = []
          · -- the last one: there is no next step
            have hw' : w.length = 0 := by rw [← hlen, hlast]; rfl
            refine ⟨{ s with waiting := [], completed := s.completed + 1 }, ?_, ?_⟩
            · simp only [finishAll, finish, hs.wait, if_pos hj, hlast]
              obtain ⟨f, rfl⟩ : ∃ f', fuel = f' + 2 := ⟨fuel - 2, by omega⟩
              have hc := hs.count
              simp only [List.length_cons, hw'] at hc
              simp only [Flow.check]
              rw [if_pos (by omega), Flow.next]
              simp only [hst]
              exact finishAll_idle _ _ _ rfl
            · simp [awaitAll, hlast, flowSpec]
          · obtain ⟨s', h1, h2⟩ := ih ((a :: w).erase j)
              { s with waiting := (a :: w).erase j, completed := s.completed + 1 } hlast
              ⟨rfl, by have := hs.count; simp only [List.length_cons] at this; simp only [hlen]; omega⟩ hst
            refine ⟨s', ?_, ?_⟩
            · simp only [finishAll, finish, hs.wait, if_pos hj]
              obtain ⟨f, rfl⟩ : ∃ f', fuel = f' + 1 := ⟨fuel - 1, by omega⟩
              have hc := hs.count
              have : 0 < w.length := by
                rw [← hlen]; exact List.length_pos_iff.mpr hlast
              simp only [List.length_cons] at hc
              simp only [Flow.check]
              rw [if_neg (by omega)]
              exact h1
            · simp only [awaitAll]; exact h2
        · obtain ⟨s', h1, h2⟩ := ih (a :: w) s hw hs hst
          refine ⟨s', ?_, ?_⟩
          · simp only [finishAll, finish, hs.wait, if_neg hj]; exact h1
          · simp only [awaitAll, List.erase_of_not_mem hj]; exact h2
  | cons step steps ihs =>
    intro hg fuel hf he order
    have hg' : groupsWait steps := fun g h => hg g (by simp [h])
    have he' : enough (fuel - 1) steps := fun g h => he g (by simp [h])
    induction order with
    | nil =>
      intro w s hw hs hst
      cases w with
      | nil => exact absurd rfl hw
      | cons a w => exact ⟨s, rfl, by simp [awaitAll]⟩
    | cons j order ih =>
      intro w s hw hs hst
      cases w with
      | nil => exact absurd rfl hw
      | cons a w =>
        by_cases hj : j ∈ a :: w
        · have hlen : ((a :: w).erase j).length = w.length := by
            rw [List.length_erase_of_mem hj]; simp
          by_cases hlast : (a :: w).erase j = []
          · have hw' : w.length = 0 := by rw [← hlen, hlast]; rfl
            obtain ⟨f, hfe⟩ : ∃ f', fuel = f' + 2 := ⟨fuel - 2, by omega⟩
            have hc := hs.count
            simp only [List.length_cons, hw'] at hc
            have hcheck : Flow.check fuel { s with waiting := [] } =
                Flow.next (f + 1) { s with waiting := [], completed := s.completed + 1 } := by
              rw [hfe, Flow.check]
              simp only
              rw [if_pos (by omega)]
            simp only [finishAll, finish, hs.wait, if_pos hj, hlast, hcheck, awaitAll]
            cases step with
            | fail =>
              refine ⟨_, by
                rw [Flow.next]; simp only [hst]
                exact finishAll_idle _ _ _ rfl, ?_⟩
              simp [flowSpec]
            | endFlow =>
              refine ⟨_, by
                rw [Flow.next]; simp only [hst]
                exact finishAll_idle _ _ _ rfl, ?_⟩
              simp [flowSpec]
            | group g =>
              have hfalse := hg g (by simp)
              have hgl := he g (by simp)
              have hu : unfinished 0 g ≠ [] := by
                have hl := unfinished_length g 0
                have : (g.filter (· = true)).length < g.length :=
                  List.length_filter_lt_length_iff_exists.mpr ⟨false, hfalse, by simp⟩
                intro h; rw [h, List.length_nil] at hl; omega
              have hul := unfinished_length g 0
              have hup := List.length_pos_iff.mpr hu
              rw [Flow.next]
              simp only [hst]
              have hr : ∀ s : Flow.St, s.size = g.length → s.completed = 0 →
                  Flow.register f g 0 s = some (.ok { s with
                    completed := s.completed + (g.filter (· = true)).length,
                    waiting := s.waiting ++ unfinished 0 g }) := fun s h1 h2 =>
                register_spec g.length g f 0 s (by omega) h1 (by omega)
              rw [hr _ rfl rfl]
              simp only [List.nil_append]
              obtain ⟨s', h1, h2⟩ := ihs hg' fuel hf he' order (unfinished 0 g)
                { s with completed := 0 + (g.filter (· = true)).length, waiting := unfinished 0 g,
                         size := g.length, trace := s.trace ++ [.ran s.idx], steps := steps,
                         idx := s.idx + 1 } hu ⟨rfl, by simp only; omega⟩ rfl
              refine ⟨s', h1, ?_⟩
              rw [h2]
              simp [flowSpec]
          · obtain ⟨s', h1, h2⟩ := ih ((a :: w).erase j)
              { s with waiting := (a :: w).erase j, completed := s.completed + 1 } hlast
              ⟨rfl, by have := hs.count; simp only [List.length_cons] at this; simp only [hlen]; omega⟩ hst
            refine ⟨s', ?_, ?_⟩
            · simp only [finishAll, finish, hs.wait, if_pos hj]
              obtain ⟨f, hfe⟩ : ∃ f', fuel = f' + 1 := ⟨fuel - 1, by omega⟩
              have hc := hs.count
              have : 0 < w.length := by
                rw [← hlen]; exact List.length_pos_iff.mpr hlast
              simp only [List.length_cons] at hc
              have hcheck : Flow.check fuel { s with waiting := (a :: w).erase j } =
                  some (.ok { s with waiting := (a :: w).erase j, completed := s.completed + 1 }) := by
                rw [hfe, Flow.check]
                simp only
                rw [if_neg (by omega)]
              rw [hcheck]
              exact h1
            · simp only [awaitAll]; exact h2
        · obtain ⟨s', h1, h2⟩ := ih (a :: w) s hw hs hst
          refine ⟨s', ?_, ?_⟩
          · simp only [finishAll, finish, hs.wait, if_neg hj]; exact h1
          · simp only [awaitAll, List.erase_of_not_mem hj]; exact h2

/-- C31 for flows in which each group has an awaitable that has not finished when it is
registered: for every finishing order the flow does what it should. Missing: groups that are empty
or all of whose awaitables have finished already. -/
theorem C31_flow_partial (steps : List Step) (order : List Nat) (hg : groupsWait steps)
    (fuel : Nat) (hf : 3 ≤ fuel) (he : enough (fuel - 1) steps) :
    ∃ s, Flow.run fuel steps order = some (.ok s) ∧ s.trace = flowSpec 0 steps order := by
  obtain ⟨f, hfe⟩ : ∃ f', fuel = f' + 1 := ⟨fuel - 1, by omega⟩
  cases steps with
  | nil =>
    refine ⟨⟨[], 0, false, 0, 0, [], []⟩, ?_, rfl⟩
    rw [Flow.run, hfe, Flow.next]
    simp only
    exact finishAll_idle _ _ _ rfl
  | cons step steps =>
    have hg' : groupsWait steps := fun g h => hg g (by simp [h])
    have he' : enough (fuel - 1) steps := fun g h => he g (by simp [h])
    rw [Flow.run]
    cases step with
    | fail =>
      refine ⟨_, by
        rw [hfe, Flow.next]; simp only
        exact finishAll_idle _ _ _ rfl, ?_⟩
      simp [flowSpec]
    | endFlow =>
      refine ⟨_, by
        rw [hfe, Flow.next]; simp only
        exact finishAll_idle _ _ _ rfl, ?_⟩
      simp [flowSpec]
    | group g =>
      have hfalse := hg g (by simp)
      have hgl := he g (by simp)
      have hu : unfinished 0 g ≠ [] := by
        have hl := unfinished_length g 0
        have : (g.filter (· = true)).length < g.length :=
          List.length_filter_lt_length_iff_exists.mpr ⟨false, hfalse, by simp⟩
        intro h; rw [h, List.length_nil] at hl; omega
      have hul := unfinished_length g 0
      have hup := List.length_pos_iff.mpr hu
      have hn : Flow.next fuel ⟨.group g :: steps, 0, false, 0, 0, [], []⟩ = some (.ok
          ⟨steps, 1, false, 0 + (g.filter (· = true)).length, g.length, unfinished 0 g, [.ran 0]⟩) := by
        rw [hfe, Flow.next]
        simp only
        have hr : ∀ s : Flow.St, s.size = g.length → s.completed = 0 →
            Flow.register f g 0 s = some (.ok { s with
              completed := s.completed + (g.filter (· = true)).length,
              waiting := s.waiting ++ unfinished 0 g }) := fun s h1 h2 =>
          register_spec g.length g f 0 s (by omega) h1 (by omega)
        rw [hr _ rfl rfl]
        simp
      rw [hn]
      simp only
      obtain ⟨s', h1, h2⟩ := flow_wait steps hg' fuel hf he' order (unfinished 0 g)
        ⟨steps, 1, false, 0 + (g.filter (· = true)).length, g.length, unfinished 0 g, [.ran 0]⟩ hu
        ⟨rfl, by simp only; omega⟩ rfl
      refine ⟨s', h1, ?_⟩
      rw [h2]
      simp [flowSpec]

example : groupsWait [.group [false, true, false], .group [false], .fail] ∧
    enough 5 [.group [false, true, false], .group [false], .fail] ∧
    flowSpec 0 [.group [false, true, false], .group [false], .fail] [2, 0, 0] =
      [.ran 0, .ran 1, .ran 2, .failed] := by
  refine ⟨?_, ?_, by decide⟩
  · intro g h; simp at h; rcases h with rfl | rfl <;> simp
  · intro g h; simp at h; rcases h with rfl | rfl <;> simp

end Verif.Props
