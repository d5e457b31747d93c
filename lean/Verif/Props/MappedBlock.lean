import Verif.Props.Block
/-
Property C86 for mapped streams whose transform may fail.
-/
set_option autoImplicit false
namespace Verif.Props
open Verif
open Verif.Mono (Err Signal Transform)

section
variable {T D : Type}

/-- The errors of the transform for the elements in a trace. -/
def failedWith (tx : Transform T D) (t : List (Flux.Ev T)) : List String :=
  t.filterMap fun
    | .next v => match tx v with
      | .error e => some e
      | .ok _ => none
    | _ => none

theorem mapped_fins (tx : Transform T D) (inst : Flux.Installed) (h : inst.fin = true) (t : List (Flux.Ev T)) :
    finCount (t.flatMap (Flux.mapEv tx inst)) = finCount t + (failedWith tx t).length := by
  induction t with
  | nil => rfl
  | cons x t ih =>
    rw [List.flatMap_cons, finCount_append, ih]
    cases x with
    | next v =>
      cases hv : tx v with
      | error e =>
        have h1 : finCount (Flux.mapEv tx inst (.next v)) = 1 := by
          simp only [Flux.mapEv, hv, h, if_true]
          split <;> rfl
        have h2 : failedWith tx (.next v :: t) = e :: failedWith tx t := by simp [failedWith, hv]
        have h3 : finCount (.next v :: t) = finCount t := rfl
        rw [h1, h2, h3, List.length_cons]; omega
      | ok d =>
        have h1 : finCount (Flux.mapEv tx inst (.next v)) = 0 := by
          simp only [Flux.mapEv, hv]
          split <;> rfl
        have h2 : failedWith tx (.next v :: t) = failedWith tx t := by simp [failedWith, hv]
        have h3 : finCount (.next v :: t) = finCount t := rfl
        rw [h1, h2, h3]; omega
    | fin s =>
      have h1 : finCount (Flux.mapEv tx inst (.fin s)) = 1 := rfl
      have h2 : failedWith tx (.fin s :: t) = failedWith tx t := rfl
      have h3 : finCount (.fin s :: t) = finCount t + 1 := rfl
      rw [h1, h2, h3]; omega
    | _ => exact Nat.zero_add _

open Classical in
/-- C86 for mapped streams, exactly when `Block` crashes and when it still waits: every element the
transform fails on counts as an end of the stream, besides the cancellations and the source's own end, and
with two ends it crashes. Missing: that it never does (`C86_mapper_violated`). -/
theorem C86_mapper_crash_partial (tx : Transform T D) (inst : Flux.Installed) (cbs : List Nat)
    (ops : List (Flux.Op T)) :
    let seen := (Flux.run (Flux.mapInstalled (Block.fluxInstalled inst)) cbs ops).2
    let ends := cancelCount seen + (failedWith tx seen).length +
      if sourceEnds (Flux.mapInstalled (Block.fluxInstalled inst)) cbs ops then 1 else 0
    (Block.fluxMapper tx inst cbs ops = .crashed ↔ 2 ≤ ends) ∧
    (Block.fluxMapper tx inst cbs ops = .waiting ↔ ends = 0) := by
  intro seen ends
  have hf := C27_finally_once_partial (Flux.mapInstalled (Block.fluxInstalled inst)) cbs ops rfl
  have hm := mapped_fins tx (Block.fluxInstalled inst) rfl seen
  have hends : finCount (seen.flatMap (Flux.mapEv tx (Block.fluxInstalled inst))) = ends := by
    rw [hm]; show finCount seen + _ = _; rw [hf]; exact Nat.add_right_comm _ _ _
  have e : Block.fluxMapper tx inst cbs ops =
      (feed ⟨none, none, false⟩ (seen.flatMap (Flux.mapEv tx (Block.fluxInstalled inst)))).out := rfl
  obtain ⟨h1, h2⟩ := feed_fin ⟨none, none, false⟩ (seen.flatMap (Flux.mapEv tx (Block.fluxInstalled inst)))
  rw [hends] at h1 h2
  rw [e]
  generalize feed ⟨none, none, false⟩ (seen.flatMap (Flux.mapEv tx (Block.fluxInstalled inst))) = w at h1 h2
  simp only [Bool.false_eq_true, false_or, Option.isSome_none, if_false, Nat.zero_add] at h1 h2
  unfold Block.Waiter.out
  obtain ⟨cur, res, cr⟩ := w
  dsimp only at h1 h2 ⊢
  cases cr with
  | true =>
    have := h1.mp rfl
    simp only [if_true, true_iff]
    exact ⟨this, ⟨fun h => (by cases h), fun h => (by omega)⟩⟩
  | false =>
    have n2 : ¬ 2 ≤ ends := fun h => absurd (h1.mpr h) (by decide)
    simp only [Bool.false_eq_true, if_false]
    cases res with
    | none =>
      have n1 : ¬ 1 ≤ ends := fun h => absurd (h2.mpr h) (by decide)
      exact ⟨⟨fun h => (by cases h), fun h => absurd h n2⟩, ⟨fun _ => (by omega), fun _ => rfl⟩⟩
    | some r =>
      have n1 := h2.mp rfl
      exact ⟨⟨fun h => (by cases h), fun h => absurd h n2⟩, ⟨fun h => (by cases h), fun h => (by omega)⟩⟩

theorem feed_failed (tx : Transform T D) (inst : Flux.Installed) (t : List (Flux.Ev T)) (w : Block.Waiter Err)
    (hf : inst.fin = true) (he : inst.onError = true) (h1 : ∀ e, .error e ∉ t) (h2 : finCount t = 0) :
    feed w (t.flatMap (Flux.mapEv tx inst)) =
      (failedWith tx t).foldl (fun w e => Block.finish { w with cur := some e }) w := by
  induction t generalizing w with
  | nil => rfl
  | cons x t ih =>
    have h1' : ∀ e, .error e ∉ t := fun e he => h1 e (List.mem_cons_of_mem _ he)
    rw [List.flatMap_cons, feed_append]
    cases x with
    | error e => exact absurd List.mem_cons_self (h1 e)
    | fin s => simp [finCount] at h2
    | next v =>
      have h2' : finCount t = 0 := h2
      rw [ih _ h1' h2']
      cases hv : tx v with
      | error e =>
        have h3 : failedWith tx (.next v :: t) = e :: failedWith tx t := by simp [failedWith, hv]
        rw [h3]
        simp only [Flux.mapEv, hv, hf, he, if_true]
        rfl
      | ok d =>
        have h3 : failedWith tx (.next v :: t) = failedWith tx t := by simp [failedWith, hv]
        rw [h3]
        simp only [Flux.mapEv, hv]
        split <;> rfl
    | _ => exact ih _ h1' h2

/-- C86 for mapped streams: when the transform has failed on one element and the stream goes on, `Block` has
returned the transform's error. Missing: what happens after that (`C86_mapper_crash_partial`). -/
theorem C86_mapper_failed_partial (tx : Transform T D) (inst : Flux.Installed) (cbs : List Nat)
    (ops : List (Flux.Op T)) (e : String)
    (hgo : ∀ op ∈ ops, isTerminal op = false)
    (hc : .cancelled ∉ (Flux.run (Flux.mapInstalled (Block.fluxInstalled inst)) cbs ops).2)
    (hone : failedWith tx (Flux.run (Flux.mapInstalled (Block.fluxInstalled inst)) cbs ops).2 = [e]) :
    Block.fluxMapper tx inst cbs ops = .returned (some e) := by
  have hf := C27_finally_once_partial (Flux.mapInstalled (Block.fluxInstalled inst)) cbs ops rfl
  have hs : ¬ sourceEnds (Flux.mapInstalled (Block.fluxInstalled inst)) cbs ops := by
    rintro ⟨a, op, b, rfl, h, -⟩
    rw [hgo op (by simp)] at h
    cases h
  have hcc : cancelCount (Flux.run (Flux.mapInstalled (Block.fluxInstalled inst)) cbs ops).2 = 0 := by
    unfold cancelCount
    rw [List.length_eq_zero_iff, List.filter_eq_nil_iff]
    intro x hx
    cases x <;> first | exact absurd hx hc | simp
  rw [if_neg hs, hcc] at hf
  have he : ∀ x, .error x ∉ (Flux.run (Flux.mapInstalled (Block.fluxInstalled inst)) cbs ops).2 := by
    intro x hx
    rw [error_mem_signals] at hx
    obtain ⟨k, -, hk, -⟩ := C26_flux_signals (Flux.mapInstalled (Block.fluxInstalled inst)) cbs ops
    rw [hk] at hx
    obtain ⟨op, hop, hx⟩ := List.mem_flatMap.mp hx
    have := hgo op (List.mem_of_mem_take hop)
    cases op with
    | error y a => cases this
    | next v a b => simp only [fluxExpected] at hx; split at hx <;> simp at hx
    | complete a => cases this
    | _ => simp [fluxExpected] at hx
  have := feed_failed tx (Block.fluxInstalled inst) _ ⟨none, none, false⟩ rfl rfl he hf
  have e1 : Block.fluxMapper tx inst cbs ops =
      (feed ⟨none, none, false⟩ ((Flux.run (Flux.mapInstalled (Block.fluxInstalled inst)) cbs ops).2.flatMap
        (Flux.mapEv tx (Block.fluxInstalled inst)))).out := rfl
  rw [e1, this, hone]
  rfl

/-- The transform fails on the second of three elements. -/
example : Block.fluxMapper (fun n : Nat => if n = 2 then .error "two" else .ok (n + 1))
    ⟨true, true, true, false, true, false⟩ [] [.next 1 [] [], .next 2 [] [], .next 3 [] []] =
    .returned (some "two") :=
  C86_mapper_failed_partial _ _ [] [.next 1 [] [], .next 2 [] [], .next 3 [] []] "two"
    (by simp [isTerminal]) (by decide) (by decide)

/-- ... and on a further one: the program crashes. -/
example : Block.fluxMapper (fun n : Nat => if n = 2 then .error "two" else .ok (n + 1))
    ⟨true, true, true, false, true, false⟩ [] [.next 1 [] [], .next 2 [] [], .next 2 [] []] = .crashed := by
  decide

end
end Verif.Props
