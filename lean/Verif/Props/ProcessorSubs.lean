import Verif.Props.ProcessorBlock
/-
Property C24 for any number of subscribers.
-/
set_option autoImplicit false
namespace Verif.Props
open Verif
open Verif.Mono (Err Sig POp Installed)

section
variable {T : Type}

/-- The subscribers, in order. -/
def subscribersOf : List (POp T) → List Installed
  | [] => []
  | .subscribe i :: r => i :: subscribersOf r
  | .success _ :: r => subscribersOf r
  | .error _ :: r => subscribersOf r

theorem subscriptions_append (a b : List (Mono.Op T)) :
    subscriptions (a ++ b) = subscriptions a ++ subscriptions b := by simp [subscriptions]

theorem phase_subscribers (ops : List (POp T)) : ∀ q : Phase T,
    subscriptions (phaseRun q ops).2 = subscribersOf ops := by
  induction ops with
  | nil => intro q; rfl
  | cons op ops ih =>
    intro q
    simp only [phaseRun, subscriptions_append, ih]
    cases op with
    | subscribe i =>
      have : subscriptions (phaseStep q (.subscribe i)).2 = [i] := by
        have h := stored_subs q.n (procStored q.su q.er)
        simp only [phaseStep]
        rw [show (Mono.Op.subscribe i :: (procStored q.su q.er).map
          (fun x => (.signal q.n x [] [] : Mono.Op T))) = [.subscribe i] ++ _ from rfl,
          subscriptions_append, h]
        rfl
      rw [this]; rfl
    | success v =>
      have : subscriptions (phaseStep q (.success v)).2 = [] := by
        simp only [phaseStep]; split <;> rfl
      rw [this]; rfl
    | error v =>
      have : subscriptions (phaseStep q (.error v)).2 = [] := by
        simp only [phaseStep]; split <;> rfl
      rw [this]; rfl

/-- C24 for any number of subscribers, exactly what the code does: a subscriber gets the first of what the
processor kept of the results signalled before anybody subscribed, and of the results signalled after its
own subscription and before the next one. Missing: the results after the next subscription
(`C24_second_subscriber_violated`), those that came while somebody else was subscribed, and all but one of
the early ones. -/
theorem C24_subscribers_partial (before after : List (POp T)) (inst : Installed) :
    eventsOf (subscribersOf before).length
      (Mono.Proc.run Mono.Proc.init (before ++ .subscribe inst :: after)).2 =
    outcome (subscribersOf before).length inst (kept (untilNext before) ++ untilNext after) := by
  have h := phase_init (before ++ .subscribe inst :: after)
  have hs := phase_subscribers (before ++ .subscribe inst :: after) phase0
  have hk : subscribersOf (before ++ .subscribe inst :: after) =
      subscribersOf before ++ inst :: subscribersOf after := by
    clear h hs
    induction before with
    | nil => rfl
    | cons op before ih => cases op <;> simp [subscribersOf, ih]
  have hn := newcomer_gets before after inst
  rw [phase_subscribers] at hn
  have := C22_mono_outcome_partial.1 (phaseRun phase0 (before ++ .subscribe inst :: after)).2
    (subscribersOf before).length inst (by rw [hs, hk]; simp)
  rw [hn, h.2] at this
  exact this

/-- The second of three subscribers: 6 comes while it is the latest one. -/
example : eventsOf 1 (Mono.Proc.run Mono.Proc.init
    [.subscribe ⟨true, true, true⟩, .success 5, .subscribe ⟨true, true, true⟩, .success 6,
      .subscribe ⟨true, true, true⟩, .success (7 : Nat)]).2 = [.success 1 6, .fin 1 .complete] :=
  C24_subscribers_partial [.subscribe ⟨true, true, true⟩, .success 5]
    [.success 6, .subscribe ⟨true, true, true⟩, .success 7] ⟨true, true, true⟩

/-- C24 fails with a second subscriber: it takes the place of the first one, which then never gets
anything, whatever is signalled. -/
theorem C24_second_subscriber_violated (a b : Installed) (results : List (Sig T))
    (hr : ∀ x ∈ results, isResult x) :
    eventsOf 0 (Mono.Proc.run Mono.Proc.init (.subscribe a :: .subscribe b :: results.map sigOfPOp)).2 = [] ∧
    eventsOf 1 (Mono.Proc.run Mono.Proc.init (.subscribe a :: .subscribe b :: results.map sigOfPOp)).2 =
      outcome 1 b results := by
  have hu : untilNext (results.map sigOfPOp) = results := by
    induction results with
    | nil => rfl
    | cons x l ih =>
      have ih := ih (fun y hy => hr y (by simp [hy]))
      have := hr x (by simp)
      cases x with
      | success v => simp [sigOfPOp, untilNext, ih]
      | error e => simp [sigOfPOp, untilNext, ih]
      | cancel => exact absurd this id
  refine ⟨C24_subscribers_partial [] (.subscribe b :: results.map sigOfPOp) a, ?_⟩
  have := C24_subscribers_partial [.subscribe a] (results.map sigOfPOp) b
  rw [hu] at this
  exact this

example : ∀ x ∈ [(.success 5 : Sig Nat), .error none], isResult x := by simp [isResult]

end
end Verif.Props
