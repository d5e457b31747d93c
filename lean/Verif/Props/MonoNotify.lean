import Verif.Props.Mono
/-
Property C23 for any number of subscriptions.
-/
set_option autoImplicit false
namespace Verif.Props
open Verif
open Verif.Mono (Err Sig Signal Op Installed)

section
variable {T : Type}

/-- The signals that end a subscription, in order: the first one sent to each subscription.
`over` says for each subscription so far whether it has ended. -/
def finals : List Bool → List (Op T) → List Signal
  | _, [] => []
  | over, .subscribe _ :: r => finals (over ++ [false]) r
  | over, .signal i s _ _ :: r =>
    if over[i]? = some false then kindOf s :: finals (over.set i true) r else finals over r
  | over, .notify _ :: r => finals over r

/-- Nothing is registered any more, neither directly nor from inside callbacks. -/
def noMoreCallbacks (ops : List (Op T)) : Prop :=
  ∀ op ∈ ops, match op with
    | .signal _ _ a b => a = [] ∧ b = []
    | .notify _ => False
    | _ => True

theorem signal_notifies (m : Mono.State T) (i : Nat) (s : Sig T) (u : Mono.Sub T) (hu : m.subs[i]? = some u)
    (hc : u.closed = false) :
    (Mono.signal m i s [] []).1.subs.map (·.closed) = (m.subs.map (·.closed)).set i true ∧
    (Mono.signal m i s [] []).1.callbacks = m.callbacks ∧
    notifications (Mono.signal m i s [] []).2 = m.callbacks.map (·, kindOf s) := by
  have hn : ∀ k : Signal, notifications (m.callbacks.map (.notified · k) : List (Mono.Ev T)) =
      m.callbacks.map (·, k) := by
    intro k
    induction m.callbacks with
    | nil => rfl
    | cons c l ih => simpa [notifications] using ih
  have hcons : ∀ (x : Mono.Ev T) (l : List (Mono.Ev T)), (∀ c k, x ≠ .notified c k) →
      notifications (x :: l) = notifications l := by
    intro x l h
    cases x with
    | notified c k => exact absurd rfl (h c k)
    | _ => rfl
  cases s with
  | success v =>
    cases h1 : u.inst.onSuccess <;> cases h2 : u.inst.fin <;>
      simp [Mono.signal, hu, hc, h1, h2, Mono.doFinally, Mono.notifyAll, List.map_set, hn, hcons, kindOf]
  | error e =>
    cases h1 : u.inst.onError <;> cases h2 : u.inst.fin <;>
      simp [Mono.signal, hu, hc, h1, h2, Mono.doFinally, Mono.notifyAll, List.map_set, hn, hcons, kindOf]
  | cancel =>
    cases h2 : u.inst.fin <;>
      simp [Mono.signal, hu, hc, h2, Mono.doFinally, Mono.notifyAll, List.map_set, hn, hcons, kindOf]

theorem many_notified (ops : List (Op T)) (hq : noMoreCallbacks ops) : ∀ m : Mono.State T,
    notifications (Mono.runFrom m ops).2 =
      (finals (m.subs.map (·.closed)) ops).flatMap fun k => m.callbacks.map (·, k) := by
  induction ops with
  | nil => intro m; rfl
  | cons op ops ih =>
    intro m
    have ih := ih (fun x hx => hq x (List.mem_cons_of_mem _ hx))
    have ho := hq op List.mem_cons_self
    simp only [Mono.runFrom, notifications_append]
    cases op with
    | subscribe inst =>
      rw [ih]
      simp [Mono.step, Mono.subscribe, finals, notifications]
    | notify cb => exact absurd ho id
    | signal i s a b =>
      obtain ⟨rfl, rfl⟩ := ho
      rw [ih]
      simp only [Mono.step, finals]
      cases hu : m.subs[i]? with
      | none =>
        rw [if_neg (by simp [hu])]
        simp [Mono.signal, hu, notifications]
      | some u =>
        cases hc : u.closed with
        | true =>
          rw [if_neg (by simp [hu, hc])]
          simp [Mono.signal, hu, hc, notifications]
        | false =>
          obtain ⟨h1, h2, h3⟩ := signal_notifies m i s u hu hc
          rw [if_pos (by simp [hu, hc]), h1, h2, h3, List.flatMap_cons]

/-- C23 for any number of subscriptions, exactly what the code does: callbacks that were registered before
the first subscription are called once for each subscription that ends, with the signal that ends it. So the
property holds if exactly one subscription ends. Missing: callbacks registered later, for which see
`C23_notify_partial`. -/
theorem C23_many_partial (before : List Nat) (ops : List (Op T)) (hq : noMoreCallbacks ops) :
    notifications (Mono.run (before.map .notify ++ ops)).2 =
      (finals [] ops).flatMap (fun k => before.map (·, k)) ∧
    ∀ k, finals [] ops = [k] → notifications (Mono.run (before.map .notify ++ ops)).2 = before.map (·, k) := by
  have h : notifications (Mono.run (before.map .notify ++ ops)).2 =
      (finals [] ops).flatMap (fun k => before.map (·, k)) := by
    unfold Mono.run
    rw [before_run _ _ _ rfl, many_notified ops hq]
    simp [Mono.State.init]
  exact ⟨h, fun k hk => by rw [h, hk]; simp⟩

/-- Three subscriptions, of which two end; the second signal to the first one does not count. -/
example : notifications (Mono.run ([.notify 7, .notify 8, .subscribe ⟨true, true, true⟩,
    .subscribe ⟨false, false, false⟩, .signal 0 (.error (some "x")) [] [], .signal 0 (.success 1) [] [],
    .subscribe ⟨true, true, true⟩, .signal 2 (.success 2) [] []] : List (Op Nat))).2 =
    [(7, .error), (8, .error), (7, .complete), (8, .complete)] :=
  (C23_many_partial [7, 8] [.subscribe ⟨true, true, true⟩, .subscribe ⟨false, false, false⟩,
    .signal 0 (.error (some "x")) [] [], .signal 0 (.success 1) [] [], .subscribe ⟨true, true, true⟩,
    .signal 2 (.success 2) [] []] (by intro op h; simp at h; rcases h with rfl | rfl | rfl | rfl | rfl | rfl <;> simp)).1

end
end Verif.Props
