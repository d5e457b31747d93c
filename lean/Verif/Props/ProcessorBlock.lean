import Verif.Props.Block
/-
Property C85 for processors, exactly: any number of subscribers before, while and after somebody
blocks.
-/
set_option autoImplicit false
namespace Verif.Props
open Verif
open Verif.Mono (Err Sig POp)

section
variable {T : Type}

/-! ## Specification -/

/-- The results signalled up to the next subscription. -/
def untilNext : List (POp T) → List (Sig T)
  | [] => []
  | .subscribe _ :: _ => []
  | .success v :: r => .success v :: untilNext r
  | .error e :: r => .error e :: untilNext r

/-- The results signalled since the latest subscription; `none`: nobody has subscribed. -/
def sinceLast : List (POp T) → Option (List (Sig T))
  | [] => none
  | .subscribe _ :: r => match sinceLast r with
    | some l => some l
    | none => some (untilNext r)
  | .success _ :: r => sinceLast r
  | .error _ :: r => sinceLast r

/-- What the latest subscriber has got: what the processor kept from the time before anybody had
subscribed (C24), then the results signalled since it subscribed. -/
def latestGot (ops : List (POp T)) : List (Sig T) :=
  match sinceLast ops with
  | none => []
  | some l => kept (untilNext ops) ++ l

/-! ## A processor as a mono -/

def procStored (su : Option T) (er : Err) : List (Sig T) :=
  match su with
  | some v => [.success v]
  | none => match er with
    | some e => [.error (some e)]
    | none => []

/-- The number of subscriptions, and what is stored. -/
structure Phase (T : Type) where
  n : Nat
  su : Option T
  er : Err

def phaseStep (q : Phase T) : POp T → Phase T × List (Mono.Op T)
  | .subscribe i => ({ q with n := q.n + 1 },
      .subscribe i :: (procStored q.su q.er).map (.signal q.n · [] []))
  | .success v => if q.n = 0 then ({ q with su := some v }, [])
      else (q, [.signal (q.n - 1) (.success v) [] []])
  | .error e => if q.n = 0 then ({ q with er := e }, [])
      else (q, [.signal (q.n - 1) (.error e) [] []])

def phaseRun (q : Phase T) : List (POp T) → Phase T × List (Mono.Op T)
  | [] => (q, [])
  | op :: ops => ((phaseRun (phaseStep q op).1 ops).1,
      (phaseStep q op).2 ++ (phaseRun (phaseStep q op).1 ops).2)

theorem phaseRun_append (a b : List (POp T)) : ∀ q : Phase T,
    phaseRun q (a ++ b) = ((phaseRun (phaseRun q a).1 b).1,
      (phaseRun q a).2 ++ (phaseRun (phaseRun q a).1 b).2) := by
  induction a with
  | nil => intro q; simp [phaseRun]
  | cons op a ih => intro q; simp [phaseRun, ih]

structure PhaseOf (p : Mono.Proc T) (q : Phase T) : Prop where
  len : p.mono.subs.length = q.n
  sink : p.sink = if q.n = 0 then none else some (q.n - 1)
  su : p.success = q.su
  er : p.err = q.er

theorem signal_len (m : Mono.State T) (i : Nat) (x : Sig T) :
    (Mono.signal m i x [] []).1.subs.length = m.subs.length := by
  cases hs : m.subs[i]? with
  | none => simp [Mono.signal, hs]
  | some s =>
    cases hc : s.closed with
    | true => simp [Mono.signal, hs, hc]
    | false => rw [(signal_spec m i x [] [] s hs hc 0).1]; simp

theorem phase_step (p : Mono.Proc T) (q : Phase T) (h : PhaseOf p q) (op : POp T) :
    PhaseOf (p.step op).1 (phaseStep q op).1 ∧
    Mono.runFrom p.mono (phaseStep q op).2 = ((p.step op).1.mono, (p.step op).2) := by
  obtain ⟨mono, sink, su, er⟩ := p
  obtain ⟨n, su', er'⟩ := q
  obtain ⟨h1, h2, h3, h4⟩ := h
  dsimp only at h1 h2 h3 h4
  subst h3 h4
  cases op with
  | subscribe i =>
    have hl : (Mono.subscribe mono i).subs.length = n + 1 := by simp [Mono.subscribe, h1]
    cases su with
    | some v =>
      refine ⟨⟨?_, ?_, ?_, ?_⟩, ?_⟩
      · simp [Mono.Proc.step, phaseStep, signal_len, hl]
      · simp [Mono.Proc.step, phaseStep, h1]
      · simp [Mono.Proc.step, phaseStep]
      · simp [Mono.Proc.step, phaseStep]
      · simp [Mono.Proc.step, phaseStep, procStored, Mono.runFrom, Mono.step, h1]
    | none =>
      cases er with
      | some e =>
        refine ⟨⟨?_, ?_, ?_, ?_⟩, ?_⟩
        · simp [Mono.Proc.step, phaseStep, signal_len, hl]
        · simp [Mono.Proc.step, phaseStep, h1]
        · simp [Mono.Proc.step, phaseStep]
        · simp [Mono.Proc.step, phaseStep]
        · simp [Mono.Proc.step, phaseStep, procStored, Mono.runFrom, Mono.step, h1]
      | none =>
        refine ⟨⟨?_, ?_, ?_, ?_⟩, ?_⟩
        · simp [Mono.Proc.step, phaseStep, hl]
        · simp [Mono.Proc.step, phaseStep, h1]
        · simp [Mono.Proc.step, phaseStep]
        · simp [Mono.Proc.step, phaseStep]
        · simp [Mono.Proc.step, phaseStep, procStored, Mono.runFrom, Mono.step]
  | success v =>
    by_cases hn : n = 0
    · rw [if_pos hn] at h2
      subst h2
      simp only [Mono.Proc.step, phaseStep, if_pos hn]
      exact ⟨⟨h1, by simp [hn], rfl, rfl⟩, rfl⟩
    · rw [if_neg hn] at h2
      subst h2
      simp only [Mono.Proc.step, phaseStep, if_neg hn]
      exact ⟨⟨by simp [signal_len, h1], by simp [hn], rfl, rfl⟩,
        by simp [Mono.runFrom, Mono.step]⟩
  | error e =>
    by_cases hn : n = 0
    · rw [if_pos hn] at h2
      subst h2
      simp only [Mono.Proc.step, phaseStep, if_pos hn]
      exact ⟨⟨h1, by simp [hn], rfl, rfl⟩, rfl⟩
    · rw [if_neg hn] at h2
      subst h2
      simp only [Mono.Proc.step, phaseStep, if_neg hn]
      exact ⟨⟨by simp [signal_len, h1], by simp [hn], rfl, rfl⟩,
        by simp [Mono.runFrom, Mono.step]⟩

theorem phase_run (ops : List (POp T)) : ∀ (p : Mono.Proc T) (q : Phase T), PhaseOf p q →
    PhaseOf (p.run ops).1 (phaseRun q ops).1 ∧
    Mono.runFrom p.mono (phaseRun q ops).2 = ((p.run ops).1.mono, (p.run ops).2) := by
  induction ops with
  | nil => intro p q h; exact ⟨h, rfl⟩
  | cons op ops ih =>
    intro p q h
    obtain ⟨h1, h2⟩ := phase_step p q h op
    obtain ⟨h3, h4⟩ := ih _ _ h1
    simp only [Mono.Proc.run, phaseRun]
    refine ⟨h3, ?_⟩
    rw [runFrom_append, h2]
    dsimp only
    rw [h4]

def phase0 : Phase T := ⟨0, none, none⟩

theorem phase0_of : PhaseOf (Mono.Proc.init : Mono.Proc T) phase0 := ⟨rfl, rfl, rfl, rfl⟩

theorem phase_init (ops : List (POp T)) :
    PhaseOf (Mono.Proc.run Mono.Proc.init ops).1 (phaseRun phase0 ops).1 ∧
    Mono.run (phaseRun phase0 ops).2 =
      ((Mono.Proc.run Mono.Proc.init ops).1.mono, (Mono.Proc.run Mono.Proc.init ops).2) :=
  phase_run ops _ _ phase0_of

theorem phase_subs (ops : List (POp T)) :
    (subscriptions (phaseRun phase0 ops).2).length = (phaseRun phase0 ops).1.n := by
  obtain ⟨h1, h2⟩ := phase_init ops
  rw [← (mono_inv _).len, h2]
  exact h1.len

theorem proc_as_mono (before between after : List (POp T)) :
    Block.proc before between after =
      Block.mono (phaseRun phase0 before).2
        (phaseRun (phaseRun phase0 before).1 between).2
        ((procStored (phaseRun phase0 (before ++ between)).1.su
            (phaseRun phase0 (before ++ between)).1.er).map
          (.signal (phaseRun phase0 (before ++ between)).1.n · [] []) ++
        (phaseRun { (phaseRun phase0 (before ++ between)).1 with
          n := (phaseRun phase0 (before ++ between)).1.n + 1 } after).2) := by
  have a := phase_init before
  have b := phase_init (before ++ between)
  have c := phase_init (before ++ between ++ .subscribe Block.monoInstalled :: after)
  have e1 : (phaseRun phase0 before).2 ++ (phaseRun (phaseRun phase0 before).1 between).2 =
      (phaseRun phase0 (before ++ between)).2 := by rw [phaseRun_append]
  rw [phaseRun_append] at c
  simp only [phaseRun, phaseStep, List.cons_append] at c
  simp only [Block.proc, Block.mono]
  rw [e1, a.2, b.2, c.2]

/-! ## What the subscribers get -/

theorem signalsTo_append (i : Nat) (a b : List (Mono.Op T)) : ∀ n,
    signalsTo i n (a ++ b) = signalsTo i n a ++ signalsTo i (n + (subscriptions a).length) b := by
  induction a with
  | nil => intro n; simp [signalsTo, subscriptions]
  | cons op a ih =>
    intro n
    cases op with
    | subscribe j =>
      simp only [List.cons_append, signalsTo, ih]
      congr 2
      simp [subscriptions]; omega
    | signal j s x y =>
      simp only [List.cons_append, signalsTo, ih]
      split
      · simp [subscriptions]
      · simp [subscriptions]
    | notify cb =>
      simp only [List.cons_append, signalsTo, ih]
      simp [subscriptions]

theorem signalsTo_stored (k n : Nat) (l : List (Sig T)) (h : k < n) :
    signalsTo k n (l.map (fun x => (.signal k x [] [] : Mono.Op T))) = l := by
  induction l with
  | nil => rfl
  | cons x l ih => simp [signalsTo, ih, h]

theorem signalsTo_others (k j n : Nat) (l : List (Sig T)) (h : j ≠ k) :
    signalsTo k n (l.map (fun x => (.signal j x [] [] : Mono.Op T))) = [] := by
  induction l with
  | nil => rfl
  | cons x l ih => simp [signalsTo, ih, h]

theorem stored_subs (j : Nat) (l : List (Sig T)) :
    subscriptions (l.map (fun x => (.signal j x [] [] : Mono.Op T))) = [] := by
  induction l with
  | nil => rfl
  | cons x l ih => simpa [subscriptions] using ih

theorem gone_gets (k : Nat) (ops : List (POp T)) : ∀ q : Phase T, k + 1 < q.n →
    signalsTo k q.n (phaseRun q ops).2 = [] := by
  induction ops with
  | nil => intro q _; rfl
  | cons op ops ih =>
    intro q h
    have hn : q.n ≠ 0 := by omega
    have hk : q.n - 1 ≠ k := by omega
    cases op with
    | subscribe i =>
      simp only [phaseRun, phaseStep, List.cons_append, signalsTo]
      rw [signalsTo_append, signalsTo_others _ _ _ _ (by omega), stored_subs]
      exact ih { q with n := q.n + 1 } (by dsimp only; omega)
    | success v =>
      simp only [phaseRun, phaseStep, if_neg hn, List.cons_append, List.nil_append, signalsTo]
      rw [if_neg (by omega)]
      exact ih q h
    | error e =>
      simp only [phaseRun, phaseStep, if_neg hn, List.cons_append, List.nil_append, signalsTo]
      rw [if_neg (by omega)]
      exact ih q h

theorem latest_gets (k : Nat) (ops : List (POp T)) : ∀ q : Phase T, q.n = k + 1 →
    signalsTo k (k + 1) (phaseRun q ops).2 = untilNext ops := by
  induction ops with
  | nil => intro q _; rfl
  | cons op ops ih =>
    intro q h
    have hn : q.n ≠ 0 := by omega
    have hk : q.n - 1 = k := by omega
    cases op with
    | subscribe i =>
      simp only [phaseRun, phaseStep, List.cons_append, signalsTo, untilNext]
      rw [signalsTo_append, signalsTo_others _ _ _ _ (by omega), stored_subs]
      have := gone_gets k ops { q with n := q.n + 1 } (by dsimp only; omega)
      dsimp only at this
      simpa [h] using this
    | success v =>
      simp only [phaseRun, phaseStep, if_neg hn, List.cons_append, List.nil_append, signalsTo, hk,
        untilNext]
      rw [if_pos ⟨trivial, by omega⟩, ih q h]
    | error e =>
      simp only [phaseRun, phaseStep, if_neg hn, List.cons_append, List.nil_append, signalsTo, hk,
        untilNext]
      rw [if_pos ⟨trivial, by omega⟩, ih q h]

theorem untilNext_append (a b : List (POp T)) :
    (sinceLast a = none → untilNext (a ++ b) = untilNext a ++ untilNext b) ∧
    (sinceLast a ≠ none → untilNext (a ++ b) = untilNext a) := by
  induction a with
  | nil => simp [sinceLast, untilNext]
  | cons op a ih =>
    obtain ⟨h1, h2⟩ := ih
    cases op with
    | subscribe i =>
      refine ⟨fun h => ?_, fun _ => rfl⟩
      simp only [sinceLast] at h
      cases hs : sinceLast a <;> simp [hs] at h
    | success v =>
      exact ⟨fun h => congrArg (Sig.success v :: ·) (h1 h), fun h => congrArg (Sig.success v :: ·) (h2 h)⟩
    | error e =>
      exact ⟨fun h => congrArg (Sig.error e :: ·) (h1 h), fun h => congrArg (Sig.error e :: ·) (h2 h)⟩

theorem untilNext_results (ops : List (POp T)) : ∀ x ∈ untilNext ops, isResult x := by
  induction ops with
  | nil => intro x h; simp [untilNext] at h
  | cons op ops ih =>
    intro x h
    cases op with
    | subscribe i => simp [untilNext] at h
    | success v =>
      rcases List.mem_cons.mp h with rfl | h
      · trivial
      · exact ih x h
    | error v =>
      rcases List.mem_cons.mp h with rfl | h
      · trivial
      · exact ih x h

/-- Once somebody has subscribed what is stored does not change. -/
theorem stored_stays (ops : List (POp T)) : ∀ q : Phase T, q.n ≠ 0 →
    (phaseRun q ops).1.su = q.su ∧ (phaseRun q ops).1.er = q.er := by
  induction ops with
  | nil => intro q _; exact ⟨rfl, rfl⟩
  | cons op ops ih =>
    intro q h
    cases op with
    | subscribe i => exact ih { q with n := q.n + 1 } (by simp)
    | success v => simp only [phaseRun, phaseStep, if_neg h]; exact ih q h
    | error v => simp only [phaseRun, phaseStep, if_neg h]; exact ih q h

theorem stored_until (ops : List (POp T)) : ∀ q : Phase T, q.n = 0 →
    (phaseRun q ops).1.su = (phaseRun q ((untilNext ops).map sigOfPOp)).1.su ∧
    (phaseRun q ops).1.er = (phaseRun q ((untilNext ops).map sigOfPOp)).1.er := by
  induction ops with
  | nil => intro q _; exact ⟨rfl, rfl⟩
  | cons op ops ih =>
    intro q h
    cases op with
    | subscribe i =>
      have := stored_stays ops { q with n := q.n + 1 } (by simp)
      exact this
    | success v =>
      simp only [phaseRun, phaseStep, if_pos h, untilNext, List.map_cons, sigOfPOp]
      exact ih { q with su := some v } h
    | error v =>
      simp only [phaseRun, phaseStep, if_pos h, untilNext, List.map_cons, sigOfPOp]
      exact ih { q with er := v } h

theorem stored_kept (ops : List (POp T)) :
    procStored (phaseRun phase0 ops).1.su (phaseRun phase0 ops).1.er = kept (untilNext ops) := by
  obtain ⟨e1, e2⟩ := stored_until ops phase0 rfl
  rw [e1, e2]
  obtain ⟨su, er, h1, h2, h3⟩ := proc_before (untilNext ops) (untilNext_results ops)
  have hp := (phase_init ((untilNext ops).map sigOfPOp)).1
  rw [h1] at hp
  have hsu := hp.su
  have her := hp.er
  dsimp only at hsu her
  rw [← hsu, ← her]
  unfold kept
  rw [← h2]
  cases hs : su with
  | some v => rfl
  | none =>
    rw [h3 hs]
    cases hg : (untilNext ops).getLast? with
    | none => rfl
    | some y =>
      cases y with
      | success v => rfl
      | error e => cases e <;> rfl
      | cancel => rfl

/-- What a subscriber who comes after `before` gets. -/
theorem newcomer_gets (before after : List (POp T)) (inst : Mono.Installed) :
    signalsTo (subscriptions (phaseRun phase0 before).2).length 0
      (phaseRun phase0 (before ++ .subscribe inst :: after)).2 =
      kept (untilNext before) ++ untilNext after := by
  rw [phaseRun_append]
  dsimp only
  rw [signalsTo_append, signalsTo_nil_of_ge _ _ (Nat.le_refl _), List.nil_append, Nat.zero_add]
  simp only [phaseRun, phaseStep, List.cons_append, signalsTo]
  rw [phase_subs, signalsTo_append, signalsTo_stored _ _ _ (by omega), stored_subs, stored_kept,
    List.length_nil, Nat.add_zero,
    latest_gets _ after { (phaseRun phase0 before).1 with n := (phaseRun phase0 before).1.n + 1 } rfl]

theorem sinceLast_split (ops : List (POp T)) (l : List (Sig T)) (h : sinceLast ops = some l) :
    ∃ a i b, ops = a ++ .subscribe i :: b ∧ sinceLast b = none ∧ untilNext b = l := by
  induction ops with
  | nil => cases h
  | cons op ops ih =>
    cases op with
    | subscribe i =>
      simp only [sinceLast] at h
      cases hs : sinceLast ops with
      | none => rw [hs] at h; cases h; exact ⟨[], i, ops, rfl, hs, rfl⟩
      | some l' =>
        rw [hs] at h; cases h
        obtain ⟨a, j, b, rfl, h2, h3⟩ := ih hs
        exact ⟨.subscribe i :: a, j, b, rfl, h2, h3⟩
    | success v =>
      obtain ⟨a, j, b, rfl, h2, h3⟩ := ih h
      exact ⟨.success v :: a, j, b, rfl, h2, h3⟩
    | error v =>
      obtain ⟨a, j, b, rfl, h2, h3⟩ := ih h
      exact ⟨.error v :: a, j, b, rfl, h2, h3⟩

theorem quiet_phase (ops : List (POp T)) (h : sinceLast ops = none) : ∀ q : Phase T,
    (phaseRun q ops).1.n = q.n := by
  induction ops with
  | nil => intro q; rfl
  | cons op ops ih =>
    intro q
    cases op with
    | subscribe i => simp only [sinceLast] at h; cases hs : sinceLast ops <;> simp [hs] at h
    | success v =>
      simp only [phaseRun, phaseStep]
      split
      · exact ih h _
      · exact ih h _
    | error v =>
      simp only [phaseRun, phaseStep]
      split
      · exact ih h _
      · exact ih h _

theorem latest_recorded (before : List (POp T)) :
    latestOutcome (phaseRun phase0 before).2 = recorded (latestGot before) := by
  unfold latestOutcome latestGot
  cases hs : sinceLast before with
  | none =>
    have : (subscriptions (phaseRun phase0 before).2).length = 0 := by
      rw [phase_subs, quiet_phase before hs]; rfl
    rw [if_pos (List.length_eq_zero_iff.mp this)]
    rfl
  | some l =>
    obtain ⟨a, i, b, rfl, h2, h3⟩ := sinceLast_split before l hs
    have hlen : (subscriptions (phaseRun phase0 (a ++ .subscribe i :: b)).2).length =
        (subscriptions (phaseRun phase0 a).2).length + 1 := by
      rw [phase_subs, phase_subs, phaseRun_append]
      simp only [phaseRun, phaseStep]
      rw [quiet_phase b h2]
    rw [if_neg (by intro h; rw [h] at hlen; simp at hlen), hlen, Nat.add_sub_cancel, newcomer_gets, h3]
    dsimp only
    congr 2
    by_cases ha : sinceLast a = none
    · rw [(untilNext_append a _).1 ha]; simp [untilNext]
    · rw [(untilNext_append a _).2 ha]

/-! ## C85 -/

/-- C85 for processors, exactly, for any number of subscribers: if the latest subscriber before the call
has got a result, `Block` returns that; otherwise it returns the first of what the processor kept from
the time before anybody subscribed and of what is signalled after `Block` has subscribed, as long as
nobody else subscribes; and waits if there is neither. Missing (the code loses them, see
`C85_violated`): the results in `between` while somebody is subscribed, those after a later
subscription, and all but the last of the ones before the first subscription. -/
theorem C85_processor_exact_partial (before between after : List (POp T)) :
    Block.proc before between after =
      if latestGot before ≠ [] then blockOutcome (latestGot before)
      else blockOutcome (kept (untilNext (before ++ between)) ++ untilNext after) := by
  rw [proc_as_mono, C85_mono, latest_recorded]
  have e1 : (phaseRun phase0 before).2 ++ (phaseRun (phaseRun phase0 before).1 between).2 =
      (phaseRun phase0 (before ++ between)).2 := by rw [phaseRun_append]
  have hres : ∀ x ∈ latestGot before, isResult x := by
    intro x hx
    unfold latestGot at hx
    cases hs : sinceLast before with
    | none => rw [hs] at hx; cases hx
    | some l =>
      rw [hs] at hx
      obtain ⟨a, i, b, -, -, rfl⟩ := sinceLast_split before l hs
      rcases List.mem_append.mp hx with h | h
      · unfold kept at h
        split at h
        · rw [List.mem_singleton.mp h]; trivial
        · split at h
          · rw [List.mem_singleton.mp h]; trivial
          · cases h
      · exact untilNext_results b x h
  cases hg : latestGot before with
  | nil =>
    simp only [recorded, ne_eq, not_true, if_false]
    rw [e1]
    have := newcomer_gets (before ++ between) after Block.monoInstalled
    rw [phaseRun_append (before ++ between)] at this
    simp only [phaseRun, phaseStep, List.cons_append] at this
    rw [this]
  | cons x l =>
    have hx := hres x (by rw [hg]; simp)
    rw [if_pos (by simp)]
    cases x with
    | success v => rfl
    | error e => rfl
    | cancel => exact absurd hx id

/-- Two subscribers; the second one gets 6, and so does the blocked caller. -/
example : Block.proc [.subscribe ⟨true, true, false⟩, .success 5, .subscribe ⟨true, true, false⟩, .success 6]
    [.success 7] ([.success 8] : List (POp Nat)) = .returned (some 6, none) := by
  rw [C85_processor_exact_partial]; rfl

/-- A result that comes after yet another subscription does not reach the blocked caller. -/
example : Block.proc [.subscribe ⟨true, true, false⟩] [] ([.subscribe ⟨true, true, false⟩, .success 8] :
    List (POp Nat)) = .waiting := by
  rw [C85_processor_exact_partial]; rfl

end
end Verif.Props
