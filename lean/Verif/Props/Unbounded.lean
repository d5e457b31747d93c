import Verif.Model.Unbounded
/-
Properties C13 and C14.
-/
set_option autoImplicit false
namespace Verif.Props
open Verif Unbounded

variable {T : Type}

/-- The values accepted by `Put` in a history: those for which it returned true. -/
def accepted : List (Op T × Out T) → List T
  | [] => []
  | (.put t, .put true) :: h => t :: accepted h
  | _ :: h => accepted h

/-- The values received in a history. -/
def received : List (Op T × Out T) → List T
  | [] => []
  | (_, .recv (.val t)) :: h => t :: received h
  | _ :: h => received h

/-- `Dispose` was called. -/
def disposedIn : List (Op T × Out T) → Bool
  | [] => false
  | (.dispose, _) :: _ => true
  | _ :: h => disposedIn h

/-- Internal consistency of a buffer: the channel is closed only when disposed and drained. -/
structure Inv (s : St T) : Prop where
  closed : s.closed = true → s.disposed = true ∧ s.backlog = []

theorem inv_init : Inv (init : St T) := ⟨by simp [init]⟩

theorem put_spec (s : St T) (t : T) (h : Inv s) :
    ∃ s' b, put s t = .ok (s', b) ∧ Inv s' ∧ b = !s.disposed ∧ s'.disposed = s.disposed ∧
      s'.chan.toList ++ s'.backlog = s.chan.toList ++ s.backlog ++ (if b then [t] else []) ∧
      (b = false → s' = s) := by
  unfold put
  by_cases hd : s.disposed
  · simp [hd, h]
  · have hc : s.closed = false := by
      cases hcl : s.closed
      · rfl
      · exact absurd (h.closed hcl).1 hd
    cases hb : s.backlog with
    | nil =>
      cases hch : s.chan with
      | none =>
        simp [hd, trySend, hc, hch, hb]
        exact ⟨by simp [hc]⟩
      | some v =>
        simp [hd, trySend, hc, hch, hb]
        exact ⟨by simp [hc]⟩
    | cons b bs =>
      simp [hd, hb]
      exact ⟨by simp [hc]⟩

theorem load_spec (s : St T) (h : Inv s) :
    ∃ s' n, load s = .ok (s', n) ∧ Inv s' ∧ s'.disposed = s.disposed ∧
      s'.chan.toList ++ s'.backlog = s.chan.toList ++ s.backlog ∧
      (s'.chan = none → s'.backlog = [] ∧ (s'.disposed = true → s'.closed = true)) := by
  unfold load
  cases hb : s.backlog with
  | nil =>
    by_cases hd : s.disposed
    · simp [hd, close, hb]
      exact ⟨by simp [hd, hb]⟩
    · simp [hd, hb]
      exact h
  | cons b bs =>
    have hc : s.closed = false := by
      cases hcl : s.closed
      · rfl
      · have := (h.closed hcl).2; rw [hb] at this; cases this
    cases hch : s.chan with
    | none =>
      simp [trySend, hc, hch]
      exact ⟨by simp [hc]⟩
    | some v =>
      simp [trySend, hc, hch, hb]
      exact h

theorem dispose_inv (s : St T) (h : Inv s) : Inv (dispose s) ∧
    (dispose s).chan = s.chan ∧ (dispose s).backlog = s.backlog ∧ (dispose s).disposed = true := by
  unfold dispose
  cases hb : s.backlog with
  | nil => simp [close, hb]; exact ⟨by simp [hb]⟩
  | cons b bs =>
    simp [hb]
    exact ⟨fun hc => by simpa [hb] using (h.closed hc).2⟩

theorem recv_inv (s : St T) (h : Inv s) : Inv (recv s).1 ∧
    (recv s).1.backlog = s.backlog ∧ (recv s).1.disposed = s.disposed ∧
    s.chan.toList = (match (recv s).2 with | .val t => [t] | _ => []) ++ (recv s).1.chan.toList := by
  unfold recv
  cases hch : s.chan with
  | none => cases hc : s.closed <;> simp [hch, h]
  | some v => simp; exact ⟨fun hc => h.closed hc⟩

/-- No operation panics, and the invariant is kept. -/
theorem step_spec (s : St T) (op : Op T) (h : Inv s) :
    ∃ s' o, step s op = .ok (s', o) ∧ Inv s' ∧
      received [(op, o)] ++ (s'.chan.toList ++ s'.backlog) =
        s.chan.toList ++ s.backlog ++ accepted [(op, o)] ∧
      s'.disposed = (s.disposed || disposedIn [(op, o)]) := by
  cases op with
  | put t =>
    obtain ⟨s', b, e, hi, hb, hd, hl, _⟩ := put_spec s t h
    refine ⟨s', .put b, by simp [step, e], hi, ?_, by simp [hd, disposedIn]⟩
    cases b <;> simp [received, accepted] <;> simpa using hl
  | load =>
    obtain ⟨s', n, e, hi, hd, hl, _⟩ := load_spec s h
    refine ⟨s', .load n, by simp [step, e], hi, ?_, by simp [hd, disposedIn]⟩
    simpa [received, accepted] using hl
  | dispose =>
    obtain ⟨hi, h1, h2, h3⟩ := dispose_inv s h
    exact ⟨_, _, rfl, hi, by simp [received, accepted, h1, h2], by simp [h3, disposedIn]⟩
  | recv =>
    obtain ⟨hi, h1, h2, h3⟩ := recv_inv s h
    refine ⟨_, _, rfl, hi, ?_, by simp [h2, disposedIn]⟩
    rw [h1, h3]
    cases (recv s).2 <;> simp [received, accepted]

theorem accepted_cons (x : Op T × Out T) (h : List (Op T × Out T)) :
    accepted (x :: h) = accepted [x] ++ accepted h := by
  rcases x with ⟨(t | _ | _ | _), ((_ | _) | _ | _ | _)⟩ <;> rfl

theorem received_cons (x : Op T × Out T) (h : List (Op T × Out T)) :
    received (x :: h) = received [x] ++ received h := by
  rcases x with ⟨op, (b | _ | _ | (_ | _ | _))⟩ <;> rfl

theorem disposedIn_cons (x : Op T × Out T) (h : List (Op T × Out T)) :
    disposedIn (x :: h) = (disposedIn [x] || disposedIn h) := by
  rcases x with ⟨(t | _ | _ | _), o⟩ <;> rfl

theorem run_spec (ops : List (Op T)) : ∀ s : St T, Inv s →
    ∃ s' h, run s ops = .ok (s', h) ∧ Inv s' ∧ h.map (·.1) = ops ∧
      received h ++ (s'.chan.toList ++ s'.backlog) =
        s.chan.toList ++ s.backlog ++ accepted h ∧
      s'.disposed = (s.disposed || disposedIn h) := by
  induction ops with
  | nil => intro s h; exact ⟨s, [], rfl, h, rfl, by simp [received, accepted], by simp [disposedIn]⟩
  | cons op ops ih =>
    intro s h
    obtain ⟨s1, o, e1, i1, l1, d1⟩ := step_spec s op h
    obtain ⟨s2, h2, e2, i2, m2, l2, d2⟩ := ih s1 i1
    refine ⟨s2, (op, o) :: h2, by simp [run, e1, e2], i2, by simp [m2], ?_, ?_⟩
    · rw [received_cons, accepted_cons, List.append_assoc, l2, ← List.append_assoc,
        ← List.append_assoc, ← List.append_assoc]
      rw [← List.append_assoc] at l1
      rw [l1]
    · rw [d2, d1, disposedIn_cons (op, o) h2, Bool.or_assoc]

/-! ## C13 -/

/-- C13: after any sequence of operations (none of which can panic), the values received,
followed by the one in the channel and the backlog, are exactly the accepted values in order. -/
theorem C13_unbounded_fifo (ops : List (Op T)) :
    ∃ s h, run (init : St T) ops = .ok (s, h) ∧ h.map (·.1) = ops ∧
      received h ++ s.chan.toList ++ s.backlog = accepted h := by
  obtain ⟨s, h, e, _, m, l, _⟩ := run_spec ops (init : St T) inv_init
  refine ⟨s, h, e, m, ?_⟩
  rw [List.append_assoc, l]; simp [init]

example : ∃ (ops : List (Op Nat)) (s : St Nat) (h : List (Op Nat × Out Nat)),
    run init ops = .ok (s, h) ∧ received h = [1] ∧ s.chan = some 2 ∧ s.backlog = [3] ∧
    accepted h = [1, 2, 3] :=
  ⟨[.put 1, .put 2, .recv, .load, .put 3], _, _, rfl, rfl, rfl, rfl, rfl⟩

/-! ## C14 -/

/-- C14: after `Dispose`, `Put` returns false and changes nothing. -/
theorem C14_put_after_dispose (ops : List (Op T)) (s : St T) (h : List (Op T × Out T)) (t : T)
    (hr : run init ops = .ok (s, h)) (hd : disposedIn h = true) :
    step s (.put t) = .ok (s, .put false) := by
  obtain ⟨s', h', e, hi, _, _, hdis⟩ := run_spec ops (init : St T) inv_init
  rw [hr] at e
  obtain ⟨rfl, rfl⟩ := Prod.mk.inj (Go.ok.inj e)
  rw [hd] at hdis
  simp [step, put, show s.disposed = true by simpa [init] using hdis]

/-- C14: the channel is closed only when disposed and no accepted value is left in the backlog;
no operation panics (in particular none sends on the closed channel). -/
theorem C14_closed_only_drained (ops : List (Op T)) :
    ∃ s h, run (init : St T) ops = .ok (s, h) ∧
      (s.closed = true → disposedIn h = true ∧ s.backlog = [] ∧
        received h ++ s.chan.toList = accepted h) := by
  obtain ⟨s, h, e, hi, m, l, hd⟩ := run_spec ops (init : St T) inv_init
  refine ⟨s, h, e, fun hc => ?_⟩
  have := hi.closed hc
  refine ⟨by rw [this.1] at hd; simpa [init] using hd.symm, this.2, ?_⟩
  rw [this.2] at l
  simpa [init] using l

/-- A reader that keeps doing "receive, then Load": the values it gets in at most `n` rounds and
whether it saw the channel closed. -/
def drain : Nat → St T → Go (List T × Bool)
  | 0, _ => .ok ([], false)
  | n + 1, s =>
    match recv s with
    | (_, .wait) => .ok ([], false)
    | (_, .closed) => .ok ([], true)
    | (s', .val t) => do
      let (s'', _) ← load s'
      let (ts, b) ← drain n s''
      .ok (t :: ts, b)

/-- Every receive so far has been followed by a `Load` (or there was none). -/
def loaded : List (Op T × Out T) → Bool
  | [] => true
  | (.recv, .recv (.val _)) :: h => h.any (fun x => match x.1 with | .load => true | _ => false) && loaded h
  | _ :: h => loaded h

/-- The buffer is ready for a receive: if the channel is empty, so is the backlog, and a disposed
buffer is closed. -/
def Ready (s : St T) : Prop :=
  s.chan = none → s.backlog = [] ∧ (s.disposed = true → s.closed = true)

theorem step_ready (s s' : St T) (op : Op T) (o : Out T) (h : Inv s)
    (he : step s op = .ok (s', o)) :
    (op = .load → Ready s') ∧ ((∀ t, o ≠ .recv (.val t)) → Ready s → Ready s') := by
  cases op with
  | put t =>
    refine ⟨by simp, fun _ hr => ?_⟩
    simp only [step, put] at he
    by_cases hd : s.disposed
    · simp [hd] at he; rw [← he.1]; exact hr
    · have hc : s.closed = false := by
        cases hcl : s.closed
        · rfl
        · exact absurd (h.closed hcl).1 hd
      cases hb : s.backlog with
      | nil =>
        cases hch : s.chan with
        | none =>
          simp [hd, hb, trySend, hc, hch] at he; rw [← he.1]; intro hn; simp at hn
        | some v =>
          simp [hd, hb, trySend, hc, hch] at he; rw [← he.1]; intro hn; simp [hch] at hn
      | cons b bs =>
        simp [hd, hb] at he
        rw [← he.1]
        intro hn
        simp at hn
        have := (hr hn).1; rw [hb] at this; cases this
  | load =>
    obtain ⟨s1, n, e, _, _, _, hrd⟩ := load_spec s h
    simp [step, e] at he
    rw [← he.1]
    exact ⟨fun _ => hrd, fun _ _ => hrd⟩
  | dispose =>
    refine ⟨by simp, fun _ hr => ?_⟩
    simp [step] at he
    rw [← he.1]
    intro hn
    have ⟨_, h1, h2, h3⟩ := dispose_inv s h
    rw [h1] at hn
    rw [h2]
    refine ⟨(hr hn).1, fun _ => ?_⟩
    simp [dispose, (hr hn).1, close]
  | recv =>
    refine ⟨by simp, fun hno hr => ?_⟩
    simp [step] at he
    rw [← he.1]
    unfold recv at he ⊢
    cases hch : s.chan with
    | none => simp [hch] at he ⊢; cases hc : s.closed <;> simp <;> exact hr
    | some v => simp [hch] at he; exact absurd he.2.symm (hno v)

theorem run_ready (ops : List (Op T)) : ∀ (s s' : St T) (h : List (Op T × Out T)), Inv s →
    run s ops = .ok (s', h) →
    ((Ready s ∧ loaded h = true) ∨ (loaded h = true ∧ h.any (fun x => match x.1 with | .load => true | _ => false) = true)) →
    Ready s' := by
  induction ops with
  | nil =>
    intro s s' h _ hr hc
    simp [run] at hr
    obtain ⟨rfl, rfl⟩ := hr
    rcases hc with ⟨h1, _⟩ | ⟨_, h2⟩
    · exact h1
    · simp at h2
  | cons op ops ih =>
    intro s s' h hi hr hc
    obtain ⟨s1, o, e1, i1, _, _⟩ := step_spec s op hi
    obtain ⟨s2, h2, e2, _, _, _, _⟩ := run_spec ops s1 i1
    simp [run, e1, e2] at hr
    obtain ⟨rfl, rfl⟩ := hr
    obtain ⟨r1, r2⟩ := step_ready s s1 op o hi e1
    apply ih s1 s2 h2 i1 e2
    by_cases hv : ∃ t, op = .recv ∧ o = .recv (.val t)
    · obtain ⟨t, rfl, rfl⟩ := hv
      right
      rcases hc with ⟨_, h3⟩ | ⟨h3, _⟩ <;>
        (simp only [loaded, Bool.and_eq_true] at h3; exact ⟨h3.2, h3.1⟩)
    · have hl : loaded ((op, o) :: h2) = loaded h2 := by
        rcases op with (t | _ | _ | _) <;> rcases o with (b | _ | _ | (t | _ | _)) <;>
          first | rfl | exact absurd ⟨_, rfl, rfl⟩ hv
      have hno : ∀ t, o ≠ .recv (.val t) := by
        intro t ht
        subst ht
        cases op with
        | recv => exact hv ⟨t, rfl, rfl⟩
        | put v =>
          obtain ⟨_, b, e, _⟩ := put_spec s v hi
          simp [step, e] at e1
        | load =>
          obtain ⟨_, b, e, _⟩ := load_spec s hi
          simp [step, e] at e1
        | dispose => simp [step] at e1
      rw [hl] at hc
      by_cases hld : op = .load
      · rcases hc with ⟨_, h3⟩ | ⟨h3, _⟩ <;> exact Or.inl ⟨r1 hld, h3⟩
      · rcases hc with ⟨h3, h4⟩ | ⟨h3, h4⟩
        · exact Or.inl ⟨r2 hno h3, h4⟩
        · right
          refine ⟨h3, ?_⟩
          cases op <;> simp at h4 ⊢ <;> first | exact h4 | exact absurd rfl hld

theorem drain_spec : ∀ (n : Nat) (s : St T), Inv s → Ready s → s.disposed = true →
    (s.chan.toList ++ s.backlog).length < n →
    drain n s = .ok (s.chan.toList ++ s.backlog, true) := by
  intro n
  induction n with
  | zero => intro s _ _ _ h; exact absurd h (Nat.not_lt_zero _)
  | succ n ih =>
    intro s hi hr hd hlen
    cases hch : s.chan with
    | none =>
      have := hr hch
      simp [drain, recv, hch, this.2 hd, this.1]
    | some v =>
      have i1 : Inv { s with chan := none } := ⟨fun hc => hi.closed hc⟩
      obtain ⟨s', k, e, i2, d2, l2, r2⟩ := load_spec { s with chan := none } i1
      have hl2 : s'.chan.toList ++ s'.backlog = s.backlog := by simpa using l2
      have := ih s' i2 r2 (by rw [d2]; exact hd) (by
        rw [hl2]; rw [hch] at hlen; simp at hlen; omega)
      simp [drain, recv, hch, e, this, hl2]

/-- C14: once the buffer has been disposed, a reader that keeps doing "receive, then Load" (and
whose earlier receives were followed by a Load) receives every accepted value that is still
missing, in order, and then sees the channel closed. -/
theorem C14_drain_after_dispose (ops : List (Op T)) (s : St T) (h : List (Op T × Out T))
    (hr : run init ops = .ok (s, h)) (hd : disposedIn h = true) (hl : loaded h = true) :
    ∃ n ts, drain n s = .ok (ts, true) ∧ received h ++ ts = accepted h := by
  obtain ⟨s', h', e, hi, _, l, hdis⟩ := run_spec ops (init : St T) inv_init
  rw [hr] at e
  obtain ⟨rfl, rfl⟩ := Prod.mk.inj (Go.ok.inj e)
  have hready := run_ready ops init s h inv_init hr (Or.inl ⟨by intro _; simp [init], hl⟩)
  rw [hd] at hdis
  exact ⟨_, _, drain_spec _ s hi hready (by simpa [init] using hdis) (Nat.lt_succ_self _),
    by rw [l]; simp [init]⟩

example : ∃ (ops : List (Op Nat)) (s : St Nat) (h : List (Op Nat × Out Nat)),
    run init ops = .ok (s, h) ∧ disposedIn h = true ∧ loaded h = true ∧
    s.chan = some 2 ∧ s.backlog = [3] ∧ s.closed = false :=
  ⟨[.put 1, .put 2, .put 3, .recv, .load, .dispose], _, _, rfl, rfl, rfl, rfl, rfl, rfl⟩

end Verif.Props
