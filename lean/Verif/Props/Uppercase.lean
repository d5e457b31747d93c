import Verif.Props.Flux
import Verif.Model.Uppercase
/-
Property C131: the service `Uppercase` of the example host and guest.
-/
set_option autoImplicit false
namespace Verif.Props
open Verif
open Verif.Flux (Call)

section
variable {T : Type}

/-! ## Specification -/

/-- What the subscriber is to see of the input: every element in upper case, and how it ends. -/
def upperExpected (upper : T → T) : List (Uppercase.Op T) → List (Flux.Ev T)
  | [] => []
  | .next v _ _ :: r => .next (upper v) :: upperExpected upper r
  | .complete _ :: _ => [.complete]
  | .error e _ :: _ => [.error e]
  | _ :: r => upperExpected upper r

/-- The subscriber does not cancel, neither from outside nor from inside its callbacks. -/
def noCancel : Uppercase.Op T → Prop
  | .next _ a b => Call.cancel ∉ a ∧ Call.cancel ∉ b
  | .complete a => Call.cancel ∉ a
  | .error _ a => Call.cancel ∉ a
  | .start a => Call.cancel ∉ a
  | .call c => c ≠ .cancel
  | _ => True

/-- How much has been requested of the source of a stream. -/
def askedOf (t : List (Flux.Ev T)) : Int := (t.map fun | .upRequest k => k | _ => 0).sum

/-- How many elements a stream has delivered. -/
def gotOf (t : List (Flux.Ev T)) : Nat := (t.filter fun | .next _ => true | _ => false).length

/-- How much the subscriber itself requests, outside its callbacks. -/
def requestedOf (ops : List (Uppercase.Op T)) : Int := (ops.map fun | .call (.request k) => k | _ => 0).sum

def isStarted : Uppercase.Op T → Bool
  | .started => true
  | _ => false

def isOnSubscribe : Uppercase.Op T → Bool
  | .onSubscribe _ => true
  | _ => false

/-- C131 as stated in English; the last two conjuncts are about a subscriber that requests and cancels outside its callbacks. -/
def C131_statement (T : Type) : Prop :=
  ∀ (upper : T → T) (cbs inCbs : List Nat) (ops : List (Uppercase.Op T)) (inst : Flux.Installed),
    inst.onNext = true → inst.onComplete = true → inst.onError = true → inst.noRequest = true →
    ops.countP isStarted ≤ 1 → ops.countP isOnSubscribe ≤ 1 →
    let s := Uppercase.run upper inst cbs inCbs ops
    ((∀ op ∈ ops, noCancel op) → fluxSignals s.outEvs = upperExpected upper ops) ∧
    askedOf s.inEvs ≤ gotOf s.inEvs + 2 ∧
    (∀ c rest, ops = .onSubscribe c :: .started :: rest ∨ ops = .started :: .onSubscribe c :: rest →
      gotOf s.inEvs + 1 ≤ askedOf s.inEvs) ∧
    ((∀ op ∈ ops, Uppercase.inners op = ([], [])) → (gotOf s.outEvs : Int) ≤ requestedOf ops) ∧
    (.call .cancel ∈ ops → .onSubscribe true ∈ ops → .upCancel ∈ s.inEvs)

/-! ## The result is a stream whose source sends the input in upper case -/

/-- The calls on the sink, if the input is left out. -/
def directOp (upper : T → T) : Uppercase.Op T → List (Flux.Op T)
  | .next v a b => [.next (upper v) a b]
  | .complete a => [.complete a]
  | .error e a => [.error e a]
  | .start a => [.start a]
  | .call c => [.call c]
  | _ => []

theorem onEv_quiet (upper : T → T) (a b : List Call) (t : List (Flux.Ev T)) :
    t.flatMap (Uppercase.onEv upper a b) = (fluxSignals t).flatMap (Uppercase.onEv upper a b) := by
  induction t with
  | nil => rfl
  | cons e t ih =>
    rw [signals_cons_expected, List.flatMap_cons, List.flatMap_append, ← ih]
    congr 1
    cases e <;> rfl

/-- The input has the callbacks installed, and once it is over so is the result. -/
def UpInv (s : Uppercase.St T) : Prop := s.inp.inst = Uppercase.installed ∧ (s.inp.closed = true → s.out.closed = true)

theorem runFrom_one (m : Flux.State) (op : Flux.Op T) : Flux.runFrom m [op] = Flux.step m op := by
  simp [Flux.runFrom]

theorem up_step (upper : T → T) (s : Uppercase.St T) (op : Uppercase.Op T) (h : UpInv s) :
    UpInv (Uppercase.step upper s op) ∧
      (Uppercase.step upper s op).out = (Flux.runFrom s.out (directOp upper op)).1 ∧
      (Uppercase.step upper s op).outEvs = s.outEvs ++ (Flux.runFrom s.out (directOp upper op)).2 := by
  have key : ∀ (o : Flux.Op T) (d : List (Flux.Op T)), Uppercase.inOp op = [o] → Uppercase.ownOp op = [] →
      directOp upper op = d → cancelCount (Flux.step s.inp o).2 = 0 →
      (fluxExpected Uppercase.installed o).flatMap (Uppercase.onEv upper (Uppercase.inners op).1 (Uppercase.inners op).2) = d →
      (isTerminal o = true → ∃ t, d = [t] ∧ isTerminal t = true) →
      (∀ t ∈ d, (∃ v a b, t = .next v a b) ∨ (∃ a, t = .complete a) ∨ ∃ e a, t = .error e a) →
      UpInv (Uppercase.step upper s op) ∧
      (Uppercase.step upper s op).out = (Flux.runFrom s.out (directOp upper op)).1 ∧
      (Uppercase.step upper s op).outEvs = s.outEvs ++ (Flux.runFrom s.out (directOp upper op)).2 := by
    intro o d h1 h2 h3 h4 h5 h6 h7
    have sp := flux_step_spec s.inp o
    by_cases hc : s.inp.closed = true
    · have ho := h.2 hc
      have hs : fluxSignals (Flux.step s.inp o).2 = [] := by rw [sp.signals, if_pos hc]
      have hq : Flux.runFrom s.out d = (s.out, []) := by
        have : ∀ l : List (Flux.Op T), (∀ t ∈ l, (∃ v a b, t = .next v a b) ∨ (∃ a, t = .complete a) ∨ ∃ e a, t = .error e a) →
            Flux.runFrom s.out l = (s.out, []) := by
          intro l
          induction l with
          | nil => intro _; rfl
          | cons t l ih =>
            intro hl
            have ht : Flux.step s.out t = (s.out, []) := by
              obtain ⟨v, a, b, rfl⟩ | ⟨a, rfl⟩ | ⟨e, a, rfl⟩ := hl t List.mem_cons_self <;>
                simp [Flux.step, Flux.next, Flux.complete, Flux.error, ho]
            unfold Flux.runFrom
            rw [ht]
            dsimp only
            rw [ih fun t ht => hl t (List.mem_cons_of_mem _ ht)]
            rfl
        exact this d h7
      have e : Uppercase.step upper s op =
          ⟨(Flux.step s.inp o).1, s.out, s.inEvs ++ (Flux.step s.inp o).2, s.outEvs ++ []⟩ := by
        unfold Uppercase.step
        rw [h1, h2, runFrom_one]
        dsimp only
        rw [onEv_quiet, hs]
        rfl
      rw [e, h3, hq]
      exact ⟨⟨sp.inst.trans h.1, fun _ => ho⟩, rfl, rfl⟩
    · have hc : s.inp.closed = false := by simpa using hc
      have e : Uppercase.step upper s op =
          ⟨(Flux.step s.inp o).1, (Flux.runFrom s.out d).1, s.inEvs ++ (Flux.step s.inp o).2,
            s.outEvs ++ (Flux.runFrom s.out d).2⟩ := by
        unfold Uppercase.step
        rw [h1, h2, runFrom_one]
        dsimp only
        rw [onEv_quiet, sp.signals, if_neg (by simp [hc]), h.1, h5, List.append_nil]
      rw [e, h3]
      refine ⟨⟨sp.inst.trans h.1, ?_⟩, rfl, rfl⟩
      intro hcl
      have hcl : (Flux.step s.inp o).1.closed = true := hcl
      rw [sp.closed, hc, h4] at hcl
      have ht : isTerminal o = true := by simpa using hcl
      obtain ⟨t, rfl, htt⟩ := h6 ht
      show (Flux.runFrom s.out [t]).1.closed = true
      rw [runFrom_one, (flux_step_spec s.out t).closed, htt]
      simp
  have own : ∀ o : Flux.Op T, Uppercase.inOp op = [] → Uppercase.ownOp op = [o] → directOp upper op = [o] →
      UpInv (Uppercase.step upper s op) ∧
      (Uppercase.step upper s op).out = (Flux.runFrom s.out (directOp upper op)).1 ∧
      (Uppercase.step upper s op).outEvs = s.outEvs ++ (Flux.runFrom s.out (directOp upper op)).2 := by
    intro o h1 h2 h3
    have e : Uppercase.step upper s op =
        ⟨s.inp, (Flux.runFrom s.out [o]).1, s.inEvs ++ [], s.outEvs ++ (Flux.runFrom s.out [o]).2⟩ := by
      unfold Uppercase.step
      rw [h1, h2]
      rfl
    rw [e, h3]
    refine ⟨⟨h.1, fun hc => ?_⟩, rfl, rfl⟩
    show (Flux.runFrom s.out [o]).1.closed = true
    rw [runFrom_one, (flux_step_spec s.out o).closed, h.2 hc]
    simp
  have hh : ∀ m : Flux.State, cancelCount (Flux.handleOnSubscribe (T := T) m [.request 2]).2 = 0 := by
    intro m
    unfold Flux.handleOnSubscribe Flux.calls Flux.calls Flux.call
    dsimp only
    split
    · rfl
    · split
      · cases m.hasRequest <;> rfl
      · cases m.hasRequest <;> rfl
  cases op with
  | next v a b =>
    refine key _ [.next (upper v) a b] rfl rfl rfl ?_ rfl (fun h => by cases h) ?_
    · simp only [Flux.step, Flux.next, Flux.onNext, Flux.calls]
      split
      · rfl
      · split
        · split
          · rw [cancelCount_append, hh]; rfl
          · rfl
        · split
          · rw [cancelCount_append, hh]; rfl
          · rfl
    · intro t ht; exact .inl ⟨_, _, _, List.mem_singleton.1 ht⟩
  | complete a =>
    refine key _ [.complete a] rfl rfl rfl ?_ rfl (fun _ => ⟨_, rfl, rfl⟩) ?_
    · have := (finally_spec (T := T) { s.inp with closed := true } .complete).2.2.1
      simp only [Flux.step, Flux.complete, Flux.calls]
      split
      · rfl
      · split
        · rw [cancelCount_append, this]; rfl
        · rw [cancelCount_append, this]; rfl
    · intro t ht; exact .inr (.inl ⟨_, List.mem_singleton.1 ht⟩)
  | error e a =>
    refine key _ [.error e a] rfl rfl rfl ?_ rfl (fun _ => ⟨_, rfl, rfl⟩) ?_
    · have := (finally_spec (T := T) { s.inp with err := e, closed := true } .error).2.2.1
      simp only [Flux.step, Flux.error, Flux.calls]
      split
      · rfl
      · split
        · rw [cancelCount_append, this]; rfl
        · rw [cancelCount_append, this]; rfl
    · intro t ht; exact .inr (.inr ⟨_, _, List.mem_singleton.1 ht⟩)
  | onSubscribe c =>
    refine key _ [] rfl rfl rfl ?_ rfl (fun h => by cases h) (fun t ht => by cases ht)
    simp only [Flux.step]
    split
    · rfl
    · split <;> rfl
  | started =>
    refine key _ [] rfl rfl rfl ?_ rfl (fun h => by cases h) (fun t ht => by cases ht)
    exact hh s.inp
  | start a => exact own _ rfl rfl rfl
  | call c => exact own _ rfl rfl rfl

theorem up_run_snoc (upper : T → T) (inst : Flux.Installed) (cbs inCbs : List Nat) (ops : List (Uppercase.Op T))
    (op : Uppercase.Op T) :
    Uppercase.run upper inst cbs inCbs (ops ++ [op]) = Uppercase.step upper (Uppercase.run upper inst cbs inCbs ops) op := by
  unfold Uppercase.run
  rw [List.foldl_append]
  rfl

/-- The subscriber sees exactly what it would see of a stream whose source sends it the elements in upper case, whatever it
requests and whenever it cancels. -/
theorem C131_same (upper : T → T) (inst : Flux.Installed) (cbs inCbs : List Nat) (ops : List (Uppercase.Op T)) :
    (Uppercase.run upper inst cbs inCbs ops).outEvs = (Flux.run inst cbs (ops.flatMap (directOp upper))).2 := by
  suffices h : UpInv (Uppercase.run upper inst cbs inCbs ops) ∧
      (Uppercase.run upper inst cbs inCbs ops).out = (Flux.run inst cbs (ops.flatMap (directOp upper))).1 ∧
      (Uppercase.run upper inst cbs inCbs ops).outEvs = (Flux.run inst cbs (ops.flatMap (directOp upper))).2 from h.2.2
  induction ops using mono_snoc_induction with
  | nil => exact ⟨⟨rfl, fun h => by cases h⟩, rfl, rfl⟩
  | snoc ops op ih =>
    obtain ⟨h1, h2, h3⟩ := ih
    obtain ⟨g1, g2, g3⟩ := up_step upper _ op h1
    rw [up_run_snoc, List.flatMap_append, List.flatMap_cons, List.flatMap_nil, List.append_nil]
    unfold Flux.run at h2 h3 ⊢
    rw [flux_runFrom_append]
    refine ⟨g1, ?_, ?_⟩
    · rw [g2, h2]
    · rw [g3, h3, h2]

/-! ## Without Cancel -/

theorem calls_uncancelled (m : Flux.State) (cs : List Call) (h : Call.cancel ∉ cs) :
    cancelCount (Flux.calls (T := T) m cs).2 = 0 := by
  induction cs generalizing m with
  | nil => rfl
  | cons c cs ih =>
    unfold Flux.calls
    dsimp only
    rw [cancelCount_append, ih _ fun hc => h (List.mem_cons_of_mem _ hc)]
    cases c with
    | cancel => exact absurd List.mem_cons_self h
    | request k => unfold Flux.call; cases m.hasRequest <;> rfl

theorem handle_uncancelled (m : Flux.State) (cs : List Call) (h : Call.cancel ∉ cs) :
    cancelCount (Flux.handleOnSubscribe (T := T) m cs).2 = 0 := by
  unfold Flux.handleOnSubscribe
  split
  · rfl
  · split
    · have := calls_uncancelled (T := T) m cs h
      exact this
    · unfold Flux.call; cases m.hasRequest <;> rfl

theorem onNext_uncancelled (m : Flux.State) (v : T) (cs : List Call) (h : Call.cancel ∉ cs) :
    cancelCount (Flux.onNext m v cs).2 = 0 := by
  unfold Flux.onNext
  split
  · have := calls_uncancelled (T := T) m cs h
    exact this
  · rfl

theorem direct_uncancelled (upper : T → T) (op : Uppercase.Op T) (h : noCancel op) (m : Flux.State) :
    ∀ o ∈ directOp upper op, cancelCount (Flux.step m o).2 = 0 := by
  intro o ho
  cases op with
  | next v a b =>
    rw [List.mem_singleton.1 ho]
    simp only [Flux.step, Flux.next]
    split
    · rfl
    · split
      · rw [cancelCount_append, onNext_uncancelled _ _ _ h.1, handle_uncancelled _ _ h.2]
      · exact onNext_uncancelled _ _ _ h.1
  | complete a =>
    rw [List.mem_singleton.1 ho]
    simp only [Flux.step, Flux.complete]
    split
    · rfl
    · rw [cancelCount_append, (finally_spec _ _).2.2.1]
      split
      · exact calls_uncancelled (T := T) _ a h
      · rfl
  | error e a =>
    rw [List.mem_singleton.1 ho]
    simp only [Flux.step, Flux.error]
    split
    · rfl
    · rw [cancelCount_append, (finally_spec _ _).2.2.1]
      split
      · exact calls_uncancelled (T := T) _ a h
      · rfl
  | start a =>
    rw [List.mem_singleton.1 ho]
    exact handle_uncancelled _ _ h
  | call c =>
    rw [List.mem_singleton.1 ho]
    cases c with
    | cancel => exact absurd rfl h
    | request k => simp only [Flux.step, Flux.call]; cases m.hasRequest <;> rfl
  | onSubscribe c => cases ho
  | started => cases ho

/-- C131: the subscriber sees the elements of the input in upper case, in order, and how it ends, as long as it does not cancel. -/
theorem C131_values (upper : T → T) (inst : Flux.Installed) (cbs inCbs : List Nat) (ops : List (Uppercase.Op T))
    (hn : inst.onNext = true) (hc : inst.onComplete = true) (he : inst.onError = true) (h : ∀ op ∈ ops, noCancel op) :
    fluxSignals (Uppercase.run upper inst cbs inCbs ops).outEvs = upperExpected upper ops := by
  rw [C131_same]
  suffices key : ∀ m : Flux.State, m.inst = inst →
      fluxSignals (Flux.runFrom m (ops.flatMap (directOp upper))).2 = if m.closed then [] else upperExpected upper ops from
    key (Flux.State.init inst cbs) rfl
  induction ops with
  | nil => intro m _; simp [Flux.runFrom, fluxSignals, upperExpected]
  | cons op ops ih =>
    intro m hm
    have ih := ih fun o ho => h o (List.mem_cons_of_mem _ ho)
    have hq := direct_uncancelled upper op (h op List.mem_cons_self) m
    rw [List.flatMap_cons, flux_runFrom_append, fluxSignals_append]
    have one : ∀ o, directOp upper op = [o] →
        fluxSignals (Flux.runFrom m (directOp upper op)).2 = (if m.closed then [] else fluxExpected inst o) ∧
        (Flux.runFrom m (directOp upper op)).1.inst = inst ∧
        (Flux.runFrom m (directOp upper op)).1.closed = (m.closed || isTerminal o) := by
      intro o ho
      have sp := flux_step_spec m o
      rw [ho, runFrom_one, sp.signals, sp.closed, hm]
      refine ⟨rfl, sp.inst.trans hm, ?_⟩
      rw [hq o (by rw [ho]; exact List.mem_singleton.2 rfl)]
      simp
    cases op with
    | next v a b =>
      obtain ⟨h1, h2, h3⟩ := one _ rfl
      rw [h1, ih _ h2, h3]
      cases m.closed <;> simp [isTerminal, upperExpected, fluxExpected, hn]
    | complete a =>
      obtain ⟨h1, h2, h3⟩ := one _ rfl
      rw [h1, ih _ h2, h3]
      cases m.closed <;> simp [isTerminal, upperExpected, fluxExpected, hc]
    | error e a =>
      obtain ⟨h1, h2, h3⟩ := one _ rfl
      rw [h1, ih _ h2, h3]
      cases m.closed <;> simp [isTerminal, upperExpected, fluxExpected, he]
    | start a =>
      obtain ⟨h1, h2, h3⟩ := one _ rfl
      rw [h1, ih _ h2, h3]
      cases m.closed <;> simp [isTerminal, upperExpected, fluxExpected]
    | call c =>
      obtain ⟨h1, h2, h3⟩ := one _ rfl
      rw [h1, ih _ h2, h3]
      cases m.closed <;> simp [isTerminal, upperExpected, fluxExpected]
    | onSubscribe c => exact ih m hm
    | started => exact ih m hm

/-! ## What is requested of the input -/

theorem asked_append (a b : List (Flux.Ev T)) : askedOf (a ++ b) = askedOf a + askedOf b := by
  unfold askedOf
  rw [List.map_append, List.sum_append]

theorem got_append (a b : List (Flux.Ev T)) : gotOf (a ++ b) = gotOf a + gotOf b := by
  unfold gotOf
  rw [List.filter_append, List.length_append]

theorem asked_notified (l : List Nat) (sg : Mono.Signal) :
    askedOf (l.map (Flux.Ev.notified (T := T) · sg)) = 0 ∧ gotOf (l.map (Flux.Ev.notified (T := T) · sg)) = 0 ∧
      Flux.Ev.upCancel ∉ l.map (Flux.Ev.notified (T := T) · sg) := by
  induction l with
  | nil => exact ⟨rfl, rfl, List.not_mem_nil⟩
  | cons a l ih =>
    refine ⟨?_, ih.2.1, ?_⟩
    · rw [List.map_cons, show ∀ (e : Flux.Ev T) t, e :: t = [e] ++ t from fun _ _ => rfl, asked_append, ih.1]; rfl
    · simp

/-- What one call does to the subscription to the input. -/
structure InStep (m : Flux.State) (op : Uppercase.Op T) (r : Flux.State × List (Flux.Ev T)) : Prop where
  inst : r.1.inst = m.inst
  never : .upCancel ∉ r.2
  n : r.1.n + gotOf r.2 = m.n + if isStarted op ∨ (gotOf r.2 = 1 ∧ m.n = 1) then 2 else 0
  got : gotOf r.2 ≤ 1
  asked : askedOf r.2 = if isOnSubscribe op then (if m.closed = false ∧ 0 < m.n then m.n else 0) else
    if m.hasRequest ∧ (isStarted op ∨ (gotOf r.2 = 1 ∧ m.n = 1)) then 2 else 0
  has : isOnSubscribe op = false → r.1.hasRequest = m.hasRequest

theorem in_step (m : Flux.State) (op : Uppercase.Op T) (hi : m.inst = Uppercase.installed) :
    InStep m op (Flux.runFrom m (Uppercase.inOp op)) := by
  have i1 : m.inst.onNext = true := by rw [hi]; rfl
  have i2 : m.inst.onComplete = true := by rw [hi]; rfl
  have i3 : m.inst.onError = true := by rw [hi]; rfl
  have i4 : m.inst.onRequest = true := by rw [hi]; rfl
  have i5 : m.inst.noRequest = false := by rw [hi]; rfl
  have i6 : m.inst.fin = false := by rw [hi]; rfl
  cases op with
  | next v a b =>
    simp only [Uppercase.inOp, runFrom_one, Flux.step, Flux.next, Flux.onNext, Flux.calls, i1, if_true]
    by_cases hc : m.closed = true
    · rw [if_pos hc]
      constructor <;> simp [isStarted, isOnSubscribe, gotOf, askedOf]
    · rw [if_neg hc]
      by_cases h1 : m.n - 1 = 0
      · rw [if_pos h1]
        have h1 : m.n = 1 := by omega
        simp only [Flux.handleOnSubscribe, Flux.calls, Flux.call, i4, i5, if_true, Bool.false_eq_true, if_false]
        cases hr : m.hasRequest <;>
          constructor <;> simp [isStarted, isOnSubscribe, gotOf, askedOf, h1, hr]
      · rw [if_neg h1]
        have h1 : m.n ≠ 1 := by omega
        constructor <;> simp [isStarted, isOnSubscribe, gotOf, askedOf, h1]
  | complete a =>
    obtain ⟨n1, n2, n3⟩ := asked_notified (T := T) m.callbacks .complete
    simp only [Uppercase.inOp, runFrom_one, Flux.step, Flux.complete, Flux.calls, Flux.doFinally, i2, i6, if_true,
      Bool.false_eq_true, if_false, List.nil_append]
    split
    · constructor <;> simp [isStarted, isOnSubscribe, gotOf, askedOf]
    · refine ⟨rfl, ?_, ?_, ?_, ?_, fun _ => rfl⟩
      · rw [List.mem_append]; rintro (h | h)
        · simp at h
        · exact n3 h
      all_goals simp only [asked_append, got_append, n1, n2]
      all_goals simp [isStarted, isOnSubscribe, gotOf, askedOf]
  | error e a =>
    obtain ⟨n1, n2, n3⟩ := asked_notified (T := T) m.callbacks .error
    simp only [Uppercase.inOp, runFrom_one, Flux.step, Flux.error, Flux.calls, Flux.doFinally, i3, i6, if_true,
      Bool.false_eq_true, if_false, List.nil_append]
    split
    · constructor <;> simp [isStarted, isOnSubscribe, gotOf, askedOf]
    · refine ⟨rfl, ?_, ?_, ?_, ?_, fun _ => rfl⟩
      · rw [List.mem_append]; rintro (h | h)
        · simp at h
        · exact n3 h
      all_goals simp only [asked_append, got_append, n1, n2]
      all_goals simp [isStarted, isOnSubscribe, gotOf, askedOf]
  | onSubscribe c =>
    simp only [Uppercase.inOp, runFrom_one, Flux.step]
    by_cases hc : m.closed = true
    · rw [if_pos hc]
      constructor <;> simp [isStarted, isOnSubscribe, gotOf, askedOf, hc]
    · rw [if_neg hc]
      by_cases hn : 0 < m.n
      · constructor <;> simp [isStarted, isOnSubscribe, gotOf, askedOf, hc, hn]
      · constructor <;> simp [isStarted, isOnSubscribe, gotOf, askedOf, hn]
  | started =>
    simp only [Uppercase.inOp, runFrom_one, Flux.step, Flux.handleOnSubscribe, Flux.calls, Flux.call, i4, i5, if_true,
      Bool.false_eq_true, if_false]
    cases hr : m.hasRequest <;>
      constructor <;> simp [isStarted, isOnSubscribe, gotOf, askedOf, hr]
  | start a => constructor <;> simp [Uppercase.inOp, Flux.runFrom, isStarted, isOnSubscribe, gotOf, askedOf]
  | call c => constructor <;> simp [Uppercase.inOp, Flux.runFrom, isStarted, isOnSubscribe, gotOf, askedOf]

/-- The subscription to the input after a history. -/
structure UpIn (ops : List (Uppercase.Op T)) (s : Uppercase.St T) : Prop where
  inst : s.inp.inst = Uppercase.installed
  never : .upCancel ∉ s.inEvs
  asked : askedOf s.inEvs ≤ s.inp.n + gotOf s.inEvs
  pos : 0 ≤ s.inp.n + gotOf s.inEvs
  two : s.inp.n ≤ 2
  idle : ops.countP isStarted = 0 → s.inp.n ≤ 0
  mute : ops.countP isOnSubscribe = 0 → s.inp.hasRequest = false ∧ askedOf s.inEvs = 0

theorem up_in (upper : T → T) (inst : Flux.Installed) (cbs inCbs : List Nat) (ops : List (Uppercase.Op T))
    (h1 : ops.countP isStarted ≤ 1) (h2 : ops.countP isOnSubscribe ≤ 1) :
    UpIn ops (Uppercase.run upper inst cbs inCbs ops) := by
  induction ops using mono_snoc_induction with
  | nil =>
    refine ⟨rfl, List.not_mem_nil, ?_, ?_, ?_, fun _ => ?_, fun _ => ⟨rfl, rfl⟩⟩
    · show (0 : Int) ≤ 0 + 0; decide
    · show (0 : Int) ≤ 0 + 0; decide
    · show (0 : Int) ≤ 2; decide
    · show (0 : Int) ≤ 0; decide
  | snoc ops op ih =>
    rw [List.countP_append, List.countP_singleton] at h1 h2
    have ih := ih (by omega) (by omega)
    rw [up_run_snoc]
    generalize Uppercase.run upper inst cbs inCbs ops = s at ih
    have st := in_step s.inp op ih.inst
    obtain ⟨a1, a2, a3, a4, a5, a6⟩ := st
    obtain ⟨b1, b2, b3, b4, b5, b6, b7⟩ := ih
    have e1 : (Uppercase.step upper s op).inp = (Flux.runFrom s.inp (Uppercase.inOp op)).1 := rfl
    have e2 : (Uppercase.step upper s op).inEvs = s.inEvs ++ (Flux.runFrom s.inp (Uppercase.inOp op)).2 := rfl
    generalize Flux.runFrom s.inp (Uppercase.inOp op) = r at *
    have b6 : isStarted op = true → s.inp.n ≤ 0 := fun hs => b6 (by rw [hs, if_pos rfl] at h1; omega)
    have b7' : isOnSubscribe op = true → askedOf s.inEvs = 0 := fun hs => (b7 (by rw [hs, if_pos rfl] at h2; omega)).2
    have idle' : (ops ++ [op]).countP isStarted = 0 → isStarted op = false ∧ s.inp.n ≤ 0 := by
      intro hz
      rw [List.countP_append, List.countP_singleton] at hz
      refine ⟨?_, ?_⟩
      · cases hs : isStarted op with
        | false => rfl
        | true => rw [hs] at hz; simp at hz
      · rename_i idle
        exact idle (by omega)
    have mute' : (ops ++ [op]).countP isOnSubscribe = 0 →
        isOnSubscribe op = false ∧ s.inp.hasRequest = false ∧ askedOf s.inEvs = 0 := by
      intro hz
      rw [List.countP_append, List.countP_singleton] at hz
      refine ⟨?_, b7 (by omega)⟩
      cases hs : isOnSubscribe op with
      | false => rfl
      | true => rw [hs] at hz; simp at hz
    generalize isStarted op = st at *
    generalize isOnSubscribe op = su at *
    have ea : askedOf (Uppercase.step upper s op).inEvs = askedOf s.inEvs + askedOf r.2 := by rw [e2, asked_append]
    have eg : gotOf (Uppercase.step upper s op).inEvs = gotOf s.inEvs + gotOf r.2 := by rw [e2, got_append]
    have en : (Uppercase.step upper s op).inp.n = r.1.n := by rw [e1]
    have eh : (Uppercase.step upper s op).inp.hasRequest = r.1.hasRequest := by rw [e1]
    refine ⟨by rw [e1]; exact a1.trans b1, ?_, ?_, ?_, ?_, ?_, ?_⟩
    · rw [e2, List.mem_append]
      rintro (h | h)
      · exact b2 h
      · exact a2 h
    · rw [ea, eg, en]
      cases su with
      | true =>
        have := b7' rfl
        simp only [if_true] at a5
        split at a5 <;> split at a3 <;> omega
      | false =>
        simp only [Bool.false_eq_true, if_false] at a5
        split at a5
        · rename_i hx
          rw [if_pos hx.2] at a3
          omega
        · split at a3 <;> omega
    · rw [eg, en]
      split at a3 <;> omega
    · rw [en]
      split at a3
      · rename_i hx
        rcases hx with hx | hx
        · have := b6 hx
          omega
        · omega
      · omega
    · intro hz
      obtain ⟨z1, z2⟩ := idle' hz
      rw [en]
      split at a3
      · rename_i hx
        rcases hx with hx | hx
        · rw [z1] at hx; cases hx
        · omega
      · omega
    · intro hz
      obtain ⟨z1, z2, z3⟩ := mute' hz
      rw [eh, ea, a6 z1, z3, a5, z1, z2]
      simp

/-- C131: never more than two elements are requested of the input beyond those it has delivered. -/
theorem C131_outstanding (upper : T → T) (inst : Flux.Installed) (cbs inCbs : List Nat) (ops : List (Uppercase.Op T))
    (h1 : ops.countP isStarted ≤ 1) (h2 : ops.countP isOnSubscribe ≤ 1) :
    askedOf (Uppercase.run upper inst cbs inCbs ops).inEvs ≤ gotOf (Uppercase.run upper inst cbs inCbs ops).inEvs + 2 := by
  have h := up_in upper inst cbs inCbs ops h1 h2
  have := h.asked
  have := h.two
  omega

/-- C131: and as soon as its source can be asked, in whichever order that happens, at least one element is always requested of the
input beyond those it has delivered. -/
theorem C131_never_idle (upper : T → T) (inst : Flux.Installed) (cbs inCbs : List Nat) (c : Bool) (first ops : List (Uppercase.Op T))
    (hf : first = [.onSubscribe c, .started] ∨ first = [.started, .onSubscribe c])
    (h1 : ops.countP isStarted = 0) (h2 : ops.countP isOnSubscribe = 0) :
    gotOf (Uppercase.run upper inst cbs inCbs (first ++ ops)).inEvs + 1 ≤
      askedOf (Uppercase.run upper inst cbs inCbs (first ++ ops)).inEvs := by
  suffices h : (Uppercase.run upper inst cbs inCbs (first ++ ops)).inp.inst = Uppercase.installed ∧
      1 ≤ (Uppercase.run upper inst cbs inCbs (first ++ ops)).inp.n ∧
      (Uppercase.run upper inst cbs inCbs (first ++ ops)).inp.hasRequest = true ∧
      askedOf (Uppercase.run upper inst cbs inCbs (first ++ ops)).inEvs =
        (Uppercase.run upper inst cbs inCbs (first ++ ops)).inp.n +
          gotOf (Uppercase.run upper inst cbs inCbs (first ++ ops)).inEvs by
    obtain ⟨-, a, -, b⟩ := h
    omega
  induction ops using mono_snoc_induction with
  | nil =>
    rw [List.append_nil]
    rcases hf with rfl | rfl
    · refine ⟨rfl, ?_, rfl, rfl⟩
      show (1 : Int) ≤ 2
      decide
    · refine ⟨rfl, ?_, rfl, rfl⟩
      show (1 : Int) ≤ 2
      decide
  | snoc ops op ih =>
    rw [List.countP_append, List.countP_singleton] at h1 h2
    obtain ⟨b1, b2, b3, b4⟩ := ih (by omega) (by omega)
    have hs : isStarted op = false := by
      cases hs : isStarted op with
      | false => rfl
      | true => rw [hs, if_pos rfl] at h1; omega
    have hu : isOnSubscribe op = false := by
      cases hu : isOnSubscribe op with
      | false => rfl
      | true => rw [hu, if_pos rfl] at h2; omega
    rw [← List.append_assoc, up_run_snoc]
    generalize Uppercase.run upper inst cbs inCbs (first ++ ops) = s at *
    obtain ⟨a1, a2, a3, a4, a5, a6⟩ := in_step s.inp op b1
    have e1 : (Uppercase.step upper s op).inp = (Flux.runFrom s.inp (Uppercase.inOp op)).1 := rfl
    have e2 : (Uppercase.step upper s op).inEvs = s.inEvs ++ (Flux.runFrom s.inp (Uppercase.inOp op)).2 := rfl
    rw [e1, e2, asked_append, got_append, a6 hu]
    generalize Flux.runFrom s.inp (Uppercase.inOp op) = r at *
    rw [hs] at a3 a5
    rw [hu, b3] at a5
    simp only [Bool.false_eq_true, false_or, if_false, true_and] at a3 a5
    refine ⟨a1.trans b1, ?_, b3, ?_⟩
    · split at a3 <;> omega
    · split at a3 <;> rename_i hx
      · rw [if_pos hx] at a5; omega
      · rw [if_neg hx] at a5; omega

/-! ## Disagreement -/

/-- C131 fails: the input is never cancelled, whatever the subscriber does. -/
theorem C131_cancel_violated (upper : T → T) (inst : Flux.Installed) (cbs inCbs : List Nat) (ops : List (Uppercase.Op T))
    (h1 : ops.countP isStarted ≤ 1) (h2 : ops.countP isOnSubscribe ≤ 1) :
    .upCancel ∉ (Uppercase.run upper inst cbs inCbs ops).inEvs :=
  (up_in upper inst cbs inCbs ops h1 h2).never

end

/-- A subscriber with all callbacks but OnRequest that requests for itself. -/
def upSub : Flux.Installed := ⟨true, true, true, false, false, true⟩

/-- C131 fails: a subscriber that has requested one element is sent two; and once it has cancelled, further elements are requested
of the input. -/
theorem C131_demand_violated :
    gotOf (Uppercase.run (· + 100) upSub [] [] [.onSubscribe true, .started, .start [], .call (.request 1), .next 1 [] [],
      .next 2 [] []]).outEvs = 2 ∧
    askedOf (Uppercase.run (· + 100) upSub [] [] [.onSubscribe true, .started, .start [], .call .cancel]).inEvs = 2 ∧
    askedOf (Uppercase.run (· + 100) upSub [] [] [.onSubscribe true, .started, .start [], .call .cancel, .next 1 [] [],
      .next 2 [] []]).inEvs = 4 := by decide

theorem C131_violated : ¬ C131_statement Nat := by
  intro h
  have := (h (· + 100) [] [] [.onSubscribe true, .started, .start [], .call (.request 1), .next 1 [] [], .next 2 [] []] upSub
    rfl rfl rfl rfl (by decide) (by decide)).2.2.2.1 (by decide)
  rw [C131_demand_violated.1] at this
  revert this
  decide

/-! ## Cases -/

example : upperExpected (· + 100) ([.onSubscribe true, .started, .start [], .call (.request 1), .next 1 [] [], .next 2 [] [],
      .complete [], .next 3 [] []] : List (Uppercase.Op Nat)) = [.next 101, .next 102, .complete] ∧
    (∀ op ∈ ([.onSubscribe true, .started, .start [], .call (.request 1), .next 1 [] [], .next 2 [] [],
      .complete [], .next 3 [] []] : List (Uppercase.Op Nat)), noCancel op) := by
  refine ⟨rfl, ?_⟩
  intro op h
  simp only [List.mem_cons, List.not_mem_nil, or_false] at h
  rcases h with rfl | rfl | rfl | rfl | rfl | rfl | rfl | rfl <;> simp [noCancel]

/-- Two elements are requested, two more after the second, although the subscriber cancels at it. -/
example : let ops : List (Uppercase.Op Nat) := [.started, .onSubscribe true, .start [], .next 1 [] [], .next 2 [.cancel] [], .next 3 [] []]
    ops.countP isStarted ≤ 1 ∧ ops.countP isOnSubscribe ≤ 1 ∧
    askedOf (Uppercase.run (· + 100) upSub [] [] ops).inEvs = 4 ∧ gotOf (Uppercase.run (· + 100) upSub [] [] ops).inEvs = 3 ∧
    gotOf (Uppercase.run (· + 100) upSub [] [] ops).outEvs = 2 := by decide

end Verif.Props
