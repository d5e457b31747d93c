import Verif.Model.Block
import Verif.Props.Mono
import Verif.Props.Flux
/-
Properties C85 (blocking on a mono) and C86 (blocking on a stream).
-/
set_option autoImplicit false
namespace Verif.Props
open Verif
open Verif.Mono (Err Signal Transform)

section
variable {T D : Type}

/-! ## C85: specification -/

/-- What a blocked caller is to return, given the signals the source sent to its subscription. (A source
cannot cancel: the `Sink` interface has no such method; if it could, the caller would wait forever.) -/
def blockOutcome : List (Mono.Sig T) → Block.Out (Option T × Err)
  | .success v :: _ => .returned (some v, none)
  | .error e :: _ => .returned (none, e)
  | _ => .waiting

/-- The same through a transform. -/
def blockMapped (tx : Transform T D) : List (Mono.Sig T) → Block.Out (Option D × Err)
  | .success v :: _ => match tx v with
    | .ok d => .returned (some d, none)
    | .error e => .returned (none, some e)
  | .error e :: _ => .returned (none, e)
  | _ => .waiting

/-- The outcome of the latest subscription, if it has ended. -/
def latestOutcome (ops : List (Mono.Op T)) : Option (Option T × Err) :=
  if subscriptions ops = [] then none else recorded (signalsTo ((subscriptions ops).length - 1) 0 ops)

/-- The results signalled to a processor, whoever is subscribed. -/
def procResults : List (Mono.POp T) → List (Mono.Sig T)
  | [] => []
  | .success v :: r => .success v :: procResults r
  | .error e :: r => .error e :: procResults r
  | .subscribe _ :: r => procResults r

/-- C85 as stated in English for processors: a blocked caller returns the first result signalled to the
processor. (The statement for monos made with `Create` is `C85_mono`.) -/
def C85_statement (T : Type) : Prop :=
  ∀ before between after : List (Mono.POp T),
    Block.proc before between after = blockOutcome (procResults (before ++ between ++ after))

/-! ## C85: what fails -/

/-- C85 fails: a result that arrives while somebody else is subscribed, between the test whether the
processor has a result and the subscription, is lost and the caller waits forever. -/
theorem C85_violated : ¬ C85_statement Nat := by
  intro h
  have := h [.subscribe ⟨true, true, false⟩] [.success 5] []
  revert this; decide

/-- ... and further results do not help: the first result is not the one returned. -/
theorem C85_second_violated :
    Block.proc [.subscribe ⟨true, true, false⟩] [.success 5] ([.success 6] : List (Mono.POp Nat)) =
      .returned (some 6, none) := by decide

/-! ## C85: proofs -/

theorem mine_eq (k : Nat) (t : List (Mono.Ev T)) : Block.mine k t = eventsOf k t := rfl

theorem monoWait_outcome (k : Nat) (l : List (Mono.Sig T)) :
    Block.monoWait (outcome k Block.monoInstalled l) = blockOutcome l := by
  cases l with
  | nil => rfl
  | cons x l => cases x <;> rfl

theorem monoWait_mapped (tx : Transform T D) (k : Nat) (l : List (Mono.Sig T)) :
    Block.monoWait ((outcome k (Mono.mapInstalled Block.monoInstalled) l).flatMap
      (Mono.mapEv tx Block.monoInstalled)) = blockMapped tx l := by
  cases l with
  | nil => rfl
  | cons x l =>
    cases x with
    | success v =>
      simp only [outcome, Mono.mapInstalled, Block.monoInstalled, if_true, Bool.false_eq_true, if_false,
        List.append_nil, List.flatMap_cons, List.flatMap_nil, Mono.mapEv, blockMapped]
      cases tx v <;> rfl
    | error e => rfl
    | cancel => rfl

theorem subscriptions_snoc (ops after : List (Mono.Op T)) (inst : Mono.Installed) :
    (subscriptions (ops ++ .subscribe inst :: after))[(subscriptions ops).length]? = some inst := by
  simp [subscriptions]

/-- C85 for monos made with `Create`, in full: whatever happened before, and whatever happens between the
test and the subscription and afterwards, `Block` returns the outcome of the latest subscription if that has
ended, and otherwise the first outcome the source reports to the subscription `Block` makes, as soon as
there is one. It never crashes. -/
theorem C85_mono (before between after : List (Mono.Op T)) :
    Block.mono before between after =
      match latestOutcome before with
      | some r => .returned r
      | none => blockOutcome (signalsTo (subscriptions (before ++ between)).length 0
          (before ++ between ++ .subscribe Block.monoInstalled :: after)) := by
  have hi := mono_inv before
  have hw : Block.monoWait (Block.mine (Mono.run (before ++ between)).1.subs.length
      (Mono.run (before ++ between ++ .subscribe Block.monoInstalled :: after)).2) =
      blockOutcome (signalsTo (subscriptions (before ++ between)).length 0
        (before ++ between ++ .subscribe Block.monoInstalled :: after)) := by
    rw [mine_eq, (mono_inv (before ++ between)).len, (mono_inv _).ev _ _ (subscriptions_snoc _ _ _),
      monoWait_outcome]
  unfold Block.mono
  simp only
  rw [hw, List.getLast?_eq_getElem?, hi.len]
  unfold latestOutcome
  cases hs : subscriptions before with
  | nil =>
    have : (Mono.run before).1.subs = [] := List.length_eq_zero_iff.mp (by rw [hi.len, hs]; rfl)
    simp [this]
  | cons x xs =>
    have hlt : (subscriptions before).length - 1 < (Mono.run before).1.subs.length := by
      rw [hi.len, hs]; simp
    rw [← hs, List.getElem?_eq_getElem hlt]
    obtain ⟨-, hcl, hrec, -⟩ := hi.sub _ _ (List.getElem?_eq_getElem hlt)
    rw [if_neg (by rw [hs]; simp)]
    simp only
    generalize (Mono.run before).1.subs[(subscriptions before).length - 1] = s at hcl hrec ⊢
    cases hc : s.closed with
    | true => rw [hrec hc]; simp
    | false =>
      have hnil : signalsTo ((subscriptions before).length - 1) 0 before = [] := by
        cases hx : signalsTo ((subscriptions before).length - 1) 0 before with
        | nil => rfl
        | cons y l => exact absurd (hcl.mpr (by simp [hx])) (by simp [hc])
      rw [hnil]; simp [recorded]

/-- C85 for mapped monos, in full. -/
theorem C85_mapper (tx : Transform T D) (before after : List (Mono.Op T)) :
    Block.monoMapper tx before after =
      blockMapped tx (signalsTo (subscriptions before).length 0
        (before ++ .subscribe (Mono.mapInstalled Block.monoInstalled) :: after)) := by
  unfold Block.monoMapper
  simp only
  rw [mine_eq, (mono_inv before).len, (mono_inv _).ev _ _ (subscriptions_snoc _ _ _), monoWait_mapped]

/-- C85 for `Just` and `Error`, plain and mapped. -/
theorem C85_just_error (tx : Transform T D) (v : T) (e : Err) :
    Block.monoJust v = blockOutcome [.success v] ∧ Block.monoError (T := T) e = blockOutcome [.error e] ∧
    Block.monoMapJust tx v = blockMapped tx [.success v] ∧
    Block.monoMapError tx e = blockMapped tx [.error e] := by
  refine ⟨rfl, rfl, ?_, rfl⟩
  unfold Block.monoMapJust
  simp only [Mono.justSubscribe, Mono.mapInstalled, Block.monoInstalled, if_true, List.flatMap_cons,
    List.flatMap_nil, List.append_nil, Mono.mapEv, blockMapped]
  cases tx v <;> rfl

theorem proc_nosub_subs (ops : List (Mono.Sig T)) (hr : ∀ s ∈ ops, isResult s) :
    (Mono.Proc.run Mono.Proc.init (ops.map sigOfPOp)).1.mono.subs = [] := by
  obtain ⟨su, er, h1, -, -⟩ := proc_before ops hr
  rw [h1]; rfl

/-- C85 for processors, as far as it holds: if nobody but the blocked caller subscribes, it returns the
first result, where of several results signalled before it subscribed the last success (or else the last
error) counts as the first; so it is the first one if at most one came before it. Missing: several
subscribers (`C85_processor_exact_partial`), and the order of early results. -/
theorem C85_processor_partial (before between after : List (Mono.Sig T))
    (hr : ∀ s ∈ before ++ between ++ after, isResult s) :
    Block.proc (before.map sigOfPOp) (between.map sigOfPOp) (after.map sigOfPOp) =
      blockOutcome (kept (before ++ between) ++ after) ∧
    ((before ++ between).length ≤ 1 → (.error none : Mono.Sig T) ∉ before ++ between →
      Block.proc (before.map sigOfPOp) (between.map sigOfPOp) (after.map sigOfPOp) =
        blockOutcome (before ++ between ++ after)) := by
  have h := C24_processor_partial (before ++ between) after Block.monoInstalled hr
  have e0 : (Mono.Proc.run Mono.Proc.init (before.map sigOfPOp)).1.mono.subs = [] :=
    proc_nosub_subs before (fun s hs => hr s (by simp [hs]))
  have e1 : (Mono.Proc.run Mono.Proc.init (before.map sigOfPOp ++ between.map sigOfPOp)).1.mono.subs = [] := by
    rw [← List.map_append]
    exact proc_nosub_subs _ (fun s hs => hr s (List.mem_append_left _ hs))
  have hm : ∀ l : List (Mono.Sig T), Block.mine 0 (outcome 0 Block.monoInstalled l) =
      outcome 0 Block.monoInstalled l := by
    intro l
    cases l with
    | nil => rfl
    | cons x l => cases x <;> rfl
  have hh : before.map sigOfPOp ++ between.map sigOfPOp ++ Mono.POp.subscribe Block.monoInstalled ::
      after.map sigOfPOp = procHistory (before ++ between) Block.monoInstalled after := by
    simp [procHistory]
  unfold Block.proc
  simp only [e0, e1, List.getLast?_nil, List.length_nil, hh]
  refine ⟨by rw [h.1, hm, monoWait_outcome], fun h1 h2 => ?_⟩
  rw [h.2 h1 h2, hm, monoWait_outcome]

/-- A mono whose source answers after `Block` subscribed; somebody else subscribed earlier. -/
example : Block.mono [.subscribe ⟨true, true, true⟩] [] [.signal 0 (.success 1) [] [],
    .signal 1 (.error (some "x")) [] [], .signal 1 (.success 2) [] []] =
    (.returned (none, some "x") : Block.Out (Option Nat × Err)) := by decide

example : Block.proc [] [.success 3] ([.success 4] : List (Mono.POp Nat)) = .returned (some 3, none) := by
  decide

/-! ## C86: specification -/

/-- How the source ends the stream: `some none` complete, `some (some e)` with an error. -/
def streamEnd : List (Flux.Op T) → Option Err
  | [] => none
  | .complete _ :: _ => some none
  | .error e _ :: _ => some e
  | _ :: r => streamEnd r

/-- What a blocked caller is to return, if the subscriber does not cancel. -/
def streamOutcome (ops : List (Flux.Op T)) : Block.Out Err :=
  match streamEnd ops with
  | none => .waiting
  | some e => .returned e

/-- The same for a mapped stream: a failing transform ends it. -/
def mappedEnd (tx : Transform T D) : List (Flux.Op T) → Option Err
  | [] => none
  | .next v _ _ :: r => match tx v with
    | .error e => some (some e)
    | .ok _ => mappedEnd tx r
  | .complete _ :: _ => some none
  | .error e _ :: _ => some e
  | _ :: r => mappedEnd tx r

def mappedStreamOutcome (tx : Transform T D) (ops : List (Flux.Op T)) : Block.Out Err :=
  match mappedEnd tx ops with
  | none => .waiting
  | some e => .returned e

/-- C86 as stated in English: `Block` on a stream returns when the stream ends, with its error: on a fresh
stream, on a mapped one, and on `flux.Error`, mapped or not. It never crashes, whatever the subscriber does. -/
def C86_statement (T : Type) : Prop :=
  (∀ (inst : Flux.Installed) (cbs : List Nat) (ops : List (Flux.Op T)),
    .cancelled ∉ (Flux.run (Block.fluxInstalled inst) cbs ops).2 →
    Block.fluxMethod none inst cbs ops = streamOutcome ops) ∧
  (∀ (tx : Transform T T) (inst : Flux.Installed) (cbs : List Nat) (ops : List (Flux.Op T)),
    .cancelled ∉ (Flux.run (Block.fluxInstalled inst) cbs ops).2 →
    Block.fluxMapper tx inst cbs ops = mappedStreamOutcome tx ops) ∧
  (∀ (tx : Transform T T) (inst : Flux.Installed) (e : Err),
    Block.fluxError e = .returned e ∧ Block.fluxMapError tx inst e = .returned e) ∧
  (∀ (inst : Flux.Installed) (cbs : List Nat) (ops : List (Flux.Op T)), Block.fluxBlock inst cbs ops ≠ .crashed)

/-! ## C86: what fails -/

/-- C86 fails: `Block` on a stream nobody has subscribed to crashes, always. -/
theorem C86_fresh_violated (inst : Flux.Installed) (cbs : List Nat) (ops : List (Flux.Op T)) :
    Block.fluxMethod none inst cbs ops = .crashed := rfl

theorem C86_violated : ¬ C86_statement Nat :=
  fun h => absurd (h.1 ⟨true, true, true, false, true, false⟩ [] [] (by simp [Flux.run, Flux.runFrom])) (by decide)

/-- C86 fails: a failing transform calls Finally, and the source's completion calls it again. -/
theorem C86_mapper_violated :
    Block.fluxMapper (fun n : Nat => (.error "odd" : Except String Nat)) ⟨true, true, true, false, true, false⟩ []
      [.next 1 [] [], .complete []] = .crashed := by decide

/-- C86 fails: blocking on a mapped `flux.Error` never returns, since it never calls Finally. -/
theorem C86_error_violated (tx : Transform T D) (inst : Flux.Installed) (e : Err) :
    Block.fluxMapError tx inst e = .waiting := rfl

/-- C86 fails: a subscriber that cancels in OnComplete. -/
theorem C86_cancel_violated :
    Block.fluxBlock ⟨true, true, true, false, true, false⟩ []
      ([.next 1 [] [], .complete [.cancel]] : List (Flux.Op Nat)) = .crashed := by decide

/-! ## C86: what holds -/

def feed (w : Block.Waiter Err) (t : List (Flux.Ev T)) : Block.Waiter Err := t.foldl Block.fluxFeed w

theorem feed_append (w : Block.Waiter Err) (a b : List (Flux.Ev T)) : feed w (a ++ b) = feed (feed w a) b :=
  List.foldl_append ..

/-- No error and no Finally: nothing happens to the blocked caller. -/
theorem feed_quiet (w : Block.Waiter Err) (t : List (Flux.Ev T)) (h1 : ∀ e, .error e ∉ t) (h2 : finCount t = 0) :
    feed w t = w := by
  induction t generalizing w with
  | nil => rfl
  | cons x t ih =>
    have h1' : ∀ e, .error e ∉ t := fun e he => h1 e (List.mem_cons_of_mem _ he)
    cases x with
    | error e => exact absurd List.mem_cons_self (h1 e)
    | fin s => simp [finCount] at h2
    | _ => exact ih w h1' (by simpa [finCount] using h2)

theorem error_mem_signals (t : List (Flux.Ev T)) (e : Err) : .error e ∈ t ↔ .error e ∈ fluxSignals t := by
  simp [fluxSignals]

/-- When the blocked caller crashes or returns, in terms of the Finally calls. -/
theorem feed_fin (w : Block.Waiter Err) (t : List (Flux.Ev T)) :
    ((feed w t).crashed = true ↔
      w.crashed = true ∨ 2 ≤ (if w.result.isSome then 1 else 0) + finCount t) ∧
    ((feed w t).result.isSome = true ↔ w.result.isSome = true ∨ 1 ≤ finCount t) := by
  induction t generalizing w with
  | nil =>
    simp only [feed, List.foldl_nil, finCount, List.filter_nil, List.length_nil]
    refine ⟨⟨.inl, fun h => h.elim id fun h => ?_⟩, ⟨.inl, fun h => h.elim id fun h => by omega⟩⟩
    split at h <;> omega
  | cons x t ih =>
    have hc : ∀ e : Flux.Ev T, (∀ s, e ≠ .fin s) → finCount (e :: t) = finCount t := by
      intro e he
      cases e <;> first | rfl | exact absurd rfl (he _)
    cases x with
    | fin s =>
      have hf : finCount (Flux.Ev.fin s :: t) = finCount t + 1 := rfl
      have hx : feed w (Flux.Ev.fin s :: t) = feed (Block.finish w) t := rfl
      rw [hx, hf]
      obtain ⟨i1, i2⟩ := ih (Block.finish w)
      rw [i1, i2]
      unfold Block.finish
      obtain ⟨cur, res, cr⟩ := w
      cases res with
      | none =>
        simp only [Option.isSome_none, Bool.false_eq_true, if_false, Option.isSome_some, if_true, true_or, true_iff,
          false_or]
        exact ⟨⟨fun h => h.imp id (by omega), fun h => h.imp id (by omega)⟩, by omega⟩
      | some r =>
        simp only [Option.isSome_some, if_true, true_or, true_iff]
        exact ⟨.inr (by omega), trivial⟩
    | error e =>
      have hx : feed w (Flux.Ev.error e :: t) = feed { w with cur := e } t := rfl
      rw [hx, hc _ (by intro s h; cases h)]
      exact ih _
    | _ =>
      rw [hc _ (by intro s h; cases h)]
      exact ih w

open Classical in
/-- C86: exactly when `Block` (the function) on a stream made with `Create` crashes and when it still waits.
`sourceEnds`: the source ends the stream before the subscriber cancels it. So it crashes exactly if the
subscriber cancels twice, or once besides the source's end. -/
theorem C86_crash_partial (inst : Flux.Installed) (cbs : List Nat) (ops : List (Flux.Op T)) :
    let ends := cancelCount (Flux.run (Block.fluxInstalled inst) cbs ops).2 +
      if sourceEnds (Block.fluxInstalled inst) cbs ops then 1 else 0
    (Block.fluxBlock inst cbs ops = .crashed ↔ 2 ≤ ends) ∧ (Block.fluxBlock inst cbs ops = .waiting ↔ ends = 0) := by
  intro ends
  have hf := C27_finally_once_partial (Block.fluxInstalled inst) cbs ops rfl
  have e : Block.fluxBlock inst cbs ops =
      (feed ⟨none, none, false⟩ (Flux.run (Block.fluxInstalled inst) cbs ops).2).out := rfl
  obtain ⟨h1, h2⟩ := feed_fin ⟨none, none, false⟩ (Flux.run (Block.fluxInstalled inst) cbs ops).2
  rw [hf] at h1 h2
  rw [e]
  generalize feed ⟨none, none, false⟩ (Flux.run (Block.fluxInstalled inst) cbs ops).2 = w at h1 h2
  simp only [Bool.false_eq_true, false_or, Option.isSome_none, if_false, Nat.zero_add] at h1 h2
  change _ ↔ 2 ≤ ends at h1
  change _ ↔ 1 ≤ ends at h2
  unfold Block.Waiter.out
  obtain ⟨cur, res, cr⟩ := w
  dsimp only at h1 h2 ⊢
  cases cr with
  | true =>
    have := h1.mp rfl
    simp only [if_true, true_iff]
    exact ⟨this, ⟨fun h => (by cases h), fun h => (by omega)⟩⟩
  | false =>
    have n2 : ¬ 2 ≤ ends := fun h => absurd (h1.mpr h) (by decide)
    simp only [Bool.false_eq_true, if_false]
    cases res with
    | none =>
      have : ¬ 1 ≤ ends := fun h => absurd (h2.mpr h) (by decide)
      exact ⟨⟨fun h => (by cases h), fun h => absurd h n2⟩, ⟨fun _ => (by omega), fun _ => rfl⟩⟩
    | some r =>
      have := h2.mp rfl
      exact ⟨⟨fun h => (by cases h), fun h => absurd h n2⟩, ⟨fun h => (by cases h), fun h => (by omega)⟩⟩

/-! ### Results -/

theorem streamEnd_snoc (ops : List (Flux.Op T)) (op : Flux.Op T) :
    streamEnd (ops ++ [op]) = match streamEnd ops with
      | some e => some e
      | none => streamEnd [op] := by
  induction ops with
  | nil => rfl
  | cons x ops ih => cases x <;> first | rfl | exact ih

theorem streamEnd_none (ops : List (Flux.Op T)) : streamEnd ops = none ↔ ∀ op ∈ ops, isTerminal op = false := by
  induction ops with
  | nil => simp [streamEnd]
  | cons x ops ih => cases x <;> simp [streamEnd, isTerminal, ih]

/-- One step that ends an open stream, seen by a blocked caller. -/
theorem feed_terminal (m : Flux.State) (hc : m.closed = false) (hf : m.inst.fin = true) (he : m.inst.onError = true)
    (op : Flux.Op T) (ht : isTerminal op = true) (hq : cancelCount (Flux.step m op).2 = 0) :
    (Flux.step m op).1.closed = true ∧
    ∀ e, streamEnd [op] = some e → (Flux.step m op).1.err = (match op with | .error e _ => e | _ => m.err) ∧
      feed ⟨none, none, false⟩ (Flux.step m op).2 = ⟨e, some e, false⟩ := by
  have hcb : ∀ (w : Block.Waiter Err) (l : List Nat) (s : Signal),
      feed w (l.map (Flux.Ev.notified (T := T) · s)) = w := by
    intro w l s
    exact feed_quiet _ _ (by simp) (callbacks_quiet l s).2.1
  have hfin : ∀ (w : Block.Waiter Err) (m : Flux.State) (s : Signal), m.inst.fin = true →
      feed w (Flux.doFinally (T := T) m s).2 = Block.finish w := by
    intro w m s h
    unfold Flux.doFinally
    simp only [h, if_true, feed_append, hcb]
    rfl
  have herr : ∀ (m : Flux.State) (a : List Flux.Call), (Flux.calls (T := T) m a).1.err = m.err := by
    intro m a
    induction a generalizing m with
    | nil => rfl
    | cons c a ih =>
      have : (Flux.call (T := T) m c).1.err = m.err := by cases c <;> rfl
      exact (ih _).trans this
  cases op with
  | complete a =>
    have q := quiet_calls (T := T) { m with closed := true } a
    simp only [Flux.step, Flux.complete, hc, Bool.false_eq_true, if_false] at hq ⊢
    cases ho : m.inst.onComplete with
    | false =>
      simp only [ho, Bool.false_eq_true, if_false, List.nil_append] at hq ⊢
      refine ⟨rfl, fun e h => ⟨rfl, ?_⟩⟩
      cases h
      exact hfin _ _ _ hf
    | true =>
      simp only [ho, if_true] at hq ⊢
      have hq' : cancelCount (Flux.calls (T := T) { m with closed := true } a).2 = 0 := by
        rw [cancelCount_append] at hq
        have : cancelCount (Flux.Ev.complete :: (Flux.calls (T := T) { m with closed := true } a).2) =
          cancelCount (Flux.calls (T := T) { m with closed := true } a).2 := rfl
        omega
      refine ⟨by show (Flux.calls (T := T) _ a).1.closed = true; rw [q.closed]; rfl, fun e h => ⟨herr _ _, ?_⟩⟩
      cases h
      rw [feed_append, hfin _ _ _ (by rw [q.inst]; exact hf)]
      have hz : feed ⟨none, none, false⟩ (Flux.Ev.complete :: (Flux.calls (T := T) { m with closed := true } a).2) =
          ⟨none, none, false⟩ := by
        refine feed_quiet _ _ (fun e h => ?_) ?_
        · rcases List.mem_cons.mp h with h | h
          · cases h
          · rw [error_mem_signals, q.signals] at h; cases h
        · have := q.fins
          rw [hq'] at this
          simpa [finCount] using this
      rw [hz]; rfl
  | error e a =>
    have q := quiet_calls (T := T) { m with err := e, closed := true } a
    simp only [Flux.step, Flux.error, hc, Bool.false_eq_true, if_false, he, if_true] at hq ⊢
    have hq' : cancelCount (Flux.calls (T := T) { m with err := e, closed := true } a).2 = 0 := by
      rw [cancelCount_append] at hq
      have : cancelCount (Flux.Ev.error e :: (Flux.calls (T := T) { m with err := e, closed := true } a).2) =
        cancelCount (Flux.calls (T := T) { m with err := e, closed := true } a).2 := rfl
      omega
    refine ⟨by show (Flux.calls (T := T) _ a).1.closed = true; rw [q.closed]; rfl, fun e' h => ⟨herr _ _, ?_⟩⟩
    cases h
    rw [feed_append, hfin _ _ _ (by rw [q.inst]; exact hf)]
    have hz : feed ⟨none, none, false⟩ (Flux.Ev.error e :: (Flux.calls (T := T) { m with err := e, closed := true } a).2) =
        ⟨e, none, false⟩ := by
      change feed ⟨e, none, false⟩ _ = _
      refine feed_quiet _ _ (fun e h => ?_) ?_
      · rw [error_mem_signals, q.signals] at h; cases h
      · have := q.fins
        rw [hq'] at this
        simpa using this
    rw [hz]; rfl
  | _ => cases ht

theorem block_state (inst : Flux.Installed) (cbs : List Nat) (ops : List (Flux.Op T))
    (h : .cancelled ∉ (Flux.run (Block.fluxInstalled inst) cbs ops).2) :
    feed ⟨none, none, false⟩ (Flux.run (Block.fluxInstalled inst) cbs ops).2 =
      match streamEnd ops with
      | none => ⟨none, none, false⟩
      | some e => ⟨e, some e, false⟩ := by
  induction ops using mono_snoc_induction with
  | nil => rfl
  | snoc ops op ih =>
    rw [flux_run_snoc] at h ⊢
    dsimp only at h ⊢
    have ih := ih (fun hh => h (List.mem_append_left _ hh))
    have hq : cancelCount (Flux.step (Flux.run (Block.fluxInstalled inst) cbs ops).1 op).2 = 0 := by
      have := fun hh => h (List.mem_append_right _ ((cancelled_mem_iff _).mpr hh))
      exact Classical.byContradiction this
    have s := flux_step_spec (Flux.run (Block.fluxInstalled inst) cbs ops).1 op
    have st := flux_state (Block.fluxInstalled inst) cbs ops
    rw [feed_append, ih, streamEnd_snoc]
    have hnc : .cancelled ∉ (Flux.run (Block.fluxInstalled inst) cbs ops).2 := fun hh => h (List.mem_append_left _ hh)
    have hclosed : (Flux.run (Block.fluxInstalled inst) cbs ops).1.closed = true ↔ streamEnd ops ≠ none := by
      rw [st.2, Ne, streamEnd_none]
      constructor
      · rintro (⟨o, ho, ht⟩ | hh)
        · intro hn; rw [hn o ho] at ht; cases ht
        · exact absurd hh hnc
      · intro hn
        refine Or.inl (Classical.byContradiction fun hh => hn fun o ho => ?_)
        cases ht : isTerminal o with
        | false => rfl
        | true => exact absurd ⟨o, ho, ht⟩ hh
    cases hs : streamEnd ops with
    | some e =>
      have hcl := hclosed.mpr (by rw [hs]; simp)
      refine feed_quiet _ _ (fun e' he' => ?_) ?_
      · rw [error_mem_signals, s.signals, hcl] at he'; cases he'
      · rw [s.fins, hcl, hq]; simp
    | none =>
      have hcl : (Flux.run (Block.fluxInstalled inst) cbs ops).1.closed = false := by
        cases hx : (Flux.run (Block.fluxInstalled inst) cbs ops).1.closed with
        | false => rfl
        | true => exact absurd hs (hclosed.mp hx)
      cases ht : isTerminal op with
      | false =>
        have : streamEnd [op] = none := (streamEnd_none _).mpr (by simpa using ht)
        rw [this]
        refine feed_quiet _ _ (fun e' he' => ?_) ?_
        · rw [error_mem_signals, s.signals, hcl, if_neg (by decide)] at he'
          cases op with
          | error e a => cases ht
          | next v a b =>
            simp only [fluxExpected] at he'
            split at he' <;> simp at he'
          | complete a => cases ht
          | _ => cases he'
        · rw [s.fins, hq, hcl, ht]; simp
      | true =>
        have k := feed_terminal _ hcl (by rw [st.1]; rfl) (by rw [st.1]; rfl) op ht hq
        cases hse : streamEnd [op] with
        | none =>
          have := (streamEnd_none _).mp hse op (by simp)
          rw [this] at ht; cases ht
        | some e => exact (k.2 e hse).2

/-- C86: `Block` (the function) on a stream made with `Create` whose subscriber does not cancel returns as soon
as the source ends the stream, with the source's error. Missing: `Block` called as a method of a fresh stream
(`C86_fresh_violated`), and cancellation (`C86_crash_partial`). -/
theorem C86_result_partial (inst : Flux.Installed) (cbs : List Nat) (ops : List (Flux.Op T))
    (h : .cancelled ∉ (Flux.run (Block.fluxInstalled inst) cbs ops).2) :
    Block.fluxBlock inst cbs ops = streamOutcome ops := by
  have e : Block.fluxBlock inst cbs ops =
      (feed ⟨none, none, false⟩ (Flux.run (Block.fluxInstalled inst) cbs ops).2).out := rfl
  rw [e, block_state inst cbs ops h]
  unfold streamOutcome
  cases streamEnd ops <;> rfl

/-- C86: a blocked caller whose subscriber cancels once, before the source ends the stream, returns without an
error. -/
theorem C86_cancel_once_partial (inst : Flux.Installed) (cbs : List Nat) (ops : List (Flux.Op T))
    (h1 : cancelCount (Flux.run (Block.fluxInstalled inst) cbs ops).2 = 1) (h2 : streamEnd ops = none) :
    Block.fluxBlock inst cbs ops = .returned none := by
  have hs : ¬ sourceEnds (Block.fluxInstalled inst) cbs ops := by
    rintro ⟨a, op, b, h, ht, -⟩
    have := (streamEnd_none ops).mp h2 op (by rw [h]; simp)
    rw [this] at ht; cases ht
  have hc := C86_crash_partial inst cbs ops
  simp only [h1, hs, if_false] at hc
  have n1 : Block.fluxBlock inst cbs ops ≠ .crashed := fun hh => absurd (hc.1.mp hh) (by decide)
  have n2 : Block.fluxBlock inst cbs ops ≠ .waiting := fun hh => absurd (hc.2.mp hh) (by decide)
  -- no error was delivered
  have hne : ∀ e, .error e ∉ (Flux.run (Block.fluxInstalled inst) cbs ops).2 := by
    intro e he
    rw [error_mem_signals] at he
    obtain ⟨k, -, hk, -⟩ := C26_flux_signals (Block.fluxInstalled inst) cbs ops
    rw [hk, List.mem_flatMap] at he
    obtain ⟨op, ho, he⟩ := he
    have ht := (streamEnd_none ops).mp h2 op (List.mem_of_mem_take ho)
    cases op with
    | error e a => cases ht
    | complete a => cases ht
    | next v a b => simp only [fluxExpected] at he; split at he <;> simp at he
    | _ => cases he
  have hcur : ∀ (w : Block.Waiter Err) (t : List (Flux.Ev T)), (∀ e, .error e ∉ t) → w.cur = none →
      (∀ r, w.result = some r → r = none) →
      (feed w t).cur = none ∧ (∀ r, (feed w t).result = some r → r = none) := by
    intro w t
    induction t generalizing w with
    | nil => exact fun _ a b => ⟨a, b⟩
    | cons x t ih =>
      intro hx ha hb
      have hx' : ∀ e, .error e ∉ t := fun e he => hx e (List.mem_cons_of_mem _ he)
      cases x with
      | error e => exact absurd List.mem_cons_self (hx e)
      | fin s =>
        refine ih (Block.finish w) hx' ?_ ?_
        · unfold Block.finish; split <;> exact ha
        · unfold Block.finish
          split
          · exact hb
          · intro r hr; cases hr; exact ha
      | _ => exact ih w hx' ha hb
  have e : Block.fluxBlock inst cbs ops =
      (feed ⟨none, none, false⟩ (Flux.run (Block.fluxInstalled inst) cbs ops).2).out := rfl
  have k := hcur ⟨none, none, false⟩ _ hne rfl (by intro r hr; cases hr)
  rw [e] at n1 n2 ⊢
  generalize feed ⟨none, none, false⟩ (Flux.run (Block.fluxInstalled inst) cbs ops).2 = w at *
  unfold Block.Waiter.out at *
  obtain ⟨cur, res, cr⟩ := w
  cases cr with
  | true => exact absurd rfl n1
  | false =>
    cases res with
    | none => exact absurd rfl n2
    | some r => rw [k.2 r rfl]; rfl

/-- C86 for a mapped stream, if the transform does not fail: as without the transform. -/
theorem C86_mapper_partial (tx : Transform T D) (inst : Flux.Installed) (cbs : List Nat) (ops : List (Flux.Op T))
    (h : ∀ v, .next v ∈ (Flux.run (Flux.mapInstalled (Block.fluxInstalled inst)) cbs ops).2 → ∃ d, tx v = .ok d) :
    Block.fluxMapper tx inst cbs ops = Block.fluxBlock { inst with onNext := true } cbs ops := by
  have key : ∀ (t : List (Flux.Ev T)) (w : Block.Waiter Err), (∀ v, .next v ∈ t → ∃ d, tx v = .ok d) →
      feed w (t.flatMap (Flux.mapEv tx (Block.fluxInstalled inst))) = feed w t := by
    intro t
    induction t with
    | nil => intros; rfl
    | cons x t ih =>
      intro w hx
      have ih := fun w => ih w (fun v hv => hx v (List.mem_cons_of_mem _ hv))
      rw [List.flatMap_cons, feed_append]
      cases x with
      | next v =>
        obtain ⟨d, hd⟩ := hx v List.mem_cons_self
        simp only [Flux.mapEv, hd]
        rw [ih]
        split <;> rfl
      | _ => exact ih _
  have e : Block.fluxMapper tx inst cbs ops =
      (feed ⟨none, none, false⟩ ((Flux.run (Flux.mapInstalled (Block.fluxInstalled inst)) cbs ops).2.flatMap
        (Flux.mapEv tx (Block.fluxInstalled inst)))).out := rfl
  rw [e, key _ _ h]
  rfl

example : Block.fluxBlock ⟨true, true, false, false, false, false⟩ [7]
    ([.onSubscribe true, .start [], .next 1 [] [], .error (some "x") [], .next 2 [] []] : List (Flux.Op Nat)) =
    .returned (some "x") ∧
    .cancelled ∉ (Flux.run (Block.fluxInstalled ⟨true, true, false, false, false, false⟩) [7]
    ([.onSubscribe true, .start [], .next 1 [] [], .error (some "x") [], .next 2 [] []] : List (Flux.Op Nat))).2 := by
  decide

example : cancelCount (Flux.run (Block.fluxInstalled ⟨true, true, false, false, false, false⟩) []
    ([.start [], .next 1 [.cancel] [], .next 2 [] []] : List (Flux.Op Nat))).2 = 1 := by decide

/-! ### A stream that has ended already -/

theorem call_err (m : Flux.State) (c : Flux.Call) : (Flux.call (T := T) m c).1.err = m.err := by cases c <;> rfl

theorem calls_err (m : Flux.State) (a : List Flux.Call) : (Flux.calls (T := T) m a).1.err = m.err := by
  induction a generalizing m with
  | nil => rfl
  | cons c a ih => exact (ih _).trans (call_err m c)

theorem handle_err (m : Flux.State) (a : List Flux.Call) : (Flux.handleOnSubscribe (T := T) m a).1.err = m.err := by
  unfold Flux.handleOnSubscribe
  split
  · rfl
  · split
    · exact calls_err m a
    · exact call_err m _

theorem step_err (m : Flux.State) (op : Flux.Op T) :
    (Flux.step m op).1.err = match op with
      | .error e _ => if m.closed then m.err else e
      | _ => m.err := by
  cases op with
  | start a => exact handle_err m a
  | call c => exact call_err m c
  | onSubscribe c => simp only [Flux.step]; split <;> rfl
  | notify cb => simp only [Flux.step, Flux.notify]; split <;> rfl
  | next v a b =>
    have key : (Flux.onNext (T := T) { m with n := m.n - 1 } v a).1.err = m.err := by
      unfold Flux.onNext
      split
      · exact calls_err _ a
      · rfl
    simp only [Flux.step, Flux.next]
    split
    · rfl
    · split
      · exact (handle_err _ b).trans key
      · exact key
  | complete a =>
    simp only [Flux.step, Flux.complete]
    split
    · rfl
    · simp only [Flux.doFinally]
      split
      · exact calls_err _ a
      · rfl
  | error e a =>
    simp only [Flux.step, Flux.error]
    split
    · rfl
    · simp only [Flux.doFinally]
      split
      · exact calls_err _ a
      · rfl

/-- C86: `Block` called as a method of a stream somebody has subscribed to: if that subscription was ended by
the source it returns the source's error at once, if it was cancelled before it returns nil at once, and
otherwise it behaves like `Block` the function. -/
theorem C86_method_partial (inst inst' : Flux.Installed) (cbs cbs' : List Nat) (ops ops' : List (Flux.Op T)) :
    Block.fluxMethod (some (Flux.run inst' cbs' ops').1) inst cbs ops = Block.fluxBlock inst cbs ops ∧
      ¬ fluxOver inst' cbs' ops' ∨
    (∃ a op b e, ops' = a ++ op :: b ∧ streamEnd [op] = some e ∧ ¬ fluxOver inst' cbs' a ∧
      Block.fluxMethod (some (Flux.run inst' cbs' ops').1) inst cbs ops = .returned e) ∨
    (fluxOver inst' cbs' ops' ∧ ¬ sourceEnds inst' cbs' ops' ∧
      Block.fluxMethod (some (Flux.run inst' cbs' ops').1) inst cbs ops = .returned none) := by
  have st := fun l : List (Flux.Op T) => (flux_state inst' cbs' l).2
  have clo : ∀ l : List (Flux.Op T), (Flux.run inst' cbs' l).1.closed = false ↔ ¬ fluxOver inst' cbs' l := by
    intro l
    rw [← st l]; simp
  -- the error recorded
  have main : ∀ l : List (Flux.Op T),
      ((Flux.run inst' cbs' l).1.err = none ∧ (¬ fluxOver inst' cbs' l ∨ ¬ sourceEnds inst' cbs' l)) ∨
      ∃ a op b e, l = a ++ op :: b ∧ streamEnd [op] = some e ∧ ¬ fluxOver inst' cbs' a ∧
        (Flux.run inst' cbs' l).1.err = e := by
    intro l
    induction l using mono_snoc_induction with
    | nil =>
      refine Or.inl ⟨rfl, Or.inl ?_⟩
      rw [← clo]; rfl
    | snoc l op ih =>
      rw [flux_run_snoc]
      dsimp only
      rw [step_err]
      rcases ih with ⟨he, hn⟩ | ⟨a, o, b, e, hl, hs, hc, he⟩
      · cases hcl : (Flux.run inst' cbs' l).1.closed with
        | false =>
          cases ht : isTerminal op with
          | false =>
            refine Or.inl ⟨?_, Or.inr ?_⟩
            · cases op <;> first | exact he | cases ht
            · rintro ⟨a, o, b, h, hto, -⟩
              have hm : o ∈ l ++ [op] := by rw [h]; simp
              rcases List.mem_append.mp hm with hm | hm
              · exact (clo l).mp hcl (Or.inl ⟨o, hm, hto⟩)
              · simp at hm; subst hm; rw [ht] at hto; cases hto
          | true =>
            refine Or.inr ⟨l, op, [], _, rfl, ?_, (clo l).mp hcl, rfl⟩
            cases op with
            | complete a => simp [streamEnd, he]
            | error e a => simp [streamEnd]
            | _ => cases ht
        | true =>
          have hover := (st l).mp hcl
          have hns : ¬ sourceEnds inst' cbs' l := hn.resolve_left (fun h => h hover)
          refine Or.inl ⟨?_, Or.inr ?_⟩
          · cases op <;> simpa [hcl] using he
          · rintro ⟨a, o, b, h, hto, hcc⟩
            rcases List.eq_nil_or_concat b with rfl | ⟨b', x, rfl⟩
            · obtain ⟨rfl, h'⟩ := List.append_inj' h rfl
              rcases hover with ⟨o', ho', ht'⟩ | hh
              · obtain ⟨a', b', hab⟩ := List.append_of_mem ho'
                refine hns ⟨a', o', b', hab, ht', fun hcc' => hcc ?_⟩
                rw [hab, Flux.run, flux_runFrom_append]
                exact List.mem_append_left _ hcc'
              · exact hcc hh
            · rw [List.concat_eq_append, ← List.cons_append, ← List.append_assoc] at h
              exact hns ⟨a, o, b', (List.append_inj' h rfl).1, hto, hcc⟩
      · refine Or.inr ⟨a, o, b ++ [op], e, by simp [hl], hs, hc, ?_⟩
        have hcl : (Flux.run inst' cbs' l).1.closed = true := by
          rw [st l]
          refine Or.inl ⟨o, by rw [hl]; simp, ?_⟩
          cases ht : isTerminal o with
          | true => rfl
          | false =>
            have := (streamEnd_none [o]).mpr (by simpa using ht)
            rw [this] at hs; cases hs
        cases op <;> simpa [hcl] using he
  unfold Block.fluxMethod
  simp only
  cases hcl : (Flux.run inst' cbs' ops').1.closed with
  | false => exact Or.inl ⟨rfl, (clo ops').mp hcl⟩
  | true =>
    have hover := (st ops').mp hcl
    rcases main ops' with ⟨he, hn⟩ | ⟨a, o, b, e, hl, hs, hc, he⟩
    · exact Or.inr (Or.inr ⟨hover, hn.resolve_left (fun h => h hover), by rw [he]; rfl⟩)
    · exact Or.inr (Or.inl ⟨a, o, b, e, hl, hs, hc, by rw [he]; rfl⟩)

example : Block.fluxMethod (some (Flux.run ⟨true, true, true, false, true, false⟩ []
    ([.next 1 [] [], .error (some "x") []] : List (Flux.Op Nat))).1) ⟨true, true, true, false, true, false⟩ []
    ([] : List (Flux.Op Nat)) = .returned (some "x") := by decide

end
end Verif.Props
