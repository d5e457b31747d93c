import Verif.Props.SystemServe
/-
What the subscriber of a stream a call returned sees, given the frames that arrive.
-/
set_option autoImplicit false
namespace Verif.Props
open Verif Frames Handler
open Verif.Invoke (Kind Registry getHandler)

section
variable {H : Type}

/-! ## Specification -/

/-- What happens on a stream. -/
inductive StreamSig
  | element (p : Pay)
  | complete
  | error (e : Mono.Err)
  deriving DecidableEq

def StreamSig.ends : StreamSig → Bool
  | .element _ => false
  | _ => true

/-- Up to and including the first end. -/
def cutAtEnd : List StreamSig → List StreamSig
  | [] => []
  | x :: xs => if x.ends then [x] else x :: cutAtEnd xs

/-- What a frame tells the stream `id`: a payload frame carries an element, the completion, or both; an
error frame fails the stream, a cancel frame completes it. -/
def frameSigs (id : UInt32) : AnyFrame → List StreamSig
  | .payload v => if v.streamID = id then
      (if v.next then [.element ⟨v.data, v.metadata⟩] else []) ++ (if v.complete then [.complete] else []) else []
  | .error v => if v.streamID = id then [.error (some (strOf v.data))] else []
  | .cancel v => if v.streamID = id then [.complete] else []
  | _ => []

/-- What was told to the stream `id` by the frames received. -/
def arrivals (id : UInt32) (as : List Act) : List StreamSig :=
  as.flatMap fun | .frame f _ => frameSigs id f | _ => []

/-- The callbacks and calls of the subscriber of stream `j`. -/
def fluxEvs (j : Nat) (tr : List (Handler.Ev H)) : List (Flux.Ev Pay) :=
  tr.filterMap fun | .flux i e => if i = j then some e else none | _ => none

/-- The callbacks (OnNext, OnComplete, OnError) a subscriber with these callbacks is to see for it. -/
def sigCalls (inst : Flux.Installed) : StreamSig → List (Flux.Ev Pay)
  | .element p => if inst.onNext then [.next p] else []
  | .complete => if inst.onComplete then [.complete] else []
  | .error e => if inst.onError then [.error e] else []

/-- Including Finally. -/
def sigCallbacks (inst : Flux.Installed) : StreamSig → List (Flux.Ev Pay)
  | .element p => sigCalls inst (.element p)
  | .complete => sigCalls inst .complete ++ if inst.fin then [.fin .complete] else []
  | .error e => sigCalls inst (.error e) ++ if inst.fin then [.fin .error] else []

/-! ## Subscribers -/

/-- What an operation tells the subscriber. -/
def opSigs : Flux.Op Pay → List StreamSig
  | .next v _ _ => [.element v]
  | .complete _ => [.complete]
  | .error e _ => [.error e]
  | _ => []

theorem opSigs_cases (op : Flux.Op Pay) :
    (isTerminal op = true ∧ ∃ x, opSigs op = [x] ∧ x.ends = true ∧
      ∀ inst, fluxExpected inst op = sigCalls inst x) ∨
    (isTerminal op = false ∧ (∀ x ∈ opSigs op, x.ends = false) ∧
      ∀ inst, fluxExpected inst op = (opSigs op).flatMap (sigCalls inst)) := by
  cases op with
  | next v a b => exact .inr ⟨rfl, by simp [opSigs, StreamSig.ends], fun i => by simp [fluxExpected, opSigs, sigCalls]⟩
  | complete a => exact .inl ⟨rfl, _, rfl, rfl, fun _ => rfl⟩
  | error e a => exact .inl ⟨rfl, _, rfl, rfl, fun _ => rfl⟩
  | _ => exact .inr ⟨rfl, by simp [opSigs], fun _ => rfl⟩

theorem cutAtEnd_append (a b : List StreamSig) (h : ∀ x ∈ a, x.ends = false) : cutAtEnd (a ++ b) = a ++ cutAtEnd b := by
  induction a with
  | nil => rfl
  | cons x a ih => simp [cutAtEnd, h x (by simp), ih fun y hy => h y (by simp [hy])]

theorem cutAtEnd_ends (a b : List StreamSig) (x : StreamSig) (h : ∀ y ∈ a, y.ends = false) (hx : x.ends = true) :
    cutAtEnd (a ++ x :: b) = a ++ [x] := by
  rw [cutAtEnd_append a _ h]; simp [cutAtEnd, hx]

/-- Closed subscribers see nothing. -/
theorem closed_signals (ops : List (Flux.Op Pay)) : ∀ (m : Flux.State), m.closed = true →
    fluxSignals (Flux.runFrom m ops).2 = [] := by
  induction ops with
  | nil => intro m _; rfl
  | cons op ops ih =>
    intro m hm
    have sp := flux_step_spec m op
    have e : (Flux.runFrom m (op :: ops)).2 = (Flux.step m op).2 ++ (Flux.runFrom (Flux.step m op).1 ops).2 := rfl
    rw [e, fluxSignals_append, sp.signals, hm, ih _ (by rw [sp.closed, hm]; rfl)]
    rfl

/-- A subscriber sees a part of what it is told, from the start and in order. -/
theorem signals_prefix (ops : List (Flux.Op Pay)) : ∀ (m : Flux.State),
    ∃ r, r <+: cutAtEnd (ops.flatMap opSigs) ∧ fluxSignals (Flux.runFrom m ops).2 = r.flatMap (sigCalls m.inst) := by
  induction ops with
  | nil => intro m; exact ⟨[], by simp, rfl⟩
  | cons op ops ih =>
    intro m
    have sp := flux_step_spec m op
    have e : (Flux.runFrom m (op :: ops)).2 = (Flux.step m op).2 ++ (Flux.runFrom (Flux.step m op).1 ops).2 := rfl
    rcases (Bool.eq_false_or_eq_true m.closed).symm with hm | hm
    · obtain ⟨r, h1, h2⟩ := ih (Flux.step m op).1
      rw [sp.inst] at h2
      rw [List.flatMap_cons]
      rcases opSigs_cases op with ⟨ht, x, hx, hxe, hxc⟩ | ⟨ht, hx, hxc⟩
      · refine ⟨[x], ?_, ?_⟩
        · rw [hx]; simp [cutAtEnd, hxe]
        · rw [e, fluxSignals_append, sp.signals, hm, closed_signals _ _ (by rw [sp.closed, ht]; simp)]
          simp [hxc]
      · refine ⟨opSigs op ++ r, ?_, ?_⟩
        · rw [cutAtEnd_append _ _ hx]
          exact (List.prefix_append_right_inj _).mpr h1
        · rw [e, fluxSignals_append, sp.signals, hm, h2, List.flatMap_append]
          simp [hxc]
    · exact ⟨[], List.nil_prefix, closed_signals _ _ hm⟩

theorem callbacks_calls (cs : List Flux.Call) : ∀ (m : Flux.State),
    .cancelled ∉ (Flux.calls (T := Pay) m cs).2 →
    fluxCallbacks (Flux.calls (T := Pay) m cs).2 = [] ∧ (Flux.calls (T := Pay) m cs).1.inst = m.inst ∧
    (Flux.calls (T := Pay) m cs).1.callbacks = m.callbacks ∧ (Flux.calls (T := Pay) m cs).1.closed = m.closed := by
  induction cs with
  | nil => intro m _; exact ⟨rfl, rfl, rfl, rfl⟩
  | cons c cs ih =>
    intro m h
    have e1 : (Flux.calls (T := Pay) m (c :: cs)).2 = (Flux.call m c).2 ++ (Flux.calls (Flux.call (T := Pay) m c).1 cs).2 := rfl
    have e2 : (Flux.calls (T := Pay) m (c :: cs)).1 = (Flux.calls (T := Pay) (Flux.call (T := Pay) m c).1 cs).1 := rfl
    rw [e1] at h
    simp only [List.mem_append, not_or] at h
    obtain ⟨h1, h2, h3, h4⟩ := ih _ h.2
    cases c with
    | cancel => simp [Flux.call] at h
    | request k =>
      refine ⟨?_, by rw [e2, h2]; rfl, by rw [e2, h3]; rfl, by rw [e2, h4]; rfl⟩
      rw [e1, fluxCallbacks_append, h1]
      simp only [Flux.call]
      split <;> rfl

theorem callbacks_handle (cs : List Flux.Call) (m : Flux.State)
    (h : .cancelled ∉ (Flux.handleOnSubscribe (T := Pay) m cs).2) :
    fluxCallbacks (Flux.handleOnSubscribe (T := Pay) m cs).2 = [] ∧
    (Flux.handleOnSubscribe (T := Pay) m cs).1.inst = m.inst ∧
    (Flux.handleOnSubscribe (T := Pay) m cs).1.callbacks = m.callbacks ∧
    (Flux.handleOnSubscribe (T := Pay) m cs).1.closed = m.closed := by
  unfold Flux.handleOnSubscribe at h ⊢
  split
  · exact ⟨rfl, rfl, rfl, rfl⟩
  · rename_i h1
    rw [if_neg h1] at h
    split
    · rename_i h2
      rw [if_pos h2] at h
      exact callbacks_calls cs m (fun hm => h (List.mem_cons_of_mem _ hm))
    · refine ⟨?_, rfl, rfl, rfl⟩
      simp only [Flux.call]
      split <;> rfl

theorem callbacks_step (m : Flux.State) (op : Flux.Op Pay) (hc : m.callbacks = []) (hn : ∀ cb, op ≠ .notify cb)
    (h : .cancelled ∉ (Flux.step m op).2) :
    fluxCallbacks (Flux.step m op).2 = (if m.closed then [] else (opSigs op).flatMap (sigCallbacks m.inst)) ∧
    (Flux.step m op).1.inst = m.inst ∧ (Flux.step m op).1.callbacks = [] ∧
    (Flux.step m op).1.closed = (m.closed || isTerminal op) := by
  cases op with
  | next v a b =>
    cases hm : m.closed with
    | true =>
      have e : Flux.step m (.next v a b) = (m, []) := by simp [Flux.step, Flux.next, hm]
      rw [e]; simp [hm, hc, fluxCallbacks]
    | false =>
      obtain ⟨m', hm'⟩ : ∃ m', m' = { m with n := m.n - 1 } := ⟨_, rfl⟩
      have hinst : m'.inst = m.inst := by rw [hm']
      have hcb : m'.callbacks = [] := by rw [hm']; exact hc
      have hcl : m'.closed = false := by rw [hm']; exact hm
      have e : Flux.step m (.next v a b) = if (Flux.onNext m' v a).1.n = 0 then
          ((Flux.handleOnSubscribe (T := Pay) (Flux.onNext m' v a).1 b).1,
            (Flux.onNext m' v a).2 ++ (Flux.handleOnSubscribe (T := Pay) (Flux.onNext m' v a).1 b).2)
          else Flux.onNext m' v a := by
        rw [hm']
        show Flux.next m v a b = _
        unfold Flux.next
        rw [if_neg (by simp [hm])]
      rw [e] at h ⊢
      have on : .cancelled ∉ (Flux.onNext m' v a).2 →
          fluxCallbacks (Flux.onNext m' v a).2 = (opSigs (.next v a b)).flatMap (sigCallbacks m.inst) ∧
          (Flux.onNext m' v a).1.inst = m.inst ∧ (Flux.onNext m' v a).1.callbacks = [] ∧
          (Flux.onNext m' v a).1.closed = false := by
        intro h
        unfold Flux.onNext at h ⊢
        by_cases hi : m'.inst.onNext = true
        · rw [if_pos hi] at h ⊢
          obtain ⟨q1, q2, q3, q4⟩ := callbacks_calls a m' (fun hm => h (List.mem_cons_of_mem _ hm))
          refine ⟨?_, q2.trans hinst, q3.trans hcb, q4.trans hcl⟩
          show Flux.Ev.next v :: fluxCallbacks _ = _
          rw [hinst] at hi
          rw [q1]; simp [opSigs, sigCallbacks, sigCalls, hi]
        · rw [if_neg hi]
          rw [hinst] at hi
          exact ⟨by simp [fluxCallbacks, opSigs, sigCallbacks, sigCalls, hi], hinst, hcb, hcl⟩
      split
      · rename_i hz
        rw [if_pos hz] at h
        simp only [List.mem_append, not_or] at h
        obtain ⟨q1, q2, q3, q4⟩ := on h.1
        obtain ⟨r1, r2, r3, r4⟩ := callbacks_handle b _ h.2
        exact ⟨by rw [fluxCallbacks_append, r1, q1]; simp, r2.trans q2, r3.trans q3, by rw [r4, q4]; rfl⟩
      · rename_i hz
        rw [if_neg hz] at h
        obtain ⟨q1, q2, q3, q4⟩ := on h
        exact ⟨by rw [q1]; simp, q2, q3, by rw [q4]; rfl⟩
  | complete a =>
    simp only [Flux.step, Flux.complete] at h ⊢
    cases hm : m.closed with
    | true => simp [hm, hc, fluxCallbacks]
    | false =>
      simp only [hm, Bool.false_eq_true, if_false, Flux.doFinally] at h ⊢
      by_cases hi : m.inst.onComplete = true
      · simp only [hi, if_true, List.mem_append, List.mem_cons, not_or] at h ⊢
        obtain ⟨q1, q2, q3, q4⟩ := callbacks_calls a _ h.1.2
        refine ⟨?_, q2, q3.trans hc, by rw [q4]; simp [isTerminal]⟩
        rw [fluxCallbacks_append]
        show Flux.Ev.complete :: fluxCallbacks _ ++ _ = _
        rw [q1, q2, q3, hc]
        cases hf : m.inst.fin <;> simp [opSigs, sigCallbacks, sigCalls, hi, hf, fluxCallbacks]
      · simp only [hi, Bool.false_eq_true, if_false] at h ⊢
        refine ⟨?_, trivial, hc, by simp [isTerminal]⟩
        rw [hc]
        cases hf : m.inst.fin <;> simp [opSigs, sigCallbacks, sigCalls, hi, hf, fluxCallbacks]
  | error e a =>
    simp only [Flux.step, Flux.error] at h ⊢
    cases hm : m.closed with
    | true => simp [hm, hc, fluxCallbacks]
    | false =>
      simp only [hm, Bool.false_eq_true, if_false, Flux.doFinally] at h ⊢
      by_cases hi : m.inst.onError = true
      · simp only [hi, if_true, List.mem_append, List.mem_cons, not_or] at h ⊢
        obtain ⟨q1, q2, q3, q4⟩ := callbacks_calls a _ h.1.2
        refine ⟨?_, q2, q3.trans hc, by rw [q4]; simp [isTerminal]⟩
        rw [fluxCallbacks_append]
        show Flux.Ev.error e :: fluxCallbacks _ ++ _ = _
        rw [q1, q2, q3, hc]
        cases hf : m.inst.fin <;> simp [opSigs, sigCallbacks, sigCalls, hi, hf, fluxCallbacks]
      · simp only [hi, Bool.false_eq_true, if_false] at h ⊢
        refine ⟨?_, trivial, hc, by simp [isTerminal]⟩
        rw [hc]
        cases hf : m.inst.fin <;> simp [opSigs, sigCallbacks, sigCalls, hi, hf, fluxCallbacks]
  | onSubscribe c =>
    simp only [Flux.step]
    cases hm : m.closed with
    | true => simp [hm, hc, fluxCallbacks]
    | false =>
      simp only [Bool.false_eq_true, if_false]
      refine ⟨?_, trivial, hc, by simp [isTerminal]⟩
      split <;> rfl
  | start a =>
    have e : Flux.step m (.start a : Flux.Op Pay) = Flux.handleOnSubscribe m a := rfl
    rw [e] at h ⊢
    obtain ⟨r1, r2, r3, r4⟩ := callbacks_handle a m h
    exact ⟨by rw [r1]; simp [opSigs], r2, r3.trans hc, by rw [r4]; simp [isTerminal]⟩
  | call c =>
    cases c with
    | cancel => simp [Flux.step, Flux.call] at h
    | request k =>
      refine ⟨?_, rfl, hc, by simp [isTerminal, Flux.step, Flux.call]⟩
      simp only [Flux.step, Flux.call]
      split <;> simp [fluxCallbacks, opSigs]
  | notify cb => exact absurd rfl (hn cb)

/-- A subscriber that does not cancel sees all it is told, up to the end, with its Finally. -/
theorem callbacks_run (ops : List (Flux.Op Pay)) : ∀ (m : Flux.State), m.callbacks = [] →
    (∀ op ∈ ops, ∀ cb, op ≠ .notify cb) → .cancelled ∉ (Flux.runFrom m ops).2 →
    fluxCallbacks (Flux.runFrom m ops).2 =
      if m.closed then [] else (cutAtEnd (ops.flatMap opSigs)).flatMap (sigCallbacks m.inst) := by
  induction ops with
  | nil => intro m _ _ _; simp [Flux.runFrom, fluxCallbacks, cutAtEnd]
  | cons op ops ih =>
    intro m hc hn h
    have e : (Flux.runFrom m (op :: ops)).2 = (Flux.step m op).2 ++ (Flux.runFrom (Flux.step m op).1 ops).2 := rfl
    rw [e] at h ⊢
    simp only [List.mem_append, not_or] at h
    obtain ⟨h1, h2, h3, h4⟩ := callbacks_step m op hc (hn op (by simp)) h.1
    have := ih _ h3 (fun o ho => hn o (by simp [ho])) h.2
    rw [fluxCallbacks_append, h1, this, h2, h4]
    cases hm : m.closed with
    | true => simp
    | false =>
      rw [List.flatMap_cons]
      rcases opSigs_cases op with ⟨ht, x, hx, hxe, hxc⟩ | ⟨ht, hx, hxc⟩
      · rw [hx, ht]; simp [cutAtEnd, hxe]
      · rw [cutAtEnd_append _ _ hx, ht, List.flatMap_append]; simp


/-! ## One step -/

theorem fluxEvs_append (j : Nat) (a b : List (Handler.Ev H)) : fluxEvs j (a ++ b) = fluxEvs j a ++ fluxEvs j b := by
  simp [fluxEvs]

theorem fluxEvs_demandEvs (j : Nat) (id : UInt32) (l : List (Flux.Ev Pay)) :
    fluxEvs j (demandEvs j id (.flux j : Flux.Ev Pay → Handler.Ev H) l) = l := by
  induction l with
  | nil => rfl
  | cons e l ih => cases e <;> simp_all [demandEvs, fluxEvs]

theorem fluxEvs_evsOf (j : Nat) (tr : List (Handler.Ev H)) : fluxEvs j (evsOf j tr) = fluxEvs j tr := by
  induction tr with
  | nil => rfl
  | cons e tr ih =>
    by_cases h : e.obj = some j
    · have : evsOf j (e :: tr) = e :: evsOf j tr := by simp [evsOf, h]
      rw [this]
      simp only [fluxEvs, List.filterMap_cons] at ih ⊢
      rw [ih]
    · rw [evsOf_cons_ne h]
      cases e
      case flux i x =>
        have : i ≠ j := by simpa [Handler.Ev.obj] using h
        simpa [fluxEvs, this] using ih
      all_goals simpa [fluxEvs] using ih

theorem fluxEvs_replyEvs (j i : Nat) (id : UInt32) (l : List (Flux.Ev Pay)) :
    ∀ r : List (Handler.Ev H), replyEvs j id l = .ok r → fluxEvs i r = [] := by
  induction l with
  | nil => intro r h; cases h; rfl
  | cons x l ih =>
    intro r h
    simp only [replyEvs] at h
    obtain ⟨a, ha, h⟩ := bind_ok_inv h
    obtain ⟨b, hb, h⟩ := bind_ok_inv h
    cases h
    rw [fluxEvs_append, ih _ hb]
    unfold replyEv at ha
    split at ha <;> cases ha <;> simp [fluxEvs]

/-- Stream `j` (with id `id`) was told `ops`, its subscriber having been in state `st`. -/
def Told (j : Nat) (id : UInt32) (st : Flux.State) (ops : List (Flux.Op Pay)) (s' : St H)
    (e : List (Handler.Ev H)) : Prop :=
  (∃ req first c input, s'.objs[j]? = some (.flux req first c input (some (Flux.runFrom st ops).1)) ∧
    req.streamID = id) ∧ fluxEvs j e = (Flux.runFrom st ops).2

theorem told_trans {j : Nat} {id : UInt32} {st : Flux.State} {o1 o2 : List (Flux.Op Pay)} {s1 s2 : St H}
    {e1 e2 : List (Handler.Ev H)} (h1 : Told j id st o1 s1 e1) (h2 : Told j id (Flux.runFrom st o1).1 o2 s2 e2) :
    Told j id st (o1 ++ o2) s2 (e1 ++ e2) := by
  unfold Told at *
  rw [flux_runFrom_append, fluxEvs_append, h1.2, h2.2]
  exact ⟨h2.1, rfl⟩

theorem told_nop {j : Nat} {id : UInt32} {st : Flux.State} {s : St H}
    (h : ∃ req first c input, s.objs[j]? = some (.flux req first c input (some st)) ∧ req.streamID = id)
    (e : List (Handler.Ev H)) (he : fluxEvs j e = []) : Told j id st [] s e := ⟨h, he⟩

theorem told_deliver {j : Nat} {id : UInt32} {st : Flux.State} {s s' : St H} {op : Flux.Op Pay}
    {e : List (Handler.Ev H)}
    (h : ∃ req first c input, s.objs[j]? = some (.flux req first c input (some st)) ∧ req.streamID = id)
    (hd : deliver s j op = .ok (s', e)) : Told j id st [op] s' e := by
  obtain ⟨req, first, c, input, ho, rfl⟩ := h
  have hl : j < s.objs.length := (List.getElem?_eq_some_iff.mp ho).1
  unfold deliver at hd
  rw [ho] at hd
  simp only [onFlux] at hd
  cases hd
  refine ⟨⟨req, first, _, input, by simp only [addTasks, setObj]; rw [List.getElem?_set_self hl]; rfl, rfl⟩, ?_⟩
  rw [fluxEvs_demandEvs]; simp [Flux.runFrom]

theorem told_closing {j : Nat} {id x : UInt32} {st : Flux.State} {s s' : St H} {e : List (Handler.Ev H)}
    (h : ∃ req first c input, s.objs[j]? = some (.flux req first c input (some st)) ∧ req.streamID = id)
    (hd : closing x s = .ok (s', e)) : Told j id st [] s' e := by
  cases hd
  exact told_nop (by rw [remove_objs]; exact h) _ rfl

/-- What a step tells the stream `id`. -/
def actSigs (id : UInt32) : Act → List StreamSig
  | .frame f _ => frameSigs id f
  | _ => []

theorem arrivals_eq (id : UInt32) (as : List Act) : arrivals id as = as.flatMap (actSigs id) := by
  unfold arrivals
  congr 1

theorem arrivals_append (id : UInt32) (a b : List Act) : arrivals id (a ++ b) = arrivals id a ++ arrivals id b := by
  simp [arrivals]

theorem frameSigs_type {id : UInt32} {f : AnyFrame} (h : frameSigs id f ≠ []) :
    f.streamID = id ∧ f.type ≥ typeRequestN := by
  cases f with
  | payload v =>
    simp only [frameSigs] at h
    split at h
    · rename_i hv; exact ⟨hv, by simp only [AnyFrame.type]; decide⟩
    · exact absurd rfl h
  | error v =>
    simp only [frameSigs] at h
    split at h
    · rename_i hv; exact ⟨hv, by simp only [AnyFrame.type]; decide⟩
    · exact absurd rfl h
  | cancel v =>
    simp only [frameSigs] at h
    split at h
    · rename_i hv; exact ⟨hv, by simp only [AnyFrame.type]; decide⟩
    · exact absurd rfl h
  | _ => exact absurd rfl h

/-- A frame for the stream. -/
theorem told_frame (j : Nat) (s s' : St H) (f : AnyFrame) (r : React) (e : List (Handler.Ev H))
    (id : UInt32) (st : Flux.State)
    (hj : ∃ req first c input, s.objs[j]? = some (.flux req first c input (some st)) ∧ req.streamID = id)
    (hid : f.streamID = id) (h : dispatch s r f (some j) = .ok (s', e)) :
    ∃ ops, Told j id st ops s' e ∧ (∀ op ∈ ops, ∀ cb, op ≠ .notify cb) ∧
      (∀ rest, cutAtEnd (ops.flatMap opSigs ++ rest) = cutAtEnd (frameSigs id f ++ rest)) ∧
      (.closed id ∈ e → ∃ y ∈ frameSigs id f, y.ends = true) := by
  cases f with
  | setup v =>
    simp only [dispatch] at h
    split at h
    · split at h
      · cases h; exact ⟨[], told_nop hj _ rfl, by simp, by simp [frameSigs], by simp⟩
      · cases h
      · cases h
    · cases h; exact ⟨[], told_nop hj _ rfl, by simp, by simp [frameSigs], by simp⟩
  | request v =>
    simp only [dispatch] at h
    split at h <;> cases h <;> exact ⟨[], told_nop hj _ rfl, by simp, by simp [frameSigs], by simp⟩
  | requestN v =>
    simp only [dispatch] at h
    split at h <;> cases h
    exact ⟨[], told_nop hj _ rfl, by simp, by simp [frameSigs], by simp⟩
  | cancel v =>
    have hv : v.streamID = id := hid
    simp only [dispatch] at h
    obtain ⟨t, e1, e2, h1, h2, rfl⟩ := andThen_ok h
    have a1 := told_deliver hj h1
    have a2 := told_trans a1 (told_closing a1.1 h2)
    exact ⟨_, a2, by simp, by simp [opSigs, frameSigs, hv], fun _ => ⟨.complete, by simp [frameSigs, hv], rfl⟩⟩
  | payload v =>
    have hv : v.streamID = id := hid
    obtain ⟨t, e1, e2, h1, h2, rfl⟩ := andThen_ok h
    have a1 : ∃ ops, Told j id st ops t e1 ∧ (∀ op ∈ ops, ∀ cb, op ≠ .notify cb) ∧
        ops.flatMap opSigs = (if v.next then [.element ⟨v.data, v.metadata⟩] else []) ∧ ∀ i, .closed i ∉ e1 := by
      split at h1
      · rename_i hn
        refine ⟨_, told_deliver hj h1, by simp, by simp [opSigs, hn], ?_⟩
        intro i hi
        obtain ⟨req, first, c, input, ho, -⟩ := hj
        unfold deliver at h1
        rw [ho] at h1
        simp only [onFlux] at h1
        cases h1
        have := demandEvs_obj j _ (.flux j : Flux.Ev Pay → Handler.Ev H) (fun _ => rfl) _ _ hi
        cases this
      · rename_i hn
        cases h1
        exact ⟨[], told_nop hj _ rfl, by simp, by simp [hn], by simp⟩
    obtain ⟨o1, a1, n1, s1, c1⟩ := a1
    split at h2
    · rename_i hc
      obtain ⟨t2, e3, e4, h3, h4, rfl⟩ := andThen_ok h2
      have a2 := told_deliver a1.1 h3
      have a3 := told_trans a2 (told_closing a2.1 h4)
      refine ⟨_, told_trans a1 a3, ?_, ?_, fun _ => ⟨.complete, by simp [frameSigs, hv, hc], rfl⟩⟩
      · intro op ho cb
        rcases List.mem_append.mp ho with h | h
        · exact n1 op h cb
        · simp at h; subst h; simp
      · intro rest
        simp only [List.flatMap_append, s1, frameSigs, hv, hc, if_true]
        rfl
    · rename_i hc
      cases h2
      refine ⟨o1, by simpa using a1, n1, ?_, ?_⟩
      · intro rest
        simp [s1, frameSigs, hv, hc]
      · intro hm
        simp at hm
        exact absurd hm (c1 _)
  | error v =>
    have hv : v.streamID = id := hid
    obtain ⟨t, e1, e2, h1, h2, rfl⟩ := andThen_ok h
    obtain ⟨t2, e3, e4, h3, h4, rfl⟩ := andThen_ok h2
    have a1 := told_deliver hj h1
    have a2 := told_deliver a1.1 h3
    have a3 := told_trans a1 (told_trans a2 (told_closing a2.1 h4))
    exact ⟨_, a3, by simp, by simp [opSigs, frameSigs, hv, cutAtEnd, StreamSig.ends],
      fun _ => ⟨.error (some (strOf v.data)), by simp [frameSigs, hv], rfl⟩⟩

theorem closed_frame_type (s s' : St H) (f : AnyFrame) (r : React) (e : List (Handler.Ev H)) (id : UInt32)
    (h : settle s (Handler.step s (.frame f r)) = .ok (s', e)) (hc : .closed id ∈ e) : f.type ≥ typeRequestN := by
  by_cases ht : f.type ≥ typeRequestN
  · exact ht
  · exfalso
    simp only [Handler.step, handleFrame, if_neg ht] at h
    cases hd : dispatch s r f none with
    | ok p =>
      rw [hd] at h
      cases h
      cases f <;> simp only [dispatch] at hd
      case setup v =>
        split at hd
        · split at hd <;> cases hd; simp at hc
        · cases hd; simp at hc
      case request v => split at hd <;> cases hd <;> simp at hc
      all_goals cases hd
    | err m => rw [hd] at h; cases h; simp at hc
    | panic => rw [hd] at h; cases h

/-- One step, seen from a subscribed stream: `hreg` says that it is found under its own id only. -/
theorem told_step (j : Nat) (s s' : St H) (a : Act) (e : List (Handler.Ev H))
    (id : UInt32) (st : Flux.State)
    (hj : ∃ req first c input, s.objs[j]? = some (.flux req first c input (some st)) ∧ req.streamID = id)
    (hreg : ∀ x, getStream s x = some j → x = id)
    (h : settle s (Handler.step s a) = .ok (s', e)) :
    ∃ ops, Told j id st ops s' e ∧ (∀ op ∈ ops, ∀ cb, op ≠ .notify cb) ∧
      (getStream s id = some j →
        (∀ rest, cutAtEnd (ops.flatMap opSigs ++ rest) = cutAtEnd (actSigs id a ++ rest)) ∧
        (.closed id ∈ e → ∃ y ∈ actSigs id a, y.ends = true)) ∧
      (getStream s id ≠ some j → ops.flatMap opSigs = []) := by
  have hj' := hj
  obtain ⟨req, first, c, input, ho, hid⟩ := hj
  have hl : j < s.objs.length := (List.getElem?_eq_some_iff.mp ho).1
  by_cases ha : actsOn s a = some j
  · -- steps other than frames tell nothing
    have plain : (∀ f r, a ≠ .frame f r) → ∀ ops, ops.flatMap opSigs = [] → Told j id st ops s' e →
        (∀ op ∈ ops, ∀ cb, op ≠ .notify cb) → ∃ ops, Told j id st ops s' e ∧ (∀ op ∈ ops, ∀ cb, op ≠ .notify cb) ∧
      (getStream s id = some j →
        (∀ rest, cutAtEnd (ops.flatMap opSigs ++ rest) = cutAtEnd (actSigs id a ++ rest)) ∧
        (.closed id ∈ e → ∃ y ∈ actSigs id a, y.ends = true)) ∧
      (getStream s id ≠ some j → ops.flatMap opSigs = []) := by
      intro hf ops h1 h2 h3
      refine ⟨ops, h2, h3, fun _ => ⟨?_, ?_⟩, fun _ => h1⟩
      · intro rest
        have : actSigs id a = [] := by cases a <;> first | rfl | exact absurd rfl (hf _ _)
        rw [h1, this]
      · intro hc
        obtain ⟨f, r, h4, -⟩ := (regs_settle s s' a e h).closed id hc
        exact absurd h4 (hf f r)
    have nop : (∀ f r, a ≠ .frame f r) → Handler.step s a = .ok (s, []) →
        ∃ ops, Told j id st ops s' e ∧ (∀ op ∈ ops, ∀ cb, op ≠ .notify cb) ∧
      (getStream s id = some j →
        (∀ rest, cutAtEnd (ops.flatMap opSigs ++ rest) = cutAtEnd (actSigs id a ++ rest)) ∧
        (.closed id ∈ e → ∃ y ∈ actSigs id a, y.ends = true)) ∧
      (getStream s id ≠ some j → ops.flatMap opSigs = []) := by
      intro hf hs
      rw [hs] at h
      cases h
      exact ⟨[], told_nop hj' _ rfl, by simp, fun _ => ⟨fun rest => by
        have : actSigs id a = [] := by cases a <;> first | rfl | exact absurd rfl (hf _ _)
        rw [this]; rfl, by simp⟩, fun _ => rfl⟩
    cases a with
    | frame f r =>
      simp only [actsOn] at ha
      split at ha
      · rename_i ht
        have hf := hreg _ ha
        have hg : getStream s id = some j := hf ▸ ha
        simp only [Handler.step, handleFrame, if_pos ht, ha] at h
        cases hd : dispatch s r f (some j) with
        | ok p =>
          rw [hd] at h
          obtain ⟨ops, t1, t2, t3, t4⟩ := told_frame j s s' f r e id st hj' hf (hd.trans h)
          exact ⟨ops, t1, t2, fun _ => ⟨t3, t4⟩, fun hn => absurd hg hn⟩
        | panic => rw [hd] at h; cases h
        | err m =>
          exfalso
          cases f with
          | setup v => revert ht; simp only [AnyFrame.type]; decide
          | request v => simp only [dispatch] at hd; split at hd <;> cases hd
          | requestN v => simp only [dispatch] at hd; split at hd <;> cases hd
          | cancel v => exact andThen_noerr (deliver_noerr _ _ _) (closing_noerr _) m hd
          | payload v =>
            refine andThen_noerr ?_ ?_ m hd
            · intro m; split
              · exact deliver_noerr _ _ _ m
              · simp
            · intro t m; split
              · exact andThen_noerr (deliver_noerr _ _ _) (closing_noerr _) m
              · simp
          | error v =>
            exact andThen_noerr (deliver_noerr _ _ _)
              (fun t => andThen_noerr (deliver_noerr _ _ _) (closing_noerr _)) m hd
      · cases ha
    | run t ret =>
      simp only [actsOn] at ha
      simp only [Handler.step] at h
      cases ht : s.tasks[t]? with
      | none => rw [ht] at ha; cases ha
      | some task =>
        rw [ht] at ha h
        simp only at h
        refine plain (by simp) [] rfl ?_ (by simp)
        have onin : ∀ (s1 : St H) (f : Src) (st' : Flux.State × List (Flux.Ev Pay)), s1.objs = s.objs →
            settle s (onInput s1 j req first c f (some st) st') = .ok (s', e) → Told j id st [] s' e := by
          intro s1 f st' hs h
          cases hx : onInput s1 j req first c f (some st) st' with
          | ok p =>
            rw [hx] at h
            obtain ⟨h1, rfl⟩ := onInput_ok (hx.trans h)
            refine told_nop ⟨req, first, c, some (.subscribed f st'.1), ?_, hid⟩ _ (fluxEvs_replyEvs _ _ _ _ _ h1)
            simp only [setObj]; rw [hs, List.getElem?_set_self hl]
          | err m => rw [hx] at h; cases h; exact told_nop hj' _ rfl
          | panic => rw [hx] at h; cases h
        cases task with
        | request k id data md n => cases ha
        | subscribe i f n =>
          cases ha
          simp only [runTask, ho] at h
          cases h
        | firstRequest i f n =>
          cases ha
          simp only [runTask, ho] at h
          cases h
        | doRequest i n =>
          cases ha
          simp only [runTask, ho] at h
          cases input with
          | none => cases h
          | some x =>
            cases x with
            | fresh f => cases h
            | subscribed f st' =>
              simp only at h
              split at h
              · cases h
              · exact onin { s with tasks := s.tasks.eraseIdx t } _ _ rfl h
        | upRequest i n =>
          cases ha
          simp only [runTask, ho] at h
          split at h
          · cases h; exact told_nop hj' _ rfl
          · split at h
            · cases h
              refine told_nop ⟨{ req with initialN := u32 n }, false, c, input, ?_, hid⟩ _ rfl
              simp only [addTasks, setObj]; rw [List.getElem?_set_self hl]
            · cases h; exact told_nop hj' _ rfl
        | subscribeIn i =>
          cases ha
          simp only [runTask, ho] at h
          cases input with
          | none => cases h
          | some x =>
            cases x with
            | fresh f => exact onin { s with tasks := s.tasks.eraseIdx t } f (subscribeSrc f) rfl h
            | subscribed f st' => cases h
    | answer i sig => cases ha; exact nop (by simp) (by simp only [Handler.step, ho])
    | out i op => cases ha; exact nop (by simp) (by simp only [Handler.step, ho])
    | subscribeInp i inst start => cases ha; exact nop (by simp) (by simp only [Handler.step, ho])
    | inpCall i x => cases ha; exact nop (by simp) (by simp only [Handler.step, ho])
    | call k p input => cases ha
    | subscribeMono i inst => cases ha; exact nop (by simp) (by simp only [Handler.step, ho])
    | subscribeFlux i inst start => cases ha; exact nop (by simp) (by simp only [Handler.step, ho])
    | fluxCall i x =>
      cases ha
      refine plain (by simp) [.call x] rfl ?_ (by simp)
      simp only [Handler.step, ho, settle, onFlux] at h
      cases h
      refine ⟨⟨req, first, c, input, ?_, hid⟩, ?_⟩
      · simp only [addTasks, setObj]; rw [List.getElem?_set_self hl]; rfl
      · rw [fluxEvs_demandEvs]; simp [Flux.runFrom]
    | input i op =>
      cases ha
      simp only [Handler.step, ho] at h
      cases hi : input with
      | none => rw [hi] at ho; exact nop (by simp) (by simp only [Handler.step, ho])
      | some x =>
        cases x with
        | fresh f => rw [hi] at ho; exact nop (by simp) (by simp only [Handler.step, ho])
        | subscribed f st' =>
          subst hi
          simp only at h
          split at h
          · rename_i hn; exact nop (by simp) (by simp only [Handler.step, ho, hn, if_true])
          · cases hx : onInput s j req first c f (some st) (Flux.step st' op.op) with
            | ok p =>
              rw [hx] at h
              obtain ⟨h1, rfl⟩ := onInput_ok (hx.trans h)
              refine plain (by simp) [] rfl ?_ (by simp)
              refine told_nop ⟨req, first, c, some (.subscribed f (Flux.step st' op.op).1), ?_, hid⟩ _
                (fluxEvs_replyEvs _ _ _ _ _ h1)
              simp only [setObj]; rw [List.getElem?_set_self hl]
            | err m =>
              rw [hx] at h; cases h
              exact plain (by simp) [] rfl (told_nop hj' _ rfl) (by simp)
            | panic => rw [hx] at h; cases h
  · obtain ⟨h1, h2⟩ := idle_settle s a hl ha s' e h
    refine ⟨[], told_nop ⟨req, first, c, input, h1.trans ho, hid⟩ _ ?_, by simp, fun hg => ⟨?_, ?_⟩, fun _ => rfl⟩
    · rw [← fluxEvs_evsOf, h2]; rfl
    · intro rest
      have : actSigs id a = [] := by
        cases a with
        | frame f r =>
          simp only [actSigs]
          by_cases hz : frameSigs id f = []
          · exact hz
          · obtain ⟨h3, h4⟩ := frameSigs_type hz
            exact absurd (by simp only [actsOn, if_pos h4, h3]; exact hg) ha
        | _ => rfl
      rw [this]; rfl
    · intro hc
      obtain ⟨f, r, rfl, h3⟩ := (regs_settle s s' a e h).closed id hc
      have h4 := closed_frame_type s s' f r e id h hc
      exact absurd (by simp only [actsOn, if_pos h4, h3]; exact hg) ha


/-! ## Histories -/

/-- Only registered ids are removed. -/
theorem closed_was_opened (reg : Registry H) (client : Bool) (as : List Act) : ∀ (s : St H)
    (tr : List (Handler.Ev H)) (_ : Handler.run reg client as = .ok (s, tr)) (id : UInt32)
    (_ : .closed id ∈ tr), id ∈ openedIds tr := by
  induction as using snoc_induction with
  | nil => intro s tr h id hc; cases h; cases hc
  | snoc as a ih =>
    intro s' tr h id hc
    obtain ⟨s, t, e, h1, h2, rfl⟩ := run_snoc_inv _ _ _ _ _ _ h
    rw [openedIds_append]
    rcases List.mem_append.mp hc with hc | hc
    · exact List.mem_append_left _ (ih s t h1 id hc)
    · obtain ⟨f, r, rfl, h3⟩ := (regs_settle s s' a e h2).closed id hc
      have h4 := closed_frame_type s s' f r e id h2 hc
      cases hg : getStream s id with
      | some j =>
        have := getStream_opened reg client as s t h1 id j hg
        exact List.mem_append_left _ (List.mem_filterMap.mpr ⟨_, this, rfl⟩)
      | none =>
        exfalso
        simp only [Handler.step, handleFrame, if_pos h4, h3, hg] at h2
        split at h2 <;> cases h2 <;> simp at hc

/-- A stream that has no subscriber has shown nothing. -/
theorem unsubscribed_quiet {j : Nat} {o o' : Obj} {ts ts' : List Task} {es : List (Handler.Ev H)}
    (h : CRun j o ts o' ts' es) :
    ∀ req first c input, o' = .flux req first c input none → fluxEvs j es = [] := by
  induction h with
  | refl => intro _ _ _ _ _; rfl
  | perm _ _ _ _ _ _ ih => exact ih
  | step o1 t1 o2 t2 es es' hr hs ih =>
    intro req first c input he
    subst he
    rw [fluxEvs_append]
    cases hs with
    | fluxIdle => rw [ih _ _ _ _ rfl]; rfl
    | upDone => rw [ih _ _ _ _ rfl]; rfl
    | upFirst => rw [ih _ _ _ _ rfl]; rfl
    | upLater => rw [ih _ _ _ _ rfl]; rfl
    | inputSub _ _ _ _ _ _ _ h => rw [ih _ _ _ _ rfl, fluxEvs_replyEvs _ _ _ _ _ h]; rfl
    | inputReq _ _ _ _ _ _ _ _ _ _ h => rw [ih _ _ _ _ rfl, fluxEvs_replyEvs _ _ _ _ _ h]; rfl
    | input _ _ _ _ _ _ _ _ _ _ h => rw [ih _ _ _ _ rfl, fluxEvs_replyEvs _ _ _ _ _ h]; rfl
    | asked => rw [ih _ _ _ _ rfl]; rfl

theorem unsubscribed_history (reg : Registry H) (client : Bool) (as : List Act) (s : St H)
    (tr : List (Handler.Ev H)) (h : Handler.run reg client as = .ok (s, tr)) (j : Nat)
    (req : RequestPayload) (first c : Bool) (input : Option Input)
    (ho : s.objs[j]? = some (.flux req first c input none)) : fluxEvs j tr = [] := by
  rcases Handler.history reg client as s tr h j with ⟨h1, -⟩ | ⟨o0, ts0, es0, o, es, hb, ho', hr, he⟩
  · rw [ho] at h1; cases h1
  · rw [ho] at ho'; cases ho'
    have ht := tag_run hr
    rw [← fluxEvs_evsOf, he, fluxEvs_append, unsubscribed_quiet hr _ _ _ _ rfl]
    cases hb with
    | rs id p => rfl
    | rc id p input => rfl
    | _ => cases ht

/-- Every stream is found under its own id only. -/
theorem own_id_only (reg : Registry H) (client : Bool) (as : List Act) (s : St H)
    (tr : List (Handler.Ev H)) (h : Handler.run reg client as = .ok (s, tr)) (j : Nat) (o : Obj)
    (hj : s.objs[j]? = some o) : ∀ x, getStream s x = some j → x = o.sid := by
  intro x hg
  obtain ⟨o', h1, h2⟩ := opened_history reg client as s tr h j x (getStream_opened reg client as s tr h x j hg)
  rw [hj] at h1; cases h1; exact h2

theorem cutAtEnd_done (a b : List StreamSig) (h : ∃ y ∈ a, y.ends = true) : cutAtEnd (a ++ b) = cutAtEnd a := by
  induction a with
  | nil => obtain ⟨y, hy, -⟩ := h; cases hy
  | cons x a ih =>
    simp only [List.cons_append, cutAtEnd]
    split
    · rfl
    · rename_i hx
      obtain ⟨y, hy, he⟩ := h
      rcases List.mem_cons.mp hy with rfl | hy
      · exact absurd he hx
      · rw [ih ⟨y, hy, he⟩]

/-- A history after the subscription of stream `j`: it was told what arrived, up to the end. -/
theorem told_history (reg : Registry H) (client : Bool) (before : List Act) (j : Nat) (id : UInt32)
    (st : Flux.State) (after : List Act) : ∀ (s1 s2 : St H) (t1 t2 : List (Handler.Ev H))
    (_ : Handler.run reg client before = .ok (s1, t1))
    (_ : ∃ req first c input, s1.objs[j]? = some (.flux req first c input (some st)) ∧ req.streamID = id)
    (_ : .opened id j ∈ t1) (_ : .closed id ∉ t1)
    (_ : Handler.run reg client (before ++ after) = .ok (s2, t1 ++ t2)) (_ : (openedIds (t1 ++ t2)).Nodup),
    ∃ ops, Told j id st ops s2 t2 ∧ (∀ op ∈ ops, ∀ cb, op ≠ .notify cb) ∧
      (∀ rest, cutAtEnd (ops.flatMap opSigs ++ rest) = cutAtEnd (arrivals id after ++ rest)) ∧
      (.closed id ∈ t2 → ∃ y ∈ arrivals id after, y.ends = true) := by
  induction after using snoc_induction with
  | nil =>
    intro s1 s2 t1 t2 h1 hj ho hc h2 hu
    rw [List.append_nil, h1] at h2
    have h2 : (s1, t1) = (s2, t1 ++ t2) := Go.ok.inj h2
    have e1 : s1 = s2 := congrArg Prod.fst h2
    have e2 : t1 = t1 ++ t2 := congrArg Prod.snd h2
    have e3 : t2 = [] := by simpa using e2
    subst e1 e3
    exact ⟨[], told_nop hj _ rfl, by simp, by simp [arrivals], by simp⟩
  | snoc after a ih =>
    intro s1 s2 t1 t2 h1 hj ho hc h2 hu
    rw [← List.append_assoc] at h2
    obtain ⟨s, t, e, h3, h4, h5⟩ := run_snoc_inv _ _ _ _ _ _ h2
    obtain ⟨t', rfl⟩ : ∃ t', t = t1 ++ t' := by
      unfold Handler.run at h3 h1
      rw [handler_runFrom_append, h1] at h3
      obtain ⟨_, _, t', h6, -, h7⟩ := andThen_ok h3
      cases h6
      exact ⟨t', h7⟩
    have e3 : t2 = t' ++ e := by
      rw [List.append_assoc] at h5; exact List.append_cancel_left h5
    subst e3
    have hu' : (openedIds (t1 ++ t')).Nodup := by
      rw [← List.append_assoc, openedIds_append] at hu
      exact hu.sublist (List.sublist_append_left _ _)
    obtain ⟨ops, g1, g2, g3, g4⟩ := ih s1 s t1 t' h1 hj ho hc h3 hu'
    obtain ⟨⟨req, first, c, input, g5, g6⟩, g7⟩ := g1
    have hown : ∀ x, getStream s x = some j → x = id := by
      intro x hx
      rw [← g6]
      exact own_id_only reg client _ s _ h3 j _ g5 x hx
    obtain ⟨ops', k1, k2, k3, k4⟩ := told_step j s s2 a e id _ ⟨req, first, c, input, g5, g6⟩ hown h4
    refine ⟨ops ++ ops', told_trans ⟨⟨req, first, c, input, g5, g6⟩, g7⟩ k1, ?_, ?_, ?_⟩
    · intro op hop cb
      exact (List.mem_append.mp hop).elim (fun h => g2 op h cb) (fun h => k2 op h cb)
    · intro rest
      rw [arrivals_append, List.flatMap_append, List.append_assoc, List.append_assoc, g3]
      by_cases hcl : .closed id ∈ t'
      · rw [cutAtEnd_done _ _ (g4 hcl), cutAtEnd_done _ _ (g4 hcl)]
      · have hg : getStream s id = some j := by
          refine getStream_live reg client _ s _ h3 id j hu' (List.mem_append_left _ ho) ?_
          intro hm
          exact (List.mem_append.mp hm).elim hc hcl
        have h0 := (k3 hg).1
        have : arrivals id [a] = actSigs id a := by rw [arrivals_eq]; simp
        rw [this]
        by_cases hd : ∃ y ∈ arrivals id after, y.ends = true
        · rw [cutAtEnd_done _ _ hd, cutAtEnd_done _ _ hd]
        · have hall : ∀ y ∈ arrivals id after, y.ends = false := by
            intro y hy
            rcases (Bool.eq_false_or_eq_true y.ends).symm with h | h
            · exact h
            · exact absurd ⟨y, hy, h⟩ hd
          rw [cutAtEnd_append _ _ hall, cutAtEnd_append _ _ hall, h0]
    · intro hm
      rw [arrivals_append]
      have : arrivals id [a] = actSigs id a := by rw [arrivals_eq]; simp
      rw [this]
      by_cases hcl : .closed id ∈ t'
      · obtain ⟨y, hy, he⟩ := g4 hcl
        exact ⟨y, List.mem_append_left _ hy, he⟩
      · have hg : getStream s id = some j := by
          refine getStream_live reg client _ s _ h3 id j hu' (List.mem_append_left _ ho) ?_
          intro hm
          exact (List.mem_append.mp hm).elim hc hcl
        rcases List.mem_append.mp hm with h | h
        · exact absurd h hcl
        · obtain ⟨y, hy, he⟩ := (k3 hg).2 h
          exact ⟨y, List.mem_append_right _ hy, he⟩

/-- What the subscriber of a stream sees of the frames that arrive after it subscribed. -/
theorem C90_received (reg : Registry H) (client : Bool) (before after : List Act) (s1 s2 : St H)
    (t1 t2 : List (Handler.Ev H)) (j : Nat) (req : RequestPayload) (first c : Bool) (input : Option Input)
    (inst : Flux.Installed) (start : List Flux.Call)
    (h1 : Handler.run reg client before = .ok (s1, t1)) (hj : s1.objs[j]? = some (.flux req first c input none))
    (h2 : Handler.runFrom s1 (.subscribeFlux j inst start :: after) = .ok (s2, t2))
    (hu : (openedIds (t1 ++ t2)).Nodup) :
    fluxEvs j t1 = [] ∧
    (∃ r, r <+: cutAtEnd (arrivals req.streamID after) ∧
      fluxSignals (fluxEvs j t2) = r.flatMap (sigCalls inst)) ∧
    (.cancelled ∉ fluxEvs j t2 →
      fluxCallbacks (fluxEvs j t2) = (cutAtEnd (arrivals req.streamID after)).flatMap (sigCallbacks inst)) := by
  refine ⟨unsubscribed_history reg client before s1 t1 h1 j req first c input hj, ?_⟩
  simp only [Handler.runFrom] at h2
  obtain ⟨s', e1, e2, h3, h4, rfl⟩ := andThen_ok h2
  have hr' := handler_run_snoc reg client before _ s1 s' t1 e1 h1 h3
  have hl : j < s1.objs.length := (List.getElem?_eq_some_iff.mp hj).1
  simp only [Handler.step, hj, settle] at h3
  have h3 := Go.ok.inj h3
  have hs' := (congrArg Prod.fst h3).symm
  have he1 := (congrArg Prod.snd h3).symm
  dsimp only at hs' he1
  have hobj : ∃ req' first c input, s'.objs[j]? = some (.flux req' first c input
      (some (Flux.runFrom (.init inst []) [(.onSubscribe true : Flux.Op Pay), .start start]).1)) ∧
      req'.streamID = req.streamID := by
    refine ⟨req, first, c, input, ?_, rfl⟩
    rw [hs']
    simp only [addTasks, setObj, register_objs]
    rw [List.getElem?_set_self hl]
  have hop : .opened req.streamID j ∈ t1 ++ e1 := by rw [he1]; simp
  have hcl : .closed req.streamID ∉ t1 ++ e1 := by
    intro hm
    rcases List.mem_append.mp hm with hm | hm
    · have := closed_was_opened reg client before s1 t1 h1 _ hm
      rw [he1, openedIds_append] at hu
      have hu := (List.nodup_append.mp hu).2.2
      exact hu _ this _ (by simp [openedIds]) rfl
    · rw [he1] at hm
      rcases List.mem_cons.mp hm with h | h
      · cases h
      · have := demandEvs_obj j _ (.flux j : Flux.Ev Pay → Handler.Ev H) (fun _ => rfl) _ _ h
        cases this
  have hrun : Handler.run reg client ((before ++ [.subscribeFlux j inst start]) ++ after) =
      .ok (s2, (t1 ++ e1) ++ e2) := by
    unfold Handler.run at hr' ⊢
    rw [handler_runFrom_append, hr']
    simp only [andThen, h4]
  obtain ⟨ops, g1, g2, g3, -⟩ := told_history reg client (before ++ [.subscribeFlux j inst start]) j req.streamID _ after
    s' s2 (t1 ++ e1) e2 hr' hobj hop hcl hrun (by simpa using hu)
  have hev : fluxEvs j (e1 ++ e2) =
      (Flux.runFrom (.init inst []) (.onSubscribe true :: .start start :: ops)).2 := by
    have e0 : (.onSubscribe true :: .start start :: ops : List (Flux.Op Pay)) = [.onSubscribe true, .start start] ++ ops := rfl
    rw [e0, flux_runFrom_append, fluxEvs_append, g1.2, he1]
    congr 1
    exact fluxEvs_demandEvs _ _ _
  have hsig : cutAtEnd ((.onSubscribe true :: .start start :: ops : List (Flux.Op Pay)).flatMap opSigs) =
      cutAtEnd (arrivals req.streamID after) := by
    have := g3 []
    rw [List.append_nil, List.append_nil] at this
    rw [← this]; rfl
  rw [hev]
  constructor
  · obtain ⟨r, h5, h6⟩ := signals_prefix (.onSubscribe true :: .start start :: ops) (.init inst [])
    rw [hsig] at h5
    exact ⟨r, h5, h6⟩
  · intro hn
    have := callbacks_run (.onSubscribe true :: .start start :: ops) (.init inst []) rfl (by
      intro op hop cb
      rcases List.mem_cons.mp hop with rfl | hop
      · simp
      · rcases List.mem_cons.mp hop with rfl | hop
        · simp
        · exact g2 op hop cb) hn
    rw [hsig] at this
    exact this

/-- A stream call. -/
def openStream : List Act :=
  [.call .rs ⟨[5], eightZeros⟩ .created]

/-- Its answer: two elements, an element with the completion; meanwhile another call is made, more elements
are asked for and a request of the peer comes in. -/
def streamAnswers : List Act :=
  [.run 0 retCreated, .frame (.payload ⟨1, [8], [7], false, false, true⟩) noReact,
   .call .rr ⟨[1], eightZeros⟩ .created, .fluxCall 0 (.request 4),
   .frame (.payload ⟨1, [], [6], false, false, true⟩) noReact,
   .frame (.request ⟨typeRequestResponse, 2, eightZeros, [9], false, true, 1⟩) noReact,
   .frame (.payload ⟨1, [4], [3], false, true, true⟩) noReact]

/-- The hypotheses of `C90_received` hold, and this is what the subscriber sees. -/
example :
    (∃ s1 t1, Handler.run oneHandler true openStream = .ok (s1, t1) ∧
      s1.objs[0]? = some (.flux ⟨typeRequestStream, 1, eightZeros, [5], false, false, requestMax⟩ true false none none) ∧
      ∃ s2 t2, Handler.runFrom s1 (.subscribeFlux 0 ⟨true, true, true, false, true, false⟩ [.request 1] ::
          streamAnswers) = .ok (s2, t2) ∧ (openedIds (t1 ++ t2)).Nodup ∧ Flux.Ev.cancelled ∉ fluxEvs 0 t2 ∧
        fluxCallbacks (fluxEvs 0 t2) = [.next ⟨[7], [8]⟩, .next ⟨[6], []⟩, .next ⟨[3], [4]⟩, .complete, .fin .complete]) ∧
    arrivals 1 streamAnswers = [.element ⟨[7], [8]⟩, .element ⟨[6], []⟩, .element ⟨[3], [4]⟩, .complete] := by
  refine ⟨⟨_, _, rfl, rfl, _, _, rfl, by decide +kernel, by decide +kernel, by decide +kernel⟩,
    by decide +kernel⟩

end
end Verif.Props
