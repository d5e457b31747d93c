import Verif.Props.Flux
import Verif.Model.FluxProc
/-
Property C116: stream processors.
-/
set_option autoImplicit false
namespace Verif.Props
open Verif
open Verif.Flux (Proc POp)

section
variable {T : Type}

/-! ## Specification -/

/-- What is pushed into a processor. -/
inductive Push (T : Type)
  | next (v : T)
  | complete
  | error (e : Mono.Err)
  deriving Repr, DecidableEq

/-- What is pushed by `ops` before somebody else subscribes. -/
def pushes : List (POp T) → List (Push T)
  | [] => []
  | .subscribe .. :: _ => []
  | .next v .. :: ops => .next v :: pushes ops
  | .complete _ :: ops => .complete :: pushes ops
  | .error e _ :: ops => .error e :: pushes ops
  | .onSubscribe _ :: ops => pushes ops
  | .call .. :: ops => pushes ops

/-- Up to and including the first completion or error. -/
def upToEnd : List (Push T) → List (Push T)
  | [] => []
  | .next v :: l => .next v :: upToEnd l
  | x :: _ => [x]

/-- The callback for it, if it is installed. -/
def shown (inst : Flux.Installed) : Push T → List (Flux.Ev T)
  | .next v => if inst.onNext then [.next v] else []
  | .complete => if inst.onComplete then [.complete] else []
  | .error e => if inst.onError then [.error e] else []

/-- The number of subscribers in `ops`. -/
def subscribers (ops : List (POp T)) : Nat := ops.countP fun | .subscribe .. => true | _ => false

/-- What happens to subscriber `i`. -/
def seenBy (i : Nat) (es : List (Nat × Flux.Ev T)) : List (Flux.Ev T) :=
  es.filterMap fun x => if x.1 = i then some x.2 else none

/-! ## Proof -/

theorem seenBy_append (i : Nat) (a b : List (Nat × Flux.Ev T)) : seenBy i (a ++ b) = seenBy i a ++ seenBy i b := by
  simp [seenBy]

theorem seenBy_own (i : Nat) (l : List (Flux.Ev T)) : seenBy i (l.map fun e => (i, e)) = l := by
  induction l with
  | nil => rfl
  | cons x l ih => simp only [seenBy, List.map_cons, List.filterMap_cons] at ih ⊢; simp [ih]

theorem seenBy_other {i j : Nat} (h : j ≠ i) (l : List (Flux.Ev T)) : seenBy i (l.map fun e => (j, e)) = [] := by
  induction l with
  | nil => rfl
  | cons x l ih => simp only [seenBy, List.map_cons, List.filterMap_cons] at ih ⊢; simp [ih, h]

theorem stepAt_own {p : Proc} {i : Nat} {m : Flux.State} (h : p.subs[i]? = some m) (op : Flux.Op T) :
    (p.stepAt i op).1.subs[i]? = some (Flux.step m op).1 ∧ (p.stepAt i op).1.subs.length = p.subs.length ∧
    seenBy i (p.stepAt i op).2 = (Flux.step m op).2 := by
  have hi : i < p.subs.length := (List.getElem?_eq_some_iff.1 h).1
  simp only [Proc.stepAt, h]
  exact ⟨by simp [hi], by simp, seenBy_own _ _⟩

theorem stepAt_other {p : Proc} {i j : Nat} (hj : j ≠ i) (op : Flux.Op T) :
    (p.stepAt j op).1.subs[i]? = p.subs[i]? ∧ (p.stepAt j op).1.subs.length = p.subs.length ∧
    seenBy i (p.stepAt j op).2 = [] := by
  simp only [Proc.stepAt]
  split
  · exact ⟨rfl, rfl, rfl⟩
  · exact ⟨by simp [hj], by simp, seenBy_other hj _⟩

/-- The push in a step of the subscriber. -/
def pushOf : Flux.Op T → List (Push T)
  | .next v .. => [.next v]
  | .complete _ => [.complete]
  | .error e _ => [.error e]
  | _ => []

/-- What a subscriber in state `m` is to see of these pushes. -/
def due (m : Flux.State) (live : Prop) [Decidable live] (l : List (Push T)) : List (Push T) :=
  if m.closed then [] else if live then upToEnd l else []

/-- `es` shows a prefix of `d`, all of it unless the subscriber cancels. -/
def Shows (inst : Flux.Installed) (d : List (Push T)) (es : List (Flux.Ev T)) : Prop :=
  ∃ l, l <+: d ∧ fluxSignals es = l.flatMap (shown inst) ∧ (.cancelled ∉ es → l = d)

theorem shows_step {m : Flux.State} (op : Flux.Op T) {live : Prop} [Decidable live] {rest : List (Push T)}
    {es : List (Flux.Ev T)} (hl : pushOf op = [] ∨ live)
    (ih : Shows m.inst (due (Flux.step m op).1 live rest) es) :
    Shows m.inst (due m live (pushOf op ++ rest)) ((Flux.step m op).2 ++ es) := by
  have s := flux_step_spec m op
  obtain ⟨l, h1, h2, h3⟩ := ih
  cases hc : m.closed with
  | true =>
    have hc' : (Flux.step m op).1.closed = true := by rw [s.closed, hc]; rfl
    refine ⟨[], List.nil_prefix, ?_, fun _ => by simp [due, hc]⟩
    have : l = [] := by simpa [due, hc'] using h1
    rw [fluxSignals_append, s.signals, hc, h2, this]; rfl
  | false =>
    have hsig := s.signals
    rw [hc] at hsig
    simp only [Bool.false_eq_true, if_false] at hsig
    have hcl := s.closed
    rw [hc, Bool.false_or] at hcl
    have fin : ∀ x : Push T, live → pushOf op = [x] → isTerminal op = true → upToEnd (x :: rest) = [x] →
        fluxExpected m.inst op = shown m.inst x →
        Shows m.inst (due m live (pushOf op ++ rest)) ((Flux.step m op).2 ++ es) := by
      intro x hlv hp ht hu he
      have hc' : (Flux.step m op).1.closed = true := by rw [hcl, ht]; rfl
      have : l = [] := by simpa [due, hc'] using h1
      refine ⟨[x], ?_, ?_, fun _ => ?_⟩
      · simp [due, hc, hlv, hp, hu]
      · rw [fluxSignals_append, hsig, h2, this, he]; simp
      · simp [due, hc, hlv, hp, hu]
    have go : isTerminal op = false → ∀ d, due m live (pushOf op ++ rest) = pushOf op ++ d →
        (due (Flux.step m op).1 live rest = if (Flux.step m op).1.closed then [] else d) →
        fluxExpected m.inst op = (pushOf op).flatMap (shown m.inst) →
        Shows m.inst (due m live (pushOf op ++ rest)) ((Flux.step m op).2 ++ es) := by
      intro ht d hd hd' he
      rw [hd'] at h1 h3
      rw [hd]
      rw [ht, Bool.false_or] at hcl
      cases hc' : (Flux.step m op).1.closed with
      | true =>
        rw [hc'] at h1 hcl
        have : l = [] := by simpa using h1
        refine ⟨pushOf op, List.prefix_append _ _, ?_, fun hx => ?_⟩
        · rw [fluxSignals_append, hsig, h2, this, he]; simp
        · exfalso
          apply hx
          have : Flux.Ev.cancelled ∈ (Flux.step m op).2 := by
            rw [cancelled_mem_iff]
            simpa using hcl.symm
          exact List.mem_append_left _ this
      | false =>
        rw [hc'] at h1 h3
        simp only [Bool.false_eq_true, if_false] at h1 h3
        refine ⟨pushOf op ++ l, List.prefix_append_right_inj _ |>.2 h1, ?_, fun hx => ?_⟩
        · rw [fluxSignals_append, hsig, h2, he, List.flatMap_append]
        · rw [h3 (fun hm => hx (List.mem_append_right _ hm))]
    cases op with
    | next v a b =>
      have hlv : live := hl.resolve_left (by simp [pushOf])
      exact go rfl (upToEnd rest) (by simp [due, hc, hlv, pushOf, upToEnd]) (by simp [due, hlv])
        (by simp [fluxExpected, pushOf, shown])
    | complete a =>
      exact fin .complete (hl.resolve_left (by simp [pushOf])) rfl rfl rfl rfl
    | error e a =>
      exact fin (.error e) (hl.resolve_left (by simp [pushOf])) rfl rfl rfl rfl
    | onSubscribe c => exact go rfl (if live then upToEnd rest else []) (by simp [due, hc, pushOf]) rfl rfl
    | start a => exact go rfl (if live then upToEnd rest else []) (by simp [due, hc, pushOf]) rfl rfl
    | call c => exact go rfl (if live then upToEnd rest else []) (by simp [due, hc, pushOf]) rfl rfl
    | notify cb => exact go rfl (if live then upToEnd rest else []) (by simp [due, hc, pushOf]) rfl rfl

/-- After its subscription a subscriber is shown the pushes until the next one. -/
theorem shows_tail (ops : List (POp T)) : ∀ (p : Proc) (i : Nat) (m : Flux.State), p.subs[i]? = some m →
    Shows m.inst (due m (i + 1 = p.subs.length) (pushes ops)) (seenBy i (p.runFrom ops).2) := by
  induction ops with
  | nil =>
    intro p i m h
    have : due m (i + 1 = p.subs.length) (pushes ([] : List (POp T))) = [] := by
      simp only [due, pushes, upToEnd]; split <;> (try split) <;> rfl
    rw [this]
    exact ⟨[], List.nil_prefix, rfl, fun _ => rfl⟩
  | cons op ops ih =>
    intro p i m h
    have hi : i < p.subs.length := (List.getElem?_eq_some_iff.1 h).1
    simp only [Proc.runFrom, seenBy_append]
    have own : ∀ (f : Flux.Op T), (pushOf f = [] ∨ i + 1 = p.subs.length) →
        Shows m.inst (due m (i + 1 = p.subs.length) (pushOf f ++ pushes ops))
          (seenBy i (p.stepAt i f).2 ++ seenBy i ((p.stepAt i f).1.runFrom ops).2) := by
      intro f hf
      obtain ⟨a, b, c⟩ := stepAt_own h f
      have hs := (flux_step_spec m f).inst
      have := ih _ i _ a
      simp only [b, hs] at this
      rw [c]
      exact shows_step f hf this
    have other : ∀ (j : Nat) (f : Flux.Op T), j ≠ i →
        Shows m.inst (due m (i + 1 = p.subs.length) (pushes ops))
          (seenBy i (p.stepAt j f).2 ++ seenBy i ((p.stepAt j f).1.runFrom ops).2) := by
      intro j f hj
      obtain ⟨a, b, c⟩ := stepAt_other (p := p) hj f
      have := ih _ i m (a.trans h)
      simp only [b] at this
      rw [c]; exact this
    have push : ∀ (f : Flux.Op T), pushes (op :: ops) = pushOf f ++ pushes ops → p.step op = p.push f →
        Shows m.inst (due m (i + 1 = p.subs.length) (pushes (op :: ops)))
          (seenBy i (p.step op).2 ++ seenBy i ((p.step op).1.runFrom ops).2) := by
      intro f hp he
      have hn : p.subs.length ≠ 0 := by omega
      rw [he, hp]
      simp only [Proc.push, if_neg hn]
      by_cases hl : i + 1 = p.subs.length
      · have : p.subs.length - 1 = i := by omega
        rw [this]
        exact own f (.inr hl)
      · have := other (p.subs.length - 1) f (by omega)
        have e : ∀ l : List (Push T), due m (i + 1 = p.subs.length) l = [] := by
          intro l; simp [due, hl]
        rw [e] at this ⊢
        exact this
    cases op with
    | next v a b => exact push (.next v a b) rfl rfl
    | complete a => exact push (.complete a) rfl rfl
    | error e a => exact push (.error e a) rfl rfl
    | onSubscribe c => exact push (.onSubscribe c) rfl (by simp only [Proc.step]; rw [if_neg (by omega)])
    | call j c =>
      by_cases hj : j = i
      · subst hj; exact own (.call c) (.inl rfl)
      · exact other j (.call c) hj
    | subscribe inst req =>
      have e : due m (i + 1 = p.subs.length) (pushes (POp.subscribe inst req :: ops)) = [] := by
        simp only [due, pushes, upToEnd]; split <;> (try split) <;> rfl
      rw [e]
      have hne : p.subs.length ≠ i := by omega
      have key : ∀ (r1 : Proc × List (Nat × Flux.Ev T)), r1.1.subs[i]? = some m → r1.1.subs.length = p.subs.length + 1 →
          seenBy i r1.2 = [] →
          Shows m.inst [] (seenBy i (r1.2 ++ (r1.1.stepAt p.subs.length (.start req)).2) ++
            seenBy i ((r1.1.stepAt p.subs.length (Flux.Op.start (T := T) req)).1.runFrom ops).2) := by
        intro r1 g1 g2 g3
        obtain ⟨a, b, c⟩ := stepAt_other (T := T) (p := r1.1) hne (.start req)
        have := ih _ i m (a.trans g1)
        rw [seenBy_append, g3, c]
        simp only [b, g2] at this
        have e2 : due m (i + 1 = p.subs.length + 1) (pushes ops) = [] := by
          have : ¬ (i + 1 = p.subs.length + 1) := by omega
          simp only [due, if_neg this]; split <;> rfl
        rw [e2] at this
        exact this
      have g0 : (p.subs ++ [Flux.State.init inst []])[i]? = some m := by rw [List.getElem?_append_left hi]; exact h
      simp only [Proc.step]
      split
      · rename_i c hc
        obtain ⟨a, b, c'⟩ := stepAt_other (T := T) (p := ⟨p.subs ++ [Flux.State.init inst []], none⟩) hne (.onSubscribe c)
        exact key _ (a.trans g0) (b.trans (by simp)) c'
      · exact key _ g0 (by simp) rfl

theorem length_subs (ops : List (POp T)) : ∀ p : Proc, (p.runFrom ops).1.subs.length = p.subs.length + subscribers ops := by
  have hl : ∀ (p : Proc) (i : Nat) (f : Flux.Op T), (p.stepAt i f).1.subs.length = p.subs.length := by
    intro p i f; simp only [Proc.stepAt]; split <;> simp
  have hp : ∀ (p : Proc) (f : Flux.Op T), (p.push f).1.subs.length = p.subs.length := by
    intro p f; simp only [Proc.push]; split <;> simp [hl]
  induction ops with
  | nil => intro p; rfl
  | cons op ops ih =>
    intro p
    simp only [Proc.runFrom, ih]
    cases op with
    | subscribe inst req =>
      have : subscribers (POp.subscribe inst req :: ops : List (POp T)) = subscribers ops + 1 := by simp [subscribers]
      rw [this]
      simp only [Proc.step]
      split <;> simp [hl] <;> omega
    | onSubscribe c =>
      have : subscribers (POp.onSubscribe c :: ops : List (POp T)) = subscribers ops := by simp [subscribers]
      rw [this]
      simp only [Proc.step]
      split <;> simp [hp]
    | next v a b => simp [Proc.step, hp, subscribers]
    | complete a => simp [Proc.step, hp, subscribers]
    | error e a => simp [Proc.step, hp, subscribers]
    | call i c => simp [Proc.step, hl, subscribers]

theorem proc_runFrom_append (a b : List (POp T)) : ∀ p : Proc, p.runFrom (a ++ b) =
    (((p.runFrom a).1.runFrom b).1, (p.runFrom a).2 ++ ((p.runFrom a).1.runFrom b).2) := by
  induction a with
  | nil => intro p; simp [Proc.runFrom]
  | cons op a ih => intro p; simp only [List.cons_append, Proc.runFrom, ih, List.append_assoc]

/-- Before it has subscribed, nothing happens to a subscriber. -/
theorem seen_before (ops : List (POp T)) : ∀ (p : Proc) (i : Nat), p.subs.length + subscribers ops ≤ i →
    seenBy i (p.runFrom ops).2 = [] := by
  have hs : ∀ (p : Proc) (i j : Nat) (f : Flux.Op T), p.subs.length ≤ i →
      seenBy i (p.stepAt j f).2 = [] ∧ (p.stepAt j f).1.subs.length = p.subs.length := by
    intro p i j f h
    simp only [Proc.stepAt]
    split
    · exact ⟨rfl, rfl⟩
    · rename_i m hm
      have := (List.getElem?_eq_some_iff.1 hm).1
      exact ⟨seenBy_other (by omega) _, by simp⟩
  have hp : ∀ (p : Proc) (i : Nat) (f : Flux.Op T), p.subs.length ≤ i →
      seenBy i (p.push f).2 = [] ∧ (p.push f).1.subs.length = p.subs.length := by
    intro p i f h
    simp only [Proc.push]
    split
    · exact ⟨rfl, rfl⟩
    · exact hs p i _ f h
  induction ops with
  | nil => intro p i h; rfl
  | cons op ops ih =>
    intro p i h
    simp only [Proc.runFrom, seenBy_append]
    have go : ∀ r : Proc × List (Nat × Flux.Ev T), seenBy i r.2 = [] → r.1.subs.length + subscribers ops ≤ i →
        seenBy i r.2 ++ seenBy i (r.1.runFrom ops).2 = [] := by
      intro r h1 h2; rw [h1, ih _ _ h2]; rfl
    have push : ∀ f : Flux.Op T, subscribers (op :: ops) = subscribers ops → p.step op = p.push f →
        seenBy i (p.step op).2 ++ seenBy i ((p.step op).1.runFrom ops).2 = [] := by
      intro f h1 h2
      obtain ⟨a, b⟩ := hp p i f (by omega)
      rw [h2]; exact go _ a (by omega)
    cases op with
    | next v a b => exact push (.next v a b) (by simp [subscribers]) rfl
    | complete a => exact push (.complete a) (by simp [subscribers]) rfl
    | error e a => exact push (.error e a) (by simp [subscribers]) rfl
    | call j c =>
      have h1 : subscribers (POp.call j c :: ops : List (POp T)) = subscribers ops := by simp [subscribers]
      obtain ⟨a, b⟩ := hs p i j (.call c) (by omega)
      exact go _ a (by simp only [Proc.step]; omega)
    | onSubscribe c =>
      have h1 : subscribers (POp.onSubscribe c :: ops : List (POp T)) = subscribers ops := by simp [subscribers]
      by_cases hl : p.subs.length = 0
      · simp only [Proc.step, if_pos hl]
        exact go ({ p with stored := some c }, []) rfl (by show p.subs.length + _ ≤ i; omega)
      · exact push (.onSubscribe c) h1 (by simp only [Proc.step, if_neg hl])
    | subscribe inst req =>
      have h1 : subscribers (POp.subscribe inst req :: ops : List (POp T)) = subscribers ops + 1 := by simp [subscribers]
      have key : ∀ r : Proc × List (Nat × Flux.Ev T), seenBy i r.2 = [] → r.1.subs.length = p.subs.length + 1 →
          seenBy i (r.2 ++ (r.1.stepAt p.subs.length (Flux.Op.start (T := T) req)).2) ++
            seenBy i ((r.1.stepAt p.subs.length (Flux.Op.start (T := T) req)).1.runFrom ops).2 = [] := by
        intro r h2 h3
        obtain ⟨a, b⟩ := hs r.1 i p.subs.length (.start req) (by omega)
        rw [seenBy_append, h2, List.nil_append]
        exact go _ a (by omega)
      simp only [Proc.step]
      split
      · rename_i c hc
        obtain ⟨a, b⟩ := hs ⟨p.subs ++ [Flux.State.init inst []], none⟩ i p.subs.length (.onSubscribe (T := T) c)
          (by simp; omega)
        exact key _ a (b.trans (by simp))
      · exact key _ rfl (by simp)

/-- The state of a subscriber right behind its subscription. -/
theorem subscribed_at (p : Proc) (inst : Flux.Installed) (req : List Flux.Call) :
    ∃ m, (p.step (POp.subscribe (T := T) inst req)).1.subs[p.subs.length]? = some m ∧
      (p.step (POp.subscribe (T := T) inst req)).1.subs.length = p.subs.length + 1 ∧ m.inst = inst ∧
      fluxSignals (seenBy p.subs.length (p.step (POp.subscribe (T := T) inst req)).2) = [] ∧
      (m.closed = true → .cancelled ∈ seenBy p.subs.length (p.step (POp.subscribe (T := T) inst req)).2) := by
  have key : ∀ (r1 : Proc × List (Nat × Flux.Ev T)) (m : Flux.State), r1.1.subs[p.subs.length]? = some m →
      r1.1.subs.length = p.subs.length + 1 → m.inst = inst → m.closed = false → fluxSignals (seenBy p.subs.length r1.2) = [] →
      ∃ m', (r1.1.stepAt p.subs.length (Flux.Op.start (T := T) req)).1.subs[p.subs.length]? = some m' ∧
        (r1.1.stepAt p.subs.length (Flux.Op.start (T := T) req)).1.subs.length = p.subs.length + 1 ∧ m'.inst = inst ∧
        fluxSignals (seenBy p.subs.length (r1.2 ++ (r1.1.stepAt p.subs.length (Flux.Op.start (T := T) req)).2)) = [] ∧
        (m'.closed = true → .cancelled ∈ seenBy p.subs.length (r1.2 ++ (r1.1.stepAt p.subs.length (Flux.Op.start (T := T) req)).2)) := by
    intro r1 m h1 h2 h3 h4 h5
    obtain ⟨a, b, c⟩ := stepAt_own h1 (Flux.Op.start (T := T) req)
    have s := flux_step_spec m (Flux.Op.start (T := T) req)
    refine ⟨_, a, b.trans h2, s.inst.trans h3, ?_, fun hc => ?_⟩
    · rw [seenBy_append, fluxSignals_append, h5, c, s.signals]; simp [fluxExpected]
    · rw [seenBy_append, c]
      refine List.mem_append_right _ ((cancelled_mem_iff _).2 ?_)
      rw [s.closed, h4] at hc
      simpa [isTerminal] using hc
  have g0 : (p.subs ++ [Flux.State.init inst []])[p.subs.length]? = some (Flux.State.init inst []) := by simp
  simp only [Proc.step]
  split
  · rename_i c hc
    obtain ⟨a, b, c'⟩ := stepAt_own (T := T) (p := ⟨p.subs ++ [Flux.State.init inst []], none⟩) g0 (.onSubscribe c)
    exact key _ _ a (b.trans (by simp)) rfl rfl (by rw [c']; simp [Flux.step, Flux.State.init, fluxSignals])
  · exact key _ _ g0 (by simp) rfl rfl rfl

/-- C116, what a subscriber of a processor sees of the pushes `l`: their beginning, in order and without a gap, up to the end; all of it
unless it cancels. -/
def seesPushes (inst : Flux.Installed) (l : List (Push T)) (seen : List (Flux.Ev T)) : Prop :=
  ∃ l', l' <+: upToEnd l ∧ fluxSignals seen = l'.flatMap (shown inst) ∧ (.cancelled ∉ seen → l' = upToEnd l)

/-- C116, partial. Missing: what was pushed before the subscription, and, if somebody else subscribes later, what is pushed after that. -/
theorem C116_processor_partial (pre post : List (POp T)) (inst : Flux.Installed) (req : List Flux.Call) :
    seesPushes inst (pushes post) (seenBy (subscribers pre) (Proc.run (pre ++ .subscribe inst req :: post)).2) := by
  have hn : subscribers pre = (Proc.init.runFrom pre).1.subs.length := by
    rw [length_subs]; simp [Proc.init]
  rw [hn]
  simp only [Proc.run, proc_runFrom_append, Proc.runFrom]
  generalize hr : Proc.init.runFrom pre = r at hn ⊢
  have hpre : seenBy r.1.subs.length r.2 = [] := by
    have := seen_before pre Proc.init r.1.subs.length (by rw [← hn]; simp [Proc.init])
    rwa [hr] at this
  obtain ⟨m, h1, h2, h3, h4, h5⟩ := subscribed_at (T := T) r.1 inst req
  obtain ⟨l, h6, h7, h8⟩ := shows_tail post _ _ _ h1
  rw [seenBy_append, seenBy_append, hpre, List.nil_append]
  rw [h3] at h7
  simp only [due, h2, if_true] at h6 h8
  unfold seesPushes
  rw [fluxSignals_append, h4, h7]
  cases hc : m.closed with
  | true =>
    rw [hc] at h6
    have : l = [] := by simpa using h6
    exact ⟨[], List.nil_prefix, by rw [this]; rfl, fun hx => absurd (List.mem_append_left _ (h5 hc)) hx⟩
  | false =>
    rw [hc] at h6 h8
    simp only [Bool.false_eq_true, if_false] at h6 h8
    exact ⟨l, h6, rfl, fun hx => h8 fun hm => hx (List.mem_append_right _ hm)⟩

/-- C116 in full: the first subscriber sees all that is pushed, also what was pushed before it came (as with `mono.Processor`, C24). -/
def C116_statement (T : Type) : Prop :=
  ∀ (pre post : List (POp T)) (inst : Flux.Installed) (req : List Flux.Call), subscribers pre = 0 →
    seesPushes inst (pushes (pre ++ post)) (seenBy 0 (Proc.run (pre ++ .subscribe inst req :: post)).2)

end

def inst116 : Flux.Installed := ⟨true, true, true, false, true, false⟩

/-- A subscriber that comes in between sees the two elements pushed after it came and the end, a later one nothing. -/
example : subscribers [POp.next 5 [] [], .onSubscribe true] = 0 ∧
    upToEnd (pushes [POp.next 6 [] [], .next 7 [] [], .complete [], .next 8 [] [], .subscribe inst116 [], .next 9 [] []]) =
      [.next 6, .next 7, .complete] ∧
    seenBy 0 (Proc.run ([POp.next 5 [] [], .onSubscribe true] ++ .subscribe inst116 [] ::
      [.next 6 [] [], .next 7 [] [], .complete [], .next 8 [] [], .subscribe inst116 [], .next 9 [] []])).2 =
      [.upRequest Flux.requestMax, .next 6, .next 7, .complete, .fin .complete] := by decide

/-- C116 fails: an element pushed before the subscription is lost. -/
theorem C116_violated : ¬ C116_statement Nat := by
  intro h
  obtain ⟨l, h1, h2, h3⟩ := h [.next 5 [] []] [.complete []] inst116 [] rfl
  have h4 := h3 (by decide)
  subst h4
  revert h2
  decide

end Verif.Props
