import Verif.Props.InputSeen
/-
How goroutines come and go, and what the sources of an application's fluxes are asked for, step by step.
-/
set_option autoImplicit false
namespace Verif.Props
open Verif Frames Handler
open Verif.Invoke (Kind Registry getHandler)

section
variable {H : Type}

/-! ## Goroutines -/

/-- The goroutines started by the subscribers of the application. -/
def ownTask : Task → Bool
  | .upRequest .. => true
  | .subscribeIn .. => true
  | _ => false

/-- Nothing but such goroutines is started. -/
def Minor (s : St H) (x : Go (Out H)) : Prop :=
  ∀ s' e, x = .ok (s', e) → ∃ new, s'.tasks = s.tasks ++ new ∧ ∀ t ∈ new, ownTask t = true

theorem minor_err (s : St H) (m : String) : Minor s (.err m) := by intro _ _ h; cases h
theorem minor_panic (s : St H) : Minor s .panic := by intro _ _ h; cases h
theorem minor_same {s s' : St H} {e : List (Handler.Ev H)} (h : s'.tasks = s.tasks) : Minor s (.ok (s', e)) := by
  intro _ _ h'; cases h'; exact ⟨[], by simp [h], by simp⟩
theorem minor_nop (s : St H) : Minor s (.ok (s, [])) := minor_same rfl

theorem minor_andThen {s : St H} {x : Go (Out H)} {f : St H → Go (Out H)} (hx : Minor s x) (hf : ∀ s', Minor s' (f s')) :
    Minor s (andThen x f) := by
  intro s' e h
  obtain ⟨s1, e1, e2, h1, h2, rfl⟩ := andThen_ok h
  obtain ⟨n1, h3, h4⟩ := hx _ _ h1
  obtain ⟨n2, h5, h6⟩ := hf _ _ _ h2
  refine ⟨n1 ++ n2, by rw [h5, h3, List.append_assoc], fun t ht => ?_⟩
  exact (List.mem_append.mp ht).elim (h4 t) (h6 t)

theorem ownTask_demand (j : Nat) (l : List (Flux.Ev Pay)) : ∀ t ∈ demandTasks j l, ownTask t = true := by
  induction l with
  | nil => simp [demandTasks]
  | cons e l ih => cases e <;> simp_all [demandTasks, ownTask]

theorem minor_add {s s' : St H} {e : List (Handler.Ev H)} (j : Nat) (l : List (Flux.Ev Pay))
    (h : s'.tasks = s.tasks ++ demandTasks j l) : Minor s (.ok (s', e)) := by
  intro _ _ h'; cases h'; exact ⟨_, h, ownTask_demand j l⟩

theorem minor_closing (id : UInt32) (s : St H) : Minor s (closing id s) := minor_same (remove_fields s id).2.1

theorem minor_deliver (s : St H) (j : Nat) (op : Flux.Op Pay) : Minor s (deliver s j op) := by
  unfold deliver
  split
  · exact minor_add j _ rfl
  · split
    · exact minor_same rfl
    · exact minor_same rfl
    · exact minor_nop _
  · dsimp only
    split
    · exact minor_add j _ rfl
    · exact minor_same rfl
  · exact minor_panic _

theorem minor_dispatch (s : St H) (r : React) (f : AnyFrame) (str : Option Nat) (h1 : isRequestFrame f = false)
    (h2 : ∀ v, f = .requestN v → str = none) : Minor s (dispatch s r f str) := by
  cases f with
  | setup v =>
    simp only [dispatch]
    split
    · split
      · exact minor_same rfl
      · exact minor_err _ _
      · exact minor_panic _
    · exact minor_nop _
  | request v =>
    simp only [dispatch]
    split
    · rename_i hk; simp [isRequestFrame, hk] at h1
    · exact minor_nop _
  | requestN v => rw [h2 v rfl]; exact minor_panic _
  | cancel v =>
    cases str with
    | none => exact minor_panic _
    | some j => exact minor_andThen (minor_deliver _ _ _) (minor_closing _)
  | payload v =>
    cases str with
    | none => exact minor_panic _
    | some j =>
      simp only [dispatch]
      refine minor_andThen ?_ ?_
      · split
        · exact minor_deliver _ _ _
        · exact minor_nop _
      · intro s'
        split
        · exact minor_andThen (minor_deliver _ _ _) (minor_closing _)
        · exact minor_nop _
  | error v =>
    cases str with
    | none => exact minor_panic _
    | some j => exact minor_andThen (minor_deliver _ _ _) fun _ => minor_andThen (minor_deliver _ _ _) (minor_closing _)

theorem minor_onOut (s : St H) (j : Nat) (k : Kind) (id : UInt32) (f : Src) (b : Bool) (inp : Option Flux.State)
    (r : Flux.State × List (Flux.Ev Pay)) : Minor s (onOut s j k id f b inp r) := by
  intro s' e h
  obtain ⟨-, rfl⟩ := Handler.onOut_ok h
  exact ⟨[], by simp [setObj], by simp⟩

theorem minor_onInput (s : St H) (j : Nat) (req : RequestPayload) (a b : Bool) (f : Src) (sub : Option Flux.State)
    (r : Flux.State × List (Flux.Ev Pay)) : Minor s (onInput s j req a b f sub r) := by
  intro s' e h
  obtain ⟨-, rfl⟩ := Handler.onInput_ok h
  exact ⟨[], by simp [setObj], by simp⟩

theorem minor_runTask (s : St H) (ret : Ret) (task : Task) (h1 : task.isRequest = false)
    (h2 : ∀ j f n, task ≠ .subscribe j f n) : Minor s (runTask s ret task) := by
  cases task with
  | request => cases h1
  | subscribe j f n => exact absurd rfl (h2 j f n)
  | firstRequest j f n =>
    simp only [runTask]
    split
    · split
      · exact minor_panic _
      · exact minor_onOut _ _ _ _ _ _ _ _
    · exact minor_panic _
  | doRequest j n =>
    simp only [runTask]
    split
    · exact minor_onOut _ _ _ _ _ _ _ _
    · split
      · exact minor_panic _
      · exact minor_onInput _ _ _ _ _ _ _ _
    · exact minor_panic _
  | upRequest j n =>
    simp only [runTask]
    split
    · exact minor_same rfl
    · split
      · exact minor_nop _
      · split
        · intro s' e h
          cases h
          refine ⟨_, rfl, ?_⟩
          intro t ht
          split at ht
          · simp at ht; subst ht; rfl
          · cases ht
        · exact minor_same rfl
    · exact minor_panic _
  | subscribeIn j =>
    simp only [runTask]
    split
    · exact minor_onInput _ _ _ _ _ _ _ _
    · exact minor_panic _

/-- The goroutines after a step. -/
inductive TaskStep (s : St H) : Act → St H → Prop
  /-- nothing runs -/
  | minor (a : Act) (s' : St H) (new : List Task) (tasks : s'.tasks = s.tasks ++ new) (own : ∀ t ∈ new, ownTask t = true)
      (noreq : ∀ f r, a = .frame f r → isRequestFrame f = false)
      (noask : ∀ f r, a = .frame (.requestN f) r → getStream s f.streamID = none)
      (norun : ∀ t ret, a = .run t ret → s.tasks[t]? = none) : TaskStep s a s'
  | asked (f : RequestN) (r : React) (j : Nat) (s' : St H) (str : getStream s f.streamID = some j)
      (same : s' = addTasks s [.doRequest j f.n.toNat]) : TaskStep s (.frame (.requestN f) r) s'
  | request (f : RequestPayload) (r : React) (k : Kind) (hk : kindOfType f.frameType = some k) :
      TaskStep s (.frame (.request f) r) (addTasks s [.request k f.streamID f.data f.metadata f.initialN])
  | subscribe (t : Nat) (ret : Ret) (j : Nat) (f : Src) (n : UInt32) (s' : St H) (task : s.tasks[t]? = some (.subscribe j f n))
      (tasks : s'.tasks = s.tasks.eraseIdx t ++ [.firstRequest j f n]) : TaskStep s (.run t ret) s'
  /-- a request is served: as a stream, or otherwise -/
  | stream (t : Nat) (ret : Ret) (k : Kind) (id : UInt32) (data md : Bytes) (n : UInt32) (s' : St H)
      (task : s.tasks[t]? = some (.request k id data md n))
      (objs : s'.objs = s.objs ++ [.responder k id none false none])
      (tasks : s'.tasks = s.tasks.eraseIdx t ++ [.subscribe s.objs.length ret.flux n]) : TaskStep s (.run t ret) s'
  | serve (t : Nat) (ret : Ret) (k : Kind) (id : UInt32) (data md : Bytes) (n : UInt32) (s' : St H)
      (task : s.tasks[t]? = some (.request k id data md n)) (tasks : s'.tasks = s.tasks.eraseIdx t)
      (objs : s'.objs = s.objs ∨ (∃ m st, s'.objs = s.objs ++ [.answer id m st]) ∨
        s'.objs = s.objs ++ [.responder .fnf id none false none]) : TaskStep s (.run t ret) s'
  | run (t : Nat) (ret : Ret) (task : Task) (s' : St H) (new : List Task) (htask : s.tasks[t]? = some task)
      (h1 : task.isRequest = false) (h2 : ∀ j f n, task ≠ .subscribe j f n)
      (tasks : s'.tasks = s.tasks.eraseIdx t ++ new) (own : ∀ t ∈ new, ownTask t = true) : TaskStep s (.run t ret) s'

theorem serve_tasks {s s' : St H} {k : Kind} {id : UInt32} {data md : Bytes} {n : UInt32} {ret : Ret} {e : List (Handler.Ev H)}
    (h : serve s k id data md n ret = .ok (s', e)) :
    (s'.objs = s.objs ++ [.responder k id none false none] ∧ s'.tasks = s.tasks ++ [.subscribe s.objs.length ret.flux n]) ∨
    (s'.tasks = s.tasks ∧ (s'.objs = s.objs ∨ (∃ m st, s'.objs = s.objs ++ [.answer id m st]) ∨
        s'.objs = s.objs ++ [.responder .fnf id none false none])) := by
  unfold serve at h
  split at h
  · cases h; exact .inr ⟨rfl, .inl rfl⟩
  · obtain ⟨op, h1, h⟩ := bind_ok_inv h
    split at h
    · cases h; exact .inr ⟨rfl, .inl rfl⟩
    · dsimp only at h
      split at h
      · obtain ⟨es, h2, h⟩ := bind_ok_inv h
        cases h
        exact .inr ⟨rfl, .inr (.inl ⟨_, _, rfl⟩)⟩
      · split at h
        · cases h
          obtain ⟨f1, f2, -⟩ := register_fields (H := H) { s with objs := s.objs ++ [.responder .fnf id none false none] } id s.objs.length
          exact .inr ⟨f2, .inr (.inr f1)⟩
        · cases h
          exact .inr ⟨rfl, .inr (.inr rfl)⟩
      · split at h
        · cases h
          obtain ⟨f1, f2, -⟩ := register_fields (H := H) { s with objs := s.objs ++ [.responder k id none false none] } id s.objs.length
          refine .inl ⟨f1, ?_⟩
          show (register _ id s.objs.length).tasks ++ _ = _
          rw [f2]
        · cases h
          exact .inl ⟨rfl, rfl⟩

theorem answerEvs_noerr (i : Nat) (id : UInt32) (l : List (Mono.Ev Pay)) (msg : String) :
    answerEvs (H := H) i id l ≠ .err msg := by
  induction l with
  | nil => intro h; cases h
  | cons x l ih =>
    intro h
    simp only [answerEvs] at h
    cases hx : answerEv (H := H) i id x with
    | panic => rw [hx] at h; cases h
    | err m => unfold answerEv at hx; split at hx <;> cases hx
    | ok a =>
      rw [hx, Go.bind_ok] at h
      cases hl : answerEvs (H := H) i id l with
      | panic => rw [hl] at h; cases h
      | err m => rw [hl] at h; cases h; exact ih hl
      | ok b => rw [hl] at h; cases h

theorem serve_noerr (s : St H) (k : Kind) (id : UInt32) (data md : Bytes) (n : UInt32) (ret : Ret) (msg : String) :
    serve s k id data md n ret ≠ .err msg := by
  intro h
  unfold serve at h
  split at h
  · cases h
  · cases hg : getU32 md with
    | panic => rw [hg] at h; cases h
    | err m => unfold getU32 at hg; split at hg <;> cases hg
    | ok op =>
      rw [hg, Go.bind_ok] at h
      split at h
      · cases h
      · dsimp only at h
        split at h
        · rename_i hk h' _
          cases hy : answerEvs (H := H) s.objs.length id (monoSubscribe ret.mono).2 with
          | ok es => rw [hy] at h; cases h
          | panic => rw [hy] at h; cases h
          | err m => exact answerEvs_noerr _ _ _ _ hy
        · split at h <;> cases h
        · split at h <;> cases h

theorem task_step {s s' : St H} {e : List (Handler.Ev H)} (a : Act) (h : settle s (Handler.step s a) = .ok (s', e)) :
    TaskStep s a s' := by
  -- steps that are no goroutine
  have plain : (∀ f r, a ≠ .frame f r) → (∀ t ret, a ≠ .run t ret) → Minor s (Handler.step s a) → TaskStep s a s' := by
    intro h1 h2 h3
    cases hx : Handler.step s a with
    | ok p =>
      rw [hx] at h h3
      obtain ⟨new, h4, h5⟩ := h3 _ _ h
      exact .minor a s' new h4 h5 (fun f r hh => absurd hh (h1 f r)) (fun f r hh => absurd hh (h1 _ r))
        (fun t ret hh => absurd hh (h2 t ret))
    | panic => rw [hx] at h; cases h
    | err m =>
      rw [hx] at h; cases h
      exact .minor a s [] (by simp) (by simp) (fun f r hh => absurd hh (h1 f r)) (fun f r hh => absurd hh (h1 _ r))
        (fun t ret hh => absurd hh (h2 t ret))
  cases a with
  | frame f r =>
    rcases (Bool.eq_false_or_eq_true (isRequestFrame f)).symm with hf | hf
    · have fin : (∀ v, f = .requestN v → getStream s v.streamID = none) → Minor s (handleFrame s f r) →
          TaskStep s (.frame f r) s' := by
        intro h1 h3
        simp only [Handler.step] at h
        cases hx : handleFrame s f r with
        | ok p =>
          rw [hx] at h h3
          obtain ⟨new, h4, h5⟩ := h3 _ _ h
          exact .minor _ s' new h4 h5 (fun f r hh => by cases hh; exact hf) (fun f r hh => by cases hh; exact h1 _ rfl)
            (fun t ret hh => by cases hh)
        | panic => rw [hx] at h; cases h
        | err m =>
          rw [hx] at h; cases h
          exact .minor _ s [] (by simp) (by simp) (fun f r hh => by cases hh; exact hf) (fun f r hh => by cases hh; exact h1 _ rfl)
            (fun t ret hh => by cases hh)
      by_cases hn : ∃ v j, f = .requestN v ∧ getStream s v.streamID = some j
      · obtain ⟨v, j, rfl, hj⟩ := hn
        have ht : (AnyFrame.requestN v).type ≥ typeRequestN := by simp only [AnyFrame.type]; decide
        simp only [Handler.step, handleFrame, ht, if_true] at h
        have e1 : (AnyFrame.requestN v).streamID = v.streamID := rfl
        rw [e1, hj] at h
        simp only [dispatch] at h
        split at h
        · cases h; exact .asked v r j _ hj rfl
        · cases h
      · have hn' : ∀ v, f = .requestN v → getStream s v.streamID = none := by
          intro v hv
          cases hg : getStream s v.streamID with
          | none => rfl
          | some j => exact absurd ⟨v, j, hv, hg⟩ hn
        refine fin hn' ?_
        unfold handleFrame
        split
        · split
          · split
            · exact minor_err _ _
            · exact minor_nop _
          · rename_i j hg
            refine minor_dispatch _ _ _ _ hf ?_
            rintro v rfl
            have e1 : (AnyFrame.requestN v).streamID = v.streamID := rfl
            rw [e1, hn' v rfl] at hg; cases hg
        · exact minor_dispatch _ _ _ _ hf (fun _ _ => rfl)
    · cases f with
      | request v =>
        obtain ⟨k, hk⟩ := Option.isSome_iff_exists.mp hf
        simp only [Handler.step, handleFrame_request s v r k hk] at h
        cases h
        exact .request v r k hk
      | _ => cases hf
  | run t ret =>
    cases ht : s.tasks[t]? with
    | none =>
      simp only [Handler.step, ht] at h
      cases h
      exact .minor _ s [] (by simp) (by simp) (fun f r hh => by cases hh) (fun f r hh => by cases hh)
        (fun t ret hh => by cases hh; exact ht)
    | some task =>
      simp only [Handler.step, ht] at h
      have other : task.isRequest = false → (∀ j f n, task ≠ .subscribe j f n) → TaskStep s (.run t ret) s' := by
        intro h1 h2
        have h3 := minor_runTask { s with tasks := s.tasks.eraseIdx t } ret task h1 h2
        cases hx : runTask { s with tasks := s.tasks.eraseIdx t } ret task with
        | ok p =>
          rw [hx] at h h3
          obtain ⟨new, h4, h5⟩ := h3 _ _ h
          exact .run t ret task s' new ht h1 h2 h4 h5
        | panic => rw [hx] at h; cases h
        | err m =>
          exfalso
          -- no goroutine returns an error
          have noout : ∀ (s : St H) j k id f b inp r m, onOut s j k id f b inp r ≠ .err m := by
            intro s j k id f b inp r m hh
            unfold onOut at hh
            cases hy : replyEvs (H := H) j id (throughMap f r.2) with
            | ok es => rw [hy] at hh; cases hh
            | panic => rw [hy] at hh; cases hh
            | err m => exact replyEvs_noerr _ _ _ _ hy
          have noin : ∀ (s : St H) j req a b f sub r m, onInput s j req a b f sub r ≠ .err m := by
            intro s j req a b f sub r m hh
            unfold onInput at hh
            cases hy : replyEvs (H := H) j req.streamID (throughMap f r.2) with
            | ok es => rw [hy] at hh; cases hh
            | panic => rw [hy] at hh; cases hh
            | err m => exact replyEvs_noerr _ _ _ _ hy
          cases task with
          | request => cases h1
          | subscribe j f n => exact h2 _ _ _ rfl
          | firstRequest j f n =>
            simp only [runTask] at hx
            split at hx
            · split at hx
              · cases hx
              · exact noout _ _ _ _ _ _ _ _ _ hx
            · cases hx
          | doRequest j n =>
            simp only [runTask] at hx
            split at hx
            · exact noout _ _ _ _ _ _ _ _ _ hx
            · split at hx
              · cases hx
              · exact noin _ _ _ _ _ _ _ _ _ hx
            · cases hx
          | upRequest j n =>
            simp only [runTask] at hx
            split at hx
            · cases hx
            · split at hx
              · cases hx
              · split at hx <;> cases hx
            · cases hx
          | subscribeIn j =>
            simp only [runTask] at hx
            split at hx
            · exact noin _ _ _ _ _ _ _ _ _ hx
            · cases hx
      cases task with
      | subscribe j f n =>
        refine .subscribe t ret j f n s' ht ?_
        simp only [runTask] at h
        split at h
        · cases hx : onOut (addTasks { s with tasks := s.tasks.eraseIdx t } [.firstRequest j f n]) j _ _ f _ _ (subscribeSrc f) with
          | ok p =>
            rw [hx] at h
            obtain ⟨s1, e1⟩ := p
            cases h
            obtain ⟨-, h2⟩ := Handler.onOut_ok hx
            rw [h2]; rfl
          | panic => rw [hx] at h; cases h
          | err m =>
            exfalso
            unfold onOut at hx
            cases hy : replyEvs (H := H) j _ (throughMap f (subscribeSrc f).2) with
            | ok es => rw [hy] at hx; cases hx
            | panic => rw [hy] at hx; cases hx
            | err m => exact replyEvs_noerr _ _ _ _ hy
        · cases h
      | request k id data md n =>
        have hs : serve { s with tasks := s.tasks.eraseIdx t } k id data md n ret = .ok (s', e) := by
          simp only [runTask] at h
          cases hx : serve { s with tasks := s.tasks.eraseIdx t } k id data md n ret with
          | ok p => rw [hx] at h; exact h
          | panic => rw [hx] at h; cases h
          | err m =>
            exact absurd hx (serve_noerr _ _ _ _ _ _ _ _)
        rcases serve_tasks hs with ⟨h1, h2⟩ | ⟨h1, h2⟩
        · exact .stream t ret k id data md n s' ht h1 h2
        · exact .serve t ret k id data md n s' ht h1 h2
      | _ => exact other rfl (by simp)
  | call k p input =>
    refine plain (by simp) (by simp) ?_
    simp only [Handler.step]
    refine minor_same ?_
    cases k <;> rfl
  | answer j sig =>
    refine plain (by simp) (by simp) ?_
    simp only [Handler.step]
    split
    · intro s' e h
      obtain ⟨es, -, h⟩ := bind_ok_inv h
      cases h
      exact ⟨[], by simp [setObj], by simp⟩
    · exact minor_nop _
  | out j op =>
    refine plain (by simp) (by simp) ?_
    simp only [Handler.step]
    split
    · split
      · exact minor_nop _
      · exact minor_onOut _ _ _ _ _ _ _ _
    · exact minor_nop _
  | subscribeInp j inst start =>
    refine plain (by simp) (by simp) ?_
    simp only [Handler.step]
    split
    · exact minor_add j _ rfl
    · exact minor_nop _
  | inpCall j c =>
    refine plain (by simp) (by simp) ?_
    simp only [Handler.step]
    split
    · exact minor_add j _ rfl
    · exact minor_nop _
  | subscribeMono j inst =>
    refine plain (by simp) (by simp) ?_
    simp only [Handler.step]
    split
    · exact minor_same (register_fields _ _ _).2.1
    · exact minor_nop _
  | subscribeFlux j inst start =>
    refine plain (by simp) (by simp) ?_
    simp only [Handler.step]
    split
    · exact minor_add j _ (congrArg (· ++ _) (register_fields _ _ _).2.1)
    · exact minor_nop _
  | fluxCall j c =>
    refine plain (by simp) (by simp) ?_
    simp only [Handler.step]
    split
    · exact minor_add j _ rfl
    · exact minor_nop _
  | input j op =>
    refine plain (by simp) (by simp) ?_
    simp only [Handler.step]
    split
    · split
      · exact minor_nop _
      · exact minor_onInput _ _ _ _ _ _ _ _
    · exact minor_nop _

/-! ## Sources -/

/-- What the source of the flux answering with stream `i`, or of the input of the channel call `i`, is asked for. -/
def asks (i : Nat) (tr : List (Handler.Ev H)) : List Int :=
  tr.filterMap fun | .src j (.upRequest n) => if j = i then some n else none | _ => none

theorem asks_append (i : Nat) (a b : List (Handler.Ev H)) : asks i (a ++ b) = asks i a ++ asks i b := by simp [asks]

theorem asks_evsOf (i : Nat) (tr : List (Handler.Ev H)) : asks i (evsOf i tr) = asks i tr := by
  induction tr with
  | nil => rfl
  | cons e tr ih =>
    by_cases h : e.obj = some i
    · have : evsOf i (e :: tr) = e :: evsOf i tr := by simp [evsOf, h]
      rw [this]
      simp only [asks, List.filterMap_cons] at ih ⊢
      rw [ih]
    · rw [evsOf_cons_ne h]
      cases e
      case src j x =>
        have : j ≠ i := by simpa [Handler.Ev.obj] using h
        cases x <;> simpa [asks, this] using ih
      all_goals simpa [asks] using ih

theorem asks_replyEvs (i : Nat) (id : UInt32) (l : List (Flux.Ev Pay)) :
    ∀ r : List (Handler.Ev H), replyEvs i id l = .ok r → asks i r = upRequests l := by
  induction l with
  | nil => intro r h; cases h; rfl
  | cons x l ih =>
    intro r h
    simp only [replyEvs] at h
    obtain ⟨a, ha, h⟩ := bind_ok_inv h
    obtain ⟨b, hb, h⟩ := bind_ok_inv h
    cases h
    rw [asks_append, ih _ hb]
    unfold replyEv at ha
    split at ha
    all_goals cases ha
    all_goals first
      | rfl
      | (cases x <;> simp [asks, upRequests])

theorem asks_answerEvs (i : Nat) (id : UInt32) (l : List (Mono.Ev Pay)) :
    ∀ r : List (Handler.Ev H), answerEvs i id l = .ok r → asks i r = [] := by
  induction l with
  | nil => intro r h; cases h; rfl
  | cons x l ih =>
    intro r h
    simp only [answerEvs] at h
    obtain ⟨a, ha, h⟩ := bind_ok_inv h
    obtain ⟨b, hb, h⟩ := bind_ok_inv h
    cases h
    rw [asks_append, ih _ hb]
    unfold answerEv at ha
    split at ha <;> cases ha <;> rfl

theorem upRequests_map (f : Src) (l : List (Flux.Ev Pay)) : upRequests (throughMap f l) = upRequests l := by
  cases f with
  | mapped tx =>
    simp only [throughMap]
    induction l with
    | nil => rfl
    | cons e l ih =>
      have ap : ∀ a b : List (Flux.Ev Pay), upRequests (a ++ b) = upRequests a ++ upRequests b := by simp [upRequests]
      rw [List.flatMap_cons, ap, ih]
      cases e with
      | next v => simp only [Flux.mapEv]; cases tx v <;> rfl
      | _ => rfl
  | _ => rfl

/-- The subscriber that sends what such a source says. -/
def replySub : Obj → Option Flux.State
  | .responder _ _ (some (_, st)) _ _ => some st
  | .flux _ _ _ (some (.subscribed _ st)) _ => some st
  | _ => none

/-- A goroutine that asks the source of stream `i`. -/
def askTask (i : Nat) (n : Int) : Task → Prop
  | .firstRequest j _ m => j = i ∧ n = m.toNat
  | .doRequest j m => j = i ∧ n = m
  | _ => False

/-- What a step does to it. -/
inductive SubStep (i : Nat) (s : St H) (a : Act) (u u' : Option Flux.State) (e : List (Handler.Ev H)) : Prop
  | same (sub : u' = u) (none : asks i e = [])
      (notask : ∀ t ret task n, a = .run t ret → s.tasks[t]? = some task → ¬ askTask i n task)
  | subscribe (t : Nat) (ret : Ret) (f : Src) (n : UInt32) (act : a = .run t ret) (task : s.tasks[t]? = some (.subscribe i f n))
      (sub : u' = some (.init replyInst [])) (none : asks i e = [])
  | subscribeIn (t : Nat) (ret : Ret) (act : a = .run t ret) (task : s.tasks[t]? = some (.subscribeIn i))
      (flux : ∃ req first c input sub, s.objs[i]? = some (.flux req first c input sub))
      (before : u = none) (sub : u' = some (.init replyInst [])) (none : asks i e = [])
  | ask (t : Nat) (ret : Ret) (task : Task) (n : Int) (st : Flux.State) (act : a = .run t ret)
      (htask : s.tasks[t]? = some task) (hask : askTask i n task) (before : u = some st)
      (sub : u' = some (Flux.call (T := Pay) st (.request n)).1)
      (asked : asks i e = upRequests (Flux.call st (.request n)).2)
  | op (o : SrcOp) (st : Flux.State) (act : a = .out i o ∨ a = .input i o) (before : u = some st)
      (sub : u' = some (Flux.step st o.op).1) (asked : asks i e = upRequests (Flux.step st o.op).2)

theorem upRequests_error (e : Mono.Err) : upRequests (Flux.errorSubscribe e replyInst) = [] := rfl

theorem subscribeSrc_asks (f : Src) : upRequests (subscribeSrc f).2 = [] ∧ (subscribeSrc f).1 = .init replyInst [] := by
  cases f <;> exact ⟨rfl, rfl⟩

theorem asks_demandEvs (i j : Nat) (id : UInt32) (wrap : Flux.Ev Pay → Handler.Ev H) (hw : ∀ e, asks i [wrap e] = [])
    (l : List (Flux.Ev Pay)) : asks i (demandEvs j id wrap l) = [] := by
  induction l with
  | nil => rfl
  | cons e l ih =>
    have cons : ∀ (x : Handler.Ev H) xs, asks i (x :: xs) = asks i [x] ++ asks i xs := fun x xs => asks_append i [x] xs
    cases e <;> simp only [demandEvs]
    case upCancel => rw [cons, hw, cons, ih]; rfl
    all_goals rw [cons, hw, ih]; rfl

/-- Nothing is asked, and the subscriber is as before. -/
def SameAsk (i : Nat) (u : Option Flux.State) (x : Go (Out H)) : Prop :=
  ∀ s' e, x = .ok (s', e) → (∃ o', s'.objs[i]? = some o' ∧ replySub o' = u) ∧ asks i e = []

theorem sameAsk_panic (i : Nat) (u : Option Flux.State) : SameAsk (H := H) i u .panic := by intro _ _ h; cases h

theorem sameAsk_andThen {i : Nat} {u : Option Flux.State} {x : Go (Out H)} {f : St H → Go (Out H)} (hx : SameAsk i u x)
    (hf : ∀ s, (∃ o', s.objs[i]? = some o' ∧ replySub o' = u) → SameAsk i u (f s)) : SameAsk i u (andThen x f) := by
  intro s' e h
  obtain ⟨s1, e1, e2, h1, h2, rfl⟩ := andThen_ok h
  obtain ⟨h3, h4⟩ := hx _ _ h1
  obtain ⟨h5, h6⟩ := hf _ h3 _ _ h2
  exact ⟨h5, by rw [asks_append, h4, h6]; rfl⟩

theorem sameAsk_nop {i : Nat} {u : Option Flux.State} {s : St H} (h : ∃ o', s.objs[i]? = some o' ∧ replySub o' = u) :
    SameAsk i u (.ok (s, [])) := by
  intro s' e h'; cases h'; exact ⟨h, rfl⟩

theorem sameAsk_closing {i : Nat} {u : Option Flux.State} {s : St H} (id : UInt32)
    (h : ∃ o', s.objs[i]? = some o' ∧ replySub o' = u) : SameAsk i u (closing id s) := by
  intro s' e h'; cases h'; exact ⟨by rw [(remove_fields s id).1]; exact h, rfl⟩

theorem sameAsk_deliver {i : Nat} {u : Option Flux.State} {s : St H} (op : Flux.Op Pay)
    (h : ∃ o', s.objs[i]? = some o' ∧ replySub o' = u) : SameAsk i u (deliver s i op) := by
  obtain ⟨o, ho, hu⟩ := h
  have hi := (List.getElem?_eq_some_iff.mp ho).1
  have mono : ∀ l : List (Mono.Ev Pay), asks i (l.map (.mono i : Mono.Ev Pay → Handler.Ev H)) = [] := by
    intro l; induction l with
    | nil => rfl
    | cons x l ih => simpa [asks] using ih
  unfold deliver
  rw [ho]
  cases o with
  | responder k id out b inp =>
    cases inp with
    | none => exact sameAsk_panic _ _
    | some st =>
      intro s' e h'; cases h'
      refine ⟨⟨_, List.getElem?_set_self hi, ?_⟩, asks_demandEvs _ _ _ _ (fun _ => rfl) _⟩
      rw [← hu]; cases out <;> rfl
  | answer => exact sameAsk_panic _ _
  | mono req proc =>
    dsimp only
    split
    · intro s' e h'; cases h'
      exact ⟨⟨_, List.getElem?_set_self hi, hu⟩, mono _⟩
    · intro s' e h'; cases h'
      exact ⟨⟨_, List.getElem?_set_self hi, hu⟩, mono _⟩
    · exact sameAsk_nop ⟨_, ho, hu⟩
  | flux req first c input sub =>
    dsimp only
    split
    · intro s' e h'; cases h'
      refine ⟨⟨_, List.getElem?_set_self hi, ?_⟩, asks_demandEvs _ _ _ _ (fun _ => rfl) _⟩
      rw [← hu]; cases input with
      | none => rfl
      | some y => cases y <;> rfl
    · intro s' e h'; cases h'
      refine ⟨⟨_, List.getElem?_set_self hi, ?_⟩, rfl⟩
      rw [← hu]; cases input with
      | none => rfl
      | some y => cases y <;> rfl

theorem sameAsk_dispatch {i : Nat} {u : Option Flux.State} {s : St H} (r : React) (f : AnyFrame)
    (h : ∃ o', s.objs[i]? = some o' ∧ replySub o' = u) (hf : f.type ≥ typeRequestN) :
    SameAsk i u (dispatch s r f (some i)) := by
  cases f with
  | setup v => exact absurd hf (by simp only [AnyFrame.type]; decide)
  | request v =>
    simp only [dispatch]
    split
    · intro s' e h'; cases h'; exact ⟨h, rfl⟩
    · exact sameAsk_nop h
  | requestN v =>
    simp only [dispatch]
    split
    · intro s' e h'; cases h'; exact ⟨h, rfl⟩
    · exact sameAsk_panic _ _
  | cancel v => exact sameAsk_andThen (sameAsk_deliver _ h) fun s h => sameAsk_closing _ h
  | payload v =>
    simp only [dispatch]
    refine sameAsk_andThen ?_ fun s h => ?_
    · split
      · exact sameAsk_deliver _ h
      · exact sameAsk_nop h
    · split
      · exact sameAsk_andThen (sameAsk_deliver _ h) fun s h => sameAsk_closing _ h
      · exact sameAsk_nop h
  | error v =>
    exact sameAsk_andThen (sameAsk_deliver _ h) fun s h => sameAsk_andThen (sameAsk_deliver _ h) fun s h => sameAsk_closing _ h

theorem onInput_obj {s0 s s' : St H} {j : Nat} {req : RequestPayload} {a b : Bool} {f : Src} {sub : Option Flux.State}
    {r : Flux.State × List (Flux.Ev Pay)} {e : List (Handler.Ev H)} (hj : j < s.objs.length)
    (h : settle s0 (onInput s j req a b f sub r) = .ok (s', e)) :
    s'.objs[j]? = some (.flux req a b (some (.subscribed f r.1)) sub) ∧ replyEvs j req.streamID (throughMap f r.2) = .ok e := by
  cases hx : onInput s j req a b f sub r with
  | ok y =>
    rw [hx] at h
    cases h
    obtain ⟨h1, rfl⟩ := Handler.onInput_ok hx
    exact ⟨List.getElem?_set_self hj, h1⟩
  | panic => rw [hx] at h; cases h
  | err m =>
    unfold onInput at hx
    cases hy : replyEvs (H := H) j req.streamID (throughMap f r.2) with
    | ok es => rw [hy] at hx; cases hx
    | panic => rw [hy] at hx; cases hx
    | err m => exact absurd hy (replyEvs_noerr _ _ _ _)

/-- A step and the subscriber of a stream. -/
theorem sub_step {s s' : St H} {i : Nat} {o : Obj} {e : List (Handler.Ev H)} (ho : s.objs[i]? = some o) (a : Act)
    (hs : settle s (Handler.step s a) = .ok (s', e)) :
    ∃ o', s'.objs[i]? = some o' ∧ SubStep i s a (replySub o) (replySub o') e := by
  have hi : i < s.objs.length := (List.getElem?_eq_some_iff.mp ho).1
  have keep : (∀ t ret task n, a = .run t ret → s.tasks[t]? = some task → ¬ askTask i n task) →
      SameAsk i (replySub o) (settle s (Handler.step s a)) →
      ∃ o', s'.objs[i]? = some o' ∧ SubStep i s a (replySub o) (replySub o') e := by
    intro h1 h2
    obtain ⟨⟨o', h3, h4⟩, h5⟩ := h2 _ _ hs
    exact ⟨o', h3, .same h4 h5 h1⟩
  have nop : (∀ t ret task n, a = .run t ret → s.tasks[t]? = some task → ¬ askTask i n task) →
      Handler.step s a = .ok (s, []) →
      ∃ o', s'.objs[i]? = some o' ∧ SubStep i s a (replySub o) (replySub o') e := by
    intro h1 h2
    exact keep h1 (by rw [h2]; exact sameAsk_nop ⟨o, ho, rfl⟩)
  have norun : (∀ t ret, a ≠ .run t ret) →
      (∀ t ret task n, a = .run t ret → s.tasks[t]? = some task → ¬ askTask i n task) :=
    fun h t ret _ _ hh => absurd hh (h t ret)
  by_cases hact : actsOn s a = some i
  · cases a with
    | frame f r =>
      simp only [actsOn] at hact
      split at hact
      · rename_i hf
        refine keep (norun (by simp)) ?_
        have e1 : Handler.step s (.frame f r) = dispatch s r f (some i) := by
          simp only [Handler.step, handleFrame, hf, if_true, hact]
        rw [e1]
        intro s2 e2 h2
        cases hd : dispatch s r f (some i) with
        | ok y => rw [hd] at h2; exact sameAsk_dispatch r f ⟨o, ho, rfl⟩ hf _ _ (hd.trans h2)
        | panic => rw [hd] at h2; cases h2
        | err m => rw [hd] at h2; cases h2; exact ⟨⟨o, ho, rfl⟩, rfl⟩
      · cases hact
    | run t ret =>
      simp only [actsOn] at hact
      cases ht : s.tasks[t]? with
      | none => rw [ht] at hact; cases hact
      | some task =>
        rw [ht] at hact
        have hto : task.obj = some i := hact
        simp only [Handler.step, ht] at hs
        cases task with
        | request => cases hto
        | subscribe j f n =>
          simp only [Task.obj, Option.some.injEq] at hto
          subst hto
          cases o with
          | responder k id out b inp =>
            simp only [runTask, ho] at hs
            obtain ⟨h1, h2⟩ := onOut_settle (s := addTasks { s with tasks := s.tasks.eraseIdx t } [.firstRequest j f n]) hi hs
            refine ⟨_, h1, .subscribe t ret f n rfl ht ?_ ?_⟩
            · simp only [replySub, (subscribeSrc_asks f).2]
            · rw [asks_replyEvs _ _ _ _ h2, upRequests_map, (subscribeSrc_asks f).1]
          | _ => simp only [runTask, ho] at hs; cases hs
        | firstRequest j f n =>
          simp only [Task.obj, Option.some.injEq] at hto
          subst hto
          cases o with
          | responder k id out b inp =>
            cases out with
            | none => simp only [runTask, ho] at hs; cases hs
            | some x =>
              obtain ⟨g, st⟩ := x
              simp only [runTask, ho] at hs
              split at hs
              · cases hs
              · obtain ⟨h1, h2⟩ := onOut_settle (s := { s with tasks := s.tasks.eraseIdx t }) hi hs
                refine ⟨_, h1, .ask t ret _ n.toNat st rfl ht ⟨rfl, rfl⟩ rfl rfl ?_⟩
                rw [asks_replyEvs _ _ _ _ h2, upRequests_map]
          | _ => simp only [runTask, ho] at hs; cases hs
        | doRequest j n =>
          simp only [Task.obj, Option.some.injEq] at hto
          subst hto
          cases o with
          | responder k id out b inp =>
            cases out with
            | none => cases b <;> simp only [runTask, ho] at hs <;> cases hs
            | some x =>
              obtain ⟨f, st⟩ := x
              cases b with
              | false => simp only [runTask, ho] at hs; cases hs
              | true =>
                simp only [runTask, ho] at hs
                obtain ⟨h1, h2⟩ := onOut_settle (s := { s with tasks := s.tasks.eraseIdx t }) hi hs
                refine ⟨_, h1, .ask t ret _ n st rfl ht ⟨rfl, rfl⟩ rfl rfl ?_⟩
                rw [asks_replyEvs _ _ _ _ h2, upRequests_map]
          | flux req first c input sub =>
            cases input with
            | none => simp only [runTask, ho] at hs; cases hs
            | some x =>
              cases x with
              | fresh f => simp only [runTask, ho] at hs; cases hs
              | subscribed f st =>
                simp only [runTask, ho] at hs
                split at hs
                · cases hs
                · obtain ⟨h1, h2⟩ := onInput_obj (s := { s with tasks := s.tasks.eraseIdx t }) hi hs
                  refine ⟨_, h1, .ask t ret _ n st rfl ht ⟨rfl, rfl⟩ rfl rfl ?_⟩
                  rw [asks_replyEvs _ _ _ _ h2, upRequests_map]
          | _ => simp only [runTask, ho] at hs; cases hs
        | upRequest j n =>
          simp only [Task.obj, Option.some.injEq] at hto
          subst hto
          have nt : ∀ t' ret' task' n', Act.run t ret = .run t' ret' → s.tasks[t']? = some task' → ¬ askTask j n' task' := by
            intro t' ret' task' n' h1 h2; cases h1; rw [ht] at h2; cases h2; exact id
          cases o with
          | responder k id out b inp =>
            simp only [runTask, ho] at hs
            cases hs
            exact ⟨_, ho, .same rfl rfl nt⟩
          | flux req first c input sub =>
            simp only [runTask, ho] at hs
            split at hs
            · cases hs; exact ⟨_, ho, .same rfl rfl nt⟩
            · split at hs
              · cases hs
                refine ⟨_, List.getElem?_set_self hi, .same ?_ rfl nt⟩
                cases input with
                | none => rfl
                | some y => cases y <;> rfl
              · cases hs; exact ⟨_, ho, .same rfl rfl nt⟩
          | _ => simp only [runTask, ho] at hs; cases hs
        | subscribeIn j =>
          simp only [Task.obj, Option.some.injEq] at hto
          subst hto
          cases o with
          | flux req first c input sub =>
            cases input with
            | none => simp only [runTask, ho] at hs; cases hs
            | some x =>
              cases x with
              | subscribed f st => simp only [runTask, ho] at hs; cases hs
              | fresh f =>
                simp only [runTask, ho] at hs
                obtain ⟨h1, h2⟩ := onInput_obj (s := { s with tasks := s.tasks.eraseIdx t }) hi hs
                refine ⟨_, h1, .subscribeIn t ret rfl ht ⟨_, _, _, _, _, ho⟩ rfl ?_ ?_⟩
                · simp only [replySub, (subscribeSrc_asks f).2]
                · rw [asks_replyEvs _ _ _ _ h2, upRequests_map, (subscribeSrc_asks f).1]
          | _ => simp only [runTask, ho] at hs; cases hs
    | out j op =>
      simp only [actsOn, Option.some.injEq] at hact
      subst hact
      cases o with
      | responder k id out b inp =>
        cases out with
        | none => exact nop (norun (by simp)) (by simp only [Handler.step, ho])
        | some x =>
          obtain ⟨f, st⟩ := x
          simp only [Handler.step, ho] at hs
          split at hs
          · rename_i hf
            exact nop (norun (by simp)) (by simp only [Handler.step, ho, hf, if_true])
          · obtain ⟨h1, h2⟩ := onOut_settle hi hs
            refine ⟨_, h1, .op op st (.inl rfl) rfl rfl ?_⟩
            rw [asks_replyEvs _ _ _ _ h2, upRequests_map]
      | _ => exact nop (norun (by simp)) (by simp only [Handler.step, ho])
    | input j op =>
      simp only [actsOn, Option.some.injEq] at hact
      subst hact
      cases o with
      | flux req first c input sub =>
        cases input with
        | none => exact nop (norun (by simp)) (by simp only [Handler.step, ho])
        | some x =>
          cases x with
          | fresh f => exact nop (norun (by simp)) (by simp only [Handler.step, ho])
          | subscribed f st =>
            simp only [Handler.step, ho] at hs
            split at hs
            · rename_i hf
              exact nop (norun (by simp)) (by simp only [Handler.step, ho, hf, if_true])
            · obtain ⟨h1, h2⟩ := onInput_obj hi hs
              refine ⟨_, h1, .op op st (.inr rfl) rfl rfl ?_⟩
              rw [asks_replyEvs _ _ _ _ h2, upRequests_map]
      | _ => exact nop (norun (by simp)) (by simp only [Handler.step, ho])
    | subscribeInp j inst start =>
      simp only [actsOn, Option.some.injEq] at hact
      subst hact
      refine keep (norun (by simp)) ?_
      simp only [Handler.step]
      split
      · rename_i id out b ho'
        rw [ho] at ho'; cases ho'
        intro s2 e2 h2
        cases h2
        refine ⟨⟨_, List.getElem?_set_self hi, ?_⟩, asks_demandEvs _ _ _ _ (fun _ => rfl) _⟩
        cases out <;> rfl
      · exact sameAsk_nop ⟨o, ho, rfl⟩
    | inpCall j c =>
      simp only [actsOn, Option.some.injEq] at hact
      subst hact
      refine keep (norun (by simp)) ?_
      simp only [Handler.step]
      split
      · rename_i k id out b st ho'
        rw [ho] at ho'; cases ho'
        intro s2 e2 h2
        cases h2
        refine ⟨⟨_, List.getElem?_set_self hi, ?_⟩, asks_demandEvs _ _ _ _ (fun _ => rfl) _⟩
        cases out <;> rfl
      · exact sameAsk_nop ⟨o, ho, rfl⟩
    | call => cases hact
    | answer j sig =>
      simp only [actsOn, Option.some.injEq] at hact
      subst hact
      refine keep (norun (by simp)) ?_
      intro s2 e2 h2
      simp only [Handler.step] at h2
      split at h2
      · rename_i id m st ho'
        rw [ho] at ho'; cases ho'
        cases hy : answerEvs (H := H) j id (throughMonoMap m (Mono.signal st 0 sig [] []).2) with
        | ok es =>
          rw [hy] at h2
          cases h2
          refine ⟨⟨_, List.getElem?_set_self hi, rfl⟩, ?_⟩
          exact asks_answerEvs _ _ _ _ hy
        | panic => rw [hy] at h2; cases h2
        | err m => exact absurd hy (answerEvs_noerr _ _ _ _)
      · cases h2; exact ⟨⟨o, ho, rfl⟩, rfl⟩
    | subscribeMono j inst =>
      simp only [actsOn, Option.some.injEq] at hact
      subst hact
      refine keep (norun (by simp)) ?_
      simp only [Handler.step]
      split
      · rename_i req proc ho'
        rw [ho] at ho'; cases ho'
        intro s2 e2 h2
        cases h2
        refine ⟨⟨_, List.getElem?_set_self (by rw [(register_fields _ _ _).1]; exact hi), rfl⟩, ?_⟩
        have mono : ∀ l : List (Mono.Ev Pay), asks j (l.map (.mono j : Mono.Ev Pay → Handler.Ev H)) = [] := by
          intro l; induction l with
          | nil => rfl
          | cons x l ih => simpa [asks] using ih
        rw [List.cons_append, show ∀ (x : Handler.Ev H) xs, asks j (x :: xs) = asks j [x] ++ asks j xs from
          fun x xs => asks_append j [x] xs, asks_append, mono]
        rfl
      · exact sameAsk_nop ⟨o, ho, rfl⟩
    | subscribeFlux j inst start =>
      simp only [actsOn, Option.some.injEq] at hact
      subst hact
      refine keep (norun (by simp)) ?_
      simp only [Handler.step]
      split
      · rename_i req first c input ho'
        rw [ho] at ho'; cases ho'
        intro s2 e2 h2
        cases h2
        refine ⟨⟨_, List.getElem?_set_self (by rw [(register_fields _ _ _).1]; exact hi), ?_⟩, ?_⟩
        · cases input with
          | none => rfl
          | some y => cases y <;> rfl
        · rw [show ∀ (x : Handler.Ev H) xs, asks j (x :: xs) = asks j [x] ++ asks j xs from
            fun x xs => asks_append j [x] xs, asks_demandEvs _ _ _ _ (fun _ => rfl) _]
          rfl
      · exact sameAsk_nop ⟨o, ho, rfl⟩
    | fluxCall j c =>
      simp only [actsOn, Option.some.injEq] at hact
      subst hact
      refine keep (norun (by simp)) ?_
      simp only [Handler.step]
      split
      · rename_i req first c' input st ho'
        rw [ho] at ho'; cases ho'
        intro s2 e2 h2
        cases h2
        refine ⟨⟨_, List.getElem?_set_self hi, ?_⟩, asks_demandEvs _ _ _ _ (fun _ => rfl) _⟩
        cases input with
        | none => rfl
        | some y => cases y <;> rfl
      · exact sameAsk_nop ⟨o, ho, rfl⟩
  · obtain ⟨h1, h2⟩ := idle_settle s a hi hact _ _ hs
    refine ⟨o, h1.trans ho, .same rfl (by rw [← asks_evsOf, h2]; rfl) ?_⟩
    rintro t ret task n rfl hc hk
    apply hact
    simp only [actsOn, hc, Option.bind_some]
    cases task with
    | firstRequest j f m => exact congrArg some hk.1
    | doRequest j m => exact congrArg some hk.1
    | _ => exact absurd hk id

/-! ## The budget of a source -/

/-- What a goroutine is still to ask the source of stream `i` for. -/
def askWeight (i : Nat) : Task → Int
  | .doRequest j n => if j = i then n else 0
  | .subscribe j _ n => if j = i then n.toNat else 0
  | .firstRequest j _ n => if j = i then n.toNat else 0
  | _ => 0

def askWork (i : Nat) (ts : List Task) : Int := (ts.map (askWeight i)).sum

/-- What the subscriber has been asked for and will pass on when the source turns up. -/
def askPot : Option Flux.State → Int
  | some st => if st.hasRequest then 0 else max st.n 0
  | none => 0

/-- What a step adds to that. -/
def askedNow (i : Nat) (s : St H) : Act → Int
  | .frame (.requestN f) _ => if getStream s f.streamID = some i then f.n.toNat else 0
  | _ => 0

theorem askWork_append (i : Nat) (a b : List Task) : askWork i (a ++ b) = askWork i a + askWork i b := by
  simp [askWork]

theorem askWork_erase (i : Nat) {ts : List Task} {t : Nat} {x : Task} (h : ts[t]? = some x) :
    askWork i ts = askWork i (ts.eraseIdx t) + askWeight i x := by
  induction ts generalizing t with
  | nil => cases h
  | cons y ts ih =>
    cases t with
    | zero =>
      simp only [List.getElem?_cons_zero, Option.some.injEq] at h
      subst h
      simp only [askWork, List.map_cons, List.sum_cons, List.eraseIdx_zero, List.tail_cons]
      omega
    | succ t =>
      have := ih (t := t) (by simpa using h)
      simp only [askWork, List.map_cons, List.sum_cons, List.eraseIdx_cons_succ] at this ⊢
      omega

theorem askWeight_own (i : Nat) {x : Task} (h : ownTask x = true) : askWeight i x = 0 := by cases x <;> first | rfl | cases h

theorem askWork_own (i : Nat) {ts : List Task} (h : ∀ x ∈ ts, ownTask x = true) : askWork i ts = 0 := by
  induction ts with
  | nil => rfl
  | cons x ts ih =>
    have h1 := ih fun y hy => h y (List.mem_cons_of_mem _ hy)
    have h2 := askWeight_own i (h x (by simp))
    simp only [askWork, List.map_cons, List.sum_cons] at h1 ⊢
    omega

/-- The goroutines that are to subscribe to the flux of stream `i`. -/
def isSubTask (i : Nat) : Task → Bool
  | .subscribe j _ _ => j = i
  | _ => false

theorem countP_erase {α : Type} (p : α → Bool) {l : List α} {t : Nat} {x : α} (h : l[t]? = some x) :
    l.countP p = (l.eraseIdx t).countP p + (if p x then 1 else 0) := by
  induction l generalizing t with
  | nil => cases h
  | cons y l ih =>
    cases t with
    | zero =>
      simp only [List.getElem?_cons_zero, Option.some.injEq] at h
      subst h
      simp [List.countP_cons]
    | succ t =>
      have := ih (t := t) (by simpa using h)
      simp only [List.eraseIdx_cons_succ, List.countP_cons]
      omega

theorem countP_own (i : Nat) {ts : List Task} (h : ∀ x ∈ ts, ownTask x = true) : ts.countP (isSubTask i) = 0 := by
  apply List.countP_eq_zero.mpr
  intro x hx hs
  have := h x hx
  cases x <;> first | (cases hs; done) | cases this

/-- What every subscriber and every goroutine that asks has in common. -/
structure AskOk (i : Nat) (s : St H) (u : Option Flux.State) : Prop where
  inst : ∀ st, u = some st → st.inst = replyInst
  nonneg : ∀ j n, .doRequest j n ∈ s.tasks → 0 ≤ n

/-- No element has been counted against demand nobody was asked for, and the flux is subscribed to once. -/
structure AskExact (i : Nat) (s : St H) (o : Obj) : Prop where
  pos : ∀ st, replySub o = some st → st.hasRequest = false → 0 ≤ st.n
  once : s.tasks.countP (isSubTask i) = 0 ∨
    (s.tasks.countP (isSubTask i) = 1 ∧ replySub o = none ∧ objTag o = 1)

/-- The source calls OnSubscribe. -/
def isOnSub (i : Nat) : Act → Bool
  | .out j (.onSubscribe _) => j = i
  | .input j (.onSubscribe _) => j = i
  | _ => false

/-- The source says an element. -/
def saysNext (i : Nat) : Act → Bool
  | .out j (.next _) => j = i
  | .input j (.next _) => j = i
  | _ => false

theorem upRequests_append (a b : List (Flux.Ev Pay)) : upRequests (a ++ b) = upRequests a ++ upRequests b := by simp [upRequests]

theorem upRequests_final (st : Flux.State) (g : Mono.Signal) : upRequests (Flux.doFinally (T := Pay) st g).2 = [] := by
  simp only [Flux.doFinally, upRequests_append]
  have : ∀ l : List Nat, upRequests (l.map (Flux.Ev.notified (T := Pay) · g)) = [] := by
    intro l; induction l with
    | nil => rfl
    | cons x l ih => simpa [upRequests] using ih
  rw [this]
  split <;> rfl

/-- The amount of a request. -/
def opAsks : Flux.Op Pay → Int
  | .call (.request n) => n
  | _ => 0

/-- One call of the source, or one request, and the demand. -/
theorem sub_call (st : Flux.State) (hin : st.inst = replyInst) (op : Flux.Op Pay)
    (ho : (∃ o : SrcOp, op = o.op) ∨ ∃ n : Int, 0 ≤ n ∧ op = .call (.request n)) :
    (Flux.step st op).1.inst = replyInst ∧
    ((∀ c, op = .onSubscribe c → st.hasRequest = false) →
      ((upRequests (Flux.step st op).2).sum + askPot (some (Flux.step st op).1) ≤
        askPot (some st) + opAsks op) ∧
      ((∀ v a b, op = .next v a b → st.hasRequest = true) → (st.hasRequest = false → 0 ≤ st.n) →
        (upRequests (Flux.step st op).2).sum + askPot (some (Flux.step st op).1) =
          askPot (some st) + opAsks op ∧
        ((Flux.step st op).1.hasRequest = false → 0 ≤ (Flux.step st op).1.n))) := by
  rcases ho with ⟨o, rfl⟩ | ⟨n, hn, rfl⟩
  · cases o with
    | next p =>
      simp only [SrcOp.op, opAsks, Flux.step, Flux.next]
      split
      · refine ⟨hin, fun _ => ⟨?_, fun _ h => ⟨?_, h⟩⟩⟩ <;> simp [upRequests]
      · have e1 : Flux.onNext (T := Pay) { st with n := st.n - 1 } p [] = ({ st with n := st.n - 1 }, [.next p]) := by
          simp [Flux.onNext, hin, replyInst, Flux.calls]
        have e2 : ∀ m : Flux.State, m.inst = replyInst → Flux.handleOnSubscribe (T := Pay) m [] = (m, []) := by
          intro m hm; simp [Flux.handleOnSubscribe, hm, replyInst]
        have e3 : (if (Flux.onNext (T := Pay) { st with n := st.n - 1 } p []).1.n = 0 then
            ((Flux.handleOnSubscribe (T := Pay) (Flux.onNext (T := Pay) { st with n := st.n - 1 } p []).1 []).1,
              (Flux.onNext (T := Pay) { st with n := st.n - 1 } p []).2 ++
                (Flux.handleOnSubscribe (T := Pay) (Flux.onNext (T := Pay) { st with n := st.n - 1 } p []).1 []).2)
            else Flux.onNext (T := Pay) { st with n := st.n - 1 } p []) = ({ st with n := st.n - 1 }, [.next p]) := by
          rw [e1, e2 { st with n := st.n - 1 } hin]
          split <;> rfl
        rw [e3]
        refine ⟨hin, fun _ => ⟨?_, fun h1 h2 => ?_⟩⟩
        · simp only [upRequests, List.filterMap_cons, List.filterMap_nil, List.sum_nil, askPot]
          split <;> omega
        · have := h1 p [] [] rfl
          simp only [upRequests, List.filterMap_cons, List.filterMap_nil, List.sum_nil, askPot, this, if_true]
          simp
    | complete =>
      simp only [SrcOp.op, opAsks, Flux.step, Flux.complete]
      split
      · refine ⟨hin, fun _ => ⟨?_, fun _ h => ⟨?_, h⟩⟩⟩ <;> simp [upRequests]
      · simp only [upRequests_append, upRequests_final, List.append_nil]
        have : (st.inst.onComplete) = true := by rw [hin]; rfl
        simp only [this, if_true, Flux.calls, Flux.doFinally]
        refine ⟨hin, fun _ => ⟨?_, fun _ h => ⟨?_, h⟩⟩⟩ <;> simp [upRequests, askPot]
    | error x =>
      simp only [SrcOp.op, opAsks, Flux.step, Flux.error]
      split
      · refine ⟨hin, fun _ => ⟨?_, fun _ h => ⟨?_, h⟩⟩⟩ <;> simp [upRequests]
      · simp only [upRequests_append, upRequests_final, List.append_nil]
        have : (st.inst.onError) = true := by rw [hin]; rfl
        simp only [this, if_true, Flux.calls, Flux.doFinally]
        refine ⟨hin, fun _ => ⟨?_, fun _ h => ⟨?_, h⟩⟩⟩ <;> simp [upRequests, askPot]
    | onSubscribe c =>
      simp only [SrcOp.op, opAsks, Flux.step]
      split
      · refine ⟨hin, fun _ => ⟨?_, fun _ h => ⟨?_, h⟩⟩⟩ <;> simp [upRequests]
      · refine ⟨hin, fun h => ?_⟩
        have := h c rfl
        refine ⟨?_, fun _ h2 => ⟨?_, by simp⟩⟩
        · simp only [askPot, this]
          split
          · simp [upRequests]; omega
          · simp [upRequests]; omega
        · have := h2 this
          simp only [askPot, ‹st.hasRequest = false›]
          split
          · simp [upRequests]; omega
          · simp [upRequests]; omega
  · simp only [opAsks, Flux.step, Flux.call]
    refine ⟨hin, fun _ => ⟨?_, fun _ h2 => ⟨?_, fun h3 => ?_⟩⟩⟩
    · simp only [askPot]
      split
      · simp [upRequests]
      · simp [upRequests]; omega
    · simp only [askPot]
      split
      · simp [upRequests]
      · rename_i hr
        have := h2 (by simpa using hr)
        simp [upRequests]; omega
    · have := h2 h3
      show 0 ≤ st.n + n
      omega

theorem askOk_tasks {s s' : St H} {new : List Task} (h : ∀ j n, Task.doRequest j n ∈ s.tasks → 0 ≤ n)
    (hs : ∀ x ∈ s'.tasks, x ∈ s.tasks ∨ x ∈ new) (hn : ∀ j n, Task.doRequest j n ∈ new → 0 ≤ n) :
    ∀ j n, Task.doRequest j n ∈ s'.tasks → 0 ≤ n :=
  fun j n hm => (hs _ hm).elim (h j n) (hn j n)

theorem askTask_weight {i : Nat} {n : Int} {t : Task} (h : askTask i n t) : askWeight i t = n := by
  cases t with
  | firstRequest j f m => obtain ⟨rfl, rfl⟩ := h; simp [askWeight]
  | doRequest j m => obtain ⟨rfl, rfl⟩ := h; simp [askWeight]
  | _ => cases h

theorem not_askTask_weight {i : Nat} {t : Task} (h : ∀ n, ¬ askTask i n t) (h2 : ∀ f n, t ≠ .subscribe i f n) :
    askWeight i t = 0 := by
  cases t with
  | firstRequest j f m =>
    by_cases hj : j = i
    · exact absurd ⟨hj, rfl⟩ (h _)
    · simp [askWeight, hj]
  | doRequest j m =>
    by_cases hj : j = i
    · exact absurd ⟨hj, rfl⟩ (h m)
    · simp [askWeight, hj]
  | subscribe j f m =>
    by_cases hj : j = i
    · subst hj; exact absurd rfl (h2 f m)
    · simp [askWeight, hj]
  | _ => rfl

theorem askTask_sub {i : Nat} {n : Int} {t : Task} (h : askTask i n t) : isSubTask i t = false := by
  cases t <;> first | rfl | cases h

/-- The budget of one step. -/
structure Budget (i : Nat) (s s' : St H) (a : Act) (o o' : Obj) (e : List (Handler.Ev H)) : Prop where
  ok : AskOk i s' (replySub o')
  le : (asks i e).sum + askWork i s'.tasks + askPot (replySub o') ≤ askWork i s.tasks + askPot (replySub o) + askedNow i s a
  eq : AskExact i s o → (saysNext i a = true → ∀ st, replySub o = some st → st.hasRequest = true) →
    AskExact i s' o' ∧
    (asks i e).sum + askWork i s'.tasks + askPot (replySub o') = askWork i s.tasks + askPot (replySub o) + askedNow i s a

theorem budget_step {s s' : St H} {i : Nat} {o o' : Obj} {a : Act} {e : List (Handler.Ev H)}
    (hi : s.objs[i]? = some o) (htag : objTag o' = objTag o) (ts : TaskStep s a s')
    (ss : SubStep i s a (replySub o) (replySub o') e) (ok : AskOk i s (replySub o))
    (hone : isOnSub i a = true → ∀ st, replySub o = some st → st.hasRequest = false) :
    Budget i s s' a o o' e := by
  have hlen : i < s.objs.length := (List.getElem?_eq_some_iff.mp hi).1
  -- the goroutines
  have own0 : ∀ new : List Task, (∀ x ∈ new, ownTask x = true) → ∀ j n, Task.doRequest j n ∈ new → 0 ≤ n := by
    intro new h j n hm; cases h _ hm
  have app : ∀ (l new : List Task), s'.tasks = l ++ new → (∀ x ∈ l, x ∈ s.tasks) → ∀ x ∈ s'.tasks, x ∈ s.tasks ∨ x ∈ new := by
    intro l new h1 h2 x hx
    rw [h1] at hx
    exact (List.mem_append.mp hx).imp (h2 x) id
  have er : ∀ t, ∀ x ∈ s.tasks.eraseIdx t, x ∈ s.tasks := fun t x hx => List.mem_of_mem_eraseIdx hx
  have nonneg : ∀ j n, Task.doRequest j n ∈ s'.tasks → 0 ≤ n := by
    cases ts with
    | minor _ _ new tasks own => exact askOk_tasks ok.nonneg (app _ _ tasks fun _ h => h) (own0 new own)
    | asked f r j _ str same =>
      subst same
      refine askOk_tasks (s := s) (new := [.doRequest j f.n.toNat]) ok.nonneg (app _ _ rfl fun _ h => h) ?_
      intro j' n hm
      simp only [List.mem_singleton, Task.doRequest.injEq] at hm
      omega
    | request f r k hk => exact askOk_tasks (s := s) (new := [.request k f.streamID f.data f.metadata f.initialN]) ok.nonneg (app _ _ rfl fun _ h => h) (by simp)
    | subscribe t ret j f n _ task tasks => exact askOk_tasks ok.nonneg (app _ _ tasks (er t)) (by simp)
    | stream t ret k id data md n _ task objs tasks => exact askOk_tasks ok.nonneg (app _ _ tasks (er t)) (by simp)
    | serve t ret k id data md n _ task tasks objs =>
      exact askOk_tasks (new := []) ok.nonneg (app _ [] (by rw [tasks, List.append_nil]) (er t)) (by simp)
    | run t ret task _ new htask h1 h2 tasks own => exact askOk_tasks ok.nonneg (app _ _ tasks (er t)) (own0 new own)
  have inst : ∀ st, replySub o' = some st → st.inst = replyInst := by
    intro st hst
    cases ss with
    | same sub => exact ok.inst st (sub ▸ hst)
    | subscribe t ret f n act task sub => rw [sub] at hst; cases hst; rfl
    | subscribeIn t ret act task flux before sub => rw [sub] at hst; cases hst; rfl
    | ask t ret task n st0 act htask hask before sub => rw [sub] at hst; cases hst; exact ok.inst st0 before
    | op q st0 act before sub =>
      rw [sub] at hst; cases hst
      exact (sub_call st0 (ok.inst st0 before) q.op (.inl ⟨q, rfl⟩)).1
  -- when the subscriber and the goroutines of the stream stay as they are
  have keep : replySub o' = replySub o → asks i e = [] →
      askWork i s'.tasks = askWork i s.tasks + askedNow i s a →
      s'.tasks.countP (isSubTask i) ≤ s.tasks.countP (isSubTask i) → Budget i s s' a o o' e := by
    intro h1 h2 h3 h4
    refine ⟨⟨inst, nonneg⟩, by rw [h1, h2, h3, List.sum_nil]; omega, fun he _ => ⟨⟨?_, ?_⟩, by rw [h1, h2, h3, List.sum_nil]; omega⟩⟩
    · rw [h1]; exact he.pos
    · rw [h1, htag]
      rcases he.once with h5 | ⟨h5, h6, h7⟩
      · exact .inl (by omega)
      · by_cases h8 : s'.tasks.countP (isSubTask i) = 0
        · exact .inl h8
        · exact .inr ⟨by omega, h6, h7⟩
  -- when no goroutine runs
  have idle : ∀ new, s'.tasks = s.tasks ++ new → askWork i new = askedNow i s a → new.countP (isSubTask i) = 0 →
      (∀ t ret, a = .run t ret → s.tasks[t]? = none) → Budget i s s' a o o' e := by
    intro new h1 h2 h3 h4
    have hw : askWork i s'.tasks = askWork i s.tasks + askedNow i s a := by rw [h1, askWork_append, h2]
    have hc : s'.tasks.countP (isSubTask i) = s.tasks.countP (isSubTask i) := by rw [h1, List.countP_append, h3]; rfl
    cases ss with
    | same sub hnone => exact keep sub hnone hw (Nat.le_of_eq hc)
    | subscribe t ret f n act task => rw [h4 t ret act] at task; cases task
    | subscribeIn t ret act task => rw [h4 t ret act] at task; cases task
    | ask t ret task n st act htask => rw [h4 t ret act] at htask; cases htask
    | op q st act before sub asked =>
      have hno : ∀ c, q.op = .onSubscribe c → st.hasRequest = false := by
        intro c hq
        refine hone ?_ st before
        cases q <;> cases hq
        rcases act with rfl | rfl <;> simp [isOnSub]
      obtain ⟨-, h5⟩ := sub_call st (ok.inst st before) q.op (.inl ⟨q, rfl⟩)
      obtain ⟨h5, h6⟩ := h5 hno
      have hm : opAsks q.op = 0 := by cases q <;> rfl
      rw [hm] at h5 h6
      refine ⟨⟨inst, nonneg⟩, by rw [sub, asked, hw, before]; omega, fun he hp => ?_⟩
      obtain ⟨h7, h8⟩ := h6 (by
        intro v x y hq
        refine hp ?_ st before
        cases q <;> cases hq
        rcases act with rfl | rfl <;> simp [saysNext]) (he.pos st before)
      refine ⟨⟨?_, ?_⟩, by rw [sub, asked, hw, before]; omega⟩
      · intro st' h9 h10; rw [sub] at h9; cases h9; exact h8 h10
      · rcases he.once with h9 | ⟨-, h9, -⟩
        · exact .inl (by omega)
        · rw [before] at h9; cases h9
  -- when a goroutine runs that does not concern the stream
  have other : ∀ t ret task new, a = .run t ret → s.tasks[t]? = some task → s'.tasks = s.tasks.eraseIdx t ++ new →
      (∀ n, ¬ askTask i n task) → askWork i new = askWeight i task → new.countP (isSubTask i) = 0 →
      (∀ f n, task ≠ .subscribe i f n) → task ≠ .subscribeIn i → Budget i s s' a o o' e := by
    intro t ret task new h1 h2 h3 h4 h5 h6 h7 h8
    subst h1
    have hw : askWork i s'.tasks = askWork i s.tasks + askedNow i s (.run t ret) := by
      rw [h3, askWork_append, h5, askWork_erase i h2]
      show _ = _ + (0 : Int)
      omega
    have hc : s'.tasks.countP (isSubTask i) ≤ s.tasks.countP (isSubTask i) := by
      rw [h3, List.countP_append, h6, countP_erase _ h2]; omega
    cases ss with
    | same sub hnone => exact keep sub hnone hw hc
    | subscribe t' ret' f n act task' => cases act; rw [h2] at task'; cases task'; exact absurd rfl (h7 _ _)
    | subscribeIn t' ret' act task' => cases act; rw [h2] at task'; cases task'; exact absurd rfl h8
    | ask t' ret' task' n st act htask hask => cases act; rw [h2] at htask; cases htask; exact absurd hask (h4 n)
    | op q st act => rcases act with act | act <;> cases act
  cases ts with
  | minor _ _ new tasks own noreq noask norun =>
    refine idle new tasks ?_ (countP_own i own) norun
    rw [askWork_own i own]
    cases a with
    | frame f r =>
      cases f with
      | requestN f => simp only [askedNow, noask f r rfl]; rfl
      | _ => rfl
    | _ => rfl
  | asked f r j _ str same =>
    refine idle [.doRequest j f.n.toNat] (by rw [same]; rfl) ?_ (by simp [isSubTask]) (by simp)
    simp only [askWork, List.map_cons, List.map_nil, List.sum_cons, List.sum_nil, askWeight, askedNow, str, Option.some.injEq]
    split <;> omega
  | request f r k hk =>
    exact idle [.request k f.streamID f.data f.metadata f.initialN] rfl rfl (by simp [isSubTask]) (by simp)
  | stream t ret k id data md n _ task objs tasks =>
    have hne : s.objs.length ≠ i := by omega
    refine other t ret _ _ rfl task tasks (fun _ hf => hf) ?_ ?_ (by simp) (by simp)
    · simp [askWork, askWeight, hne]
    · simp [isSubTask, hne]
  | serve t ret k id data md n _ task tasks objs =>
    exact other t ret _ [] rfl task (by rw [tasks, List.append_nil]) (fun _ hf => hf) rfl rfl (by simp) (by simp)
  | subscribe t ret j f n _ task tasks =>
    by_cases hj : j = i
    · subst hj
      have hw : askWork j s'.tasks = askWork j s.tasks + askedNow j s (.run t ret) := by
        rw [tasks, askWork_append, askWork_erase j task]
        simp [askWork, askWeight, askedNow]
      have hc : s.tasks.countP (isSubTask j) = s'.tasks.countP (isSubTask j) + 1 := by
        rw [tasks, List.countP_append, countP_erase _ task]
        simp [isSubTask]
      cases ss with
      | same sub hnone => exact keep sub hnone hw (by omega)
      | subscribe t' ret' f' n' act task' sub hnone =>
        have h0 : askPot (replySub o') = 0 := by rw [sub]; rfl
        have h1 : 0 ≤ askPot (replySub o) := by
          cases replySub o with
          | none => exact Int.le_refl _
          | some st => simp only [askPot]; split <;> omega
        refine ⟨⟨inst, nonneg⟩, by rw [h0, hnone, hw, List.sum_nil]; omega, fun he _ => ?_⟩
        rcases he.once with h2 | ⟨h2, h3, -⟩
        · omega
        · refine ⟨⟨?_, .inl (by omega)⟩, ?_⟩
          · intro st hst _; rw [sub] at hst; cases hst; exact Int.le_refl _
          · rw [h0, h3, hnone, hw, List.sum_nil]; simp only [askPot]; omega
      | subscribeIn t' ret' act task' => cases act; rw [task] at task'; cases task'
      | ask t' ret' task' n' st act htask hask => cases act; rw [task] at htask; cases htask; cases hask
      | op q st act => rcases act with act | act <;> cases act
    · refine other t ret _ _ rfl task tasks (fun _ => id) ?_ (by simp [isSubTask]) ?_ (by simp)
      · simp [askWork, askWeight, hj]
      · intro f n hc; cases hc; exact hj rfl
  | run t ret task _ new htask h1 h2 tasks own =>
    have hnew : askWork i new = 0 := askWork_own i own
    have hcn : new.countP (isSubTask i) = 0 := countP_own i own
    by_cases hk : ∃ n, askTask i n task
    · obtain ⟨n, hk⟩ := hk
      have hw : askWork i s'.tasks + n = askWork i s.tasks := by
        rw [tasks, askWork_append, askWork_erase i htask, askTask_weight hk, hnew]; omega
      have hc : s'.tasks.countP (isSubTask i) = s.tasks.countP (isSubTask i) := by
        rw [tasks, List.countP_append, countP_erase _ htask, askTask_sub hk, hcn]; rfl
      have hn : 0 ≤ n := by
        cases task with
        | firstRequest j f m => obtain ⟨-, rfl⟩ := hk; omega
        | doRequest j m => obtain ⟨-, rfl⟩ := hk; exact ok.nonneg _ _ (List.mem_of_getElem? htask)
        | _ => cases hk
      cases ss with
      | same sub hnone hno => exact absurd hk (hno t ret task n rfl htask)
      | subscribe t' ret' f' n' act task' => cases act; rw [htask] at task'; cases task'; cases hk
      | subscribeIn t' ret' act task' => cases act; rw [htask] at task'; cases task'; cases hk
      | op q st act => rcases act with act | act <;> cases act
      | ask t' ret' task' m st act htask' hask before sub asked =>
        cases act; rw [htask] at htask'; cases htask'
        have : m = n := by rw [← askTask_weight hk, ← askTask_weight hask]
        subst this
        obtain ⟨-, h5⟩ := sub_call st (ok.inst st before) (.call (.request m)) (.inr ⟨m, hn, rfl⟩)
        obtain ⟨h5, h6⟩ := h5 (by simp)
        have h5 : (upRequests (Flux.call (T := Pay) st (.request m)).2).sum + askPot (some (Flux.call (T := Pay) st (.request m)).1) ≤ askPot (some st) + m := h5
        refine ⟨⟨inst, nonneg⟩, ?_, fun he _ => ?_⟩
        · rw [sub, asked, before]; show _ ≤ _ + (0 : Int); omega
        · obtain ⟨h7, h8⟩ := h6 (by simp) (he.pos st before)
          have h7 : (upRequests (Flux.call (T := Pay) st (.request m)).2).sum + askPot (some (Flux.call (T := Pay) st (.request m)).1) = askPot (some st) + m := h7
          refine ⟨⟨?_, ?_⟩, ?_⟩
          · intro st' h9 h10; rw [sub] at h9; cases h9; exact h8 h10
          · rcases he.once with h9 | ⟨-, h9, -⟩
            · exact .inl (by omega)
            · rw [before] at h9; cases h9
          · rw [sub, asked, before]; show _ = _ + (0 : Int); omega
    · have hk : ∀ n, ¬ askTask i n task := fun n hn => hk ⟨n, hn⟩
      have hwt : askWeight i task = 0 := not_askTask_weight hk (h2 i)
      by_cases hin : task = .subscribeIn i
      · subst hin
        have hw : askWork i s'.tasks = askWork i s.tasks + askedNow i s (.run t ret) := by
          rw [tasks, askWork_append, askWork_erase i htask, hwt, hnew]; show _ = _ + (0 : Int); omega
        have hc : s'.tasks.countP (isSubTask i) = s.tasks.countP (isSubTask i) := by
          rw [tasks, List.countP_append, countP_erase _ htask, hcn]; rfl
        cases ss with
        | same sub hnone hno => exact keep sub hnone hw (Nat.le_of_eq hc)
        | subscribe t' ret' f' n' act task' => cases act; rw [htask] at task'; cases task'
        | ask t' ret' task' n' st act htask' hask => cases act; rw [htask] at htask'; cases htask'; cases hask
        | op q st act => rcases act with act | act <;> cases act
        | subscribeIn t' ret' act task' flux before sub hnone =>
          have h0 : askPot (replySub o') = 0 := by rw [sub]; rfl
          have h1 : askPot (replySub o) = 0 := by rw [before]; rfl
          refine ⟨⟨inst, nonneg⟩, by rw [h0, h1, hnone, hw, List.sum_nil]; omega, fun he _ => ⟨⟨?_, ?_⟩, by rw [h0, h1, hnone, hw, List.sum_nil]; omega⟩⟩
          · intro st hst _; rw [sub] at hst; cases hst; exact Int.le_refl _
          · rcases he.once with h2 | ⟨-, -, h2⟩
            · exact .inl (by omega)
            · obtain ⟨_, _, _, _, _, h3⟩ := flux
              rw [hi] at h3; cases h3; cases h2
      · exact other t ret task new rfl htask tasks hk (by rw [hnew, hwt]) hcn (h2 i) hin

/-! ## Whole histories -/

/-- The credit granted by the request-n frames for stream `x`. -/
def moreCredit (x : UInt32) (as : List Act) : Int :=
  (as.map fun | .frame (.requestN f) _ => if f.streamID = x then (f.n.toNat : Int) else 0 | _ => 0).sum

theorem moreCredit_append (x : UInt32) (a b : List Act) : moreCredit x (a ++ b) = moreCredit x a + moreCredit x b := by
  simp [moreCredit]

theorem hasRequest_step {s : St H} {i : Nat} {u u' : Option Flux.State} {a : Act} {e : List (Handler.Ev H)}
    (ss : SubStep i s a u u' e) (ha : isOnSub i a = false) (hin : ∀ st, u = some st → st.inst = replyInst)
    (h : ∀ st, u = some st → st.hasRequest = false) : ∀ st, u' = some st → st.hasRequest = false := by
  intro st' hst
  cases ss with
  | same sub => exact h st' (sub ▸ hst)
  | subscribe t ret f n act task sub => rw [sub] at hst; cases hst; rfl
  | subscribeIn t ret act task flux before sub => rw [sub] at hst; cases hst; rfl
  | ask t ret task n st act htask hask before sub => rw [sub] at hst; cases hst; exact h st before
  | op q st act before sub =>
    rw [sub] at hst; cases hst
    have h1 := h st before
    have hi := hin st before
    cases q with
    | onSubscribe c => rcases act with rfl | rfl <;> simp [isOnSub] at ha
    | next p =>
      simp only [SrcOp.op, Flux.step, Flux.next, Flux.onNext, Flux.handleOnSubscribe, hi, replyInst, Flux.calls]
      split
      · exact h1
      · simp only [if_true]; split <;> exact h1
    | complete =>
      simp only [SrcOp.op, Flux.step, Flux.complete, Flux.doFinally, hi, replyInst, Flux.calls]
      split
      · exact h1
      · simpa using h1
    | error x =>
      simp only [SrcOp.op, Flux.step, Flux.error, Flux.doFinally, hi, replyInst, Flux.calls]
      split
      · exact h1
      · simpa using h1

/-- Once the source has been asked, it stays known. -/
theorem asked_step {s : St H} {i : Nat} {u u' : Option Flux.State} {a : Act} {e : List (Handler.Ev H)} {before : List Int}
    (ss : SubStep i s a u u' e) (hin : ∀ st, u = some st → st.inst = replyInst)
    (hsub : ∀ f n, .subscribe i f n ∈ s.tasks → u = none)
    (h : before ≠ [] → ∃ st, u = some st ∧ st.hasRequest = true) :
    before ++ asks i e ≠ [] → ∃ st, u' = some st ∧ st.hasRequest = true := by
  intro hne
  cases ss with
  | same sub hnone => rw [hnone, List.append_nil] at hne; rw [sub]; exact h hne
  | subscribe t ret f n act task sub hnone =>
    rw [hnone, List.append_nil] at hne
    obtain ⟨st, h1, -⟩ := h hne
    rw [hsub f n (List.mem_of_getElem? task)] at h1; cases h1
  | subscribeIn t ret act task flux hb sub hnone =>
    rw [hnone, List.append_nil] at hne
    obtain ⟨st, h1, -⟩ := h hne
    rw [hb] at h1; cases h1
  | ask t ret task n st act htask hask hb sub asked =>
    refine ⟨_, sub, ?_⟩
    show st.hasRequest = true
    cases hr : st.hasRequest with
    | true => rfl
    | false =>
      have : asks i e = [] := by rw [asked]; simp [Flux.call, hr, upRequests]
      rw [this, List.append_nil] at hne
      obtain ⟨st', h1, h2⟩ := h hne
      rw [hb] at h1; cases h1; rw [hr] at h2; cases h2
  | op q st act hb sub asked =>
    refine ⟨_, sub, ?_⟩
    have hi := hin st hb
    have known : st.hasRequest = false → asks i e = [] → False := by
      intro hr h0
      rw [h0, List.append_nil] at hne
      obtain ⟨st', h1, h2⟩ := h hne
      rw [hb] at h1; cases h1; rw [hr] at h2; cases h2
    cases q with
    | onSubscribe c =>
      simp only [SrcOp.op, Flux.step] at asked ⊢
      split
      · rename_i hc
        cases hr : st.hasRequest with
        | true => rfl
        | false => simp only [hc, if_true] at asked; exact (known hr asked).elim
      · rfl
    | next p =>
      cases hr : st.hasRequest with
      | true =>
        simp only [SrcOp.op, Flux.step, Flux.next, Flux.onNext, Flux.handleOnSubscribe, hi, replyInst, Flux.calls]
        split
        · exact hr
        · simp only [if_true]; split <;> exact hr
      | false =>
        refine (known hr ?_).elim
        rw [asked]
        simp only [SrcOp.op, Flux.step, Flux.next, Flux.onNext, Flux.handleOnSubscribe, hi, replyInst, Flux.calls]
        split
        · rfl
        · simp only [if_true]; split <;> rfl
    | complete =>
      cases hr : st.hasRequest with
      | true =>
        simp only [SrcOp.op, Flux.step, Flux.complete, Flux.doFinally, hi, replyInst, Flux.calls]
        split
        · exact hr
        · simpa using hr
      | false =>
        refine (known hr ?_).elim
        rw [asked]
        simp only [SrcOp.op, Flux.step, Flux.complete]
        split
        · rfl
        · simp only [upRequests_append, upRequests_final, List.append_nil]
          have : (st.inst.onComplete) = true := by rw [hi]; rfl
          simp only [this, if_true, Flux.calls]; rfl
    | error x =>
      cases hr : st.hasRequest with
      | true =>
        simp only [SrcOp.op, Flux.step, Flux.error, Flux.doFinally, hi, replyInst, Flux.calls]
        split
        · exact hr
        · simpa using hr
      | false =>
        refine (known hr ?_).elim
        rw [asked]
        simp only [SrcOp.op, Flux.step, Flux.error]
        split
        · rfl
        · simp only [upRequests_append, upRequests_final, List.append_nil]
          have : (st.inst.onError) = true := by rw [hi]; rfl
          simp only [this, if_true, Flux.calls]; rfl

/-- What is known about the source of stream `i` (with the id of `o0`), `bs` after the state `s0`. -/
structure Asked (reg : Registry H) (client : Bool) (as : List Act) (s0 : St H) (t0 : List (Handler.Ev H)) (i : Nat)
    (o0 : Obj) (bs : List Act) (s : St H) (tr : List (Handler.Ev H)) (o : Obj) : Prop where
  obj : s.objs[i]? = some o
  key : o.key = o0.key
  tag : objTag o = objTag o0
  ok : AskOk i s (replySub o)
  fresh : bs.countP (isOnSub i) = 0 → ∀ st, replySub o = some st → st.hasRequest = false
  le : (asks i tr).sum + askWork i s.tasks + askPot (replySub o) ≤
    (asks i t0).sum + askWork i s0.tasks + askPot (replySub o0) + moreCredit o0.sid bs
  eq : AskExact i s0 o0 → asks i t0 = [] →
    (∀ b1 a b2, bs = b1 ++ a :: b2 → saysNext i a = true →
      ∀ s1 t1, Handler.run reg client (as ++ b1) = .ok (s1, t1) → asks i t1 ≠ []) →
    (∀ b1 f r b2, bs = b1 ++ .frame (.requestN f) r :: b2 → f.streamID = o0.sid →
      ∀ s1 t1, Handler.run reg client (as ++ b1) = .ok (s1, t1) → getStream s1 o0.sid = some i) →
    AskExact i s o ∧ (asks i tr ≠ [] → ∃ st, replySub o = some st ∧ st.hasRequest = true) ∧
    (asks i tr).sum + askWork i s.tasks + askPot (replySub o) =
      (asks i t0).sum + askWork i s0.tasks + askPot (replySub o0) + moreCredit o0.sid bs

theorem budget_run {reg : Registry H} {client : Bool} {as : List Act} {s0 : St H} {t0 : List (Handler.Ev H)} {i : Nat} {o0 : Obj}
    (h0 : Handler.run reg client as = .ok (s0, t0)) (ho0 : s0.objs[i]? = some o0) (hok : AskOk i s0 (replySub o0))
    (hfresh : ∀ st, replySub o0 = some st → st.hasRequest = false) (bs : List Act) : ∀ {s : St H} {tr : List (Handler.Ev H)},
    Handler.run reg client (as ++ bs) = .ok (s, tr) → bs.countP (isOnSub i) ≤ 1 →
    ∃ o, Asked reg client as s0 t0 i o0 bs s tr o := by
  induction bs using snoc_induction with
  | nil =>
    intro s tr h _
    rw [List.append_nil, h0] at h
    cases h
    refine ⟨o0, ho0, rfl, rfl, hok, fun _ => hfresh, by simp [moreCredit], fun h1 h2 _ _ => ⟨h1, fun h3 => absurd h2 h3, by simp [moreCredit]⟩⟩
  | snoc bs a ih =>
    intro s' tr' h hcount
    rw [← List.append_assoc] at h
    obtain ⟨s, tr, e, h1, h2, rfl⟩ := run_snoc_inv _ _ _ _ _ _ h
    rw [List.countP_append] at hcount
    obtain ⟨o, obj, key, tag, ok, fresh, le, eq⟩ := ih h1 (by omega)
    obtain ⟨o', obj', ss⟩ := sub_step obj a h2
    obtain ⟨o2, h3, h4⟩ := (loc_settle i s _ (loc_step i s a) s' e h2).1 _ obj
    rw [obj'] at h3; cases h3
    have hone : isOnSub i a = true → ∀ st, replySub o = some st → st.hasRequest = false := by
      intro ha
      refine fresh ?_
      simp only [List.countP_cons, List.countP_nil, ha, if_true] at hcount
      omega
    have B := budget_step obj (tag_run h4) (task_step a h2) ss ok hone
    have hnow : askedNow i s a ≤ moreCredit o0.sid [a] := by
      cases a with
      | frame f r =>
        cases f with
        | requestN f =>
          simp only [askedNow, moreCredit, List.map_cons, List.map_nil, List.sum_cons, List.sum_nil]
          split
          · rename_i hg
            obtain ⟨o3, q1, q2⟩ := opened_history _ _ _ _ _ h1 _ _ (getStream_opened _ _ _ _ _ h1 _ _ hg)
            rw [obj] at q1; cases q1
            have : f.streamID = o0.sid := q2.trans (congrArg Prod.snd key)
            rw [if_pos this]; omega
          · split <;> omega
        | _ => exact Int.le_refl _
      | _ => exact Int.le_refl _
    refine ⟨o', obj', (key_run h4).trans key, (tag_run h4).trans tag, B.ok, ?_, ?_, ?_⟩
    · intro hc
      rw [List.countP_append] at hc
      refine hasRequest_step ss ?_ ok.inst (fresh (by omega))
      cases ha : isOnSub i a with
      | false => rfl
      | true => simp [ha] at hc
    · have := B.le
      rw [asks_append, List.sum_append, moreCredit_append]
      omega
    · intro g1 g2 g3 g4
      obtain ⟨x1, x2, x3⟩ := eq g1 g2 (fun b1 a' b2 hb => g3 b1 a' (b2 ++ [a]) (by rw [hb]; simp))
        (fun b1 f r b2 hb => g4 b1 f r (b2 ++ [a]) (by rw [hb]; simp))
      have hsays : saysNext i a = true → ∀ st, replySub o = some st → st.hasRequest = true := by
        intro ha st hst
        obtain ⟨st', y1, y2⟩ := x2 (g3 bs a [] rfl ha s tr h1)
        rw [hst] at y1; cases y1; exact y2
      have hnow : askedNow i s a = moreCredit o0.sid [a] := by
        cases a with
        | frame f r =>
          cases f with
          | requestN f =>
            simp only [askedNow, moreCredit, List.map_cons, List.map_nil, List.sum_cons, List.sum_nil]
            by_cases hx : f.streamID = o0.sid
            · have := g4 bs f r [] rfl hx s tr h1
              rw [hx, if_pos this, if_pos rfl]; omega
            · rw [if_neg hx]
              split
              · rename_i hg
                obtain ⟨o3, q1, q2⟩ := opened_history _ _ _ _ _ h1 _ _ (getStream_opened _ _ _ _ _ h1 _ _ hg)
                rw [obj] at q1; cases q1
                exact absurd (q2.trans (congrArg Prod.snd key)) hx
              · rfl
          | _ => rfl
        | _ => rfl
      obtain ⟨y1, y2⟩ := B.eq x1 hsays
      refine ⟨y1, ?_, ?_⟩
      · rw [asks_append]
        refine asked_step ss ok.inst ?_ x2
        intro f n hm
        rcases x1.once with z | ⟨-, z, -⟩
        · have := List.countP_eq_zero.mp z _ hm
          simp [isSubTask] at this
        · exact z
      · rw [asks_append, List.sum_append, moreCredit_append]
        omega

end
end Verif.Props
