import Verif.Lemmas.Handler
import Verif.Props.Handler
/-
Property C56 over whole histories: every request is accounted for.
-/
set_option autoImplicit false
namespace Verif.Props
open Verif Frames Handler
open Verif.Invoke (Kind Registry)

section
variable {H : Type}

/-- What becomes of a request. -/
inductive Verdict (H : Type)
  | rejected (id : UInt32)
  | invoked (k : Kind) (h : H) (id : UInt32) (p : Pay)

/-- What has to become of a request of kind `k`: an error on its stream if its metadata is shorter
than 8 bytes or names no exported operation, an invocation of that operation otherwise. -/
def verdict (calls : List (Invoke.Call H)) (k : Kind) (id : UInt32) (data md : Bytes) : Verdict H :=
  if md.length < 8 then .rejected id
  else match (exportsOf k calls)[opIdOf md]? with
    | none => .rejected id
    | some (_, _, h) => .invoked k h id ⟨data, if k = .rr ∨ k = .fnf then md.drop 8 else md⟩

/-- The kind of a request frame, by its type code. -/
def requestKind (t : UInt8) : Option Kind :=
  if t = 4 then some .rr else if t = 5 then some .fnf else if t = 6 then some .rs
  else if t = 7 then some .rc else none

/-- What has to become of the request frames received. -/
def dueVerdicts (calls : List (Invoke.Call H)) : List Act → List (Verdict H)
  | [] => []
  | .frame (.request f) _ :: as =>
    (match requestKind f.frameType with
      | some k => [verdict calls k f.streamID f.data f.metadata]
      | none => []) ++ dueVerdicts calls as
  | _ :: as => dueVerdicts calls as

/-- What did become of requests, by the trace: invocations, and error frames sent on behalf of no
stream. -/
def verdicts : List (Handler.Ev H) → List (Verdict H)
  | [] => []
  | .invoked k h id p :: es => .invoked k h id p :: verdicts es
  | .sent none (.error f) :: es => .rejected f.streamID :: verdicts es
  | _ :: es => verdicts es

/-- What still has to become of requests whose goroutine has not run yet. -/
def openVerdicts (calls : List (Invoke.Call H)) : List Task → List (Verdict H)
  | [] => []
  | .request k id data md _ :: ts => verdict calls k id data md :: openVerdicts calls ts
  | _ :: ts => openVerdicts calls ts

theorem verdicts_append (a b : List (Handler.Ev H)) : verdicts (a ++ b) = verdicts a ++ verdicts b := by
  induction a with
  | nil => rfl
  | cons e a ih =>
    cases e
    case sent b f => cases b <;> cases f <;> simp [verdicts, ih]
    all_goals simp [verdicts, ih]

theorem openVerdicts_append (calls : List (Invoke.Call H)) (a b : List Task) :
    openVerdicts calls (a ++ b) = openVerdicts calls a ++ openVerdicts calls b := by
  induction a with
  | nil => rfl
  | cons e a ih => cases e <;> simp [openVerdicts, ih]

theorem verdicts_obj {i : Nat} {es : List (Handler.Ev H)} (h : ∀ e ∈ es, e.obj = some i) :
    verdicts es = [] := by
  induction es with
  | nil => rfl
  | cons e es ih =>
    have ih := ih fun x hx => h x (by simp [hx])
    have he := h e (by simp)
    cases e
    case sent b f =>
      simp only [Handler.Ev.obj] at he
      subst he
      cases f <;> simpa [verdicts] using ih
    all_goals first | (simp [Handler.Ev.obj] at he; done) | simpa [verdicts] using ih

theorem openVerdicts_obj (calls : List (Invoke.Call H)) {i : Nat} {ts : List Task}
    (h : ∀ t ∈ ts, t.obj = some i) : openVerdicts calls ts = [] := by
  induction ts with
  | nil => rfl
  | cons t ts ih =>
    have ih := ih fun x hx => h x (by simp [hx])
    have ht := h t (by simp)
    cases t <;> first | (simp [Task.obj] at ht; done) | simpa [openVerdicts] using ih

theorem openVerdicts_perm (calls : List (Invoke.Call H)) {a b : List Task} (h : a.Perm b) :
    (openVerdicts calls a).Perm (openVerdicts calls b) := by
  induction h with
  | nil => exact .refl _
  | cons x _ ih => cases x <;> simp only [openVerdicts] <;> first | exact ih | exact ih.cons _
  | swap x y l =>
    cases x <;> cases y <;> simp only [openVerdicts] <;> first | exact .refl _ | exact .swap ..
  | trans _ _ h1 h2 => exact h1.trans h2

/-- From `s`, with the requests `new` arriving, `x` accounts for everything. -/
def Acct (calls : List (Invoke.Call H)) (s : St H) (new : List (Verdict H)) (x : Go (Out H)) : Prop :=
  ∀ s' e, x = .ok (s', e) → s.reg = Invoke.run Registry.init calls → s'.reg = s.reg ∧
    (openVerdicts calls s.tasks ++ new).Perm (verdicts e ++ openVerdicts calls s'.tasks)

variable (calls : List (Invoke.Call H))

theorem acct_err (s : St H) (new : List (Verdict H)) (m : String) : Acct calls s new (.err m) := by
  intro _ _ h; cases h
theorem acct_panic (s : St H) (new : List (Verdict H)) : Acct calls s new .panic := by
  intro _ _ h; cases h

theorem acct_same (s s' : St H) (e : List (Handler.Ev H)) (hr : s'.reg = s.reg)
    (ht : openVerdicts calls s'.tasks = openVerdicts calls s.tasks) (he : verdicts e = []) :
    Acct calls s [] (.ok (s', e)) := by
  intro t f h _
  cases h
  exact ⟨hr, by simp [ht, he]⟩

theorem acct_nop (s : St H) : Acct calls s [] (.ok (s, [])) := acct_same _ _ _ _ rfl rfl rfl

theorem acct_at (i : Nat) (s s' : St H) (e : List (Handler.Ev H)) (ts : List Task) (hr : s'.reg = s.reg)
    (ht : s'.tasks = s.tasks ++ ts) (hts : ∀ t ∈ ts, t.obj = some i) (he : ∀ x ∈ e, x.obj = some i) :
    Acct calls s [] (.ok (s', e)) :=
  acct_same _ _ _ _ hr (by rw [ht, openVerdicts_append, openVerdicts_obj calls hts, List.append_nil])
    (verdicts_obj he)

theorem acct_andThen (s : St H) (a b : List (Verdict H)) (x : Go (Out H)) (f : St H → Go (Out H))
    (hx : Acct calls s a x) (hf : ∀ s', Acct calls s' b (f s')) :
    Acct calls s (a ++ b) (andThen x f) := by
  intro s' e h hr
  unfold andThen at h
  cases x with
  | ok p =>
    obtain ⟨t, e1⟩ := p
    simp only at h
    obtain ⟨h1, p1⟩ := hx t e1 rfl hr
    cases hft : f t with
    | ok q =>
      rw [hft] at h
      obtain ⟨u, e2⟩ := q
      cases h
      obtain ⟨h2, p2⟩ := hf t _ _ hft (h1.trans hr)
      refine ⟨h2.trans h1, ?_⟩
      rw [verdicts_append, ← List.append_assoc, List.append_assoc (verdicts e1)]
      refine (p1.append_right b).trans ?_
      rw [List.append_assoc]
      exact p2.append_left _
    | err m => rw [hft] at h; cases h
    | panic => rw [hft] at h; cases h
  | err m => cases h
  | panic => cases h

theorem acct_andThen0 (s : St H) (x : Go (Out H)) (f : St H → Go (Out H))
    (hx : Acct calls s [] x) (hf : ∀ s', Acct calls s' [] (f s')) : Acct calls s [] (andThen x f) :=
  acct_andThen calls s [] [] x f hx hf

theorem acct_of_ok {s : St H} {new : List (Verdict H)} {x : Go (Out H)}
    (h : ∀ s' e, x = .ok (s', e) → Acct calls s new (.ok (s', e))) : Acct calls s new x := by
  intro s' e hx
  exact h s' e hx s' e rfl

theorem acct_closing (id : UInt32) (s : St H) : Acct calls s [] (closing id s) := by
  refine acct_same _ _ _ _ ?_ ?_ rfl
  · unfold remove; split <;> rfl
  · unfold remove; split <;> rfl

theorem acct_deliver (i : Nat) (s : St H) (op : Flux.Op Pay) : Acct calls s [] (deliver s i op) := by
  unfold deliver
  split
  · exact acct_at calls i s _ _ _ rfl rfl (demandTasks_obj _ _) (demandEvs_obj _ _ _ (fun _ => rfl) _)
  · split
    · exact acct_at calls i s _ _ [] rfl (by simp [setObj]) (by simp) (mono_obj _ _)
    · exact acct_at calls i s _ _ [] rfl (by simp [setObj]) (by simp) (mono_obj _ _)
    · exact acct_nop _ _
  · dsimp only
    split
    · exact acct_at calls i s _ _ _ rfl rfl (demandTasks_obj _ _) (demandEvs_obj _ _ _ (fun _ => rfl) _)
    · exact acct_at calls i s _ _ [] rfl (by simp [setObj]) (by simp) (by simp)
  · exact acct_panic _ _ _

theorem requestKind_eq (t : UInt8) : kindOfType t = requestKind t := rfl

theorem acct_dispatch (s : St H) (r : React) (f : AnyFrame) (str : Option Nat) :
    Acct calls s (dueVerdicts calls [.frame f r]) (dispatch s r f str) := by
  unfold dispatch
  split
  · split
    · split
      · exact acct_same _ _ _ _ rfl rfl rfl
      · exact acct_err _ _ _ _
      · exact acct_panic _ _ _
    · exact acct_nop _ _
  · rename_i v _
    rw [requestKind_eq]
    split
    · rename_i k hk
      intro s' e h _
      cases h
      refine ⟨rfl, ?_⟩
      simp [dueVerdicts, hk, addTasks, openVerdicts_append, openVerdicts, verdicts]
    · rename_i hk
      simp only [dueVerdicts, hk]
      exact acct_nop _ _
  · split
    · rename_i v i _
      exact acct_at calls i s _ _ _ rfl rfl (by simp [Task.obj]) (by simp)
    · exact acct_panic _ _ _
  · exact acct_andThen0 _ _ _ _ (acct_deliver _ _ _ _) (acct_closing _ _)
  · refine acct_andThen0 _ _ _ _ ?_ ?_
    · split
      · exact acct_deliver _ _ _ _
      · exact acct_nop _ _
    · intro s'
      split
      · exact acct_andThen0 _ _ _ _ (acct_deliver _ _ _ _) (acct_closing _ _)
      · exact acct_nop _ _
  · exact acct_andThen0 _ _ _ _ (acct_deliver _ _ _ _)
      (fun s' => acct_andThen0 _ _ _ _ (acct_deliver _ _ _ _) (acct_closing _ _))
  · exact acct_panic _ _ _

theorem acct_handleFrame (s : St H) (f : AnyFrame) (r : React) :
    Acct calls s (dueVerdicts calls [.frame f r]) (handleFrame s f r) := by
  unfold handleFrame
  split
  · rename_i ht
    split
    · have : dueVerdicts calls [.frame f r] = [] := by
        cases f
        case request v _ =>
          simp only [AnyFrame.type] at ht
          have : requestKind v.frameType = none := by
            unfold requestKind
            repeat rw [if_neg]
            all_goals rintro h; rw [h] at ht; exact absurd ht (by decide)
          simp [dueVerdicts, this]
        all_goals rfl
      rw [this]
      split
      · exact acct_err _ _ _ _
      · exact acct_nop _ _
    · exact acct_dispatch _ _ _ _ _
  · exact acct_dispatch _ _ _ _ _

theorem acct_serve (hc : fewCalls calls) (s : St H) (k : Kind) (id : UInt32) (data md : Bytes)
    (n : UInt32) (ret : Ret) :
    Acct calls s [verdict calls k id data md] (serve s k id data md n ret) := by
  intro s' e h hreg
  unfold serve at h
  unfold verdict
  split at h
  · rename_i hl
    cases h
    refine ⟨rfl, ?_⟩
    simp only [hl, if_true, verdicts, errorFrame]
    exact List.perm_append_comm
  · rename_i hl
    obtain ⟨op, h1, h2⟩ := getU32_take md (by omega)
    simp only [h1, Go.bind_ok, hreg, C18_handler_lookup calls hc, h2] at h
    simp only [hl, if_false]
    cases hh : (exportsOf k calls)[opIdOf md]? with
    | none =>
      simp only [hh, Option.map_none] at h
      cases h
      refine ⟨rfl, ?_⟩
      simp only [verdicts, errorFrame]
      exact List.perm_append_comm
    | some x =>
      obtain ⟨ns, opn, hd⟩ := x
      simp only [hh, Option.map_some] at h
      cases k with
      | rr =>
        simp only at h
        obtain ⟨es, he, h⟩ := bind_ok_inv h
        cases h
        refine ⟨hreg.symm, ?_⟩
        simp only [verdicts, verdicts_obj (answerEvs_obj _ _ _ _ he)]
        simpa using (List.perm_append_comm (l₁ := openVerdicts calls s.tasks) (l₂ := [_]))
      | fnf =>
        dsimp only at h
        split at h
        · cases h
          refine ⟨by rw [← hreg]; unfold register; split <;> rfl, ?_⟩
          simp only [verdicts, register_tasks]
          exact List.perm_append_comm
        · cases h
          exact ⟨hreg.symm, List.perm_append_comm⟩
      | rs =>
        dsimp only at h
        split at h
        · cases h
          refine ⟨by rw [← hreg]; simp only [addTasks]; unfold register; split <;> rfl, ?_⟩
          simp only [verdicts, addTasks, register_tasks, openVerdicts_append, openVerdicts, List.append_nil]
          exact List.perm_append_comm
        · cases h
          refine ⟨hreg.symm, ?_⟩
          simp only [verdicts, addTasks, openVerdicts_append, openVerdicts, List.append_nil]
          exact List.perm_append_comm
      | rc =>
        dsimp only at h
        split at h
        · cases h
          refine ⟨by rw [← hreg]; simp only [addTasks]; unfold register; split <;> rfl, ?_⟩
          simp only [verdicts, addTasks, register_tasks, openVerdicts_append, openVerdicts, List.append_nil]
          exact List.perm_append_comm
        · cases h
          refine ⟨hreg.symm, ?_⟩
          simp only [verdicts, addTasks, openVerdicts_append, openVerdicts, List.append_nil]
          exact List.perm_append_comm

theorem acct_onOut (s : St H) (i : Nat) (k : Kind) (id : UInt32) (f : Src) (b : Bool)
    (inp : Option Flux.State) (r : Flux.State × List (Flux.Ev Pay)) :
    Acct calls s [] (onOut s i k id f b inp r) := by
  apply acct_of_ok
  intro s' e h
  obtain ⟨hr, rfl⟩ := onOut_ok h
  exact acct_at calls i s _ _ [] rfl (by simp [setObj]) (by simp) (replyEvs_obj _ _ _ _ hr)

theorem acct_onInput (s : St H) (i : Nat) (req : RequestPayload) (a b : Bool) (f : Src)
    (sub : Option Flux.State) (r : Flux.State × List (Flux.Ev Pay)) :
    Acct calls s [] (onInput s i req a b f sub r) := by
  apply acct_of_ok
  intro s' e h
  obtain ⟨hr, rfl⟩ := onInput_ok h
  exact acct_at calls i s _ _ [] rfl (by simp [setObj]) (by simp) (replyEvs_obj _ _ _ _ hr)

theorem acct_runTask (hc : fewCalls calls) (s : St H) (ret : Ret) (task : Task) :
    Acct calls (pushed s task) [] (runTask s ret task) := by
  have weaken : ∀ x, openVerdicts calls [task] = [] → Acct calls s [] x →
      Acct calls (pushed s task) [] x := by
    intro x ht hx s' e h hr
    obtain ⟨h1, h2⟩ := hx s' e h hr
    refine ⟨h1, ?_⟩
    have : openVerdicts calls (pushed s task).tasks = openVerdicts calls [task] ++ openVerdicts calls s.tasks :=
      openVerdicts_append calls [task] s.tasks
    rw [this, ht, List.nil_append]; exact h2
  cases task with
  | request k id data md n =>
    intro s' e h hr
    obtain ⟨h1, h2⟩ := acct_serve calls hc s k id data md n ret s' e h hr
    refine ⟨h1, ?_⟩
    simp only [pushed, openVerdicts, List.append_nil]
    refine List.Perm.trans ?_ h2
    exact (List.perm_append_comm (l₁ := [_]) (l₂ := openVerdicts calls s.tasks))
  | subscribe i f n =>
    refine weaken _ rfl ?_
    simp only [runTask]
    split
    · apply acct_of_ok
      intro s' e h
      obtain ⟨hr, rfl⟩ := onOut_ok h
      exact acct_at calls i s _ _ [.firstRequest i f n] rfl rfl (by simp [Task.obj]) (replyEvs_obj _ _ _ _ hr)
    · exact acct_panic _ _ _
  | firstRequest i f n =>
    refine weaken _ rfl ?_
    simp only [runTask]
    split
    · split
      · exact acct_panic _ _ _
      · exact acct_onOut _ _ _ _ _ _ _ _ _
    · exact acct_panic _ _ _
  | doRequest i n =>
    refine weaken _ rfl ?_
    simp only [runTask]
    split
    · exact acct_onOut _ _ _ _ _ _ _ _ _
    · split
      · exact acct_panic _ _ _
      · exact acct_onInput _ _ _ _ _ _ _ _ _
    · exact acct_panic _ _ _
  | upRequest i n =>
    refine weaken _ rfl ?_
    simp only [runTask]
    split
    · exact acct_at calls i s _ _ [] rfl (by simp) (by simp) (by simp [Handler.Ev.obj])
    · split
      · exact acct_nop _ _
      · split
        · exact acct_at calls i s _ _ _ rfl rfl (by split <;> simp [Task.obj]) (by simp [Handler.Ev.obj])
        · exact acct_at calls i s _ _ [] rfl (by simp) (by simp) (by simp [Handler.Ev.obj])
    · exact acct_panic _ _ _
  | subscribeIn i =>
    refine weaken _ rfl ?_
    simp only [runTask]
    split
    · exact acct_onInput _ _ _ _ _ _ _ _ _
    · exact acct_panic _ _ _

theorem acct_step (hc : fewCalls calls) (s : St H) (a : Act) :
    Acct calls s (dueVerdicts calls [a]) (Handler.step s a) := by
  cases a with
  | frame f r => exact acct_handleFrame _ _ _ _
  | run t ret =>
    simp only [Handler.step, dueVerdicts]
    split
    · rename_i task ht
      intro s' e h hr
      obtain ⟨h1, h2⟩ := acct_runTask calls hc { s with tasks := s.tasks.eraseIdx t } ret task s' e h hr
      refine ⟨h1, ?_⟩
      refine List.Perm.trans ?_ h2
      exact (openVerdicts_perm calls (perm_eraseIdx _ _ _ ht)).append_right _
    · exact acct_nop _ _
  | answer i sig =>
    simp only [Handler.step, dueVerdicts]
    split
    · apply acct_of_ok
      intro s' e h
      obtain ⟨es, he, h⟩ := bind_ok_inv h
      cases h
      exact acct_at calls i s _ _ [] rfl (by simp [setObj]) (by simp) (answerEvs_obj _ _ _ _ he)
    · exact acct_nop _ _
  | out i op =>
    simp only [Handler.step, dueVerdicts]
    split
    · split
      · exact acct_nop _ _
      · exact acct_onOut _ _ _ _ _ _ _ _ _
    · exact acct_nop _ _
  | subscribeInp i inst start =>
    simp only [Handler.step, dueVerdicts]
    split
    · exact acct_at calls i s _ _ _ rfl rfl (demandTasks_obj _ _) (demandEvs_obj _ _ _ (fun _ => rfl) _)
    · exact acct_nop _ _
  | inpCall i c =>
    simp only [Handler.step, dueVerdicts]
    split
    · exact acct_at calls i s _ _ _ rfl rfl (demandTasks_obj _ _) (demandEvs_obj _ _ _ (fun _ => rfl) _)
    · exact acct_nop _ _
  | call k p input =>
    cases k <;> exact acct_same _ _ _ _ rfl rfl rfl
  | subscribeMono i inst =>
    simp only [Handler.step, dueVerdicts]
    split
    · refine acct_at calls i s _ _ [] ?_ ?_ (by simp) ?_
      · simp only [setObj]; unfold register; split <;> rfl
      · simp [setObj, register_tasks]
      · intro e he
        simp only [List.cons_append, List.mem_cons, List.mem_append, List.mem_map, List.not_mem_nil,
          or_false] at he
        rcases he with rfl | ⟨x, -, rfl⟩ | rfl <;> rfl
    · exact acct_nop _ _
  | subscribeFlux i inst start =>
    simp only [Handler.step, dueVerdicts]
    split
    · refine acct_at calls i s _ _ (demandTasks i (Flux.runFrom (.init inst [])
          [.onSubscribe true, .start start]).2) ?_ ?_ (demandTasks_obj i _) ?_
      · simp only [setObj, addTasks]; unfold register; split <;> rfl
      · exact congrArg (· ++ _) (register_tasks s _ i)
      · intro e he
        rcases List.mem_cons.mp he with rfl | he
        · rfl
        · exact demandEvs_obj _ _ _ (fun _ => rfl) _ _ he
    · exact acct_nop _ _
  | fluxCall i c =>
    simp only [Handler.step, dueVerdicts]
    split
    · exact acct_at calls i s _ _ _ rfl rfl (demandTasks_obj _ _) (demandEvs_obj _ _ _ (fun _ => rfl) _)
    · exact acct_nop _ _
  | input i op =>
    simp only [Handler.step, dueVerdicts]
    split
    · split
      · exact acct_nop _ _
      · exact acct_onInput _ _ _ _ _ _ _ _ _
    · exact acct_nop _ _

theorem step_err_frame (s : St H) (a : Act) (m : String) (h : Handler.step s a = .err m) :
    dueVerdicts calls [a] = [] ∨ ∃ f r, a = .frame (.request f) r := by
  cases a
  case frame f r => cases f <;> first | exact Or.inl rfl | exact Or.inr ⟨_, _, rfl⟩
  all_goals exact Or.inl rfl

theorem dispatch_request (s : St H) (f : RequestPayload) (r : React) (k : Kind)
    (hk : requestKind f.frameType = some k) (m : String) :
    Handler.step s (.frame (.request f) r) ≠ .err m := by
  have h1 : ¬ f.frameType ≥ typeRequestN := by
    unfold requestKind at hk
    intro h
    repeat' split at hk
    all_goals first
      | (rename_i e; rw [e] at h; exact absurd h (by decide))
      | cases hk
  simp only [Handler.step, handleFrame, AnyFrame.type, h1, if_false, dispatch, requestKind_eq, hk]
  intro h; cases h

theorem acct_settle (hc : fewCalls calls) (s : St H) (a : Act) :
    Acct calls s (dueVerdicts calls [a]) (settle s (Handler.step s a)) := by
  have h := acct_step calls hc s a
  cases hx : Handler.step s a with
  | ok p => rw [hx] at h; exact h
  | err m =>
    have : dueVerdicts calls [a] = [] := by
      rcases step_err_frame calls s a m hx with h | ⟨f, r, rfl⟩
      · exact h
      · cases hk : requestKind f.frameType with
        | none => simp [dueVerdicts, hk]
        | some k => exact absurd hx (dispatch_request s f r k hk m)
    rw [this]
    exact acct_same _ _ _ _ rfl rfl rfl
  | panic => exact acct_panic _ _ _

theorem due_cons (a : Act) (as : List Act) :
    dueVerdicts calls (a :: as) = dueVerdicts calls [a] ++ dueVerdicts calls as := by
  cases a
  case frame f r => cases f <;> simp [dueVerdicts]
  all_goals rfl

theorem acct_runFrom (hc : fewCalls calls) : ∀ (as : List Act) (s : St H),
    Acct calls s (dueVerdicts calls as) (runFrom s as)
  | [], s => acct_nop _ _
  | a :: as, s => by
    rw [due_cons]
    exact acct_andThen _ _ _ _ _ _ (acct_settle calls hc s a) (fun s' => acct_runFrom hc as s')

/-- C56 over histories: whatever happens in whatever order, what has to become of the requests
received is exactly (as a multiset) what has become of requests, plus what is still to come from
request goroutines that have not run yet. So no request is dropped, none is answered or invoked
twice, none invokes the wrong handler or passes the wrong payload. -/
theorem C56_accounted (hc : fewCalls calls) (client : Bool) (as : List Act) (s : St H)
    (tr : List (Handler.Ev H))
    (h : Handler.run (Invoke.run Registry.init calls) client as = .ok (s, tr)) :
    (dueVerdicts calls as).Perm (verdicts tr ++ openVerdicts calls s.tasks) :=
  (acct_runFrom calls hc as _ s tr h rfl).2

end

/-- Three requests in one history: one is served, one has short metadata, one is still pending. -/
def threeRequests : List Act :=
  [.frame (.request ⟨6, 1, eightZeros, [], false, false, 5⟩) noReact,
   .frame (.request ⟨4, 3, [1, 2], [], false, false, 5⟩) noReact,
   .frame (.request ⟨5, 5, eightZeros ++ [9], [8], false, false, 5⟩) noReact,
   .run 1 retCreated, .run 0 retCreated]

example : traceOf (Handler.run (Invoke.run Registry.init
      [.exp .rs [1] [2] (), .exp .fnf [1] [3] ()]) false threeRequests) =
    [.sent none (.error ⟨3, 0, bytesOf "Invalid metadata"⟩), .opened 1 0,
     .invoked .rs () 1 ⟨[], eightZeros⟩] := by decide +kernel

end Verif.Props
