import Verif.Lemmas.Handler
/-
Every step of one end of a connection (`Verif/Model/Handler.lean`) is of one of four shapes: it takes
in a request, runs a request goroutine, makes a call, or creates no stream and sends nothing but on
behalf of a stream that exists.
-/
set_option autoImplicit false
namespace Verif.Handler
open Verif Frames Invoke

section
variable {H : Type}

/-- The stream id of a stream. -/
def Obj.sid : Obj → UInt32
  | .answer id .. => id
  | .responder _ id .. => id
  | .mono req _ => req.streamID
  | .flux req .. => req.streamID

/-- Is it the stream of a call made at this end (and not of a request received)? -/
def Obj.own : Obj → Bool
  | .answer .. => false
  | .responder .. => false
  | .mono .. => true
  | .flux .. => true

def Obj.key (o : Obj) : Bool × UInt32 := (o.own, o.sid)

/-- The requests whose goroutine has not run yet. -/
def Task.isRequest : Task → Bool
  | .request .. => true
  | _ => false

def requestsOf (ts : List Task) : List Task := ts.filter Task.isRequest

/-- The frames sent on behalf of no stream: rejections and fire-and-forget requests. -/
def looseFrames (es : List (Ev H)) : List AnyFrame :=
  es.filterMap fun | .sent none f => some f | _ => none

theorem looseFrames_append (a b : List (Ev H)) : looseFrames (a ++ b) = looseFrames a ++ looseFrames b := by
  simp [looseFrames]

theorem requestsOf_append (a b : List Task) : requestsOf (a ++ b) = requestsOf a ++ requestsOf b := by
  simp [requestsOf]

theorem requestsOf_obj {i : Nat} {ts : List Task} (h : ∀ t ∈ ts, t.obj = some i) : requestsOf ts = [] := by
  apply List.filter_eq_nil_iff.mpr
  intro t ht
  have := h t ht
  cases t <;> simp [Task.obj] at this <;> simp [Task.isRequest]

theorem looseFrames_obj {i : Nat} {es : List (Ev H)} (h : ∀ e ∈ es, e.obj = some i) : looseFrames es = [] := by
  apply List.filterMap_eq_nil_iff.mpr
  intro e he
  have := h e he
  cases e with
  | sent b f => simp only [Ev.obj] at this; subst this; rfl
  | _ => rfl

/-- No stream comes into being, no request goroutine runs or starts, nothing is sent but on behalf
of a stream. -/
def Calm (s : St H) (x : Go (Out H)) : Prop :=
  ∀ s' e, x = .ok (s', e) → s'.objs.map Obj.key = s.objs.map Obj.key ∧
    requestsOf s'.tasks = requestsOf s.tasks ∧ looseFrames e = [] ∧ s'.reg = s.reg ∧
    s'.client = s.client ∧ s'.streamIDs = s.streamIDs

theorem calm_err (s : St H) (m : String) : Calm s (.err m) := by intro _ _ h; cases h
theorem calm_panic (s : St H) : Calm s .panic := by intro _ _ h; cases h
theorem calm_nop (s : St H) : Calm s (.ok (s, [])) := by
  intro _ _ h; cases h; exact ⟨rfl, rfl, rfl, rfl, rfl, rfl⟩

theorem calm_of_ok {s : St H} {x : Go (Out H)}
    (h : ∀ s' e, x = .ok (s', e) → Calm s (.ok (s', e))) : Calm s x := by
  intro s' e hx
  exact h s' e hx s' e rfl

theorem key_set {l : List Obj} {i : Nat} {o o' : Obj} (h : l[i]? = some o) (hs : o'.key = o.key) :
    (l.set i o').map Obj.key = l.map Obj.key := by
  rw [List.map_set, hs]
  apply List.ext_getElem?
  intro n
  by_cases hn : i = n
  · subst hn
    have hl := (List.getElem?_eq_some_iff.mp h).1
    rw [List.getElem?_set_self (by simpa using hl)]
    simp [h]
  · rw [List.getElem?_set_ne hn]

/-- Only stream `i` is touched. -/
theorem calm_at (i : Nat) (s s' : St H) (e : List (Ev H)) (o o' : Obj) (ts : List Task)
    (ho : s.objs[i]? = some o) (hob : s'.objs = s.objs.set i o') (hs : o'.key = o.key)
    (ht : s'.tasks = s.tasks ++ ts) (hts : ∀ t ∈ ts, t.obj = some i) (he : ∀ x ∈ e, x.obj = some i)
    (h1 : s'.reg = s.reg) (h2 : s'.client = s.client) (h3 : s'.streamIDs = s.streamIDs) :
    Calm s (.ok (s', e)) := by
  intro _ _ h
  cases h
  exact ⟨by rw [hob]; exact key_set ho hs,
    by rw [ht, requestsOf_append, requestsOf_obj hts, List.append_nil], looseFrames_obj he, h1, h2, h3⟩

theorem calm_andThen (s : St H) (x : Go (Out H)) (f : St H → Go (Out H)) (hx : Calm s x)
    (hf : ∀ s', Calm s' (f s')) : Calm s (andThen x f) := by
  intro s' e h
  unfold andThen at h
  cases x with
  | ok p =>
    obtain ⟨t, e1⟩ := p
    simp only at h
    obtain ⟨a1, a2, a3, a4, a5, a6⟩ := hx t e1 rfl
    cases hft : f t with
    | ok q =>
      rw [hft] at h
      obtain ⟨u, e2⟩ := q
      cases h
      obtain ⟨b1, b2, b3, b4, b5, b6⟩ := hf t _ _ hft
      exact ⟨b1.trans a1, b2.trans a2, by rw [looseFrames_append, a3, b3]; rfl, b4.trans a4, b5.trans a5,
        b6.trans a6⟩
    | err m => rw [hft] at h; cases h
    | panic => rw [hft] at h; cases h
  | err m => cases h
  | panic => cases h

theorem remove_fields (s : St H) (id : UInt32) : (remove s id).objs = s.objs ∧
    (remove s id).tasks = s.tasks ∧ (remove s id).reg = s.reg ∧ (remove s id).client = s.client ∧
    (remove s id).streamIDs = s.streamIDs := by
  unfold remove; split <;> exact ⟨rfl, rfl, rfl, rfl, rfl⟩

theorem register_fields (s : St H) (id : UInt32) (j : Nat) : (register s id j).objs = s.objs ∧
    (register s id j).tasks = s.tasks ∧ (register s id j).reg = s.reg ∧
    (register s id j).client = s.client ∧ (register s id j).streamIDs = s.streamIDs := by
  unfold register; split <;> exact ⟨rfl, rfl, rfl, rfl, rfl⟩

theorem calm_closing (id : UInt32) (s : St H) : Calm s (closing id s) := by
  intro _ _ h
  cases h
  obtain ⟨h1, h2, h3, h4, h5⟩ := remove_fields s id
  exact ⟨by rw [h1], by rw [h2], rfl, h3, h4, h5⟩

theorem calm_deliver (i : Nat) (s : St H) (op : Flux.Op Pay) : Calm s (deliver s i op) := by
  unfold deliver
  split
  · rename_i ho
    exact calm_at i s _ _ _ _ _ ho rfl rfl rfl (demandTasks_obj _ _) (demandEvs_obj _ _ _ (fun _ => rfl) _)
      rfl rfl rfl
  · rename_i ho
    split
    · exact calm_at i s _ _ _ _ [] ho rfl rfl (by simp [setObj]) (by simp) (mono_obj _ _) rfl rfl rfl
    · exact calm_at i s _ _ _ _ [] ho rfl rfl (by simp [setObj]) (by simp) (mono_obj _ _) rfl rfl rfl
    · exact calm_nop _
  · rename_i ho
    dsimp only
    split
    · exact calm_at i s _ _ _ _ _ ho rfl rfl rfl (demandTasks_obj _ _)
        (demandEvs_obj _ _ _ (fun _ => rfl) _) rfl rfl rfl
    · exact calm_at i s _ _ _ _ [] ho rfl rfl (by simp [setObj]) (by simp) (by simp) rfl rfl rfl
  · exact calm_panic _

/-- Does the action start something new: a request taken in, or a call? -/
def isRequestFrame : AnyFrame → Bool
  | .request f => (kindOfType f.frameType).isSome
  | _ => false

theorem calm_dispatch (s : St H) (r : React) (f : AnyFrame) (str : Option Nat)
    (hf : isRequestFrame f = false) : Calm s (dispatch s r f str) := by
  unfold dispatch
  split
  · split
    · split
      · intro _ _ h; cases h; exact ⟨rfl, rfl, rfl, rfl, rfl, rfl⟩
      · exact calm_err _ _
      · exact calm_panic _
    · exact calm_nop _
  · rename_i v _
    split
    · rename_i k hk
      simp [isRequestFrame, hk] at hf
    · exact calm_nop _
  · split
    · intro _ _ h
      cases h
      exact ⟨rfl, by simp [addTasks, requestsOf_append, requestsOf, Task.isRequest], rfl, rfl, rfl, rfl⟩
    · exact calm_panic _
  · exact calm_andThen _ _ _ (calm_deliver _ _ _) (calm_closing _)
  · refine calm_andThen _ _ _ ?_ ?_
    · split
      · exact calm_deliver _ _ _
      · exact calm_nop _
    · intro s'
      split
      · exact calm_andThen _ _ _ (calm_deliver _ _ _) (calm_closing _)
      · exact calm_nop _
  · exact calm_andThen _ _ _ (calm_deliver _ _ _)
      (fun s' => calm_andThen _ _ _ (calm_deliver _ _ _) (calm_closing _))
  · exact calm_panic _

theorem calm_handleFrame (s : St H) (f : AnyFrame) (r : React) (hf : isRequestFrame f = false) :
    Calm s (handleFrame s f r) := by
  unfold handleFrame
  split
  · split
    · split
      · exact calm_err _ _
      · exact calm_nop _
    · exact calm_dispatch _ _ _ _ hf
  · exact calm_dispatch _ _ _ _ hf

theorem handleFrame_request (s : St H) (f : RequestPayload) (r : React) (k : Kind)
    (hk : kindOfType f.frameType = some k) : handleFrame s (.request f) r =
      .ok (addTasks s [.request k f.streamID f.data f.metadata f.initialN], []) := by
  have h1 : ¬ f.frameType ≥ typeRequestN := by
    unfold kindOfType at hk
    intro h
    repeat' split at hk
    all_goals first
      | (rename_i e; rw [e] at h; exact absurd h (by decide))
      | cases hk
  simp only [handleFrame, AnyFrame.type, h1, if_false, dispatch, hk]

theorem calm_onOut (s : St H) (i : Nat) (k : Kind) (id : UInt32) (f : Src) (b : Bool)
    (inp : Option Flux.State) (r : Flux.State × List (Flux.Ev Pay)) (o : Obj)
    (ho : s.objs[i]? = some o) (hi : o.key = (false, id)) : Calm s (onOut s i k id f b inp r) := by
  apply calm_of_ok
  intro s' e h
  obtain ⟨hr, rfl⟩ := onOut_ok h
  exact calm_at i s _ _ _ _ [] ho rfl hi.symm (by simp [setObj]) (by simp) (replyEvs_obj _ _ _ _ hr) rfl rfl rfl

theorem calm_onInput (s : St H) (i : Nat) (req : RequestPayload) (a b : Bool) (f : Src)
    (sub : Option Flux.State) (r : Flux.State × List (Flux.Ev Pay)) (o : Obj)
    (ho : s.objs[i]? = some o) (hi : o.key = (true, req.streamID)) : Calm s (onInput s i req a b f sub r) := by
  apply calm_of_ok
  intro s' e h
  obtain ⟨hr, rfl⟩ := onInput_ok h
  exact calm_at i s _ _ _ _ [] ho rfl hi.symm (by simp [setObj]) (by simp) (replyEvs_obj _ _ _ _ hr) rfl rfl rfl

theorem calm_runTask (s : St H) (ret : Ret) (task : Task) (ht : task.isRequest = false) :
    Calm s (runTask s ret task) := by
  cases task with
  | request k id data md n => cases ht
  | subscribe i f n =>
    simp only [runTask]
    split
    · rename_i ho
      apply calm_of_ok
      intro s' e h
      obtain ⟨hr, rfl⟩ := onOut_ok h
      exact calm_at i s _ _ _ _ [.firstRequest i f n] ho rfl rfl rfl (by simp [Task.obj])
        (replyEvs_obj _ _ _ _ hr) rfl rfl rfl
    · exact calm_panic _
  | firstRequest i f n =>
    simp only [runTask]
    split
    · rename_i ho
      split
      · exact calm_panic _
      · exact calm_onOut _ _ _ _ _ _ _ _ _ ho rfl
    · exact calm_panic _
  | doRequest i n =>
    simp only [runTask]
    split
    · rename_i ho; exact calm_onOut _ _ _ _ _ _ _ _ _ ho rfl
    · rename_i ho
      split
      · exact calm_panic _
      · exact calm_onInput _ _ _ _ _ _ _ _ _ ho rfl
    · exact calm_panic _
  | upRequest i n =>
    simp only [runTask]
    split
    · rename_i ho
      exact calm_at i s _ _ _ _ [] ho (set_self ho) rfl (by simp) (by simp) (by simp [Ev.obj]) rfl rfl rfl
    · rename_i ho
      split
      · exact calm_nop _
      · split
        · exact calm_at i s _ _ _ _ _ ho rfl rfl rfl (by split <;> simp [Task.obj]) (by simp [Ev.obj])
            rfl rfl rfl
        · exact calm_at i s _ _ _ _ [] ho (set_self ho) rfl (by simp) (by simp) (by simp [Ev.obj]) rfl rfl rfl
    · exact calm_panic _
  | subscribeIn i =>
    simp only [runTask]
    split
    · rename_i ho; exact calm_onInput _ _ _ _ _ _ _ _ _ ho rfl
    · exact calm_panic _

theorem ok_of_bind {α β : Type} {x : Go α} {k : α → Go β} {b : β} (h : (x >>= k) = .ok b) :
    ∃ a, x = .ok a ∧ k a = .ok b := by
  cases x with
  | ok a => exact ⟨a, rfl, h⟩
  | err m => cases h
  | panic => cases h

/-- The shapes of a step (with an error of `HandleFrame` noted). -/
inductive Shape (s : St H) : Act → St H → List (Ev H) → Prop
  | calm (a s' e) (h1 : s'.objs.map Obj.key = s.objs.map Obj.key)
      (h2 : (requestsOf s'.tasks) = (requestsOf s.tasks)) (h3 : looseFrames e = [])
      (h4 : s'.reg = s.reg) (h5 : s'.client = s.client) (h6 : s'.streamIDs = s.streamIDs)
      (h7 : ∀ f r, a = .frame f r → isRequestFrame f = false)
      (h8 : ∀ k p i, a ≠ .call k p i) : Shape s a s' e
  | request (f : RequestPayload) (r : React) (k : Kind) (hk : kindOfType f.frameType = some k) :
      Shape s (.frame (.request f) r)
        (addTasks s [.request k f.streamID f.data f.metadata f.initialN]) []
  | serve (t : Nat) (ret : Ret) (k : Kind) (id : UInt32) (data md : Bytes) (n : UInt32) (s' e)
      (ht : s.tasks[t]? = some (.request k id data md n))
      (h : serve { s with tasks := s.tasks.eraseIdx t } k id data md n ret = .ok (s', e)) :
      Shape s (.run t ret) s' e
  | call (k : Kind) (p : Pay) (input : Src) :
      Shape s (.call k p input) (call s k p input).1 (call s k p input).2

theorem requestsOf_eraseIdx {ts : List Task} {t : Nat} {task : Task} (h : ts[t]? = some task)
    (hr : task.isRequest = false) : requestsOf (ts.eraseIdx t) = requestsOf ts := by
  induction ts generalizing t with
  | nil => simp
  | cons x ts ih =>
    cases t with
    | zero => simp at h; subst h; simp [requestsOf, hr]
    | succ t =>
      simp only [List.getElem?_cons_succ] at h
      have := ih h
      simp only [requestsOf, List.eraseIdx_cons_succ, List.filter_cons] at this ⊢
      rw [this]

theorem shape_of_calm {s s' : St H} {a : Act} {e : List (Ev H)} {x : Go (Out H)} (hc : Calm s x)
    (h : x = .ok (s', e)) (h7 : ∀ f r, a = .frame f r → isRequestFrame f = false)
    (h8 : ∀ k p i, a ≠ .call k p i) : Shape s a s' e := by
  obtain ⟨h1, h2, h3, h4, h5, h6⟩ := hc s' e h
  exact .calm _ _ _ h1 h2 h3 h4 h5 h6 h7 h8

theorem step_shape (s s' : St H) (a : Act) (e : List (Ev H)) (h : step s a = .ok (s', e)) :
    Shape s a s' e := by
  cases a with
  | frame f r =>
    rcases (Bool.eq_false_or_eq_true (isRequestFrame f)).symm with hf | hf
    · refine shape_of_calm (calm_handleFrame s f r hf) h ?_ (fun _ _ _ h => by cases h)
      intro f' r' e; cases e; exact hf
    · cases f with
      | request v =>
        obtain ⟨k, hk⟩ := Option.isSome_iff_exists.mp hf
        simp only [step, handleFrame_request s v r k hk] at h
        cases h
        exact .request v r k hk
      | _ => cases hf
  | run t ret =>
    simp only [step] at h
    split at h
    · rename_i task ht
      rcases (Bool.eq_false_or_eq_true task.isRequest).symm with hr | hr
      · obtain ⟨h1, h2, h3, h4, h5, h6⟩ := calm_runTask _ ret task hr s' e h
        exact .calm _ _ _ h1 (h2.trans (requestsOf_eraseIdx ht hr)) h3 h4 h5 h6
          (fun _ _ h => by cases h) (fun _ _ _ h => by cases h)
      · cases task with
        | request k id data md n => exact .serve t ret k id data md n s' e ht h
        | _ => cases hr
    · exact shape_of_calm (calm_nop s) h (fun _ _ h => by cases h) (fun _ _ _ h => by cases h)
  | answer i sig =>
    refine shape_of_calm (x := step s (.answer i sig)) ?_ h (fun _ _ h => by cases h) (fun _ _ _ h => by cases h)
    simp only [step]
    split
    · rename_i ho
      apply calm_of_ok
      intro s' e h
      obtain ⟨es, he, h⟩ := ok_of_bind h
      cases h
      exact calm_at i s _ _ _ _ [] ho rfl rfl (by simp [setObj]) (by simp) (answerEvs_obj _ _ _ _ he) rfl rfl rfl
    · exact calm_nop _
  | out i op =>
    refine shape_of_calm (x := step s (.out i op)) ?_ h (fun _ _ h => by cases h) (fun _ _ _ h => by cases h)
    simp only [step]
    split
    · rename_i ho
      split
      · exact calm_nop _
      · exact calm_onOut _ _ _ _ _ _ _ _ _ ho rfl
    · exact calm_nop _
  | subscribeInp i inst start =>
    refine shape_of_calm (x := step s (.subscribeInp i inst start)) ?_ h (fun _ _ h => by cases h)
      (fun _ _ _ h => by cases h)
    simp only [step]
    split
    · rename_i ho
      exact calm_at i s _ _ _ _ _ ho rfl rfl rfl (demandTasks_obj _ _) (demandEvs_obj _ _ _ (fun _ => rfl) _)
        rfl rfl rfl
    · exact calm_nop _
  | inpCall i c =>
    refine shape_of_calm (x := step s (.inpCall i c)) ?_ h (fun _ _ h => by cases h) (fun _ _ _ h => by cases h)
    simp only [step]
    split
    · rename_i ho
      exact calm_at i s _ _ _ _ _ ho rfl rfl rfl (demandTasks_obj _ _) (demandEvs_obj _ _ _ (fun _ => rfl) _)
        rfl rfl rfl
    · exact calm_nop _
  | call k p input =>
    have h' : call s k p input = (s', e) := Go.ok.inj h
    have e1 : s' = (call s k p input).1 := by rw [h']
    have e2 : e = (call s k p input).2 := by rw [h']
    rw [e1, e2]
    exact .call k p input
  | subscribeMono i inst =>
    refine shape_of_calm (x := step s (.subscribeMono i inst)) ?_ h (fun _ _ h => by cases h)
      (fun _ _ _ h => by cases h)
    simp only [step]
    split
    · rename_i req proc ho
      obtain ⟨f1, f2, f3, f4, f5⟩ := register_fields s req.streamID i
      refine calm_at i s _ _ _ (.mono req (proc.step (.subscribe inst)).1) [] ho
        (by simp only [setObj, f1]) rfl (by simp [setObj, f2]) (by simp) ?_ f3 f4 f5
      intro e he
      simp only [List.cons_append, List.mem_cons, List.mem_append, List.mem_map, List.not_mem_nil,
        or_false] at he
      rcases he with rfl | ⟨x, -, rfl⟩ | rfl <;> rfl
    · exact calm_nop _
  | subscribeFlux i inst start =>
    refine shape_of_calm (x := step s (.subscribeFlux i inst start)) ?_ h (fun _ _ h => by cases h)
      (fun _ _ _ h => by cases h)
    simp only [step]
    split
    · rename_i req first complete input ho
      obtain ⟨f1, f2, f3, f4, f5⟩ := register_fields s req.streamID i
      refine calm_at i s _ _ _ (.flux req first complete input (some (Flux.runFrom (.init inst [])
          [(.onSubscribe true : Flux.Op Pay), .start start]).1)) (demandTasks i (Flux.runFrom (.init inst [])
          [.onSubscribe true, .start start]).2) ho
        (by simp only [setObj, addTasks, f1]) rfl ?_ (demandTasks_obj i _) ?_ f3 f4 f5
      · exact congrArg (· ++ _) f2
      · intro e he
        rcases List.mem_cons.mp he with rfl | he
        · rfl
        · exact demandEvs_obj _ _ _ (fun _ => rfl) _ _ he
    · exact calm_nop _
  | fluxCall i c =>
    refine shape_of_calm (x := step s (.fluxCall i c)) ?_ h (fun _ _ h => by cases h) (fun _ _ _ h => by cases h)
    simp only [step]
    split
    · rename_i ho
      exact calm_at i s _ _ _ _ _ ho rfl rfl rfl (demandTasks_obj _ _) (demandEvs_obj _ _ _ (fun _ => rfl) _)
        rfl rfl rfl
    · exact calm_nop _
  | input i op =>
    refine shape_of_calm (x := step s (.input i op)) ?_ h (fun _ _ h => by cases h) (fun _ _ _ h => by cases h)
    simp only [step]
    split
    · rename_i ho
      split
      · exact calm_nop _
      · exact calm_onInput _ _ _ _ _ _ _ _ _ ho rfl
    · exact calm_nop _

/-- The same with an error of `HandleFrame` noted. -/
theorem settle_shape (s s' : St H) (a : Act) (e : List (Ev H)) (h : settle s (step s a) = .ok (s', e)) :
    Shape s a s' e := by
  cases hx : step s a with
  | ok p => rw [hx] at h; cases h; exact step_shape _ _ _ _ hx
  | panic => rw [hx] at h; cases h
  | err m =>
    rw [hx] at h
    cases h
    refine .calm _ _ _ rfl rfl rfl rfl rfl rfl ?_ ?_
    · rintro f r rfl
      rcases (Bool.eq_false_or_eq_true (isRequestFrame f)).symm with hf | hf
      · exact hf
      · cases f with
        | request v =>
          obtain ⟨k, hk⟩ := Option.isSome_iff_exists.mp hf
          simp only [step, handleFrame_request s v r k hk] at hx
          cases hx
        | _ => cases hf
    · rintro k p i rfl
      cases hx

end
end Verif.Handler
