import Verif.Props.SystemIds
/-
How requests are served at one end of a connection: where each answer comes from, and what is sent
for a request/response request.
-/
set_option autoImplicit false
namespace Verif.Props
open Verif Frames Handler
open Verif.Invoke (Kind Registry getHandler)

section
variable {H : Type}

/-! ## Registrations have different ids -/

/-- An id is used once, if the peer's requests have different ids of the peer's. -/
theorem uses_id (x : UInt32) {reg : Registry H} {client : Bool} {as : List Act}
    {s : St H} {tr : List (Handler.Ev H)} (h : Handler.run reg client as = .ok (s, tr))
    (hc : callCount as < 2 ^ 30) (hr : (requestIds as).Nodup)
    (hf : ∀ y ∈ requestIds as, ownId client y = false) : uses (fun k => decide (k.2 = x)) s tr ≤ 1 := by
  rw [uses_due _ h]
  obtain ⟨h1, h2⟩ := callIds_own client as hc
  have h3 := nodup_filter_le h1 x
  have h4 := nodup_filter_le hr x
  rcases (Bool.eq_false_or_eq_true (ownId client x)).symm with ho | ho
  · have : ((callIds client 0 as).filter fun y => decide (y = x)) = [] := by
      apply List.filter_eq_nil_iff.mpr
      intro a ha hax
      have hax : a = x := by simpa using hax
      have := h2 a ha
      rw [hax, ho] at this; cases this
    rw [this]; simpa using h4
  · have : ((requestIds as).filter fun y => decide (y = x)) = [] := by
      apply List.filter_eq_nil_iff.mpr
      intro a ha hax
      have hax : a = x := by simpa using hax
      have := hf a ha
      rw [hax, ho] at this; cases this
    rw [this]; simpa using h3

theorem id_source (x : UInt32) {reg : Registry H} {client : Bool} {as : List Act}
    {s : St H} {tr : List (Handler.Ev H)} (h : Handler.run reg client as = .ok (s, tr))
    (hu : uses (fun k => decide (k.2 = x)) s tr ≤ 1) :
    ∃ b0, ∀ b f, .sent b f ∈ tr → f.streamID = x → b = b0 := by
  obtain ⟨b0, h0⟩ := one_source h hu (fun f => decide (f.streamID = x))
    (fun f hf hq => by simpa [looseKey_id] using hq)
    (by
      intro j f o hj ho hq
      obtain ⟨o', h1, h2, -⟩ := sent_history reg client as s tr h j f hj
      rw [ho] at h1; cases h1
      simpa [Obj.key, ← h2] using hq)
    (fun j f hj => by obtain ⟨o, h1, -⟩ := sent_history reg client as s tr h j f hj; exact ⟨o, h1⟩)
  exact ⟨b0, fun b f hb hf => h0 b f hb (by simpa using hf)⟩

theorem opened_count_le (x : UInt32) (j : Nat) (tr : List (Handler.Ev H))
    (h : ∀ i, .opened x i ∈ tr → i = j) : (openedIds tr).count x ≤ (openedIds (evsOf j tr)).length := by
  induction tr with
  | nil => simp [openedIds]
  | cons e tr ih =>
    have ih := ih fun i hi => h i (List.mem_cons_of_mem _ hi)
    cases e with
    | opened id i =>
      have e1 : openedIds (.opened id i :: tr) = id :: openedIds tr := rfl
      rw [e1, List.count_cons]
      by_cases hid : id = x
      · subst hid
        have := h i (List.mem_cons_self ..)
        subst this
        have e2 : evsOf i (.opened id i :: tr) = .opened id i :: evsOf i tr := by simp [evsOf, Handler.Ev.obj]
        rw [e2]
        have e3 : openedIds (.opened id i :: evsOf i tr) = id :: openedIds (evsOf i tr) := rfl
        rw [e3, List.length_cons]
        simp; omega
      · have : (evsOf j tr).Sublist (evsOf j (.opened id i :: tr)) :=
          (List.sublist_cons_self _ _).filter _
        have := (this.filterMap (fun | Handler.Ev.opened id _ => some id | _ => none)).length_le
        simp only [beq_iff_eq, hid, if_false, Nat.add_zero]
        exact Nat.le_trans ih this
    | _ =>
      refine Nat.le_trans ih ?_
      exact (((List.sublist_cons_self _ _).filter _).filterMap _).length_le

theorem opened_nodup {reg : Registry H} {client : Bool} {as : List Act}
    {s : St H} {tr : List (Handler.Ev H)} (h : Handler.run reg client as = .ok (s, tr))
    (hc : callCount as < 2 ^ 30) (hs : subscribedOnce as) (hr : (requestIds as).Nodup)
    (hf : ∀ y ∈ requestIds as, ownId client y = false) : (openedIds tr).Nodup := by
  rw [List.nodup_iff_count]
  intro x
  have hu := uses_id x h hc hr hf
  rw [uses_parts] at hu
  by_cases hx : ∃ i, .opened x i ∈ tr
  · obtain ⟨j, hj⟩ := hx
    obtain ⟨o, h1, h2⟩ := opened_history reg client as s tr h j x hj
    have hone : ∀ i, .opened x i ∈ tr → i = j := by
      intro i hi
      obtain ⟨o', h3, h4⟩ := opened_history reg client as s tr h i x hi
      exact index_unique (p := fun o => decide (o.key.2 = x)) (by omega) h3 (by simp [Obj.key, h4])
        h1 (by simp [Obj.key, h2])
    refine Nat.le_trans (opened_count_le x j tr hone) ?_
    rcases k_history reg client as s tr h j with ⟨h3, -⟩ | ⟨o', h3, h4⟩
    · rw [h1] at h3; cases h3
    · have hcount := h4.counts
      cases o' with
      | answer => simp only [countsOk] at hcount; omega
      | responder => simp only [countsOk] at hcount; omega
      | mono req proc => exact Nat.le_trans (mono_opened reg client as s tr h j req proc h3) (hs j)
      | flux req first c input sub =>
        simp only [countsOk] at hcount
        have := hcount.1
        split at this <;> omega
  · have : (openedIds tr).count x = 0 := by
      rw [List.count_eq_zero]
      intro hm
      obtain ⟨e, h1, h2⟩ := List.mem_filterMap.mp hm
      cases e with
      | opened id i => simp at h2; subst h2; exact hx ⟨i, h1⟩
      | _ => cases h2
    omega

/-! ## A step leaves all streams alone but one -/

/-- The stream a step is about. -/
def actsOn (s : St H) : Act → Option Nat
  | .frame f _ => if f.type ≥ typeRequestN then getStream s f.streamID else none
  | .run t _ => (s.tasks[t]?).bind Task.obj
  | .answer j _ => some j
  | .out j _ => some j
  | .subscribeInp j .. => some j
  | .inpCall j _ => some j
  | .call .. => none
  | .subscribeMono j _ => some j
  | .subscribeFlux j .. => some j
  | .fluxCall j _ => some j
  | .input j _ => some j

def Idle (i : Nat) (s : St H) (x : Go (Out H)) : Prop :=
  ∀ s' e, x = .ok (s', e) → s'.objs[i]? = s.objs[i]? ∧ evsOf i e = []

theorem idle_err (i : Nat) (s : St H) (m : String) : Idle i s (.err m) := by intro _ _ h; cases h
theorem idle_panic (i : Nat) (s : St H) : Idle i s .panic := by intro _ _ h; cases h
theorem idle_nop (i : Nat) (s s' : St H) (ho : s'.objs = s.objs) : Idle i s (.ok (s', [])) := by
  intro _ _ h; cases h; exact ⟨by rw [ho], rfl⟩

theorem idle_at {i k : Nat} (hk : k ≠ i) {s s' : St H} {e : List (Handler.Ev H)} (o : Obj)
    (ho : s'.objs = s.objs.set k o) (he : ∀ ev ∈ e, ev.obj = some k) : Idle i s (.ok (s', e)) := by
  intro _ _ h
  cases h
  exact ⟨by rw [ho, List.getElem?_set_ne hk], evsOf_none hk he⟩

theorem idle_same {i k : Nat} (hk : k ≠ i) {s s' : St H} {e : List (Handler.Ev H)}
    (ho : s'.objs = s.objs) (he : ∀ ev ∈ e, ev.obj = some k) : Idle i s (.ok (s', e)) := by
  intro _ _ h
  cases h
  exact ⟨by rw [ho], evsOf_none hk he⟩

theorem idle_of_ok {i : Nat} {s : St H} {x : Go (Out H)}
    (h : ∀ s' e, x = .ok (s', e) → Idle i s (.ok (s', e))) : Idle i s x :=
  fun s' e hx => h s' e hx s' e rfl

theorem idle_andThen {i : Nat} {s : St H} {x : Go (Out H)} {f : St H → Go (Out H)} (hx : Idle i s x)
    (hf : ∀ s, Idle i s (f s)) : Idle i s (andThen x f) := by
  intro s' e h
  obtain ⟨s1, e1, e2, h1, h2, rfl⟩ := andThen_ok h
  obtain ⟨a1, a2⟩ := hx _ _ h1
  obtain ⟨b1, b2⟩ := hf _ _ _ h2
  exact ⟨b1.trans a1, by rw [evsOf_append, a2, b2]; rfl⟩

theorem idle_closing (i : Nat) (id : UInt32) (s : St H) : Idle i s (closing id s) := by
  intro _ _ h; cases h
  exact ⟨by rw [(remove_fields s id).1], rfl⟩

theorem idle_deliver {i k : Nat} (hk : k ≠ i) (s : St H) (op : Flux.Op Pay) : Idle i s (deliver s k op) := by
  unfold deliver
  split
  · exact idle_at hk _ rfl (demandEvs_obj _ _ _ (fun _ => rfl) _)
  · split
    · exact idle_at hk _ rfl (mono_obj _ _)
    · exact idle_at hk _ rfl (mono_obj _ _)
    · exact idle_nop _ _ _ rfl
  · rename_i sub _
    cases sub with
    | some st => exact idle_at hk _ rfl (demandEvs_obj _ _ _ (fun _ => rfl) _)
    | none => exact idle_at hk _ rfl (by simp)
  · exact idle_panic _ _

theorem idle_dispatch {i : Nat} (s : St H) (r : React) (f : AnyFrame) (str : Option Nat)
    (hk : str ≠ some i) : Idle i s (dispatch s r f str) := by
  have ne : ∀ k, str = some k → k ≠ i := by rintro k rfl rfl; exact hk rfl
  unfold dispatch
  split
  · split
    · split
      · exact idle_nop _ _ _ rfl
      · exact idle_err _ _ _
      · exact idle_panic _ _
    · exact idle_nop _ _ _ rfl
  · split
    · exact idle_nop _ _ _ rfl
    · exact idle_nop _ _ _ rfl
  · split
    · exact idle_nop _ _ _ rfl
    · exact idle_panic _ _
  · exact idle_andThen (idle_deliver (ne _ rfl) _ _) (fun s => idle_closing _ _ s)
  · refine idle_andThen ?_ ?_
    · split
      · exact idle_deliver (ne _ rfl) _ _
      · exact idle_nop _ _ _ rfl
    · intro s
      split
      · exact idle_andThen (idle_deliver (ne _ rfl) _ _) (fun s => idle_closing _ _ s)
      · exact idle_nop _ _ _ rfl
  · refine idle_andThen (idle_deliver (ne _ rfl) _ _) fun s => ?_
    exact idle_andThen (idle_deliver (ne _ rfl) _ _) (fun s => idle_closing _ _ s)
  · exact idle_panic _ _

theorem idle_onOut {i j : Nat} (hj : j ≠ i) (s s0 : St H) (hs : s.objs = s0.objs) (k : Kind) (id : UInt32) (f : Src) (b : Bool)
    (inp : Option Flux.State) (r : Flux.State × List (Flux.Ev Pay)) : Idle i s0 (onOut s j k id f b inp r) := by
  apply idle_of_ok
  intro s' e h
  obtain ⟨hr, rfl⟩ := onOut_ok h
  exact idle_at hj _ (by simp only [setObj, hs]; rfl) (replyEvs_obj _ _ _ _ hr)

theorem idle_onInput {i j : Nat} (hj : j ≠ i) (s s0 : St H) (hs : s.objs = s0.objs) (req : RequestPayload) (a b : Bool) (f : Src)
    (sub : Option Flux.State) (r : Flux.State × List (Flux.Ev Pay)) :
    Idle i s0 (onInput s j req a b f sub r) := by
  apply idle_of_ok
  intro s' e h
  obtain ⟨hr, rfl⟩ := onInput_ok h
  exact idle_at hj _ (by simp only [setObj, hs]; rfl) (replyEvs_obj _ _ _ _ hr)

theorem idle_runTask {i : Nat} (s s0 : St H) (hs : s.objs = s0.objs) (hi : i < s0.objs.length) (ret : Ret) (task : Task)
    (ht : task.obj ≠ some i) : Idle i s0 (runTask s ret task) := by
  have ne : ∀ k, task.obj = some k → k ≠ i := by rintro k hk rfl; exact ht hk
  cases task with
  | request k id data md n =>
    apply idle_of_ok
    intro s' e h
    intro _ _ h'
    cases h'
    have served := serve_served _ _ _ _ _ _ _ _ _ h
    have hnew : ∀ o, (s.objs ++ [o])[i]? = s0.objs[i]? := by
      intro o; rw [hs, List.getElem?_append_left hi]
    cases served with
    | short => exact ⟨by rw [hs], rfl⟩
    | unknown => exact ⟨by rw [hs], rfl⟩
    | rr op hd es h1 h2 h3 h4 he =>
      refine ⟨hnew _, ?_⟩
      rw [evsOf_cons_ne (by simp [Handler.Ev.obj])]
      exact evsOf_none (by rw [hs]; omega) (answerEvs_obj _ _ _ _ he)
    | other op hd _ _ h1 hk h3 h4 ho =>
      refine ⟨by rw [ho]; exact hnew _, ?_⟩
      simp only [runTask] at h
      unfold serve at h
      rw [if_neg h1] at h
      obtain ⟨op', ho', h⟩ := bind_ok_inv h
      rw [h3] at ho'; cases ho'
      rw [h4] at h
      dsimp only at h
      split at h
      · exact absurd rfl hk
      · split at h
        · cases h
          rw [hs, evsOf_cons_ne (by simp [Handler.Ev.obj]; omega), evsOf_cons_ne (by simp [Handler.Ev.obj])]
          rfl
        · cases h
          rw [evsOf_cons_ne (by simp [Handler.Ev.obj])]
          rfl
      · split at h
        · cases h
          rw [hs, evsOf_cons_ne (by simp [Handler.Ev.obj]; omega), evsOf_cons_ne (by simp [Handler.Ev.obj])]
          rfl
        · cases h
          rw [evsOf_cons_ne (by simp [Handler.Ev.obj])]
          rfl
  | subscribe j f n =>
    simp only [runTask]
    split
    · exact idle_onOut (ne j rfl) (addTasks s [.firstRequest j f n]) s0 hs _ _ _ _ _ _
    · exact idle_panic _ _
  | firstRequest j f n =>
    simp only [runTask]
    split
    · split
      · exact idle_panic _ _
      · exact idle_onOut (ne j rfl) _ _ hs _ _ _ _ _ _
    · exact idle_panic _ _
  | doRequest j n =>
    simp only [runTask]
    split
    · exact idle_onOut (ne j rfl) _ _ hs _ _ _ _ _ _
    · split
      · exact idle_panic _ _
      · exact idle_onInput (ne j rfl) _ _ hs _ _ _ _ _ _
    · exact idle_panic _ _
  | upRequest j n =>
    simp only [runTask]
    split
    · exact idle_same (ne j rfl) hs (by simp [Handler.Ev.obj])
    · split
      · exact idle_nop _ _ _ hs
      · split
        · exact idle_at (ne j rfl) _ (by simp only [addTasks, setObj, hs]; rfl) (by simp [Handler.Ev.obj])
        · exact idle_same (ne j rfl) hs (by simp [Handler.Ev.obj])
    · exact idle_panic _ _
  | subscribeIn j =>
    simp only [runTask]
    split
    · exact idle_onInput (ne j rfl) _ _ hs _ _ _ _ _ _
    · exact idle_panic _ _

theorem idle_step {i : Nat} (s : St H) (a : Act) (hi : i < s.objs.length) (ha : actsOn s a ≠ some i) :
    Idle i s (Handler.step s a) := by
  have ne : ∀ k, actsOn s a = some k → k ≠ i := by rintro k hk rfl; exact ha hk
  cases a with
  | frame f r =>
    simp only [Handler.step]
    unfold handleFrame
    simp only [actsOn] at ha
    split
    · rename_i ht
      rw [if_pos ht] at ha
      split
      · split
        · exact idle_err _ _ _
        · exact idle_nop _ _ _ rfl
      · rename_i j hg
        rw [hg] at ha
        exact idle_dispatch _ _ _ _ ha
    · exact idle_dispatch _ _ _ _ (by simp)
  | run t ret =>
    simp only [Handler.step]
    simp only [actsOn] at ha
    split
    · rename_i task ht
      rw [ht] at ha
      exact idle_runTask { s with tasks := s.tasks.eraseIdx t } s rfl hi ret task ha
    · exact idle_nop _ _ _ rfl
  | answer j sig =>
    simp only [Handler.step]
    split
    · apply idle_of_ok
      intro s' e h
      obtain ⟨es, he, h⟩ := bind_ok_inv h
      cases h
      exact idle_at (ne j rfl) _ rfl (answerEvs_obj _ _ _ _ he)
    · exact idle_nop _ _ _ rfl
  | out j op =>
    simp only [Handler.step]
    split
    · split
      · exact idle_nop _ _ _ rfl
      · exact idle_onOut (ne j rfl) _ _ rfl _ _ _ _ _ _
    · exact idle_nop _ _ _ rfl
  | subscribeInp j inst start =>
    simp only [Handler.step]
    split
    · exact idle_at (ne j rfl) _ rfl (demandEvs_obj _ _ _ (fun _ => rfl) _)
    · exact idle_nop _ _ _ rfl
  | inpCall j c =>
    simp only [Handler.step]
    split
    · exact idle_at (ne j rfl) _ rfl (demandEvs_obj _ _ _ (fun _ => rfl) _)
    · exact idle_nop _ _ _ rfl
  | call k p input =>
    simp only [Handler.step]
    intro s' e h
    have h' : Handler.call s k p input = (s', e) := Go.ok.inj h
    have e1 : s' = (Handler.call s k p input).1 := by rw [h']
    have e2 : e = (Handler.call s k p input).2 := by rw [h']
    rw [e1, e2]
    cases k
    · exact ⟨List.getElem?_append_left hi, rfl⟩
    · exact ⟨rfl, rfl⟩
    · exact ⟨List.getElem?_append_left hi, rfl⟩
    · exact ⟨List.getElem?_append_left hi, rfl⟩
  | subscribeMono j inst =>
    simp only [Handler.step]
    split
    · rename_i req proc ho
      refine idle_at (ne j rfl) _ (by simp only [setObj, register_objs]; rfl) ?_
      intro e he
      simp only [List.cons_append, List.mem_cons, List.mem_append, List.mem_map, List.not_mem_nil,
        or_false] at he
      rcases he with rfl | ⟨x, -, rfl⟩ | rfl <;> rfl
    · exact idle_nop _ _ _ rfl
  | subscribeFlux j inst start =>
    simp only [Handler.step]
    split
    · rename_i req first complete input ho
      refine idle_at (ne j rfl) _ (by simp only [addTasks, setObj, register_objs]; rfl) ?_
      intro e he
      rcases List.mem_cons.mp he with rfl | he
      · rfl
      · exact demandEvs_obj _ _ _ (fun _ => rfl) _ _ he
    · exact idle_nop _ _ _ rfl
  | fluxCall j c =>
    simp only [Handler.step]
    split
    · exact idle_at (ne j rfl) _ rfl (demandEvs_obj _ _ _ (fun _ => rfl) _)
    · exact idle_nop _ _ _ rfl
  | input j op =>
    simp only [Handler.step]
    split
    · split
      · exact idle_nop _ _ _ rfl
      · exact idle_onInput (ne j rfl) _ _ rfl _ _ _ _ _ _
    · exact idle_nop _ _ _ rfl

theorem idle_settle {i : Nat} (s : St H) (a : Act) (hi : i < s.objs.length) (ha : actsOn s a ≠ some i) :
    Idle i s (settle s (Handler.step s a)) := by
  have := idle_step s a hi ha
  cases hx : Handler.step s a with
  | ok p => rw [hx] at this; exact this
  | panic => exact idle_panic _ _
  | err m => intro _ _ h; cases h; exact ⟨rfl, rfl⟩

/-! ## Where answers come from -/

theorem key_step' {j : Nat} {o o' : Obj} {ts ts' : List Task} {es : List (Handler.Ev H)}
    (h : CStep j o ts o' ts' es) : o'.key = o.key := by
  cases h <;> rfl

theorem key_run {j : Nat} {o o' : Obj} {ts ts' : List Task} {es : List (Handler.Ev H)}
    (h : CRun j o ts o' ts' es) : o'.key = o.key := by
  induction h with
  | refl => rfl
  | perm _ _ _ _ _ _ ih => exact ih
  | step _ _ _ _ _ _ _ hs ih => exact (key_step' hs).trans ih

/-- A request goroutine ran at this point of the history. -/
structure RanAt (reg : Registry H) (client : Bool) (as as1 as2 : List Act) (t : Nat) (ret : Ret)
    (s1 : St H) (t1 : List (Handler.Ev H)) (k : Kind) (id : UInt32) (data md : Bytes) (n : UInt32) : Prop where
  split : as = as1 ++ .run t ret :: as2
  before : Handler.run reg client as1 = .ok (s1, t1)
  task : s1.tasks[t]? = some (.request k id data md n)

/-- The operation id at the head of the metadata, if there is one. -/
def namedOp (md : Bytes) : UInt32 := match getU32 md with | .ok op => op | _ => 0

/-- The request names an operation that is exported. -/
def exported (reg : Registry H) (k : Kind) (md : Bytes) : Option H :=
  if md.length < 8 then none else getHandler reg k (namedOp md)

theorem reg_run {reg : Registry H} {client : Bool} (as : List Act) : ∀ {s : St H} {tr : List (Handler.Ev H)},
    Handler.run reg client as = .ok (s, tr) → s.reg = reg := by
  induction as using snoc_induction with
  | nil => intro s tr h; cases h; rfl
  | snoc as a ih =>
    intro s' tr h
    obtain ⟨s, t, e, h1, h2, rfl⟩ := run_snoc_inv _ _ _ _ _ _ h
    exact (counter_step (settle_shape _ _ _ _ h2)).2.1.trans (ih h1)

theorem RanAt.extend {reg : Registry H} {client : Bool} {as as1 as2 : List Act} {t : Nat} {ret : Ret}
    {s1 : St H} {t1 : List (Handler.Ev H)} {k : Kind} {id : UInt32} {data md : Bytes} {n : UInt32}
    (h : RanAt reg client as as1 as2 t ret s1 t1 k id data md n) (a : Act) :
    RanAt reg client (as ++ [a]) as1 (as2 ++ [a]) t ret s1 t1 k id data md n :=
  ⟨by rw [h.split]; simp, h.before, h.task⟩

/-- Every stream that serves a request came into being when the request's goroutine ran. -/
theorem served_origin {reg : Registry H} {client : Bool} (as : List Act) : ∀ {s : St H}
    {tr : List (Handler.Ev H)}, Handler.run reg client as = .ok (s, tr) → ∀ (i : Nat) (o : Obj),
    s.objs[i]? = some o → o.own = false →
    ∃ as1 as2 t ret s1 t1 k data md n, RanAt reg client as as1 as2 t ret s1 t1 k o.sid data md n ∧
      i = s1.objs.length ∧ (exported reg k md).isSome = true ∧ (objTag o = 0 ↔ k = .rr) := by
  induction as using snoc_induction with
  | nil => intro s tr h i o ho; cases h; simp [St.init] at ho
  | snoc as a ih =>
    intro s' tr h i o ho hown
    obtain ⟨s, t, e, h1, h2, rfl⟩ := run_snoc_inv _ _ _ _ _ _ h
    have hreg := reg_run as h1
    cases hold : s.objs[i]? with
    | some o0 =>
      obtain ⟨o', h3, h4⟩ := (loc_settle i s _ (loc_step i s a) s' e h2).1 o0 hold
      rw [ho] at h3; cases h3
      have hk := key_run h4
      have h5 : o.own = o0.own := congrArg Prod.fst hk
      have h6 : o.sid = o0.sid := congrArg Prod.snd hk
      obtain ⟨as1, as2, t, ret, s1, t1, k, data, md, n, hr, h7, h8, h9⟩ := ih h1 i o0 hold (h5 ▸ hown)
      refine ⟨as1, as2 ++ [a], t, ret, s1, t1, k, data, md, n, ?_, h7, h8, by rw [tag_run h4]; exact h9⟩
      rw [h6]; exact hr.extend a
    | none =>
      have hlen : s.objs.length ≤ i := List.getElem?_eq_none_iff.mp hold
      have last : ∀ (x : Obj), s'.objs = s.objs ++ [x] → i = s.objs.length ∧ o = x := by
        intro x hx
        rw [hx, List.getElem?_append_right hlen] at ho
        have : i - s.objs.length = 0 := by
          cases hz : i - s.objs.length with
          | zero => rfl
          | succ m => rw [hz] at ho; simp at ho
        rw [this] at ho
        simp at ho
        exact ⟨by omega, ho.symm⟩
      have same : s'.objs = s.objs → False := by
        intro hx; rw [hx, hold] at ho; cases ho
      have hsh := settle_shape _ _ _ _ h2
      cases hsh with
      | calm _ _ _ c1 =>
        exfalso
        have h3 := congrArg List.length c1
        simp only [List.length_map] at h3
        have := (List.getElem?_eq_some_iff.mp ho).1
        omega
      | request f r k hk => exact (same rfl).elim
      | serve t0 ret k id data md n _ _ ht hserve =>
        have ex : ∀ op hd, ¬ md.length < 8 → getU32 md = .ok op →
            getHandler s.reg k op = some hd → (exported reg k md).isSome = true := by
          intro op hd g1 g2 g3
          rw [exported, if_neg g1, namedOp, g2, ← hreg, g3]; rfl
        cases serve_served _ _ _ _ _ _ _ _ _ hserve with
        | short => exact (same rfl).elim
        | unknown => exact (same rfl).elim
        | rr op hd es g1 g2 g3 g4 =>
          obtain ⟨q1, rfl⟩ := last _ rfl
          exact ⟨as, [], t0, ret, s, t, k, data, md, n, ⟨rfl, h1, ht⟩, q1, ex op hd g1 g3 g4, by simp [objTag, g2]⟩
        | other op hd _ _ g1 g2 g3 g4 g5 =>
          obtain ⟨q1, rfl⟩ := last _ g5
          exact ⟨as, [], t0, ret, s, t, k, data, md, n, ⟨rfl, h1, ht⟩, q1, ex op hd g1 g3 g4, by simp [objTag, g2]⟩
      | call k p input =>
        cases k
        · obtain ⟨-, rfl⟩ := last _ rfl; cases hown
        · exact (same rfl).elim
        · obtain ⟨-, rfl⟩ := last _ rfl; cases hown
        · obtain ⟨-, rfl⟩ := last _ rfl; cases hown

/-- Every request goroutine belongs to a request received. -/
theorem task_origin {reg : Registry H} {client : Bool} (as : List Act) : ∀ {s : St H}
    {tr : List (Handler.Ev H)}, Handler.run reg client as = .ok (s, tr) →
    ∀ k id data md n, .request k id data md n ∈ s.tasks →
    ∃ f r, .frame (.request f) r ∈ as ∧ kindOfType f.frameType = some k ∧ f.streamID = id ∧
      f.data = data ∧ f.metadata = md := by
  have main : ∀ (as : List Act) {s : St H} {tr : List (Handler.Ev H)}, Handler.run reg client as = .ok (s, tr) →
      ∀ k id data md n, .request k id data md n ∈ requestsOf s.tasks →
      ∃ f r, .frame (.request f) r ∈ as ∧ kindOfType f.frameType = some k ∧ f.streamID = id ∧
        f.data = data ∧ f.metadata = md := by
    intro as
    induction as using snoc_induction with
    | nil => intro s tr h k id data md n hm; cases h; simp [St.init, requestsOf] at hm
    | snoc as a ih =>
      intro s' tr h k id data md n hm
      obtain ⟨s, t, e, h1, h2, rfl⟩ := run_snoc_inv _ _ _ _ _ _ h
      have old : .request k id data md n ∈ requestsOf s.tasks → ∃ f r, .frame (.request f) r ∈ as ++ [a] ∧
          kindOfType f.frameType = some k ∧ f.streamID = id ∧ f.data = data ∧ f.metadata = md := by
        intro hm
        obtain ⟨f, r, h3, h4⟩ := ih h1 k id data md n hm
        exact ⟨f, r, List.mem_append_left _ h3, h4⟩
      have erased : ∀ (t : Nat) (ts : List Task), .request k id data md n ∈ requestsOf (ts.eraseIdx t) →
          .request k id data md n ∈ requestsOf ts := by
        intro t ts h
        exact ((List.eraseIdx_sublist _ _).filter _).subset h
      cases settle_shape _ _ _ _ h2 with
      | calm _ _ _ c1 c2 => rw [c2] at hm; exact old hm
      | request f r k' hk =>
        simp only [addTasks, requestsOf_append, List.mem_append] at hm
        rcases hm with hm | hm
        · exact old hm
        · simp [requestsOf, Task.isRequest] at hm
          obtain ⟨rfl, rfl, rfl, rfl, rfl⟩ := hm
          exact ⟨f, r, by simp, hk, rfl, rfl, rfl⟩
      | serve t0 ret k' id' data' md' n' _ _ ht hserve =>
        cases serve_served _ _ _ _ _ _ _ _ _ hserve with
        | short => exact old (erased _ _ hm)
        | unknown => exact old (erased _ _ hm)
        | rr => exact old (erased _ _ hm)
        | other op hd _ _ g1 g2 g3 g4 g5 g6 => rw [g6] at hm; exact old (erased _ _ hm)
      | call k' p input => cases k' <;> exact old hm
  intro s tr h k id data md n hm
  exact main as h k id data md n (List.mem_filter.mpr ⟨hm, rfl⟩)

/-- Every frame sent on behalf of no stream is a request, or rejects a request. -/
theorem loose_origin {reg : Registry H} {client : Bool} (as : List Act) : ∀ {s : St H}
    {tr : List (Handler.Ev H)}, Handler.run reg client as = .ok (s, tr) → ∀ f ∈ looseFrames tr,
    isReq f = false →
    ∃ as1 as2 t ret s1 t1 k id data md n, RanAt reg client as as1 as2 t ret s1 t1 k id data md n ∧
      exported reg k md = none ∧
      f = errorFrame id (if md.length < 8 then "Invalid metadata" else "not_found") := by
  induction as using snoc_induction with
  | nil => intro s tr h f hf; cases h; simp [looseFrames] at hf
  | snoc as a ih =>
    intro s' tr h f hf hq
    obtain ⟨s, t, e, h1, h2, rfl⟩ := run_snoc_inv _ _ _ _ _ _ h
    have hreg := reg_run as h1
    rw [looseFrames_append] at hf
    rcases List.mem_append.mp hf with hf | hf
    · obtain ⟨as1, as2, t, ret, s1, t1, k, id, data, md, n, hr, h3⟩ := ih h1 f hf hq
      exact ⟨as1, as2 ++ [a], t, ret, s1, t1, k, id, data, md, n, hr.extend a, h3⟩
    · cases settle_shape _ _ _ _ h2 with
      | calm _ _ _ c1 c2 c3 => rw [c3] at hf; cases hf
      | request => cases hf
      | serve t0 ret k id data md n _ _ ht hserve =>
        cases serve_served _ _ _ _ _ _ _ _ _ hserve with
        | short hl =>
          simp [looseFrames] at hf
          exact ⟨as, [], t0, ret, s, t, k, id, data, md, n, ⟨rfl, h1, ht⟩, by simp [exported, hl], by rw [if_pos hl]; exact hf⟩
        | unknown op hl ho hn =>
          simp [looseFrames] at hf
          refine ⟨as, [], t0, ret, s, t, k, id, data, md, n, ⟨rfl, h1, ht⟩, ?_, by rw [if_neg hl]; exact hf⟩
          rw [exported, if_neg hl, namedOp, ho, ← hreg]; exact hn
        | rr op hd es g1 g2 g3 g4 he =>
          have := looseFrames_obj (answerEvs_obj _ _ _ _ he)
          have h5 : looseFrames (.invoked .rr hd id ⟨data, md.drop 8⟩ :: es) = [] := by
            simpa [looseFrames] using this
          rw [h5] at hf; cases hf
        | other op hd _ _ g1 g2 g3 g4 g5 g6 g7 => rw [g7] at hf; cases hf
      | call k p input =>
        cases k
        case fnf => simp [call, looseFrames] at hf; subst hf; cases hq
        all_goals cases hf

end
end Verif.Props
