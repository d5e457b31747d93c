import Verif.Props.MeshStreams
/-
What the hosts of a mesh ask for when a stream is passed on.
-/
set_option autoImplicit false
namespace Verif.Props
open Verif Frames Handler
open Verif.Invoke (Kind Registry getHandler)
open Verif.System (Sys Move)
open Verif.WasmRecv (Side)

section
variable {H : Type}

/-! ## The host that answers -/

/-- While the flux of a stream that answers waits to be subscribed to, its source is asked for nothing. -/
theorem pending_run {j : Nat} {o o' : Obj} {ts ts' : List Task} {es : List (Handler.Ev H)} (h : CRun j o ts o' ts' es)
    (hn : ts.countP (isSubTask j) ≤ 1)
    (ho : ts.countP (isSubTask j) = 1 → ∃ k id b inp, o = .responder k id none b inp) :
    ts'.countP (isSubTask j) = 1 → (∃ k id b inp, o' = .responder k id none b inp) ∧ asks j es = [] := by
  induction h with
  | refl => exact fun h => ⟨ho h, rfl⟩
  | perm _ _ _ _ _ hp ih => rw [← hp.countP_eq]; exact ih
  | step _ _ _ _ _ _ hr hs ih =>
    intro h1
    have h2 := one_sub hr hn
    cases hs with
    | outSub =>
      exfalso
      simp only [List.countP_append, List.countP_cons, List.countP_nil, isSubTask, decide_true, if_true, Bool.false_eq_true,
        if_false, Nat.add_zero] at h1 h2
      omega
    | inp k id out b st ts op =>
      rw [List.countP_append, demandTasks_sub] at h1
      obtain ⟨⟨k, id, b, inp, he⟩, ha⟩ := ih h1
      cases he
      exact ⟨⟨_, _, _, _, rfl⟩, by rw [asks_append, ha, asks_demandEvs _ _ _ _ (fun _ => rfl)]; rfl⟩
    | inpSub =>
      rw [List.countP_append, demandTasks_sub] at h1
      obtain ⟨⟨k, id, b, inp, he⟩, ha⟩ := ih h1
      cases he
      exact ⟨⟨_, _, _, _, rfl⟩, by rw [asks_append, ha, asks_demandEvs _ _ _ _ (fun _ => rfl)]; rfl⟩
    | inpUp =>
      obtain ⟨⟨k, id, b, inp, he⟩, ha⟩ := ih (by simpa [isSubTask] using h1)
      cases he
      exact ⟨⟨_, _, _, _, rfl⟩, by rw [asks_append, ha]; rfl⟩
    | asked =>
      obtain ⟨he, ha⟩ := ih (by rw [List.countP_append] at h1; simpa [isSubTask] using h1)
      exact ⟨he, by rw [asks_append, ha]; rfl⟩
    | outFirst =>
      obtain ⟨⟨k, id, b, inp, he⟩, ha⟩ := ih (by simpa [isSubTask] using h1)
      cases he
    | outReq =>
      obtain ⟨⟨k, id, b, inp, he⟩, ha⟩ := ih (by simpa [isSubTask] using h1)
      cases he
    | out =>
      obtain ⟨⟨k, id, b, inp, he⟩, ha⟩ := ih h1
      cases he
    | fluxOp | fluxSub =>
      rw [List.countP_append, demandTasks_sub] at h1
      obtain ⟨⟨k, id, b, inp, he⟩, ha⟩ := ih h1
      cases he
    | upFirst =>
      rw [List.countP_append] at h1
      obtain ⟨⟨k, id, b, inp, he⟩, ha⟩ := ih (by
        rw [← h1]
        simp only [List.countP_cons, isSubTask, Bool.false_eq_true, if_false, Nat.add_zero, Nat.left_eq_add]
        split <;> rfl)
      cases he
    | upDone | upLater | inputSub | inputReq =>
      obtain ⟨⟨k, id, b, inp, he⟩, ha⟩ := ih (by simpa [isSubTask] using h1)
      cases he
    | _ =>
      obtain ⟨⟨k, id, b, inp, he⟩, ha⟩ := ih h1
      cases he

theorem pending_history {reg : Registry H} {client : Bool} {as : List Act} {s : St H} {tr : List (Handler.Ev H)}
    (h : Handler.run reg client as = .ok (s, tr)) {j : Nat} {f : Src} {n : UInt32} (ht : .subscribe j f n ∈ s.tasks) :
    (∃ k id b inp, s.objs[j]? = some (.responder k id none b inp)) ∧ asks j tr = [] := by
  have h1 : s.tasks.countP (isSubTask j) = 1 := by
    have := one_sub_history h j
    have h2 : 0 < s.tasks.countP (isSubTask j) := List.countP_pos_iff.mpr ⟨_, ht, by simp [isSubTask]⟩
    omega
  rw [← countP_tasksOf] at h1
  rcases Handler.history reg client as s tr h j with ⟨-, h2, -⟩ | ⟨o0, ts0, es0, o, es, hb, ho, hr, he⟩
  · rw [h2] at h1; cases h1
  · have hb' : ts0.countP (isSubTask j) ≤ 1 ∧ asks j es0 = [] ∧
        (ts0.countP (isSubTask j) = 1 → ∃ k id b inp, o0 = .responder k id none b inp) := by
      cases hb with
      | answer id m es h => exact ⟨by simp, asks_answerEvs _ _ _ _ h, by simp⟩
      | fnf id es h => exact ⟨by simp, by rcases h with rfl | rfl <;> rfl, by simp⟩
      | stream k id f n es hk h => exact ⟨by simp [isSubTask], by rcases h with rfl | ⟨-, rfl⟩ <;> rfl, fun _ => ⟨_, _, _, _, rfl⟩⟩
      | mono => exact ⟨by simp, rfl, by simp⟩
      | rs => exact ⟨by simp, rfl, by simp⟩
      | rc => exact ⟨by simp, rfl, by simp⟩
    obtain ⟨⟨k, id, b, inp, rfl⟩, ha⟩ := pending_run hr hb'.1 hb'.2.2 h1
    exact ⟨⟨_, _, _, _, ho⟩, by rw [← asks_evsOf, he, asks_append, hb'.2.1, ha]; rfl⟩

theorem doRequest_small {reg : Registry H} {client : Bool} (as : List Act) : ∀ {s : St H} {tr : List (Handler.Ev H)},
    Handler.run reg client as = .ok (s, tr) → ∀ j n, .doRequest j n ∈ s.tasks → n < 4294967296 := by
  induction as using snoc_induction with
  | nil => intro s tr h j n hm; cases h; cases hm
  | snoc as a ih =>
    intro s' tr h j n hm
    obtain ⟨s, t, e, h1, h2, rfl⟩ := run_snoc_inv _ _ _ _ _ _ h
    have ih := ih h1 j n
    cases task_step a h2 with
    | minor _ _ new tasks own =>
      rw [tasks] at hm
      rcases List.mem_append.mp hm with hm | hm
      · exact ih hm
      · cases own _ hm
    | asked f r i _ str same =>
      subst same
      rcases List.mem_append.mp hm with hm | hm
      · exact ih hm
      · simp only [List.mem_singleton, Task.doRequest.injEq] at hm
        have := f.n.toNat_lt
        omega
    | request f r k hk =>
      rcases List.mem_append.mp hm with hm | hm
      · exact ih hm
      · simp at hm
    | subscribe t ret j' f n' _ task tasks =>
      rw [tasks] at hm
      rcases List.mem_append.mp hm with hm | hm
      · exact ih (List.mem_of_mem_eraseIdx hm)
      · simp at hm
    | stream t ret k id data md n' _ task objs tasks =>
      rw [tasks] at hm
      rcases List.mem_append.mp hm with hm | hm
      · exact ih (List.mem_of_mem_eraseIdx hm)
      · simp at hm
    | serve t ret k id data md n' _ task tasks objs =>
      rw [tasks] at hm
      exact ih (List.mem_of_mem_eraseIdx hm)
    | run t ret task _ new htask g1 g2 tasks own =>
      rw [tasks] at hm
      rcases List.mem_append.mp hm with hm | hm
      · exact ih (List.mem_of_mem_eraseIdx hm)
      · cases own _ hm

/-- What a host asks for is what some frame asks for. -/
theorem askTask_range {reg : Registry H} {client : Bool} {as : List Act} {s : St H} {tr : List (Handler.Ev H)}
    (h : Handler.run reg client as = .ok (s, tr)) {i : Nat} {n : Int} {task : Task} (ht : task ∈ s.tasks)
    (ha : askTask i n task) : 0 ≤ n ∧ n < 4294967296 := by
  cases task with
  | firstRequest j f m =>
    obtain ⟨-, rfl⟩ := ha
    have := m.toNat_lt
    omega
  | doRequest j m =>
    obtain ⟨-, rfl⟩ := ha
    exact ⟨doRequest_nonneg _ h _ _ ht, doRequest_small _ h _ _ ht⟩
  | _ => cases ha

theorem mem_eraseIdx_or {α : Type} {l : List α} {x : α} (t : Nat) (h : x ∈ l) : x ∈ l.eraseIdx t ∨ l[t]? = some x := by
  induction l generalizing t with
  | nil => cases h
  | cons y l ih =>
    cases t with
    | zero =>
      rcases List.mem_cons.mp h with rfl | h
      · exact .inr rfl
      · exact .inl h
    | succ t =>
      rcases List.mem_cons.mp h with rfl | h
      · exact .inl (by simp)
      · rcases ih t h with h | h
        · exact .inl (by simp [h])
        · exact .inr (by simpa using h)

/-- A goroutine stays until it is run. -/
theorem task_stays {s s' : St H} {e : List (Handler.Ev H)} {a : Act} (h : settle s (Handler.step s a) = .ok (s', e))
    {task : Task} (hm : task ∈ s.tasks) : task ∈ s'.tasks ∨ ∃ t ret, a = .run t ret ∧ s.tasks[t]? = some task := by
  have key : ∀ (t : Nat) (ret : Ret) (new : List Task), a = .run t ret → s'.tasks = s.tasks.eraseIdx t ++ new →
      task ∈ s'.tasks ∨ ∃ t ret, a = .run t ret ∧ s.tasks[t]? = some task := by
    intro t ret new ha hs
    rcases mem_eraseIdx_or t hm with h | h
    · exact .inl (by rw [hs]; exact List.mem_append_left _ h)
    · exact .inr ⟨t, ret, ha, h⟩
  cases task_step a h with
  | minor _ _ new tasks own => exact .inl (by rw [tasks]; exact List.mem_append_left _ hm)
  | asked f r i _ str same => subst same; exact .inl (List.mem_append_left _ hm)
  | request f r k hk => exact .inl (List.mem_append_left _ hm)
  | subscribe t ret j' f n' _ task tasks => exact key t ret _ rfl tasks
  | stream t ret k id data md n' _ task objs tasks => exact key t ret _ rfl tasks
  | serve t ret k id data md n' _ task tasks objs => exact key t ret [] rfl (by simpa using tasks)
  | run t ret task _ new htask g1 g2 tasks own => exact key t ret _ rfl tasks

/-- A source that says something has its subscriber ask for nothing. -/
theorem replySub_op {st : Flux.State} {op : SrcOp} (hi : st.inst = replyInst) (hop : ∀ c, op ≠ .onSubscribe c) :
    upRequests (Flux.step st op.op).2 = [] ∧ (Flux.step st op.op).1.hasRequest = st.hasRequest := by
  have hn : ∀ l : List Nat, ∀ g, upRequests (l.map (Flux.Ev.notified (T := Pay) · g)) = [] := by
    intro l g; induction l with
    | nil => rfl
    | cons x l ih => simp [upRequests]
  cases op with
  | next p =>
    simp only [SrcOp.op, Flux.step, Flux.next, Flux.onNext, Flux.calls, Flux.handleOnSubscribe, hi, replyInst, if_true]
    split
    · exact ⟨rfl, rfl⟩
    · split <;> exact ⟨rfl, rfl⟩
  | complete =>
    simp only [SrcOp.op, Flux.step, Flux.complete, Flux.calls, Flux.doFinally, hi, replyInst, if_true]
    split
    · exact ⟨rfl, rfl⟩
    · exact ⟨hn st.callbacks _, rfl⟩
  | error x =>
    simp only [SrcOp.op, Flux.step, Flux.error, Flux.calls, Flux.doFinally, hi, replyInst, if_true]
    split
    · exact ⟨rfl, rfl⟩
    · exact ⟨hn st.callbacks _, rfl⟩
  | onSubscribe c => exact absurd rfl (hop c)

/-- From when its source has called OnSubscribe, a stream asks for what frames ask for, and for the first of it as soon
as the goroutine that does so has run. -/
theorem asked_from {reg : Registry H} {client : Bool} {b0 : List Act} {s0 : St H} {t0 : List (Handler.Ev H)}
    (h0 : Handler.run reg client b0 = .ok (s0, t0)) {i : Nat} {k : Kind} {id : UInt32} {f : Src} {st : Flux.State} {b : Bool}
    {inp : Option Flux.State} (ho : s0.objs[i]? = some (.responder k id (some (f, st)) b inp)) (hr : st.hasRequest = true)
    (hn : s0.tasks.countP (isSubTask i) = 0) {f0 : Src} {n0 : UInt32} (hm : .firstRequest i f0 n0 ∈ s0.tasks)
    (as : List Act) :
    ∀ s e, Handler.runFrom s0 as = .ok (s, e) → as.countP (isOnSub i) = 0 →
      (∃ f st b inp, s.objs[i]? = some (.responder k id (some (f, st)) b inp) ∧ st.hasRequest = true) ∧
      s.tasks.countP (isSubTask i) = 0 ∧ (∀ n ∈ asks i e, 0 ≤ n ∧ n < 4294967296) ∧
      (.firstRequest i f0 n0 ∈ s.tasks ∨ (n0.toNat : Int) ∈ asks i e) := by
  induction as using snoc_induction with
  | nil =>
    intro s e h _
    cases h
    exact ⟨⟨_, _, _, _, ho, hr⟩, hn, by simp [asks], .inl hm⟩
  | snoc as a ih =>
    intro s' e' h hc
    rw [handler_runFrom_append] at h
    obtain ⟨s, e, e2, h1, h2, rfl⟩ := andThen_ok h
    simp only [runFrom] at h2
    obtain ⟨s2, e3, e4, h3, h4, rfl⟩ := andThen_ok h2
    cases h4
    rw [List.append_nil]
    rw [List.countP_append] at hc
    obtain ⟨⟨f, st, b, inp, ho, hr⟩, hn, hrange, hfirst⟩ := ih s e h1 (by omega)
    have hrun : Handler.run reg client (b0 ++ as) = .ok (s, t0 ++ e) := by
      unfold Handler.run at h0 ⊢
      rw [handler_runFrom_append, h0]
      simp only [andThen, h1]
    have hinst : st.inst = replyInst := replyObj_history hrun ho _ _ _ _ _ _ rfl
    obtain ⟨o', ho', hstep⟩ := sub_step ho a h3
    obtain ⟨o2, ho2, hcr⟩ := (loc_settle i s _ (loc_step i s a) s' e3 h3).1 _ ho
    rw [ho'] at ho2
    cases ho2
    have hsub := subbed_run hcr ⟨⟨_, _, _, _, _, _, rfl⟩, by rw [countP_tasksOf]; exact hn⟩
    rw [subbed, countP_tasksOf] at hsub
    obtain ⟨⟨k', id', f', st', b', inp', rfl⟩, hn'⟩ := hsub
    obtain ⟨out, b2, inp2, hk⟩ := responder_kind_run hcr ⟨_, _, _, rfl⟩
    cases hk
    rw [asks_append]
    have keep : ∀ (ha : asks i e3 = []) (_ : ∀ t ret task n, a = .run t ret → s.tasks[t]? = some task → ¬ askTask i n task),
        (∀ n ∈ asks i e ++ asks i e3, 0 ≤ n ∧ n < 4294967296) ∧
        (.firstRequest i f0 n0 ∈ s'.tasks ∨ (n0.toNat : Int) ∈ asks i e ++ asks i e3) := by
      intro ha hnt
      rw [ha, List.append_nil]
      refine ⟨hrange, ?_⟩
      rcases hfirst with hm | h
      · rcases task_stays h3 hm with h | ⟨t, ret, h5, h6⟩
        · exact .inl h
        · exact absurd ⟨rfl, rfl⟩ (hnt t ret _ n0.toNat h5 h6)
      · exact .inr h
    cases hstep with
    | same sub none notask =>
      cases sub
      obtain ⟨h5, h6⟩ := keep none notask
      exact ⟨⟨_, _, _, _, ho', hr⟩, hn', h5, h6⟩
    | subscribe t ret f n act task =>
      exfalso
      have := List.countP_eq_zero.mp hn _ (List.mem_of_getElem? task)
      simp [isSubTask] at this
    | subscribeIn t ret act task flux =>
      obtain ⟨_, _, _, _, _, hfl⟩ := flux
      rw [ho] at hfl
      cases hfl
    | ask t ret task n st2 act htask hask before sub asked =>
      cases before
      cases sub
      have hx : upRequests (Flux.call (T := Pay) st (.request n)).2 = [n] := by simp [Flux.call, hr, upRequests]
      rw [asked, hx]
      refine ⟨⟨_, _, _, _, ho', hr⟩, hn', fun m hm => ?_, ?_⟩
      · rcases List.mem_append.mp hm with hm | hm
        · exact hrange m hm
        · cases List.mem_singleton.mp hm
          exact askTask_range hrun (List.mem_of_getElem? htask) hask
      · rcases hfirst with hm | h
        · rcases task_stays h3 hm with h | ⟨t', ret', h5, h6⟩
          · exact .inl h
          · rw [act] at h5
            cases h5
            rw [htask] at h6
            cases h6
            obtain ⟨-, rfl⟩ := hask
            exact .inr (by simp)
        · exact .inr (List.mem_append_left _ h)
    | op o st2 act before sub asked =>
      cases before
      cases sub
      have hop : ∀ c, o ≠ .onSubscribe c := by
        rintro c rfl
        rcases act with rfl | rfl <;> simp [isOnSub] at hc
      obtain ⟨h5, h6⟩ := replySub_op hinst hop
      obtain ⟨h7, h8⟩ := keep (asked.trans h5) (by
        intro t ret task n hh
        rcases act with rfl | rfl <;> cases hh)
      exact ⟨⟨_, _, _, _, ho', h6.trans hr⟩, hn', h7, h8⟩

/-- The same for the flux the mesh answers with: its source calls OnSubscribe as soon as it is subscribed to. -/
theorem answer_asks {reg : Registry H} {client : Bool} {b1 as5 : List Act} {s1 s : St H} {t1 tr : List (Handler.Ev H)}
    {t : Nat} {ret : Ret} {j : Nat} {n : UInt32} (h1 : Handler.run reg client b1 = .ok (s1, t1))
    (ht : s1.tasks[t]? = some (.subscribe j .created n))
    (h : Handler.run reg client (b1 ++ .run t ret :: .out j (.onSubscribe true) :: as5) = .ok (s, tr))
    (hone : (b1 ++ .run t ret :: .out j (.onSubscribe true) :: as5).countP (isOnSub j) ≤ 1) :
    (∀ n ∈ asks j tr, 0 ≤ n ∧ n < 4294967296) ∧
      (.firstRequest j .created n ∈ s.tasks ∨ (n.toNat : Int) ∈ asks j tr) := by
  obtain ⟨⟨k, id, b, inp, ho⟩, ha⟩ := pending_history h1 (List.mem_of_getElem? ht)
  have hlen := (List.getElem?_eq_some_iff.mp ho).1
  have hcount : s1.tasks.countP (isSubTask j) = (s1.tasks.eraseIdx t).countP (isSubTask j) + 1 := by
    rw [countP_erase (isSubTask j) ht]; simp [isSubTask]
  have hle := one_sub_history h1 j
  unfold Handler.run at h h1
  have e : b1 ++ .run t ret :: .out j (.onSubscribe true) :: as5 =
      (b1 ++ [.run t ret, .out j (.onSubscribe true)]) ++ as5 := by simp
  have h0 : Handler.run reg client (b1 ++ [.run t ret, .out j (.onSubscribe true)]) = .ok
      (setObj (setObj (addTasks { s1 with tasks := s1.tasks.eraseIdx t } [.firstRequest j .created n]) j
        (.responder k id (some (.created, .init replyInst [])) b inp)) j
        (.responder k id (some (.created, { Flux.State.init replyInst [] with hasRequest := true, hasCancel := true })) b inp), t1) := by
    unfold Handler.run
    rw [handler_runFrom_append, h1]
    have w1 : Handler.step s1 (.run t ret) = .ok (setObj (addTasks { s1 with tasks := s1.tasks.eraseIdx t }
        [.firstRequest j .created n]) j (.responder k id (some (.created, .init replyInst [])) b inp), []) := by
      simp only [Handler.step, ht, runTask, ho]
      rfl
    have w2 : Handler.step (setObj (addTasks { s1 with tasks := s1.tasks.eraseIdx t }
        [.firstRequest j .created n]) j (.responder k id (some (.created, .init replyInst [])) b inp)) (.out j (.onSubscribe true)) = .ok
      (setObj (setObj (addTasks { s1 with tasks := s1.tasks.eraseIdx t } [.firstRequest j .created n]) j
        (.responder k id (some (.created, .init replyInst [])) b inp)) j
        (.responder k id (some (.created, { Flux.State.init replyInst [] with hasRequest := true, hasCancel := true })) b inp), []) := by
      have : (setObj (addTasks { s1 with tasks := s1.tasks.eraseIdx t }
        [.firstRequest j .created n]) j (.responder k id (some (.created, .init replyInst [])) b inp)).objs[j]? =
          some (.responder k id (some (.created, .init replyInst [])) b inp) := List.getElem?_set_self hlen
      simp only [Handler.step, this]
      rfl
    simp only [andThen, runFrom, w1, w2, settle, List.append_nil]
  rw [e, List.countP_append, List.countP_append] at hone
  simp only [List.countP_cons, isOnSub] at hone
  have h0' := h0
  unfold Handler.run at h0
  rw [e, handler_runFrom_append, h0] at h
  obtain ⟨s', t', e', h2, h3, rfl⟩ := andThen_ok h
  cases h2
  obtain ⟨-, -, h5, h6⟩ := asked_from h0' (i := j) (k := k) (id := id)
    (List.getElem?_set_self (by simpa [setObj, addTasks] using hlen)) rfl
    (by
      have hz : (s1.tasks.eraseIdx t).countP (isSubTask j) = 0 := by omega
      simp only [setObj, addTasks, List.countP_append, hz]
      rfl)
    (List.mem_append_right _ (List.mem_singleton.mpr rfl)) as5 _ _ h3 (by simp at hone; omega)
  rw [asks_append, ha, List.nil_append]
  exact ⟨h5, h6⟩

end
end Verif.Props
