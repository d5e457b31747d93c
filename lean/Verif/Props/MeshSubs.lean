import Verif.Model.MeshSystem
import Verif.Props.WasmDemand
import Verif.Props.WasmCancel
/-
Lemmas for C123: the subscribers of the mesh, and what a step has them do.
-/
set_option autoImplicit false
namespace Verif.Props
open Verif Frames Handler
open Verif.Invoke (Kind Registry getHandler)
open Verif.System (Sys Move)
open Verif.WasmRecv (Side)

section
variable {H : Type}

/-! ## A subscriber whose callbacks call nothing -/

theorem flux_inst (st : Flux.State) (op : Flux.Op Pay) : (Flux.step st op).1.inst = st.inst := (flux_step_spec st op).inst

/-- Operations whose callbacks call nothing, and requests. -/
inductive QuietOp : Flux.Op Pay → List Int → Prop
  | next (v : Pay) : QuietOp (.next v [] []) []
  | complete : QuietOp (.complete []) []
  | error (e : Mono.Err) : QuietOp (.error e []) []
  | request (n : Int) : QuietOp (.call (.request n)) [n]

theorem quietOp_step {st : Flux.State} (h1 : st.inst = replyInst) (h2 : st.hasRequest = true) {op : Flux.Op Pay} {ns : List Int}
    (h : QuietOp op ns) :
    (Flux.step st op).1.inst = replyInst ∧ (Flux.step st op).1.hasRequest = true ∧ .cancelled ∉ (Flux.step st op).2 ∧
    upRequests (Flux.step st op).2 = ns := by
  have hn : ∀ l : List Nat, ∀ g, upRequests (l.map (Flux.Ev.notified (T := Pay) · g)) = [] := by
    intro l g; induction l with
    | nil => rfl
    | cons x l ih => simp [upRequests]
  refine ⟨(flux_inst st op).trans h1, ?_⟩
  cases h with
  | next v =>
    simp only [Flux.step, Flux.next, Flux.onNext, Flux.calls, Flux.handleOnSubscribe, h1, replyInst, if_true]
    split
    · exact ⟨h2, by simp, rfl⟩
    · split
      · exact ⟨h2, by simp, rfl⟩
      · exact ⟨h2, by simp, rfl⟩
  | complete =>
    simp only [Flux.step, Flux.complete, Flux.calls, Flux.doFinally, h1, replyInst, if_true]
    split
    · exact ⟨h2, by simp, rfl⟩
    · exact ⟨h2, by simp, hn st.callbacks _⟩
  | error e =>
    simp only [Flux.step, Flux.error, Flux.calls, Flux.doFinally, h1, replyInst, if_true]
    split
    · exact ⟨h2, by simp, rfl⟩
    · exact ⟨h2, by simp, hn st.callbacks _⟩
  | request n => simp [Flux.step, Flux.call, h1, h2, upRequests]

/-- Stream `j` is a call whose subscriber has these callbacks. -/
def meshSub (s : St H) (j : Nat) : Prop :=
  ∃ req first c input st, s.objs[j]? = some (.flux req first c input (some st)) ∧ st.inst = replyInst ∧ st.hasRequest = true

/-- What a step had the subscriber do. -/
structure Minded (j : Nat) (s' : St H) (e : List (Handler.Ev H)) (ns : List Int) : Prop where
  sub : meshSub s' j
  calm : .cancelled ∉ fluxEvs j e
  asked : demands j e = ns

theorem demands_fluxEvs (j : Nat) (e : List (Handler.Ev H)) : demands j e = upRequests (fluxEvs j e) := by
  induction e with
  | nil => rfl
  | cons x e ih =>
    have h1 : demands j (x :: e) = demands j [x] ++ demands j e := demands_append j [x] e
    have h2 : fluxEvs j (x :: e) = fluxEvs j [x] ++ fluxEvs j e := fluxEvs_append j [x] e
    rw [h1, h2, upRequests_append, ih]
    congr 1
    cases x with
    | flux i y =>
      by_cases hi : i = j
      · subst hi; cases y <;> simp [demands, fluxEvs, upRequests]
      · cases y <;> simp [demands, fluxEvs, upRequests, hi]
    | _ => rfl

theorem Minded.none {j : Nat} {s' : St H} {e : List (Handler.Ev H)} (h : meshSub s' j) (he : fluxEvs j e = []) :
    Minded j s' e [] := ⟨h, by rw [he]; simp, by rw [demands_fluxEvs, he]; rfl⟩

theorem Minded.trans {j : Nat} {s1 s2 : St H} {e1 e2 : List (Handler.Ev H)} {n1 n2 : List Int} (h1 : Minded j s1 e1 n1)
    (h2 : Minded j s2 e2 n2) : Minded j s2 (e1 ++ e2) (n1 ++ n2) :=
  ⟨h2.sub, by rw [fluxEvs_append, List.mem_append, not_or]; exact ⟨h1.calm, h2.calm⟩,
    by rw [demands_append, h1.asked, h2.asked]⟩

theorem minded_deliver {j : Nat} {s s' : St H} {op : Flux.Op Pay} {e : List (Handler.Ev H)} (h : meshSub s j)
    (hop : QuietOp op []) (hd : deliver s j op = .ok (s', e)) : Minded j s' e [] := by
  obtain ⟨req, first, c, input, st, ho, h1, h2⟩ := h
  have hl : j < s.objs.length := (List.getElem?_eq_some_iff.mp ho).1
  obtain ⟨q1, q2, q3, q4⟩ := quietOp_step h1 h2 hop
  unfold deliver at hd
  rw [ho] at hd
  simp only [onFlux] at hd
  cases hd
  refine ⟨⟨req, first, _, input, _, by simp only [addTasks, setObj]; rw [List.getElem?_set_self hl], q1, q2⟩, ?_, ?_⟩
  · rw [fluxEvs_demandEvs]; exact q3
  · rw [demands_flux]; exact q4

theorem quiet_closing {j : Nat} {x : UInt32} {s s' : St H} {e : List (Handler.Ev H)} (h : meshSub s j)
    (hd : closing x s = .ok (s', e)) : Minded j s' e [] := by
  cases hd
  refine Minded.none ?_ rfl
  unfold meshSub
  rw [remove_objs]; exact h

theorem andThen_inv {x : Go (Out H)} {f : St H → Go (Out H)} {s' : St H} {e : List (Handler.Ev H)}
    (h : andThen x f = .ok (s', e)) : ∃ s1 e1 e2, x = .ok (s1, e1) ∧ f s1 = .ok (s', e2) ∧ e = e1 ++ e2 := by
  unfold andThen at h
  split at h
  · rename_i s1 e1
    split at h
    · rename_i s2 e2 h2; cases h; exact ⟨s1, e1, e2, rfl, h2, rfl⟩
    · cases h
    · cases h
  · cases h
  · cases h

theorem quiet_ended {j : Nat} {x : UInt32} {s s' : St H} {e : List (Handler.Ev H)} (h : meshSub s j)
    (hd : andThen (deliver s j (.complete [])) (closing x) = .ok (s', e)) : Minded j s' e [] := by
  obtain ⟨s1, e1, e2, h1, h2, rfl⟩ := andThen_inv hd
  have q := minded_deliver h .complete h1
  exact q.trans (quiet_closing q.sub h2)

theorem quiet_frame {j : Nat} {s s' : St H} {f : AnyFrame} {r : React} {e : List (Handler.Ev H)} (h : meshSub s j)
    (hr : MeshSystem.quiet r = true) (hd : dispatch s r f (some j) = .ok (s', e)) : Minded j s' e [] := by
  unfold MeshSystem.quiet at hr
  simp only [Bool.and_eq_true, List.isEmpty_iff] at hr
  obtain ⟨⟨r1, r2⟩, r3⟩ := hr
  cases f with
  | setup v =>
    simp only [dispatch] at hd
    split at hd
    · split at hd
      · cases hd; exact Minded.none h rfl
      · cases hd
      · cases hd
    · cases hd; exact Minded.none h rfl
  | request v =>
    simp only [dispatch] at hd
    split at hd <;> (cases hd; exact Minded.none h rfl)
  | requestN v =>
    simp only [dispatch] at hd
    split at hd
    · cases hd; exact Minded.none h rfl
    · cases hd
  | cancel v =>
    simp only [dispatch, r3] at hd
    exact quiet_ended h hd
  | payload v =>
    simp only [dispatch, r1, r2, r3] at hd
    obtain ⟨s1, e1, e2, h1, h2, rfl⟩ := andThen_inv hd
    have q : Minded j s1 e1 [] := by
      split at h1
      · exact minded_deliver h (.next _) h1
      · cases h1; exact Minded.none h rfl
    refine Minded.trans (n1 := []) (n2 := []) q ?_
    split at h2
    · exact quiet_ended q.sub h2
    · cases h2; exact Minded.none q.sub rfl
  | error v =>
    simp only [dispatch, r3] at hd
    obtain ⟨s1, e1, e2, h1, h2, rfl⟩ := andThen_inv hd
    have q := minded_deliver h (.error _) h1
    exact Minded.trans (n1 := []) (n2 := []) q (quiet_ended q.sub h2)

/-- What a step asks for on stream `j`. -/
def requestsOn (j : Nat) (as : List Act) : List Int :=
  as.filterMap fun | .fluxCall i (.request n) => if i = j then some n else none | _ => none

theorem requestsOn_append (j : Nat) (a b : List Act) : requestsOn j (a ++ b) = requestsOn j a ++ requestsOn j b := by
  simp [requestsOn]

/-- A step, seen from a subscriber of the mesh. -/
theorem quiet_settle {j : Nat} {s s' : St H} {a : Act} {e : List (Handler.Ev H)} (h : meshSub s j)
    (hf : ∀ f r, a = .frame f r → getStream s f.streamID = some j → MeshSystem.quiet r = true)
    (hc : a ≠ .fluxCall j .cancel) (hs : settle s (Handler.step s a) = .ok (s', e)) :
    Minded j s' e (requestsOn j [a]) := by
  have hj := h
  obtain ⟨req, first, c, input, st, ho, h1, h2⟩ := h
  have hl : j < s.objs.length := (List.getElem?_eq_some_iff.mp ho).1
  by_cases ha : actsOn s a = some j
  · have nop : Handler.step s a = .ok (s, []) → Minded j s' e [] := by
      intro hn; rw [hn] at hs; cases hs; exact Minded.none hj rfl
    have onin : ∀ (s1 : St H) (f : Src) (st' : Flux.State × List (Flux.Ev Pay)), s1.objs = s.objs →
        settle s (onInput s1 j req first c f (some st) st') = .ok (s', e) → Minded j s' e [] := by
      intro s1 f st' hobj h
      cases hx : onInput s1 j req first c f (some st) st' with
      | ok p =>
        rw [hx] at h
        obtain ⟨h3, rfl⟩ := onInput_ok (hx.trans h)
        refine Minded.none ⟨req, first, c, some (.subscribed f st'.1), st, ?_, h1, h2⟩ (fluxEvs_replyEvs _ _ _ _ _ h3)
        simp only [setObj]; rw [hobj, List.getElem?_set_self hl]
      | err m => rw [hx] at h; cases h; exact Minded.none hj rfl
      | panic => rw [hx] at h; cases h
    cases a with
    | frame f r =>
      simp only [actsOn] at ha
      split at ha
      · rename_i ht
        simp only [Handler.step, handleFrame, if_pos ht, ha] at hs
        cases hd : dispatch s r f (some j) with
        | ok p =>
          rw [hd] at hs
          exact quiet_frame hj (hf f r rfl ha) (hd.trans hs)
        | panic => rw [hd] at hs; cases hs
        | err m => rw [hd] at hs; cases hs; exact Minded.none hj rfl
      · cases ha
    | run t ret =>
      simp only [actsOn] at ha
      simp only [Handler.step] at hs
      show Minded j s' e []
      cases ht : s.tasks[t]? with
      | none => rw [ht] at ha; cases ha
      | some task =>
        rw [ht] at ha hs
        simp only at hs
        cases task with
        | request k id data md n => cases ha
        | subscribe i f n => cases ha; simp only [runTask, ho] at hs; cases hs
        | firstRequest i f n => cases ha; simp only [runTask, ho] at hs; cases hs
        | doRequest i n =>
          cases ha
          simp only [runTask, ho] at hs
          cases input with
          | none => cases hs
          | some x =>
            cases x with
            | fresh f => cases hs
            | subscribed f st' =>
              simp only at hs
              split at hs
              · cases hs
              · exact onin { s with tasks := s.tasks.eraseIdx t } _ _ rfl hs
        | upRequest i n =>
          cases ha
          simp only [runTask, ho] at hs
          split at hs
          · cases hs; exact Minded.none hj rfl
          · split at hs
            · cases hs
              refine Minded.none ⟨{ req with initialN := u32 n }, false, c, input, st, ?_, h1, h2⟩ rfl
              simp only [addTasks, setObj]; rw [List.getElem?_set_self hl]
            · cases hs; exact Minded.none hj rfl
        | subscribeIn i =>
          cases ha
          simp only [runTask, ho] at hs
          cases input with
          | none => cases hs
          | some x =>
            cases x with
            | fresh f => exact onin { s with tasks := s.tasks.eraseIdx t } f (subscribeSrc f) rfl hs
            | subscribed f st' => cases hs
    | answer i sig => cases ha; exact nop (by simp only [Handler.step, ho])
    | out i op => cases ha; exact nop (by simp only [Handler.step, ho])
    | subscribeInp i inst start => cases ha; exact nop (by simp only [Handler.step, ho])
    | inpCall i x => cases ha; exact nop (by simp only [Handler.step, ho])
    | call k p input => cases ha
    | subscribeMono i inst => cases ha; exact nop (by simp only [Handler.step, ho])
    | subscribeFlux i inst start => cases ha; exact nop (by simp only [Handler.step, ho])
    | fluxCall i x =>
      cases ha
      cases x with
      | cancel => exact absurd rfl hc
      | request n =>
        obtain ⟨q1, q2, q3, q4⟩ := quietOp_step h1 h2 (.request n)
        simp only [Handler.step, ho, settle, onFlux] at hs
        cases hs
        refine ⟨⟨req, first, c, input, _, by simp only [addTasks, setObj]; rw [List.getElem?_set_self hl], q1, q2⟩, ?_, ?_⟩
        · rw [fluxEvs_demandEvs]; exact q3
        · rw [demands_flux, q4]; simp [requestsOn]
    | input i op =>
      cases ha
      show Minded j s' e []
      simp only [Handler.step, ho] at hs
      cases hi : input with
      | none => rw [hi] at ho; exact nop (by simp only [Handler.step, ho])
      | some x =>
        cases x with
        | fresh f => rw [hi] at ho; exact nop (by simp only [Handler.step, ho])
        | subscribed f st' =>
          subst hi
          simp only at hs
          split at hs
          · rename_i hn; exact nop (by simp only [Handler.step, ho, hn, if_true])
          · exact onin s f _ rfl hs
  · obtain ⟨q1, q2⟩ := idle_settle s a hl ha s' e hs
    have : requestsOn j [a] = [] := by
      cases a with
      | fluxCall i x =>
        have hi : i ≠ j := fun h => ha (by rw [h]; rfl)
        cases x <;> simp [requestsOn, hi]
      | _ => rfl
    rw [this]
    refine Minded.none ⟨req, first, c, input, st, q1.trans ho, h1, h2⟩ ?_
    rw [← fluxEvs_evsOf, q2]; rfl

/-- The same over wasm. -/
theorem quiet_step {j : Nat} {s s' : St H} {a : Act} {e : List (Handler.Ev H)} (h : meshSub s j)
    (hfit : ∀ f r, a = .frame f r → fits f)
    (hf : ∀ f r, a = .frame f r → getStream s f.streamID = some j → MeshSystem.quiet r = true)
    (hc : a ≠ .fluxCall j .cancel) (hs : Wasm.step .host s a = .ok (s', e)) : Minded j s' e (requestsOn j [a]) := by
  obtain ⟨e', h1, h2⟩ := step_alike hfit hs
  obtain ⟨q1, q2, q3⟩ := quiet_settle h hf hc h1
  exact ⟨q1, by rw [fluxEvs_alike h2]; exact q2, by rw [demands_alike h2]; exact q3⟩

/-! ## The subscriber that answers a request -/

def replyObj (o : Obj) : Prop := ∀ k id f st b inp, o = .responder k id (some (f, st)) b inp → st.inst = replyInst

theorem replyObj_run {j : Nat} {o o' : Obj} {ts ts' : List Task} {es : List (Handler.Ev H)} (h : CRun j o ts o' ts' es)
    (ho : replyObj o) : replyObj o' := by
  induction h with
  | refl => exact ho
  | perm _ _ _ _ _ _ ih => exact ih
  | step _ _ _ _ _ _ _ hs ih =>
    intro k id f st b inp he
    cases hs with
    | outSub => cases he; exact congrArg _ (subscribeSrc_asks _).2
    | outFirst => cases he; exact (flux_inst _ (.call _)).trans (ih _ _ _ _ _ _ rfl)
    | outReq => cases he; exact (flux_inst _ (.call _)).trans (ih _ _ _ _ _ _ rfl)
    | out => cases he; rw [flux_inst]; exact ih _ _ _ _ _ _ rfl
    | inp => cases he; exact ih _ _ _ _ _ _ rfl
    | inpSub => cases he; exact ih _ _ _ _ _ _ rfl
    | inpUp => exact ih _ _ _ _ _ _ he
    | asked => exact ih _ _ _ _ _ _ he
    | _ => cases he

theorem replyObj_history {reg : Registry H} {client : Bool} {as : List Act} {s : St H} {tr : List (Handler.Ev H)}
    (h : Handler.run reg client as = .ok (s, tr)) {j : Nat} {o : Obj} (ho : s.objs[j]? = some o) : replyObj o := by
  rcases Handler.history reg client as s tr h j with ⟨h1, -⟩ | ⟨o0, ts0, es0, o', es, hb, ho', hr, he⟩
  · rw [ho] at h1; cases h1
  · rw [ho] at ho'; cases ho'
    refine replyObj_run hr ?_
    intro k id f st b inp h
    cases hb <;> cases h

/-- Telling a stream that answers something has it ask for nothing. -/
theorem asks_out {s s' : St H} {j : Nat} {op : SrcOp} {e : List (Handler.Ev H)} (hr : ∀ o, s.objs[j]? = some o → replyObj o)
    (hop : ∀ c, op ≠ .onSubscribe c) (h : Wasm.step .host s (.out j op) = .ok (s', e)) (i : Nat) : asks i e = [] := by
  simp only [Wasm.step, Handler.step] at h
  split at h
  · rename_i k id f st b inp ho
    split at h
    · cases h; rfl
    · have hi := hr _ ho _ _ _ _ _ _ rfl
      simp only [onOut] at h
      obtain ⟨es, h1, h⟩ := bind_ok_inv h
      cases h
      by_cases hij : i = j
      · subst hij
        rw [asks_replyEvs _ _ _ _ h1, upRequests_map]
        have hn : ∀ l : List Nat, ∀ g, upRequests (l.map (Flux.Ev.notified (T := Pay) · g)) = [] := by
          intro l g; induction l with
          | nil => rfl
          | cons x l ih => simp [upRequests]
        cases op with
        | next p =>
          simp only [SrcOp.op, Flux.step, Flux.next, Flux.onNext, Flux.calls, Flux.handleOnSubscribe, hi, replyInst, if_true]
          split
          · rfl
          · split <;> rfl
        | complete =>
          simp only [SrcOp.op, Flux.step, Flux.complete, Flux.calls, Flux.doFinally, hi, replyInst, if_true]
          split
          · rfl
          · exact hn st.callbacks _
        | error x =>
          simp only [SrcOp.op, Flux.step, Flux.error, Flux.calls, Flux.doFinally, hi, replyInst, if_true]
          split
          · rfl
          · exact hn st.callbacks _
        | onSubscribe c => exact absurd rfl (hop c)
      · have : ∀ (l : List (Flux.Ev Pay)) (r : List (Handler.Ev H)), replyEvs j id l = .ok r → asks i r = [] := by
          intro l
          induction l with
          | nil => intro r h; cases h; rfl
          | cons x l ih =>
            intro r h
            simp only [replyEvs] at h
            obtain ⟨a, ha, h⟩ := bind_ok_inv h
            obtain ⟨b, hb, h⟩ := bind_ok_inv h
            cases h
            rw [asks_append, ih _ hb, List.append_nil]
            have hji : ¬ j = i := fun h => hij h.symm
            unfold replyEv at ha
            split at ha <;> cases ha <;> first | rfl | (cases x <;> simp [asks, hji])
        exact this _ _ h1
  · cases h; rfl

end
end Verif.Props
