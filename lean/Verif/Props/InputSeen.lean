import Verif.Props.SystemStreams
import Verif.Props.InputSent
import Verif.Props.Isolation
/-
What the subscriber of the input of a channel being answered sees, given the frames that arrive.
-/
set_option autoImplicit false
namespace Verif.Props
open Verif Frames Handler
open Verif.Invoke (Kind Registry getHandler)

section
variable {H : Type}

/-- The callbacks and calls of the subscriber of the input of the channel `j`. -/
def inpEvs (j : Nat) (tr : List (Handler.Ev H)) : List (Flux.Ev Pay) :=
  tr.filterMap fun | .inp i e => if i = j then some e else none | _ => none

/-! ## One step -/

theorem inpEvs_append (j : Nat) (a b : List (Handler.Ev H)) : inpEvs j (a ++ b) = inpEvs j a ++ inpEvs j b := by
  simp [inpEvs]

theorem inpEvs_demandEvs (j : Nat) (id : UInt32) (l : List (Flux.Ev Pay)) :
    inpEvs j (demandEvs j id (.inp j : Flux.Ev Pay → Handler.Ev H) l) = l := by
  induction l with
  | nil => rfl
  | cons e l ih => cases e <;> simp_all [demandEvs, inpEvs]

theorem inpEvs_evsOf (j : Nat) (tr : List (Handler.Ev H)) : inpEvs j (evsOf j tr) = inpEvs j tr := by
  induction tr with
  | nil => rfl
  | cons e tr ih =>
    by_cases h : e.obj = some j
    · have : evsOf j (e :: tr) = e :: evsOf j tr := by simp [evsOf, h]
      rw [this]
      simp only [inpEvs, List.filterMap_cons] at ih ⊢
      rw [ih]
    · rw [evsOf_cons_ne h]
      cases e
      case inp i x =>
        have : i ≠ j := by simpa [Handler.Ev.obj] using h
        simpa [inpEvs, this] using ih
      all_goals simpa [inpEvs] using ih

theorem inpEvs_replyEvs (j i : Nat) (id : UInt32) (l : List (Flux.Ev Pay)) :
    ∀ r : List (Handler.Ev H), replyEvs j id l = .ok r → inpEvs i r = [] := by
  induction l with
  | nil => intro r h; cases h; rfl
  | cons x l ih =>
    intro r h
    simp only [replyEvs] at h
    obtain ⟨a, ha, h⟩ := bind_ok_inv h
    obtain ⟨b, hb, h⟩ := bind_ok_inv h
    cases h
    rw [inpEvs_append, ih _ hb]
    unfold replyEv at ha
    split at ha <;> cases ha <;> simp [inpEvs]

/-- The channel `j` with id `id`, the subscriber of whose input is in state `st`. -/
def HasInp (j : Nat) (id : UInt32) (st : Flux.State) (s : St H) : Prop :=
  ∃ k out b, s.objs[j]? = some (.responder k id out b (some st))

/-- The input of channel `j` (with id `id`) was told `ops`, its subscriber having been in state `st`. -/
def ToldIn (j : Nat) (id : UInt32) (st : Flux.State) (ops : List (Flux.Op Pay)) (s' : St H)
    (e : List (Handler.Ev H)) : Prop :=
  HasInp j id (Flux.runFrom st ops).1 s' ∧ inpEvs j e = (Flux.runFrom st ops).2

theorem toldIn_trans {j : Nat} {id : UInt32} {st : Flux.State} {o1 o2 : List (Flux.Op Pay)} {s1 s2 : St H}
    {e1 e2 : List (Handler.Ev H)} (h1 : ToldIn j id st o1 s1 e1) (h2 : ToldIn j id (Flux.runFrom st o1).1 o2 s2 e2) :
    ToldIn j id st (o1 ++ o2) s2 (e1 ++ e2) := by
  unfold ToldIn at *
  rw [flux_runFrom_append, inpEvs_append, h1.2, h2.2]
  exact ⟨h2.1, rfl⟩

theorem toldIn_nop {j : Nat} {id : UInt32} {st : Flux.State} {s : St H}
    (h : HasInp j id st s)
    (e : List (Handler.Ev H)) (he : inpEvs j e = []) : ToldIn j id st [] s e := ⟨h, he⟩

theorem toldIn_deliver {j : Nat} {id : UInt32} {st : Flux.State} {s s' : St H} {op : Flux.Op Pay}
    {e : List (Handler.Ev H)}
    (h : HasInp j id st s)
    (hd : deliver s j op = .ok (s', e)) : ToldIn j id st [op] s' e := by
  obtain ⟨k, out, b, ho⟩ := h
  have hl : j < s.objs.length := (List.getElem?_eq_some_iff.mp ho).1
  unfold deliver at hd
  rw [ho] at hd
  simp only [onInp] at hd
  cases hd
  refine ⟨⟨k, out, b, by simp only [addTasks, setObj]; rw [List.getElem?_set_self hl]; rfl⟩, ?_⟩
  rw [inpEvs_demandEvs]; simp [Flux.runFrom]

theorem toldIn_closing {j : Nat} {id x : UInt32} {st : Flux.State} {s s' : St H} {e : List (Handler.Ev H)}
    (h : HasInp j id st s)
    (hd : closing x s = .ok (s', e)) : ToldIn j id st [] s' e := by
  cases hd
  exact toldIn_nop (by unfold HasInp; rw [remove_objs]; exact h) _ rfl

/-- A frame for the stream. -/
theorem toldIn_frame (j : Nat) (s s' : St H) (f : AnyFrame) (r : React) (e : List (Handler.Ev H))
    (id : UInt32) (st : Flux.State)
    (hj : HasInp j id st s)
    (hid : f.streamID = id) (h : dispatch s r f (some j) = .ok (s', e)) :
    ∃ ops, ToldIn j id st ops s' e ∧ (∀ op ∈ ops, ∀ cb, op ≠ .notify cb) ∧
      (∀ rest, cutAtEnd (ops.flatMap opSigs ++ rest) = cutAtEnd (frameSigs id f ++ rest)) ∧
      (.closed id ∈ e → ∃ y ∈ frameSigs id f, y.ends = true) := by
  cases f with
  | setup v =>
    simp only [dispatch] at h
    split at h
    · split at h
      · cases h; exact ⟨[], toldIn_nop hj _ rfl, by simp, by simp [frameSigs], by simp⟩
      · cases h
      · cases h
    · cases h; exact ⟨[], toldIn_nop hj _ rfl, by simp, by simp [frameSigs], by simp⟩
  | request v =>
    simp only [dispatch] at h
    split at h <;> cases h <;> exact ⟨[], toldIn_nop hj _ rfl, by simp, by simp [frameSigs], by simp⟩
  | requestN v =>
    simp only [dispatch] at h
    split at h <;> cases h
    exact ⟨[], toldIn_nop hj _ rfl, by simp, by simp [frameSigs], by simp⟩
  | cancel v =>
    have hv : v.streamID = id := hid
    simp only [dispatch] at h
    obtain ⟨t, e1, e2, h1, h2, rfl⟩ := andThen_ok h
    have a1 := toldIn_deliver hj h1
    have a2 := toldIn_trans a1 (toldIn_closing a1.1 h2)
    exact ⟨_, a2, by simp, by simp [opSigs, frameSigs, hv], fun _ => ⟨.complete, by simp [frameSigs, hv], rfl⟩⟩
  | payload v =>
    have hv : v.streamID = id := hid
    obtain ⟨t, e1, e2, h1, h2, rfl⟩ := andThen_ok h
    have a1 : ∃ ops, ToldIn j id st ops t e1 ∧ (∀ op ∈ ops, ∀ cb, op ≠ .notify cb) ∧
        ops.flatMap opSigs = (if v.next then [.element ⟨v.data, v.metadata⟩] else []) ∧ ∀ i, .closed i ∉ e1 := by
      split at h1
      · rename_i hn
        refine ⟨_, toldIn_deliver hj h1, by simp, by simp [opSigs, hn], ?_⟩
        intro i hi
        obtain ⟨k, out, b, ho⟩ := hj
        unfold deliver at h1
        rw [ho] at h1
        simp only [onInp] at h1
        cases h1
        have := demandEvs_obj j _ (.inp j : Flux.Ev Pay → Handler.Ev H) (fun _ => rfl) _ _ hi
        cases this
      · rename_i hn
        cases h1
        exact ⟨[], toldIn_nop hj _ rfl, by simp, by simp [hn], by simp⟩
    obtain ⟨o1, a1, n1, s1, c1⟩ := a1
    split at h2
    · rename_i hc
      obtain ⟨t2, e3, e4, h3, h4, rfl⟩ := andThen_ok h2
      have a2 := toldIn_deliver a1.1 h3
      have a3 := toldIn_trans a2 (toldIn_closing a2.1 h4)
      refine ⟨_, toldIn_trans a1 a3, ?_, ?_, fun _ => ⟨.complete, by simp [frameSigs, hv, hc], rfl⟩⟩
      · intro op ho cb
        rcases List.mem_append.mp ho with h | h
        · exact n1 op h cb
        · simp at h; subst h; simp
      · intro rest
        simp only [List.flatMap_append, s1, frameSigs, hv, hc, if_true]
        rfl
    · rename_i hc
      cases h2
      refine ⟨o1, by simpa using a1, n1, ?_, ?_⟩
      · intro rest
        simp [s1, frameSigs, hv, hc]
      · intro hm
        simp at hm
        exact absurd hm (c1 _)
  | error v =>
    have hv : v.streamID = id := hid
    obtain ⟨t, e1, e2, h1, h2, rfl⟩ := andThen_ok h
    obtain ⟨t2, e3, e4, h3, h4, rfl⟩ := andThen_ok h2
    have a1 := toldIn_deliver hj h1
    have a2 := toldIn_deliver a1.1 h3
    have a3 := toldIn_trans a1 (toldIn_trans a2 (toldIn_closing a2.1 h4))
    exact ⟨_, a3, by simp, by simp [opSigs, frameSigs, hv, cutAtEnd, StreamSig.ends],
      fun _ => ⟨.error (some (strOf v.data)), by simp [frameSigs, hv], rfl⟩⟩

/-- One step, seen from a subscribed stream: `hreg` says that it is found under its own id only. -/
theorem toldIn_step (j : Nat) (s s' : St H) (a : Act) (e : List (Handler.Ev H))
    (id : UInt32) (st : Flux.State)
    (hj : HasInp j id st s)
    (hreg : ∀ x, getStream s x = some j → x = id)
    (h : settle s (Handler.step s a) = .ok (s', e)) :
    ∃ ops, ToldIn j id st ops s' e ∧ (∀ op ∈ ops, ∀ cb, op ≠ .notify cb) ∧
      (getStream s id = some j →
        (∀ rest, cutAtEnd (ops.flatMap opSigs ++ rest) = cutAtEnd (actSigs id a ++ rest)) ∧
        (.closed id ∈ e → ∃ y ∈ actSigs id a, y.ends = true)) ∧
      (getStream s id ≠ some j → ops.flatMap opSigs = []) := by
  have hj' := hj
  obtain ⟨k, out, b, ho⟩ := hj
  have hl : j < s.objs.length := (List.getElem?_eq_some_iff.mp ho).1
  by_cases ha : actsOn s a = some j
  · -- steps other than frames tell nothing
    have plain : (∀ f r, a ≠ .frame f r) → ∀ ops, ops.flatMap opSigs = [] → ToldIn j id st ops s' e →
        (∀ op ∈ ops, ∀ cb, op ≠ .notify cb) → ∃ ops, ToldIn j id st ops s' e ∧ (∀ op ∈ ops, ∀ cb, op ≠ .notify cb) ∧
      (getStream s id = some j →
        (∀ rest, cutAtEnd (ops.flatMap opSigs ++ rest) = cutAtEnd (actSigs id a ++ rest)) ∧
        (.closed id ∈ e → ∃ y ∈ actSigs id a, y.ends = true)) ∧
      (getStream s id ≠ some j → ops.flatMap opSigs = []) := by
      intro hf ops h1 h2 h3
      refine ⟨ops, h2, h3, fun _ => ⟨?_, ?_⟩, fun _ => h1⟩
      · intro rest
        have : actSigs id a = [] := by cases a <;> first | rfl | exact absurd rfl (hf _ _)
        rw [h1, this]
      · intro hc
        obtain ⟨f, r, h4, -⟩ := (regs_settle s s' a e h).closed id hc
        exact absurd h4 (hf f r)
    have nop : (∀ f r, a ≠ .frame f r) → Handler.step s a = .ok (s, []) →
        ∃ ops, ToldIn j id st ops s' e ∧ (∀ op ∈ ops, ∀ cb, op ≠ .notify cb) ∧
      (getStream s id = some j →
        (∀ rest, cutAtEnd (ops.flatMap opSigs ++ rest) = cutAtEnd (actSigs id a ++ rest)) ∧
        (.closed id ∈ e → ∃ y ∈ actSigs id a, y.ends = true)) ∧
      (getStream s id ≠ some j → ops.flatMap opSigs = []) := by
      intro hf hs
      rw [hs] at h
      cases h
      exact ⟨[], toldIn_nop hj' _ rfl, by simp, fun _ => ⟨fun rest => by
        have : actSigs id a = [] := by cases a <;> first | rfl | exact absurd rfl (hf _ _)
        rw [this]; rfl, by simp⟩, fun _ => rfl⟩
    cases a with
    | frame f r =>
      simp only [actsOn] at ha
      split at ha
      · rename_i ht
        have hf := hreg _ ha
        have hg : getStream s id = some j := hf ▸ ha
        simp only [Handler.step, handleFrame, if_pos ht, ha] at h
        cases hd : dispatch s r f (some j) with
        | ok p =>
          rw [hd] at h
          obtain ⟨ops, t1, t2, t3, t4⟩ := toldIn_frame j s s' f r e id st hj' hf (hd.trans h)
          exact ⟨ops, t1, t2, fun _ => ⟨t3, t4⟩, fun hn => absurd hg hn⟩
        | panic => rw [hd] at h; cases h
        | err m =>
          exfalso
          cases f with
          | setup v => revert ht; simp only [AnyFrame.type]; decide
          | request v => simp only [dispatch] at hd; split at hd <;> cases hd
          | requestN v => simp only [dispatch] at hd; split at hd <;> cases hd
          | cancel v => exact andThen_noerr (deliver_noerr _ _ _) (closing_noerr _) m hd
          | payload v =>
            refine andThen_noerr ?_ ?_ m hd
            · intro m; split
              · exact deliver_noerr _ _ _ m
              · simp
            · intro t m; split
              · exact andThen_noerr (deliver_noerr _ _ _) (closing_noerr _) m
              · simp
          | error v =>
            exact andThen_noerr (deliver_noerr _ _ _)
              (fun t => andThen_noerr (deliver_noerr _ _ _) (closing_noerr _)) m hd
      · cases ha
    | run t ret =>
      simp only [actsOn] at ha
      simp only [Handler.step] at h
      cases ht : s.tasks[t]? with
      | none => rw [ht] at ha; cases ha
      | some task =>
        rw [ht] at ha h
        simp only at h
        refine plain (by simp) [] rfl ?_ (by simp)
        have onout : ∀ (s1 : St H) (f : Src) (b' : Bool) (st' : Flux.State × List (Flux.Ev Pay)), s1.objs = s.objs →
            settle s (onOut s1 j k id f b' (some st) st') = .ok (s', e) → ToldIn j id st [] s' e := by
          intro s1 f b' st' hs h
          cases hx : onOut s1 j k id f b' (some st) st' with
          | ok p =>
            rw [hx] at h
            obtain ⟨h1, rfl⟩ := Handler.onOut_ok (hx.trans h)
            refine toldIn_nop ⟨k, some (f, st'.1), b', ?_⟩ _ (inpEvs_replyEvs _ _ _ _ _ h1)
            simp only [setObj]; rw [hs, List.getElem?_set_self hl]
          | err m => rw [hx] at h; cases h; exact toldIn_nop hj' _ rfl
          | panic => rw [hx] at h; cases h
        cases task with
        | request k id data md n => cases ha
        | subscribe i f n =>
          cases ha
          simp only [runTask, ho] at h
          exact onout (addTasks { s with tasks := s.tasks.eraseIdx t } [.firstRequest j f n]) _ _ _ rfl h
        | firstRequest i f n =>
          cases ha
          simp only [runTask, ho] at h
          cases out with
          | none => cases h
          | some x =>
            simp only at h
            split at h
            · cases h
            · exact onout { s with tasks := s.tasks.eraseIdx t } _ _ _ rfl h
        | doRequest i n =>
          cases ha
          simp only [runTask, ho] at h
          cases out with
          | none => cases h
          | some x =>
            cases b with
            | false => cases h
            | true => exact onout { s with tasks := s.tasks.eraseIdx t } _ _ _ rfl h
        | upRequest i n =>
          cases ha
          simp only [runTask, ho] at h
          cases h; exact toldIn_nop hj' _ rfl
        | subscribeIn i =>
          cases ha
          simp only [runTask, ho] at h
          cases h
    | answer i sig => cases ha; exact nop (by simp) (by simp only [Handler.step, ho])
    | out i op =>
      cases ha
      simp only [Handler.step, ho] at h
      cases ho' : out with
      | none => rw [ho'] at ho; exact nop (by simp) (by simp only [Handler.step, ho])
      | some x =>
        obtain ⟨f, st'⟩ := x
        subst ho'
        simp only at h
        split at h
        · rename_i hn; exact nop (by simp) (by simp only [Handler.step, ho, hn, if_true])
        · cases hx : onOut s j k id f b (some st) (Flux.step st' op.op) with
          | ok p =>
            rw [hx] at h
            obtain ⟨h1, rfl⟩ := Handler.onOut_ok (hx.trans h)
            refine plain (by simp) [] rfl ?_ (by simp)
            refine toldIn_nop ⟨k, some (f, (Flux.step st' op.op).1), b, ?_⟩ _ (inpEvs_replyEvs _ _ _ _ _ h1)
            simp only [setObj]; rw [List.getElem?_set_self hl]
          | err m =>
            rw [hx] at h; cases h
            exact plain (by simp) [] rfl (toldIn_nop hj' _ rfl) (by simp)
          | panic => rw [hx] at h; cases h
    | subscribeInp i inst start => cases ha; exact nop (by simp) (by simp only [Handler.step, ho])
    | inpCall i x =>
      cases ha
      refine plain (by simp) [.call x] rfl ?_ (by simp)
      simp only [Handler.step, ho, settle, onInp] at h
      cases h
      refine ⟨⟨k, out, b, ?_⟩, ?_⟩
      · simp only [addTasks, setObj]; rw [List.getElem?_set_self hl]; rfl
      · rw [inpEvs_demandEvs]; simp [Flux.runFrom]
    | call k p input => cases ha
    | subscribeMono i inst => cases ha; exact nop (by simp) (by simp only [Handler.step, ho])
    | subscribeFlux i inst start => cases ha; exact nop (by simp) (by simp only [Handler.step, ho])
    | fluxCall i x => cases ha; exact nop (by simp) (by simp only [Handler.step, ho])
    | input i op => cases ha; exact nop (by simp) (by simp only [Handler.step, ho])
  · obtain ⟨h1, h2⟩ := idle_settle s a hl ha s' e h
    refine ⟨[], toldIn_nop ⟨k, out, b, h1.trans ho⟩ _ ?_, by simp, fun hg => ⟨?_, ?_⟩, fun _ => rfl⟩
    · rw [← inpEvs_evsOf, h2]; rfl
    · intro rest
      have : actSigs id a = [] := by
        cases a with
        | frame f r =>
          simp only [actSigs]
          by_cases hz : frameSigs id f = []
          · exact hz
          · obtain ⟨h3, h4⟩ := frameSigs_type hz
            exact absurd (by simp only [actsOn, if_pos h4, h3]; exact hg) ha
        | _ => rfl
      rw [this]; rfl
    · intro hc
      obtain ⟨f, r, rfl, h3⟩ := (regs_settle s s' a e h).closed id hc
      have h4 := closed_frame_type s s' f r e id h hc
      exact absurd (by simp only [actsOn, if_pos h4, h3]; exact hg) ha


/-! ## Histories -/

/-- A history after the subscription of stream `j`: it was told what arrived, up to the end. -/
theorem toldIn_history (reg : Registry H) (client : Bool) (before : List Act) (j : Nat) (id : UInt32)
    (st : Flux.State) (after : List Act) : ∀ (s1 s2 : St H) (t1 t2 : List (Handler.Ev H))
    (_ : Handler.run reg client before = .ok (s1, t1))
    (_ : HasInp j id st s1)
    (_ : .opened id j ∈ t1) (_ : .closed id ∉ t1)
    (_ : Handler.run reg client (before ++ after) = .ok (s2, t1 ++ t2)) (_ : (openedIds (t1 ++ t2)).Nodup),
    ∃ ops, ToldIn j id st ops s2 t2 ∧ (∀ op ∈ ops, ∀ cb, op ≠ .notify cb) ∧
      (∀ rest, cutAtEnd (ops.flatMap opSigs ++ rest) = cutAtEnd (arrivals id after ++ rest)) ∧
      (.closed id ∈ t2 → ∃ y ∈ arrivals id after, y.ends = true) := by
  induction after using snoc_induction with
  | nil =>
    intro s1 s2 t1 t2 h1 hj ho hc h2 hu
    rw [List.append_nil, h1] at h2
    have h2 : (s1, t1) = (s2, t1 ++ t2) := Go.ok.inj h2
    have e1 : s1 = s2 := congrArg Prod.fst h2
    have e2 : t1 = t1 ++ t2 := congrArg Prod.snd h2
    have e3 : t2 = [] := by simpa using e2
    subst e1 e3
    exact ⟨[], toldIn_nop hj _ rfl, by simp, by simp [arrivals], by simp⟩
  | snoc after a ih =>
    intro s1 s2 t1 t2 h1 hj ho hc h2 hu
    rw [← List.append_assoc] at h2
    obtain ⟨s, t, e, h3, h4, h5⟩ := run_snoc_inv _ _ _ _ _ _ h2
    obtain ⟨t', rfl⟩ : ∃ t', t = t1 ++ t' := by
      unfold Handler.run at h3 h1
      rw [handler_runFrom_append, h1] at h3
      obtain ⟨_, _, t', h6, -, h7⟩ := andThen_ok h3
      cases h6
      exact ⟨t', h7⟩
    have e3 : t2 = t' ++ e := by
      rw [List.append_assoc] at h5; exact List.append_cancel_left h5
    subst e3
    have hu' : (openedIds (t1 ++ t')).Nodup := by
      rw [← List.append_assoc, openedIds_append] at hu
      exact hu.sublist (List.sublist_append_left _ _)
    obtain ⟨ops, g1, g2, g3, g4⟩ := ih s1 s t1 t' h1 hj ho hc h3 hu'
    obtain ⟨⟨k, out, b, g5⟩, g7⟩ := g1
    have hown : ∀ x, getStream s x = some j → x = id := by
      intro x hx
      exact own_id_only reg client _ s _ h3 j _ g5 x hx
    obtain ⟨ops', k1, k2, k3, k4⟩ := toldIn_step j s s2 a e id _ ⟨k, out, b, g5⟩ hown h4
    refine ⟨ops ++ ops', toldIn_trans ⟨⟨k, out, b, g5⟩, g7⟩ k1, ?_, ?_, ?_⟩
    · intro op hop cb
      exact (List.mem_append.mp hop).elim (fun h => g2 op h cb) (fun h => k2 op h cb)
    · intro rest
      rw [arrivals_append, List.flatMap_append, List.append_assoc, List.append_assoc, g3]
      by_cases hcl : .closed id ∈ t'
      · rw [cutAtEnd_done _ _ (g4 hcl), cutAtEnd_done _ _ (g4 hcl)]
      · have hg : getStream s id = some j := by
          refine getStream_live reg client _ s _ h3 id j hu' (List.mem_append_left _ ho) ?_
          intro hm
          exact (List.mem_append.mp hm).elim hc hcl
        have h0 := (k3 hg).1
        have : arrivals id [a] = actSigs id a := by rw [arrivals_eq]; simp
        rw [this]
        by_cases hd : ∃ y ∈ arrivals id after, y.ends = true
        · rw [cutAtEnd_done _ _ hd, cutAtEnd_done _ _ hd]
        · have hall : ∀ y ∈ arrivals id after, y.ends = false := by
            intro y hy
            rcases (Bool.eq_false_or_eq_true y.ends).symm with h | h
            · exact h
            · exact absurd ⟨y, hy, h⟩ hd
          rw [cutAtEnd_append _ _ hall, cutAtEnd_append _ _ hall, h0]
    · intro hm
      rw [arrivals_append]
      have : arrivals id [a] = actSigs id a := by rw [arrivals_eq]; simp
      rw [this]
      by_cases hcl : .closed id ∈ t'
      · obtain ⟨y, hy, he⟩ := g4 hcl
        exact ⟨y, List.mem_append_left _ hy, he⟩
      · have hg : getStream s id = some j := by
          refine getStream_live reg client _ s _ h3 id j hu' (List.mem_append_left _ ho) ?_
          intro hm
          exact (List.mem_append.mp hm).elim hc hcl
        rcases List.mem_append.mp hm with h | h
        · exact absurd h hcl
        · obtain ⟨y, hy, he⟩ := (k3 hg).2 h
          exact ⟨y, List.mem_append_right _ hy, he⟩


/-- A channel whose input has no subscriber has shown nothing. -/
theorem inp_unsubscribed_quiet {j : Nat} {o o' : Obj} {ts ts' : List Task} {es : List (Handler.Ev H)}
    (h : CRun j o ts o' ts' es) : ∀ k id out b, o' = .responder k id out b none → inpEvs j es = [] := by
  induction h with
  | refl => intro _ _ _ _ _; rfl
  | perm _ _ _ _ _ _ ih => exact ih
  | step o1 t1 o2 t2 es es' hr hs ih =>
    intro k id out b he
    subst he
    rw [inpEvs_append]
    cases hs with
    | outSub _ _ _ _ _ _ _ _ _ h => rw [ih _ _ _ _ rfl, inpEvs_replyEvs _ _ _ _ _ h]; rfl
    | outFirst _ _ _ _ _ _ _ _ _ _ _ h => rw [ih _ _ _ _ rfl, inpEvs_replyEvs _ _ _ _ _ h]; rfl
    | outReq _ _ _ _ _ _ _ _ h => rw [ih _ _ _ _ rfl, inpEvs_replyEvs _ _ _ _ _ h]; rfl
    | out _ _ _ _ _ _ _ _ _ _ h => rw [ih _ _ _ _ rfl, inpEvs_replyEvs _ _ _ _ _ h]; rfl
    | inpUp => rw [ih _ _ _ _ rfl]; rfl
    | asked => rw [ih _ _ _ _ rfl]; rfl

theorem responder_kind_run {j : Nat} {o o' : Obj} {ts ts' : List Task} {es : List (Handler.Ev H)} {k : Kind} {id : UInt32}
    (h : CRun j o ts o' ts' es) : (∃ out b inp, o = .responder k id out b inp) → ∃ out b inp, o' = .responder k id out b inp := by
  intro h0
  induction h with
  | refl => exact h0
  | perm _ _ _ _ _ _ ih => exact ih
  | step _ _ _ _ _ _ _ hs ih =>
    obtain ⟨out, b, inp, rfl⟩ := ih
    cases hs <;> exact ⟨_, _, _, rfl⟩

theorem inp_unsubscribed (reg : Registry H) (client : Bool) (as : List Act) (s : St H)
    (tr : List (Handler.Ev H)) (h : Handler.run reg client as = .ok (s, tr)) (j : Nat)
    (id : UInt32) (out : Option (Src × Flux.State)) (b : Bool)
    (ho : s.objs[j]? = some (.responder .rc id out b none)) : inpEvs j tr = [] ∧ .opened id j ∈ tr := by
  rcases Handler.history reg client as s tr h j with ⟨h1, -⟩ | ⟨o0, ts0, es0, o, es, hb, ho', hr, he⟩
  · rw [ho] at h1; cases h1
  · rw [ho] at ho'; cases ho'
    have ht := tag_run hr
    rw [← inpEvs_evsOf, he, inpEvs_append, inp_unsubscribed_quiet hr _ _ _ _ rfl]
    have fin : ∀ id', .opened id' j ∈ es0 → .opened id j ∈ tr := by
      intro id' h1
      have h1 : .opened id' j ∈ evsOf j tr := by rw [he]; exact List.mem_append_left _ h1
      have h1 := (List.mem_filter.mp h1).1
      obtain ⟨o', h2, h3⟩ := opened_history reg client as s tr h j id' h1
      rw [ho] at h2; cases h2
      rw [show id = id' from h3.symm]; exact h1
    cases hb with
    | fnf id' => obtain ⟨_, _, _, q⟩ := responder_kind_run (k := .fnf) (id := id') hr ⟨_, _, _, rfl⟩; cases q
    | stream k' id' _ _ _ _ hes =>
      obtain ⟨_, _, _, q⟩ := responder_kind_run (k := k') (id := id') hr ⟨_, _, _, rfl⟩
      cases q
      rcases hes with rfl | ⟨h1, -⟩
      · exact ⟨rfl, fin id (by simp)⟩
      · cases h1
    | _ => cases ht

/-- What the subscriber of the input of a channel sees of the frames that arrive after it subscribed. -/
theorem input_received (reg : Registry H) (client : Bool) (before after : List Act) (s1 s2 : St H)
    (t1 t2 : List (Handler.Ev H)) (j : Nat) (id : UInt32) (out : Option (Src × Flux.State)) (b : Bool)
    (inst : Flux.Installed) (start : List Flux.Call)
    (h1 : Handler.run reg client before = .ok (s1, t1)) (hj : s1.objs[j]? = some (.responder .rc id out b none))
    (hc : .closed id ∉ t1)
    (h2 : Handler.runFrom s1 (.subscribeInp j inst start :: after) = .ok (s2, t2))
    (hu : (openedIds (t1 ++ t2)).Nodup) :
    inpEvs j t1 = [] ∧
    (∃ r, r <+: cutAtEnd (arrivals id after) ∧ fluxSignals (inpEvs j t2) = r.flatMap (sigCalls inst)) ∧
    (.cancelled ∉ inpEvs j t2 →
      fluxCallbacks (inpEvs j t2) = (cutAtEnd (arrivals id after)).flatMap (sigCallbacks inst)) := by
  obtain ⟨hq, hopen⟩ := inp_unsubscribed reg client before s1 t1 h1 j id out b hj
  refine ⟨hq, ?_⟩
  simp only [Handler.runFrom] at h2
  obtain ⟨s', e1, e2, h3, h4, rfl⟩ := andThen_ok h2
  have hr' := handler_run_snoc reg client before _ s1 s' t1 e1 h1 h3
  have hl : j < s1.objs.length := (List.getElem?_eq_some_iff.mp hj).1
  simp only [Handler.step, hj, settle] at h3
  have h3 := Go.ok.inj h3
  have hs' := (congrArg Prod.fst h3).symm
  have he1 := (congrArg Prod.snd h3).symm
  dsimp only at hs' he1
  have hobj : HasInp j id (Flux.runFrom (.init inst []) [(.onSubscribe true : Flux.Op Pay), .start start]).1 s' := by
    refine ⟨.rc, out, b, ?_⟩
    rw [hs']
    simp only [addTasks, setObj]
    rw [List.getElem?_set_self hl]
  have hcl : .closed id ∉ t1 ++ e1 := by
    intro hm
    rcases List.mem_append.mp hm with hm | hm
    · exact hc hm
    · rw [he1] at hm
      have := demandEvs_obj j _ (.inp j : Flux.Ev Pay → Handler.Ev H) (fun _ => rfl) _ _ hm
      cases this
  have hrun : Handler.run reg client ((before ++ [.subscribeInp j inst start]) ++ after) =
      .ok (s2, (t1 ++ e1) ++ e2) := by
    unfold Handler.run at hr' ⊢
    rw [handler_runFrom_append, hr']
    simp only [andThen, h4]
  obtain ⟨ops, g1, g2, g3, -⟩ := toldIn_history reg client (before ++ [.subscribeInp j inst start]) j id _ after
    s' s2 (t1 ++ e1) e2 hr' hobj (List.mem_append_left _ hopen) hcl hrun (by simpa using hu)
  have hev : inpEvs j (e1 ++ e2) =
      (Flux.runFrom (.init inst []) (.onSubscribe true :: .start start :: ops)).2 := by
    have e0 : (.onSubscribe true :: .start start :: ops : List (Flux.Op Pay)) = [.onSubscribe true, .start start] ++ ops := rfl
    rw [e0, flux_runFrom_append, inpEvs_append, g1.2, he1]
    congr 1
    exact inpEvs_demandEvs _ _ _
  have hsig : cutAtEnd ((.onSubscribe true :: .start start :: ops : List (Flux.Op Pay)).flatMap opSigs) =
      cutAtEnd (arrivals id after) := by
    have := g3 []
    rw [List.append_nil, List.append_nil] at this
    rw [← this]; rfl
  rw [hev]
  constructor
  · obtain ⟨r, h5, h6⟩ := signals_prefix (.onSubscribe true :: .start start :: ops) (.init inst [])
    rw [hsig] at h5
    exact ⟨r, h5, h6⟩
  · intro hn
    have := callbacks_run (.onSubscribe true :: .start start :: ops) (.init inst []) rfl (by
      intro op hop cb
      rcases List.mem_cons.mp hop with rfl | hop
      · simp
      · rcases List.mem_cons.mp hop with rfl | hop
        · simp
        · exact g2 op hop cb) hn
    rw [hsig] at this
    exact this

end
end Verif.Props
