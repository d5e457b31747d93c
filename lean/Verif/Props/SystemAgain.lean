import Verif.Props.SystemCalls
/-
Property C102: asking again for the result of a request/response call.
-/
set_option autoImplicit false
namespace Verif.Props
open Verif Frames Handler
open Verif.Invoke (Kind Registry getHandler)
open Verif.System (Sys Move)

section
variable {H : Type}

/-! ## Specification -/

/-- A connection is run: after `pre`, end A makes a request/response call with payload `p`, and things go on
(`post`). The call is stream number `s0.a.objs.length` of A and has the id `callId s0.a`. -/
def askRun (regA regB : Registry H) (client : Bool) (pre : List Move) (s0 : Sys H) (p : Pay) (src : Src)
    (post : List Move) (s : Sys H) : Prop :=
  System.run regA regB client pre = .ok s0 ∧
  System.run regA regB client (pre ++ .atA (.call .rr p src) :: post) = .ok s

/-- How often A's application has subscribed to the call since it made it (`Subscribe`, `Block` and `Async` all do). -/
def timesAsked (s0 s : Sys H) : Nat := (s.histA.drop s0.histA.length).countP fun
  | .subscribeMono j _ => j == s0.a.objs.length
  | _ => false

/-- What B has made of the requests with id `x`: each is rejected, or the operation is invoked. -/
def madeOf (x : UInt32) (s : Sys H) : List (Verdict H) := (verdicts s.trB).filter fun v => decide (v.id = x)

/-- C102 in full: the operation of a call is carried out at most once, however often the caller asks for the result. -/
def C102_statement : Prop :=
  ∀ (H : Type) (regA : Registry H) (callsB : List (Invoke.Call H)), fewCalls callsB → ∀ (client : Bool) (pre post : List Move)
    (s0 s : Sys H) (p : Pay) (src : Src), askRun regA (Invoke.run Registry.init callsB) client pre s0 p src post s →
    callCount s.histA < 2 ^ 30 → (madeOf (callId s0.a) s).length ≤ 1

/-! ## Proof -/

/-- A mono sends its request each time it is registered, and nothing else. -/
def AgainInv (j : Nat) (o : Obj) (es : List (Handler.Ev H)) : Prop :=
  ∀ req proc, o = .mono req proc → framesBy j es = List.replicate (openedIds es).length (.request req)

theorem openedIds_monos (j : Nat) (l : List (Mono.Ev Pay)) : openedIds (l.map (.mono j : _ → Handler.Ev H)) = [] := by
  apply List.filterMap_eq_nil_iff.mpr
  intro e he
  obtain ⟨x, -, rfl⟩ := List.mem_map.mp he
  rfl

theorem again_step {j : Nat} {o o' : Obj} {ts ts' : List Task} {es es' : List (Handler.Ev H)}
    (hs : CStep j o ts o' ts' es') (inv : AgainInv j o es) : AgainInv j o' (es ++ es') := by
  intro req proc ho
  cases hs <;> cases ho
  case monoOp p _ _ =>
    rw [framesBy_append, openedIds_append, (monoMap_quiet j _).1, openedIds_monos, List.append_nil, List.append_nil]
    exact inv _ _ rfl
  case monoSub p inst =>
    have h1 : openedIds (.opened req.streamID j :: (p.step (.subscribe inst)).2.map (.mono j) ++
        [(.sent (some j) (.request req) : Handler.Ev H)]) = [req.streamID] := by
      rw [List.cons_append, ← List.singleton_append, openedIds_append, openedIds_append, openedIds_monos]
      rfl
    have h2 : framesBy j (.opened req.streamID j :: (p.step (.subscribe inst)).2.map (.mono j) ++
        [(.sent (some j) (.request req) : Handler.Ev H)]) = [.request req] := by
      rw [framesBy_append, framesBy_cons, (monoMap_quiet j _).1]
      simp [framesBy]
    rw [framesBy_append, openedIds_append, h1, h2, inv _ _ rfl, List.length_append]
    simp [List.replicate_succ']
  case asked => rw [List.append_nil]; exact inv _ _ rfl

theorem again_run {j : Nat} {o o' : Obj} {ts ts' : List Task} {es0 es : List (Handler.Ev H)}
    (inv : AgainInv j o es0) (h : CRun j o ts o' ts' es) : AgainInv j o' (es0 ++ es) := by
  induction h with
  | refl => simpa using inv
  | perm _ _ _ _ _ _ ih => exact ih
  | step _ _ _ _ _ _ _ hs ih => rw [← List.append_assoc]; exact again_step hs ih

theorem again_born {j : Nat} {o : Obj} {ts : List Task} {es : List (Handler.Ev H)} (h : Born j o ts es) : AgainInv j o es := by
  intro req proc ho
  cases h <;> cases ho
  rfl

theorem again_history {reg : Registry H} {client : Bool} {as : List Act} {s : St H}
    {tr : List (Handler.Ev H)} (h : Handler.run reg client as = .ok (s, tr)) {j : Nat} {req : RequestPayload}
    {proc : Mono.Proc Pay} (ho : s.objs[j]? = some (.mono req proc)) :
    framesBy j tr = List.replicate (openedIds (evsOf j tr)).length (.request req) := by
  rcases Handler.history reg client as s tr h j with ⟨h1, -⟩ | ⟨o0, ts0, es0, o, es, hb, ho', hr, he⟩
  · rw [ho] at h1; cases h1
  · rw [ho] at ho'; cases ho'
    have := again_run (again_born hb) hr req proc rfl
    rw [← he, framesBy_evsOf] at this
    exact this

/-- From its creation on, a mono is registered each time it is subscribed to. -/
theorem opened_again {reg : Registry H} {client : Bool} {as : List Act} {s : St H} {tr : List (Handler.Ev H)}
    (h : Handler.run reg client as = .ok (s, tr)) {j : Nat} {req : RequestPayload} {proc : Mono.Proc Pay}
    (ho : s.objs[j]? = some (.mono req proc)) (he : evsOf j tr = []) (more : List Act) :
    ∀ {s' : St H} {tr' : List (Handler.Ev H)}, Handler.run reg client (as ++ more) = .ok (s', tr') →
    (∃ proc', s'.objs[j]? = some (.mono req proc')) ∧ (openedIds (evsOf j tr')).length = subscriptionsTo j more := by
  induction more using snoc_induction with
  | nil =>
    intro s' tr' h'
    rw [List.append_nil, h] at h'
    cases h'
    exact ⟨⟨_, ho⟩, by rw [he]; rfl⟩
  | snoc more a ih =>
    intro s' tr' h'
    rw [← List.append_assoc] at h'
    obtain ⟨s1, t1, e, h2, h3, rfl⟩ := run_snoc_inv _ _ _ _ _ _ h'
    obtain ⟨⟨proc1, q1⟩, q2⟩ := ih h2
    have hloc := loc_settle j s1 _ (loc_step j s1 a) s' e h3
    obtain ⟨o', h4, h5⟩ := hloc.1 _ q1
    have hmono : ∃ proc', o' = .mono req proc' := by
      have : ∀ {o o' : Obj} {ts ts' : List Task} {es : List (Handler.Ev H)}, CRun j o ts o' ts' es →
          (∃ p, o = .mono req p) → ∃ p, o' = .mono req p := by
        intro o o' ts ts' es hr
        induction hr with
        | refl => exact id
        | perm _ _ _ _ _ _ ih => exact ih
        | step _ _ _ _ _ _ _ hs ih =>
          intro hp
          obtain ⟨p, rfl⟩ := ih hp
          cases hs
          all_goals exact ⟨_, rfl⟩
      exact this h5 ⟨_, rfl⟩
    obtain ⟨proc', rfl⟩ := hmono
    refine ⟨⟨_, h4⟩, ?_⟩
    rw [evsOf_append, openedIds_append, List.length_append, q2, subscriptionsTo_append]
    congr 1
    have hr := regs_settle _ _ _ _ h3
    rcases (Bool.eq_false_or_eq_true (subscribesTo j a)).symm with hb | hb
    · have h6 : openedIds (evsOf j e) = [] := by
        apply List.filterMap_eq_nil_iff.mpr
        intro ev hev
        obtain ⟨h7, h8⟩ := List.mem_filter.mp hev
        cases ev with
        | opened id i =>
          simp [Handler.Ev.obj] at h8
          subst h8
          rcases hr.opened id i h7 with h9 | ⟨o, h9, h10⟩
          · rw [hb] at h9; cases h9
          · rw [h4] at h9; cases h9; exact absurd rfl h10
        | _ => rfl
      rw [h6]
      simp [subscriptionsTo, hb]
    · cases a with
      | subscribeMono i inst =>
        have hi : i = j := by simpa [subscribesTo] using hb
        subst hi
        simp only [Handler.step, q1, settle] at h3
        cases h3
        have : evsOf i (.opened req.streamID i :: (proc1.step (.subscribe inst)).2.map (.mono i) ++
            [(.sent (some i) (.request req) : Handler.Ev H)]) = .opened req.streamID i :: (proc1.step (.subscribe inst)).2.map (.mono i) ++
            [.sent (some i) (.request req)] := by
          apply evsOf_all
          intro ev hev
          simp only [List.cons_append, List.mem_cons, List.mem_append, List.mem_map, List.not_mem_nil, or_false] at hev
          rcases hev with rfl | ⟨x, -, rfl⟩ | rfl <;> rfl
        rw [this, List.cons_append, ← List.singleton_append, openedIds_append, openedIds_append, openedIds_monos]
        simp [subscriptionsTo, subscribesTo, openedIds]
      | _ => cases hb

/-- The request frames with the id of a call are those the call itself sends. -/
theorem requests_of_call {reg : Registry H} {client : Bool} {as : List Act} {s : St H} {tr : List (Handler.Ev H)}
    (h : Handler.run reg client as = .ok (s, tr)) (hc : callCount as < 2 ^ 30) {j : Nat} {o : Obj}
    (ho : s.objs[j]? = some o) (hk : o.own = true) :
    (sentFrames tr).filter (fun f => isReq f && decide (f.streamID = o.sid)) =
      (framesBy j tr).filter (fun f => isReq f && decide (f.streamID = o.sid)) := by
  have hu := uses_own o.sid h hc
  let Q : AnyFrame → Bool := fun f => isReq f && decide (f.streamID = o.sid)
  have hkey : o.key = (true, o.sid) := Prod.ext hk rfl
  refine frames_source Q (some j) tr fun b f hb hq => ?_
  simp only [Q, Bool.and_eq_true, decide_eq_true_eq] at hq
  rw [uses_parts] at hu
  have pos := mem_filter_pos (p := fun o' : Obj => decide (o'.key = (true, o.sid))) (List.mem_of_getElem? ho) (by simp [hkey])
  cases b with
  | none =>
    have := mem_filter_pos (p := fun f => decide (looseKey f = (true, o.sid))) (looseFrames_mem hb)
      (by simp [looseKey_req hq.1, hq.2])
    omega
  | some i =>
    obtain ⟨o', h1, h2, h3⟩ := sent_history reg client as s tr h i f hb
    have hk' : o'.key = (true, o.sid) := Prod.ext (h3 hq.1) (h2.symm.trans hq.2)
    rw [index_unique (p := fun o' : Obj => decide (o'.key = (true, o.sid))) (by omega) h1 (by simp [hk']) ho (by simp [hkey])]

theorem asked_eq (s0 s : Sys H) : timesAsked s0 s = subscriptionsTo s0.a.objs.length (s.histA.drop s0.histA.length) := by
  unfold timesAsked subscriptionsTo
  congr 1

/-- The request frames A has sent for the call. -/
theorem asked_sent {regA regB : Registry H} {client : Bool} {pre post : List Move} {s0 s : Sys H} {p : Pay} {src : Src}
    (h : askRun regA regB client pre s0 p src post s) (hc : callCount s.histA < 2 ^ 30) :
    (sentFrames s.trA).filter (fun f => isReq f && decide (f.streamID = callId s0.a)) =
      List.replicate (timesAsked s0 s) (.request (requestOf (callId s0.a) p)) := by
  obtain ⟨h0, h⟩ := h
  have hJ := joined_run _ h
  have hJ0 := joined_run _ h0
  obtain ⟨s0', h3, h4⟩ := sys_append_ok _ _ h
  rw [show System.runFrom (.init regA regB client) pre = .ok s0 from h0] at h3
  cases h3
  obtain ⟨s2, h5, h6⟩ := sys_cons_ok h4
  have hJ2 := joined_step _ hJ0 h5
  obtain ⟨⟨more, hmore⟩, -⟩ := hist_runFrom _ h6
  rw [asked_eq]
  generalize hjd : s0.a.objs.length = j at *
  simp only [System.step, System.isFrame, Bool.false_eq_true, if_false, System.moveA, Handler.step, settle] at h5
  have h5 := (Go.ok.inj h5).symm
  have ho2 : s2.a.objs[j]? = some (.mono (requestOf (callId s0.a) p) .init) := by
    rw [h5]
    show (s0.a.objs ++ _)[j]? = _
    rw [List.getElem?_append_right (by omega), hjd, Nat.sub_self]
    rfl
  have he2 : evsOf j s2.trA = [] := by
    rw [h5]
    show evsOf j (s0.trA ++ []) = []
    rw [List.append_nil]
    rcases k_history _ _ _ _ _ hJ0.a j with ⟨-, q⟩ | ⟨o, q, -⟩
    · exact q
    · rw [List.getElem?_eq_none (by omega)] at q; cases q
  have hh2 : s2.histA = s0.histA ++ [.call .rr p src] := by rw [h5]
  have hd : s.histA.drop s0.histA.length = .call .rr p src :: more := by
    rw [hmore, hh2, List.append_assoc, List.drop_left]; rfl
  have hJa := hJ.a
  rw [hmore] at hJa
  obtain ⟨⟨proc, ho⟩, hn⟩ := opened_again hJ2.a ho2 he2 more hJa
  have hx : (Obj.mono (requestOf (callId s0.a) p) proc).sid = callId s0.a := rfl
  have hreq := requests_of_call hJ.a hc ho rfl
  rw [hx] at hreq
  rw [hreq, again_history hJ.a ho, hn, hd]
  have : subscriptionsTo j (.call .rr p src :: more) = subscriptionsTo j more := by
    simp [subscriptionsTo, subscribesTo]
  rw [this, List.filter_replicate, if_pos]
  simp [isReq, AnyFrame.streamID, requestOf]

/-- C102, first part: A sends the request each time the application subscribes to the call, and at no other time. -/
theorem C102_sent_partial (regA regB : Registry H) (client : Bool) (pre post : List Move) (s0 s : Sys H) (p : Pay) (src : Src)
    (h : askRun regA regB client pre s0 p src post s) (hc : callCount s.histA < 2 ^ 30) :
    (sentFrames s.trA).filter (fun f => isReq f && decide (f.streamID = callId s0.a)) =
      List.replicate (timesAsked s0 s) (.request (requestOf (callId s0.a) p)) :=
  asked_sent h hc

theorem flatMap_dueOf (callsB : List (Invoke.Call H)) (x : UInt32) (l : List AnyFrame) :
    (withId x l).flatMap (dueOf callsB) =
      (l.filter fun f => isReq f && decide (f.streamID = x)).flatMap (dueOf callsB) := by
  induction l with
  | nil => rfl
  | cons f l ih =>
    rw [withId_cons, List.filter_cons]
    by_cases hx : f.streamID = x
    · rw [if_pos hx, List.flatMap_cons, ih]
      cases f <;> simp [isReq, hx, dueOf]
    · rw [if_neg hx, ih, if_neg (by simp [hx])]

/-- C102, what holds: B carries the operation out (or rejects it) at most once for each time A has asked, always with the
payload of the call; once nothing is under way, exactly as often as A has asked. -/
theorem C102_times_partial (regA : Registry H) (callsB : List (Invoke.Call H)) (hcb : fewCalls callsB) (client : Bool)
    (pre post : List Move) (s0 s : Sys H) (p : Pay) (src : Src)
    (h : askRun regA (Invoke.run Registry.init callsB) client pre s0 p src post s) (hc : callCount s.histA < 2 ^ 30) :
    (∃ n, n ≤ timesAsked s0 s ∧
      madeOf (callId s0.a) s = List.replicate n (verdict callsB .rr (callId s0.a) p.data p.metadata)) ∧
    (settled s (callId s0.a) → madeOf (callId s0.a) s =
      List.replicate (timesAsked s0 s) (verdict callsB .rr (callId s0.a) p.data p.metadata)) := by
  have hJ := joined_run _ h.2
  have hsent := asked_sent h hc
  have hp := (C56_accounted callsB hcb _ _ _ _ hJ.b).filter fun v => decide (v.id = callId s0.a)
  rw [due_filter, List.filter_append, flatMap_dueOf] at hp
  rw [hJ.ab, List.filter_append] at hsent
  obtain ⟨h1, h2, h3⟩ := List.append_eq_replicate_iff.mp hsent
  have hdue : dueOf callsB (.request (requestOf (callId s0.a) p)) =
      [verdict callsB .rr (callId s0.a) p.data p.metadata] := rfl
  rw [h2] at hp
  generalize hm : ((handedOver s.histB).filter fun f => isReq f && decide (f.streamID = callId s0.a)).length = m at *
  have e1 : (List.replicate m (AnyFrame.request (requestOf (callId s0.a) p))).flatMap (dueOf callsB) =
      List.replicate m (verdict callsB .rr (callId s0.a) p.data p.metadata) := by
    clear hp hm h2 h1
    induction m with
    | zero => rfl
    | succ m ih => rw [List.replicate_succ, List.flatMap_cons, ih, hdue]; rfl
  rw [e1] at hp
  obtain ⟨h4, h5, -⟩ := List.append_eq_replicate_iff.mp (List.replicate_perm.mp hp).symm
  refine ⟨⟨_, by omega, h5⟩, fun ⟨q1, _, q3⟩ => ?_⟩
  rw [open_filter _ _ _ q3] at h4
  rw [q1] at h1
  simp only [List.filter_nil, List.length_nil, Nat.add_zero] at h1 h4
  rw [madeOf, h5, h4, h1]

end

/-! ## Concrete runs -/

/-- What B exports: one request/response operation. -/
def calls102 : List (Invoke.Call Unit) := [.exp .rr [1] [2] ()]

/-- A makes a call, lets it run to its end, then makes another one and subscribes to that twice. B carries it out twice and
answers twice. -/
def again102 : List Move :=
  [.atA (.call .rr ⟨[5], eightZeros⟩ .created), .atA (.subscribeMono 0 ⟨true, true, true⟩), .toB noReact,
   .atB (.run 0 ⟨.just ⟨[7], []⟩, .created, true⟩), .toA noReact]

def twice102 : List Move :=
  [.atA (.subscribeMono 1 ⟨true, true, true⟩), .atA (.subscribeMono 1 ⟨true, true, true⟩), .toB noReact, .toB noReact,
   .atB (.run 0 ⟨.just ⟨[8], []⟩, .created, true⟩), .atB (.run 0 ⟨.just ⟨[9], []⟩, .created, true⟩), .toA noReact, .toA noReact]

def reg102 : Registry Unit := Invoke.run Registry.init calls102
def start102 : Sys Unit := sysAfter (System.run reg102 reg102 true again102)
def end102 : Sys Unit := sysAfter (System.run reg102 reg102 true (again102 ++ .atA (.call .rr ⟨[6], eightZeros⟩ .created) :: twice102))

/-- The hypotheses hold for this run; A has asked twice, and B has been invoked twice. -/
example : askRun reg102 reg102 true again102 start102 ⟨[6], eightZeros⟩ .created twice102 end102 ∧
    callCount end102.histA < 2 ^ 30 ∧ fewCalls calls102 ∧ timesAsked start102 end102 = 2 ∧ callId start102.a = 3 ∧
    madeOf 3 end102 = [.invoked .rr () 3 ⟨[6], []⟩, .invoked .rr () 3 ⟨[6], []⟩] := by
  refine ⟨⟨rfl, rfl⟩, by decide +kernel, by show (1 : Nat) < _; decide, by decide +kernel, by decide +kernel, rfl⟩

/-- Nothing is under way in the end, and both answers have come in: the second of the two subscribers has seen the first
answer, the first subscriber has seen nothing and never will (its `Block` does not return), and the second answer is lost. -/
theorem C102_unheard_violated : settled end102 3 ∧
    withId 3 (handedOver end102.histA) = [.payload ⟨3, [], [8], false, true, true⟩, .payload ⟨3, [], [9], false, true, true⟩] ∧
    monoEvs 1 end102.trA = [.success 1 ⟨[8], []⟩, .fin 1 .complete] := by
  refine ⟨⟨rfl, rfl, fun k d m n h => ?_⟩, by decide +kernel, by decide +kernel⟩
  exact absurd h (by show _ ∉ ([] : List Task); simp)

/-- C102 does not hold: the operation is carried out twice if the caller subscribes twice. -/
theorem C102_violated : ¬ C102_statement := by
  intro h
  have := h Unit reg102 calls102 (by show (1 : Nat) < _; decide) true again102 twice102 start102 end102 ⟨[6], eightZeros⟩ .created
    ⟨rfl, rfl⟩ (by decide +kernel)
  exact absurd this (by decide +kernel)

end Verif.Props
