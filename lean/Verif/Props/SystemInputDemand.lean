import Verif.Props.SystemDemand
/-
Property C96: the demand for the input of a channel over a whole connection.
-/
set_option autoImplicit false
namespace Verif.Props
open Verif Frames Handler
open Verif.Invoke (Kind Registry getHandler)
open Verif.System (Sys Move)

section
variable {H : Type}

/-! ## Specification

A connection is run (`System.run`). Stream number `j` of end A is a call of a channel operation with an input, and
stream number `i` of end B, with the same id, is the call as B's handler serves it. `inputDemands` is what B's handler
requests of the input, `asks` is what the source of A's input is asked for. -/

/-- The Request(n) calls of the handler on the input of channel `i`, in order. -/
def inputDemands (i : Nat) (tr : List (Handler.Ev H)) : List Int :=
  tr.filterMap fun | .inp k (.upRequest n) => if k = i then some n else none | _ => none

/-- The two ends of one channel. -/
structure channelEnds (s : Sys H) (j i : Nat) (x : UInt32) : Prop where
  caller : ∃ req first c input sub, s.a.objs[j]? = some (.flux req first c (some input) sub) ∧ req.streamID = x
  server : ∃ out b inp, s.b.objs[i]? = some (.responder .rc x out b inp)

/-- B's handler requests numbers of elements that fit the field of the frame. -/
def sensibleInputDemands (s : Sys H) (i : Nat) : Prop := ∀ n ∈ inputDemands i s.trB, 0 ≤ n ∧ n < 4294967296

/-- The source of A's input keeps to the protocol: it calls OnSubscribe at most once, and says an element only after it
has been asked for some. -/
structure politeInput (regA : Registry H) (client : Bool) (s : Sys H) (j : Nat) : Prop where
  once : s.histA.countP (isOnSub j) ≤ 1
  asked : ∀ b1 a b2, s.histA = b1 ++ a :: b2 → saysNext j a = true →
    ∀ s1 t1, Handler.run regA client b1 = .ok (s1, t1) → asks j t1 ≠ []

/-- Nothing is under way for the input: no frame is on its way to A, no goroutine of the channel is waiting at
either end, B's handler has the input still open, and A's source has called OnSubscribe. -/
structure inputSettled (s : Sys H) (j i : Nat) : Prop where
  wire : s.ba = []
  atB : waiting i s.b.tasks = []
  atA : ∀ t ∈ s.a.tasks, t.obj ≠ some j
  goesOn : ∃ k x out b st, s.b.objs[i]? = some (.responder k x out b (some st)) ∧ st.closed = false
  ready : ∃ req first c f st sub, s.a.objs[j]? = some (.flux req first c (some (.subscribed f st)) sub) ∧ st.hasRequest = true

/-- Each request for input is handed to A while A has the stream open. -/
def inputHeardInTime (regA : Registry H) (client : Bool) (s : Sys H) (j : Nat) (x : UInt32) : Prop :=
  ∀ b1 f r b2, s.histA = b1 ++ .frame (.requestN f) r :: b2 → f.streamID = x →
    ∀ s1 t1, Handler.run regA client b1 = .ok (s1, t1) → .opened x j ∈ t1 ∧ .closed x ∉ t1

/-- C96 as stated in English. -/
def C96_statement (H : Type) : Prop :=
  ∀ (regA regB : Registry H) (client : Bool) (ms : List Move) (s : Sys H),
    System.run regA regB client ms = .ok s → Tidy s →
    ∀ j i x, channelEnds s j i x → sensibleInputDemands s i → politeInput regA client s j →
      (asks j s.trA).sum ≤ (inputDemands i s.trB).sum ∧
      (inputSettled s j i → (asks j s.trA).sum = (inputDemands i s.trB).sum)

/-! ## The end that serves -/

theorem inputDemands_append (i : Nat) (a b : List (Handler.Ev H)) :
    inputDemands i (a ++ b) = inputDemands i a ++ inputDemands i b := by simp [inputDemands]

theorem inputDemands_evsOf (i : Nat) (tr : List (Handler.Ev H)) : inputDemands i (evsOf i tr) = inputDemands i tr := by
  induction tr with
  | nil => rfl
  | cons e tr ih =>
    by_cases h : e.obj = some i
    · have : evsOf i (e :: tr) = e :: evsOf i tr := by simp [evsOf, h]
      rw [this]
      simp only [inputDemands, List.filterMap_cons] at ih ⊢
      rw [ih]
    · rw [evsOf_cons_ne h]
      cases e
      case inp k x =>
        have : k ≠ i := by simpa [Handler.Ev.obj] using h
        cases x <;> simpa [inputDemands, this] using ih
      all_goals simpa [inputDemands] using ih

theorem inputDemands_inp (i : Nat) (id : UInt32) (l : List (Flux.Ev Pay)) :
    inputDemands i (demandEvs i id (.inp i : Flux.Ev Pay → Handler.Ev H) l) = upRequests l := by
  induction l with
  | nil => rfl
  | cons e l ih => cases e <;> simp_all [demandEvs, inputDemands, upRequests]

theorem inputDemands_replyEvs (i : Nat) (id : UInt32) (l : List (Flux.Ev Pay)) :
    ∀ r : List (Handler.Ev H), replyEvs i id l = .ok r → inputDemands i r = [] := by
  induction l with
  | nil => intro r h; cases h; rfl
  | cons x l ih =>
    intro r h
    simp only [replyEvs] at h
    obtain ⟨a, ha, h⟩ := bind_ok_inv h
    obtain ⟨b, hb, h⟩ := bind_ok_inv h
    cases h
    rw [inputDemands_append, ih _ hb]
    unfold replyEv at ha
    split at ha <;> cases ha <;> simp [inputDemands]

/-- The frames for demands passed on in this order. -/
def inputGrants (id : UInt32) (ns : List Int) : List AnyFrame := ns.map fun n => .requestN ⟨id, u32 n⟩

/-- What is known of a stream being served: the demands for its input were passed on or wait. -/
structure RInv (i : Nat) (id : UInt32) (o : Obj) (ts : List Task) (es : List (Handler.Ev H)) (served : List Int) : Prop where
  obj : ∃ k out b inp, o = .responder k id out b inp
  frames : (framesBy i es).filter isGrant = inputGrants id served
  count : (inputDemands i es).Perm (served ++ waiting i ts)

theorem r_step {i : Nat} {id : UInt32} {o o' : Obj} {ts ts' : List Task} {es es' : List (Handler.Ev H)} {served : List Int}
    (inv : RInv i id o ts es served) (h : CStep i o ts o' ts' es') : ∃ served', RInv i id o' ts' (es ++ es') served' := by
  obtain ⟨⟨k, out, b, inp, rfl⟩, hfr, hct⟩ := inv
  have quiet : ∀ o' ts', (∃ k out b inp, o' = .responder k id out b inp) → (framesBy i es').filter isGrant = [] →
      (inputDemands i (es ++ es')).Perm (served ++ waiting i ts') → ∃ served', RInv i id o' ts' (es ++ es') served' := by
    intro o' ts' h1 h2 h3
    refine ⟨served, h1, ?_, h3⟩
    rw [framesBy_append, List.filter_append, h2, List.append_nil, hfr]
  have subop : ∀ o' (l : List (Flux.Ev Pay)), (∃ k out b inp, o' = .responder k id out b inp) →
      es' = demandEvs i id (.inp i) l → ∃ served', RInv i id o' (ts ++ demandTasks i l) (es ++ es') served' := by
    intro o' l ho he
    have hq := framesBy_demandEvs i id (.inp i : Flux.Ev Pay → Handler.Ev H) (fun _ => rfl) l
    refine quiet _ _ ho ?_ ?_
    · rw [he]
      apply List.filter_eq_nil_iff.mpr
      intro f hf; rw [hq f hf]; simp [isGrant]
    · rw [inputDemands_append, he, inputDemands_inp, waiting_append, waiting_demandTasks, ← List.append_assoc]
      exact hct.append_right _
  have replies : ∀ o' ts' (l : List (Flux.Ev Pay)), replyEvs i id l = .ok es' → (∃ k out b inp, o' = .responder k id out b inp) →
      waiting i ts' = waiting i ts → ∃ served', RInv i id o' ts' (es ++ es') served' := by
    intro o' ts' l hr ho hw
    refine quiet _ _ ho ?_ ?_
    · rw [framesBy_replyEvs _ _ _ _ hr]; exact no_grants_replies _ _
    · rw [inputDemands_append, inputDemands_replyEvs _ _ _ _ hr, List.append_nil, hw]; exact hct
  cases h with
  | outSub _ _ _ _ _ f n ts _ h => exact replies _ _ _ h ⟨_, _, _, _, rfl⟩ (by simp [waiting])
  | outFirst _ _ g st _ _ f n ts _ hf h => exact replies _ _ _ h ⟨_, _, _, _, rfl⟩ (by simp [waiting])
  | outReq _ _ f st _ n ts _ h => exact replies _ _ _ h ⟨_, _, _, _, rfl⟩ (by simp [waiting])
  | out _ _ f st _ _ ts _ op hf h => exact replies _ _ _ h ⟨_, _, _, _, rfl⟩ rfl
  | inp _ _ _ _ st ts op _ => exact subop _ _ ⟨_, _, _, _, rfl⟩ rfl
  | inpSub _ _ _ ts inst start => exact subop _ _ ⟨_, _, _, _, rfl⟩ rfl
  | inpUp _ _ _ _ _ n ts =>
    refine ⟨served ++ [n], ⟨_, _, _, _, rfl⟩, ?_, ?_⟩
    · rw [framesBy_append, List.filter_append, hfr]
      simp [framesBy, isGrant, inputGrants]
    · rw [inputDemands_append]
      have e1 : inputDemands i [(.sent (some i) (.requestN ⟨id, u32 n⟩) : Handler.Ev H)] = [] := rfl
      rw [e1, List.append_nil, List.append_assoc]
      simpa [waiting] using hct
  | asked _ _ n =>
    refine quiet _ _ ⟨_, _, _, _, rfl⟩ (by simp [framesBy]) ?_
    rw [List.append_nil, waiting_append]; simpa [waiting] using hct

theorem r_run {i : Nat} {id : UInt32} {o o' : Obj} {ts ts' : List Task} {es0 es : List (Handler.Ev H)} {served : List Int}
    (inv : RInv i id o ts es0 served) (h : CRun i o ts o' ts' es) : ∃ served', RInv i id o' ts' (es0 ++ es) served' := by
  induction h with
  | refl => exact ⟨served, by simpa using inv⟩
  | perm _ _ _ _ _ hp ih =>
    obtain ⟨sv, h1, h3, h4⟩ := ih
    exact ⟨sv, h1, h3, h4.trans (List.Perm.append_left _ (hp.filterMap _))⟩
  | step _ _ _ _ _ _ _ hs ih =>
    obtain ⟨sv, ih⟩ := ih
    rw [← List.append_assoc]; exact r_step ih hs

/-- The demands for a channel's input are all passed on, or wait for their goroutine. -/
theorem input_grants {reg : Registry H} {client : Bool} {as : List Act} {s : St H} {tr : List (Handler.Ev H)}
    (h : Handler.run reg client as = .ok (s, tr)) {i : Nat} {k : Kind} {id : UInt32} {out : Option (Src × Flux.State)} {b : Bool}
    {inp : Option Flux.State} (ho : s.objs[i]? = some (.responder k id out b inp)) :
    ∃ served, (framesBy i tr).filter isGrant = inputGrants id served ∧ (inputDemands i tr).Perm (served ++ waiting i s.tasks) := by
  rcases Handler.history reg client as s tr h i with ⟨h1, -⟩ | ⟨o0, ts0, es0, o, es, hb, ho', hr, he⟩
  · rw [ho] at h1; cases h1
  · rw [ho] at ho'; cases ho'
    have hid := congrArg Prod.snd (key_run hr)
    have fin : ∀ k0 id0, o0 = .responder k0 id0 none false none → (framesBy i es0).filter isGrant = [] → inputDemands i es0 = [] →
        waiting i ts0 = [] →
        ∃ served, (framesBy i tr).filter isGrant = inputGrants id served ∧ (inputDemands i tr).Perm (served ++ waiting i s.tasks) := by
      intro k0 id0 h1 h2 h3 h4
      subst h1
      have : id = id0 := hid
      subst this
      obtain ⟨sv, -, q1, q2⟩ := r_run (served := []) ⟨⟨_, _, _, _, rfl⟩, h2, by rw [h3, h4]; exact .refl _⟩ hr
      rw [← he, framesBy_evsOf] at q1
      rw [← he, inputDemands_evsOf, waiting_tasksOf] at q2
      exact ⟨sv, q1, q2⟩
    have ht := tag_run hr
    cases hb with
    | fnf _ _ he => rcases he with rfl | rfl <;> exact fin _ _ rfl rfl rfl rfl
    | stream k0 id0 f n _ hk he => rcases he with rfl | ⟨-, rfl⟩ <;> exact fin _ _ rfl rfl rfl rfl
    | _ => cases ht

theorem credit_inputGrants (id : UInt32) (ns : List Int) (hn : ∀ n ∈ ns, 0 ≤ n ∧ n < 4294967296) :
    (((inputGrants id ns).map credit).sum : Int) = ns.sum := by
  induction ns with
  | nil => rfl
  | cons n ns ih =>
    have h1 := ih fun m hm => hn m (List.mem_cons_of_mem _ hm)
    have h2 : ((u32 n).toNat : Int) = n := by
      obtain ⟨g1, g2⟩ := hn n (by simp)
      unfold u32
      rw [UInt32.toNat_ofNat_of_lt' (by simp only [UInt32.size]; omega)]
      omega
    simp only [inputGrants, List.map_cons, List.sum_cons, credit, Int.natCast_add, h2] at h1 ⊢
    rw [h1]

/-- What B has granted, of what its handler has requested. -/
theorem input_credit {regA regB : Registry H} {client : Bool} {s : Sys H} (hJ : Joined regA regB client s) (ht : Tidy s) {i : Nat}
    {k : Kind} {x : UInt32} {out : Option (Src × Flux.State)} {b : Bool} {inp : Option Flux.State}
    (ho : s.b.objs[i]? = some (.responder k x out b inp)) (hn : sensibleInputDemands s i) :
    ∃ sv, (withId x (sentFrames s.trB)).filter isGrant = inputGrants x sv ∧
      (creditOf x (sentFrames s.trB) : Int) = sv.sum ∧ sv.sum ≤ (inputDemands i s.trB).sum ∧
      (waiting i s.b.tasks = [] → sv.sum = (inputDemands i s.trB).sum) := by
  have hw := withId_of_obj x hJ.b (hJ.usesB ht _) ho rfl
  obtain ⟨sv, h1, h2⟩ := input_grants hJ.b ho
  have hall : ∀ n ∈ sv ++ waiting i s.b.tasks, 0 ≤ n ∧ n < 4294967296 := fun n hm => hn n (h2.mem_iff.mpr hm)
  have hsum := sum_perm h2
  rw [List.sum_append] at hsum
  have hwt := sum_nonneg_int (l := waiting i s.b.tasks) fun n hm => (hall n (by simp [hm])).1
  refine ⟨sv, by rw [hw, h1], ?_, by omega, fun hq => ?_⟩
  · rw [creditOf, hw, h1]
    exact credit_inputGrants x sv fun n hm => hall n (by simp [hm])
  · rw [hq] at hsum
    simp at hsum; omega

/-! ## The end that calls -/

theorem askWork_none {j : Nat} {l : List Task} (hl : ∀ y ∈ l, y.obj ≠ some j) : askWork j l = 0 := by
  induction l with
  | nil => rfl
  | cons y l ih =>
    have z1 := ih fun z hz => hl z (List.mem_cons_of_mem _ hz)
    have z2 : askWeight j y = 0 := by
      have := hl y (by simp)
      cases y <;> simp [Task.obj, askWeight] at this ⊢ <;> (intro hc; exact absurd hc this)
    simp only [askWork, List.map_cons, List.sum_cons] at z1 ⊢
    omega

/-- A stream or channel of one's own begins with a call. -/
theorem flux_origin {reg : Registry H} {client : Bool} (as : List Act) : ∀ {s : St H} {tr : List (Handler.Ev H)},
    Handler.run reg client as = .ok (s, tr) → ∀ (j : Nat) (o : Obj), s.objs[j]? = some o → objTag o = 3 →
    ∃ as1 k p input as2 s1 t1, as = as1 ++ .call k p input :: as2 ∧ Handler.run reg client as1 = .ok (s1, t1) ∧
      j = s1.objs.length ∧ (k = .rs ∨ k = .rc) := by
  induction as using snoc_induction with
  | nil => intro s tr h j o ho; cases h; simp [St.init] at ho
  | snoc as a ih =>
    intro s' tr h j o ho htag
    obtain ⟨s, t, e, h1, h2, rfl⟩ := run_snoc_inv _ _ _ _ _ _ h
    cases hold : s.objs[j]? with
    | some o0 =>
      obtain ⟨o', h3, h4⟩ := (loc_settle j s _ (loc_step j s a) s' e h2).1 o0 hold
      rw [ho] at h3; cases h3
      obtain ⟨as1, k, p, input, as2, s1, t1, q1, q2, q3⟩ := ih h1 j o0 hold ((tag_run h4).symm.trans htag)
      exact ⟨as1, k, p, input, as2 ++ [a], s1, t1, by rw [q1]; simp, q2, q3⟩
    | none =>
      have hlen : s.objs.length ≤ j := List.getElem?_eq_none_iff.mp hold
      have last : ∀ (x : Obj), s'.objs = s.objs ++ [x] → j = s.objs.length ∧ o = x := by
        intro x hx
        rw [hx, List.getElem?_append_right hlen] at ho
        have : j - s.objs.length = 0 := by
          cases hz : j - s.objs.length with
          | zero => rfl
          | succ m => rw [hz] at ho; simp at ho
        rw [this] at ho
        simp at ho
        exact ⟨by omega, ho.symm⟩
      have same : s'.objs = s.objs → False := by
        intro hx; rw [hx, hold] at ho; cases ho
      have hsh := settle_shape _ _ _ _ h2
      cases hsh with
      | calm _ _ _ c1 =>
        exfalso
        have h3 := congrArg List.length c1
        simp only [List.length_map] at h3
        have := (List.getElem?_eq_some_iff.mp ho).1
        omega
      | request f r k hk => exact (same rfl).elim
      | serve t0 ret k id data md n _ _ ht hserve =>
        cases serve_served _ _ _ _ _ _ _ _ _ hserve with
        | short => exact (same rfl).elim
        | unknown => exact (same rfl).elim
        | rr op hd es g1 g2 g3 g4 => obtain ⟨-, rfl⟩ := last _ rfl; cases htag
        | other op hd _ _ g1 g2 g3 g4 g5 => obtain ⟨-, rfl⟩ := last _ g5; cases htag
      | call k p input =>
        cases k
        · obtain ⟨-, rfl⟩ := last _ rfl; cases htag
        · exact (same rfl).elim
        · obtain ⟨q, rfl⟩ := last _ rfl; exact ⟨as, _, p, input, [], s, t, rfl, h1, q, .inl rfl⟩
        · obtain ⟨q, rfl⟩ := last _ rfl; exact ⟨as, _, p, input, [], s, t, rfl, h1, q, .inr rfl⟩

/-- The demand that reached the source of the input of a call. -/
theorem input_asked {reg : Registry H} {client : Bool} {as : List Act} {s : St H} {tr : List (Handler.Ev H)} {j : Nat}
    {req : RequestPayload} {first c : Bool} {input : Option Input} {sub : Option Flux.State}
    (h : Handler.run reg client as = .ok (s, tr)) (ho : s.objs[j]? = some (.flux req first c input sub))
    (hone : as.countP (isOnSub j) ≤ 1) :
    ∃ as1 a as2, as = as1 ++ a :: as2 ∧ System.isFrame a = false ∧
      (∀ b1 f r b2, as1 = b1 ++ .frame (.requestN f) r :: b2 → ∀ s1 t1, Handler.run reg client b1 = .ok (s1, t1) →
        .opened req.streamID j ∉ t1) ∧
      (asks j tr).sum + askWork j s.tasks + askPot (replySub (.flux req first c input sub)) ≤ moreCredit req.streamID as2 ∧
      ((∀ b1 a b2, as = b1 ++ a :: b2 → saysNext j a = true → ∀ s1 t1, Handler.run reg client b1 = .ok (s1, t1) → asks j t1 ≠ []) →
        (∀ b1 f r b2, as = b1 ++ .frame (.requestN f) r :: b2 → f.streamID = req.streamID →
          ∀ s1 t1, Handler.run reg client b1 = .ok (s1, t1) → getStream s1 req.streamID = some j) →
        (asks j tr).sum + askWork j s.tasks + askPot (replySub (.flux req first c input sub)) = moreCredit req.streamID as2) := by
  obtain ⟨as1, k, p, src, as2, s1, t1, hsplit, h1, hj, hk⟩ := flux_origin as h j _ ho rfl
  have e1 : as = (as1 ++ [.call k p src]) ++ as2 := by rw [hsplit]; simp
  have hrun := h
  rw [e1] at hrun
  obtain ⟨s2, t2, h2⟩ : ∃ s2 t2, Handler.run reg client (as1 ++ [.call k p src]) = .ok (s2, t2) := by
    unfold Handler.run at hrun
    rw [handler_runFrom_append] at hrun
    obtain ⟨s2, t2, e2, q1, q2, -⟩ := andThen_ok hrun
    exact ⟨s2, t2, q1⟩
  obtain ⟨_, _, e, q1, q2, rfl⟩ := run_snoc_inv _ _ _ _ _ _ h2
  rw [h1] at q1; cases q1
  have hhist : asks j t1 = [] ∧ tasksOf j s1.tasks = [] ∧ evsOf j t1 = [] := by
    rcases Handler.history reg client as1 s1 t1 h1 j with ⟨-, z1, z2⟩ | ⟨_, _, _, o, _, _, z, -⟩
    · exact ⟨by rw [← asks_evsOf, z2]; rfl, z1, z2⟩
    · rw [hj] at z; simp at z
  obtain ⟨htasks, hask, o0, hobjs, htag, hnone⟩ : s2.tasks = s1.tasks ∧ asks j e = [] ∧
      ∃ o, s2.objs = s1.objs ++ [o] ∧ objTag o = 3 ∧ replySub o = none := by
    simp only [Handler.step, settle, Handler.call] at q2
    rcases hk with rfl | rfl <;> cases q2 <;> exact ⟨rfl, rfl, _, rfl, rfl, rfl⟩
  have hobj2 : s2.objs[j]? = some o0 := by
    rw [hobjs, hj]
    simp only [List.getElem?_append_right (Nat.le_refl _), Nat.sub_self]
    rfl
  have hold : ∀ y ∈ s2.tasks, y.obj ≠ some j := by
    intro y hy hc
    rw [htasks] at hy
    have := tasksOf_mem hy hc
    rw [hhist.2.1] at this; cases this
  have hw : askWork j s2.tasks = 0 := askWork_none hold
  have hok : AskOk j s2 (replySub o0) := ⟨fun st hst => (by rw [hnone] at hst; cases hst), doRequest_nonneg _ h2⟩
  have hc2 : as2.countP (isOnSub j) ≤ 1 := by
    rw [e1, List.countP_append] at hone; omega
  obtain ⟨o, A⟩ := budget_run h2 hobj2 hok (fun st hst => by rw [hnone] at hst; cases hst) as2 hrun hc2
  have hoo := A.obj
  rw [ho] at hoo; cases hoo
  have hsid : o0.sid = req.streamID := (congrArg Prod.snd A.key).symm
  have hask2 : asks j (t1 ++ e) = [] := by rw [asks_append, hhist.1, hask]; rfl
  have start : (asks j (t1 ++ e)).sum + askWork j s2.tasks + askPot (replySub o0) + moreCredit o0.sid as2 =
      moreCredit req.streamID as2 := by
    rw [hask2, hw, hnone, hsid]; simp [askPot]
  refine ⟨as1, .call k p src, as2, hsplit, rfl, ?_, ?_, ?_⟩
  · intro b1 g r' b2 hb s3 t3 hs3 hop
    have hrun1 := h1
    rw [hb] at hrun1
    unfold Handler.run at hrun1 hs3
    rw [handler_runFrom_append, hs3] at hrun1
    obtain ⟨_, _, e2, z1, z2, rfl⟩ := andThen_ok hrun1
    cases z1
    have hm : Handler.Ev.opened req.streamID j ∈ evsOf j (t3 ++ e2) :=
      List.mem_filter.mpr ⟨List.mem_append_left _ hop, by simp [Handler.Ev.obj]⟩
    rw [hhist.2.2] at hm; cases hm
  · rw [← start]; exact A.le
  · intro g1 g2
    rw [← start]
    refine (A.eq ⟨fun st hst => (by rw [hnone] at hst; cases hst), .inl ?_⟩ hask2 ?_ ?_).2.2
    · apply List.countP_eq_zero.mpr
      intro y hy hs
      cases y with
      | subscribe j' g m =>
        have : j' = j := by simpa [isSubTask] using hs
        subst this
        exact hold _ hy rfl
      | _ => cases hs
    · intro c1 a c2 hc hs s3 t3 hr3
      exact g1 (as1 ++ [.call k p src] ++ c1) a c2 (by rw [e1, hc]; simp) hs s3 t3 hr3
    · intro c1 g r' c2 hc hx s3 t3 hr3
      rw [hsid] at hx ⊢
      exact g2 (as1 ++ [.call k p src] ++ c1) g r' c2 (by rw [e1, hc]; simp) hx s3 t3 hr3

theorem askWork_nonneg {reg : Registry H} {client : Bool} {as : List Act} {s : St H} {tr : List (Handler.Ev H)}
    (h : Handler.run reg client as = .ok (s, tr)) (j : Nat) : 0 ≤ askWork j s.tasks := by
  have hnn := doRequest_nonneg _ h
  refine sum_nonneg_int ?_
  intro n hm
  obtain ⟨t, ht, rfl⟩ := List.mem_map.mp hm
  cases t with
  | doRequest j n =>
    simp only [askWeight]
    split
    · exact hnn _ _ ht
    · exact Int.le_refl _
  | subscribe j f n => simp only [askWeight]; split <;> omega
  | firstRequest j f n => simp only [askWeight]; split <;> omega
  | _ => exact Int.le_refl _

/-! ## The theorems -/

/-- C96: the source of a channel's input is never asked for more than the handler at the other end has requested. -/
theorem C96_bound_partial (regA regB : Registry H) (client : Bool) (ms : List Move) (s : Sys H)
    (h : System.run regA regB client ms = .ok s) (ht : Tidy s) (j i : Nat) (x : UInt32) (hb : channelEnds s j i x)
    (hn : sensibleInputDemands s i) (hone : s.histA.countP (isOnSub j) ≤ 1) :
    (asks j s.trA).sum ≤ (inputDemands i s.trB).sum := by
  have hJ := joined_run _ h
  obtain ⟨⟨req, first, c, input, sub, ha, rfl⟩, out, b, inp, hob⟩ := hb
  obtain ⟨sv, -, h1, h2, -⟩ := input_credit hJ ht hob hn
  obtain ⟨as1, a, as2, q1, q4, q5, q6, -⟩ := input_asked hJ.a ha hone
  have hw := askWork_nonneg hJ.a j
  have hp : 0 ≤ askPot (replySub (.flux req first c (some input) sub)) := by
    cases replySub (.flux req first c (some input) sub) with
    | none => exact Int.le_refl _
    | some st => simp only [askPot]; split <;> omega
  have hparts := credit_parts req.streamID s.histA
  have hmore : moreCredit req.streamID as2 ≤ moreCredit req.streamID s.histA := by
    have : s.histA = (as1 ++ [a]) ++ as2 := by rw [q1]; simp
    rw [this, moreCredit_append]
    have := moreCredit_nonneg req.streamID (as1 ++ [a])
    omega
  have hsent : creditOf req.streamID (sentFrames s.trB) = creditOf req.streamID (handedOver s.histA) + creditOf req.streamID s.ba := by
    rw [hJ.ba, creditOf_append]
  omega

/-- C96: once nothing is under way the source of the input has been asked for exactly as much as the handler has
requested, provided A had the stream open whenever more was requested. -/
theorem C96_exact_partial (regA regB : Registry H) (client : Bool) (ms : List Move) (s : Sys H)
    (h : System.run regA regB client ms = .ok s) (ht : Tidy s) (j i : Nat) (x : UInt32) (hb : channelEnds s j i x)
    (hn : sensibleInputDemands s i) (hp : politeInput regA client s j) (hs : inputSettled s j i)
    (hh : inputHeardInTime regA client s j x) : (asks j s.trA).sum = (inputDemands i s.trB).sum := by
  have hJ := joined_run _ h
  obtain ⟨⟨req, first, c, input, sub, ha, rfl⟩, out, b, inp, hob⟩ := hb
  obtain ⟨g1, g2, g3, -, _, _, _, g, st, _, g5, g6⟩ := hs
  rw [ha] at g5; cases g5
  obtain ⟨sv, h0, h1, -, h2⟩ := input_credit hJ ht hob hn
  have h2 := h2 g2
  obtain ⟨as1, a, as2, q1, q4, q5, -, q6⟩ := input_asked hJ.a ha hp.once
  have hopen : (openedIds s.trA).Nodup := hJ.openedA ht
  have q6 := q6 hp.asked (by
    intro b1 f' r' b2 hb1 hx s1 t1 hr1
    obtain ⟨z1, z2⟩ := hh b1 f' r' b2 hb1 hx s1 t1 hr1
    refine getStream_live regA client b1 s1 t1 hr1 _ _ ?_ z1 z2
    have hrun := hJ.a
    rw [hb1] at hrun
    unfold Handler.run at hrun hr1
    rw [handler_runFrom_append, hr1] at hrun
    obtain ⟨_, _, e2, z3, z4, z5⟩ := andThen_ok hrun
    cases z3
    rw [z5, openedIds_append] at hopen
    exact (List.nodup_append.mp hopen).1)
  have hw : askWork j s.a.tasks = 0 := askWork_none g3
  have hpot : askPot (replySub (.flux req first c (some (.subscribed g st)) sub)) = 0 := by
    simp [askPot, replySub, g6]
  have hsent : creditOf req.streamID (sentFrames s.trB) = creditOf req.streamID (handedOver s.histA) := by
    rw [hJ.ba, g1, List.append_nil]
  have hreqs : requestsIn req.streamID (handedOver s.histA) = [] := by
    rw [hJ.ba, g1, List.append_nil] at h0
    unfold requestsIn
    rw [h0]
    apply List.filterMap_eq_nil_iff.mpr
    intro f hf
    obtain ⟨n, -, rfl⟩ := List.mem_map.mp hf
    rfl
  have hparts := credit_parts req.streamID s.histA
  rw [hreqs] at hparts
  have hone : moreCredit req.streamID as1 = 0 := by
    apply moreCredit_zero
    intro f' r' hm hx
    obtain ⟨b1, b2, hb1⟩ := List.append_of_mem hm
    have hrun := hJ.a
    have e1 : s.histA = b1 ++ (.frame (.requestN f') r' :: b2 ++ a :: as2) := by rw [q1, hb1]; simp
    rw [e1] at hrun
    unfold Handler.run at hrun
    rw [handler_runFrom_append] at hrun
    obtain ⟨s1, t1, e2, z3, z4, z5⟩ := andThen_ok hrun
    exact q5 b1 f' r' b2 hb1 s1 t1 z3 (hh b1 f' r' (b2 ++ a :: as2) (by rw [e1]; simp) hx s1 t1 z3).1
  have hmore : moreCredit req.streamID s.histA = moreCredit req.streamID as2 := by
    have e1 : s.histA = as1 ++ ([a] ++ as2) := by rw [q1]; rfl
    have e2 : moreCredit req.streamID [a] = 0 := by cases a <;> first | rfl | cases q4
    rw [e1, moreCredit_append, moreCredit_append, hone, e2]
    omega
  simp at hparts
  omega

end

/-! ## Concrete runs -/

section
variable {H : Type}

/-- Elements are said only after `p`, where the source has been asked. -/
theorem politeInput_of {regA : Registry H} {client : Bool} {s : Sys H} {j : Nat} (p q : List Act) (s1 : St H) (t1 : List (Handler.Ev H))
    (h1 : s.histA = p ++ q) (h2 : Handler.run regA client p = .ok (s1, t1)) (h3 : p.any (saysNext j) = false)
    (h4 : asks j t1 ≠ []) (h5 : s.histA.countP (isOnSub j) ≤ 1) : politeInput regA client s j := by
  refine ⟨h5, fun b1 a b2 hb ha s2 t2 hr => ?_⟩
  rw [h1] at hb
  rcases split_cases hb with hm | ⟨c, rfl⟩
  · rw [List.any_eq_false] at h3
    exact absurd ha (h3 a hm)
  · unfold Handler.run at hr h2
    rw [handler_runFrom_append, h2] at hr
    obtain ⟨_, _, e2, z3, z4, rfl⟩ := andThen_ok hr
    cases z3
    rw [asks_append]
    intro hc
    exact h4 (List.append_eq_nil_iff.mp hc).1

/-- Input is requested only after `p`, where the stream is open, and it stays so. -/
theorem inputHeard_of {regA : Registry H} {client : Bool} {s : Sys H} {j : Nat} {x : UInt32} (p q : List Act) (s1 : St H)
    (t1 : List (Handler.Ev H)) (hrun : Handler.run regA client s.histA = .ok (s.a, s.trA))
    (h1 : s.histA = p ++ q) (h2 : Handler.run regA client p = .ok (s1, t1))
    (h3 : p.any (fun | .frame (.requestN _) _ => true | _ => false) = false)
    (h4 : .opened x j ∈ t1) (h5 : .closed x ∉ s.trA) : inputHeardInTime regA client s j x := by
  intro b1 f r b2 hb hx s2 t2 hr
  have hrun := hrun
  rw [hb] at hrun
  rw [h1] at hb
  have hr0 := hr
  unfold Handler.run at hrun hr0
  rw [handler_runFrom_append, hr0] at hrun
  obtain ⟨_, _, e2, z3, z4, z5⟩ := andThen_ok hrun
  cases z3
  refine ⟨?_, fun hc => h5 (by rw [z5]; exact List.mem_append_left _ hc)⟩
  rcases split_cases hb with hm | ⟨c, rfl⟩
  · rw [List.any_eq_false] at h3
    exact absurd rfl (h3 _ hm)
  · unfold Handler.run at hr h2
    rw [handler_runFrom_append, h2] at hr
    obtain ⟨_, _, e3, y3, y4, rfl⟩ := andThen_ok hr
    cases y3
    exact List.mem_append_left _ h4

end

/-- A subscriber with all callbacks. -/
def inst96 : Flux.Installed := ⟨true, true, true, true, true, false⟩

/-- A makes a call it never requests anything of, and calls a channel operation; B's handler subscribes to the input
and requests one element of it; A's source gets ready. -/
def open96 : List Move :=
  [.atA (.call .rs ⟨[], eightZeros⟩ .created), .atA (.subscribeFlux 0 inst96 []),
   .atA (.call .rc ⟨[5], eightZeros⟩ .created), .atA (.subscribeFlux 1 inst96 [.request 1]), .atA (.run 0 retCreated),
   .atA (.run 0 retCreated), .toB noReact, .atB (.run 0 retCreated), .atB (.subscribeInp 0 inst96 [.request 1]),
   .atB (.run 1 retCreated), .toA noReact, .atA (.run 0 retCreated), .atA (.input 1 (.onSubscribe true))]

/-- A's source says an element, and B's handler requests two more. -/
def goesOn96 : List Move := open96 ++
  [.atA (.input 1 (.next ⟨[7], []⟩)), .toB noReact, .atB (.inpCall 0 (.request 2)), .atB (.run 1 retCreated), .toA noReact,
   .atA (.run 0 retCreated)]

/-- B's handler completes the output of the channel, and then requests two more elements of the input. -/
def halfDone96 : List Move := open96 ++
  [.atB (.run 0 retCreated), .atB (.run 0 retCreated), .atB (.out 0 (.onSubscribe true)), .atB (.out 0 .complete), .toA noReact,
   .atB (.inpCall 0 (.request 2)), .atB (.run 0 retCreated), .toA noReact]

def end96 : Sys Unit := sysAfter (System.run oneHandler oneHandler true goesOn96)
def lost96 : Sys Unit := sysAfter (System.run oneHandler oneHandler true halfDone96)

/-- The hypotheses of both theorems hold for the first run, where the source is asked for one element, then two. -/
example : System.run oneHandler oneHandler true goesOn96 = .ok end96 ∧ Tidy end96 ∧ channelEnds end96 1 0 3 ∧
    sensibleInputDemands end96 0 ∧ politeInput oneHandler true end96 1 ∧ inputSettled end96 1 0 ∧
    inputHeardInTime oneHandler true end96 1 3 ∧ asks 1 end96.trA = [1, 2] ∧ inputDemands 0 end96.trB = [1, 2] :=
  ⟨rfl, tidy_of (by decide +kernel) (by decide +kernel) (by decide +kernel) (by decide +kernel),
    ⟨⟨_, _, _, _, _, rfl, rfl⟩, _, _, _, rfl⟩, by unfold sensibleInputDemands; decide +kernel,
    politeInput_of (end96.histA.take 9) (end96.histA.drop 9) _ _ rfl rfl (by decide +kernel) (by decide +kernel) (by decide +kernel),
    ⟨rfl, by decide +kernel, by decide +kernel, ⟨_, _, _, _, _, rfl, rfl⟩, _, _, _, _, _, _, rfl, rfl⟩,
    inputHeard_of (end96.histA.take 6) (end96.histA.drop 6) _ _ (joined_run goesOn96 (regB := oneHandler) rfl).a rfl rfl
      (by decide +kernel) (by decide +kernel) (by decide +kernel), by decide +kernel, by decide +kernel⟩

/-- C96 fails: once B's handler has completed the output, A has forgotten the stream, and what the handler requests of
the input afterwards is lost. -/
theorem C96_half_violated : asks 1 lost96.trA = [1] ∧ inputDemands 0 lost96.trB = [1, 2] := by decide +kernel

theorem C96_violated : ¬ C96_statement Unit := by
  intro h
  have := (h oneHandler oneHandler true halfDone96 lost96 rfl
    (tidy_of (by decide +kernel) (by decide +kernel) (by decide +kernel) (by decide +kernel)) 1 0 3
    ⟨⟨_, _, _, _, _, rfl, rfl⟩, _, _, _, rfl⟩ (by unfold sensibleInputDemands; decide +kernel)
    (politeInput_of lost96.histA [] _ _ (by simp) (joined_run halfDone96 (regB := oneHandler) rfl).a
      (by decide +kernel) (by decide +kernel) (by decide +kernel))).2
    ⟨rfl, by decide +kernel, by decide +kernel, ⟨_, _, _, _, _, rfl, rfl⟩, _, _, _, _, _, _, rfl, rfl⟩
  rw [C96_half_violated.1, C96_half_violated.2] at this
  revert this; decide

end Verif.Props
