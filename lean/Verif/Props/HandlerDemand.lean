import Verif.Props.HandlerReplies
/-
Property C61: the demand a requester of a stream or channel passes on to its peer.
-/
set_option autoImplicit false
namespace Verif.Props
open Verif Frames Handler
open Verif.Invoke (Kind Registry)

section
variable {H : Type}

/-! ## Specification -/

/-- The Request(n) calls of the subscriber of stream `j`, in order. -/
def demands (j : Nat) (tr : List (Handler.Ev H)) : List Int :=
  tr.filterMap fun | .flux i (.upRequest n) => if i = j then some n else none | _ => none

/-- Frames that grant credit to the peer. -/
def isGrant : AnyFrame → Bool
  | .request _ => true
  | .requestN _ => true
  | _ => false

/-- The frames for demands served in this order: the request frame with the first one, a request-n
frame for each later one. -/
def grants (req : RequestPayload) : List Int → List AnyFrame
  | [] => []
  | n :: ns => .request { req with initialN := u32 n } ::
      ns.map fun n => .requestN ⟨req.streamID, u32 n⟩

/-- The demands waiting for their goroutine. -/
def waiting (j : Nat) (ts : List Task) : List Int :=
  ts.filterMap fun | .upRequest i n => if i = j then some n else none | _ => none

/-- Credit granted by a frame. -/
def credit : AnyFrame → Nat
  | .request r => r.initialN.toNat
  | .requestN r => r.n.toNat
  | _ => 0

/-- C61 as stated in English. The demands are granted in the order they are made, and once a frame
that ends the stream was received (`closed`) nothing is sent any more. -/
def C61_statement (H : Type) : Prop :=
  ∀ (reg : Registry H) (client : Bool) (as : List Act) (s : St H) (tr : List (Handler.Ev H)),
    Handler.run reg client as = .ok (s, tr) → (openedIds tr).Nodup →
    ∀ j req first complete input sub, s.objs[j]? = some (.flux req first complete input sub) →
      (∃ k, (framesBy j tr).filter isGrant = grants req ((demands j tr).take k)) ∧
      (∀ a b, tr = a ++ .closed req.streamID :: b → framesBy j b = [])

/-! ## Projections -/

theorem demands_append (j : Nat) (a b : List (Handler.Ev H)) :
    demands j (a ++ b) = demands j a ++ demands j b := by simp [demands]

theorem waiting_append (j : Nat) (a b : List Task) : waiting j (a ++ b) = waiting j a ++ waiting j b := by
  simp [waiting]

theorem demands_evsOf (j : Nat) (tr : List (Handler.Ev H)) : demands j (evsOf j tr) = demands j tr := by
  induction tr with
  | nil => rfl
  | cons e tr ih =>
    by_cases h : e.obj = some j
    · have : evsOf j (e :: tr) = e :: evsOf j tr := by simp [evsOf, h]
      rw [this]
      simp only [demands, List.filterMap_cons] at ih ⊢
      rw [ih]
    · rw [evsOf_cons_ne h]
      cases e
      case flux i x =>
        have : i ≠ j := by simpa [Handler.Ev.obj] using h
        cases x <;> simpa [demands, this] using ih
      all_goals simpa [demands] using ih

theorem waiting_tasksOf (j : Nat) (ts : List Task) : waiting j (tasksOf j ts) = waiting j ts := by
  induction ts with
  | nil => rfl
  | cons t ts ih =>
    by_cases h : t.obj = some j
    · have : tasksOf j (t :: ts) = t :: tasksOf j ts := by simp [tasksOf, h]
      rw [this]
      simp only [waiting, List.filterMap_cons] at ih ⊢
      rw [ih]
    · have : tasksOf j (t :: ts) = tasksOf j ts := by simp [tasksOf, h]
      rw [this, ih]
      cases t
      case upRequest i n =>
        have : i ≠ j := by simpa [Task.obj] using h
        simp [waiting, this]
      all_goals simp [waiting]

/-- Demands among the events of a subscriber. -/
def upRequests (l : List (Flux.Ev Pay)) : List Int :=
  l.filterMap fun | .upRequest n => some n | _ => none

theorem demands_flux (j : Nat) (id : UInt32) (l : List (Flux.Ev Pay)) :
    demands j (demandEvs j id (.flux j : Flux.Ev Pay → Handler.Ev H) l) = upRequests l := by
  induction l with
  | nil => rfl
  | cons e l ih =>
    cases e <;> simp_all [demandEvs, demands, upRequests]

theorem waiting_demandTasks (j : Nat) (l : List (Flux.Ev Pay)) :
    waiting j (demandTasks j l) = upRequests l := by
  induction l with
  | nil => rfl
  | cons e l ih => cases e <;> simp_all [demandTasks, waiting, upRequests]

theorem demands_replyEvs (j : Nat) (id : UInt32) (l : List (Flux.Ev Pay)) :
    ∀ r : List (Handler.Ev H), replyEvs j id l = .ok r → demands j r = [] := by
  induction l with
  | nil => intro r h; cases h; rfl
  | cons x l ih =>
    intro r h
    simp only [replyEvs] at h
    obtain ⟨a, ha, h⟩ := bind_ok_inv h
    obtain ⟨b, hb, h⟩ := bind_ok_inv h
    cases h
    rw [demands_append, ih _ hb]
    unfold replyEv at ha
    split at ha <;> cases ha <;> simp [demands]

theorem grants_snoc (req : RequestPayload) (ns : List Int) (n : Int) (h : ns ≠ []) :
    grants req (ns ++ [n]) = grants req ns ++ [.requestN ⟨req.streamID, u32 n⟩] := by
  cases ns with
  | nil => exact absurd rfl h
  | cons m ns => simp [grants]

/-! ## Invariant -/

/-- What is known of a requester's stream: `served` demands were passed on, `dropped` ones were
not because the stream was complete. -/
structure FInv (j : Nat) (req0 : RequestPayload) (o : Obj) (ts : List Task) (es : List (Handler.Ev H))
    (served dropped : List Int) : Prop where
  obj : ∃ n first c input sub, o = .flux { req0 with initialN := n } first c input sub ∧
    (first = true ↔ served = []) ∧ (c = false → dropped = [])
  ids : ∀ f ∈ framesBy j es, f.streamID = req0.streamID
  frames : (framesBy j es).filter isGrant = grants req0 served
  count : (demands j es).Perm (served ++ dropped ++ waiting j ts)

theorem no_grants_replies (id : UInt32) (l : List (Flux.Ev Pay)) :
    (l.flatMap (signalFrame id)).filter isGrant = [] := by
  apply List.filter_eq_nil_iff.mpr
  intro f hf
  obtain ⟨e, -, h⟩ := List.mem_flatMap.mp hf
  cases e
  case error x => cases x <;> simp [signalFrame] at h; subst h; simp [isGrant]
  all_goals simp [signalFrame, elementFrame] at h <;> subst h <;> simp [isGrant]

theorem perm_mid {α : Type} {d a b w w' : List α} {x : α} (h : d.Perm (a ++ b ++ w))
    (hw : w.Perm (x :: w')) : d.Perm (a ++ [x] ++ b ++ w') ∧ d.Perm (a ++ (b ++ [x]) ++ w') := by
  constructor
  · refine h.trans ?_
    simp only [List.append_assoc, List.singleton_append]
    refine List.Perm.append_left _ ?_
    refine (hw.append_left b).trans ?_
    exact List.perm_middle
  · refine h.trans ?_
    simp only [List.append_assoc, List.singleton_append]
    exact (hw.append_left b).append_left _

theorem f_step {j : Nat} {req0 : RequestPayload} {o o' : Obj} {ts ts' : List Task}
    {es es' : List (Handler.Ev H)} {served dropped : List Int}
    (inv : FInv j req0 o ts es served dropped) (h : CStep j o ts o' ts' es') :
    ∃ served' dropped', FInv j req0 o' ts' (es ++ es') served' dropped' := by
  obtain ⟨⟨n0, first, c, input, sub, rfl, hfirst, hc⟩, hid, hfr, hct⟩ := inv
  -- steps that grant nothing
  have quiet : ∀ o' ts', (∃ c' input' sub', o' = .flux { req0 with initialN := n0 } first c' input' sub' ∧
        (c' = false → dropped = [])) →
      (∀ f ∈ framesBy j es', f.streamID = req0.streamID) → (framesBy j es').filter isGrant = [] →
      (demands j (es ++ es')).Perm (served ++ dropped ++ waiting j ts') →
      ∃ served' dropped', FInv j req0 o' ts' (es ++ es') served' dropped' := by
    intro o' ts' ⟨c', input', sub', ho, hc'⟩ h1 h2 h3
    refine ⟨served, dropped, ⟨n0, first, c', input', sub', ho, hfirst, hc'⟩, ?_, ?_, h3⟩
    · intro f hf
      rw [framesBy_append] at hf
      exact (List.mem_append.mp hf).elim (hid f) (h1 f)
    · rw [framesBy_append, List.filter_append, h2, List.append_nil, hfr]
  -- operations on the subscriber
  have subop : ∀ o' (l : List (Flux.Ev Pay)) (pre : List (Handler.Ev H)), framesBy j pre = [] → demands j pre = [] →
      es' = pre ++ demandEvs j req0.streamID (.flux j) l →
      (∃ c' input' sub', o' = .flux { req0 with initialN := n0 } first c' input' sub' ∧
        (c' = false → dropped = [])) →
      ∃ served' dropped', FInv j req0 o' (ts ++ demandTasks j l) (es ++ es') served' dropped' := by
    intro o' l pre hp hp' he ho
    have hq := framesBy_demandEvs j req0.streamID (.flux j : Flux.Ev Pay → Handler.Ev H) (fun _ => rfl) l
    have hfe : framesBy j es' = framesBy j (demandEvs j req0.streamID (.flux j : Flux.Ev Pay → Handler.Ev H) l) := by
      rw [he, framesBy_append, hp]; rfl
    refine quiet o' _ ho ?_ ?_ ?_
    · intro f hf; rw [hq f (hfe ▸ hf)]; rfl
    · rw [hfe]; apply List.filter_eq_nil_iff.mpr
      intro f hf; rw [hq f hf]; simp [isGrant]
    · rw [demands_append, he, demands_append, hp', demands_flux, waiting_append, waiting_demandTasks,
        List.nil_append, ← List.append_assoc]
      exact hct.append_right _
  -- the channel's input
  have replies : ∀ o' ts' (l : List (Flux.Ev Pay)), replyEvs j req0.streamID l = .ok es' →
      (∃ c' input' sub', o' = .flux { req0 with initialN := n0 } first c' input' sub' ∧
        (c' = false → dropped = [])) → waiting j ts' = waiting j ts →
      ∃ served' dropped', FInv j req0 o' ts' (es ++ es') served' dropped' := by
    intro o' ts' l hr ho hw
    refine quiet o' ts' ho ?_ ?_ ?_
    · rw [framesBy_replyEvs _ _ _ _ hr]; exact signalFrames_id _ _
    · rw [framesBy_replyEvs _ _ _ _ hr]; exact no_grants_replies _ _
    · rw [demands_append, demands_replyEvs _ _ _ _ hr, List.append_nil, hw]; exact hct
  cases h with
  | fluxOp _ _ _ _ st _ op _ =>
    refine subop _ _ [] rfl rfl rfl ⟨_, _, _, rfl, ?_⟩
    intro h
    cases op <;> first | exact hc h | cases h
  | fluxIdle _ _ _ _ _ op =>
    refine quiet _ _ ⟨_, _, _, rfl, ?_⟩ (by simp [framesBy]) rfl (by simpa using hct)
    intro h
    cases op <;> first | exact hc h | cases h
  | fluxSub _ _ _ _ _ inst start =>
    exact subop _ _ [.opened req0.streamID j] rfl rfl rfl ⟨_, _, _, rfl, hc⟩
  | upDone _ _ _ _ n ts =>
    refine ⟨served, dropped ++ [n], ⟨n0, first, true, _, _, rfl, hfirst, fun h => by cases h⟩,
      by simpa using hid, by simpa using hfr, ?_⟩
    rw [List.append_nil]
    exact (perm_mid (x := n) (w' := waiting j ts') hct (by simp [waiting])).2
  | upFirst _ _ _ n ts =>
    have hs : served = [] := hfirst.mp rfl
    subst hs
    refine ⟨[n], dropped, ⟨u32 n, false, false, _, _, rfl, by simp, hc⟩, ?_, ?_, ?_⟩
    · intro f hf
      rw [framesBy_append] at hf
      rcases List.mem_append.mp hf with h | h
      · exact hid f h
      · simp [framesBy] at h; subst h; rfl
    · rw [framesBy_append, List.filter_append, hfr]
      simp [framesBy, isGrant, grants]
    · rw [demands_append]
      have e1 : demands j [(.sent (some j) (.request { req0 with initialN := u32 n }) : Handler.Ev H)] = [] := rfl
      have e2 : waiting j (ts ++ if input.isSome = true then [.subscribeIn j] else []) = waiting j ts := by
        rw [waiting_append]; split <;> simp [waiting]
      rw [e1, e2, List.append_nil]
      exact (perm_mid (x := n) (w' := waiting j ts) hct (by simp [waiting])).1
  | upLater _ _ _ n ts =>
    have hs : served ≠ [] := fun h => by have := hfirst.mpr h; cases this
    refine ⟨served ++ [n], dropped, ⟨n0, false, false, _, _, rfl, by simp, hc⟩, ?_, ?_, ?_⟩
    · intro f hf
      rw [framesBy_append] at hf
      rcases List.mem_append.mp hf with h | h
      · exact hid f h
      · simp [framesBy] at h; subst h; rfl
    · rw [framesBy_append, List.filter_append, hfr, grants_snoc _ _ _ hs]
      simp [framesBy, isGrant]
    · rw [demands_append]
      have e1 : demands j [(.sent (some j) (.requestN ⟨req0.streamID, u32 n⟩) : Handler.Ev H)] = [] := rfl
      rw [e1, List.append_nil]
      exact (perm_mid (x := n) (w' := waiting j ts') hct (by simp [waiting])).1
  | inputSub _ _ _ f _ ts _ h => exact replies _ _ _ h ⟨_, _, _, rfl, hc⟩ (by simp [waiting])
  | inputReq _ _ _ f st _ n ts _ hf h => exact replies _ _ _ h ⟨_, _, _, rfl, hc⟩ (by simp [waiting])
  | input _ _ _ f st _ ts _ op hf h => exact replies _ _ _ h ⟨_, _, _, rfl, hc⟩ rfl
  | asked _ _ n =>
    refine quiet _ _ ⟨_, _, _, rfl, hc⟩ (by simp [framesBy]) rfl ?_
    rw [List.append_nil, waiting_append]; simpa [waiting] using hct

theorem f_run {j : Nat} {req0 : RequestPayload} {o o' : Obj} {ts ts' : List Task}
    {es0 es : List (Handler.Ev H)} {served dropped : List Int}
    (inv : FInv j req0 o ts es0 served dropped) (h : CRun j o ts o' ts' es) :
    ∃ served' dropped', FInv j req0 o' ts' (es0 ++ es) served' dropped' := by
  induction h with
  | refl => exact ⟨served, dropped, by simpa using inv⟩
  | perm _ _ _ _ _ hp ih =>
    obtain ⟨sv, dr, h1, h2, h3, h4⟩ := ih
    refine ⟨sv, dr, h1, h2, h3, h4.trans ?_⟩
    exact List.Perm.append_left _ (hp.filterMap _)
  | step _ _ _ _ _ _ _ hs ih =>
    obtain ⟨sv, dr, ih⟩ := ih
    rw [← List.append_assoc]; exact f_step ih hs

theorem f_history (reg : Registry H) (client : Bool) (as : List Act) (s : St H)
    (tr : List (Handler.Ev H)) (h : Handler.run reg client as = .ok (s, tr)) (j : Nat)
    (req : RequestPayload) (first c : Bool) (input : Option Input) (sub : Option Flux.State)
    (ho : s.objs[j]? = some (.flux req first c input sub)) :
    ∃ served dropped, FInv j req (.flux req first c input sub) (tasksOf j s.tasks) (evsOf j tr)
      served dropped := by
  rcases Handler.history reg client as s tr h j with ⟨h1, -⟩ | ⟨o0, ts0, es0, o, es, hb, ho', hr, he⟩
  · rw [ho] at h1; cases h1
  · rw [ho] at ho'; cases ho'
    have ht := tag_run hr
    have fin : ∀ req0 input0, es0 = [] → ts0 = [] →
        CRun j (.flux req0 true false input0 none) ts0 (.flux req first c input sub) (tasksOf j s.tasks) es →
        ∃ served dropped, FInv j req (.flux req first c input sub) (tasksOf j s.tasks) (evsOf j tr)
          served dropped := by
      intro req0 input0 h1 h2 hr
      subst h1 h2
      obtain ⟨sv, dr, h3⟩ := f_run (es0 := []) (served := []) (dropped := [])
        ⟨⟨req0.initialN, true, false, input0, none, rfl, by simp, by simp⟩, by simp [framesBy], rfl,
          by simp [demands, waiting]⟩ hr
      rw [he, List.nil_append] at *
      obtain ⟨⟨n, first', c', input', sub', h4, h5, h6⟩, h7, h8, h9⟩ := h3
      cases h4
      refine ⟨sv, dr, ⟨n, first, c, input, sub, rfl, h5, h6⟩, h7, ?_, h9⟩
      rw [h8]; cases sv <;> rfl
    cases hb with
    | rs id p => exact fin _ _ rfl rfl hr
    | rc id p input => exact fin _ _ rfl rfl hr
    | _ => cases ht

/-! ## C61 -/

/-- Two demands whose goroutines run in the opposite order. -/
def swappedDemands : List Act :=
  [.call .rs ⟨[], []⟩ .created, .subscribeFlux 0 ⟨true, true, true, true, false, false⟩ [],
   .fluxCall 0 (.request 1), .fluxCall 0 (.request 2), .run 1 retCreated, .run 0 retCreated]

/-- C61 fails: each demand gets a goroutine of its own, and nothing orders them; here the request
frame carries the second demand. -/
theorem C61_order_violated :
    demands 0 (traceOf (Handler.run oneHandler true swappedDemands)) = [1, 2] ∧
    framesBy 0 (traceOf (Handler.run oneHandler true swappedDemands)) =
      [.request ⟨6, 1, [], [], false, false, 2⟩, .requestN ⟨1, 1⟩] := by
  decide +kernel

/-- A subscriber that cancels after the stream has completed. -/
def lateCancel : List Act :=
  [.call .rs ⟨[], []⟩ .created, .subscribeFlux 0 ⟨true, true, true, true, false, false⟩ [.request 1],
   .run 0 retCreated, .frame (.payload ⟨1, [], [], false, true, false⟩) noReact, .fluxCall 0 .cancel]

/-- C61 fails: a cancel frame is sent after completion. -/
theorem C61_cancel_violated :
    (traceOf (Handler.run oneHandler true lateCancel)) =
      [.opened 1 0, .flux 0 .onRequest, .flux 0 (.upRequest 1),
       .sent (some 0) (.request ⟨6, 1, [], [], false, false, 1⟩), .flux 0 .complete, .closed 1,
       .flux 0 .cancelled, .flux 0 .upCancel, .sent (some 0) (.cancel ⟨1⟩)] := by
  decide +kernel

theorem C61_demand_violated : ¬ C61_statement Unit := by
  intro h
  obtain ⟨o, hst⟩ : ∃ st, objAfter (Handler.run oneHandler true lateCancel) 0 =
      some (.flux ⟨6, 1, [], [], false, false, 1⟩ false true none (some st)) := ⟨_, rfl⟩
  obtain ⟨s, h1, h2⟩ := objAfter_ok _ _ _ hst
  have := (h oneHandler true lateCancel s _ h1 (by rw [C61_cancel_violated]; decide) 0 _ _ _ _ _ h2).2
  rw [C61_cancel_violated] at this
  have := this [.opened 1 0, .flux 0 .onRequest, .flux 0 (.upRequest 1),
       .sent (some 0) (.request ⟨6, 1, [], [], false, false, 1⟩), .flux 0 .complete]
     [.flux 0 .cancelled, .flux 0 .upCancel, .sent (some 0) (.cancel ⟨1⟩)] rfl
  revert this; decide

/-- C61: after any history, the frames granting credit for a stream are the request frame with one
of the demands, and one request-n frame for each further demand granted, all on the stream's id;
the demands granted, those waiting for their goroutine and those dropped make up all demands, each
exactly once; none is dropped before the stream is complete. Missing: that demands are granted in
the order they are made. -/
theorem C61_grants_partial (reg : Registry H) (client : Bool) (as : List Act) (s : St H)
    (tr : List (Handler.Ev H)) (h : Handler.run reg client as = .ok (s, tr)) (j : Nat)
    (req : RequestPayload) (first c : Bool) (input : Option Input) (sub : Option Flux.State)
    (ho : s.objs[j]? = some (.flux req first c input sub)) :
    (∀ f ∈ framesBy j tr, f.streamID = req.streamID) ∧
    ∃ granted dropped, (framesBy j tr).filter isGrant = grants req granted ∧
      (demands j tr).Perm (granted ++ dropped ++ waiting j s.tasks) ∧ (c = false → dropped = []) := by
  obtain ⟨sv, dr, ⟨n, first', c', input', sub', h4, h5, h6⟩, h7, h8, h9⟩ :=
    f_history reg client as s tr h j req first c input sub ho
  simp only [Obj.flux.injEq] at h4
  obtain ⟨-, -, rfl, -, -⟩ := h4
  rw [framesBy_evsOf] at h7 h8
  rw [demands_evsOf, waiting_tasksOf] at h9
  exact ⟨h7, sv, dr, h8, h9, h6⟩

theorem credit_grants (req : RequestPayload) (ns : List Int)
    (hn : ∀ n ∈ ns, 0 ≤ n ∧ n < 4294967296) :
    (((grants req ns).map credit).sum : Int) = ns.sum := by
  have hu : ∀ n : Int, 0 ≤ n → n < 4294967296 → ((u32 n).toNat : Int) = n := by
    intro n h1 h2
    unfold u32
    rw [UInt32.toNat_ofNat_of_lt' (by simp only [UInt32.size]; omega)]
    omega
  have hl : ∀ ns : List Int, (∀ n ∈ ns, 0 ≤ n ∧ n < 4294967296) →
      (((ns.map fun n => (.requestN ⟨req.streamID, u32 n⟩ : AnyFrame)).map credit).sum : Int) = ns.sum := by
    intro ns hn
    induction ns with
    | nil => rfl
    | cons n ns ih =>
      have := ih fun m hm => hn m (by simp [hm])
      have h0 := hu n (hn n (by simp)).1 (hn n (by simp)).2
      simp only [List.map_cons, List.sum_cons, credit, Int.natCast_add, h0]
      simp only [List.map_map] at this ⊢
      rw [this]
  cases ns with
  | nil => rfl
  | cons n ns =>
    have h0 := hu n (hn n (by simp)).1 (hn n (by simp)).2
    have := hl ns fun m hm => hn m (by simp [hm])
    simp only [grants, List.map_cons, List.sum_cons, credit, Int.natCast_add, h0]
    rw [this]

theorem sum_perm {a b : List Int} (h : a.Perm b) : b.sum = a.sum := by
  induction h with
  | nil => rfl
  | cons x _ ih => simp [ih]
  | swap x y l => simp only [List.sum_cons]; omega
  | trans _ _ h1 h2 => rw [h2, h1]

/-- C61: the credit granted equals the total demand, as soon as no demand waits for its goroutine
(and the stream is not complete). -/
theorem C61_credit (reg : Registry H) (client : Bool) (as : List Act) (s : St H)
    (tr : List (Handler.Ev H)) (h : Handler.run reg client as = .ok (s, tr)) (j : Nat)
    (req : RequestPayload) (first : Bool) (input : Option Input) (sub : Option Flux.State)
    (ho : s.objs[j]? = some (.flux req first false input sub))
    (hw : waiting j s.tasks = []) (hn : ∀ n ∈ demands j tr, 0 ≤ n ∧ n < 4294967296) :
    ((((framesBy j tr).filter isGrant).map credit).sum : Int) = (demands j tr).sum := by
  obtain ⟨-, sv, dr, h1, h2, h3⟩ := C61_grants_partial reg client as s tr h j req first false input sub ho
  rw [h3 rfl, hw, List.append_nil, List.append_nil] at h2
  rw [h1, credit_grants req sv (fun n hm => hn n (h2.mem_iff.mpr hm)), sum_perm h2]

theorem grants_nil_of_complete {j : Nat} {o o' : Obj} {ts ts' : List Task} {es : List (Handler.Ev H)}
    (h : CRun j o ts o' ts' es) (ho : ∃ req first input sub, o = .flux req first true input sub) :
    (framesBy j es).filter isGrant = [] ∧ ∃ req first input sub, o' = .flux req first true input sub := by
  induction h with
  | refl => exact ⟨rfl, ho⟩
  | perm _ _ _ _ _ _ ih => exact ih
  | step _ _ _ _ _ _ _ hs ih =>
    obtain ⟨h1, req, first, input, sub, rfl⟩ := ih
    rw [framesBy_append, List.filter_append, h1, List.nil_append]
    have hda : ∀ op : Flux.Op Pay, doneAfter op true = true := by intro op; cases op <;> rfl
    have hd : ∀ id (l : List (Flux.Ev Pay)),
        (framesBy j (demandEvs j id (.flux j : Flux.Ev Pay → Handler.Ev H) l)).filter isGrant = [] := by
      intro id l
      apply List.filter_eq_nil_iff.mpr
      intro f hf
      rw [framesBy_demandEvs j id (.flux j : Flux.Ev Pay → Handler.Ev H) (fun _ => rfl) l f hf]
      simp [isGrant]
    have hr : ∀ id (l : List (Flux.Ev Pay)) (e : List (Handler.Ev H)), replyEvs j id l = .ok e →
        (framesBy j e).filter isGrant = [] := by
      intro id l e h
      rw [framesBy_replyEvs _ _ _ _ h]; exact no_grants_replies _ _
    cases hs with
    | fluxOp _ _ _ _ st _ op _ => exact ⟨hd _ _, _, _, _, _, by rw [hda]⟩
    | fluxIdle _ _ _ _ _ op => exact ⟨rfl, _, _, _, _, by rw [hda]⟩
    | fluxSub =>
      refine ⟨?_, _, _, _, _, rfl⟩
      rw [framesBy_cons]; exact hd _ _
    | upDone => exact ⟨rfl, _, _, _, _, rfl⟩
    | inputSub _ _ _ f _ ts _ h => exact ⟨hr _ _ _ h, _, _, _, _, rfl⟩
    | inputReq _ _ _ f st _ n ts _ hf h => exact ⟨hr _ _ _ h, _, _, _, _, rfl⟩
    | input _ _ _ f st _ ts _ op hf h => exact ⟨hr _ _ _ h, _, _, _, _, rfl⟩
    | asked => exact ⟨rfl, _, _, _, _, rfl⟩

/-- C61: once the stream is complete no request or request-n frame is sent for it, whatever happens.
Missing: cancel frames, which are sent (`C61_cancel_violated`), and the elements of a channel's own
input, which may go on. -/
theorem C61_complete_partial (s s' : St H) (as : List Act) (e : List (Handler.Ev H))
    (h : Handler.runFrom s as = .ok (s', e)) (j : Nat) (req : RequestPayload) (first : Bool)
    (input : Option Input) (sub : Option Flux.State)
    (ho : s.objs[j]? = some (.flux req first true input sub)) :
    (framesBy j e).filter isGrant = [] := by
  obtain ⟨o', -, hr⟩ := (loc_runFrom j as s s' e h).1 _ ho
  have := (grants_nil_of_complete hr ⟨_, _, _, _, rfl⟩).1
  rwa [framesBy_evsOf] at this

theorem deliver_complete (s : St H) (j : Nat) (inner : List Flux.Call) (s' : St H)
    (e : List (Handler.Ev H)) (req : RequestPayload) (first c : Bool) (input : Option Input)
    (sub : Option Flux.State) (ho : s.objs[j]? = some (.flux req first c input sub))
    (h : deliver s j (.complete inner) = .ok (s', e)) :
    ∃ sub', s'.objs[j]? = some (.flux req first true input sub') := by
  have hl : j < s.objs.length := (List.getElem?_eq_some_iff.mp ho).1
  unfold deliver at h
  rw [ho] at h
  simp only at h
  cases sub with
  | some st =>
    cases h
    exact ⟨_, List.getElem?_set_self hl⟩
  | none =>
    cases h
    refine ⟨none, ?_⟩
    simp only [setObj]
    rw [List.getElem?_set_self hl]

theorem deliver_flux (s : St H) (j : Nat) (op : Flux.Op Pay) (s' : St H)
    (e : List (Handler.Ev H)) (req : RequestPayload) (first c : Bool) (input : Option Input)
    (sub : Option Flux.State) (ho : s.objs[j]? = some (.flux req first c input sub))
    (h : deliver s j op = .ok (s', e)) :
    ∃ c' sub', s'.objs[j]? = some (.flux req first c' input sub') := by
  have hl : j < s.objs.length := (List.getElem?_eq_some_iff.mp ho).1
  unfold deliver at h
  rw [ho] at h
  simp only at h
  cases sub with
  | some st =>
    cases h
    exact ⟨_, _, List.getElem?_set_self hl⟩
  | none =>
    cases h
    exact ⟨_, none, List.getElem?_set_self hl⟩

theorem andThen_ok {x : Go (Out H)} {f : St H → Go (Out H)} {s' : St H} {e : List (Handler.Ev H)}
    (h : andThen x f = .ok (s', e)) :
    ∃ t e1 e2, x = .ok (t, e1) ∧ f t = .ok (s', e2) ∧ e = e1 ++ e2 := by
  unfold andThen at h
  cases x with
  | ok p =>
    obtain ⟨t, e1⟩ := p
    simp only at h
    cases hf : f t with
    | ok q => rw [hf] at h; cases h; exact ⟨t, e1, q.2, rfl, hf, rfl⟩
    | err m => rw [hf] at h; cases h
    | panic => rw [hf] at h; cases h
  | err m => cases h
  | panic => cases h

theorem remove_objs (s : St H) (id : UInt32) : (remove s id).objs = s.objs := by
  unfold remove; split <;> rfl

/-- C61: a frame that ends the stream makes it complete. -/
theorem C61_completion (s s' : St H) (f : AnyFrame) (r : React) (e : List (Handler.Ev H)) (j : Nat)
    (hf : endsStream f = true) (hj : getStream s f.streamID = some j) (req : RequestPayload)
    (first c : Bool) (input : Option Input) (sub : Option Flux.State)
    (ho : s.objs[j]? = some (.flux req first c input sub)) (h : handleFrame s f r = .ok (s', e)) :
    ∃ sub', s'.objs[j]? = some (.flux req first true input sub') := by
  have ht : f.type ≥ typeRequestN := by
    cases f <;> simp [endsStream] at hf <;> simp only [AnyFrame.type] <;> decide
  unfold handleFrame at h
  simp only [ht, if_true, hj] at h
  have close : ∀ (s s' : St H) (e : List (Handler.Ev H)) inner id req first c input sub,
      s.objs[j]? = some (.flux req first c input sub) →
      andThen (deliver s j (.complete inner)) (closing id) = .ok (s', e) →
      ∃ sub', s'.objs[j]? = some (.flux req first true input sub') := by
    intro s s' e inner id req first c input sub ho h
    obtain ⟨t, e1, e2, h1, h2, -⟩ := andThen_ok h
    obtain ⟨sub', h3⟩ := deliver_complete s j inner t e1 req first c input sub ho h1
    cases h2
    exact ⟨sub', by rw [remove_objs]; exact h3⟩
  cases f with
  | setup v => simp [endsStream] at hf
  | request v => simp [endsStream] at hf
  | requestN v => simp [endsStream] at hf
  | cancel v => exact close _ _ _ _ _ _ _ _ _ _ ho h
  | payload v =>
    simp only [endsStream] at hf
    simp only [dispatch, hf, if_true] at h
    obtain ⟨t, e1, e2, h1, h2, -⟩ := andThen_ok h
    split at h1
    · obtain ⟨c', sub', h3⟩ := deliver_flux s j _ t e1 req first c input sub ho h1
      exact close _ _ _ _ _ _ _ _ _ _ h3 h2
    · cases h1; exact close _ _ _ _ _ _ _ _ _ _ ho h2
  | error v =>
    simp only [dispatch] at h
    obtain ⟨t, e1, e2, h1, h2, -⟩ := andThen_ok h
    obtain ⟨c', sub', h3⟩ := deliver_flux s j _ t e1 req first c input sub ho h1
    exact close _ _ _ _ _ _ _ _ _ _ h3 h2

/-- Demands 3 and 4, served in order, then completion with a demand waiting. -/
def orderlyDemands : List Act :=
  [.call .rs ⟨[5], [6]⟩ .created, .subscribeFlux 0 ⟨true, true, true, true, false, false⟩ [.request 3],
   .run 0 retCreated, .fluxCall 0 (.request 4), .run 0 retCreated]

example : demands 0 (traceOf (Handler.run oneHandler true orderlyDemands)) = [3, 4] ∧
    framesBy 0 (traceOf (Handler.run oneHandler true orderlyDemands)) =
      [.request ⟨6, 1, [6], [5], false, false, 3⟩, .requestN ⟨1, 4⟩] := by decide +kernel

/-- The hypotheses of `C61_credit` are met: the stream is not complete, and no demand waits. -/
example : (match Handler.run oneHandler true orderlyDemands with
    | .ok (s, tr) => (match (s.objs[0]? : Option Handler.Obj) with | some (.flux _ _ c _ _) => !c | _ => false) && (waiting 0 s.tasks).isEmpty &&
        (demands 0 tr).all fun n => decide (0 ≤ n ∧ n < 4294967296)
    | _ => false) = true := by decide +kernel

/-- Those of `C61_completion` and then of `C61_complete_partial`: the frame that ends the stream arrives. -/
example : (match Handler.run oneHandler true orderlyDemands with
    | .ok (s, _) => decide (getStream s 1 = some 0) &&
        (match handleFrame s (.payload ⟨1, [], [], false, true, false⟩) noReact with
        | .ok (s', _) => (match (s'.objs[0]? : Option Handler.Obj) with | some (.flux _ _ c _ _) => c | _ => false)
        | _ => false)
    | _ => false) = true ∧ endsStream (.payload ⟨1, [], [], false, true, false⟩) = true := by decide +kernel

end
end Verif.Props
