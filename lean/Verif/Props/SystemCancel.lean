import Verif.Props.SystemInputDemand
/-
Property C97: cancelling a stream over a whole connection.
-/
set_option autoImplicit false
namespace Verif.Props
open Verif Frames Handler
open Verif.Invoke (Kind Registry getHandler)
open Verif.System (Sys Move)

section
variable {H : Type}

/-! ## Specification

A connection is run (`System.run`). Stream number `j` of end A is a call of a stream or channel operation, and
stream number `i` of end B, with the same id `x`, is the flux B's handler has returned for it. A's subscriber
cancels: the event `.flux j .cancelled`. -/

/-- How many cancel frames for stream `x` there are. -/
def cancelFrames (x : UInt32) (fs : List AnyFrame) : Nat := fs.countP fun | .cancel v => v.streamID == x | _ => false

/-- How often A's subscriber has cancelled. -/
def cancels (j : Nat) (tr : List (Handler.Ev H)) : Nat := tr.countP fun | .flux k .cancelled => k == j | _ => false

/-- After a cancellation the subscriber sees no element and no end. -/
def quietAfterCancel (s : Sys H) (j : Nat) : Prop :=
  ∀ a b, s.trA = a ++ .flux j .cancelled :: b →
    ∀ p e, .flux j (.next p) ∉ b ∧ .flux j .complete ∉ b ∧ .flux j (.error e) ∉ b

/-- B has been handed the cancellation. -/
def cancelArrived (s : Sys H) (x : UInt32) : Prop := cancelFrames x (handedOver s.histB) ≠ 0

/-- C97 as stated in English. -/
def C97_statement (H : Type) : Prop :=
  ∀ (regA regB : Registry H) (client : Bool) (ms : List Move) (s : Sys H),
    System.run regA regB client ms = .ok s → Tidy s → ∀ j i x, bothEnds s j i x → allKept s.histB →
      quietAfterCancel s j ∧
      (cancels j s.trA ≠ 0 → cancelFrames x (sentFrames s.trA) ≠ 0) ∧
      (∀ fs r, s.ab = .cancel ⟨x⟩ :: fs → System.step s (.toB r) ≠ .panic) ∧
      (cancelArrived s x → .src i .upCancel ∈ s.trB)

/-! ## Subscribers -/

/-- Calls of Cancel that reach the source. -/
def upCancels (l : List (Flux.Ev Pay)) : Nat := l.countP fun | .upCancel => true | _ => false

theorem upCancels_append (a b : List (Flux.Ev Pay)) : upCancels (a ++ b) = upCancels a + upCancels b := by
  simp [upCancels]

/-- The subscriber of a stream that can be cancelled. -/
structure Reaches (m : Flux.State) (r : Flux.State × List (Flux.Ev Pay)) : Prop where
  has : r.1.hasCancel = m.hasCancel
  all : m.hasCancel = true → upCancels r.2 = cancelCount r.2

theorem reaches_nil (m : Flux.State) : Reaches m (m, []) := ⟨rfl, fun _ => rfl⟩

theorem Reaches.trans {m m1 m2 : Flux.State} {e1 e2 : List (Flux.Ev Pay)} (h1 : Reaches m (m1, e1))
    (h2 : Reaches m1 (m2, e2)) : Reaches m (m2, e1 ++ e2) :=
  ⟨h2.has.trans h1.has, fun h => by
    have a := h1.all h
    have b := h2.all (h1.has.trans h)
    simp only at a b ⊢
    rw [upCancels_append, cancelCount_append, a, b]⟩

theorem reaches_call (m : Flux.State) (c : Flux.Call) : Reaches m (Flux.call m c) := by
  cases c with
  | request k =>
    refine ⟨rfl, fun _ => ?_⟩
    simp only [Flux.call]; split <;> rfl
  | cancel =>
    refine ⟨rfl, fun h => ?_⟩
    simp only [Flux.call, h, if_true]
    split <;> rfl

theorem reaches_calls (cs : List Flux.Call) : ∀ m : Flux.State, Reaches m (Flux.calls (T := Pay) m cs) := by
  induction cs with
  | nil => intro m; exact reaches_nil m
  | cons c cs ih => intro m; exact Reaches.trans (reaches_call m c) (ih _)

theorem reaches_cons {m : Flux.State} {r : Flux.State × List (Flux.Ev Pay)} (e : Flux.Ev Pay) (h1 : upCancels [e] = 0)
    (h2 : cancelCount [e] = 0) (h : Reaches m r) : Reaches m (r.1, e :: r.2) :=
  ⟨h.has, fun hc => by
    have a : upCancels (e :: r.2) = upCancels [e] + upCancels r.2 := upCancels_append [e] r.2
    have b : cancelCount (e :: r.2) = cancelCount [e] + cancelCount r.2 := cancelCount_append [e] r.2
    simp only
    rw [a, b, h1, h2, h.all hc]⟩

theorem reaches_handle (m : Flux.State) (cs : List Flux.Call) : Reaches m (Flux.handleOnSubscribe (T := Pay) m cs) := by
  unfold Flux.handleOnSubscribe
  split
  · exact reaches_nil m
  · split
    · exact reaches_cons _ rfl rfl (reaches_calls cs m)
    · exact reaches_call _ _

theorem reaches_onNext (m : Flux.State) (v : Pay) (cs : List Flux.Call) : Reaches m (Flux.onNext m v cs) := by
  unfold Flux.onNext
  split
  · exact reaches_cons _ rfl rfl (reaches_calls cs m)
  · exact reaches_nil m

theorem reaches_finally (m : Flux.State) (s : Mono.Signal) : Reaches m (Flux.doFinally (T := Pay) m s) := by
  refine ⟨rfl, fun _ => ?_⟩
  rw [(finally_spec m s).2.2.1]
  simp only [Flux.doFinally, upCancels_append]
  have : upCancels (m.callbacks.map (Flux.Ev.notified · s)) = 0 := by
    apply List.countP_eq_zero.mpr
    intro e he
    obtain ⟨c, -, rfl⟩ := List.mem_map.mp he
    simp
  rw [this]
  split <;> rfl

theorem Reaches.same {m m' : Flux.State} {r : Flux.State × List (Flux.Ev Pay)} (h : m'.hasCancel = m.hasCancel)
    (hr : Reaches m' r) : Reaches m r := ⟨hr.has.trans h, fun hc => hr.all (h.trans hc)⟩

theorem reaches_step (m : Flux.State) (op : Flux.Op Pay) (hop : ∀ c, op ≠ .onSubscribe c) : Reaches m (Flux.step m op) := by
  cases op with
  | next v a b =>
    simp only [Flux.step, Flux.next]
    split
    · exact reaches_nil m
    · have h1 : Reaches m (Flux.onNext { m with n := m.n - 1 } v a) := Reaches.same (m' := { m with n := m.n - 1 }) rfl (reaches_onNext _ v a)
      split
      · exact Reaches.trans h1 (reaches_handle _ b)
      · exact h1
  | complete a =>
    simp only [Flux.step, Flux.complete]
    split
    · exact reaches_nil m
    · split
      · exact Reaches.trans (Reaches.same (m' := { m with closed := true }) rfl (reaches_cons _ rfl rfl (reaches_calls a _))) (reaches_finally _ _)
      · exact Reaches.trans (m1 := { m with closed := true }) (e1 := []) ⟨rfl, fun _ => rfl⟩ (reaches_finally _ _)
  | error e a =>
    simp only [Flux.step, Flux.error]
    split
    · exact reaches_nil m
    · split
      · exact Reaches.trans (Reaches.same (m' := { m with err := e, closed := true }) rfl (reaches_cons _ rfl rfl (reaches_calls a _))) (reaches_finally _ _)
      · exact Reaches.trans (m1 := { m with err := e, closed := true }) (e1 := []) ⟨rfl, fun _ => rfl⟩ (reaches_finally _ _)
  | onSubscribe c => exact absurd rfl (hop c)
  | start a => exact reaches_handle m a
  | call c => exact reaches_call m c
  | notify cb =>
    simp only [Flux.step, Flux.notify]
    split
    · exact ⟨rfl, fun _ => rfl⟩
    · exact ⟨rfl, fun _ => rfl⟩

/-- In a step the signal comes first. -/
theorem signal_first (m : Flux.State) (op : Flux.Op Pay) :
    ∃ hd tl, (Flux.step m op).2 = hd ++ tl ∧ .cancelled ∉ hd ∧ fluxSignals tl = [] := by
  have q : ∀ l : List (Flux.Ev Pay), fluxSignals l = [] → ∃ hd tl, l = hd ++ tl ∧ .cancelled ∉ hd ∧ fluxSignals tl = [] :=
    fun l h => ⟨[], l, rfl, by simp, h⟩
  cases op with
  | next v a b =>
    simp only [Flux.step, Flux.next]
    split
    · exact q _ rfl
    · have h1 : ∃ hd tl, (Flux.onNext { m with n := m.n - 1 } v a).2 = hd ++ tl ∧ .cancelled ∉ hd ∧ fluxSignals tl = [] := by
        unfold Flux.onNext
        split
        · exact ⟨[.next v], _, rfl, by simp, (quiet_calls _ a).signals⟩
        · exact q _ rfl
      obtain ⟨hd, tl, e1, e2, e3⟩ := h1
      split
      · refine ⟨hd, tl ++ (Flux.handleOnSubscribe (Flux.onNext { m with n := m.n - 1 } v a).1 b).2, ?_, e2, ?_⟩
        · simp only; rw [e1, List.append_assoc]
        · rw [fluxSignals_append, e3, (quiet_handle _ b).signals]; rfl
      · exact ⟨hd, tl, e1, e2, e3⟩
  | complete a =>
    simp only [Flux.step, Flux.complete]
    split
    · exact q _ rfl
    · split
      · refine ⟨[.complete], _, rfl, by simp, ?_⟩
        exact (fluxSignals_append _ _).trans (by rw [(quiet_calls _ a).signals, (finally_spec _ _).1]; rfl)
      · exact q _ (by rw [fluxSignals_append, (finally_spec _ _).1]; rfl)
  | error e a =>
    simp only [Flux.step, Flux.error]
    split
    · exact q _ rfl
    · split
      · refine ⟨[.error e], _, rfl, by simp, ?_⟩
        exact (fluxSignals_append _ _).trans (by rw [(quiet_calls _ a).signals, (finally_spec _ _).1]; rfl)
      · exact q _ (by rw [fluxSignals_append, (finally_spec _ _).1]; rfl)
  | onSubscribe c =>
    simp only [Flux.step]
    split
    · exact q _ rfl
    · exact q _ (by simp only; split <;> rfl)
  | start a => exact q _ (quiet_handle m a).signals
  | call c => exact q _ (quiet_call m c).signals
  | notify cb =>
    simp only [Flux.step, Flux.notify]
    split <;> exact q _ rfl

/-- Nothing is seen after a cancellation. -/
def HushAfter (l : List (Flux.Ev Pay)) : Prop := ∀ a b, l = a ++ .cancelled :: b → fluxSignals b = []

theorem hush_step (m : Flux.State) (op : Flux.Op Pay) (l : List (Flux.Ev Pay)) (h : HushAfter l)
    (hc : .cancelled ∈ l → m.closed = true) :
    HushAfter (l ++ (Flux.step m op).2) ∧ (.cancelled ∈ l ++ (Flux.step m op).2 → (Flux.step m op).1.closed = true) := by
  have sp := flux_step_spec m op
  refine ⟨fun a b hab => ?_, fun hm => ?_⟩
  · rcases List.append_eq_append_iff.mp hab with ⟨r, h1, h2⟩ | ⟨r, h1, h2⟩
    · -- cancelled in the step
      obtain ⟨hd, tl, e1, e2, e3⟩ := signal_first m op
      rw [e1] at h2
      rcases List.append_eq_append_iff.mp h2 with ⟨r', g1, g2⟩ | ⟨r', g1, g2⟩
      · rw [g2] at e3
        have : fluxSignals (r' ++ .cancelled :: b) = fluxSignals r' ++ fluxSignals b := by
          rw [fluxSignals_append]; rfl
        rw [this] at e3
        exact (List.append_eq_nil_iff.mp e3).2
      · cases r' with
        | nil =>
          simp only [List.nil_append] at g2
          rw [← g2] at e3
          exact e3
        | cons y r' =>
          simp only [List.cons_append, List.cons.injEq] at g2
          obtain ⟨rfl, -⟩ := g2
          exact absurd (by rw [g1]; simp) e2
    · cases r with
      | nil =>
        simp only [List.append_nil, List.nil_append] at h1 h2
        obtain ⟨hd, tl, e1, e2, e3⟩ := signal_first m op
        rw [← h2] at e1
        cases hd with
        | nil =>
          simp only [List.nil_append] at e1
          rw [← e1] at e3; exact e3
        | cons y hd =>
          simp only [List.cons_append, List.cons.injEq] at e1
          obtain ⟨rfl, -⟩ := e1
          exact absurd (by simp) e2
      | cons y r =>
        simp only [List.cons_append, List.cons.injEq] at h2
        obtain ⟨rfl, rfl⟩ := h2
        have h3 := h a r h1
        rw [fluxSignals_append, h3, sp.signals, hc (by rw [h1]; simp)]
        rfl
  · rw [sp.closed]
    rcases List.mem_append.mp hm with hm | hm
    · rw [hc hm]; rfl
    · simp [(cancelled_mem_iff _).mp hm]

/-! ## The calling end -/

/-- Is it a cancel frame? -/
def isCancel : AnyFrame → Bool
  | .cancel _ => true
  | _ => false

theorem demand_cancels (j : Nat) (id : UInt32) (l : List (Flux.Ev Pay)) :
    (framesBy j (demandEvs j id (.flux j : Flux.Ev Pay → Handler.Ev H) l)).countP isCancel = upCancels l := by
  induction l with
  | nil => rfl
  | cons e l ih =>
    cases e with
    | upCancel =>
      have e1 : framesBy j (demandEvs j id (.flux j : Flux.Ev Pay → Handler.Ev H) (.upCancel :: l)) =
          .cancel ⟨id⟩ :: framesBy j (demandEvs j id (.flux j : Flux.Ev Pay → Handler.Ev H) l) := by simp [demandEvs, framesBy]
      rw [e1, List.countP_cons, ih]
      simp [isCancel, upCancels]
    | _ => simp_all [demandEvs, framesBy, upCancels]

/-- What is known of the subscriber of a stream. -/
structure CancelInv (j : Nat) (o : Obj) (es : List (Handler.Ev H)) : Prop where
  obj : ∃ req first c input sub, o = .flux req first c input sub ∧
    (sub = none → fluxEvs j es = []) ∧
    ∀ st, sub = some st → st.hasCancel = true ∧ (.cancelled ∈ fluxEvs j es → st.closed = true)
  hush : HushAfter (fluxEvs j es)
  frames : (framesBy j es).countP isCancel = cancelCount (fluxEvs j es)

theorem replies_no_cancel (id : UInt32) (l : List (Flux.Ev Pay)) : (l.flatMap (signalFrame id)).countP isCancel = 0 := by
  apply List.countP_eq_zero.mpr
  intro f hf
  obtain ⟨e, -, h2⟩ := List.mem_flatMap.mp hf
  unfold signalFrame at h2
  split at h2 <;> simp [elementFrame] at h2 <;> subst h2 <;> simp [isCancel]

theorem cancel_step {j : Nat} {o o' : Obj} {ts ts' : List Task} {es es' : List (Handler.Ev H)}
    (inv : CancelInv j o es) (h : CStep j o ts o' ts' es') : CancelInv j o' (es ++ es') := by
  obtain ⟨⟨req, first, c, input, sub, rfl, hnone, hsub⟩, hhush, hfr⟩ := inv
  have quiet : ∀ o', (∃ req first c input, o' = .flux req first c input sub) → fluxEvs j es' = [] →
      (framesBy j es').countP isCancel = 0 → CancelInv j o' (es ++ es') := by
    intro o' ⟨req, first, c, input, ho⟩ h1 h2
    refine ⟨⟨req, first, c, input, sub, ho, ?_, ?_⟩, ?_, ?_⟩
    · intro hn; rw [fluxEvs_append, h1, hnone hn]; rfl
    · intro st hst; rw [fluxEvs_append, h1, List.append_nil]; exact hsub st hst
    · rw [fluxEvs_append, h1, List.append_nil]; exact hhush
    · rw [framesBy_append, List.countP_append, h2, fluxEvs_append, h1, List.append_nil, hfr]; rfl
  have replies : ∀ o' (id : UInt32) (l : List (Flux.Ev Pay)), replyEvs j id l = .ok es' →
      (∃ req first c input, o' = .flux req first c input sub) → CancelInv j o' (es ++ es') := by
    intro o' id l hr ho
    refine quiet _ ho (fluxEvs_replyEvs _ _ _ _ _ hr) ?_
    rw [framesBy_replyEvs _ _ _ _ hr]; exact replies_no_cancel _ _
  cases h with
  | fluxOp _ _ _ _ st _ op hop =>
    obtain ⟨s1, s2⟩ := hsub st rfl
    have hr := reaches_step st op hop
    obtain ⟨h1, h2⟩ := hush_step st op _ hhush s2
    refine ⟨⟨_, _, _, _, _, rfl, fun hn => (by cases hn), fun st' hst => ?_⟩, ?_, ?_⟩
    · cases hst
      refine ⟨hr.has.trans s1, ?_⟩
      rw [fluxEvs_append, fluxEvs_demandEvs]; exact h2
    · rw [fluxEvs_append, fluxEvs_demandEvs]; exact h1
    · rw [framesBy_append, List.countP_append, hfr, demand_cancels, fluxEvs_append, fluxEvs_demandEvs, cancelCount_append, hr.all s1]
  | fluxIdle _ _ _ _ _ op => exact quiet _ ⟨_, _, _, _, rfl⟩ rfl rfl
  | fluxSub _ _ _ _ _ inst start =>
    have hn := hnone rfl
    have r1 : Flux.runFrom (.init inst []) [(.onSubscribe true : Flux.Op Pay), .start start] =
        Flux.handleOnSubscribe { Flux.State.init inst [] with hasRequest := true, hasCancel := true } start := by
      simp [Flux.runFrom, Flux.step, Flux.State.init]
    rw [r1]
    have hr := reaches_handle { Flux.State.init inst [] with hasRequest := true, hasCancel := true } start
    obtain ⟨h1, h2⟩ := hush_step { Flux.State.init inst [] with hasRequest := true, hasCancel := true } (.start start) []
      (fun a b h => by simp at h) (fun h => by cases h)
    have e1 : fluxEvs j (es ++ (.opened req.streamID j :: demandEvs j req.streamID (.flux j)
        (Flux.handleOnSubscribe (T := Pay) { Flux.State.init inst [] with hasRequest := true, hasCancel := true } start).2)) =
        (Flux.handleOnSubscribe (T := Pay) { Flux.State.init inst [] with hasRequest := true, hasCancel := true } start).2 := by
      rw [fluxEvs_append, hn, List.nil_append]
      exact fluxEvs_demandEvs _ _ _
    refine ⟨⟨_, _, _, _, _, rfl, fun hn => (by cases hn), fun st' hst => ?_⟩, ?_, ?_⟩
    · cases hst
      refine ⟨hr.has, ?_⟩
      rw [e1]; exact h2
    · rw [e1]; exact h1
    · rw [e1, framesBy_append, List.countP_append, hfr, hn, ← hr.all rfl]
      show 0 + (framesBy j (demandEvs j req.streamID (.flux j) _)).countP isCancel = _
      rw [demand_cancels, Nat.zero_add]
  | upDone _ _ _ _ n ts => exact quiet _ ⟨_, _, _, _, rfl⟩ rfl rfl
  | upFirst _ _ _ n ts => exact quiet _ ⟨_, _, _, _, rfl⟩ rfl (by simp [framesBy, isCancel])
  | upLater _ _ _ n ts => exact quiet _ ⟨_, _, _, _, rfl⟩ rfl (by simp [framesBy, isCancel])
  | inputSub _ _ _ f _ ts _ h => exact replies _ _ _ h ⟨_, _, _, _, rfl⟩
  | inputReq _ _ _ f st _ n ts _ hf h => exact replies _ _ _ h ⟨_, _, _, _, rfl⟩
  | input _ _ _ f st _ ts _ op hf h => exact replies _ _ _ h ⟨_, _, _, _, rfl⟩
  | asked _ _ n => exact quiet _ ⟨_, _, _, _, rfl⟩ rfl rfl

theorem cancel_run {j : Nat} {o o' : Obj} {ts ts' : List Task} {es0 es : List (Handler.Ev H)}
    (inv : CancelInv j o es0) (h : CRun j o ts o' ts' es) : CancelInv j o' (es0 ++ es) := by
  induction h with
  | refl => simpa using inv
  | perm _ _ _ _ _ _ ih => exact ih
  | step _ _ _ _ _ _ _ hs ih => rw [← List.append_assoc]; exact cancel_step ih hs

theorem cancel_history (reg : Registry H) (client : Bool) (as : List Act) (s : St H) (tr : List (Handler.Ev H))
    (h : Handler.run reg client as = .ok (s, tr)) (j : Nat) (req : RequestPayload) (first c : Bool) (input : Option Input)
    (sub : Option Flux.State) (ho : s.objs[j]? = some (.flux req first c input sub)) :
    CancelInv j (.flux req first c input sub) (evsOf j tr) := by
  rcases Handler.history reg client as s tr h j with ⟨h1, -⟩ | ⟨o0, ts0, es0, o, es, hb, ho', hr, he⟩
  · rw [ho] at h1; cases h1
  · rw [ho] at ho'; cases ho'
    have ht := tag_run hr
    have fin : ∀ req0 input0, CancelInv (H := H) j (.flux req0 true false input0 none) [] := fun req0 input0 =>
      ⟨⟨_, _, _, _, _, rfl, fun _ => rfl, fun st hst => (by cases hst)⟩, fun a b h => (by simp [fluxEvs] at h), rfl⟩
    rw [he]
    cases hb with
    | rs id p => exact cancel_run (fin _ _) hr
    | rc id p input => exact cancel_run (fin _ _) hr
    | _ => cases ht

theorem cancels_eq (j : Nat) (tr : List (Handler.Ev H)) : cancels j tr = cancelCount (fluxEvs j tr) := by
  induction tr with
  | nil => rfl
  | cons e tr ih =>
    unfold cancels at ih ⊢
    rw [List.countP_cons, ih]
    cases e with
    | flux k x =>
      by_cases hk : k = j
      · subst hk
        cases x <;> simp [fluxEvs, cancelCount]
      · cases x <;> simp [fluxEvs, cancelCount, hk]
    | _ => simp [fluxEvs]

theorem cancelFrames_withId (x : UInt32) (fs : List AnyFrame) : cancelFrames x fs = (withId x fs).countP isCancel := by
  induction fs with
  | nil => rfl
  | cons f fs ih =>
    unfold cancelFrames at ih ⊢
    rw [List.countP_cons, ih]
    by_cases h : f.streamID = x
    · have e1 : withId x (f :: fs) = f :: withId x fs := by simp [withId, h]
      rw [e1, List.countP_cons]
      cases f <;> simp_all [isCancel, AnyFrame.streamID]
    · have e1 : withId x (f :: fs) = withId x fs := by simp [withId, h]
      rw [e1]
      cases f <;> simp_all [AnyFrame.streamID]

/-! ## The serving end -/

theorem srcOp_no_cancel (st : Flux.State) (op : SrcOp) : .upCancel ∉ (Flux.step st op.op).2 := by
  have hh : ∀ m : Flux.State, .upCancel ∉ (Flux.handleOnSubscribe (T := Pay) m []).2 := by
    intro m
    unfold Flux.handleOnSubscribe
    split
    · simp
    · split
      · simp [Flux.calls]
      · simp only [Flux.call]; split <;> simp
  have hf : ∀ (m : Flux.State) s, .upCancel ∉ (Flux.doFinally (T := Pay) m s).2 := by
    intro m s
    simp only [Flux.doFinally]
    split <;> simp
  cases op with
  | next p =>
    simp only [SrcOp.op, Flux.step, Flux.next]
    split
    · simp
    · have h1 : .upCancel ∉ (Flux.onNext { st with n := st.n - 1 } p []).2 := by
        unfold Flux.onNext; split <;> simp [Flux.calls]
      split
      · simp only [List.mem_append, not_or]; exact ⟨h1, hh _⟩
      · exact h1
  | complete =>
    simp only [SrcOp.op, Flux.step, Flux.complete]
    split
    · simp
    · simp only [List.mem_append, not_or]
      refine ⟨?_, hf _ _⟩
      split <;> simp [Flux.calls]
  | error e =>
    simp only [SrcOp.op, Flux.step, Flux.error]
    split
    · simp
    · simp only [List.mem_append, not_or]
      refine ⟨?_, hf _ _⟩
      split <;> simp [Flux.calls]
  | onSubscribe c =>
    simp only [SrcOp.op, Flux.step]
    split
    · simp
    · simp only; split <;> simp

theorem throughMap_no_cancel (f : Src) (l : List (Flux.Ev Pay)) (h : .upCancel ∉ l) : .upCancel ∉ throughMap f l := by
  unfold throughMap
  split
  · intro hm
    obtain ⟨e, h1, h2⟩ := List.mem_flatMap.mp hm
    cases e with
    | upCancel => exact h h1
    | next v =>
      simp only [Flux.mapEv] at h2
      split at h2
      · simp at h2
      · simp at h2
    | _ => simp [Flux.mapEv] at h2
  · exact h

theorem reply_no_cancel (j i : Nat) (id : UInt32) (l : List (Flux.Ev Pay)) (hl : .upCancel ∉ l) :
    ∀ r : List (Handler.Ev H), replyEvs j id l = .ok r → .src i .upCancel ∉ r := by
  induction l with
  | nil => intro r h; cases h; simp
  | cons x l ih =>
    intro r h
    simp only [replyEvs] at h
    obtain ⟨a, ha, h⟩ := bind_ok_inv h
    obtain ⟨b, hb, h⟩ := bind_ok_inv h
    cases h
    simp only [List.mem_cons, not_or] at hl
    simp only [List.mem_append, not_or]
    refine ⟨?_, ih hl.2 _ hb⟩
    cases x with
    | error e => cases e <;> simp [replyEv] at ha <;> subst ha <;> simp
    | upCancel => exact absurd rfl hl.1
    | _ => simp [replyEv] at ha; subst ha; simp

theorem demand_no_src (j i : Nat) (id : UInt32) (wrap : Flux.Ev Pay → Handler.Ev H) (hw : ∀ e e', wrap e ≠ .src i e') (l : List (Flux.Ev Pay)) :
    .src i .upCancel ∉ demandEvs j id wrap l := by
  induction l with
  | nil => simp [demandEvs]
  | cons e l ih =>
    have := fun e => (hw e .upCancel).symm
    cases e <;> simp_all [demandEvs]

/-- No step of a stream cancels the source of an application's flux. -/
theorem step_no_stop {j i : Nat} {o o' : Obj} {ts ts' : List Task} {es : List (Handler.Ev H)} (h : CStep j o ts o' ts' es) :
    .src i .upCancel ∉ es := by
  have call : ∀ (st : Flux.State) (n : Int), .upCancel ∉ (Flux.call (T := Pay) st (.request n)).2 := by
    intro st n; simp only [Flux.call]; split <;> simp
  have sub : ∀ f : Src, .upCancel ∉ (subscribeSrc f).2 := by
    intro f; cases f <;> simp [subscribeSrc, Flux.errorSubscribe, replyInst]
  have ans : ∀ (id : UInt32) (l : List (Mono.Ev Pay)) (r : List (Handler.Ev H)), answerEvs j id l = .ok r → .src i .upCancel ∉ r := by
    intro id l
    induction l with
    | nil => intro r h; cases h; simp
    | cons x l ih =>
      intro r h
      simp only [answerEvs] at h
      obtain ⟨a, ha, h⟩ := bind_ok_inv h
      obtain ⟨b, hb, h⟩ := bind_ok_inv h
      cases h
      simp only [List.mem_append, not_or]
      refine ⟨?_, ih _ hb⟩
      unfold answerEv at ha
      split at ha <;> cases ha <;> simp
  cases h with
  | answer id m st ts sig es h => exact ans _ _ _ h
  | outSub _ _ _ _ _ f n ts _ h => exact reply_no_cancel _ _ _ _ (throughMap_no_cancel _ _ (sub _)) _ h
  | outFirst _ _ g st _ _ f n ts _ hf h => exact reply_no_cancel _ _ _ _ (throughMap_no_cancel _ _ (call _ _)) _ h
  | outReq _ _ f st _ n ts _ h => exact reply_no_cancel _ _ _ _ (throughMap_no_cancel _ _ (call _ _)) _ h
  | out _ _ f st _ _ ts _ op hf h => exact reply_no_cancel _ _ _ _ (throughMap_no_cancel _ _ (srcOp_no_cancel _ _)) _ h
  | inp _ _ _ _ st ts op _ => exact demand_no_src _ _ _ _ (by simp) _
  | inpSub => exact demand_no_src _ _ _ _ (by simp) _
  | inpUp => simp
  | monoOp => simp
  | monoSub => simp
  | fluxOp => exact demand_no_src _ _ _ _ (by simp) _
  | fluxIdle => simp
  | fluxSub =>
    simp only [List.mem_cons, not_or]
    exact ⟨by simp, demand_no_src _ _ _ _ (by simp) _⟩
  | upDone => simp
  | upFirst => simp
  | upLater => simp
  | inputSub _ _ _ f _ ts _ h => exact reply_no_cancel _ _ _ _ (throughMap_no_cancel _ _ (sub _)) _ h
  | inputReq _ _ _ f st _ n ts _ hf h => exact reply_no_cancel _ _ _ _ (throughMap_no_cancel _ _ (call _ _)) _ h
  | input _ _ _ f st _ ts _ op hf h => exact reply_no_cancel _ _ _ _ (throughMap_no_cancel _ _ (srcOp_no_cancel _ _)) _ h
  | asked => simp

theorem no_stop (reg : Registry H) (client : Bool) (as : List Act) (s : St H) (tr : List (Handler.Ev H))
    (h : Handler.run reg client as = .ok (s, tr)) (i : Nat) : .src i .upCancel ∉ tr := by
  intro hm
  have hm' : .src i .upCancel ∈ evsOf i tr := List.mem_filter.mpr ⟨hm, by simp [Handler.Ev.obj]⟩
  rcases Handler.history reg client as s tr h i with ⟨-, -, h1⟩ | ⟨o0, ts0, es0, o, es, hb, -, hr, he⟩
  · rw [h1] at hm'; cases hm'
  · rw [he] at hm'
    rcases List.mem_append.mp hm' with hm | hm
    · cases hb with
      | answer id m es h =>
        have : ∀ (l : List (Mono.Ev Pay)) (r : List (Handler.Ev H)), answerEvs i id l = .ok r → .src i .upCancel ∉ r := by
          intro l
          induction l with
          | nil => intro r h; cases h; simp
          | cons x l ih =>
            intro r h
            simp only [answerEvs] at h
            obtain ⟨a, ha, h⟩ := bind_ok_inv h
            obtain ⟨b, hb, h⟩ := bind_ok_inv h
            cases h
            simp only [List.mem_append, not_or]
            refine ⟨?_, ih _ hb⟩
            unfold answerEv at ha
            split at ha <;> cases ha <;> simp
        exact this _ _ h hm
      | fnf _ _ h => rcases h with rfl | rfl <;> simp at hm
      | stream _ _ _ _ _ _ h => rcases h with rfl | ⟨-, rfl⟩ <;> simp at hm
      | _ => simp at hm
    · clear he hm' hb
      generalize tasksOf i s.tasks = ts1 at hr
      induction hr with
      | refl => cases hm
      | perm _ _ _ _ _ _ ih => exact ih hm
      | step _ _ _ _ _ _ _ hs ih =>
        rcases List.mem_append.mp hm with hm | hm
        · exact ih hm
        · exact step_no_stop hs hm

/-- A subscriber of the input stays. -/
theorem unsubscribed_back {j : Nat} {o o' : Obj} {ts ts' : List Task} {es : List (Handler.Ev H)} (h : CRun j o ts o' ts' es)
    (h' : ∃ k id out b, o' = .responder k id out b none) : ∃ k id out b, o = .responder k id out b none := by
  induction h with
  | refl => exact h'
  | perm _ _ _ _ _ _ ih => exact ih h'
  | step _ _ _ _ _ _ _ hs ih =>
    apply ih
    obtain ⟨k, id, out, b, rfl⟩ := h'
    cases hs <;> exact ⟨_, _, _, _, rfl⟩

theorem deliver_unsubscribed {s : St H} {i : Nat} {k : Kind} {id : UInt32} {out : Option (Src × Flux.State)} {b : Bool}
    (h : s.objs[i]? = some (.responder k id out b none)) (op : Flux.Op Pay) : deliver s i op = .panic := by
  simp only [deliver, h]

theorem closes_delivers (s s' : St H) (r : React) (f : AnyFrame) (i : Nat) (e : List (Handler.Ev H)) (x : UInt32)
    {k : Kind} {id : UInt32} {out : Option (Src × Flux.State)} {b : Bool}
    (h : dispatch s r f (some i) = .ok (s', e)) (hc : .closed x ∈ e) :
    s.objs[i]? ≠ some (.responder k id out b none) := by
  intro ho
  have hd := deliver_unsubscribed ho
  cases f with
  | setup v =>
    simp only [dispatch] at h
    split at h
    · split at h <;> cases h; cases hc
    · cases h; cases hc
  | request v =>
    simp only [dispatch] at h
    split at h <;> cases h <;> cases hc
  | requestN v =>
    simp only [dispatch] at h
    split at h <;> cases h; cases hc
  | cancel v => simp only [dispatch, hd, andThen] at h; cases h
  | payload v =>
    simp only [dispatch] at h
    rcases (Bool.eq_false_or_eq_true v.next).symm with hn | hn
    · rcases (Bool.eq_false_or_eq_true v.complete).symm with hcm | hcm
      · simp only [hn, hcm, andThen, Bool.false_eq_true, if_false] at h
        cases h; cases hc
      · simp only [hn, hcm, andThen, Bool.false_eq_true, if_false, if_true, hd] at h
        cases h
    · simp only [hn, if_true, hd, andThen] at h; cases h
  | error v => simp only [dispatch, hd, andThen] at h; cases h

theorem openedIds_mem {tr : List (Handler.Ev H)} {x : UInt32} : x ∈ openedIds tr ↔ ∃ j, .opened x j ∈ tr := by
  simp only [openedIds, List.mem_filterMap]
  constructor
  · rintro ⟨e, h1, h2⟩
    cases e <;> simp at h2
    subst h2; exact ⟨_, h1⟩
  · rintro ⟨j, h⟩; exact ⟨_, h, rfl⟩

theorem opened_once {tr : List (Handler.Ev H)} (hu : (openedIds tr).Nodup) {x : UInt32} {i j : Nat} (h1 : .opened x i ∈ tr)
    (h2 : .opened x j ∈ tr) : i = j := by
  induction tr with
  | nil => cases h1
  | cons e tr ih =>
    have e1 : openedIds (e :: tr) = openedIds [e] ++ openedIds tr := openedIds_append [e] tr
    rw [e1] at hu
    have hu' := List.nodup_append.mp hu
    rcases List.mem_cons.mp h1 with h1 | h1
    · subst h1
      rcases List.mem_cons.mp h2 with h2 | h2
      · cases h2; rfl
      · exact absurd rfl (hu'.2.2 x (by simp [openedIds]) x (openedIds_mem.mpr ⟨_, h2⟩))
    · have h1' := h1
      rcases List.mem_cons.mp h2 with h2 | h2
      · subst h2
        exact absurd rfl (hu'.2.2 x (by simp [openedIds]) x (openedIds_mem.mpr ⟨_, h1'⟩))
      · exact ih hu'.2.1 h1 h2

/-- A stream whose input nobody has subscribed to is never closed. -/
theorem unsubscribed_open {reg : Registry H} {client : Bool} (as : List Act) : ∀ {s : St H} {tr : List (Handler.Ev H)},
    Handler.run reg client as = .ok (s, tr) → (openedIds tr).Nodup → ∀ x i, .opened x i ∈ tr → .closed x ∈ tr →
    ¬ ∃ k id out b, s.objs[i]? = some (.responder k id out b none) := by
  induction as using snoc_induction with
  | nil => intro s tr h _ x i ho; cases h; cases ho
  | snoc as a ih =>
    intro s' tr h hu x i ho hc hbad
    obtain ⟨s, t, e, h1, h2, rfl⟩ := run_snoc_inv _ _ _ _ _ _ h
    have hu' := hu
    rw [openedIds_append] at hu'
    have hu' := List.nodup_append.mp hu'
    -- the stream was there before
    have back : .opened x i ∈ t → ∃ k id out b, s.objs[i]? = some (.responder k id out b none) := by
      intro hot
      obtain ⟨o, q1, -⟩ := opened_history reg client as s t h1 i x hot
      obtain ⟨o', q2, q3⟩ := (loc_settle i s _ (loc_step i s a) s' e h2).1 o q1
      obtain ⟨k, id, out, b, q4⟩ := hbad
      rw [q4] at q2; cases q2
      obtain ⟨_, _, _, _, rfl⟩ := unsubscribed_back q3 ⟨_, _, _, _, rfl⟩
      exact ⟨_, _, _, _, q1⟩
    rcases List.mem_append.mp hc with hc | hc
    · have hid := closed_was_opened reg client as s t h1 x hc
      have hot : .opened x i ∈ t := by
        rcases List.mem_append.mp ho with ho | ho
        · exact ho
        · exact absurd rfl (hu'.2.2 x hid x (openedIds_mem.mpr ⟨_, ho⟩))
      exact ih h1 hu'.1 x i hot hc (back hot)
    · obtain ⟨f, r, rfl, h4⟩ := (regs_settle _ _ _ _ h2).closed x hc
      have h2' := h2
      simp only [Handler.step] at h2'
      cases hd : handleFrame s f r with
      | panic => rw [hd] at h2'; cases h2'
      | err m => rw [hd] at h2'; cases h2'; simp at hc
      | ok p =>
        rw [hd] at h2'
        cases h2'
        unfold handleFrame at hd
        split at hd
        · split at hd
          · split at hd <;> cases hd; cases hc
          · rename_i j hj
            rw [h4] at hj
            have hj' := getStream_opened reg client as s t h1 x j hj
            have : i = j := opened_once hu ho (List.mem_append_left _ hj')
            subst this
            obtain ⟨k, id, out, b, q⟩ := back hj'
            exact closes_delivers _ _ _ _ _ _ _ hd hc q
        · cases f with
          | setup v =>
            simp only [dispatch] at hd
            split at hd
            · split at hd <;> cases hd; cases hc
            · cases hd; cases hc
          | request v =>
            simp only [dispatch] at hd
            split at hd <;> cases hd <;> cases hc
          | _ => simp [dispatch] at hd

/-- A responder was registered. -/
theorem responder_opened {reg : Registry H} {client : Bool} {as : List Act} {s : St H} {tr : List (Handler.Ev H)}
    (h : Handler.run reg client as = .ok (s, tr)) {i : Nat} {k : Kind} {x : UInt32} {out : Option (Src × Flux.State)} {b : Bool}
    {inp : Option Flux.State} (ho : s.objs[i]? = some (.responder k x out b inp)) (hk : allKept as) : .opened x i ∈ tr := by
  obtain ⟨as1, as2, t, ret, s1, t1, k', data, md, n, hr, hi, hex, htag⟩ := served_origin as h i _ ho rfl
  have hk' : k' ≠ .rr := fun e => by have := htag.mpr e; cases this
  have hret : ret.kept = true := hk t ret (by rw [hr.split]; simp)
  have h1 := hr.before
  have ht := hr.task
  rw [hr.split] at h
  have e1 : as1 ++ .run t ret :: as2 = (as1 ++ [.run t ret]) ++ as2 := by simp
  rw [e1] at h
  unfold Handler.run at h h1
  rw [handler_runFrom_append] at h
  obtain ⟨s2, t2, t3, q1, -, rfl⟩ := andThen_ok h
  obtain ⟨s0, t0, e, q2, q3, rfl⟩ := run_snoc_inv reg client _ _ _ _ q1
  unfold Handler.run at q2
  rw [h1] at q2; cases q2
  have := (served_born hk' h1 ht hex q3).2.2.2 (.inl hret)
  rw [hi]
  exact List.mem_append_left _ (List.mem_append_right _ this)

/-! ## C97 -/

/-- C97: after cancelling, the subscriber sees nothing more of the stream. -/
theorem C97_quiet_partial (regA regB : Registry H) (client : Bool) (ms : List Move) (s : Sys H)
    (h : System.run regA regB client ms = .ok s) (j i : Nat) (x : UInt32) (hb : bothEnds s j i x) : quietAfterCancel s j := by
  obtain ⟨req, first, c, input, sub, ho, -⟩ := hb.caller
  have inv := cancel_history regA client s.histA s.a s.trA (joined_run ms h).a j req first c input sub ho
  have hush := inv.hush
  rw [fluxEvs_evsOf] at hush
  intro a b hab p e
  have h1 : fluxSignals (fluxEvs j b) = [] := by
    apply hush (fluxEvs j a)
    rw [hab, fluxEvs_append]
    simp [fluxEvs]
  have key : ∀ y : Flux.Ev Pay, fluxSignals [y] = [y] → .flux j y ∉ b := by
    intro y hy hm
    have h2 : y ∈ fluxEvs j b := List.mem_filterMap.mpr ⟨_, hm, by simp⟩
    obtain ⟨l1, l2, h3⟩ := List.append_of_mem h2
    have h4 : fluxSignals (fluxEvs j b) = fluxSignals l1 ++ (fluxSignals [y] ++ fluxSignals l2) := by
      rw [h3, ← fluxSignals_append, ← fluxSignals_append]; rfl
    rw [h1, hy] at h4
    simp at h4
  exact ⟨key _ rfl, key _ rfl, key _ rfl⟩

/-- C97: each cancellation puts one cancel frame on the wire. -/
theorem C97_told_partial (regA regB : Registry H) (client : Bool) (ms : List Move) (s : Sys H)
    (h : System.run regA regB client ms = .ok s) (ht : Tidy s) (j i : Nat) (x : UInt32) (hb : bothEnds s j i x) :
    cancelFrames x (sentFrames s.trA) = cancels j s.trA := by
  obtain ⟨req, first, c, input, sub, ho, hx⟩ := hb.caller
  have hJ := joined_run ms h
  have inv := cancel_history regA client s.histA s.a s.trA hJ.a j req first c input sub ho
  have hfr := inv.frames
  rw [fluxEvs_evsOf, framesBy_evsOf] at hfr
  rw [cancelFrames_withId, withId_of_obj x hJ.a (hJ.usesA ht x) ho hx, hfr, cancels_eq]

/-- C97: what being told of it does to the peer. It crashes, unless its handler has subscribed to the input of the
channel. -/
theorem C97_crash_partial (regA regB : Registry H) (client : Bool) (ms : List Move) (s : Sys H)
    (h : System.run regA regB client ms = .ok s) (ht : Tidy s) (j i : Nat) (x : UInt32) (hb : bothEnds s j i x)
    (hkept : allKept s.histB) (fs : List AnyFrame) (hf : s.ab = .cancel ⟨x⟩ :: fs) (r : React) :
    System.step s (.toB r) = .panic ↔ ∃ k out b, s.b.objs[i]? = some (.responder k x out b none) := by
  obtain ⟨k, out, b, inp, hk, ho⟩ := hb.server
  have hJ := joined_run ms h
  have hopen := hJ.openedB ht
  have hop := responder_opened hJ.b ho hkept
  have hty : (AnyFrame.cancel ⟨x⟩).type ≥ typeRequestN := by show typeCancel ≥ typeRequestN; decide
  have hid : (AnyFrame.cancel ⟨x⟩).streamID = x := rfl
  have step : System.step s (.toB r) = System.moveB { s with ab := fs } (.frame (.cancel ⟨x⟩) r) := by
    simp only [System.step, hf]
  rw [step]
  cases inp with
  | none =>
    refine ⟨fun _ => ⟨_, _, _, ho⟩, fun _ => ?_⟩
    have hcl : .closed x ∉ s.trB := fun hc => unsubscribed_open _ hJ.b hopen x i hop hc ⟨_, _, _, _, ho⟩
    have hg := getStream_live regB (!client) s.histB s.b s.trB hJ.b x i hopen hop hcl
    simp only [System.moveB, Handler.step, handleFrame, if_pos hty, hid, hg, dispatch, deliver_unsubscribed ho, andThen, settle]
  | some st =>
    refine ⟨fun hp => ?_, fun ⟨_, _, _, hq⟩ => by rw [ho] at hq; cases hq⟩
    exfalso
    cases hg : getStream s.b x with
    | none =>
      simp only [System.moveB, Handler.step, handleFrame, if_pos hty, hid, hg] at hp
      split at hp
      · cases hp
      · cases hp
      · rename_i hne; rw [if_pos (show (AnyFrame.cancel ⟨x⟩).type ≠ typeRequestN from (by decide : typeCancel ≠ typeRequestN))] at hne; cases hne
    | some i' =>
      have := opened_once hopen (getStream_opened _ _ _ _ _ hJ.b x i' hg) hop
      subst this
      simp only [System.moveB, Handler.step, handleFrame, if_pos hty, hid, hg, dispatch, deliver, ho, andThen, closing, settle] at hp
      cases hp

/-- C97 fails for every run: no source of a flux is ever cancelled. -/
theorem C97_stop_violated (regA regB : Registry H) (client : Bool) (ms : List Move) (s : Sys H)
    (h : System.run regA regB client ms = .ok s) (i : Nat) : .src i .upCancel ∉ s.trB :=
  no_stop regB (!client) s.histB s.b s.trB (joined_run ms h).b i

end

/-! ## Concrete runs -/

/-- A calls a stream operation, and B serves it; A's subscriber sees one element and cancels. -/
def cancel97 : List Move :=
  [.atA (.call .rs ⟨[5], eightZeros⟩ .created), .atA (.subscribeFlux 0 inst96 [.request 5]), .atA (.run 0 retCreated),
   .toB noReact, .atB (.run 0 retCreated), .atB (.run 0 retCreated), .atB (.run 0 retCreated), .atB (.out 0 (.onSubscribe true)),
   .atB (.out 0 (.next ⟨[7], []⟩)), .toA noReact, .atA (.fluxCall 0 .cancel), .atB (.out 0 (.next ⟨[8], []⟩)), .toA noReact]

def end97 : Sys Unit := sysAfter (System.run oneHandler oneHandler true cancel97)

/-- The hypotheses hold for this run; the second element arrives and is not seen. -/
example : System.run oneHandler oneHandler true cancel97 = .ok end97 ∧ Tidy end97 ∧ bothEnds end97 0 0 1 ∧ allKept end97.histB ∧
    end97.ab = [.cancel ⟨1⟩] ∧ cancels 0 end97.trA = 1 ∧ cancelFrames 1 (sentFrames end97.trA) = 1 ∧
    fluxSignals (fluxEvs 0 end97.trA) = [.next ⟨[7], []⟩] ∧ arrivals 1 end97.histA = [.element ⟨[7], []⟩, .element ⟨[8], []⟩] :=
  ⟨rfl, tidy_of (by decide +kernel) (by decide +kernel) (by decide +kernel) (by decide +kernel),
    ⟨⟨_, _, _, _, _, rfl, rfl⟩, _, _, _, _, .inl rfl, rfl⟩, allKept_of (by decide +kernel), rfl, by decide +kernel,
    by decide +kernel, by decide +kernel, by decide +kernel⟩

/-- The same with a channel, whose handler has subscribed to the input. -/
def channel97 : List Move := open96 ++ [.atA (.fluxCall 1 .cancel)]

def chan97 : Sys Unit := sysAfter (System.run oneHandler oneHandler true channel97)

example : System.run oneHandler oneHandler true channel97 = .ok chan97 ∧ Tidy chan97 ∧ bothEnds chan97 1 0 3 ∧
    chan97.ab = [.cancel ⟨3⟩] ∧ (∃ s, System.step chan97 (.toB noReact) = .ok s ∧ cancelArrived s 3 ∧ .inp 0 .complete ∈ s.trB) :=
  ⟨rfl, tidy_of (by decide +kernel) (by decide +kernel) (by decide +kernel) (by decide +kernel),
    ⟨⟨_, _, _, _, _, rfl, rfl⟩, _, _, _, _, .inr rfl, rfl⟩, rfl, _, rfl, by unfold cancelArrived; decide +kernel, by decide +kernel⟩

/-- C97 fails: the peer crashes when it is told that the stream is cancelled. -/
theorem C97_crash_violated : System.step end97 (.toB noReact) = .panic :=
  (C97_crash_partial oneHandler oneHandler true cancel97 end97 rfl
    (tidy_of (by decide +kernel) (by decide +kernel) (by decide +kernel) (by decide +kernel)) 0 0 1
    ⟨⟨_, _, _, _, _, rfl, rfl⟩, _, _, _, _, .inl rfl, rfl⟩ (allKept_of (by decide +kernel)) [] rfl noReact).mpr ⟨_, _, _, rfl⟩

theorem C97_violated : ¬ C97_statement Unit := by
  intro h
  exact (h oneHandler oneHandler true cancel97 end97 rfl
    (tidy_of (by decide +kernel) (by decide +kernel) (by decide +kernel) (by decide +kernel)) 0 0 1
    ⟨⟨_, _, _, _, _, rfl, rfl⟩, _, _, _, _, .inl rfl, rfl⟩ (allKept_of (by decide +kernel))).2.2.1 [] noReact rfl C97_crash_violated

end Verif.Props
