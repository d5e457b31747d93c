import Verif.Model.Handler
/-
The handler seen from one stream: what a step of the whole handler does to a single stream object,
to the goroutines working for it and to the part of the trace that belongs to it.
-/
set_option autoImplicit false
namespace Verif.Handler
open Verif Frames Invoke

section
variable {H : Type}

/-- The stream a goroutine works for. -/
def Task.obj : Task → Option Nat
  | .request .. => none
  | .subscribe j .. => some j
  | .firstRequest j .. => some j
  | .doRequest j _ => some j
  | .upRequest j _ => some j
  | .subscribeIn j => some j

/-- The stream an event belongs to. -/
def Ev.obj : Ev H → Option Nat
  | .sent b _ => b
  | .opened _ j => some j
  | .mono j _ => some j
  | .flux j _ => some j
  | .inp j _ => some j
  | .src j _ => some j
  | _ => none

def tasksOf (j : Nat) (ts : List Task) : List Task := ts.filter fun t => t.obj = some j
def evsOf (j : Nat) (es : List (Ev H)) : List (Ev H) := es.filter fun e => e.obj = some j

/-- `complete` flag of a `streamFlux` after OnNext / OnComplete / OnError. -/
def doneAfter (op : Flux.Op Pay) (c : Bool) : Bool := match op with | .complete _ => true | _ => c

/-- One step of stream `j` with its goroutines. -/
inductive CStep (j : Nat) : Obj → List Task → Obj → List Task → List (Ev H) → Prop
  | answer (id m st ts sig es)
      (h : answerEvs j id (throughMonoMap m (Mono.signal st 0 sig [] []).2) = .ok es) :
      CStep j (.answer id m st) ts (.answer id m (Mono.signal st 0 sig [] []).1) ts es
  | outSub (k id out b inp f n ts es)
      (h : replyEvs j id (throughMap f (subscribeSrc f).2) = .ok es) :
      CStep j (.responder k id out b inp) (.subscribe j f n :: ts)
        (.responder k id (some (f, (subscribeSrc f).1)) b inp) (ts ++ [.firstRequest j f n]) es
  | outFirst (k id g st b inp f n ts es) (hf : f.noSubscription = false)
      (h : replyEvs j id (throughMap f (Flux.call (T := Pay) st (.request n.toNat)).2) = .ok es) :
      CStep j (.responder k id (some (g, st)) b inp) (.firstRequest j f n :: ts)
        (.responder k id (some (f, (Flux.call (T := Pay) st (.request n.toNat)).1)) true inp) ts es
  | outReq (k id f st inp n ts es)
      (h : replyEvs j id (throughMap f (Flux.call (T := Pay) st (.request n)).2) = .ok es) :
      CStep j (.responder k id (some (f, st)) true inp) (.doRequest j n :: ts)
        (.responder k id (some (f, (Flux.call (T := Pay) st (.request n)).1)) true inp) ts es
  | out (k id f st b inp ts es) (op : SrcOp) (hf : f.noSubscription = false)
      (h : replyEvs j id (throughMap f (Flux.step st op.op).2) = .ok es) :
      CStep j (.responder k id (some (f, st)) b inp) ts
        (.responder k id (some (f, (Flux.step st op.op).1)) b inp) ts es
  | inp (k id out b st ts) (op : Flux.Op Pay) (hop : ∀ c, op ≠ .onSubscribe c) :
      CStep j (.responder k id out b (some st)) ts
        (.responder k id out b (some (Flux.step st op).1)) (ts ++ demandTasks j (Flux.step st op).2)
        (demandEvs j id (.inp j) (Flux.step st op).2)
  | inpSub (id out b ts inst start) :
      CStep j (.responder .rc id out b none) ts
        (.responder .rc id out b (some (Flux.runFrom (.init inst [])
          [(.onSubscribe true : Flux.Op Pay), .start start]).1))
        (ts ++ demandTasks j (Flux.runFrom (.init inst []) [.onSubscribe true, .start start]).2)
        (demandEvs j id (.inp j)
          (Flux.runFrom (.init inst []) [.onSubscribe true, .start start]).2)
  | inpUp (k id out b inp n ts) :
      CStep j (.responder k id out b inp) (.upRequest j n :: ts) (.responder k id out b inp) ts
        [.sent (some j) (.requestN ⟨id, u32 n⟩)]
  | monoOp (req proc ts) (op : Mono.POp Pay) (hop : ∀ i, op ≠ .subscribe i) :
      CStep j (.mono req proc) ts (.mono req (proc.step op).1) ts ((proc.step op).2.map (.mono j))
  | monoSub (req proc ts inst) :
      CStep j (.mono req proc) ts (.mono req (proc.step (.subscribe inst)).1) ts
        (.opened req.streamID j :: (proc.step (.subscribe inst)).2.map (.mono j) ++
          [.sent (some j) (.request req)])
  | fluxOp (req first c input st ts) (op : Flux.Op Pay) (hop : ∀ c, op ≠ .onSubscribe c) :
      CStep j (.flux req first c input (some st)) ts
        (.flux req first (doneAfter op c) input (some (Flux.step st op).1))
        (ts ++ demandTasks j (Flux.step st op).2)
        (demandEvs j req.streamID (.flux j) (Flux.step st op).2)
  | fluxIdle (req first c input ts) (op : Flux.Op Pay) :
      CStep j (.flux req first c input none) ts (.flux req first (doneAfter op c) input none) ts []
  | fluxSub (req first c input ts inst start) :
      CStep j (.flux req first c input none) ts
        (.flux req first c input (some (Flux.runFrom (.init inst [])
          [(.onSubscribe true : Flux.Op Pay), .start start]).1))
        (ts ++ demandTasks j (Flux.runFrom (.init inst []) [.onSubscribe true, .start start]).2)
        (.opened req.streamID j :: demandEvs j req.streamID (.flux j)
          (Flux.runFrom (.init inst []) [.onSubscribe true, .start start]).2)
  | upDone (req first input sub n ts) :
      CStep j (.flux req first true input sub) (.upRequest j n :: ts) (.flux req first true input sub)
        ts []
  | upFirst (req input sub n ts) :
      CStep j (.flux req true false input sub) (.upRequest j n :: ts)
        (.flux { req with initialN := u32 n } false false input sub)
        (ts ++ if input.isSome then [.subscribeIn j] else [])
        [.sent (some j) (.request { req with initialN := u32 n })]
  | upLater (req input sub n ts) :
      CStep j (.flux req false false input sub) (.upRequest j n :: ts)
        (.flux req false false input sub) ts
        [.sent (some j) (.requestN ⟨req.streamID, u32 n⟩)]
  | inputSub (req first c f sub ts es)
      (h : replyEvs j req.streamID (throughMap f (subscribeSrc f).2) = .ok es) :
      CStep j (.flux req first c (some (.fresh f)) sub) (.subscribeIn j :: ts)
        (.flux req first c (some (.subscribed f (subscribeSrc f).1)) sub) ts es
  | inputReq (req first c f st sub n ts es) (hf : f.noSubscription = false)
      (h : replyEvs j req.streamID (throughMap f (Flux.call (T := Pay) st (.request n)).2) = .ok es) :
      CStep j (.flux req first c (some (.subscribed f st)) sub) (.doRequest j n :: ts)
        (.flux req first c (some (.subscribed f (Flux.call (T := Pay) st (.request n)).1)) sub) ts es
  | input (req first c f st sub ts es) (op : SrcOp) (hf : f.noSubscription = false)
      (h : replyEvs j req.streamID (throughMap f (Flux.step st op.op).2) = .ok es) :
      CStep j (.flux req first c (some (.subscribed f st)) sub) ts
        (.flux req first c (some (.subscribed f (Flux.step st op.op).1)) sub) ts es
  | asked (o ts) (n : Int) : CStep j o ts o (ts ++ [.doRequest j n]) []

/-- Any number of steps; the order of the goroutines is immaterial. -/
inductive CRun (j : Nat) : Obj → List Task → Obj → List Task → List (Ev H) → Prop
  | refl (o ts) : CRun j o ts o ts []
  | perm (o ts o' ts' ts'' es) (h : CRun j o ts o' ts' es) (hp : ts'.Perm ts'') :
      CRun j o ts o' ts'' es
  | step (o ts o' ts' o'' ts'' es es') (h : CRun j o ts o' ts' es) (h' : CStep j o' ts' o'' ts'' es') :
      CRun j o ts o'' ts'' (es ++ es')

theorem CRun.one {j : Nat} {o o' : Obj} {ts ts' : List Task} {es : List (Ev H)}
    (h : CStep j o ts o' ts' es) : CRun j o ts o' ts' es := by
  simpa using CRun.step _ _ _ _ _ _ _ _ (CRun.refl o ts) h

theorem CRun.trans {j : Nat} {o o' o'' : Obj} {ts ts' ts'' : List Task} {es es' : List (Ev H)}
    (h : CRun j o ts o' ts' es) (h' : CRun j o' ts' o'' ts'' es') :
    CRun j o ts o'' ts'' (es ++ es') := by
  induction h' with
  | refl => simpa using h
  | perm o1 ts1 ts2 es1 _ hp ih => exact .perm _ _ _ _ _ _ ih hp
  | step o1 ts1 o2 ts2 es1 es2 _ hs ih =>
    rw [← List.append_assoc]; exact .step _ _ _ _ _ _ _ _ ih hs

/-! ## Projections -/

theorem tasksOf_append (j : Nat) (a b : List Task) : tasksOf j (a ++ b) = tasksOf j a ++ tasksOf j b :=
  List.filter_append ..
theorem evsOf_append (j : Nat) (a b : List (Ev H)) : evsOf j (a ++ b) = evsOf j a ++ evsOf j b :=
  List.filter_append ..

theorem tasksOf_demand_same (j : Nat) (es : List (Flux.Ev Pay)) :
    tasksOf j (demandTasks j es) = demandTasks j es := by
  induction es with
  | nil => rfl
  | cons e es ih => cases e <;> simp_all [demandTasks, tasksOf, Task.obj]

theorem tasksOf_demand_other {j i : Nat} (h : i ≠ j) (es : List (Flux.Ev Pay)) :
    tasksOf j (demandTasks i es) = [] := by
  induction es with
  | nil => rfl
  | cons e es ih => cases e <;> simp_all [demandTasks, tasksOf, Task.obj]

theorem evsOf_all {j : Nat} {es : List (Ev H)} (h : ∀ e ∈ es, e.obj = some j) : evsOf j es = es :=
  List.filter_eq_self.mpr fun e he => by simpa using h e he

theorem evsOf_none {j i : Nat} (hij : i ≠ j) {es : List (Ev H)} (h : ∀ e ∈ es, e.obj = some i) :
    evsOf j es = [] :=
  List.filter_eq_nil_iff.mpr fun e he => by simp [h e he, hij]

theorem demandEvs_obj (j : Nat) (id : UInt32) (wrap : Flux.Ev Pay → Ev H)
    (hw : ∀ e, (wrap e).obj = some j) (es : List (Flux.Ev Pay)) :
    ∀ e ∈ demandEvs j id wrap es, e.obj = some j := by
  induction es with
  | nil => intro e he; simp [demandEvs] at he
  | cons x es ih =>
    intro e he
    cases x <;> simp only [demandEvs, List.mem_cons] at he <;>
      rcases he with rfl | he <;> first | exact hw _ | skip
    all_goals first | exact ih e he | skip
    rcases he with rfl | he
    · rfl
    · exact ih e he

theorem replyEvs_obj (j : Nat) (id : UInt32) (es : List (Flux.Ev Pay)) :
    ∀ r : List (Ev H), replyEvs j id es = .ok r → ∀ e ∈ r, e.obj = some j := by
  induction es with
  | nil => intro r h; cases h; intro e he; simp at he
  | cons x es ih =>
    intro r h
    simp only [replyEvs] at h
    cases ha : (replyEv j id x : Go (List (Ev H))) with
    | ok a =>
      cases hb : (replyEvs j id es : Go (List (Ev H))) with
      | ok b =>
        rw [ha, hb] at h
        cases h
        intro e he
        rcases List.mem_append.mp he with he | he
        · unfold replyEv at ha
          split at ha <;> cases ha <;> simp at he <;> subst he <;> rfl
        · exact ih _ hb e he
      | err m => rw [ha, hb] at h; cases h
      | panic => rw [ha, hb] at h; cases h
    | err m => rw [ha] at h; cases h
    | panic => rw [ha] at h; cases h

theorem answerEvs_obj (j : Nat) (id : UInt32) (es : List (Mono.Ev Pay)) :
    ∀ r : List (Ev H), answerEvs j id es = .ok r → ∀ e ∈ r, e.obj = some j := by
  induction es with
  | nil => intro r h; cases h; intro e he; simp at he
  | cons x es ih =>
    intro r h
    simp only [answerEvs] at h
    cases ha : (answerEv j id x : Go (List (Ev H))) with
    | ok a =>
      cases hb : (answerEvs j id es : Go (List (Ev H))) with
      | ok b =>
        rw [ha, hb] at h
        cases h
        intro e he
        rcases List.mem_append.mp he with he | he
        · unfold answerEv at ha
          split at ha <;> cases ha <;> simp at he <;> subst he <;> rfl
        · exact ih _ hb e he
      | err m => rw [ha, hb] at h; cases h
      | panic => rw [ha, hb] at h; cases h
    | err m => rw [ha] at h; cases h
    | panic => rw [ha] at h; cases h

/-! ## Every step of the handler is a run of each stream -/

/-- How streams come into being: a request/response request being answered, a fire-and-forget
request, a stream or channel request, and the three kinds of calls. -/
inductive Born (j : Nat) : Obj → List Task → List (Ev H) → Prop
  | answer (id m es) (h : answerEvs j id (monoSubscribe m).2 = .ok es) :
      Born j (.answer id m (monoSubscribe m).1) [] es
  | fnf (id es) (h : es = [.opened id j] ∨ es = []) : Born j (.responder .fnf id none false none) [] es
  | stream (k id f n es) (hk : k = .rs ∨ k = .rc) (h : es = [.opened id j] ∨ k = .rs ∧ es = []) :
      Born j (.responder k id none false none) [.subscribe j f n] es
  | mono (id) (p : Pay) :
      Born j (.mono ⟨typeRequestResponse, id, p.metadata, p.data, false, true, 1⟩ .init) [] []
  | rs (id) (p : Pay) : Born j
      (.flux ⟨typeRequestStream, id, p.metadata, p.data, false, false, requestMax⟩ true false none none)
      [] []
  | rc (id) (p : Pay) (input : Src) : Born j
      (.flux ⟨typeRequestChannel, id, p.metadata, p.data, false, false, requestMax⟩ true false
        (some (.fresh input)) none) [] []

/-- Stream `j` does not exist, or came into being and ran, with all its events in `e`. -/
def New (j : Nat) (s : St H) (e : List (Ev H)) : Prop :=
  (s.objs[j]? = none ∧ tasksOf j s.tasks = [] ∧ evsOf j e = []) ∨
  ∃ o0 ts0 es0 o es, Born j o0 ts0 es0 ∧ s.objs[j]? = some o ∧
    CRun j o0 ts0 o (tasksOf j s.tasks) es ∧ evsOf j e = es0 ++ es

/-- From `s`, `x` is a run of stream `j`, or may bring it into being. -/
def Loc (j : Nat) (s : St H) (x : Go (Out H)) : Prop :=
  ∀ s' e, x = .ok (s', e) →
    (∀ o, s.objs[j]? = some o → ∃ o', s'.objs[j]? = some o' ∧
      CRun j o (tasksOf j s.tasks) o' (tasksOf j s'.tasks) (evsOf j e)) ∧
    (s.objs[j]? = none → tasksOf j s.tasks = [] → New j s' e)

theorem loc_err (j : Nat) (s : St H) (m : String) : Loc j s (.err m) := by intro _ _ h; cases h
theorem loc_panic (j : Nat) (s : St H) : Loc j s .panic := by intro _ _ h; cases h

theorem loc_andThen (j : Nat) (s : St H) (x : Go (Out H)) (f : St H → Go (Out H)) (hx : Loc j s x)
    (hf : ∀ s', Loc j s' (f s')) : Loc j s (andThen x f) := by
  intro s' e h
  unfold andThen at h
  cases x with
  | ok p =>
    obtain ⟨t, e1⟩ := p
    simp only at h
    obtain ⟨hx1, hx2⟩ := hx t e1 rfl
    cases hft : f t with
    | ok q =>
      rw [hft] at h
      obtain ⟨u, e2⟩ := q
      cases h
      obtain ⟨hf1, hf2⟩ := hf t _ _ hft
      constructor
      · intro o ho
        obtain ⟨o1, h1, r1⟩ := hx1 o ho
        obtain ⟨o2, h2, r2⟩ := hf1 o1 h1
        refine ⟨o2, h2, ?_⟩
        rw [evsOf_append]; exact r1.trans r2
      · intro ho ht
        rcases hx2 ho ht with ⟨h1, h2, h3⟩ | ⟨o0, ts0, es0, o, es, h0, h1, h2, h3⟩
        · rcases hf2 h1 h2 with ⟨g1, g2, g3⟩ | ⟨o0, ts0, es0, o, es, g0, g1, g2, g3⟩
          · exact .inl ⟨g1, g2, by rw [evsOf_append, h3, g3]; rfl⟩
          · exact .inr ⟨o0, ts0, es0, o, es, g0, g1, g2, by rw [evsOf_append, h3, g3]; rfl⟩
        · obtain ⟨o2, g2, r2⟩ := hf1 o h1
          exact .inr ⟨o0, ts0, es0, o2, es ++ evsOf j e2, h0, g2, h2.trans r2,
            by rw [evsOf_append, h3, List.append_assoc]⟩
    | err m => rw [hft] at h; cases h
    | panic => rw [hft] at h; cases h
  | err m => cases h
  | panic => cases h

/-- Nothing of stream `j` is touched. -/
theorem loc_other (j : Nat) (s s' : St H) (e : List (Ev H)) (ho : s'.objs[j]? = s.objs[j]?)
    (ht : tasksOf j s'.tasks = tasksOf j s.tasks) (he : evsOf j e = []) : Loc j s (.ok (s', e)) := by
  intro t f h
  cases h
  refine ⟨fun o hj => ⟨o, ho.trans hj, by rw [ht, he]; exact .refl _ _⟩, fun h1 h2 => ?_⟩
  exact .inl ⟨ho.trans h1, ht.trans h2, he⟩

theorem loc_nop (j : Nat) (s : St H) : Loc j s (.ok (s, [])) := loc_other j s s [] rfl rfl rfl

/-- A stream comes into being. -/
theorem loc_born (j : Nat) (s s' : St H) (e : List (Ev H)) (x : Obj) (ts : List Task)
    (hobjs : s'.objs = s.objs ++ [x]) (htasks : s'.tasks = s.tasks ++ ts)
    (hts : ∀ t ∈ ts, t.obj = some s.objs.length)
    (hev : ∀ i, i ≠ s.objs.length → evsOf i e = [])
    (hb : Born s.objs.length x ts (evsOf s.objs.length e)) : Loc j s (.ok (s', e)) := by
  by_cases hj : s.objs.length = j
  · subst hj
    intro t f h
    cases h
    refine ⟨fun o ho => by simp at ho, fun _ h2 => .inr ⟨x, ts, _, x, [], hb, ?_, ?_, by simp⟩⟩
    · rw [hobjs]; simp
    · rw [htasks, tasksOf_append, h2, List.nil_append]
      have : tasksOf s.objs.length ts = ts := List.filter_eq_self.mpr fun t ht => by simpa using hts t ht
      rw [this]; exact .refl _ _
  · refine loc_other _ _ _ _ ?_ ?_ (hev j (Ne.symm hj))
    · rw [hobjs, List.getElem?_append]
      split
      · rfl
      · have : s.objs.length < j := by omega
        rw [List.getElem?_eq_none (by simp; omega), List.getElem?_eq_none (by omega)]
    · rw [htasks, tasksOf_append]
      have : tasksOf j ts = [] := List.filter_eq_nil_iff.mpr fun t ht => by simp [hts t ht, hj]
      rw [this, List.append_nil]

/-- A step of one stream `i`: for other streams nothing happens. -/
theorem loc_at (j i : Nat) (s s' : St H) (e : List (Ev H)) (o o' : Obj) (ts : List Task)
    (ho : s.objs[i]? = some o) (hobjs : s'.objs = s.objs.set i o') (htasks : s'.tasks = s.tasks ++ ts)
    (hts : ∀ t ∈ ts, t.obj = some i) (hev : ∀ x ∈ e, x.obj = some i)
    (hs : CRun i o (tasksOf i s.tasks) o' (tasksOf i s.tasks ++ ts) e) : Loc j s (.ok (s', e)) := by
  by_cases hij : i = j
  · subst hij
    intro t f h
    cases h
    refine ⟨fun o1 h1 => ?_, fun h1 => by rw [ho] at h1; cases h1⟩
    rw [ho] at h1; cases h1
    have hl : i < s.objs.length := (List.getElem?_eq_some_iff.mp ho).1
    refine ⟨o', by rw [hobjs, List.getElem?_set_self hl], ?_⟩
    rw [htasks, tasksOf_append, evsOf_all hev]
    have : tasksOf i ts = ts := List.filter_eq_self.mpr fun t ht => by simpa using hts t ht
    rw [this]; exact hs
  · refine loc_other _ _ _ _ ?_ ?_ (evsOf_none hij hev)
    · rw [hobjs, List.getElem?_set_ne hij]
    · rw [htasks, tasksOf_append]
      have : tasksOf j ts = [] := List.filter_eq_nil_iff.mpr fun t ht => by simp [hts t ht, hij]
      rw [this, List.append_nil]

theorem demandTasks_obj (j : Nat) (es : List (Flux.Ev Pay)) : ∀ t ∈ demandTasks j es, t.obj = some j := by
  induction es with
  | nil => intro t h; simp [demandTasks] at h
  | cons e es ih =>
    intro t h
    cases e <;> simp only [demandTasks] at h
    case upRequest n =>
      rcases List.mem_cons.mp h with rfl | h
      · rfl
      · exact ih t h
    all_goals exact ih t h

/-- The stream stays as it is. -/
theorem set_self {α : Type} {l : List α} {i : Nat} {o : α} (h : l[i]? = some o) : l = l.set i o := by
  obtain ⟨hl, rfl⟩ := List.getElem?_eq_some_iff.mp h
  simp

theorem loc_closing (j : Nat) (id : UInt32) (s : St H) : Loc j s (closing id s) := by
  refine loc_other _ _ _ _ ?_ ?_ rfl
  · unfold remove; split <;> rfl
  · unfold remove; split <;> rfl

theorem mono_obj (j : Nat) (es : List (Mono.Ev Pay)) :
    ∀ e ∈ es.map (.mono j : Mono.Ev Pay → Ev H), e.obj = some j := by
  intro e he
  obtain ⟨x, -, rfl⟩ := List.mem_map.mp he
  rfl

theorem loc_deliver (j i : Nat) (s : St H) (op : Flux.Op Pay) (hop : ∀ c, op ≠ .onSubscribe c) :
    Loc j s (deliver s i op) := by
  unfold deliver
  split
  · rename_i k id out b st ho
    exact loc_at j i s _ _ _ _ _ ho rfl rfl (demandTasks_obj _ _)
      (demandEvs_obj _ _ _ (fun _ => rfl) _) (.one (.inp _ _ _ _ _ _ op hop))
  · rename_i req proc ho
    split
    · exact loc_at j i s _ _ _ _ [] ho rfl (by simp [setObj]) (by simp) (mono_obj _ _)
        (by simpa using .one (.monoOp _ _ _ (.success _) (by intro i h; cases h)))
    · exact loc_at j i s _ _ _ _ [] ho rfl (by simp [setObj]) (by simp) (mono_obj _ _)
        (by simpa using .one (.monoOp _ _ _ (.error _) (by intro i h; cases h)))
    · exact loc_nop _ _
  · rename_i req first c input sub ho
    dsimp only
    split
    · rename_i st
      exact loc_at j i s _ _ _ _ _ ho rfl rfl (demandTasks_obj _ _)
        (demandEvs_obj _ _ _ (fun _ => rfl) _) (.one (.fluxOp _ _ _ _ _ _ op hop))
    · exact loc_at j i s _ _ _ _ [] ho rfl (by simp [setObj]) (by simp) (by simp)
        (by simpa using .one (.fluxIdle _ _ _ _ _ op))
  · exact loc_panic _ _

theorem loc_dispatch (j : Nat) (s : St H) (r : React) (f : AnyFrame) (str : Option Nat) :
    Loc j s (dispatch s r f str) := by
  unfold dispatch
  split
  · split
    · split
      · exact loc_other _ _ _ _ rfl rfl rfl
      · exact loc_err _ _ _
      · exact loc_panic _ _
    · exact loc_nop _ _
  · split
    · refine loc_other _ _ _ _ rfl ?_ rfl
      simp [addTasks, tasksOf, Task.obj]
    · exact loc_nop _ _
  · split
    · rename_i v i hc
      obtain ⟨o, ho⟩ : ∃ o, s.objs[i]? = some o := by
        unfold canRequest at hc
        split at hc
        · rename_i h; exact ⟨_, h⟩
        · rename_i h; exact ⟨_, h⟩
        · cases hc
      exact loc_at j i s _ _ _ _ [.doRequest i v.n.toNat] ho (set_self ho) rfl (by simp [Task.obj])
        (by simp) (.one (.asked _ _ _))
    · exact loc_panic _ _
  · exact loc_andThen _ _ _ _ (loc_deliver _ _ _ _ (by simp)) (loc_closing _ _)
  · refine loc_andThen _ _ _ _ ?_ ?_
    · split
      · exact loc_deliver _ _ _ _ (by simp)
      · exact loc_nop _ _
    · intro s'
      split
      · exact loc_andThen _ _ _ _ (loc_deliver _ _ _ _ (by simp)) (loc_closing _ _)
      · exact loc_nop _ _
  · exact loc_andThen _ _ _ _ (loc_deliver _ _ _ _ (by simp))
      (fun s' => loc_andThen _ _ _ _ (loc_deliver _ _ _ _ (by simp)) (loc_closing _ _))
  · exact loc_panic _ _

theorem loc_handleFrame (j : Nat) (s : St H) (f : AnyFrame) (r : React) :
    Loc j s (handleFrame s f r) := by
  unfold handleFrame
  split
  · split
    · split
      · exact loc_err _ _ _
      · exact loc_nop _ _
    · exact loc_dispatch _ _ _ _ _
  · exact loc_dispatch _ _ _ _ _

/-- Before the goroutine was taken off the list. -/
def pushed (s : St H) (t : Task) : St H := { s with tasks := t :: s.tasks }

theorem loc_pushed (j : Nat) (s s1 : St H) (task : Task) (x : Go (Out H)) (ho : s1.objs = s.objs)
    (hp : s.tasks.Perm (task :: s1.tasks)) (h : Loc j (pushed s1 task) x) : Loc j s x := by
  intro s' e hx
  obtain ⟨h1, h2⟩ := h s' e hx
  have hpt : (tasksOf j s.tasks).Perm (tasksOf j (pushed s1 task).tasks) := hp.filter _
  constructor
  · intro o hj
    obtain ⟨o', h3, h4⟩ := h1 o (by simpa [pushed, ho] using hj)
    refine ⟨o', h3, ?_⟩
    have : CRun j o (tasksOf j s.tasks) o (tasksOf j (pushed s1 task).tasks) ([] : List (Ev H)) :=
      .perm _ _ _ _ _ _ (.refl _ _) hpt
    simpa using this.trans h4
  · intro hj ht
    refine h2 (by simpa [pushed, ho] using hj) ?_
    rw [ht] at hpt
    exact hpt.symm.eq_nil

theorem loc_task_at (j i : Nat) (s s' : St H) (task : Task) (e : List (Ev H)) (o o' : Obj) (ts : List Task)
    (ho : s.objs[i]? = some o) (htask : task.obj = some i)
    (hobjs : s'.objs = s.objs.set i o') (htasks : s'.tasks = s.tasks ++ ts)
    (hts : ∀ t ∈ ts, t.obj = some i) (hev : ∀ x ∈ e, x.obj = some i)
    (hs : CStep i o (task :: tasksOf i s.tasks) o' (tasksOf i s.tasks ++ ts) e) :
    Loc j (pushed s task) (.ok (s', e)) := by
  by_cases hij : i = j
  · subst hij
    intro t f h
    cases h
    refine ⟨fun o1 h1 => ?_, fun h1 => by
      have h1 : s.objs[i]? = none := h1
      rw [ho] at h1; cases h1⟩
    have h1 : s.objs[i]? = some o1 := h1
    rw [ho] at h1; cases h1
    have hl : i < s.objs.length := (List.getElem?_eq_some_iff.mp ho).1
    refine ⟨o', by rw [hobjs, List.getElem?_set_self hl], ?_⟩
    rw [htasks, tasksOf_append, evsOf_all hev]
    have : tasksOf i ts = ts := List.filter_eq_self.mpr fun t ht => by simpa using hts t ht
    rw [this]
    have h2 : tasksOf i (pushed s task).tasks = task :: tasksOf i s.tasks := by
      simp [tasksOf, pushed, htask]
    rw [h2]
    exact .one hs
  · refine loc_other _ _ _ _ ?_ ?_ (evsOf_none hij hev)
    · rw [hobjs, List.getElem?_set_ne hij]; rfl
    · rw [htasks, tasksOf_append]
      have : tasksOf j ts = [] := List.filter_eq_nil_iff.mpr fun t ht => by simp [hts t ht, hij]
      rw [this, List.append_nil]
      simp [tasksOf, pushed, htask, hij]

theorem onOut_ok {s : St H} {j : Nat} {k : Kind} {id : UInt32} {f : Src} {b : Bool}
    {inp : Option Flux.State} {r : Flux.State × List (Flux.Ev Pay)} {s' : St H} {e : List (Ev H)}
    (h : onOut s j k id f b inp r = .ok (s', e)) :
    replyEvs j id (throughMap f r.2) = .ok e ∧ s' = setObj s j (.responder k id (some (f, r.1)) b inp) := by
  unfold onOut at h
  cases hr : (replyEvs j id (throughMap f r.2) : Go (List (Ev H))) with
  | ok es => rw [hr] at h; cases h; exact ⟨rfl, rfl⟩
  | err m => rw [hr] at h; cases h
  | panic => rw [hr] at h; cases h

theorem onInput_ok {s : St H} {j : Nat} {req : RequestPayload} {first c : Bool} {f : Src}
    {sub : Option Flux.State} {r : Flux.State × List (Flux.Ev Pay)} {s' : St H} {e : List (Ev H)}
    (h : onInput s j req first c f sub r = .ok (s', e)) :
    replyEvs j req.streamID (throughMap f r.2) = .ok e ∧
      s' = setObj s j (.flux req first c (some (.subscribed f r.1)) sub) := by
  unfold onInput at h
  cases hr : (replyEvs j req.streamID (throughMap f r.2) : Go (List (Ev H))) with
  | ok es => rw [hr] at h; cases h; exact ⟨rfl, rfl⟩
  | err m => rw [hr] at h; cases h
  | panic => rw [hr] at h; cases h

theorem loc_of_ok {j : Nat} {s : St H} {x : Go (Out H)}
    (h : ∀ s' e, x = .ok (s', e) → Loc j s (.ok (s', e))) : Loc j s x := by
  intro s' e hx
  exact h s' e hx s' e rfl

theorem register_objs (s : St H) (id : UInt32) (i : Nat) : (register s id i).objs = s.objs := by
  unfold register; split <;> rfl
theorem register_tasks (s : St H) (id : UInt32) (i : Nat) : (register s id i).tasks = s.tasks := by
  unfold register; split <;> rfl

theorem evsOf_cons_ne {j : Nat} {e : Ev H} {es : List (Ev H)} (h : e.obj ≠ some j) :
    evsOf j (e :: es) = evsOf j es := by
  simp [evsOf, h]

theorem loc_serve (j : Nat) (s : St H) (k : Kind) (id : UInt32) (data md : Bytes) (n : UInt32) (ret : Ret) :
    Loc j s (serve s k id data md n ret) := by
  apply loc_of_ok
  intro s' e h
  unfold serve at h
  split at h
  · cases h; exact loc_other _ _ _ _ rfl rfl rfl
  · cases hop : getU32 md with
    | ok op =>
      rw [hop] at h
      simp only [bind, Go.bind] at h
      split at h
      · cases h; exact loc_other _ _ _ _ rfl rfl rfl
      · split at h
        · cases hr : (answerEvs s.objs.length id (monoSubscribe ret.mono).2 : Go (List (Ev H))) with
          | ok es =>
            rw [hr] at h
            cases h
            refine loc_born _ _ _ _ _ [] rfl (by simp) (by simp) ?_ ?_
            · intro i hi
              rw [evsOf_cons_ne (by simp [Ev.obj])]
              exact evsOf_none (Ne.symm hi) (answerEvs_obj _ _ _ _ hr)
            · rw [evsOf_cons_ne (by simp [Ev.obj]), evsOf_all (answerEvs_obj _ _ _ _ hr)]
              exact .answer _ _ _ hr
          | err m => rw [hr] at h; cases h
          | panic => rw [hr] at h; cases h
        · split at h
          · cases h
            refine loc_born _ _ _ _ _ [] (by rw [register_objs]) (by rw [register_tasks]; simp) (by simp)
              ?_ ?_
            · intro i hi; simp [evsOf, Ev.obj, Ne.symm hi]
            · simpa [evsOf, Ev.obj] using .fnf id _ (.inl rfl)
          · cases h
            refine loc_born _ _ _ _ _ [] rfl (by simp) (by simp) ?_ ?_
            · intro i hi; simp [evsOf, Ev.obj]
            · simpa [evsOf, Ev.obj] using .fnf id _ (.inr rfl)
        · rename_i h1 h2
          split at h
          · cases h
            refine loc_born _ _ _ _ _ [.subscribe s.objs.length ret.flux n]
              (by simp only [addTasks]; rw [register_objs]) (by simp only [addTasks]; rw [register_tasks])
              (by simp [Task.obj]) ?_ ?_
            · intro i hi; simp [evsOf, Ev.obj, Ne.symm hi]
            · simpa [evsOf, Ev.obj] using .stream k id ret.flux n _ (by cases k <;> simp at h1 h2 ⊢) (.inl rfl)
          · cases h
            refine loc_born _ _ _ _ _ [.subscribe s.objs.length ret.flux n] rfl rfl
              (by simp [Task.obj]) ?_ ?_
            · intro i hi; simp [evsOf, Ev.obj]
            · simpa [evsOf, Ev.obj] using .stream k id ret.flux n _ (by cases k <;> simp at h1 h2 ⊢) (.inr ⟨by cases k <;> simp_all, rfl⟩)
    | err m => rw [hop] at h; cases h
    | panic => rw [hop] at h; cases h

theorem loc_runTask (j : Nat) (s : St H) (ret : Ret) (task : Task) :
    Loc j (pushed s task) (runTask s ret task) := by
  apply loc_of_ok
  intro s' e h
  cases task with
  | request k id data md n =>
    intro t f hx
    obtain ⟨h1, h2⟩ := loc_serve j s k id data md n ret s' e h
    cases hx
    have ht : tasksOf j (pushed s (.request k id data md n)).tasks = tasksOf j s.tasks := by
      simp [tasksOf, pushed, Task.obj]
    rw [ht]
    exact ⟨h1, h2⟩
  | subscribe i f n =>
    simp only [runTask] at h
    split at h
    · rename_i k id out b inp ho
      obtain ⟨hr, rfl⟩ := onOut_ok h
      exact loc_task_at j i s _ _ _ _ _ [.firstRequest i f n] ho rfl rfl rfl (by simp [Task.obj])
        (replyEvs_obj _ _ _ _ hr) (.outSub _ _ _ _ _ _ _ _ _ hr)
    · cases h
  | firstRequest i f n =>
    simp only [runTask] at h
    split at h
    · rename_i k id g st b inp ho
      split at h
      · cases h
      · rename_i hf
        obtain ⟨hr, rfl⟩ := onOut_ok h
        exact loc_task_at j i s _ _ _ _ _ [] ho rfl rfl (by simp [setObj]) (by simp)
          (replyEvs_obj _ _ _ _ hr)
          (by simpa using .outFirst _ _ _ _ _ _ _ _ _ _ (by simpa using hf) hr)
    · cases h
  | doRequest i n =>
    simp only [runTask] at h
    split at h
    · rename_i k id f st inp ho
      obtain ⟨hr, rfl⟩ := onOut_ok h
      exact loc_task_at j i s _ _ _ _ _ [] ho rfl rfl (by simp [setObj]) (by simp)
        (replyEvs_obj _ _ _ _ hr) (by simpa using .outReq _ _ _ _ _ _ _ _ hr)
    · rename_i req first c f st sub ho
      split at h
      · cases h
      · rename_i hf
        obtain ⟨hr, rfl⟩ := onInput_ok h
        exact loc_task_at j i s _ _ _ _ _ [] ho rfl rfl (by simp [setObj]) (by simp)
          (replyEvs_obj _ _ _ _ hr) (by simpa using .inputReq _ _ _ _ _ _ _ _ _ (by simpa using hf) hr)
    · cases h
  | upRequest i n =>
    simp only [runTask] at h
    split at h
    · rename_i k id out b inp ho
      cases h
      exact loc_task_at j i s _ _ _ _ _ [] ho rfl (set_self ho) (by simp) (by simp) (by simp [Ev.obj])
        (by simpa using .inpUp _ _ _ _ _ _ _)
    · rename_i req first c input sub ho
      split at h
      · rename_i hc
        subst hc
        cases h
        exact loc_task_at j i s _ _ _ _ _ [] ho rfl (set_self ho) (by simp) (by simp) (by simp)
          (by simpa using .upDone _ _ _ _ _ _)
      · rename_i hc
        have hc : c = false := by simpa using hc
        subst hc
        split at h
        · rename_i hf
          subst hf
          cases h
          exact loc_task_at j i s _ _ _ _ _ _ ho rfl rfl rfl
            (by split <;> simp [Task.obj]) (by simp [Ev.obj]) (.upFirst _ _ _ _ _)
        · rename_i hf
          have hf : first = false := by simpa using hf
          subst hf
          cases h
          exact loc_task_at j i s _ _ _ _ _ [] ho rfl (set_self ho) (by simp) (by simp) (by simp [Ev.obj])
            (by simpa using .upLater _ _ _ _ _)
    · cases h
  | subscribeIn i =>
    simp only [runTask] at h
    split at h
    · rename_i req first c f sub ho
      obtain ⟨hr, rfl⟩ := onInput_ok h
      exact loc_task_at j i s _ _ _ _ _ [] ho rfl rfl (by simp [setObj]) (by simp)
        (replyEvs_obj _ _ _ _ hr) (by simpa using .inputSub _ _ _ _ _ _ _ hr)
    · cases h

theorem perm_eraseIdx {α : Type} : ∀ (l : List α) (t : Nat) (x : α), l[t]? = some x →
    l.Perm (x :: l.eraseIdx t)
  | [], _, _, h => by simp at h
  | y :: l, 0, x, h => by simp at h; subst h; exact .refl _
  | y :: l, t + 1, x, h => by
    simp only [List.getElem?_cons_succ] at h
    simp only [List.eraseIdx_cons_succ]
    exact ((perm_eraseIdx l t x h).cons y).trans (.swap x y _)

theorem loc_step (j : Nat) (s : St H) (a : Act) : Loc j s (step s a) := by
  cases a with
  | frame f r => exact loc_handleFrame _ _ _ _
  | run t ret =>
    simp only [step]
    split
    · rename_i task ht
      exact loc_pushed j s { s with tasks := s.tasks.eraseIdx t } task _ rfl (perm_eraseIdx _ _ _ ht) (loc_runTask _ _ _ _)
    · exact loc_nop _ _
  | answer i sig =>
    simp only [step]
    split
    · rename_i id m st ho
      apply loc_of_ok
      intro s' e h
      cases hr : (answerEvs i id (throughMonoMap m (Mono.signal st 0 sig [] []).2) : Go (List (Ev H))) with
      | ok es =>
        rw [hr] at h
        cases h
        exact loc_at j i s _ _ _ _ [] ho rfl (by simp [setObj]) (by simp) (answerEvs_obj _ _ _ _ hr)
          (by simpa using .one (.answer _ _ _ _ _ _ hr))
      | err m => rw [hr] at h; cases h
      | panic => rw [hr] at h; cases h
    · exact loc_nop _ _
  | out i op =>
    simp only [step]
    split
    · rename_i k id f st b inp ho
      split
      · exact loc_nop _ _
      · rename_i hf
        apply loc_of_ok
        intro s' e h
        obtain ⟨hr, rfl⟩ := onOut_ok h
        exact loc_at j i s _ _ _ _ [] ho rfl (by simp [setObj]) (by simp) (replyEvs_obj _ _ _ _ hr)
          (by simpa using .one (.out _ _ _ _ _ _ _ _ _ (by simpa using hf) hr))
    · exact loc_nop _ _
  | subscribeInp i inst start =>
    simp only [step]
    split
    · rename_i id out b ho
      exact loc_at j i s _ _ _ _ _ ho rfl rfl (demandTasks_obj _ _)
        (demandEvs_obj _ _ _ (fun _ => rfl) _) (.one (.inpSub _ _ _ _ _ _))
    · exact loc_nop _ _
  | inpCall i c =>
    simp only [step]
    split
    · rename_i k id out b st ho
      exact loc_at j i s _ _ _ _ _ ho rfl rfl (demandTasks_obj _ _)
        (demandEvs_obj _ _ _ (fun _ => rfl) _) (.one (.inp _ _ _ _ _ _ (.call _) (by simp)))
    · exact loc_nop _ _
  | call k p input =>
    simp only [step, call]
    cases k
    · exact loc_born _ _ _ _ _ [] rfl (by simp) (by simp) (fun _ _ => rfl) (.mono _ _)
    · exact loc_other _ _ _ _ rfl rfl rfl
    · exact loc_born _ _ _ _ _ [] rfl (by simp) (by simp) (fun _ _ => rfl) (.rs _ _)
    · exact loc_born _ _ _ _ _ [] rfl (by simp) (by simp) (fun _ _ => rfl) (.rc _ _ _)
  | subscribeMono i inst =>
    simp only [step]
    split
    · rename_i req proc ho
      refine loc_at j i s _ _ _ _ [] ho ?_ ?_ (by simp) ?_ (by simpa using .one (.monoSub req proc _ inst))
      · simp only [setObj, register_objs]
      · simp [setObj, register_tasks]
      · intro e he
        simp only [List.cons_append, List.mem_cons, List.mem_append, List.mem_map, List.not_mem_nil,
          or_false] at he
        rcases he with rfl | ⟨x, -, rfl⟩ | rfl <;> rfl
    · exact loc_nop _ _
  | subscribeFlux i inst start =>
    simp only [step]
    split
    · rename_i req first c input ho
      refine loc_at j i s _ _ _ _ _ ho ?_ ?_ (demandTasks_obj _ _) ?_ (.one (.fluxSub _ _ _ _ _ inst start))
      · simp only [setObj, addTasks, register_objs]
      · simp only [setObj, addTasks, register_tasks]
      · intro e he
        rcases List.mem_cons.mp he with rfl | he
        · rfl
        · exact demandEvs_obj _ _ _ (fun _ => rfl) _ _ he
    · exact loc_nop _ _
  | fluxCall i c =>
    simp only [step]
    split
    · rename_i req first cm input st ho
      exact loc_at j i s _ _ _ _ _ ho rfl rfl (demandTasks_obj _ _)
        (demandEvs_obj _ _ _ (fun _ => rfl) _) (.one (.fluxOp _ _ _ _ _ _ (.call c) (by simp)))
    · exact loc_nop _ _
  | input i op =>
    simp only [step]
    split
    · rename_i req first c f st sub ho
      split
      · exact loc_nop _ _
      · rename_i hf
        apply loc_of_ok
        intro s' e h
        obtain ⟨hr, rfl⟩ := onInput_ok h
        exact loc_at j i s _ _ _ _ [] ho rfl (by simp [setObj]) (by simp) (replyEvs_obj _ _ _ _ hr)
          (by simpa using .one (.input _ _ _ _ _ _ _ _ _ (by simpa using hf) hr))
    · exact loc_nop _ _

theorem loc_settle (j : Nat) (s : St H) (x : Go (Out H)) (h : Loc j s x) : Loc j s (settle s x) := by
  cases x with
  | ok p => exact h
  | err m => exact loc_other _ _ _ _ rfl rfl rfl
  | panic => exact loc_panic _ _

theorem loc_runFrom (j : Nat) : ∀ (as : List Act) (s : St H), Loc j s (runFrom s as)
  | [], s => loc_nop _ _
  | a :: as, s =>
    loc_andThen _ _ _ _ (loc_settle _ _ _ (loc_step _ _ _)) (fun s' => loc_runFrom j as s')

/-- After any history, each stream came into being in one of the six ways and then made steps of its
own; the trace has exactly their events for it. -/
theorem history (reg : Registry H) (client : Bool) (as : List Act) (s : St H) (tr : List (Ev H))
    (h : run reg client as = .ok (s, tr)) (j : Nat) : New j s tr :=
  (loc_runFrom j as _ s tr h).2 rfl rfl

end
end Verif.Handler
