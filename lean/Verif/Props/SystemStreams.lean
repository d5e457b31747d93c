import Verif.Props.StreamSent
import Verif.Props.SystemCalls
/-
Property C91: streams and channels over a whole connection, in the direction of the answer.
-/
set_option autoImplicit false
namespace Verif.Props
open Verif Frames Handler
open Verif.Invoke (Kind Registry getHandler)
open Verif.System (Sys Move)

section
variable {H : Type}

/-! ## Specification

A connection is run (`System.run`): after `pre`, end A calls an operation of kind `k` (stream or channel)
with payload `p` (and the input `src`, for a channel), things go on (`mid`), A subscribes to the flux the call
returned, installing the callbacks `inst` and calling `start` from inside OnSubscribe, and things go on
(`post`). The call is stream number `s0.a.objs.length` of A and has the id `callId s0.a`. `fluxEvs` is what A's
application sees, `Streamed` says what B's application made of the request. -/

/-- The run described above, ending in `s`. The model has no second subscription, so there is none in `mid`. -/
structure streamRun (regA regB : Registry H) (client : Bool) (pre : List Move) (s0 : Sys H) (k : Kind) (p : Pay)
    (src : Src) (mid : List Move) (inst : Flux.Installed) (start : List Flux.Call) (post : List Move)
    (s : Sys H) : Prop where
  kind : k = .rs ∨ k = .rc
  before : System.run regA regB client pre = .ok s0
  once : ∀ inst start, .atA (.subscribeFlux s0.a.objs.length inst start) ∉ mid
  whole : System.run regA regB client (pre ++ .atA (.call k p src) :: mid ++
    .atA (.subscribeFlux s0.a.objs.length inst start) :: post) = .ok s

/-- What is left of a signal after it went over the wire: errors keep only the bytes of their message. -/
def sigOverWire : StreamSig → StreamSig
  | .error (some e) => .error (some (strOf (bytesOf e)))
  | x => x

/-- B does not cancel the input of the channel `x` (that completes the stream at A). -/
def inputKept (s : Sys H) (x : UInt32) : Prop := .cancel ⟨x⟩ ∉ System.wire s.trB

/-! ## Frames and signals -/

theorem arrivals_handedOver (id : UInt32) (as : List Act) :
    arrivals id as = (withId id (handedOver as)).flatMap (frameSigs id) := by
  induction as with
  | nil => rfl
  | cons a as ih =>
    cases a with
    | frame f r =>
      have e1 : handedOver (.frame f r :: as) = f :: handedOver as := rfl
      have e2 : arrivals id (.frame f r :: as) = frameSigs id f ++ arrivals id as := rfl
      rw [e1, e2, ih, withId_cons]
      by_cases hf : f.streamID = id
      · simp only [hf, if_true, List.flatMap_cons]
      · have : frameSigs id f = [] := by
          cases f with
          | payload v => have : v.streamID ≠ id := hf; simp [frameSigs, this]
          | error v => have : v.streamID ≠ id := hf; simp [frameSigs, this]
          | cancel v => have : v.streamID ≠ id := hf; simp [frameSigs, this]
          | _ => rfl
        rw [this]; simp [hf]
    | _ => exact ih

theorem sigs_of_replies (x : UInt32) (l : List AnyFrame) (h : .cancel ⟨x⟩ ∉ l) (hx : ∀ f ∈ l, f.streamID = x) :
    l.flatMap (frameSigs x) = (l.filter isReply).flatMap (frameSigs x) := by
  induction l with
  | nil => rfl
  | cons f l ih =>
    have ih := ih (fun hm => h (List.mem_cons_of_mem _ hm)) (fun g hg => hx g (List.mem_cons_of_mem _ hg))
    rw [List.flatMap_cons, List.filter_cons, ih]
    cases f with
    | cancel v =>
      exfalso
      have : v.streamID = x := hx (.cancel v) (by simp)
      cases v
      subst this
      exact h (by simp)
    | payload v => rfl
    | error v => rfl
    | _ => rfl

theorem sigs_of_frames (x : UInt32) (r : List StreamSig) (h : .error none ∉ r) :
    (r.flatMap (sigFrame x)).flatMap (frameSigs x) = r.map sigOverWire := by
  induction r with
  | nil => rfl
  | cons y r ih =>
    simp only [List.mem_cons, not_or] at h
    rw [List.flatMap_cons, List.flatMap_append, ih h.2, List.map_cons]
    cases y with
    | error e =>
      cases e with
      | none => exact absurd rfl h.1
      | some e => simp [sigFrame, frameSigs, sigOverWire]
    | element p => simp [sigFrame, frameSigs, sigOverWire]
    | complete => simp [sigFrame, frameSigs, sigOverWire]

theorem sigOverWire_ends (y : StreamSig) : (sigOverWire y).ends = y.ends := by
  cases y with
  | error e => cases e <;> rfl
  | _ => rfl

theorem cutAtEnd_wire (r : List StreamSig) : cutAtEnd (r.map sigOverWire) = (cutAtEnd r).map sigOverWire := by
  induction r with
  | nil => rfl
  | cons y r ih =>
    simp only [List.map_cons, cutAtEnd, sigOverWire_ends]
    split
    · rfl
    · rw [ih]; rfl

theorem cutAtEnd_prefix (a b : List StreamSig) : cutAtEnd a <+: cutAtEnd (a ++ b) := by
  induction a with
  | nil => exact List.nil_prefix
  | cons y a ih =>
    simp only [List.cons_append, cutAtEnd]
    split
    · exact List.prefix_rfl
    · exact (List.prefix_append_right_inj [y]).mpr ih

theorem flatMap_prefix {α β : Type} (f : α → List β) {a b : List α} (h : a <+: b) : a.flatMap f <+: b.flatMap f := by
  obtain ⟨c, rfl⟩ := h
  rw [List.flatMap_append]
  exact List.prefix_append _ _

theorem map_prefix_inv {α β : Type} (f : α → β) {a : List β} {b : List α} (h : a <+: b.map f) :
    ∃ c, c <+: b ∧ a = c.map f := by
  obtain ⟨d, hd⟩ := h
  refine ⟨b.take a.length, List.take_prefix _ _, ?_⟩
  rw [List.map_take, ← hd, List.take_left]

/-! ## Before the subscription -/

/-- The input of a channel is subscribed to only after the first request. -/
theorem subscribeIn_run {j : Nat} {o o' : Obj} {ts ts' : List Task} {es : List (Handler.Ev H)}
    (h : CRun j o ts o' ts' es) :
    (∀ req c input sub, o = .flux req true c input sub → .subscribeIn j ∉ ts) →
    (∃ req first c input sub, o = .flux req first c input sub) →
    (∀ req c input sub, o' = .flux req true c input sub → .subscribeIn j ∉ ts') := by
  intro h0 hf
  have dem : ∀ l, Task.subscribeIn j ∉ demandTasks j l := by
    intro l
    induction l with
    | nil => simp [demandTasks]
    | cons e l ih => cases e <;> simp_all [demandTasks]
  induction h with
  | refl => exact h0
  | perm _ _ _ _ hr hp ih => exact fun req c input sub he hm => ih req c input sub he (hp.mem_iff.mpr hm)
  | step o2 t2 o3 t3 es es' hr hs ih =>
    have ht := tag_run hr
    obtain ⟨_, _, _, _, _, rfl⟩ := hf
    intro req c input sub he hm
    subst he
    cases hs with
    | fluxOp => exact (List.mem_append.mp hm).elim (ih _ _ _ _ rfl) (dem _)
    | fluxIdle => exact ih _ _ _ _ rfl hm
    | fluxSub => exact (List.mem_append.mp hm).elim (ih _ _ _ _ rfl) (dem _)
    | upDone => exact ih _ _ _ _ rfl (List.mem_cons_of_mem _ hm)
    | inputSub => exact ih _ _ _ _ rfl (List.mem_cons_of_mem _ hm)
    | inputReq => exact ih _ _ _ _ rfl (List.mem_cons_of_mem _ hm)
    | input => exact ih _ _ _ _ rfl hm
    | asked => exact (List.mem_append.mp hm).elim (ih _ _ _ _ rfl) (by simp)

theorem subscribeIn_history {reg : Registry H} {client : Bool} {as : List Act} {s : St H}
    {tr : List (Handler.Ev H)} (h : Handler.run reg client as = .ok (s, tr)) {j : Nat} {req : RequestPayload}
    {c : Bool} {input : Option Input} {sub : Option Flux.State}
    (ho : s.objs[j]? = some (.flux req true c input sub)) : .subscribeIn j ∉ s.tasks := by
  intro hm
  rcases Handler.history reg client as s tr h j with ⟨h1, -⟩ | ⟨o0, ts0, es0, o, es, hb, ho', hr, -⟩
  · rw [ho] at h1; cases h1
  · rw [ho] at ho'; cases ho'
    have ht := tag_run hr
    have hm := tasksOf_mem hm (rfl : Task.obj (.subscribeIn j) = some j)
    cases hb with
    | rs => exact subscribeIn_run hr (by simp) ⟨_, _, _, _, _, rfl⟩ _ _ _ _ rfl hm
    | rc => exact subscribeIn_run hr (by simp) ⟨_, _, _, _, _, rfl⟩ _ _ _ _ rfl hm
    | _ => cases ht

/-- Not subscribed to by anyone: a fresh call. -/
def freshInput : Option Input → Prop
  | some (.subscribed ..) => False
  | _ => True

theorem flux_unsub_idle {reg : Registry H} {client : Bool} {as : List Act} {s : St H}
    {tr : List (Handler.Ev H)} (h : Handler.run reg client as = .ok (s, tr)) {j : Nat} {req : RequestPayload}
    {c : Bool} {input : Option Input} (hin : freshInput input)
    (ho : s.objs[j]? = some (.flux req true c input none)) (he : evsOf j tr = []) (a : Act)
    (ha : ∀ inst start, a ≠ .subscribeFlux j inst start) : Idle j s (settle s (Handler.step s a)) := by
  have hi : j < s.objs.length := (List.getElem?_eq_some_iff.mp ho).1
  by_cases hact : actsOn s a = some j
  · have nop : Handler.step s a = .ok (s, []) → Idle j s (settle s (Handler.step s a)) := by
      intro h; rw [h]; exact idle_nop _ _ _ rfl
    cases a with
    | frame f r =>
      simp only [actsOn] at hact
      split at hact
      · have h1 := getStream_opened reg client as s tr h _ j hact
        have hm : Handler.Ev.opened f.streamID j ∈ evsOf j tr :=
          List.mem_filter.mpr ⟨h1, by simp [Handler.Ev.obj]⟩
        rw [he] at hm; cases hm
      · cases hact
    | run t ret =>
      simp only [actsOn] at hact
      cases ht : s.tasks[t]? with
      | none => rw [ht] at hact; cases hact
      | some task =>
        rw [ht] at hact
        have hto : task.obj = some j := hact
        simp only [Handler.step, ht]
        cases task with
        | request => cases hto
        | upRequest i n =>
          exfalso
          simp only [Task.obj, Option.some.injEq] at hto
          subst hto
          obtain ⟨sv, dr, -, -, -, hcount⟩ := f_history reg client as s tr h i req true c input none ho
          rw [he] at hcount
          have : waiting i (tasksOf i s.tasks) = [] := by
            have := hcount.nil_eq
            exact (List.append_eq_nil_iff.mp this.symm).2
          have hm : n ∈ waiting i (tasksOf i s.tasks) :=
            List.mem_filterMap.mpr ⟨_, tasksOf_mem (List.mem_of_getElem? ht) rfl, by simp⟩
          rw [this] at hm; cases hm
        | subscribeIn i =>
          simp only [Task.obj, Option.some.injEq] at hto
          subst hto
          exact absurd (List.mem_of_getElem? ht) (subscribeIn_history h ho)
        | doRequest i n =>
          simp only [Task.obj, Option.some.injEq] at hto
          subst hto
          simp only [runTask, ho]
          cases input with
          | none => exact idle_panic _ _
          | some x => cases x with
            | fresh f => exact idle_panic _ _
            | subscribed f st => exact hin.elim
        | _ =>
          simp only [Task.obj, Option.some.injEq] at hto
          subst hto
          simp only [runTask, ho]
          exact idle_panic _ _
    | subscribeFlux i inst start =>
      simp only [actsOn, Option.some.injEq] at hact
      subst hact
      exact absurd rfl (ha inst start)
    | call => cases hact
    | input i op =>
      simp only [actsOn, Option.some.injEq] at hact
      subst hact
      apply nop
      cases input with
      | none => simp only [Handler.step, ho]
      | some x => cases x with
        | fresh f => simp only [Handler.step, ho]
        | subscribed f st => exact hin.elim
    | _ =>
      simp only [actsOn, Option.some.injEq] at hact
      subst hact
      exact nop (by simp only [Handler.step, ho])
  · exact idle_settle s a hi hact

/-- A stream call that is not subscribed to stays as it is, and nothing happens on its behalf. -/
theorem flux_unsub {reg : Registry H} {client : Bool} {as : List Act} {s : St H} {tr : List (Handler.Ev H)}
    (h : Handler.run reg client as = .ok (s, tr)) {j : Nat} {req : RequestPayload}
    {c : Bool} {input : Option Input} (hin : freshInput input)
    (ho : s.objs[j]? = some (.flux req true c input none)) (he : evsOf j tr = []) (more : List Act) :
    ∀ {s' : St H} {tr' : List (Handler.Ev H)}, Handler.run reg client (as ++ more) = .ok (s', tr') →
    (∀ inst start, .subscribeFlux j inst start ∉ more) →
    s'.objs[j]? = some (.flux req true c input none) ∧ evsOf j tr' = [] := by
  induction more using snoc_induction with
  | nil =>
    intro s' tr' h' _
    rw [List.append_nil, h] at h'
    cases h'
    exact ⟨ho, he⟩
  | snoc more a ih =>
    intro s' tr' h' h0
    rw [← List.append_assoc] at h'
    obtain ⟨s1, t1, e, h2, h3, rfl⟩ := run_snoc_inv _ _ _ _ _ _ h'
    obtain ⟨q1, q2⟩ := ih h2 fun i st hm => h0 i st (List.mem_append_left _ hm)
    obtain ⟨q3, q4⟩ := flux_unsub_idle h2 hin q1 q2 a (fun i st hc => h0 i st (by simp [hc])) _ _ h3
    exact ⟨q3.trans q1, by rw [evsOf_append, q2, q4]; rfl⟩

theorem flux_req_run {j : Nat} {o o' : Obj} {ts ts' : List Task} {es : List (Handler.Ev H)} {req : RequestPayload}
    (h : CRun j o ts o' ts' es) : (∃ n f c i sub, o = .flux { req with initialN := n } f c i sub) →
    ∃ n f c i sub, o' = .flux { req with initialN := n } f c i sub := by
  intro h0
  induction h with
  | refl => exact h0
  | perm _ _ _ _ _ _ ih => exact ih
  | step _ _ _ _ _ _ _ hs ih =>
    obtain ⟨n, f, c, i, sub, rfl⟩ := ih
    cases hs <;> exact ⟨_, _, _, _, _, rfl⟩

/-! ## The call -/

theorem histA_acts (ms : List Move) {s s' : Sys H} (h : System.runFrom s ms = .ok s') :
    ∃ more, s'.histA = s.histA ++ more ∧ ∀ a ∈ more, System.isFrame a = false → .atA a ∈ ms := by
  induction ms generalizing s with
  | nil => cases h; exact ⟨[], by simp, by simp⟩
  | cons m ms ih =>
    obtain ⟨s1, h1, h2⟩ := sys_cons_ok h
    obtain ⟨more, q1, q2⟩ := ih h2
    have q2 : ∀ a ∈ more, System.isFrame a = false → Move.atA a ∈ m :: ms :=
      fun a ha hf => List.mem_cons_of_mem _ (q2 a ha hf)
    have hA : ∀ (s2 : Sys H) act, s2.histA = s.histA → System.moveA s2 act = .ok s1 →
        s1.histA = s.histA ++ [act] := by
      intro s2 act e hm
      unfold System.moveA at hm
      split at hm
      · cases hm; rw [← e]
      · cases hm
      · cases hm
    have hB : ∀ (s2 : Sys H) act, s2.histA = s.histA → System.moveB s2 act = .ok s1 → s1.histA = s.histA := by
      intro s2 act e hm
      unfold System.moveB at hm
      split at hm
      · cases hm; exact e
      · cases hm
      · cases hm
    cases m with
    | atA act =>
      simp only [System.step] at h1
      split at h1
      · cases h1; exact ⟨more, q1, q2⟩
      · refine ⟨act :: more, by rw [q1, hA s act rfl h1]; simp, fun a ha hf => ?_⟩
        rcases List.mem_cons.mp ha with rfl | ha
        · simp
        · exact q2 a ha hf
    | atB act =>
      simp only [System.step] at h1
      split at h1
      · cases h1; exact ⟨more, q1, q2⟩
      · exact ⟨more, by rw [q1, hB s act rfl h1], q2⟩
    | toA r =>
      simp only [System.step] at h1
      split at h1
      · cases h1; exact ⟨more, q1, q2⟩
      · rename_i f fs _
        refine ⟨.frame f r :: more, by rw [q1, hA { s with ba := fs } _ rfl h1]; simp, fun a ha hf => ?_⟩
        rcases List.mem_cons.mp ha with rfl | ha
        · cases hf
        · exact q2 a ha hf
    | toB r =>
      simp only [System.step] at h1
      split at h1
      · cases h1; exact ⟨more, q1, q2⟩
      · rename_i f fs _
        exact ⟨more, by rw [q1, hB { s with ab := fs } _ rfl h1], q2⟩

theorem sent_by_obj {regA regB : Registry H} {client : Bool} {s : Sys H} (hJ : Joined regA regB client s)
    (ht : Tidy s) {j : Nat} {o : Obj} (ho : s.a.objs[j]? = some o) {f : AnyFrame} {r : React} (hf : .frame f r ∈ s.histB)
    (hx : f.streamID = o.sid) : f ∈ framesBy j s.trA := by
  have h1 : f ∈ sentFrames s.trA := by rw [hJ.ab]; exact List.mem_append_left _ (handedOver_mem hf)
  obtain ⟨b, hb⟩ := sent_source h1
  have := source_of_obj o.sid hJ.a (hJ.usesA ht _) ho rfl b f hb hx
  subst this
  exact framesBy_mem hb

theorem own_id_own {reg : Registry H} {client : Bool} {as : List Act} {s : St H} {tr : List (Handler.Ev H)}
    (h : Handler.run reg client as = .ok (s, tr)) (hc : callCount as < 2 ^ 30) {j : Nat} {o : Obj}
    (ho : s.objs[j]? = some o) (hown : o.own = true) : ownId client o.sid = true := by
  rcases mem_requestIds_of_key h _ (obj_key_mem (tr := tr) ho) with ⟨-, h2⟩ | ⟨h2, -⟩
  · exact (callIds_own client as hc).2 _ h2
  · rw [show o.key.1 = true from hown] at h2; cases h2

/-- Nothing is sent to a stream call that has not been subscribed to. -/
theorem stream_none_before {regA regB : Registry H} {client : Bool} {s : Sys H} (hJ : Joined regA regB client s)
    (ht : Tidy s) {j : Nat} {o : Obj} (ho : s.a.objs[j]? = some o) (hown : o.own = true) (he : evsOf j s.trA = []) :
    withId o.sid (sentFrames s.trB) = [] := by
  have none : ∀ f r, .frame f r ∈ s.histB → f.streamID = o.sid → False := by
    intro f r h1 h2
    have := sent_by_obj hJ ht ho h1 h2
    rw [framesBy_nil_of_evsOf he] at this
    cases this
  rcases handled_frames o.sid ⟨[], []⟩ hJ.b ht.callsB (hJ.usesB ht _)
      (ownId_not _ _ (own_id_own hJ.a ht.callsA ho hown)) (fun f r h1 h2 => (none _ _ h1 h2).elim) with ⟨r, h1, -⟩ | ⟨h1, -⟩
  · have ran : ∀ {as1 as2 : List Act} {t : Nat} {ret : Ret} {s1 : St H} {t1 : List (Handler.Ev H)}
        {data md : Bytes} {n : UInt32},
        RanAt regB (!client) s.histB as1 as2 t ret s1 t1 .rr o.sid data md n → False := by
      intro as1 as2 t ret s1 t1 data md n hr
      obtain ⟨f, r, q1, -, q2, -⟩ := task_origin as1 hr.before _ _ _ _ _ (List.mem_of_getElem? hr.task)
      exact none (.request f) r (by rw [hr.split]; exact List.mem_append_left _ q1) q2
    cases h1 with
    | rejected _ _ _ _ _ _ _ hr _ => exact (ran hr).elim
    | served _ _ _ _ _ _ _ hr _ => exact (ran hr).elim
  · exact h1

/-- The request of a stream call. -/
def fluxRequest (k : Kind) (x : UInt32) (p : Pay) (n : UInt32) : RequestPayload :=
  ⟨if k = .rc then typeRequestChannel else typeRequestStream, x, p.metadata, p.data, false, false, n⟩

/-- What is known about a stream call that was subscribed to. -/
structure StreamCalled (regA regB : Registry H) (client : Bool) (s : Sys H) (j : Nat) (k : Kind) (x : UInt32) (p : Pay)
    (inst : Flux.Installed) : Prop where
  joined : Joined regA regB client s
  own : ownId client x = true
  sent : withId x (sentFrames s.trA) = framesBy j s.trA
  grants : ∃ served, (framesBy j s.trA).filter isGrant = grants (fluxRequest k x p requestMax) served
  frames : (∃ r, Streamed regB (!client) k x p s.histB r ∧ .error none ∉ r ∧
      (withId x (sentFrames s.trB)).filter isReply = r.flatMap (sigFrame x) ∧
      (k = .rs → (withId x (sentFrames s.trB)).filter isReply = withId x (sentFrames s.trB))) ∨
    (withId x (sentFrames s.trB) = [] ∧ (∀ (i : Nat) (o : Obj), s.b.objs[i]? = some o → o.sid ≠ x) ∧
      ∀ f ∈ looseFrames s.trB, f.streamID ≠ x)
  part : ∃ r, r <+: cutAtEnd (arrivals x s.histA) ∧ fluxSignals (fluxEvs j s.trA) = r.flatMap (sigCalls inst)
  all : .cancelled ∉ fluxEvs j s.trA →
    fluxCallbacks (fluxEvs j s.trA) = (cutAtEnd (arrivals x s.histA)).flatMap (sigCallbacks inst)

theorem grants_request {req : RequestPayload} {l : List Int} {f : RequestPayload}
    (h : .request f ∈ grants req l) : ∃ n, f = { req with initialN := n } := by
  cases l with
  | nil => cases h
  | cons n l =>
    rcases List.mem_cons.mp h with h | h
    · cases h; exact ⟨_, rfl⟩
    · obtain ⟨_, -, h⟩ := List.mem_map.mp h; cases h

theorem stream_called {regA regB : Registry H} {client : Bool} {pre mid post : List Move} {k : Kind} {p : Pay} {src : Src}
    {inst : Flux.Installed} {start : List Flux.Call} {s0 s : Sys H}
    (h : streamRun regA regB client pre s0 k p src mid inst start post s) (ht : Tidy s) :
    StreamCalled regA regB client s s0.a.objs.length k (callId s0.a) p inst := by
  obtain ⟨hk, h0, honce, h⟩ := h
  have hJ := joined_run _ h
  have hJ0 := joined_run _ h0
  obtain ⟨s1, h1, h2⟩ := sys_append_ok _ _ h
  obtain ⟨s0', h3, h4⟩ := sys_append_ok _ _ h1
  rw [show System.runFrom (.init regA regB client) pre = .ok s0 from h0] at h3
  cases h3
  obtain ⟨s2, h5, h6⟩ := sys_cons_ok h4
  obtain ⟨s3, h7, h8⟩ := sys_cons_ok h2
  have ht1 : Tidy s1 := tidy_before _ h2 ht
  have hJ2 := joined_step _ hJ0 h5
  have hJ1 := joined_runFrom _ hJ2 h6
  generalize hjd : s0.a.objs.length = j at *
  -- the call
  simp only [System.step, System.isFrame, Bool.false_eq_true, if_false, System.moveA, Handler.step, settle] at h5
  have h5 := (Go.ok.inj h5).symm
  have ho2 : ∃ input, freshInput input ∧
      s2.a.objs[j]? = some (.flux (fluxRequest k (callId s0.a) p requestMax) true false input none) := by
    rw [h5]
    rcases hk with rfl | rfl
    · refine ⟨none, trivial, ?_⟩
      show (s0.a.objs ++ _)[j]? = _
      rw [List.getElem?_append_right (by omega), hjd, Nat.sub_self]
      rfl
    · refine ⟨some (.fresh src), trivial, ?_⟩
      show (s0.a.objs ++ _)[j]? = _
      rw [List.getElem?_append_right (by omega), hjd, Nat.sub_self]
      rfl
  obtain ⟨input, hin, ho2⟩ := ho2
  have he2 : evsOf j s2.trA = [] := by
    have hev : (Handler.call s0.a k p src).2 = [] := by rcases hk with rfl | rfl <;> rfl
    rw [h5]
    show evsOf j (s0.trA ++ (Handler.call s0.a k p src).2) = []
    rw [hev, List.append_nil]
    rcases k_history _ _ _ _ _ hJ0.a j with ⟨-, q⟩ | ⟨o, q, -⟩
    · exact q
    · rw [List.getElem?_eq_none (by omega)] at q; cases q
  -- the subscription
  simp only [System.step, System.isFrame, Bool.false_eq_true, if_false] at h7
  obtain ⟨⟨after, hafter⟩, -⟩ := hist_runFrom _ h8
  have hh3 : s3.histA = s1.histA ++ [.subscribeFlux j inst start] := by
    unfold System.moveA at h7
    split at h7
    · cases h7; rfl
    · cases h7
    · cases h7
  have hhist : s.histA = s1.histA ++ .subscribeFlux j inst start :: after := by rw [hafter, hh3]; simp
  -- the state before the subscription
  obtain ⟨more, hmore, hmem⟩ := histA_acts _ h6
  have hrun1 := hJ1.a
  rw [hmore] at hrun1
  obtain ⟨ho1, he1⟩ := flux_unsub hJ2.a hin ho2 he2 more hrun1 (fun i st hm => honce i st (hmem _ hm (by rfl)))
  rw [← hmore] at hrun1
  have hnone : withId (callId s0.a) (handedOver s1.histA) = [] := by
    have := stream_none_before hJ1 ht1 ho1 rfl he1
    rw [hJ1.ba, withId_append] at this
    exact (List.append_eq_nil_iff.mp this).1
  -- from there on
  have hrun := hJ.a
  rw [hhist] at hrun
  unfold Handler.run at hrun hrun1
  rw [handler_runFrom_append, hrun1] at hrun
  obtain ⟨_, _, t2, q1, q2, q3⟩ := andThen_ok hrun
  cases q1
  have hopened : (openedIds (s1.trA ++ t2)).Nodup := by rw [← q3]; exact hJ.openedA ht
  -- the object at the end
  obtain ⟨o', q4, q5⟩ := (loc_runFrom j _ s1.a _ _ q2).1 _ ho1
  obtain ⟨n, f, c, i, sub, rfl⟩ := flux_req_run (req := fluxRequest k (callId s0.a) p requestMax) q5
    ⟨requestMax, true, false, input, none, rfl⟩
  have hown := own_id_own hJ.a ht.callsA q4 rfl
  have hown : ownId client (callId s0.a) = true := hown
  obtain ⟨sv, dr, -, -, hfr, -⟩ := f_history _ _ _ _ _ hJ.a j _ _ _ _ _ q4
  rw [framesBy_evsOf] at hfr
  have hfr : (framesBy j s.trA).filter isGrant = grants (fluxRequest k (callId s0.a) p requestMax) sv := by
    rw [hfr]; cases sv <;> rfl
  have hreq : ∀ f r, .frame (.request f) r ∈ s.histB → f.streamID = callId s0.a →
      kindOfType f.frameType = some k ∧ f.data = p.data ∧ f.metadata = p.metadata := by
    intro f r q6 q7
    have hm := sent_by_obj hJ ht q4 q6 q7
    have hm : AnyFrame.request f ∈ (framesBy j s.trA).filter isGrant := List.mem_filter.mpr ⟨hm, rfl⟩
    rw [hfr] at hm
    obtain ⟨n', rfl⟩ := grants_request hm
    refine ⟨?_, rfl, rfl⟩
    rcases hk with rfl | rfl <;> rfl
  have hframes := streamed_frames k hk (callId s0.a) p hJ.b ht.callsB (hJ.usesB ht _) (ownId_not _ _ hown) hreq
  have hrec : arrivals (callId s0.a) s.histA = arrivals (callId s0.a) after := by
    rw [arrivals_handedOver, arrivals_handedOver, hhist, handedOver_append, withId_append, hnone]; rfl
  obtain ⟨r1, r2, r3⟩ := C90_received regA client s1.histA after s1.a s.a s1.trA t2 j _ _ _ _ inst start hJ1.a ho1 q2 hopened
  have hev : fluxEvs j s.trA = fluxEvs j t2 := by rw [q3, fluxEvs_append, r1]; rfl
  refine ⟨hJ, hown, withId_of_obj (callId s0.a) hJ.a (hJ.usesA ht _) q4 rfl, ⟨sv, hfr⟩, hframes, ?_, ?_⟩
  · rw [hev, hrec]; exact r2
  · rw [hev, hrec]; exact r3

/-! ## The theorems -/

/-- What has arrived for the call is what was sent of the answer so far. -/
theorem stream_arrivals {regA regB : Registry H} {client : Bool} {s : Sys H} {j : Nat} {k : Kind} {x : UInt32} {p : Pay}
    {inst : Flux.Installed} (hk : k = .rs ∨ k = .rc) (c : StreamCalled regA regB client s j k x p inst)
    (hin : k = .rc → inputKept s x) :
    ∃ r, (withId x (sentFrames s.trB)).filter isReply = r.flatMap (sigFrame x) ∧
      ((r = [] ∧ withId x (sentFrames s.trB) = [] ∧ (∀ (i : Nat) (o : Obj), s.b.objs[i]? = some o → o.sid ≠ x) ∧
        ∀ f ∈ looseFrames s.trB, f.streamID ≠ x) ∨ Streamed regB (!client) k x p s.histB r) ∧
      cutAtEnd (arrivals x s.histA) <+: (cutAtEnd r).map sigOverWire ∧
      (s.ba = [] → cutAtEnd (arrivals x s.histA) = (cutAtEnd r).map sigOverWire) := by
  have hw : withId x (sentFrames s.trB) = withId x (handedOver s.histA) ++ withId x s.ba := by
    rw [c.joined.ba, withId_append]
  have key : ∀ r : List StreamSig, .error none ∉ r → (withId x (sentFrames s.trB)).filter isReply = r.flatMap (sigFrame x) →
      .cancel ⟨x⟩ ∉ withId x (sentFrames s.trB) →
      cutAtEnd (arrivals x s.histA) <+: (cutAtEnd r).map sigOverWire ∧
      (s.ba = [] → cutAtEnd (arrivals x s.histA) = (cutAtEnd r).map sigOverWire) := by
    intro r hr h1 h2
    have h3 : (withId x (sentFrames s.trB)).flatMap (frameSigs x) = r.map sigOverWire := by
      rw [sigs_of_replies x _ h2 (fun f hf => by simpa [withId] using (List.mem_filter.mp hf).2), h1, sigs_of_frames x r hr]
    rw [hw, List.flatMap_append, ← arrivals_handedOver] at h3
    constructor
    · rw [← cutAtEnd_wire, ← h3]; exact cutAtEnd_prefix _ _
    · intro hb
      rw [hb] at h3
      rw [← cutAtEnd_wire, ← h3]
      congr 1
      exact (List.append_nil _).symm
  rcases c.frames with ⟨r, h1, h2, h3, h4⟩ | ⟨h1, h2, h3⟩
  · refine ⟨r, h3, .inr h1, key r h2 h3 ?_⟩
    rcases hk with rfl | rfl
    · intro hm
      rw [← h4 rfl] at hm
      exact absurd (List.mem_filter.mp hm).2 (by simp [isReply])
    · intro hm
      exact hin rfl (List.mem_filter.mp hm).1
  · exact ⟨[], by rw [h1]; rfl, .inl ⟨rfl, h1, h2, h3⟩, key [] (by simp) (by rw [h1]; rfl) (by rw [h1]; simp)⟩

/-- C91: what the subscriber of a stream or channel sees, at any point of any run of the connection, is
the beginning of what the peer's application has answered to this very call, in that order and without
gaps. For a channel the peer must not have cancelled the input of the channel. -/
theorem C91_stream_partial (regA regB : Registry H) (client : Bool) (pre mid post : List Move) (s0 s : Sys H) (k : Kind)
    (p : Pay) (src : Src) (inst : Flux.Installed) (start : List Flux.Call)
    (h : streamRun regA regB client pre s0 k p src mid inst start post s) (ht : Tidy s)
    (hin : k = .rc → inputKept s (callId s0.a)) :
    fluxSignals (fluxEvs s0.a.objs.length s.trA) = [] ∨
    ∃ r, Streamed regB (!client) k (callId s0.a) p s.histB r ∧ ∃ seen, seen <+: cutAtEnd r ∧
      fluxSignals (fluxEvs s0.a.objs.length s.trA) = (seen.map sigOverWire).flatMap (sigCalls inst) := by
  have c := stream_called h ht
  obtain ⟨q, q1, q2⟩ := c.part
  obtain ⟨r, -, h2, h3, -⟩ := stream_arrivals h.kind c hin
  obtain ⟨seen, h4, rfl⟩ := map_prefix_inv sigOverWire (q1.trans h3)
  rcases h2 with ⟨rfl, -⟩ | h2
  · left
    have : seen = [] := List.prefix_nil.mp h4
    rw [q2, this]; rfl
  · exact .inr ⟨r, h2, seen, h4, q2⟩

/-- The ids of what B knows of a request that has arrived. -/
theorem arrived_known {reg : Registry H} {client : Bool} {as : List Act} {s : St H} {tr : List (Handler.Ev H)}
    (h : Handler.run reg client as = .ok (s, tr)) {f : RequestPayload} (hk : (kindOfType f.frameType).isSome = true)
    (hf : (.request f : AnyFrame) ∈ handedOver as) (h1 : ∀ (i : Nat) (o : Obj), s.objs[i]? = some o → o.sid ≠ f.streamID)
    (h2 : ∀ g ∈ looseFrames tr, g.streamID ≠ f.streamID)
    (h3 : ∀ k data md n, .request k f.streamID data md n ∉ s.tasks) : False := by
  obtain ⟨r, h5⟩ := handedOver_of_mem hf
  have h6 : f.streamID ∈ requestIds as := by
    obtain ⟨a, b, hab⟩ := List.append_of_mem h5
    rw [hab, requestIds_append]
    refine List.mem_append_right _ ?_
    show f.streamID ∈ (if (kindOfType f.frameType).isSome then [f.streamID] else []) ++ requestIds b
    rw [hk]; simp
  have h7 : (false, f.streamID) ∈ idsIn s tr := by
    rw [(ids_run _ _ _ _ _ h).mem_iff]
    exact List.mem_append_right _ (List.mem_map.mpr ⟨_, h6, rfl⟩)
  unfold idsIn at h7
  simp only [List.mem_append, List.mem_map] at h7
  rcases h7 with ⟨o, h8, h9⟩ | ⟨t, h8, h9⟩ | ⟨g, h8, h9⟩
  · obtain ⟨i, hi, h10⟩ := List.mem_iff_getElem.mp h8
    exact h1 i o (by rw [List.getElem?_eq_getElem hi, h10]) (congrArg Prod.snd h9)
  · obtain ⟨h10, h11⟩ := List.mem_filter.mp h8
    cases t with
    | request k id data md n =>
      have : id = f.streamID := congrArg Prod.snd h9
      subst this
      exact h3 _ _ _ _ h10
    | _ => cases h11
  · exact h2 g h8 (by rw [← looseKey_id]; exact congrArg Prod.snd h9)

/-- The request of the call has been sent: the subscriber has asked for something and A has got round to it. -/
def requestSent (s : Sys H) (x : UInt32) : Prop := ∃ f, f.streamID = x ∧ .request f ∈ System.wire s.trA

theorem sent_request {regA regB : Registry H} {client : Bool} {s : Sys H} {j : Nat} {k : Kind} {x : UInt32} {p : Pay}
    {inst : Flux.Installed} (c : StreamCalled regA regB client s j k x p inst)
    (hs : requestSent s x) : ∃ n, (.request (fluxRequest k x p n) : AnyFrame) ∈ sentFrames s.trA := by
  obtain ⟨f, hf, hm⟩ := hs
  have h1 : (.request f : AnyFrame) ∈ withId x (sentFrames s.trA) := List.mem_filter.mpr ⟨hm, decide_eq_true hf⟩
  rw [c.sent] at h1
  have h1 : (.request f : AnyFrame) ∈ (framesBy j s.trA).filter isGrant := List.mem_filter.mpr ⟨h1, rfl⟩
  obtain ⟨sv, hsv⟩ := c.grants
  rw [hsv] at h1
  obtain ⟨n, rfl⟩ := grants_request h1
  exact ⟨n, hm⟩

theorem fluxRequest_kind {k : Kind} (hk : k = .rs ∨ k = .rc) (x : UInt32) (p : Pay) (n : UInt32) :
    kindOfType (fluxRequest k x p n).frameType = some k ∧ requestKind (fluxRequest k x p n).frameType = some k := by
  rcases hk with rfl | rfl <;> exact ⟨rfl, rfl⟩

/-- C91: once nothing of it is under way, a subscriber that has asked for elements and has not cancelled
has seen exactly what the peer's application has answered, up to the end of the stream. -/
theorem C91_completes_partial (regA regB : Registry H) (client : Bool) (pre mid post : List Move) (s0 s : Sys H) (k : Kind)
    (p : Pay) (src : Src) (inst : Flux.Installed) (start : List Flux.Call)
    (h : streamRun regA regB client pre s0 k p src mid inst start post s) (ht : Tidy s)
    (hin : k = .rc → inputKept s (callId s0.a)) (hs : requestSent s (callId s0.a))
    (hc : .cancelled ∉ fluxEvs s0.a.objs.length s.trA) (hq : settled s (callId s0.a)) :
    ∃ r, Streamed regB (!client) k (callId s0.a) p s.histB r ∧
      fluxCallbacks (fluxEvs s0.a.objs.length s.trA) =
        ((cutAtEnd r).map sigOverWire).flatMap (sigCallbacks inst) := by
  have c := stream_called h ht
  obtain ⟨r, -, h2, -, h4⟩ := stream_arrivals h.kind c hin
  obtain ⟨q1, q2, q3⟩ := hq
  rcases h2 with ⟨-, -, h2, h3⟩ | h2
  · exfalso
    obtain ⟨n, hn⟩ := sent_request c hs
    rw [c.joined.ab, q1, List.append_nil] at hn
    exact arrived_known c.joined.b (by rw [(fluxRequest_kind h.kind _ _ _).1]; rfl) hn h2 h3 q3
  · exact ⟨r, h2, by rw [c.all hc, h4 q2]⟩

theorem due_grants (calls : List (Invoke.Call H)) (l : List AnyFrame) :
    l.flatMap (dueOf calls) = (l.filter isGrant).flatMap (dueOf calls) := by
  induction l with
  | nil => rfl
  | cons f l ih =>
    rw [List.flatMap_cons, List.filter_cons, ih]
    cases f <;> rfl

/-- C91: at any point, the peer has done nothing with the request yet, or exactly one thing: rejected it,
or invoked the operation it names, once, with the payload of the call, however often elements were asked for. -/
theorem C91_invoked (regA : Registry H) (callsB : List (Invoke.Call H)) (hc : fewCalls callsB) (client : Bool)
    (pre mid post : List Move) (s0 s : Sys H) (k : Kind) (p : Pay) (src : Src) (inst : Flux.Installed)
    (start : List Flux.Call)
    (h : streamRun regA (Invoke.run Registry.init callsB) client pre s0 k p src mid inst start post s) (ht : Tidy s) :
    let done := (verdicts s.trB).filter fun v => decide (v.id = callId s0.a)
    (done = [] ∨ done = [verdict callsB k (callId s0.a) p.data p.metadata]) ∧
    (settled s (callId s0.a) → requestSent s (callId s0.a) →
      done = [verdict callsB k (callId s0.a) p.data p.metadata]) := by
  intro done
  have c := stream_called h ht
  have hp := (C56_accounted callsB hc _ _ _ _ c.joined.b).filter fun v => decide (v.id = callId s0.a)
  rw [due_filter, List.filter_append, due_grants] at hp
  obtain ⟨sv, hsv⟩ := c.grants
  rw [← c.sent, c.joined.ab, withId_append, List.filter_append] at hsv
  have hdue : ∀ l, l <+: grants (fluxRequest k (callId s0.a) p requestMax) sv →
      l.flatMap (dueOf callsB) = [] ∨
      l.flatMap (dueOf callsB) = [verdict callsB k (callId s0.a) p.data p.metadata] := by
    intro l hl
    cases sv with
    | nil => left; rw [List.prefix_nil.mp hl]; rfl
    | cons n sv =>
      cases l with
      | nil => exact .inl rfl
      | cons f l =>
        right
        simp only [grants, List.cons_prefix_cons] at hl
        obtain ⟨rfl, hl⟩ := hl
        have h0 : l.flatMap (dueOf callsB) = [] := by
          rw [List.flatMap_eq_nil_iff]
          intro g hg
          obtain ⟨_, -, rfl⟩ := List.mem_map.mp (hl.subset hg)
          rfl
        rw [List.flatMap_cons, h0, List.append_nil]
        have := (fluxRequest_kind h.kind (callId s0.a) p (fluxRequest k (callId s0.a) p requestMax).initialN).2
        simp only [dueOf]
        have : requestKind (fluxRequest k (callId s0.a) p requestMax).frameType = some k := this
        rw [this]
        rfl
  have hpre := hdue _ ⟨_, hsv⟩
  constructor
  · rcases hpre with h1 | h1
    · rw [h1] at hp
      exact .inl (List.append_eq_nil_iff.mp hp.symm.eq_nil).1
    · rw [h1] at hp
      have hp := List.perm_singleton.mp hp.symm
      cases hd : done with
      | nil => exact .inl rfl
      | cons v vs =>
        right
        have hd' : (verdicts s.trB).filter (fun v => decide (v.id = callId s0.a)) = v :: vs := hd
        rw [hd'] at hp
        simp at hp
        rw [hp.1, hp.2.1]
  · rintro ⟨q1, -, q3⟩ hs
    rw [open_filter _ _ _ q3, List.append_nil] at hp
    rcases hpre with h1 | h1
    · exfalso
      obtain ⟨n, hn⟩ := sent_request c hs
      rw [c.joined.ab, q1, List.append_nil] at hn
      have h2 : (.request (fluxRequest k (callId s0.a) p n) : AnyFrame) ∈
          (withId (callId s0.a) (handedOver s.histB)).filter isGrant :=
        List.mem_filter.mpr ⟨List.mem_filter.mpr ⟨hn, by simp [AnyFrame.streamID, fluxRequest]⟩, rfl⟩
      have h3 := List.flatMap_eq_nil_iff.mp h1 _ h2
      simp only [dueOf, (fluxRequest_kind h.kind (callId s0.a) p n).2] at h3
      cases h3
    · rw [h1] at hp
      exact List.perm_singleton.mp hp.symm

/-- C91 in full: the same without asking anything of the peer. -/
def C91_statement : Prop :=
  ∀ (regA regB : Registry Unit) (client : Bool) (pre mid post : List Move) (s0 s : Sys Unit) (k : Kind) (p : Pay)
    (src : Src) (inst : Flux.Installed) (start : List Flux.Call),
    streamRun regA regB client pre s0 k p src mid inst start post s → Tidy s →
    fluxSignals (fluxEvs s0.a.objs.length s.trA) = [] ∨
    ∃ r, Streamed regB (!client) k (callId s0.a) p s.histB r ∧ ∃ seen, seen <+: cutAtEnd r ∧
      fluxSignals (fluxEvs s0.a.objs.length s.trA) = (seen.map sigOverWire).flatMap (sigCalls inst)

/-! ## Examples -/

def called91 (k : Kind) (mid post : List Move) : List Move :=
  [] ++ .atA (.call k ⟨[5], eightZeros⟩ .created) :: mid ++
    .atA (.subscribeFlux 0 ⟨true, true, true, true, true, false⟩ [.request 3]) :: post

/-- B makes a call of its own before A subscribes. -/
def before91 : List Move :=
  [.atB (.call .rr ⟨[1], eightZeros⟩ .created), .atB (.subscribeMono 0 ⟨true, true, true⟩), .toA noReact]

/-- The request goes over, B serves it, asks its source for elements and gets two, an error and
another element; A asks for more in between. -/
def streamed91 : List Move :=
  [.atA (.run 1 retCreated), .toB noReact, .atB (.run 0 retCreated), .atB (.run 0 retCreated), .atB (.out 1 (.next ⟨[7], [8]⟩)),
   .atB (.run 0 retCreated), .toA noReact, .atA (.fluxCall 0 (.request 2)), .atA (.run 1 retCreated), .toB noReact,
   .atB (.out 1 (.next ⟨[6], []⟩)), .atB (.out 1 (.error (some "no"))), .atB (.out 1 (.next ⟨[5], []⟩)),
   .toA noReact, .toA noReact]

def end91 : Sys Unit := sysAfter (System.run oneHandler oneHandler true (called91 .rs before91 streamed91))

/-- The hypotheses of the theorems hold for it, and the subscriber sees two elements and the error. -/
example : streamRun oneHandler oneHandler true [] (.init oneHandler oneHandler true) .rs ⟨[5], eightZeros⟩ .created before91
      ⟨true, true, true, true, true, false⟩ [.request 3] streamed91 end91 ∧ Tidy end91 ∧
    requestSent end91 (callId (St.init oneHandler true)) ∧ .cancelled ∉ fluxEvs 0 end91.trA ∧
    settled end91 (callId (St.init oneHandler true)) ∧
    fluxCallbacks (fluxEvs 0 end91.trA) =
      [.next ⟨[7], [8]⟩, .next ⟨[6], []⟩, .error (some "no"), .fin .error] := by
  refine ⟨⟨.inl rfl, rfl, ?_, rfl⟩, ⟨by decide +kernel, by decide +kernel, ?_, ?_⟩,
    ⟨⟨typeRequestStream, 1, eightZeros, [5], false, false, 3⟩, rfl, by decide +kernel⟩, by decide +kernel,
    ⟨by decide +kernel, by decide +kernel, ?_⟩, by decide +kernel⟩
  · intro inst start h
    simp [before91] at h
  · intro j
    have h : subscriptionsTo j end91.histA = 0 := rfl
    omega
  · intro j
    match j with
    | 0 => decide +kernel
    | j + 1 =>
      have h : subscriptionsTo (j + 1) end91.histB = 0 := rfl
      omega
  · intro k d m n h
    exact absurd h (by show _ ∉ [Task.doRequest 1 2]; simp)

/-- A channel: the peer sends an element, subscribes to the input and cancels it, and sends another element. -/
def cancelled91 : List Move :=
  [.atA (.run 0 retCreated), .toB noReact, .atB (.run 0 retCreated), .atB (.run 0 retCreated), .atB (.out 0 (.next ⟨[7], [8]⟩)),
   .atB (.subscribeInp 0 ⟨true, true, true, true, true, false⟩ [.cancel]),
   .atB (.out 0 (.next ⟨[6], []⟩)), .toA noReact, .toA noReact, .toA noReact]

def endCancelled : Sys Unit := sysAfter (System.run oneHandler oneHandler true (called91 .rc [] cancelled91))

theorem cutAtEnd_mem {y : StreamSig} {l : List StreamSig} (h : y ∈ cutAtEnd l) : y ∈ l := by
  induction l with
  | nil => exact h
  | cons x l ih =>
    simp only [cutAtEnd] at h
    split at h
    · simp only [List.mem_singleton] at h; simp [h]
    · rcases List.mem_cons.mp h with rfl | h
      · simp
      · exact List.mem_cons_of_mem _ (ih h)

/-- The subscriber of the channel is told that it is complete, which the peer's application has not said. -/
theorem C91_violated : ¬ C91_statement := by
  intro h
  have hrun : streamRun oneHandler oneHandler true [] (.init oneHandler oneHandler true) .rc ⟨[5], eightZeros⟩ .created []
      ⟨true, true, true, true, true, false⟩ [.request 3] cancelled91 endCancelled :=
    ⟨.inr rfl, rfl, by simp, rfl⟩
  have ht : Tidy endCancelled := by
    refine ⟨by decide +kernel, by decide +kernel, ?_, ?_⟩
    · intro j
      have h : subscriptionsTo j endCancelled.histA = 0 := rfl
      omega
    · intro j
      have h : subscriptionsTo j endCancelled.histB = 0 := rfl
      omega
  have hs : fluxSignals (fluxEvs (Sys.init oneHandler oneHandler true).a.objs.length endCancelled.trA) =
      [.next ⟨[7], [8]⟩, .complete] := by decide +kernel
  rcases h _ _ _ _ _ _ _ _ _ _ _ _ _ hrun ht with h1 | ⟨r, h1, seen, h2, h3⟩
  · rw [hs] at h1; cases h1
  · rw [hs] at h3
    have hist : ∃ f1 f2, endCancelled.histB = [.frame f1 noReact, .run 0 retCreated, .run 0 retCreated,
        .out 0 (.next ⟨[7], [8]⟩), .subscribeInp 0 ⟨true, true, true, true, true, false⟩ [.cancel],
        .out 0 (.next f2)] := ⟨_, _, rfl⟩
    obtain ⟨f1, f2, hist⟩ := hist
    have hr : StreamSig.complete ∉ r := by
      intro hm
      cases h1 with
      | rejected => simp at hm
      | waiting => simp at hm
      | served as1 as2 t ret s1 t1 n ran good as3 as4 t' ret' s3 t3 n' split =>
        have e := ran.split
        rw [split, hist] at e
        have h4 : Act.run t ret ∈ endCancelled.histB := by rw [ran.split]; simp
        have h5 : ret = retCreated := by rw [hist] at h4; simp at h4; exact h4.2
        subst h5
        have h6 : ∀ a ∈ as4, a ∈ endCancelled.histB := by
          intro a ha; rw [ran.split, split]; simp [ha]
        have h7 := cutAtEnd_mem (show StreamSig.complete ∈ cutAtEnd (outSigs s1.objs.length as4) from hm)
        obtain ⟨a, h8, h9⟩ := List.mem_flatMap.mp h7
        have h10 := h6 a h8
        rw [hist] at h10
        simp only [List.mem_cons, List.not_mem_nil, or_false] at h10
        rcases h10 with rfl | rfl | rfl | rfl | rfl | rfl
        · cases h9
        · cases h9
        · cases h9
        · dsimp only at h9; split at h9
          · simp [srcSigs] at h9
          · cases h9
        · cases h9
        · dsimp only at h9; split at h9
          · simp [srcSigs] at h9
          · cases h9
    have hc : Flux.Ev.complete ∈ (seen.map sigOverWire).flatMap
        (sigCalls ⟨true, true, true, true, true, false⟩) := by rw [← h3]; simp
    obtain ⟨y, h4, h5⟩ := List.mem_flatMap.mp hc
    obtain ⟨z, h6, rfl⟩ := List.mem_map.mp h4
    have h7 := cutAtEnd_mem (h2.subset h6)
    cases z with
    | complete => exact hr h7
    | element p => simp [sigOverWire, sigCalls] at h5
    | error e => cases e <;> simp [sigOverWire, sigCalls] at h5

end
end Verif.Props
