import Verif.Model.System
import Verif.Props.SystemHandled
import Verif.Props.HandlerDispatch
/-
Property C87: request/response over a whole connection.
-/
set_option autoImplicit false
namespace Verif.Props
open Verif Frames Handler
open Verif.Invoke (Kind Registry getHandler)
open Verif.System (Sys Move)

section
variable {H : Type}

/-! ## Joining the ends -/

/-- The frames an end was handed. -/
def handedOver (as : List Act) : List AnyFrame := as.filterMap fun | .frame f _ => some f | _ => none

theorem handedOver_append (a b : List Act) : handedOver (a ++ b) = handedOver a ++ handedOver b := by simp [handedOver]

theorem handedOver_mem {as : List Act} {f : AnyFrame} {r : React} (h : .frame f r ∈ as) : f ∈ handedOver as :=
  List.mem_filterMap.mpr ⟨_, h, rfl⟩

theorem handedOver_of_mem {as : List Act} {f : AnyFrame} (h : f ∈ handedOver as) : ∃ r, .frame f r ∈ as := by
  obtain ⟨a, h1, h2⟩ := List.mem_filterMap.mp h
  cases a with
  | frame g r => simp at h2; subst h2; exact ⟨r, h1⟩
  | _ => cases h2

/-- Both ends run on their own; what was sent was handed over or is on the wire. -/
structure Joined (regA regB : Registry H) (client : Bool) (s : Sys H) : Prop where
  a : Handler.run regA client s.histA = .ok (s.a, s.trA)
  b : Handler.run regB (!client) s.histB = .ok (s.b, s.trB)
  ab : sentFrames s.trA = handedOver s.histB ++ s.ab
  ba : sentFrames s.trB = handedOver s.histA ++ s.ba

theorem wire_eq (e : List (Handler.Ev H)) : System.wire e = sentFrames e := rfl

theorem joined_moveA {regA regB : Registry H} {client : Bool} {s s' : Sys H} (act : Act) (rest : List AnyFrame)
    (hj : Joined regA regB client s) (hq : s.ba = handedOver [act] ++ rest)
    (h : System.moveA { s with ba := rest } act = .ok s') : Joined regA regB client s' := by
  unfold System.moveA at h
  dsimp only at h
  split at h
  · rename_i a e he
    cases h
    refine ⟨handler_run_snoc _ _ _ _ _ _ _ _ hj.a he, hj.b, ?_, ?_⟩
    · show sentFrames (s.trA ++ e) = _
      rw [sentFrames_append, hj.ab, List.append_assoc]; rfl
    · show sentFrames s.trB = handedOver (s.histA ++ [act]) ++ rest
      rw [hj.ba, handedOver_append, hq, List.append_assoc]
  · cases h
  · cases h

theorem joined_moveB {regA regB : Registry H} {client : Bool} {s s' : Sys H} (act : Act) (rest : List AnyFrame)
    (hj : Joined regA regB client s) (hq : s.ab = handedOver [act] ++ rest)
    (h : System.moveB { s with ab := rest } act = .ok s') : Joined regA regB client s' := by
  unfold System.moveB at h
  dsimp only at h
  split at h
  · rename_i b e he
    cases h
    refine ⟨hj.a, handler_run_snoc _ _ _ _ _ _ _ _ hj.b he, ?_, ?_⟩
    · show sentFrames s.trA = handedOver (s.histB ++ [act]) ++ rest
      rw [hj.ab, handedOver_append, hq, List.append_assoc]
    · show sentFrames (s.trB ++ e) = _
      rw [sentFrames_append, hj.ba, List.append_assoc]; rfl
  · cases h
  · cases h

theorem handedOver_no_frame {act : Act} (h : System.isFrame act = false) : handedOver [act] = [] := by
  cases act <;> first | rfl | cases h

theorem joined_step {regA regB : Registry H} {client : Bool} {s s' : Sys H} (m : Move)
    (hj : Joined regA regB client s) (h : System.step s m = .ok s') : Joined regA regB client s' := by
  cases m with
  | atA act =>
    simp only [System.step] at h
    split at h
    · cases h; exact hj
    · rename_i hf
      exact joined_moveA act s.ba hj (by rw [handedOver_no_frame (by simpa using hf)]; rfl) h
  | atB act =>
    simp only [System.step] at h
    split at h
    · cases h; exact hj
    · rename_i hf
      exact joined_moveB act s.ab hj (by rw [handedOver_no_frame (by simpa using hf)]; rfl) h
  | toA r =>
    simp only [System.step] at h
    split at h
    · cases h; exact hj
    · rename_i f fs hq
      exact joined_moveA (.frame f r) fs hj hq h
  | toB r =>
    simp only [System.step] at h
    split at h
    · cases h; exact hj
    · rename_i f fs hq
      exact joined_moveB (.frame f r) fs hj hq h

theorem sys_cons_ok {s s' : Sys H} {m : Move} {ms : List Move} (h : System.runFrom s (m :: ms) = .ok s') :
    ∃ s1, System.step s m = .ok s1 ∧ System.runFrom s1 ms = .ok s' := by
  simp only [System.runFrom] at h
  split at h
  · exact ⟨_, ‹_›, h⟩
  · cases h
  · cases h

theorem sys_append_ok {s s' : Sys H} (a b : List Move) (h : System.runFrom s (a ++ b) = .ok s') :
    ∃ s1, System.runFrom s a = .ok s1 ∧ System.runFrom s1 b = .ok s' := by
  induction a generalizing s with
  | nil => exact ⟨s, rfl, h⟩
  | cons m a ih =>
    obtain ⟨s1, h1, h2⟩ := sys_cons_ok h
    obtain ⟨s2, h3, h4⟩ := ih h2
    exact ⟨s2, by simp only [System.runFrom, h1, h3], h4⟩

theorem joined_runFrom {regA regB : Registry H} {client : Bool} (ms : List Move) {s s' : Sys H}
    (hj : Joined regA regB client s) (h : System.runFrom s ms = .ok s') : Joined regA regB client s' := by
  induction ms generalizing s with
  | nil => cases h; exact hj
  | cons m ms ih =>
    obtain ⟨s1, h1, h2⟩ := sys_cons_ok h
    exact ih (joined_step m hj h1) h2

theorem joined_run {regA regB : Registry H} {client : Bool} (ms : List Move) {s : Sys H}
    (h : System.run regA regB client ms = .ok s) : Joined regA regB client s :=
  joined_runFrom ms ⟨rfl, rfl, rfl, rfl⟩ h

/-- Histories only grow. -/
theorem hist_step {s s' : Sys H} (m : Move) (h : System.step s m = .ok s') :
    (∃ x, s'.histA = s.histA ++ x) ∧ ∃ y, s'.histB = s.histB ++ y := by
  have hA : ∀ (s0 : Sys H) act, s0.histA = s.histA → s0.histB = s.histB → System.moveA s0 act = .ok s' →
      (∃ x, s'.histA = s.histA ++ x) ∧ ∃ y, s'.histB = s.histB ++ y := by
    intro s0 act h1 h2 h
    unfold System.moveA at h
    split at h
    · cases h; exact ⟨⟨[act], by rw [← h1]⟩, ⟨[], by simp [h2]⟩⟩
    · cases h
    · cases h
  have hB : ∀ (s0 : Sys H) act, s0.histA = s.histA → s0.histB = s.histB → System.moveB s0 act = .ok s' →
      (∃ x, s'.histA = s.histA ++ x) ∧ ∃ y, s'.histB = s.histB ++ y := by
    intro s0 act h1 h2 h
    unfold System.moveB at h
    split at h
    · cases h; exact ⟨⟨[], by simp [h1]⟩, ⟨[act], by rw [← h2]⟩⟩
    · cases h
    · cases h
  have nop : s' = s → (∃ x, s'.histA = s.histA ++ x) ∧ ∃ y, s'.histB = s.histB ++ y := by
    rintro rfl; exact ⟨⟨[], by simp⟩, ⟨[], by simp⟩⟩
  cases m with
  | atA act =>
    simp only [System.step] at h
    split at h
    · cases h; exact nop rfl
    · exact hA _ _ rfl rfl h
  | atB act =>
    simp only [System.step] at h
    split at h
    · cases h; exact nop rfl
    · exact hB _ _ rfl rfl h
  | toA r =>
    simp only [System.step] at h
    split at h
    · cases h; exact nop rfl
    · rename_i f fs _; exact hA { s with ba := fs } _ rfl rfl h
  | toB r =>
    simp only [System.step] at h
    split at h
    · cases h; exact nop rfl
    · rename_i f fs _; exact hB { s with ab := fs } _ rfl rfl h

theorem hist_runFrom (ms : List Move) {s s' : Sys H} (h : System.runFrom s ms = .ok s') :
    (∃ x, s'.histA = s.histA ++ x) ∧ ∃ y, s'.histB = s.histB ++ y := by
  induction ms generalizing s with
  | nil => cases h; exact ⟨⟨[], by simp⟩, ⟨[], by simp⟩⟩
  | cons m ms ih =>
    obtain ⟨s1, h1, h2⟩ := sys_cons_ok h
    obtain ⟨⟨x, hx⟩, y, hy⟩ := hist_step m h1
    obtain ⟨⟨x', hx'⟩, y', hy'⟩ := ih h2
    exact ⟨⟨x ++ x', by rw [hx', hx, List.append_assoc]⟩, ⟨y ++ y', by rw [hy', hy, List.append_assoc]⟩⟩

/-! ## Ids on a connection -/

/-- Limits of the connection: fewer than 2^30 calls at each end, and no mono subscribed twice. -/
structure Tidy (s : Sys H) : Prop where
  callsA : callCount s.histA < 2 ^ 30
  callsB : callCount s.histB < 2 ^ 30
  onceA : subscribedOnce s.histA
  onceB : subscribedOnce s.histB

theorem callCount_append (a b : List Act) : callCount (a ++ b) = callCount a + callCount b := by
  induction a with
  | nil => simp [callCount]
  | cons x a ih => cases x <;> simp [callCount, ih] <;> omega

theorem subscriptionsTo_append (j : Nat) (a b : List Act) :
    subscriptionsTo j (a ++ b) = subscriptionsTo j a + subscriptionsTo j b := by
  simp [subscriptionsTo, List.countP_append]

theorem tidy_before (ms : List Move) {s s' : Sys H} (h : System.runFrom s ms = .ok s') (ht : Tidy s') : Tidy s := by
  obtain ⟨⟨x, hx⟩, y, hy⟩ := hist_runFrom ms h
  obtain ⟨h1, h2, h3, h4⟩ := ht
  rw [hx, callCount_append] at h1
  rw [hy, callCount_append] at h2
  refine ⟨by omega, by omega, fun j => ?_, fun j => ?_⟩
  · have := h3 j; rw [hx, subscriptionsTo_append] at this; omega
  · have := h4 j; rw [hy, subscriptionsTo_append] at this; omega

theorem requestIds_sublist (as : List Act) : (requestIds as).Sublist (requestFrameIds (handedOver as)) := by
  induction as with
  | nil => exact List.Sublist.refl _
  | cons a as ih =>
    cases a with
    | frame f r =>
      have e1 : handedOver (.frame f r :: as) = f :: handedOver as := rfl
      rw [e1]
      cases f with
      | request v =>
        have e2 : requestFrameIds (.request v :: handedOver as) = v.streamID :: requestFrameIds (handedOver as) := rfl
        rw [e2]
        simp only [requestIds]
        split
        · exact ih.cons₂ _
        · exact ih.cons _
      | _ => exact ih
    | _ => exact ih

/-- What an end receives are requests with different ids of the peer's. -/
theorem peer_ids {reg : Registry H} {client : Bool} {as : List Act} {s : St H} {tr : List (Handler.Ev H)}
    (h : Handler.run reg client as = .ok (s, tr)) (hc : callCount as < 2 ^ 30) (hs : subscribedOnce as)
    (bs : List Act) (q : List AnyFrame) (hw : sentFrames tr = handedOver bs ++ q) :
    (requestIds bs).Nodup ∧ ∀ y ∈ requestIds bs, ownId (!client) y = false := by
  have h1 := request_ids_nodup h hc hs
  have h2 : (requestIds bs).Sublist (requestFrameIds (sentFrames tr)) := by
    refine (requestIds_sublist bs).trans ?_
    rw [hw]
    exact ((List.sublist_append_left _ _).filter _).map _
  refine ⟨h1.sublist h2, fun y hy => ?_⟩
  obtain ⟨f, hf, rfl⟩ := List.mem_map.mp (h2.subset hy)
  obtain ⟨hf1, hf2⟩ := List.mem_filter.mp hf
  exact ownId_not client _ (request_ids_own h hc f hf1 hf2)

theorem Joined.usesA {regA regB : Registry H} {client : Bool} {s : Sys H} (hj : Joined regA regB client s)
    (ht : Tidy s) (x : UInt32) : uses (fun k => decide (k.2 = x)) s.a s.trA ≤ 1 := by
  obtain ⟨h1, h2⟩ := peer_ids hj.b ht.callsB ht.onceB s.histA s.ba hj.ba
  rw [Bool.not_not] at h2
  exact uses_id x hj.a ht.callsA h1 h2

theorem Joined.usesB {regA regB : Registry H} {client : Bool} {s : Sys H} (hj : Joined regA regB client s)
    (ht : Tidy s) (x : UInt32) : uses (fun k => decide (k.2 = x)) s.b s.trB ≤ 1 := by
  obtain ⟨h1, h2⟩ := peer_ids hj.a ht.callsA ht.onceA s.histB s.ab hj.ab
  exact uses_id x hj.b ht.callsB h1 h2

theorem Joined.openedA {regA regB : Registry H} {client : Bool} {s : Sys H} (hj : Joined regA regB client s)
    (ht : Tidy s) : (openedIds s.trA).Nodup := by
  obtain ⟨h1, h2⟩ := peer_ids hj.b ht.callsB ht.onceB s.histA s.ba hj.ba
  rw [Bool.not_not] at h2
  exact opened_nodup hj.a ht.callsA ht.onceA h1 h2

/-! ## Before the subscription -/

theorem mono_unsub_idle {reg : Registry H} {client : Bool} {as : List Act} {s : St H}
    {tr : List (Handler.Ev H)} (h : Handler.run reg client as = .ok (s, tr)) {j : Nat} {req : RequestPayload}
    {proc : Mono.Proc Pay} (ho : s.objs[j]? = some (.mono req proc)) (h0 : subscriptionsTo j as = 0) (a : Act)
    (ha : subscribesTo j a = false) : Idle j s (settle s (Handler.step s a)) := by
  have hi : j < s.objs.length := (List.getElem?_eq_some_iff.mp ho).1
  by_cases hact : actsOn s a = some j
  · have nop : Handler.step s a = .ok (s, []) → Idle j s (settle s (Handler.step s a)) := by
      intro h; rw [h]; exact idle_nop _ _ _ rfl
    cases a with
    | frame f r =>
      simp only [actsOn] at hact
      split at hact
      · have h1 := getStream_opened reg client as s tr h _ j hact
        have hm : f.streamID ∈ openedIds (evsOf j tr) :=
          List.mem_filterMap.mpr ⟨_, List.mem_filter.mpr ⟨h1, by simp [Handler.Ev.obj]⟩, rfl⟩
        have := mono_opened reg client as s tr h j req proc ho
        have := List.length_pos_of_mem hm
        omega
      · cases hact
    | run t ret =>
      simp only [actsOn] at hact
      cases ht : s.tasks[t]? with
      | none => rw [ht] at hact; cases hact
      | some task =>
        rw [ht] at hact
        have hto : task.obj = some j := hact
        simp only [Handler.step, ht]
        cases task with
        | request => cases hto
        | _ =>
          simp only [Task.obj, Option.some.injEq] at hto
          subst hto
          simp only [runTask, ho]
          exact idle_panic _ _
    | subscribeMono i inst =>
      simp only [actsOn, Option.some.injEq] at hact
      simp [subscribesTo, hact] at ha
    | call => cases hact
    | _ =>
      simp only [actsOn, Option.some.injEq] at hact
      subst hact
      exact nop (by simp only [Handler.step, ho])
  · exact idle_settle s a hi hact

/-- A call that is not subscribed stays as it is, and nothing happens on its behalf. -/
theorem mono_unsub {reg : Registry H} {client : Bool} {as : List Act} {s : St H} {tr : List (Handler.Ev H)}
    (h : Handler.run reg client as = .ok (s, tr)) {j : Nat} {req : RequestPayload}
    {proc : Mono.Proc Pay} (ho : s.objs[j]? = some (.mono req proc)) (he : evsOf j tr = []) (more : List Act) :
    ∀ {s' : St H} {tr' : List (Handler.Ev H)}, Handler.run reg client (as ++ more) = .ok (s', tr') →
    subscriptionsTo j (as ++ more) = 0 → s'.objs[j]? = some (.mono req proc) ∧ evsOf j tr' = [] := by
  induction more using snoc_induction with
  | nil =>
    intro s' tr' h' _
    rw [List.append_nil, h] at h'
    cases h'
    exact ⟨ho, he⟩
  | snoc more a ih =>
    intro s' tr' h' h0
    rw [← List.append_assoc] at h' h0
    obtain ⟨s1, t1, e, h2, h3, rfl⟩ := run_snoc_inv _ _ _ _ _ _ h'
    rw [subscriptionsTo_append] at h0
    have h01 : subscriptionsTo j (as ++ more) = 0 := by omega
    have h02 : subscribesTo j a = false := by
      have : subscriptionsTo j [a] = 0 := by omega
      cases hb : subscribesTo j a with
      | false => rfl
      | true => simp [subscriptionsTo, hb] at this
    obtain ⟨q1, q2⟩ := ih h2 h01
    obtain ⟨q3, q4⟩ := mono_unsub_idle h2 q1 h01 a h02 _ _ h3
    exact ⟨q3.trans q1, by rw [evsOf_append, q2, q4]; rfl⟩

/-! ## What arrives -/

/-- The result a frame carries for stream `id`. -/
def frameResult (id : UInt32) (f : AnyFrame) : Option (Mono.Sig Pay) := resultOf id (.frame f ⟨[], [], []⟩)

theorem withId_cons (x : UInt32) (f : AnyFrame) (fs : List AnyFrame) :
    withId x (f :: fs) = if f.streamID = x then f :: withId x fs else withId x fs := by
  by_cases h : f.streamID = x <;> simp [withId, h]

theorem withId_append (x : UInt32) (a b : List AnyFrame) : withId x (a ++ b) = withId x a ++ withId x b := by
  simp [withId]

theorem results_handedOver (id : UInt32) (as : List Act) :
    results id as = (withId id (handedOver as)).filterMap (frameResult id) := by
  induction as with
  | nil => rfl
  | cons a as ih =>
    cases a with
    | frame f r =>
      have e1 : handedOver (.frame f r :: as) = f :: handedOver as := rfl
      have e2 : results id (.frame f r :: as) = (frameResult id f).toList ++ results id as := by
        have : resultOf id (.frame f r) = frameResult id f := by cases f <;> rfl
        unfold results
        rw [List.filterMap_cons, this]
        cases frameResult id f <;> rfl
      rw [e1, e2, ih, withId_cons]
      by_cases hf : f.streamID = id
      · simp only [hf, if_true, List.filterMap_cons]
        cases frameResult id f <;> rfl
      · have : frameResult id f = none := by
          cases f with
          | payload v =>
            have : v.streamID ≠ id := hf
            simp [frameResult, resultOf, this]
          | error v =>
            have : v.streamID ≠ id := hf
            simp [frameResult, resultOf, this]
          | _ => rfl
        rw [this]
        simp [hf]
    | _ => exact ih

theorem noEmptyEnd_of (id : UInt32) (as : List Act)
    (h : ∀ f ∈ withId id (handedOver as), (frameResult id f).isSome = true) : noEmptyEnd id as := by
  induction as with
  | nil => trivial
  | cons a as ih =>
    cases a with
    | frame f r =>
      have e1 : handedOver (.frame f r :: as) = f :: handedOver as := rfl
      rw [e1, withId_cons] at h
      by_cases hf : f.streamID = id
      · have : (frameResult id f).isSome = true := h f (by simp [hf])
        left
        have e2 : resultOf id (.frame f r) = frameResult id f := by cases f <;> rfl
        rw [e2]; exact this
      · refine .inr ⟨by simp [endsEmpty, hf], ih ?_⟩
        simpa [hf] using h
    | _ => exact .inr ⟨rfl, ih h⟩

/-- What is left of an answer after it went over the wire: errors keep only the bytes of their
message. -/
def overWire : Mono.Sig Pay → Mono.Sig Pay
  | .error (some e) => .error (some (strOf (bytesOf e)))
  | x => x

theorem frameResult_reply (id : UInt32) (sig : Mono.Sig Pay) (f : AnyFrame) (h : f ∈ replyOf id sig) :
    replyOf id sig = [f] ∧ frameResult id f = some (overWire sig) := by
  cases sig with
  | success p => simp [replyOf] at h; subst h; simp [replyOf, frameResult, resultOf, overWire]
  | error e =>
    cases e with
    | none => cases h
    | some e => simp [replyOf] at h; subst h; simp [replyOf, frameResult, resultOf, overWire]
  | cancel => cases h

/-! ## The call -/

/-- The id the next call gets. -/
def callId (s : St H) : UInt32 := (nextID s.client s.streamIDs).2

/-- The request frame of a call with payload `p` and id `x`. -/
def requestOf (x : UInt32) (p : Pay) : RequestPayload := ⟨typeRequestResponse, x, p.metadata, p.data, false, true, 1⟩

theorem request_from {regA regB : Registry H} {client : Bool} {s : Sys H} (hJ : Joined regA regB client s)
    (ht : Tidy s) {j : Nat} {req : RequestPayload} {proc : Mono.Proc Pay}
    (ho : s.a.objs[j]? = some (.mono req proc)) {f : AnyFrame} {r : React} (hf : .frame f r ∈ s.histB)
    (hx : f.streamID = req.streamID) : f ∈ framesBy j s.trA := by
  have h1 : f ∈ sentFrames s.trA := by rw [hJ.ab]; exact List.mem_append_left _ (handedOver_mem hf)
  obtain ⟨b, hb⟩ := sent_source h1
  have := source_of_obj req.streamID hJ.a (hJ.usesA ht _) ho rfl b f hb hx
  subst this
  exact framesBy_mem hb

theorem mono_id_own {reg : Registry H} {client : Bool} {as : List Act} {s : St H} {tr : List (Handler.Ev H)}
    (h : Handler.run reg client as = .ok (s, tr)) (hc : callCount as < 2 ^ 30) {j : Nat} {req : RequestPayload}
    {proc : Mono.Proc Pay} (ho : s.objs[j]? = some (.mono req proc)) : ownId client req.streamID = true := by
  rcases mem_requestIds_of_key h _ (obj_key_mem (tr := tr) ho) with ⟨-, h2⟩ | ⟨h2, -⟩
  · exact (callIds_own client as hc).2 _ h2
  · cases h2

/-- Nothing is sent to a call that has not been subscribed. -/
theorem none_before {regA regB : Registry H} {client : Bool} {s : Sys H} (hJ : Joined regA regB client s)
    (ht : Tidy s) {j : Nat} {req : RequestPayload} {proc : Mono.Proc Pay}
    (ho : s.a.objs[j]? = some (.mono req proc)) (he : evsOf j s.trA = []) :
    withId req.streamID (sentFrames s.trB) = [] := by
  have none : ∀ f r, .frame f r ∈ s.histB → f.streamID = req.streamID → False := by
    intro f r h1 h2
    have := request_from hJ ht ho h1 h2
    rw [framesBy_nil_of_evsOf he] at this
    cases this
  rcases handled_frames req.streamID ⟨[], []⟩ hJ.b ht.callsB (hJ.usesB ht _)
      (ownId_not _ _ (mono_id_own hJ.a ht.callsA ho)) (fun f r h1 h2 => (none _ _ h1 h2).elim) with ⟨r, h1, -⟩ | ⟨h1, -⟩
  · have ran : ∀ {as1 as2 : List Act} {t : Nat} {ret : Ret} {s1 : St H} {t1 : List (Handler.Ev H)}
        {data md : Bytes} {n : UInt32},
        RanAt regB (!client) s.histB as1 as2 t ret s1 t1 .rr req.streamID data md n → False := by
      intro as1 as2 t ret s1 t1 data md n hr
      obtain ⟨f, r, q1, -, q2, -⟩ := task_origin as1 hr.before _ _ _ _ _ (List.mem_of_getElem? hr.task)
      exact none (.request f) r (by rw [hr.split]; exact List.mem_append_left _ q1) q2
    cases h1 with
    | rejected _ _ _ _ _ _ _ hr _ => exact (ran hr).elim
    | served _ _ _ _ _ _ _ hr _ => exact (ran hr).elim
  · exact h1

theorem monoEvs_nil_of_evsOf {j : Nat} {tr : List (Handler.Ev H)} (h : evsOf j tr = []) : monoEvs j tr = [] := by
  apply List.filterMap_eq_nil_iff.mpr
  intro e he
  cases e with
  | mono i x =>
    by_cases hij : i = j
    · have : Handler.Ev.mono i x ∈ evsOf j tr := List.mem_filter.mpr ⟨he, by simp [Handler.Ev.obj, hij]⟩
      rw [h] at this; cases this
    · simp [hij]
  | _ => rfl

/-- What is known about a call that was subscribed. -/
structure Called (regA regB : Registry H) (client : Bool) (s : Sys H) (j : Nat) (x : UInt32) (p : Pay)
    (inst : Mono.Installed) : Prop where
  joined : Joined regA regB client s
  own : ownId client x = true
  sent : withId x (sentFrames s.trA) = [.request (requestOf x p)]
  frames : (∃ r, Handled regB (!client) x p s.histB r ∧ withId x (sentFrames s.trB) = r.toList.flatMap (replyOf x)) ∨
    (withId x (sentFrames s.trB) = [] ∧ (∀ (i : Nat) (o : Obj), s.b.objs[i]? = some o → o.sid ≠ x) ∧
      ∀ f ∈ looseFrames s.trB, f.streamID ≠ x)
  seen : monoEvs j s.trA = outcome 0 inst ((withId x (handedOver s.histA)).filterMap (frameResult x))

theorem called {regA regB : Registry H} {client : Bool} {pre mid post : List Move} {p : Pay} {src : Src}
    {inst : Mono.Installed} {s0 s : Sys H} (h0 : System.run regA regB client pre = .ok s0)
    (h : System.run regA regB client (pre ++ .atA (.call .rr p src) :: mid ++
      .atA (.subscribeMono s0.a.objs.length inst) :: post) = .ok s) (ht : Tidy s) :
    Called regA regB client s s0.a.objs.length (callId s0.a) p inst := by
  have hJ := joined_run _ h
  have hJ0 := joined_run _ h0
  obtain ⟨s1, h1, h2⟩ := sys_append_ok _ _ h
  obtain ⟨s0', h3, h4⟩ := sys_append_ok _ _ h1
  rw [show System.runFrom (.init regA regB client) pre = .ok s0 from h0] at h3
  cases h3
  obtain ⟨s2, h5, h6⟩ := sys_cons_ok h4
  obtain ⟨s3, h7, h8⟩ := sys_cons_ok h2
  have ht1 : Tidy s1 := tidy_before _ h2 ht
  have hJ2 := joined_step _ hJ0 h5
  have hJ1 := joined_runFrom _ hJ2 h6
  generalize hjd : s0.a.objs.length = j at *
  -- the call
  simp only [System.step, System.isFrame, Bool.false_eq_true, if_false, System.moveA, Handler.step, settle] at h5
  have h5 := (Go.ok.inj h5).symm
  have ho2 : s2.a.objs[j]? = some (.mono (requestOf (callId s0.a) p) .init) := by
    rw [h5]
    show (s0.a.objs ++ _)[j]? = _
    rw [List.getElem?_append_right (by omega), hjd, Nat.sub_self]
    rfl
  have he2 : evsOf j s2.trA = [] := by
    rw [h5]
    show evsOf j (s0.trA ++ []) = []
    rw [List.append_nil]
    rcases k_history _ _ _ _ _ hJ0.a j with ⟨-, q⟩ | ⟨o, q, -⟩
    · exact q
    · rw [List.getElem?_eq_none (by omega)] at q; cases q
  -- the subscription
  simp only [System.step, System.isFrame, Bool.false_eq_true, if_false] at h7
  obtain ⟨⟨after, hafter⟩, -⟩ := hist_runFrom _ h8
  have hh3 : s3.histA = s1.histA ++ [.subscribeMono j inst] := by
    unfold System.moveA at h7
    split at h7
    · cases h7; rfl
    · cases h7
    · cases h7
  have hhist : s.histA = s1.histA ++ .subscribeMono j inst :: after := by rw [hafter, hh3]; simp
  have honce := ht.onceA j
  rw [hhist, subscriptionsTo_append] at honce
  have hone : subscriptionsTo j (.subscribeMono j inst :: after) = subscriptionsTo j after + 1 := by
    simp [subscriptionsTo, subscribesTo]
  rw [hone] at honce
  have hs0 : subscriptionsTo j s1.histA = 0 := by omega
  have hs1 : ∀ a ∈ after, subscribesTo j a = false := by
    intro a ha
    have : subscriptionsTo j after = 0 := by omega
    cases hb : subscribesTo j a with
    | false => rfl
    | true =>
      rw [subscriptionsTo, List.countP_eq_zero] at this
      exact absurd hb (this a ha)
  -- the state before the subscription
  obtain ⟨⟨more, hmore⟩, -⟩ := hist_runFrom _ h6
  have hrun1 := hJ1.a
  rw [hmore] at hrun1 hs0
  obtain ⟨ho1, he1⟩ := mono_unsub hJ2.a ho2 he2 more hrun1 hs0
  rw [← hmore] at hrun1 hs0
  have hnone : withId (callId s0.a) (handedOver s1.histA) = [] := by
    have := none_before hJ1 ht1 ho1 he1
    rw [hJ1.ba, withId_append] at this
    exact (List.append_eq_nil_iff.mp this).1
  -- from there on
  have hrun := hJ.a
  rw [hhist] at hrun
  unfold Handler.run at hrun hrun1
  rw [handler_runFrom_append, hrun1] at hrun
  obtain ⟨_, _, t2, q1, q2, q3⟩ := andThen_ok hrun
  cases q1
  have hclosed : .closed (callId s0.a) ∉ s1.trA := by
    intro hc
    obtain ⟨f, r, q4, q5⟩ := closed_received _ _ _ _ _ hJ1.a _ hc
    have : f ∈ withId (callId s0.a) (handedOver s1.histA) := List.mem_filter.mpr ⟨handedOver_mem q4, by simp [q5]⟩
    rw [hnone] at this; cases this
  have hopened : (openedIds (s1.trA ++ t2)).Nodup := by rw [← q3]; exact hJ.openedA ht
  -- the object at the end
  have hobj : ∃ proc, s.a.objs[j]? = some (.mono (requestOf (callId s0.a) p) proc) := by
    obtain ⟨o', q4, q5⟩ := (loc_runFrom j _ s1.a _ _ q2).1 _ ho1
    obtain ⟨proc, rfl⟩ := (m_run (es0 := []) ⟨⟨_, rfl⟩, (by simp), rfl⟩ q5).obj
    exact ⟨proc, q4⟩
  obtain ⟨proc, hobj⟩ := hobj
  have hown := mono_id_own hJ.a ht.callsA hobj
  -- the requests the peer received
  have hsentsub : ∀ f ∈ framesBy j s.trA, f = .request (requestOf (callId s0.a) p) := by
    intro f hf
    have q4 := (m_history _ _ _ _ _ hJ.a j _ _ hobj).frames
    rw [framesBy_evsOf] at q4
    rw [q4] at hf
    obtain ⟨_, -, q5⟩ := List.mem_map.mp hf
    exact q5.symm
  have hreq : ∀ f r, .frame (.request f) r ∈ s.histB → f.streamID = callId s0.a →
      kindOfType f.frameType = some .rr ∧ f.data = p.data ∧ f.metadata = p.metadata := by
    intro f r q4 q5
    have := hsentsub _ (request_from hJ ht hobj q4 q5)
    cases this
    exact ⟨rfl, rfl, rfl⟩
  have hframes := handled_frames (callId s0.a) p hJ.b ht.callsB (hJ.usesB ht _) (ownId_not _ _ hown) hreq
  -- what arrives carries results
  have hres : ∀ f ∈ withId (callId s0.a) (handedOver s.histA), (frameResult (callId s0.a) f).isSome = true := by
    intro f hf
    have hf : f ∈ withId (callId s0.a) (sentFrames s.trB) := by
      rw [hJ.ba, withId_append]; exact List.mem_append_left _ hf
    rcases hframes with ⟨r, -, q4⟩ | ⟨q4, -⟩
    · rw [q4] at hf
      obtain ⟨sig, -, q5⟩ := List.mem_flatMap.mp hf
      rw [(frameResult_reply _ _ _ q5).2]; rfl
    · rw [q4] at hf; cases hf
  have hrec : withId (callId s0.a) (handedOver s.histA) = withId (callId s0.a) (handedOver after) := by
    have : handedOver (.subscribeMono j inst :: after) = handedOver after := rfl
    rw [hhist, handedOver_append, withId_append, hnone, this, List.nil_append]
  have hne : noEmptyEnd (callId s0.a) after := noEmptyEnd_of _ _ (by rw [← hrec]; exact hres)
  obtain ⟨q4, q5⟩ := C62_outcome_partial regA client s1.histA after s1.a s.a s1.trA t2 j _ inst hJ1.a ho1 hclosed q2
    hopened hs1 hne
  refine ⟨hJ, hown, ?_, hframes, ?_⟩
  · rw [withId_of_obj (callId s0.a) hJ.a (hJ.usesA ht _) hobj rfl, q3]; exact q4
  · have e1 : monoEvs j s1.trA = [] := monoEvs_nil_of_evsOf he1
    rw [q3, monoEvs_append, e1, List.nil_append, q5, results_handedOver, hrec]
    rfl

end
end Verif.Props
