import Verif.Lemmas.Handler
import Verif.Props.Handler
import Verif.Props.Flux
import Verif.Props.Mono
/-
Property C57: what a responder sends for one request.
-/
set_option autoImplicit false
namespace Verif.Props
open Verif Frames Handler
open Verif.Invoke (Kind Registry)

section
variable {H : Type}

/-! ## Specification -/

/-- The frames sent on behalf of stream `j`. -/
def framesBy (j : Nat) (tr : List (Handler.Ev H)) : List AnyFrame :=
  tr.filterMap fun | .sent (some i) f => if i = j then some f else none | _ => none

/-- Frames that answer a request (a channel also asks its peer for elements and may cancel it). -/
def isReply : AnyFrame → Bool
  | .payload _ => true
  | .error _ => true
  | _ => false

/-- The only frame of an answered request/response request. -/
def singleReply (id : UInt32) (f : AnyFrame) : Prop :=
  (∃ p : Pay, f = .payload ⟨id, p.metadata, p.data, false, true, true⟩) ∨ ∃ msg, f = .error ⟨id, 0, msg⟩

/-- The frame of one element of a stream. -/
def elementFrame (id : UInt32) (p : Pay) : AnyFrame := .payload ⟨id, p.metadata, p.data, false, false, true⟩

/-- The frames that end a stream. -/
def endFrame (id : UInt32) (f : AnyFrame) : Prop :=
  f = .payload ⟨id, [], [], false, true, false⟩ ∨ ∃ msg, f = .error ⟨id, 0, msg⟩

/-- Elements in some order, then at most one frame that ends the stream, then nothing. -/
def streamReply (id : UInt32) (fs : List AnyFrame) : Prop :=
  ∃ ps t, fs = List.map (elementFrame id) ps ++ t ∧ (t = [] ∨ ∃ f, t = [f] ∧ endFrame id f)

/-- C57 as stated in English: for every history of an end of a connection that serves requests. -/
def C57_statement (H : Type) : Prop :=
  ∀ (reg : Registry H) (client : Bool) (as : List Act) (s : St H) (tr : List (Handler.Ev H)),
    Handler.run reg client as = .ok (s, tr) →
    (∀ j id m st, s.objs[j]? = some (.answer id m st) →
      framesBy j tr = [] ∨ ∃ f, framesBy j tr = [f] ∧ singleReply id f) ∧
    (∀ j k id out b inp, s.objs[j]? = some (.responder k id out b inp) →
      (∀ f ∈ framesBy j tr, f.streamID = id) ∧ streamReply id ((framesBy j tr).filter isReply))

/-! ## Projections -/

theorem framesBy_append (j : Nat) (a b : List (Handler.Ev H)) :
    framesBy j (a ++ b) = framesBy j a ++ framesBy j b := by simp [framesBy]

theorem framesBy_evsOf (j : Nat) (tr : List (Handler.Ev H)) : framesBy j (evsOf j tr) = framesBy j tr := by
  induction tr with
  | nil => rfl
  | cons e tr ih =>
    by_cases h : e.obj = some j
    · have : evsOf j (e :: tr) = e :: evsOf j tr := by simp [evsOf, h]
      rw [this]
      simp only [framesBy, List.filterMap_cons] at ih ⊢
      rw [ih]
    · rw [evsOf_cons_ne h]
      cases e
      case sent b f =>
        cases b with
        | none => simpa [framesBy] using ih
        | some i =>
          have : i ≠ j := by simpa [Handler.Ev.obj] using h
          simpa [framesBy, this] using ih
      all_goals simpa [framesBy] using ih

theorem framesBy_cons (j : Nat) (e : Handler.Ev H) (es : List (Handler.Ev H)) :
    framesBy j (e :: es) = framesBy j [e] ++ framesBy j es := framesBy_append j [e] es

/-- The frame the callbacks send for one signal. -/
def signalFrame (id : UInt32) : Flux.Ev Pay → List AnyFrame
  | .next p => [elementFrame id p]
  | .complete => [.payload ⟨id, [], [], false, true, false⟩]
  | .error (some e) => [.error ⟨id, 0, bytesOf e⟩]
  | _ => []

theorem framesBy_replyEvs (j : Nat) (id : UInt32) (es : List (Flux.Ev Pay)) :
    ∀ r : List (Handler.Ev H), replyEvs j id es = .ok r →
      framesBy j r = (fluxSignals es).flatMap (signalFrame id) := by
  induction es with
  | nil => intro r h; cases h; rfl
  | cons x es ih =>
    intro r h
    simp only [replyEvs] at h
    obtain ⟨a, ha, h⟩ := bind_ok_inv h
    obtain ⟨b, hb, h⟩ := bind_ok_inv h
    cases h
    rw [framesBy_append, ih _ hb]
    have : fluxSignals (x :: es) = fluxSignals [x] ++ fluxSignals es := fluxSignals_append [x] es
    rw [this, List.flatMap_append]
    congr 1
    unfold replyEv at ha
    split at ha <;> cases ha <;>
      simp [framesBy, fluxSignals, signalFrame, elementFrame, errorFrame]

theorem framesBy_demandEvs (j : Nat) (id : UInt32) (wrap : Flux.Ev Pay → Handler.Ev H)
    (hw : ∀ e, framesBy j [wrap e] = []) (es : List (Flux.Ev Pay)) :
    ∀ f ∈ framesBy j (demandEvs j id wrap es), f = .cancel ⟨id⟩ := by
  induction es with
  | nil => intro f hf; simp [demandEvs, framesBy] at hf
  | cons x es ih =>
    intro f hf
    cases x <;> simp only [demandEvs] at hf <;> rw [framesBy_cons, hw, List.nil_append] at hf
    case upCancel =>
      rw [framesBy_cons] at hf
      rcases List.mem_append.mp hf with h | h
      · simpa [framesBy] using h
      · exact ih f h
    all_goals exact ih f hf

/-! ## Request/response -/

/-- The frame for one outcome of the answering mono. -/
def outcomeFrame (id : UInt32) : Mono.Ev Pay → List AnyFrame
  | .success _ p => [.payload ⟨id, p.metadata, p.data, false, true, true⟩]
  | .error _ (some e) => [.error ⟨id, 0, bytesOf e⟩]
  | _ => []

theorem framesBy_answerEvs (j : Nat) (id : UInt32) (es : List (Mono.Ev Pay)) :
    ∀ r : List (Handler.Ev H), answerEvs j id es = .ok r →
      framesBy j r = (outcomesOnly es).flatMap (outcomeFrame id) := by
  induction es with
  | nil => intro r h; cases h; rfl
  | cons x es ih =>
    intro r h
    simp only [answerEvs] at h
    obtain ⟨a, ha, h⟩ := bind_ok_inv h
    obtain ⟨b, hb, h⟩ := bind_ok_inv h
    cases h
    rw [framesBy_append, ih _ hb]
    have : outcomesOnly (x :: es) = outcomesOnly [x] ++ outcomesOnly es :=
      List.filter_append (l₁ := [x]) (l₂ := es) ..
    rw [this, List.flatMap_append]
    congr 1
    cases x with
    | success i v => cases ha; simp [framesBy, outcomesOnly, outcomeFrame]
    | error i e => cases e <;> cases ha; simp [framesBy, outcomesOnly, outcomeFrame, errorFrame]
    | fin i sg => cases ha; rfl
    | notified i sg => cases ha; rfl

/-- The subscriber of an answering mono: open, or closed. -/
structure AnswerInv (m : MonoSrc) (st : Mono.State Pay) : Prop where
  cbs : st.callbacks = []
  subs : (m = .created → ∃ sb, st.subs = [sb] ∧ sb.inst = ⟨true, true, false⟩) ∧
    (∀ tx, m = .mapped tx → ∃ sb, st.subs = [sb] ∧ sb.inst = ⟨true, true, false⟩) ∧
    (∀ p, m = .just p → st.subs = []) ∧ (∀ e, m = .failed e → st.subs = [])

/-- Is the mono still to be resolved? -/
def unresolved (st : Mono.State Pay) : Bool :=
  match st.subs with
  | [sb] => !sb.closed
  | _ => false

/-- Has the application answered: by returning `Just` or `Error`, or by resolving the mono it
returned (and not cancelling it)? -/
def hasAnswered (m : MonoSrc) (st : Mono.State Pay) : Bool :=
  match m with
  | .just _ => true
  | .failed _ => true
  | _ => match st.subs with
    | [sb] => sb.closed && sb.signal != .cancel
    | _ => false

theorem signal_sub (st : Mono.State Pay) (sb : Mono.Sub Pay) (hs : st.subs = [sb])
    (hc : st.callbacks = []) (hi : sb.inst = ⟨true, true, false⟩) (sig : Mono.Sig Pay) :
    (∃ sb', (Mono.signal st 0 sig [] []).1.subs = [sb'] ∧ sb'.inst = ⟨true, true, false⟩ ∧
      sb'.closed = true ∧ sb'.signal = if sb.closed then sb.signal else
        match sig with | .success _ => .complete | .error _ => .error | .cancel => .cancel) ∧
    (Mono.signal st 0 sig [] []).1.callbacks = [] ∧
    (Mono.signal st 0 sig [] []).2 = if sb.closed then [] else
      match sig with | .success v => [.success 0 v] | .error e => [.error 0 e] | .cancel => [] := by
  obtain ⟨subs, cbs⟩ := st
  simp only at hs hc
  subst hs hc
  obtain ⟨closed, value, err, sg, inst⟩ := sb
  simp only at hi
  subst hi
  cases closed <;> cases sig <;>
    simp [Mono.signal, Mono.doFinally, Mono.notifyAll]

theorem mono_run_outcomes (m : MonoSrc) (x : Mono.Ev Pay) (hx : outcomesOnly [x] = [x]) :
    ∃ y, outcomesOnly (throughMonoMap m [x]) = [y] ∧ outcomesOnly [y] = [y] ∧
      ((∃ i p, y = .success i p) ∨ (∃ i e, x = .error i e ∧ y = .error i e) ∨
        ∃ i msg, y = .error i (some msg)) := by
  cases x with
  | success i p =>
    cases m with
    | mapped tx =>
      simp only [throughMonoMap, List.flatMap_cons, List.flatMap_nil, List.append_nil, Mono.mapEv]
      cases tx p with
      | ok d => exact ⟨.success i d, by simp [answerInst, outcomesOnly], rfl, .inl ⟨_, _, rfl⟩⟩
      | error e =>
        exact ⟨.error i (some e), by simp [answerInst, outcomesOnly], rfl, .inr (.inr ⟨_, _, rfl⟩)⟩
    | created => exact ⟨_, rfl, rfl, .inl ⟨_, _, rfl⟩⟩
    | just q => exact ⟨_, rfl, rfl, .inl ⟨_, _, rfl⟩⟩
    | failed e => exact ⟨_, rfl, rfl, .inl ⟨_, _, rfl⟩⟩
  | error i e => cases m <;> exact ⟨_, rfl, rfl, .inr (.inl ⟨_, _, rfl, rfl⟩)⟩
  | fin i s => simp [outcomesOnly] at hx
  | notified i s => simp [outcomesOnly] at hx

/-- A signal to an answering mono sends at most one frame. -/
theorem answer_frames (j : Nat) (id : UInt32) (m : MonoSrc) (x : Mono.Ev Pay)
    (hx : (∃ v, x = .success 0 v) ∨ ∃ e, x = .error 0 e)
    (es : List (Handler.Ev H)) (h : answerEvs j id (throughMonoMap m [x]) = .ok es) :
    ∃ f, framesBy j es = [f] ∧ singleReply id f := by
  rw [framesBy_answerEvs j id _ es h]
  have hx' : outcomesOnly [x] = [x] := by
    rcases hx with ⟨v, rfl⟩ | ⟨v, rfl⟩ <;> rfl
  obtain ⟨y, h1, -, h2⟩ := mono_run_outcomes m x hx'
  rw [h1]
  rcases h2 with ⟨i, p, rfl⟩ | ⟨i, e, rfl, rfl⟩ | ⟨i, msg, rfl⟩
  · exact ⟨_, rfl, .inl ⟨p, rfl⟩⟩
  · cases e with
    | none =>
      have : throughMonoMap m [(.error i none : Mono.Ev Pay)] = [.error i none] := by cases m <;> rfl
      rw [this] at h
      simp [answerEvs, answerEv, bind, Go.bind] at h
    | some msg => exact ⟨_, rfl, .inr ⟨_, rfl⟩⟩
  · exact ⟨_, rfl, .inr ⟨_, rfl⟩⟩

/-- What is known of an answering mono and the frames sent for it. -/
def RRInv (j : Nat) (id : UInt32) (m : MonoSrc) (o : Obj) (es : List (Handler.Ev H)) : Prop :=
  ∃ st, o = .answer id m st ∧ AnswerInv m st ∧
    if hasAnswered m st then ∃ f, framesBy j es = [f] ∧ singleReply id f else framesBy j es = []

theorem answer_none (j : Nat) (id : UInt32) (m : MonoSrc) (es : List (Handler.Ev H))
    (h : answerEvs j id (throughMonoMap m []) = .ok es) : framesBy j es = [] := by
  have : throughMonoMap m ([] : List (Mono.Ev Pay)) = [] := by cases m <;> rfl
  rw [framesBy_answerEvs _ _ _ _ h, this]; rfl

theorem rr_sub_step {j : Nat} {id : UInt32} {m : MonoSrc} {st : Mono.State Pay} {sb : Mono.Sub Pay}
    {es es' : List (Handler.Ev H)} {sig : Mono.Sig Pay} (hi : AnswerInv m st)
    (hm : (∃ tx, m = .mapped tx) ∨ m = .created)
    (hfr : if hasAnswered m st then ∃ f, framesBy j es = [f] ∧ singleReply id f else framesBy j es = [])
    (h : answerEvs j id (throughMonoMap m (Mono.signal st 0 sig [] []).2) = .ok es')
    (hs : st.subs = [sb]) (hin : sb.inst = ⟨true, true, false⟩) :
    RRInv j id m (.answer id m (Mono.signal st 0 sig [] []).1) (es ++ es') := by
  obtain ⟨⟨sb', h1, h2, h3, h6⟩, h4, h5⟩ := signal_sub st sb hs hi.cbs hin sig
  have hai : AnswerInv m (Mono.signal st 0 sig [] []).1 := by
    refine ⟨h4, fun _ => ⟨sb', h1, h2⟩, fun _ _ => ⟨sb', h1, h2⟩, ?_, ?_⟩
    · intro p hm; have := hi.subs.2.2.1 p hm; rw [hs] at this; cases this
    · intro p hm; have := hi.subs.2.2.2 p hm; rw [hs] at this; cases this
  refine ⟨_, rfl, hai, ?_⟩
  have ha : ∀ (st : Mono.State Pay) sb, st.subs = [sb] →
      hasAnswered m st = (sb.closed && sb.signal != .cancel) := by
    intro st sb hs
    rcases hm with ⟨tx, rfl⟩ | rfl <;> simp [hasAnswered, hs]
  rw [ha st sb hs] at hfr
  rw [ha _ sb' h1, h3, h6, framesBy_append]
  rw [h5] at h
  rcases (Bool.eq_false_or_eq_true sb.closed).symm with hcl | hcl
  · simp only [hcl, Bool.false_and, Bool.false_eq_true, if_false] at h hfr ⊢
    rw [hfr, List.nil_append]
    cases sig with
    | success v => simpa using answer_frames j id m _ (.inl ⟨v, rfl⟩) es' h
    | error e => simpa using answer_frames j id m _ (.inr ⟨e, rfl⟩) es' h
    | cancel => simpa using answer_none j id m es' h
  · simp only [hcl, if_true] at h hfr ⊢
    rw [answer_none j id m es' h, List.append_nil]
    exact hfr

theorem rr_step {j : Nat} {id : UInt32} {m : MonoSrc} {o o' : Obj} {ts ts' : List Task}
    {es es' : List (Handler.Ev H)} (inv : RRInv j id m o es) (h : CStep j o ts o' ts' es') :
    RRInv j id m o' (es ++ es') := by
  obtain ⟨st, rfl, hi, hf⟩ := inv
  cases h with
  | answer _ _ _ _ sig _ h =>
    have triv : st.subs = [] → RRInv j id m (.answer id m (Mono.signal st 0 sig [] []).1) (es ++ es') := by
      intro hs
      have e1 : Mono.signal st 0 sig [] [] = (st, []) := by simp [Mono.signal, hs]
      rw [e1] at h ⊢
      refine ⟨st, rfl, hi, ?_⟩
      rw [framesBy_append, answer_none j id m es' h, List.append_nil]; exact hf
    cases m with
    | created =>
      obtain ⟨sb, h1, h2⟩ := hi.subs.1 rfl
      exact rr_sub_step hi (.inr rfl) hf h h1 h2
    | mapped tx =>
      obtain ⟨sb, h1, h2⟩ := hi.subs.2.1 tx rfl
      exact rr_sub_step hi (.inl ⟨tx, rfl⟩) hf h h1 h2
    | just p => exact triv (hi.subs.2.2.1 p rfl)
    | failed e => exact triv (hi.subs.2.2.2 e rfl)
  | asked => exact ⟨st, rfl, hi, by simpa using hf⟩

theorem rr_run {j : Nat} {id : UInt32} {m : MonoSrc} {o o' : Obj} {ts ts' : List Task}
    {es0 es : List (Handler.Ev H)} (inv : RRInv j id m o es0) (h : CRun j o ts o' ts' es) :
    RRInv j id m o' (es0 ++ es) := by
  induction h with
  | refl => simpa using inv
  | perm _ _ _ _ _ _ ih => exact ih
  | step _ _ _ _ _ _ _ hs ih => rw [← List.append_assoc]; exact rr_step ih hs

theorem rr_born (j : Nat) (id : UInt32) (m : MonoSrc) (es : List (Handler.Ev H))
    (h : answerEvs j id (monoSubscribe m).2 = .ok es) :
    RRInv j id m (.answer id m (monoSubscribe m).1) es := by
  cases m with
  | created =>
    cases h
    exact ⟨_, rfl, ⟨rfl, fun _ => ⟨_, rfl, rfl⟩, (fun _ h => by cases h), (fun _ h => by cases h),
      fun _ h => by cases h⟩, rfl⟩
  | mapped tx =>
    cases h
    exact ⟨_, rfl, ⟨rfl, (fun h => by cases h), fun _ _ => ⟨_, rfl, rfl⟩, (fun _ h => by cases h),
      fun _ h => by cases h⟩, rfl⟩
  | just p =>
    refine ⟨_, rfl, ⟨rfl, (fun h => by cases h), (fun _ h => by cases h), (fun _ _ => rfl),
      fun _ h => by cases h⟩, ?_⟩
    exact answer_frames j id (.just p) (.success 0 p) (.inl ⟨_, rfl⟩) es h
  | failed e =>
    refine ⟨_, rfl, ⟨rfl, (fun h => by cases h), (fun _ h => by cases h), (fun _ h => by cases h),
      fun _ _ => rfl⟩, ?_⟩
    exact answer_frames j id (.failed e) (.error 0 e) (.inr ⟨_, rfl⟩) es h

/-! ## Streams and channels -/

def isSubscribe : Task → Bool
  | .subscribe .. => true
  | _ => false

/-- The events of the source a stream answers with: those of its subscriber, or the one error of
`flux.Error`. -/
def sourceEvs (f : Src) (ops : List (Flux.Op Pay)) : List (Flux.Ev Pay) :=
  match f with
  | .failed e => [.error e]
  | _ => (Flux.run replyInst [] ops).2

/-- Before and after the application's flux is subscribed to. -/
def OutInv (id : UInt32) (out : Option (Src × Flux.State)) (b : Bool) (ts : List Task)
    (fs : List AnyFrame) : Prop :=
  match out with
  | none => b = false ∧ fs.filter isReply = [] ∧ (∀ i f n, .firstRequest i f n ∉ ts) ∧
      ts.countP isSubscribe ≤ 1
  | some (f, st) => ts.countP isSubscribe = 0 ∧ (∀ i g n, .firstRequest i g n ∈ ts → g = f) ∧
      (b = true → f.noSubscription = false) ∧
      ∃ ops : List (Flux.Op Pay), st = (Flux.run replyInst [] ops).1 ∧
        fs.filter isReply = (fluxSignals (throughMap f (sourceEvs f ops))).flatMap (signalFrame id)

structure RSInv (j : Nat) (k : Kind) (id : UInt32) (o : Obj) (ts : List Task)
    (es : List (Handler.Ev H)) : Prop where
  obj : ∃ out b inp, o = .responder k id out b inp ∧ OutInv id out b ts (framesBy j es)
  ids : ∀ f ∈ framesBy j es, f.streamID = id

theorem outInv_tasks {id : UInt32} {out : Option (Src × Flux.State)} {b : Bool} {ts ts' : List Task}
    {fs fs' : List AnyFrame} (h : OutInv id out b ts fs)
    (hc : ts'.countP isSubscribe ≤ ts.countP isSubscribe)
    (hf : ∀ i f n, .firstRequest i f n ∈ ts' → .firstRequest i f n ∈ ts)
    (hfs : fs'.filter isReply = fs.filter isReply) : OutInv id out b ts' fs' := by
  unfold OutInv at h ⊢
  cases out with
  | none =>
    obtain ⟨h1, h2, h3, h4⟩ := h
    exact ⟨h1, hfs.trans h2, fun i f n hm => h3 i f n (hf i f n hm), by omega⟩
  | some x =>
    obtain ⟨h1, h2, h3, ops, h4, h5⟩ := h
    exact ⟨by omega, fun i g n hm => h2 i g n (hf i g n hm), h3, ops, h4, hfs.trans h5⟩

theorem demand_no_sub (j : Nat) (l : List (Flux.Ev Pay)) :
    (demandTasks j l).countP isSubscribe = 0 ∧ ∀ i f n, .firstRequest i f n ∉ demandTasks j l := by
  induction l with
  | nil => exact ⟨rfl, fun _ _ _ h => by cases h⟩
  | cons e l ih =>
    cases e
    case upRequest n => exact ⟨by simpa [demandTasks, isSubscribe] using ih.1, by simpa [demandTasks] using ih.2⟩
    all_goals exact ih

theorem signalFrame_reply (id : UInt32) (e : Flux.Ev Pay) :
    (signalFrame id e).filter isReply = signalFrame id e := by
  cases e
  case error x => cases x <;> rfl
  all_goals rfl

theorem signalFrame_id (id : UInt32) (e : Flux.Ev Pay) : ∀ f ∈ signalFrame id e, f.streamID = id := by
  intro f hf
  cases e
  case error x => cases x <;> simp [signalFrame] at hf; subst hf; rfl
  all_goals simp [signalFrame] at hf <;> subst hf <;> rfl

theorem signalFrames_reply (id : UInt32) (l : List (Flux.Ev Pay)) :
    (l.flatMap (signalFrame id)).filter isReply = l.flatMap (signalFrame id) := by
  induction l with
  | nil => rfl
  | cons e l ih => rw [List.flatMap_cons, List.filter_append, ih, signalFrame_reply]

theorem signalFrames_id (id : UInt32) (l : List (Flux.Ev Pay)) :
    ∀ f ∈ l.flatMap (signalFrame id), f.streamID = id := by
  intro f hf
  obtain ⟨e, -, h⟩ := List.mem_flatMap.mp hf
  exact signalFrame_id id e f h

theorem throughMap_append (f : Src) (a b : List (Flux.Ev Pay)) :
    throughMap f (a ++ b) = throughMap f a ++ throughMap f b := by
  cases f <;> simp [throughMap]

/-- One more operation on the subscriber. -/
theorem outInv_op {id : UInt32} {f : Src} {st : Flux.State} {b b' : Bool} {ts ts' : List Task}
    {fs fs' : List AnyFrame} (op : Flux.Op Pay) (h : OutInv id (some (f, st)) b ts fs)
    (hn : f.noSubscription = false) (hc : ts'.countP isSubscribe ≤ ts.countP isSubscribe)
    (hf : ∀ i g n, .firstRequest i g n ∈ ts' → .firstRequest i g n ∈ ts)
    (hfs : fs' = (fluxSignals (throughMap f (Flux.step st op).2)).flatMap (signalFrame id)) :
    OutInv id (some (f, (Flux.step st op).1)) b' ts' (fs ++ fs') := by
  obtain ⟨h1, h2, h3, ops, h4, h5⟩ := h
  refine ⟨by omega, fun i g n hm => h2 i g n (hf i g n hm), fun _ => hn, ops ++ [op], ?_, ?_⟩
  · rw [flux_run_snoc, ← h4]
  · rw [List.filter_append, h5, hfs, signalFrames_reply, ← List.flatMap_append, ← fluxSignals_append,
      ← throughMap_append]
    have : sourceEvs f ops ++ (Flux.step st op).2 = sourceEvs f (ops ++ [op]) := by
      cases f
      case failed e => simp [Src.noSubscription] at hn
      all_goals simp only [sourceEvs, flux_run_snoc, ← h4]
    rw [this]

theorem rs_step {j : Nat} {k : Kind} {id : UInt32} {o o' : Obj} {ts ts' : List Task}
    {es es' : List (Handler.Ev H)} (inv : RSInv j k id o ts es) (h : CStep j o ts o' ts' es') :
    RSInv j k id o' ts' (es ++ es') := by
  obtain ⟨⟨out, b, inp, rfl, hi⟩, hid⟩ := inv
  have ids : ∀ l, framesBy j es' = List.flatMap (signalFrame id) l →
      ∀ f ∈ framesBy j (es ++ es'), f.streamID = id := by
    intro l hl f hf
    rw [framesBy_append] at hf
    rcases List.mem_append.mp hf with h | h
    · exact hid f h
    · rw [hl] at h; exact signalFrames_id id l f h
  have quiet : ∀ out b inp' ts', OutInv id out b ts (framesBy j es) →
      ts'.countP isSubscribe ≤ ts.countP isSubscribe →
      (∀ i f n, .firstRequest i f n ∈ ts' → .firstRequest i f n ∈ ts) →
      (∀ f ∈ framesBy j es', f.streamID = id ∧ isReply f = false) →
      RSInv j k id (.responder k id out b inp') ts' (es ++ es') := by
    intro out b inp' ts' hi hc hf hq
    refine ⟨⟨out, b, inp', rfl, ?_⟩, ?_⟩
    · refine outInv_tasks hi hc hf ?_
      rw [framesBy_append, List.filter_append]
      have : (framesBy j es').filter isReply = [] :=
        List.filter_eq_nil_iff.mpr fun f hf => by simp [(hq f hf).2]
      rw [this, List.append_nil]
    · intro f hf
      rw [framesBy_append] at hf
      rcases List.mem_append.mp hf with h | h
      · exact hid f h
      · exact (hq f h).1
  have demand : ∀ (wrap : Flux.Ev Pay → Handler.Ev H) (l : List (Flux.Ev Pay)),
      (∀ e, framesBy j [wrap e] = []) →
      ∀ f ∈ framesBy j (demandEvs j id wrap l), f.streamID = id ∧ isReply f = false := by
    intro wrap l hw f hf
    rw [framesBy_demandEvs j id wrap hw l f hf]; exact ⟨rfl, rfl⟩
  cases h with
  | outSub _ _ _ _ _ f n ts _ h =>
    have hfr := framesBy_replyEvs j id _ _ h
    cases out with
    | some x =>
      obtain ⟨h1, -⟩ := hi
      simp [isSubscribe] at h1
    | none =>
      obtain ⟨h1, h2, h3, h4⟩ := hi
      have hc : ts.countP isSubscribe = 0 := by
        simp only [List.countP_cons, isSubscribe, if_true] at h4; omega
      refine ⟨⟨_, _, _, rfl, ⟨?_, ?_, ?_, [], ?_, ?_⟩⟩, ids _ hfr⟩
      · simp [List.countP_append, hc, isSubscribe]
      · intro i g n' hm
        rcases List.mem_append.mp hm with hm | hm
        · exact absurd (List.mem_cons_of_mem _ hm) (h3 i g n')
        · simp at hm; exact hm.2.1
      · intro hb; rw [h1] at hb; cases hb
      · cases f <;> rfl
      · rw [framesBy_append, List.filter_append, h2, hfr, signalFrames_reply, List.nil_append]
        cases f <;> rfl
  | outFirst _ _ g st _ _ f n ts _ hf h =>
    have hg : f = g := by
      obtain ⟨-, h2, -⟩ := hi
      exact h2 j f n (by simp)
    subst hg
    have hfr := framesBy_replyEvs j id _ _ h
    refine ⟨⟨_, _, _, rfl, ?_⟩, ids _ hfr⟩
    rw [framesBy_append]
    exact outInv_op (.call (.request n.toNat)) hi hf (by simp [isSubscribe])
      (fun i g n hm => List.mem_cons_of_mem _ hm) hfr
  | outReq _ _ f st _ n ts _ h =>
    have hf : f.noSubscription = false := hi.2.2.1 rfl
    have hfr := framesBy_replyEvs j id _ _ h
    refine ⟨⟨_, _, _, rfl, ?_⟩, ids _ hfr⟩
    rw [framesBy_append]
    exact outInv_op (.call (.request n)) hi hf (by simp [isSubscribe])
      (fun i g n hm => List.mem_cons_of_mem _ hm) hfr
  | out _ _ f st _ _ ts _ op hf h =>
    have hfr := framesBy_replyEvs j id _ _ h
    refine ⟨⟨_, _, _, rfl, ?_⟩, ids _ hfr⟩
    rw [framesBy_append]
    exact outInv_op op.op hi hf (Nat.le_refl _) (fun i g n hm => hm) hfr
  | inp _ _ _ _ st ts op _ =>
    refine quiet _ _ _ _ hi ?_ ?_ (demand (.inp j) _ (fun _ => rfl))
    · rw [List.countP_append, (demand_no_sub j _).1]; omega
    · intro i f n hm
      exact (List.mem_append.mp hm).resolve_right ((demand_no_sub j _).2 i f n)
  | inpSub =>
    refine quiet _ _ _ _ hi ?_ ?_ (demand (.inp j) _ (fun _ => rfl))
    · rw [List.countP_append, (demand_no_sub j _).1]; omega
    · intro i f n hm
      exact (List.mem_append.mp hm).resolve_right ((demand_no_sub j _).2 i f n)
  | inpUp _ _ _ _ _ n ts =>
    refine quiet _ _ _ _ hi (by simp [isSubscribe]) (fun i f n hm => List.mem_cons_of_mem _ hm) ?_
    intro f hf
    simp [framesBy] at hf
    subst hf; exact ⟨rfl, rfl⟩
  | asked =>
    refine quiet _ _ _ _ hi (by simp [List.countP_append, isSubscribe]) ?_ (by simp [framesBy])
    intro i f n hm
    simpa using hm

theorem rs_run {j : Nat} {k : Kind} {id : UInt32} {o o' : Obj} {ts ts' : List Task}
    {es0 es : List (Handler.Ev H)} (inv : RSInv j k id o ts es0) (h : CRun j o ts o' ts' es) :
    RSInv j k id o' ts' (es0 ++ es) := by
  induction h with
  | refl => simpa using inv
  | perm _ _ _ _ _ hp ih =>
    obtain ⟨⟨out, b, inp, h1, h2⟩, h3⟩ := ih
    exact ⟨⟨out, b, inp, h1, outInv_tasks h2 (by rw [hp.countP_eq]; omega)
      (fun i f n hm => hp.mem_iff.mpr hm) rfl⟩, h3⟩
  | step _ _ _ _ _ _ _ hs ih => rw [← List.append_assoc]; exact rs_step ih hs

/-! ## Histories -/

/-- The kind of a stream object. -/
def objTag : Obj → Nat
  | .answer .. => 0
  | .responder .. => 1
  | .mono .. => 2
  | .flux .. => 3

theorem tag_step {j : Nat} {o o' : Obj} {ts ts' : List Task} {es : List (Handler.Ev H)}
    (h : CStep j o ts o' ts' es) : objTag o' = objTag o := by
  cases h <;> rfl

theorem tag_run {j : Nat} {o o' : Obj} {ts ts' : List Task} {es : List (Handler.Ev H)}
    (h : CRun j o ts o' ts' es) : objTag o' = objTag o := by
  induction h with
  | refl => rfl
  | perm _ _ _ _ _ _ ih => exact ih
  | step _ _ _ _ _ _ _ hs ih => exact (tag_step hs).trans ih

theorem framesBy_born {j i : Nat} {id : UInt32} {es : List (Handler.Ev H)} (h : es = [.opened id i] ∨ es = []) :
    framesBy j es = [] := by
  rcases h with rfl | rfl <;> rfl

theorem rs_born (j : Nat) (k : Kind) (id : UInt32) (ts : List Task) (es : List (Handler.Ev H)) (ht : ts.countP isSubscribe ≤ 1)
    (hf : ∀ i f n, .firstRequest i f n ∉ ts) (he : framesBy j es = []) :
    RSInv j k id (.responder k id none false none) ts es :=
  ⟨⟨none, false, none, rfl, rfl, by rw [he]; rfl, hf, ht⟩, by simp [he]⟩

/-- Every request/response request being answered. -/
theorem rr_history (reg : Registry H) (client : Bool) (as : List Act) (s : St H)
    (tr : List (Handler.Ev H)) (h : Handler.run reg client as = .ok (s, tr)) (j : Nat) (id : UInt32)
    (m : MonoSrc) (st : Mono.State Pay) (ho : s.objs[j]? = some (.answer id m st)) :
    RRInv j id m (.answer id m st) (evsOf j tr) := by
  rcases Handler.history reg client as s tr h j with ⟨h1, -⟩ | ⟨o0, ts0, es0, o, es, hb, ho', hr, he⟩
  · rw [ho] at h1; cases h1
  · rw [ho] at ho'; cases ho'
    have ht := tag_run hr
    cases hb with
    | answer id' m' _ hb =>
      have := rr_run (rr_born j id' m' es0 hb) hr
      obtain ⟨st', e, -⟩ := this
      cases e
      rw [he]
      exact rr_run (rr_born j id m es0 hb) hr
    | _ => cases ht

/-- Every stream request, channel or fire-and-forget request being answered. -/
theorem rs_history (reg : Registry H) (client : Bool) (as : List Act) (s : St H)
    (tr : List (Handler.Ev H)) (h : Handler.run reg client as = .ok (s, tr)) (j : Nat) (k : Kind)
    (id : UInt32) (out : Option (Src × Flux.State)) (b : Bool) (inp : Option Flux.State)
    (ho : s.objs[j]? = some (.responder k id out b inp)) :
    RSInv j k id (.responder k id out b inp) (tasksOf j s.tasks) (evsOf j tr) := by
  rcases Handler.history reg client as s tr h j with ⟨h1, -⟩ | ⟨o0, ts0, es0, o, es, hb, ho', hr, he⟩
  · rw [ho] at h1; cases h1
  · rw [ho] at ho'; cases ho'
    have ht := tag_run hr
    have fin : ∀ k' id' ts', ts'.countP isSubscribe ≤ 1 → (∀ i f n, .firstRequest i f n ∉ ts') →
        CRun j (.responder k' id' none false none) ts' (.responder k id out b inp) (tasksOf j s.tasks) es →
        framesBy j es0 = [] →
        RSInv j k id (.responder k id out b inp) (tasksOf j s.tasks) (evsOf j tr) := by
      intro k' id' ts' h1 h2 hr h3
      have := rs_run (rs_born j k' id' ts' es0 h1 h2 h3) hr
      obtain ⟨⟨_, _, _, e, -⟩, -⟩ := this
      cases e
      rw [he]
      exact rs_run (rs_born j k id ts' es0 h1 h2 h3) hr
    cases hb with
    | fnf id' _ hes => exact fin _ _ _ (by simp) (by simp) hr (framesBy_born hes)
    | stream k' id' f n _ _ hes => exact fin _ _ _ (by simp [isSubscribe]) (by simp) hr (framesBy_born (hes.imp_right And.right))
    | _ => cases ht

/-! ## C57 -/

/-- A transform that fails on some element, and none at all. -/
def failsOnOne : Pay → Except String Pay := fun p => if p.data = [1] then .error "bad" else .ok p

/-- A stream handler returns a mapped flux whose transform fails on the first element. -/
def mappedFailure : List Act :=
  [.frame (.request ⟨6, 1, eightZeros, [], false, false, 5⟩) noReact, .run 0 ⟨.created, .mapped failsOnOne, true⟩,
   .run 0 retCreated, .run 0 retCreated, .out 0 (.next ⟨[1], []⟩), .out 0 (.next ⟨[2], []⟩), .out 0 .complete]

/-- C57 fails: after the error frame an element frame and a second terminal frame are sent (C28). -/
theorem C57_mapped_violated :
    framesBy 0 (traceOf (Handler.run oneHandler false mappedFailure)) =
      [.error ⟨1, 0, bytesOf "bad"⟩, elementFrame 1 ⟨[2], []⟩, .payload ⟨1, [], [], false, true, false⟩] := by
  decide +kernel

def objAfter (x : Go (Out H)) (j : Nat) : Option Obj := match x with | .ok (s, _) => s.objs[j]? | _ => none

theorem objAfter_ok (x : Go (Out H)) (j : Nat) (o : Obj) (h : objAfter x j = some o) :
    ∃ s, x = .ok (s, traceOf x) ∧ s.objs[j]? = some o := by
  cases x with
  | ok p => exact ⟨p.1, rfl, h⟩
  | err m => cases h
  | panic => cases h

theorem not_streamReply (id : UInt32) (msg : Bytes) (p : Pay) (fs : List AnyFrame) :
    ¬ streamReply id (.error ⟨id, 0, msg⟩ :: elementFrame id p :: fs) := by
  rintro ⟨ps, t, h, ht⟩
  cases ps with
  | nil =>
    rw [List.map_nil, List.nil_append] at h
    rcases ht with rfl | ⟨f, rfl, -⟩ <;> cases h
  | cons q ps => cases h

theorem C57_replies_violated : ¬ C57_statement Unit := by
  intro h
  obtain ⟨st, hst⟩ : ∃ st, objAfter (Handler.run oneHandler false mappedFailure) 0 =
      some (.responder .rs 1 (some (.mapped failsOnOne, st)) true none) := ⟨_, rfl⟩
  obtain ⟨s, h1, h2⟩ := objAfter_ok _ _ _ hst
  have := ((h oneHandler false mappedFailure s _ h1).2 0 _ _ _ _ _ h2).2
  rw [C57_mapped_violated] at this
  exact not_streamReply _ _ _ _ this

/-- C57 for request/response: one frame, with the id of the request, once the application has
answered (returned `Just` or `Error`, or resolved the mono it returned); none before. -/
theorem C57_request_response (reg : Registry H) (client : Bool) (as : List Act) (s : St H)
    (tr : List (Handler.Ev H)) (h : Handler.run reg client as = .ok (s, tr)) (j : Nat) (id : UInt32)
    (m : MonoSrc) (st : Mono.State Pay) (ho : s.objs[j]? = some (.answer id m st)) :
    if hasAnswered m st then ∃ f, framesBy j tr = [f] ∧ singleReply id f else framesBy j tr = [] := by
  obtain ⟨st', e, -, hf⟩ := rr_history reg client as s tr h j id m st ho
  cases e
  rwa [framesBy_evsOf] at hf

/-- C57 for request/response: which frame. A mono the application returned is resolved with the
payload given, mapped if it was mapped. -/
theorem C57_request_response_content (reg : Registry H) (client : Bool) (as : List Act) (s s' : St H)
    (tr e : List (Handler.Ev H)) (h : Handler.run reg client as = .ok (s, tr)) (j : Nat) (id : UInt32)
    (m : MonoSrc) (st : Mono.State Pay) (ho : s.objs[j]? = some (.answer id m st))
    (hu : unresolved st = true) (sig : Mono.Sig Pay)
    (hs : Handler.step s (.answer j sig) = .ok (s', e)) :
    framesBy j e = match sig with
      | .success p => (match m with
        | .mapped tx => (match tx p with
          | .ok q => [.payload ⟨id, q.metadata, q.data, false, true, true⟩]
          | .error msg => [.error ⟨id, 0, bytesOf msg⟩])
        | _ => [.payload ⟨id, p.metadata, p.data, false, true, true⟩])
      | .error msg => [.error ⟨id, 0, bytesOf (msg.getD "")⟩]
      | .cancel => [] := by
  obtain ⟨st', e', hi, -⟩ := rr_history reg client as s tr h j id m st ho
  cases e'
  simp only [Handler.step, ho] at hs
  obtain ⟨es, hr, hs⟩ := bind_ok_inv hs
  cases hs
  have hsub : ∃ sb, st.subs = [sb] ∧ sb.inst = ⟨true, true, false⟩ := by
    cases m with
    | created => exact hi.subs.1 rfl
    | mapped tx => exact hi.subs.2.1 tx rfl
    | just p => simp [unresolved, hi.subs.2.2.1 p rfl] at hu
    | failed e => simp [unresolved, hi.subs.2.2.2 e rfl] at hu
  obtain ⟨sb, h1, h2⟩ := hsub
  have hcl : sb.closed = false := by simpa [unresolved, h1] using hu
  obtain ⟨-, -, h5⟩ := signal_sub st sb h1 hi.cbs h2 sig
  rw [h5, if_neg (by simp [hcl])] at hr
  rw [framesBy_answerEvs _ _ _ _ hr]
  cases sig with
  | success p =>
    cases m with
    | mapped tx =>
      simp only [throughMonoMap, List.flatMap_cons, List.flatMap_nil, List.append_nil, Mono.mapEv]
      cases tx p <;> simp [answerInst, outcomesOnly, outcomeFrame]
    | _ => simp [throughMonoMap, outcomesOnly, outcomeFrame]
  | error msg =>
    have : throughMonoMap m [(.error 0 msg : Mono.Ev Pay)] = [.error 0 msg] := by cases m <;> rfl
    rw [this] at hr ⊢
    cases msg with
    | none => simp [answerEvs, answerEv, bind, Go.bind] at hr
    | some msg => simp [outcomesOnly, outcomeFrame]
  | cancel => cases m <;> rfl

/-- A transform that never fails. -/
def neverFails (f : Src) : Prop := ∀ tx, f = .mapped tx → ∀ p, ∃ q, tx p = .ok q

theorem signals_through {f : Src} (hf : neverFails f) (vs : List Pay) (t : List (Flux.Ev Pay))
    (ht : t = [] ∨ t = [.complete] ∨ ∃ e, t = [.error e]) (l : List (Flux.Ev Pay))
    (hl : fluxSignals l = vs.map .next ++ t) :
    ∃ vs', fluxSignals (throughMap f l) = List.map .next vs' ++ t := by
  cases f with
  | mapped tx =>
    have key : fluxSignals (throughMap (.mapped tx) l) =
        (fluxSignals l).flatMap (fun e => fluxSignals (Flux.mapEv tx replyInst e)) := by
      clear hl
      induction l with
      | nil => rfl
      | cons e l ih =>
        simp only [throughMap, List.flatMap_cons] at ih ⊢
        rw [fluxSignals_append, ih]
        have : fluxSignals (e :: l) = fluxSignals [e] ++ fluxSignals l := fluxSignals_append [e] l
        rw [this, List.flatMap_append]
        congr 1
        cases e
        case next v => simp [fluxSignals]
        all_goals rfl
    rw [key, hl, List.flatMap_append]
    have ht' : t.flatMap (fun e => fluxSignals (Flux.mapEv tx replyInst e)) = t := by
      rcases ht with rfl | rfl | ⟨e, rfl⟩ <;> rfl
    rw [ht']
    clear hl key
    induction vs with
    | nil => exact ⟨[], rfl⟩
    | cons v vs ih =>
      obtain ⟨vs', ih⟩ := ih
      obtain ⟨q, hq⟩ := hf tx rfl v
      refine ⟨q :: vs', ?_⟩
      simp only [List.map_cons, List.flatMap_cons, List.append_assoc, ih]
      simp [Flux.mapEv, hq, replyInst, fluxSignals]
  | created => exact ⟨vs, hl⟩
  | failed e => exact ⟨vs, hl⟩

/-- C57 for stream, channel and fire-and-forget requests, up to mapped fluxes whose transform
fails: all frames carry the id of the request; the replies are element frames, then at most one
frame that ends the stream, then nothing. Missing: mapped fluxes with a failing transform, which
violate it. -/
theorem C57_stream_partial (reg : Registry H) (client : Bool) (as : List Act) (s : St H)
    (tr : List (Handler.Ev H)) (h : Handler.run reg client as = .ok (s, tr)) (j : Nat) (k : Kind)
    (id : UInt32) (out : Option (Src × Flux.State)) (b : Bool) (inp : Option Flux.State)
    (ho : s.objs[j]? = some (.responder k id out b inp)) :
    (∀ f ∈ framesBy j tr, f.streamID = id) ∧
    ((∀ f st, out = some (f, st) → neverFails f) →
      streamReply id ((framesBy j tr).filter isReply)) := by
  obtain ⟨⟨out', b', inp', e, hi⟩, hid⟩ := rs_history reg client as s tr h j k id out b inp ho
  cases e
  rw [framesBy_evsOf] at hid hi
  refine ⟨hid, fun hn => ?_⟩
  cases out with
  | none => rw [hi.2.1]; exact ⟨[], [], rfl, .inl rfl⟩
  | some x =>
    obtain ⟨f, st⟩ := x
    obtain ⟨-, -, -, ops, -, h5⟩ := hi
    rw [h5]
    obtain ⟨vs, t, hg, ht⟩ : ∃ (vs : List Pay) (t : List (Flux.Ev Pay)),
        fluxSignals (sourceEvs f ops) = vs.map .next ++ t ∧
        (t = [] ∨ t = [.complete] ∨ ∃ e, t = [.error e]) := by
      cases f
      case failed e => exact ⟨[], [.error e], rfl, .inr (.inr ⟨e, rfl⟩)⟩
      all_goals exact C26_flux_grammar replyInst [] ops
    obtain ⟨vs', h6⟩ := signals_through (hn f st rfl) vs t ht _ hg
    rw [h6, List.flatMap_append]
    refine ⟨vs', t.flatMap (signalFrame id), ?_, ?_⟩
    · congr 1
      clear h6
      induction vs' with
      | nil => rfl
      | cons v vs ih => simp only [List.map_cons, List.flatMap_cons, ih]; rfl
    · rcases ht with rfl | rfl | ⟨e, rfl⟩
      · exact .inl rfl
      · exact .inr ⟨_, rfl, .inl rfl⟩
      · cases e with
        | none => exact .inl rfl
        | some e => exact .inr ⟨_, rfl, .inr ⟨_, rfl⟩⟩

/-- C57 for streams: which frames, and so in which order. Each signal of the source of the flux the
application returned is sent at once, as it is, unless the stream is over. -/
theorem C57_stream_content (reg : Registry H) (client : Bool) (as : List Act) (s s' : St H)
    (tr e : List (Handler.Ev H)) (h : Handler.run reg client as = .ok (s, tr)) (j : Nat) (k : Kind)
    (id : UInt32) (st : Flux.State) (b : Bool) (inp : Option Flux.State)
    (ho : s.objs[j]? = some (.responder k id (some (.created, st)) b inp)) (op : SrcOp)
    (hs : Handler.step s (.out j op) = .ok (s', e)) :
    framesBy j e = if st.closed then [] else match op with
      | .next p => [elementFrame id p]
      | .complete => [.payload ⟨id, [], [], false, true, false⟩]
      | .error msg => [.error ⟨id, 0, bytesOf (msg.getD "")⟩]
      | .onSubscribe _ => [] := by
  obtain ⟨⟨out', b', inp', e', hi⟩, hid⟩ := rs_history reg client as s tr h j k id _ b inp ho
  cases e'
  obtain ⟨-, -, -, ops, h4, -⟩ := hi
  simp only [Handler.step, ho, Src.noSubscription, Bool.false_eq_true, if_false] at hs
  obtain ⟨hr, -⟩ := onOut_ok hs
  rw [framesBy_replyEvs _ _ _ _ hr]
  have sp := (flux_step_spec st op.op).signals
  have hin : st.inst = replyInst := by rw [h4]; exact (flux_state replyInst [] ops).1
  simp only [throughMap] at hr ⊢
  rw [sp, hin]
  rcases (Bool.eq_false_or_eq_true st.closed).symm with hcl | hcl
  · simp only [hcl, Bool.false_eq_true, if_false]
    cases op with
    | next p => rfl
    | complete => rfl
    | error msg =>
      cases msg with
      | some msg => rfl
      | none =>
        exfalso
        simp [SrcOp.op, Flux.step, Flux.error, hcl, hin, replyInst, replyEvs, replyEv, bind, Go.bind] at hr
    | onSubscribe c => rfl
  · simp only [hcl, if_true]; rfl

/-- A served stream request with an element and an end, and a request/response request. -/
def servedBoth : List Act :=
  [.frame (.request ⟨6, 1, eightZeros, [], false, false, 5⟩) noReact, .run 0 retCreated,
   .run 0 retCreated, .run 0 retCreated, .out 0 (.next ⟨[7], []⟩), .out 0 .complete, .out 0 (.next ⟨[8], []⟩),
   .frame (.request ⟨4, 3, eightZeros, [], false, false, 5⟩) noReact, .run 0 retCreated,
   .answer 1 (.success ⟨[9], []⟩), .answer 1 (.error (some "late"))]

example : framesBy 0 (traceOf (Handler.run oneHandler false servedBoth)) =
    [elementFrame 1 ⟨[7], []⟩, .payload ⟨1, [], [], false, true, false⟩] ∧
    framesBy 1 (traceOf (Handler.run oneHandler false servedBoth)) =
    [.payload ⟨3, [], [9], false, true, true⟩] := by decide +kernel

/-- Before the last two steps the mono is unresolved, and before the last of the stream's elements its flux is open. -/
example : (match (Handler.run oneHandler false (servedBoth.take 9) : Go (Out Unit)) with
    | .ok (s, _) => (match (s.objs[1]? : Option Handler.Obj) with | some (.answer id _ st) => id == 3 && unresolved st | _ => false)
    | _ => false) = true ∧
    (match (Handler.run oneHandler false (servedBoth.take 4) : Go (Out Unit)) with
    | .ok (s, _) =>
      (match (s.objs[0]? : Option Handler.Obj) with
      | some (.responder .rs id (some (.created, st)) _ _) => id == 1 && !st.closed
      | _ => false)
    | _ => false) = true := by decide +kernel

end
end Verif.Props
