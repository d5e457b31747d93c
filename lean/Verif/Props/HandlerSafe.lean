import Verif.Props.HandlerCalls
/-
Property C58: which frames crash the handler, and that others do not.
-/
set_option autoImplicit false
namespace Verif.Props
open Verif Frames Handler
open Verif.Invoke (Kind Registry)

section
variable {H : Type}

/-- C58 as stated in English: no history panics. -/
def C58_statement (H : Type) : Prop :=
  ∀ (reg : Registry H) (client : Bool) (as : List Act), Handler.run reg client as ≠ .panic

/-! ## Crashes -/

def emptySetup : AnyFrame := .setup ⟨0, 2, 0, 0, [], [], [], [], [], false⟩
def streamRequest : Act := .frame (.request ⟨6, 2, eightZeros, [], false, false, 1⟩) noReact

/-- C58 fails: a setup frame without data crashes. -/
theorem C58_setup_violated : isPanic (Handler.run oneHandler false [.frame emptySetup noReact]) = true := by
  decide +kernel

/-- C58 fails: cancelling a stream request (a legal frame) crashes, its sink being nil. -/
theorem C58_cancel_violated : isPanic (Handler.run oneHandler true
    [streamRequest, .run 0 retCreated, .run 0 retCreated, .run 0 retCreated,
     .frame (.cancel ⟨2⟩) noReact]) = true := by decide +kernel

/-- C58 fails: a request-n frame that arrives before the handler has subscribed crashes. -/
theorem C58_early_request_violated : isPanic (Handler.run oneHandler true
    [streamRequest, .run 0 retCreated, .frame (.requestN ⟨2, 1⟩) noReact, .run 1 retCreated]) = true := by
  decide +kernel

/-- C58 fails: a request-n frame for a request/response call crashes. -/
theorem C58_mono_request_violated : isPanic (Handler.run oneHandler true
    [.call .rr ⟨[], []⟩ .created, .subscribeMono 0 ⟨true, true, true⟩,
     .frame (.requestN ⟨1, 1⟩) noReact]) = true := by decide +kernel

/-- C58 fails: a stream handler that returns `flux.Error` crashes its process. -/
theorem C58_failed_flux_violated : isPanic (Handler.run oneHandler true
    [streamRequest, .run 0 ⟨.created, .failed (some "x"), true⟩, .run 0 retCreated, .run 0 retCreated]) = true := by
  decide +kernel

theorem isPanic_eq {x : Go (Out H)} (h : isPanic x = true) : x = .panic := by
  cases x <;> simp [isPanic] at h; rfl

theorem C58_crash_violated : ¬ C58_statement Unit :=
  fun h => h _ _ _ (isPanic_eq C58_cancel_violated)

/-! ## Histories without these -/

/-- The application does not return `flux.Error`, and never reports a nil error. -/
def okSrc : Src → Bool
  | .failed _ => false
  | _ => true
def okMono : MonoSrc → Bool
  | .failed none => false
  | _ => true
def okSig : Mono.Sig Pay → Bool
  | .error none => false
  | _ => true
def okOp : SrcOp → Bool
  | .error none => false
  | _ => true

/-- A setup frame's operation table can be read, or is not needed. -/
def okSetup (s : St H) (v : Setup) : Prop := s.opTable.isSome = true ∨ Operations.fromBytes v.data ≠ .panic

/-- A request-n frame is for a stream being answered whose flux is subscribed and has been asked for
the first time, or a channel call whose input is subscribed; or for no known stream. -/
def okRequestN (s : St H) (id : UInt32) : Prop :=
  ∀ j, getStream s id = some j →
    (∃ k i out inp, s.objs[j]? = some (.responder k i out true inp)) ∨
    (∃ req first c f st sub, s.objs[j]? = some (.flux req first c (some (.subscribed f st)) sub))

/-- A cancel, payload or error frame is not for a stream being answered without (subscribed) input. -/
def okInput (s : St H) (id : UInt32) : Prop :=
  ∀ j, getStream s id = some j → ∀ k i out b, s.objs[j]? ≠ some (.responder k i out b none)

/-- What avoids the crashes above. -/
def polite (s : St H) : Act → Prop
  | .frame (.setup v) _ => okSetup s v
  | .frame (.request _) _ => True
  | .frame (.requestN v) _ => okRequestN s v.streamID
  | .frame f _ => okInput s f.streamID
  | .run _ ret => okSrc ret.flux = true ∧ okMono ret.mono = true
  | .answer _ sig => okSig sig = true
  | .out _ op => okOp op = true
  | .input _ op => okOp op = true
  | .call _ _ input => okSrc input = true
  | _ => True

/-- Every step of the history is polite in the state it happens in. -/
def politeFrom (s : St H) : List Act → Prop
  | [] => True
  | a :: as => polite s a ∧ ∀ s' e, settle s (Handler.step s a) = .ok (s', e) → politeFrom s' as

/-! ## Errors are never nil -/

theorem calls_no_error (e : Mono.Err) : ∀ (cs : List Flux.Call) (m : Flux.State),
    (.error e : Flux.Ev Pay) ∉ (Flux.calls m cs).2 := by
  intro cs
  induction cs with
  | nil => intro m h; simp [Flux.calls] at h
  | cons c cs ih =>
    intro m h
    simp only [Flux.calls, List.mem_append] at h
    rcases h with h | h
    · cases c <;> simp only [Flux.call] at h
      · split at h <;> simp at h
      · revert h
        cases m.hasCancel <;> cases m.inst.fin <;> simp
    · exact ih _ h

theorem handle_no_error (e : Mono.Err) (m : Flux.State) (cs : List Flux.Call) :
    (.error e : Flux.Ev Pay) ∉ (Flux.handleOnSubscribe m cs).2 := by
  unfold Flux.handleOnSubscribe
  split
  · simp
  · split
    · have := calls_no_error e cs m
      simpa using this
    · have := calls_no_error e [.request Flux.requestMax] m
      simpa [Flux.calls] using this

/-- A subscriber reports only errors its source reports. -/
theorem step_error (m : Flux.State) (op : Flux.Op Pay) (e : Mono.Err) (h : .error e ∈ (Flux.step m op).2) :
    ∃ inner, op = .error e inner := by
  cases op with
  | next v a b =>
    exfalso
    simp only [Flux.step, Flux.next] at h
    split at h
    · simp at h
    · have on : ∀ m, (.error e : Flux.Ev Pay) ∉ (Flux.onNext m v a).2 := by
        intro m
        unfold Flux.onNext
        split
        · have := calls_no_error e a m
          simpa using this
        · simp
      split at h
      · rcases List.mem_append.mp h with h | h
        · exact on _ h
        · exact handle_no_error _ _ _ h
      · exact on _ h
  | complete a =>
    exfalso
    simp only [Flux.step, Flux.complete] at h
    split at h
    · simp at h
    · rcases List.mem_append.mp h with h | h
      · split at h
        · have := calls_no_error e a { m with closed := true }
          simp only [List.mem_cons] at h
          rcases h with h | h
          · cases h
          · exact this h
        · simp at h
      · simp only [Flux.doFinally, List.mem_append, List.mem_map] at h
        rcases h with h | ⟨_, _, h⟩
        · split at h <;> simp at h
        · cases h
  | error e' a =>
    simp only [Flux.step, Flux.error] at h
    split at h
    · simp at h
    · rcases List.mem_append.mp h with h | h
      · split at h
        · have := calls_no_error e a { m with err := e', closed := true }
          simp only [List.mem_cons] at h
          rcases h with h | h
          · cases h; exact ⟨_, rfl⟩
          · exact absurd h this
        · simp at h
      · simp only [Flux.doFinally, List.mem_append, List.mem_map] at h
        rcases h with h | ⟨_, _, h⟩
        · split at h <;> simp at h
        · cases h
  | onSubscribe c =>
    exfalso
    simp only [Flux.step] at h
    split at h
    · simp at h
    · simp only at h
      split at h <;> simp at h
  | start a => exact absurd h (handle_no_error _ _ _)
  | call c =>
    have := calls_no_error e [c] m
    simp [Flux.calls] at this
    exact absurd h this
  | notify cb =>
    exfalso
    simp only [Flux.step, Flux.notify] at h
    split at h <;> simp at h

theorem replyEvs_ok (j : Nat) (id : UInt32) (f : Src) (l : List (Flux.Ev Pay)) (h : .error none ∉ l) :
    ∃ r : List (Handler.Ev H), replyEvs j id (throughMap f l) = .ok r := by
  have base : ∀ l : List (Flux.Ev Pay), .error none ∉ l → ∃ r : List (Handler.Ev H), replyEvs j id l = .ok r := by
    intro l h
    induction l with
    | nil => exact ⟨[], rfl⟩
    | cons e l ih =>
      simp only [List.mem_cons, not_or] at h
      obtain ⟨r, hr⟩ := ih h.2
      simp only [replyEvs, hr]
      cases e
      case error x =>
        cases x
        · exact absurd rfl h.1
        · exact ⟨_, rfl⟩
      all_goals exact ⟨_, rfl⟩
  cases f with
  | created => exact base l h
  | failed e => exact base l h
  | mapped tx =>
    apply base
    intro hm
    obtain ⟨e, he, hm⟩ := List.mem_flatMap.mp hm
    cases e <;> simp only [Flux.mapEv, List.mem_singleton] at hm
    case next v =>
      split at hm
      · simp [replyInst] at hm
      · simp [replyInst] at hm
    case error x => cases hm; exact h he
    all_goals cases hm

theorem step_ok (m : Flux.State) (op : Flux.Op Pay) (h : ∀ inner, op ≠ .error none inner) :
    .error none ∉ (Flux.step m op).2 := by
  intro hm
  obtain ⟨inner, rfl⟩ := step_error m op none hm
  exact h inner rfl

theorem answerEvs_ok (j : Nat) (id : UInt32) (l : List (Mono.Ev Pay)) (h : ∀ i, .error i none ∉ l) :
    ∃ r : List (Handler.Ev H), answerEvs j id l = .ok r := by
  induction l with
  | nil => exact ⟨[], rfl⟩
  | cons e l ih =>
    obtain ⟨r, hr⟩ := ih fun i hi => h i (by simp [hi])
    simp only [answerEvs, hr]
    cases e
    case error i x =>
      cases x
      · exact absurd (by simp) (h i)
      · exact ⟨_, rfl⟩
    all_goals exact ⟨_, rfl⟩

theorem throughMono_ok (m : MonoSrc) (l : List (Mono.Ev Pay)) (h : ∀ i, .error i none ∉ l) :
    ∀ i, .error i none ∉ throughMonoMap m l := by
  intro i hm
  cases m with
  | mapped tx =>
    obtain ⟨e, he, hm⟩ := List.mem_flatMap.mp hm
    cases e <;> simp only [Mono.mapEv, List.mem_singleton] at hm
    case success k v =>
      split at hm
      · simp [answerInst] at hm
      · simp [answerInst] at hm
    case error k x => cases hm; exact h _ he
    all_goals cases hm
  | created => exact h i hm
  | just p => exact h i hm
  | failed e => exact h i hm

theorem signal_ok (st : Mono.State Pay) (sig : Mono.Sig Pay) (h : okSig sig = true) :
    ∀ i, .error i none ∉ (Mono.signal st 0 sig [] []).2 := by
  intro i hm
  unfold Mono.signal at hm
  have fin : ∀ (m : Mono.State Pay) k (s : Mono.Sub Pay) x, (.error i none : Mono.Ev Pay) ∉ (Mono.doFinally m k s x []).2 := by
    intro m k s x
    simp only [Mono.doFinally, Mono.notifyAll]
    split <;> simp
  split at hm
  · simp at hm
  · split at hm
    · simp at hm
    · split at hm
      · simp only [List.mem_append] at hm
        rcases hm with h | h
        · split at h <;> simp [Mono.notifyAll] at h
        · exact fin _ _ _ _ h
      · rename_i err
        simp only [List.mem_append] at hm
        rcases hm with h' | h'
        · split at h'
          · simp [Mono.notifyAll] at h'
            rw [← h'.2] at h
            simp [okSig] at h
          · simp at h'
        · exact fin _ _ _ _ h'
      · exact fin _ _ _ _ hm

/-! ## Invariant -/

/-- The object a goroutine works on is such that it does not crash. -/
def goodFor (o : Obj) : Task → Prop
  | .request .. => True
  | .subscribe _ f _ => okSrc f = true ∧ ∃ k id out b inp, o = .responder k id out b inp
  | .firstRequest _ f _ => okSrc f = true ∧ ∃ k id p b inp, o = .responder k id (some p) b inp
  | .doRequest _ _ => (∃ k id p inp, o = .responder k id (some p) true inp) ∨
      ∃ req first c f st sub, o = .flux req first c (some (.subscribed f st)) sub ∧ okSrc f = true
  | .upRequest _ _ => (∃ k id out b inp, o = .responder k id out b inp) ∨
      ∃ req first c input sub, o = .flux req first c input sub
  | .subscribeIn _ => ∃ req c f sub, o = .flux req false c (some (.fresh f)) sub ∧ okSrc f = true

def goodObj : Obj → Prop
  | .responder _ _ out b _ => b = true → out.isSome = true
  | .flux _ _ _ (some (.fresh f)) _ => okSrc f = true
  | .flux _ first _ (some (.subscribed f _)) _ => okSrc f = true ∧ first = false
  | _ => True

def isSubIn (j : Nat) : Task → Bool
  | .subscribeIn i => i = j
  | _ => false

structure HSafe (s : St H) : Prop where
  objs : ∀ (j : Nat) o, s.objs[j]? = some o → goodObj o
  tasks : ∀ t ∈ s.tasks, ∀ j, t.obj = some j → ∃ o, s.objs[j]? = some o ∧ goodFor o t
  once : ∀ j, s.tasks.countP (isSubIn j) ≤ 1

/-- No crash, and the invariant holds afterwards. -/
def Good : Go (Out H) → Prop
  | .ok (s, _) => HSafe s
  | .err _ => True
  | .panic => False

theorem good_andThen (x : Go (Out H)) (f : St H → Go (Out H)) (hx : Good x)
    (hf : ∀ t e, x = .ok (t, e) → Good (f t)) : Good (andThen x f) := by
  cases x with
  | ok p =>
    obtain ⟨t, e⟩ := p
    have := hf t e rfl
    simp only [andThen]
    cases hh : f t with
    | ok q => rw [hh] at this; exact this
    | err m => trivial
    | panic => rw [hh] at this; exact this
  | err m => trivial
  | panic => exact hx

/-- One object changes, tasks for it are added. -/
theorem safe_at {s s' : St H} (hs : HSafe s) (i : Nat) (o o' : Obj) (ts : List Task)
    (ho : s.objs[i]? = some o) (h1 : s'.objs = s.objs.set i o') (h2 : s'.tasks = s.tasks ++ ts)
    (hg : goodObj o') (hk : ∀ t ∈ s.tasks, t.obj = some i → goodFor o t → goodFor o' t)
    (hn : ∀ t ∈ ts, t.obj = some i ∧ goodFor o' t)
    (hc : ∀ j, (s.tasks ++ ts).countP (isSubIn j) ≤ 1) : HSafe s' := by
  have hl : i < s.objs.length := (List.getElem?_eq_some_iff.mp ho).1
  refine ⟨?_, ?_, by rw [h2]; exact hc⟩
  · intro j x hx
    rw [h1] at hx
    by_cases hij : i = j
    · subst hij; rw [List.getElem?_set_self hl] at hx; cases hx; exact hg
    · rw [List.getElem?_set_ne hij] at hx; exact hs.objs j x hx
  · intro t ht j hj
    rw [h2] at ht
    rw [h1]
    by_cases hij : i = j
    · subst hij
      refine ⟨o', List.getElem?_set_self hl, ?_⟩
      rcases List.mem_append.mp ht with h | h
      · obtain ⟨x, hx, hgx⟩ := hs.tasks t h _ hj
        rw [ho] at hx; cases hx
        exact hk t h hj hgx
      · exact (hn t h).2
    · rw [List.getElem?_set_ne hij]
      rcases List.mem_append.mp ht with h | h
      · exact hs.tasks t h j hj
      · rw [(hn t h).1] at hj; cases hj; exact absurd rfl hij

theorem count_none {j : Nat} {ts : List Task} (h : ∀ t ∈ ts, ∀ i, t ≠ .subscribeIn i) :
    ts.countP (isSubIn j) = 0 := by
  rw [List.countP_eq_zero]
  intro t ht
  have := h t ht
  cases t <;> simp [isSubIn]
  exact absurd rfl (this _)

/-- The same when no task that subscribes an input is added. -/
theorem safe_at' {s s' : St H} (hs : HSafe s) (i : Nat) (o o' : Obj) (ts : List Task)
    (ho : s.objs[i]? = some o) (h1 : s'.objs = s.objs.set i o') (h2 : s'.tasks = s.tasks ++ ts)
    (hg : goodObj o') (hk : ∀ t, goodFor o t → goodFor o' t)
    (hn : ∀ t ∈ ts, t.obj = some i ∧ goodFor o' t) (hi : ∀ t ∈ ts, ∀ i, t ≠ .subscribeIn i) : HSafe s' := by
  refine safe_at hs i o o' ts ho h1 h2 hg (fun t _ _ h => hk t h) hn ?_
  intro j
  rw [List.countP_append, count_none hi]
  exact hs.once j

/-- New objects, perhaps with tasks. -/
theorem safe_new {s s' : St H} (hs : HSafe s) (o : Obj) (ts : List Task)
    (h1 : s'.objs = s.objs ++ [o]) (h2 : s'.tasks = s.tasks ++ ts) (hg : goodObj o)
    (hn : ∀ t ∈ ts, t.obj = some s.objs.length ∧ goodFor o t) (hi : ∀ t ∈ ts, ∀ i, t ≠ .subscribeIn i) :
    HSafe s' := by
  refine ⟨?_, ?_, ?_⟩
  · intro j x hx
    rw [h1, List.getElem?_append] at hx
    split at hx
    · exact hs.objs j x hx
    · rw [List.getElem?_singleton] at hx
      split at hx
      · cases hx; exact hg
      · cases hx
  · intro t ht j hj
    rw [h2] at ht
    rw [h1]
    rcases List.mem_append.mp ht with h | h
    · obtain ⟨x, hx, hgx⟩ := hs.tasks t h j hj
      exact ⟨x, by rw [List.getElem?_append_left (List.getElem?_eq_some_iff.mp hx).1]; exact hx, hgx⟩
    · obtain ⟨h3, h4⟩ := hn t h
      rw [h3] at hj; cases hj
      exact ⟨o, by simp, h4⟩
  · intro j
    rw [h2, List.countP_append, count_none hi]
    exact hs.once j

/-- Nothing relevant changes. -/
theorem safe_same {s s' : St H} (hs : HSafe s) (h1 : s'.objs = s.objs) (h2 : s'.tasks = s.tasks) : HSafe s' :=
  ⟨by rw [h1]; exact hs.objs, by rw [h1, h2]; exact hs.tasks, by rw [h2]; exact hs.once⟩

theorem remove_tasks (s : St H) (id : UInt32) : (remove s id).tasks = s.tasks := by
  unfold remove; split <;> rfl

theorem demandTasks_up (j : Nat) (l : List (Flux.Ev Pay)) :
    ∀ t ∈ demandTasks j l, ∃ n, t = .upRequest j n := by
  induction l with
  | nil => simp [demandTasks]
  | cons e l ih =>
    cases e <;> simp only [demandTasks] <;> try exact ih
    intro t ht
    rcases List.mem_cons.mp ht with rfl | h
    · exact ⟨_, rfl⟩
    · exact ih t h

theorem up_notSub {j : Nat} {ts : List Task} (h : ∀ t ∈ ts, ∃ n, t = .upRequest j n) :
    ∀ t ∈ ts, ∀ i, t ≠ .subscribeIn i := by
  intro t ht i e
  obtain ⟨n, hn⟩ := h t ht
  rw [hn] at e; cases e

theorem keep_responder {k k' : Kind} {id id' : UInt32} {out out' : Option (Src × Flux.State)} {b b' : Bool}
    {inp inp' : Option Flux.State} (h1 : out.isSome = true → out'.isSome = true) (h2 : b = true → b' = true) :
    ∀ t, goodFor (.responder k id out b inp) t → goodFor (.responder k' id' out' b' inp') t := by
  intro t h
  cases t with
  | request => trivial
  | subscribe i f n => exact ⟨h.1, _, _, _, _, _, rfl⟩
  | firstRequest i f n =>
    obtain ⟨hf, k, id, p, b, inp, e⟩ := h
    cases e
    obtain ⟨q, rfl⟩ := Option.isSome_iff_exists.mp (h1 rfl)
    exact ⟨hf, _, _, _, _, _, rfl⟩
  | doRequest i n =>
    rcases h with ⟨k, id, p, inp, e⟩ | ⟨_, _, _, _, _, _, e, _⟩
    · cases e
      obtain ⟨q, rfl⟩ := Option.isSome_iff_exists.mp (h1 rfl)
      have := h2 rfl
      subst this
      exact .inl ⟨_, _, _, _, rfl⟩
    · cases e
  | upRequest i n => exact .inl ⟨_, _, _, _, _, rfl⟩
  | subscribeIn i =>
    obtain ⟨_, _, _, _, e, _⟩ := h
    cases e

theorem keep_flux {req req' : RequestPayload} {first first' c c' : Bool} {input : Option Input}
    {sub sub' : Option Flux.State} (h1 : first = false → first' = false) :
    ∀ t, goodFor (.flux req first c input sub) t → goodFor (.flux req' first' c' input sub') t := by
  intro t h
  cases t with
  | request => trivial
  | subscribe i f n => obtain ⟨_, _, _, _, _, _, e⟩ := h; cases e
  | firstRequest i f n => obtain ⟨_, _, _, _, _, _, e⟩ := h; cases e
  | doRequest i n =>
    rcases h with ⟨k, id, p, inp, e⟩ | ⟨_, _, _, _, _, _, e, hf⟩
    · cases e
    · cases e; exact .inr ⟨_, _, _, _, _, _, rfl, hf⟩
  | upRequest i n => exact .inr ⟨_, _, _, _, _, rfl⟩
  | subscribeIn i =>
    obtain ⟨_, _, _, _, e, hf⟩ := h
    cases e
    have := h1 rfl
    subst this
    exact ⟨_, _, _, _, rfl, hf⟩

/-- An input that stays subscribed. -/
theorem keep_subscribed {req : RequestPayload} {first c : Bool} {f : Src} {st st' : Flux.State}
    {sub : Option Flux.State} :
    ∀ t, goodFor (.flux req first c (some (.subscribed f st)) sub) t →
      goodFor (.flux req first c (some (.subscribed f st')) sub) t := by
  intro t h
  cases t with
  | request => trivial
  | subscribe i f n => obtain ⟨_, _, _, _, _, _, e⟩ := h; cases e
  | firstRequest i f n => obtain ⟨_, _, _, _, _, _, e⟩ := h; cases e
  | doRequest i n =>
    rcases h with ⟨k, id, p, inp, e⟩ | ⟨_, _, _, _, _, _, e, hf⟩
    · cases e
    · cases e; exact .inr ⟨_, _, _, _, _, _, rfl, hf⟩
  | upRequest i n => exact .inr ⟨_, _, _, _, _, rfl⟩
  | subscribeIn i => obtain ⟨_, _, _, _, e, hf⟩ := h; cases e

theorem good_flux_obj {req req' : RequestPayload} {first c c' : Bool} {input : Option Input}
    {sub sub' : Option Flux.State} (h : goodObj (.flux req first c input sub)) :
    goodObj (.flux req' first c' input sub') := by
  cases input with
  | none => trivial
  | some i => cases i <;> exact h

/-! ## Steps -/

theorem good_closing (id : UInt32) (s : St H) (hs : HSafe s) : Good (closing id s) :=
  safe_same hs (remove_objs _ _) (remove_tasks _ _)

/-- Objects keep their kind, and inputs being answered stay. -/
def takes (o : Obj) : Prop := objTag o ≠ 0 ∧ ∀ k id out b, o ≠ .responder k id out b none

theorem good_deliver (s : St H) (hs : HSafe s) (j : Nat) (op : Flux.Op Pay) (o : Obj)
    (ho : s.objs[j]? = some o) (ht : takes o) : Good (deliver s j op) ∧
      ∀ s' e, deliver s j op = .ok (s', e) → ∃ o', s'.objs[j]? = some o' ∧ takes o' := by
  have hl : j < s.objs.length := (List.getElem?_eq_some_iff.mp ho).1
  unfold deliver
  rw [ho]
  cases o with
  | answer id m st => exact absurd rfl ht.1
  | responder k id out b inp =>
    cases inp with
    | none => exact absurd rfl (ht.2 _ _ _ _)
    | some st =>
      refine ⟨?_, ?_⟩
      · exact safe_at' hs j _ _ _ ho rfl rfl (fun h => hs.objs j _ ho h) (keep_responder (fun h => h) (fun h => h))
          (fun t h => ⟨demandTasks_obj _ _ t h, by
            obtain ⟨n, rfl⟩ := demandTasks_up _ _ t h
            exact .inl ⟨_, _, _, _, _, rfl⟩⟩) (up_notSub (demandTasks_up _ _))
      · intro s' e h
        cases h
        exact ⟨_, List.getElem?_set_self hl, by simp [objTag], by intro _ _ _ _ h; cases h⟩
  | mono req proc =>
    have keep : ∀ p t, goodFor (.mono req proc) t → goodFor (.mono req p) t := by
      intro p t h
      cases t with
      | request => trivial
      | subscribe i f n => obtain ⟨_, _, _, _, _, _, e⟩ := h; cases e
      | firstRequest i f n => obtain ⟨_, _, _, _, _, _, e⟩ := h; cases e
      | doRequest i n => rcases h with ⟨k, id, p, inp, e⟩ | ⟨_, _, _, _, _, _, e, hf⟩ <;> cases e
      | upRequest i n => rcases h with ⟨_, _, _, _, _, e⟩ | ⟨_, _, _, _, _, e⟩ <;> cases e
      | subscribeIn i => obtain ⟨_, _, _, _, e, hf⟩ := h; cases e
    have fin : ∀ (p : Mono.Proc Pay) (ev : List (Handler.Ev H)), Good (.ok (setObj s j (.mono req p), ev)) :=
      fun p ev => safe_at' hs j _ _ [] ho rfl (by simp [setObj]) trivial (keep p) (by simp) (by simp)
    have t2 : ∀ p, takes (.mono req p) := fun p => ⟨by simp [objTag], by intro _ _ _ _ h; cases h⟩
    cases op with
    | next v a b => exact ⟨fin _ _, fun s' e h => by cases h; exact ⟨_, List.getElem?_set_self hl, t2 _⟩⟩
    | error v a => exact ⟨fin _ _, fun s' e h => by cases h; exact ⟨_, List.getElem?_set_self hl, t2 _⟩⟩
    | _ => exact ⟨hs, fun s' e h => by cases h; exact ⟨_, ho, t2 _⟩⟩
  | flux req first c input sub =>
    have t2 : ∀ c sub, takes (.flux req first c input sub) :=
      fun c sub => ⟨by simp [objTag], by intro _ _ _ _ h; cases h⟩
    cases sub with
    | some st =>
      refine ⟨?_, ?_⟩
      · exact safe_at' hs j _ _ _ ho rfl rfl (good_flux_obj (hs.objs j _ ho)) (keep_flux id)
          (fun t h => ⟨demandTasks_obj _ _ t h, by
            obtain ⟨n, rfl⟩ := demandTasks_up _ _ t h
            exact .inr ⟨_, _, _, _, _, rfl⟩⟩) (up_notSub (demandTasks_up _ _))
      · intro s' e h
        cases h
        exact ⟨_, List.getElem?_set_self hl, t2 _ _⟩
    | none =>
      refine ⟨?_, ?_⟩
      · exact safe_at' hs j _ _ [] ho rfl (by simp [setObj]) (good_flux_obj (hs.objs j _ ho)) (keep_flux id)
          (by simp) (by simp)
      · intro s' e h
        cases h
        exact ⟨_, List.getElem?_set_self hl, t2 _ _⟩

/-- Every registered stream exists and is not a request/response request being answered. -/
def Registered (s : St H) : Prop :=
  ∀ id j, getStream s id = some j → ∃ o, s.objs[j]? = some o ∧ objTag o ≠ 0

theorem good_frame (s : St H) (hs : HSafe s) (hr : Registered s) (f : AnyFrame) (r : React)
    (hp : polite s (.frame f r)) : Good (handleFrame s f r) := by
  have del : ∀ (inner : List Flux.Call) id (t : St H) j o, HSafe t → t.objs[j]? = some o → takes o →
      Good (andThen (deliver t j (.complete inner)) (closing id)) := by
    intro inner id t j o hs ho ht
    have h := good_deliver t hs j (.complete inner) o ho ht
    exact good_andThen _ _ h.1 fun t' e he => by
      have := h.1; rw [he] at this; exact good_closing _ _ this
  have takes_of : ∀ id j, okInput s id → getStream s id = some j → ∃ o, s.objs[j]? = some o ∧ takes o := by
    intro id j h1 h2
    obtain ⟨o, ho, ht⟩ := hr id j h2
    refine ⟨o, ho, ht, ?_⟩
    rintro k i out b rfl
    exact h1 j h2 k i out b ho
  unfold handleFrame
  split
  · rename_i hty
    split
    · split
      · trivial
      · exact hs
    · rename_i j hg
      cases f with
      | setup v => exact absurd hty (by simp only [AnyFrame.type]; decide)
      | request v =>
        simp only [dispatch]
        split
        · refine ⟨hs.objs, ?_, ?_⟩
          · intro t ht i hi
            simp only [addTasks, List.mem_append, List.mem_singleton] at ht
            rcases ht with ht | rfl
            · exact hs.tasks t ht i hi
            · cases hi
          · intro i
            simp only [addTasks, List.countP_append]
            rw [count_none (ts := [Task.request _ _ _ _ _]) (by simp)]
            exact hs.once i
        · exact hs
      | requestN v =>
        simp only [dispatch]
        have hc : canRequest s j = true ∧ ∃ o, s.objs[j]? = some o ∧ goodFor o (.doRequest j v.n.toNat) := by
          rcases hp j hg with ⟨k, i, out, inp, ho⟩ | ⟨req, first, c, f, st, sub, ho⟩
          · refine ⟨by simp [canRequest, ho], _, ho, ?_⟩
            have := hs.objs j _ ho rfl
            obtain ⟨q, rfl⟩ := Option.isSome_iff_exists.mp this
            exact .inl ⟨_, _, _, _, rfl⟩
          · refine ⟨by simp [canRequest, ho], _, ho, ?_⟩
            exact .inr ⟨_, _, _, _, _, _, rfl, (hs.objs j _ ho).1⟩
        rw [if_pos hc.1]
        obtain ⟨o, ho, hg⟩ := hc.2
        exact safe_at' hs j o o [.doRequest j v.n.toNat] ho (set_self ho) rfl (hs.objs j o ho) (fun _ h => h)
          (by simp [Task.obj, hg]) (by simp)
      | cancel v =>
        obtain ⟨o, ho, ht⟩ := takes_of _ j hp hg
        exact del _ _ s j o hs ho ht
      | payload v =>
        obtain ⟨o, ho, ht⟩ := takes_of _ j hp hg
        have h := good_deliver s hs j (.next ⟨v.data, v.metadata⟩ r.next r.req) o ho ht
        simp only [dispatch]
        refine good_andThen _ _ ?_ ?_
        · split
          · exact h.1
          · exact hs
        · intro t e he
          obtain ⟨hs', o', ho', ht'⟩ : HSafe t ∧ ∃ o', t.objs[j]? = some o' ∧ takes o' := by
            split at he
            · have := h.1; rw [he] at this
              exact ⟨this, h.2 _ _ he⟩
            · cases he; exact ⟨hs, o, ho, ht⟩
          split
          · exact del _ _ t j o' hs' ho' ht'
          · exact hs'
      | error v =>
        obtain ⟨o, ho, ht⟩ := takes_of _ j hp hg
        have h := good_deliver s hs j (.error (some (strOf v.data)) r.fin) o ho ht
        simp only [dispatch]
        refine good_andThen _ _ h.1 ?_
        intro t e he
        obtain ⟨o', ho', ht'⟩ := h.2 _ _ he
        have hs' := h.1; rw [he] at hs'
        exact del _ _ t j o' hs' ho' ht'
  · rename_i hty
    cases f with
    | setup v =>
      simp only [dispatch]
      split
      · rename_i hn
        have : Operations.fromBytes v.data ≠ .panic := by
          rcases hp with h | h
          · cases ht : s.opTable <;> simp [ht] at hn h
          · exact h
        split
        · exact safe_same hs rfl rfl
        · trivial
        · rename_i h; exact absurd h this
      · exact hs
    | request v =>
      simp only [dispatch]
      split
      · refine ⟨hs.objs, ?_, ?_⟩
        · intro t ht i hi
          simp only [addTasks, List.mem_append, List.mem_singleton] at ht
          rcases ht with ht | rfl
          · exact hs.tasks t ht i hi
          · cases hi
        · intro i
          simp only [addTasks, List.countP_append]
          rw [count_none (ts := [Task.request _ _ _ _ _]) (by simp)]
          exact hs.once i
      · exact hs
    | requestN v => exact absurd (show (AnyFrame.requestN v).type ≥ typeRequestN by simp only [AnyFrame.type]; decide) hty
    | cancel v => exact absurd (show (AnyFrame.cancel v).type ≥ typeRequestN by simp only [AnyFrame.type]; decide) hty
    | payload v => exact absurd (show (AnyFrame.payload v).type ≥ typeRequestN by simp only [AnyFrame.type]; decide) hty
    | error v => exact absurd (show (AnyFrame.error v).type ≥ typeRequestN by simp only [AnyFrame.type]; decide) hty

theorem good_onOut (s s0 : St H) (hs0 : HSafe s0) (j : Nat) (k : Kind) (id : UInt32) (f : Src) (b : Bool)
    (inp : Option Flux.State) (r : Flux.State × List (Flux.Ev Pay)) (he : .error none ∉ r.2)
    (h : HSafe (setObj s j (.responder k id (some (f, r.1)) b inp))) :
    Good (onOut s j k id f b inp r) := by
  obtain ⟨es, hes⟩ := replyEvs_ok (H := H) j id f r.2 he
  unfold onOut
  rw [hes]
  exact h

theorem good_onInput (s : St H) (j : Nat) (req : RequestPayload) (first c : Bool) (f : Src)
    (sub : Option Flux.State) (r : Flux.State × List (Flux.Ev Pay)) (he : .error none ∉ r.2)
    (h : HSafe (setObj s j (.flux req first c (some (.subscribed f r.1)) sub))) :
    Good (onInput s j req first c f sub r) := by
  obtain ⟨es, hes⟩ := replyEvs_ok (H := H) j req.streamID f r.2 he
  unfold onInput
  rw [hes]
  exact h

theorem subscribeSrc_ok (f : Src) (hf : okSrc f = true) : .error none ∉ (subscribeSrc f).2 := by
  cases f <;> simp [okSrc] at hf <;> simp [subscribeSrc]

theorem good_serve (s : St H) (hs : HSafe s) (k : Kind) (id : UInt32) (data md : Bytes) (n : UInt32) (ret : Ret)
    (hf : okSrc ret.flux = true) (hm : okMono ret.mono = true) : Good (serve s k id data md n ret) := by
  unfold serve
  split
  · exact hs
  · rename_i hl
    obtain ⟨op, hop⟩ := (getU32_total md).1 (by omega)
    rw [hop]
    simp only [bind, Go.bind]
    split
    · exact hs
    · split
      · have : ∀ i, .error i none ∉ (monoSubscribe ret.mono).2 := by
          intro i
          cases hr : ret.mono with
          | created => simp [monoSubscribe]
          | mapped tx => simp [monoSubscribe]
          | just p => simp [monoSubscribe, Mono.justSubscribe, answerInst]
          | failed e =>
            rw [hr] at hm
            cases e with
            | none => simp [okMono] at hm
            | some x => simp [monoSubscribe, Mono.errorSubscribe, answerInst]
        obtain ⟨es, hes⟩ := answerEvs_ok (H := H) s.objs.length id _ this
        rw [hes]
        exact safe_new hs _ [] rfl (by simp) trivial (by simp) (by simp)
      · split
        · exact safe_new hs _ [] (by rw [register_objs]) (by rw [register_tasks]; simp) (by simp [goodObj]) (by simp) (by simp)
        · exact safe_new hs _ [] rfl (by simp) (by simp [goodObj]) (by simp) (by simp)
      · split
        · exact safe_new hs _ [.subscribe s.objs.length ret.flux n] (by simp only [addTasks]; rw [register_objs])
            (by simp only [addTasks]; rw [register_tasks]) (by simp [goodObj])
            (by simp [Task.obj, goodFor, hf]) (by simp)
        · exact safe_new hs _ [.subscribe s.objs.length ret.flux n] rfl rfl (by simp [goodObj])
            (by simp [Task.obj, goodFor, hf]) (by simp)

/-- A goroutine: `s` is the state without it. -/
theorem good_task (s : St H) (hs : HSafe s) (ret : Ret) (t : Task) (hf : okSrc ret.flux = true)
    (hm : okMono ret.mono = true)
    (hg : ∀ j, t.obj = some j → ∃ o, s.objs[j]? = some o ∧ goodFor o t)
    (hc : ∀ j, isSubIn j t = true → s.tasks.countP (isSubIn j) = 0) : Good (runTask s ret t) := by
  cases t with
  | request k id data md n => exact good_serve s hs k id data md n ret hf hm
  | subscribe i f n =>
    obtain ⟨o, ho, hok, k, id, out, b, inp, rfl⟩ := hg i rfl
    simp only [runTask, ho]
    refine good_onOut _ s hs _ _ _ _ _ _ _ (subscribeSrc_ok f hok) ?_
    exact safe_at' hs i _ _ [.firstRequest i f n] ho rfl rfl (fun _ => rfl)
      (keep_responder (fun _ => rfl) (fun h => h)) (by simp [Task.obj, goodFor, hok]) (by simp)
  | firstRequest i f n =>
    obtain ⟨o, ho, hok, k, id, p, b, inp, rfl⟩ := hg i rfl
    have hn : f.noSubscription = false := by cases f <;> simp [okSrc] at hok <;> rfl
    simp only [runTask, ho, hn, Bool.false_eq_true, if_false]
    refine good_onOut _ s hs _ _ _ _ _ _ _ (step_ok p.2 (.call (.request n.toNat)) (by simp)) ?_
    exact safe_at' hs i _ _ [] ho rfl (by simp [setObj]) (fun _ => rfl) (keep_responder (fun _ => rfl) (fun _ => rfl))
      (by simp) (by simp)
  | doRequest i n =>
    obtain ⟨o, ho, hok⟩ := hg i rfl
    rcases hok with ⟨k, id, p, inp, rfl⟩ | ⟨req, first, c, f, st, sub, rfl, hok⟩
    · simp only [runTask, ho]
      refine good_onOut _ s hs _ _ _ _ _ _ _ (step_ok p.2 (.call (.request n)) (by simp)) ?_
      exact safe_at' hs i _ _ [] ho rfl (by simp [setObj]) (fun _ => rfl) (keep_responder (fun _ => rfl) (fun _ => rfl))
        (by simp) (by simp)
    · have hn : f.noSubscription = false := by cases f <;> simp [okSrc] at hok <;> rfl
      simp only [runTask, ho, hn, Bool.false_eq_true, if_false]
      refine good_onInput _ _ _ _ _ _ _ _ (step_ok st (.call (.request n)) (by simp)) ?_
      exact safe_at' hs i _ _ [] ho rfl (by simp [setObj]) ⟨(hs.objs i _ ho).1, (hs.objs i _ ho).2⟩ keep_subscribed (by simp) (by simp)
  | upRequest i n =>
    obtain ⟨o, ho, hok⟩ := hg i rfl
    rcases hok with ⟨k, id, out, b, inp, rfl⟩ | ⟨req, first, c, input, sub, rfl⟩
    · simp only [runTask, ho]
      exact hs
    · simp only [runTask, ho]
      split
      · exact hs
      · split
        · rename_i hfirst
          subst hfirst
          have no : ∀ j, i = j → s.tasks.countP (isSubIn j) = 0 := by
            rintro j rfl
            rw [List.countP_eq_zero]
            intro t ht hsub
            cases t <;> simp [isSubIn] at hsub
            subst hsub
            obtain ⟨x, hx, _, _, _, _, e, _⟩ := hs.tasks _ ht _ rfl
            rw [ho] at hx; cases hx; cases e
          cases input with
          | none =>
            exact safe_at' hs i _ _ [] ho rfl (by simp [setObj, addTasks]) trivial (keep_flux (by simp)) (by simp) (by simp)
          | some inp =>
            have hobj := hs.objs i _ ho
            cases inp with
            | fresh f =>
              refine safe_at hs i _ _ [.subscribeIn i] ho rfl (by simp [setObj, addTasks]) (by exact hobj)
                (fun t _ _ h => keep_flux (by simp) t h) ?_ ?_
              · simp only [List.mem_singleton, forall_eq, Task.obj, true_and]
                exact ⟨_, _, _, _, rfl, hobj⟩
              · intro j
                rw [List.countP_append]
                by_cases hij : i = j
                · rw [no j hij]; simp [hij, isSubIn]
                · have := hs.once j
                  simp [isSubIn, hij]; exact this
            | subscribed f st => exact absurd hobj.2 (by simp)
        · exact hs
  | subscribeIn i =>
    obtain ⟨o, ho, req, c, f, sub, rfl, hok⟩ := hg i rfl
    simp only [runTask, ho]
    refine good_onInput _ _ _ _ _ _ _ _ (subscribeSrc_ok f hok) ?_
    refine safe_at hs i _ _ [] ho rfl (by simp [setObj]) ⟨hok, rfl⟩ ?_ (by simp) (by simpa using hs.once)
    intro t ht hobj hgood
    cases t with
    | request => trivial
    | subscribe i f n => obtain ⟨_, _, _, _, _, _, e⟩ := hgood; cases e
    | firstRequest i f n => obtain ⟨_, _, _, _, _, _, e⟩ := hgood; cases e
    | doRequest i n => exact .inr ⟨_, _, _, _, _, _, rfl, hok⟩
    | upRequest i n => exact .inr ⟨_, _, _, _, _, rfl⟩
    | subscribeIn k =>
      exfalso
      have hk : k = i := by simpa [Task.obj] using hobj
      subst hk
      have := List.countP_eq_zero.mp (hc k (by simp [isSubIn])) _ ht
      simp [isSubIn] at this

theorem good_step (s : St H) (hs : HSafe s) (hr : Registered s) (a : Act) (hp : polite s a) :
    Good (Handler.step s a) := by
  cases a with
  | frame f r => exact good_frame s hs hr f r hp
  | run t ret =>
    simp only [Handler.step]
    split
    · rename_i task ht
      have hperm := perm_eraseIdx _ _ _ ht
      have hmem : task ∈ s.tasks := List.mem_of_getElem? ht
      refine good_task { s with tasks := s.tasks.eraseIdx t } ?_ ret task hp.1 hp.2 ?_ ?_
      · refine ⟨hs.objs, ?_, ?_⟩
        · intro x hx
          exact hs.tasks x (List.mem_of_mem_eraseIdx hx)
        · intro j
          refine Nat.le_trans ?_ (hs.once j)
          exact (List.eraseIdx_sublist _ _).countP_le
      · exact hs.tasks task hmem
      · intro j hj
        have h1 := hs.once j
        have h2 := hperm.countP_eq (isSubIn j)
        simp only [List.countP_cons, hj, if_true] at h2
        simp only
        omega
    · exact hs
  | answer i sig =>
    simp only [Handler.step]
    split
    · rename_i id m st ho
      obtain ⟨es, hes⟩ := answerEvs_ok (H := H) i id _ (throughMono_ok m _ (signal_ok st sig hp))
      rw [hes]
      refine safe_at hs i _ _ [] ho rfl (by simp [setObj]) trivial ?_ (by simp) (by simpa using hs.once)
      intro t _ _ h
      cases t with
      | request => trivial
      | subscribe i f n => obtain ⟨_, _, _, _, _, _, e⟩ := h; cases e
      | firstRequest i f n => obtain ⟨_, _, _, _, _, _, e⟩ := h; cases e
      | doRequest i n => rcases h with ⟨k, id, p, inp, e⟩ | ⟨_, _, _, _, _, _, e, hf⟩ <;> cases e
      | upRequest i n => rcases h with ⟨_, _, _, _, _, e⟩ | ⟨_, _, _, _, _, e⟩ <;> cases e
      | subscribeIn i => obtain ⟨_, _, _, _, e, hf⟩ := h; cases e
    · exact hs
  | out i op =>
    simp only [Handler.step]
    split
    · rename_i k id f st b inp ho
      split
      · exact hs
      · refine good_onOut _ s hs _ _ _ _ _ _ _ (step_ok st op.op ?_) ?_
        · intro inner h
          cases op <;> simp [SrcOp.op] at h
          rw [h.1] at hp; simp [polite, okOp] at hp
        · exact safe_at' hs i _ _ [] ho rfl (by simp [setObj]) (fun _ => rfl) (keep_responder (fun _ => rfl) (fun h => h))
            (by simp) (by simp)
    · exact hs
  | subscribeInp i inst start =>
    simp only [Handler.step]
    split
    · rename_i id out b ho
      exact safe_at' hs i _ _ _ ho rfl rfl (fun h => hs.objs i _ ho h) (keep_responder (fun h => h) (fun h => h))
        (fun t h => ⟨demandTasks_obj _ _ t h, by
          obtain ⟨n, rfl⟩ := demandTasks_up _ _ t h
          exact .inl ⟨_, _, _, _, _, rfl⟩⟩) (up_notSub (demandTasks_up _ _))
    · exact hs
  | inpCall i c =>
    simp only [Handler.step]
    split
    · rename_i k id out b st ho
      exact safe_at' hs i _ _ _ ho rfl rfl (fun h => hs.objs i _ ho h) (keep_responder (fun h => h) (fun h => h))
        (fun t h => ⟨demandTasks_obj _ _ t h, by
          obtain ⟨n, rfl⟩ := demandTasks_up _ _ t h
          exact .inl ⟨_, _, _, _, _, rfl⟩⟩) (up_notSub (demandTasks_up _ _))
    · exact hs
  | call k p input =>
    simp only [Handler.step, Handler.call]
    cases k
    · exact safe_new hs _ [] rfl (by simp) trivial (by simp) (by simp)
    · exact safe_same hs rfl rfl
    · exact safe_new hs _ [] rfl (by simp) trivial (by simp) (by simp)
    · exact safe_new hs _ [] rfl (by simp) hp (by simp) (by simp)
  | subscribeMono i inst =>
    simp only [Handler.step]
    split
    · rename_i req proc ho
      refine safe_at hs i (.mono req proc) (.mono req (proc.step (.subscribe inst)).1) [] ho ?_ ?_ trivial ?_ (by simp)
        (by simpa using hs.once)
      · simp only [setObj, register_objs]
      · simp [setObj, register_tasks]
      · intro t _ _ h
        cases t with
        | request => trivial
        | subscribe i f n => obtain ⟨_, _, _, _, _, _, e⟩ := h; cases e
        | firstRequest i f n => obtain ⟨_, _, _, _, _, _, e⟩ := h; cases e
        | doRequest i n => rcases h with ⟨k, id, p, inp, e⟩ | ⟨_, _, _, _, _, _, e, hf⟩ <;> cases e
        | upRequest i n => rcases h with ⟨_, _, _, _, _, e⟩ | ⟨_, _, _, _, _, e⟩ <;> cases e
        | subscribeIn i => obtain ⟨_, _, _, _, e, hf⟩ := h; cases e
    · exact hs
  | subscribeFlux i inst start =>
    simp only [Handler.step]
    split
    · rename_i req first c input ho
      refine safe_at' hs i _ (.flux req first c input (some (Flux.runFrom (.init inst [])
          [.onSubscribe true, .start start] : Flux.State × List (Flux.Ev Pay)).1))
          (demandTasks i (Flux.runFrom (.init inst []) [.onSubscribe true, .start start]).2) ho ?_ ?_ (good_flux_obj (hs.objs i _ ho)) (keep_flux (fun h => h))
        (fun t h => ⟨demandTasks_obj _ _ t h, by
          obtain ⟨n, rfl⟩ := demandTasks_up _ _ t h
          exact .inr ⟨_, _, _, _, _, rfl⟩⟩) (up_notSub (demandTasks_up _ _))
      · simp only [setObj, addTasks, register_objs]
      · simp only [setObj, addTasks, register_tasks]
    · exact hs
  | fluxCall i c =>
    simp only [Handler.step]
    split
    · rename_i req first cm input st ho
      exact safe_at' hs i _ _ _ ho rfl rfl (good_flux_obj (hs.objs i _ ho)) (keep_flux (fun h => h))
        (fun t h => ⟨demandTasks_obj _ _ t h, by
          obtain ⟨n, rfl⟩ := demandTasks_up _ _ t h
          exact .inr ⟨_, _, _, _, _, rfl⟩⟩) (up_notSub (demandTasks_up _ _))
    · exact hs
  | input i op =>
    simp only [Handler.step]
    split
    · rename_i req first c f st sub ho
      split
      · exact hs
      · refine good_onInput _ _ _ _ _ _ _ _ (step_ok st op.op ?_) ?_
        · intro inner h
          cases op <;> simp [SrcOp.op] at h
          rw [h.1] at hp; simp [polite, okOp] at hp
        · exact safe_at' hs i _ _ [] ho rfl (by simp [setObj]) ⟨(hs.objs i _ ho).1, (hs.objs i _ ho).2⟩ keep_subscribed (by simp) (by simp)
    · exact hs

/-! ## Registered streams -/

theorem answerEvs_opens (j : Nat) (id : UInt32) (l : List (Mono.Ev Pay)) :
    ∀ r : List (Handler.Ev H), answerEvs j id l = .ok r → ∀ i k, .opened i k ∉ r := by
  induction l with
  | nil => intro r h; cases h; simp
  | cons e l ih =>
    intro r h i k
    simp only [answerEvs] at h
    obtain ⟨a, ha, h⟩ := bind_ok_inv h
    obtain ⟨b, hb, h⟩ := bind_ok_inv h
    cases h
    have := ih _ hb i k
    unfold answerEv at ha
    split at ha <;> cases ha <;> simp [this]

theorem answer_opens_nothing {j : Nat} {o o' : Obj} {ts ts' : List Task} {es : List (Handler.Ev H)}
    (h : CRun j o ts o' ts' es) (ho : objTag o = 0) : ∀ i k, .opened i k ∉ es := by
  induction h with
  | refl => simp
  | perm _ _ _ _ _ _ ih => exact ih
  | step _ _ _ _ _ _ hrun hs ih =>
    have ht := (tag_run hrun).trans ho
    intro i k hm
    rcases List.mem_append.mp hm with hm | hm
    · exact ih i k hm
    · cases hs with
      | answer _ _ _ _ _ _ h => exact answerEvs_opens _ _ _ _ h _ _ hm
      | asked => simp at hm
      | _ => cases ht

theorem registered_run (reg : Registry H) (client : Bool) (as : List Act) (s : St H)
    (tr : List (Handler.Ev H)) (h : Handler.run reg client as = .ok (s, tr)) : Registered s := by
  intro id j hg
  have hop := getStream_opened reg client as s tr h id j hg
  have hmem : (.opened id j : Handler.Ev H) ∈ evsOf j tr := List.mem_filter.mpr ⟨hop, by simp [Handler.Ev.obj]⟩
  rcases Handler.history reg client as s tr h j with ⟨-, -, h1⟩ | ⟨o0, ts0, es0, o, es, hb, ho, hr, he⟩
  · rw [h1] at hmem; simp at hmem
  · refine ⟨o, ho, fun h0 => ?_⟩
    have ht := tag_run hr
    rw [h0] at ht
    rw [he] at hmem
    rcases List.mem_append.mp hmem with hm | hm
    · cases hb with
      | answer _ _ _ h => exact answerEvs_opens _ _ _ _ h _ _ hm
      | _ => cases ht
    · exact answer_opens_nothing hr ht.symm _ _ hm

/-! ## C58 -/

theorem safe_runFrom (reg : Registry H) (client : Bool) : ∀ (as before : List Act) (s : St H)
    (tr : List (Handler.Ev H)), Handler.run reg client before = .ok (s, tr) → HSafe s → politeFrom s as →
    Handler.runFrom s as ≠ .panic := by
  intro as
  induction as with
  | nil => intro before s tr _ _ _ h; cases h
  | cons a as ih =>
    intro before s tr h hs hp
    have hg := good_step s hs (registered_run reg client before s tr h) a hp.1
    unfold runFrom
    have hset : ∃ s' e, settle s (Handler.step s a) = .ok (s', e) ∧ HSafe s' := by
      cases hst : Handler.step s a with
      | ok p => rw [hst] at hg; exact ⟨p.1, p.2, rfl, hg⟩
      | err m => exact ⟨s, _, rfl, hs⟩
      | panic => rw [hst] at hg; exact absurd hg id
    obtain ⟨s', e, he, hs'⟩ := hset
    have := ih (before ++ [a]) s' _ (handler_run_snoc reg client before a s s' tr e h he) hs' (hp.2 _ _ he)
    rw [he]
    simp only [andThen]
    intro hc
    cases hr : runFrom s' as with
    | ok q => rw [hr] at hc; cases hc
    | err m => rw [hr] at hc; cases hc
    | panic => exact this hr

/-- No history of frames, handlers, callers and goroutines crashes, if every step avoids the crashes
shown above: the setup table is readable, request-n frames are for streams whose source is subscribed,
cancel, payload and error frames are for streams that have somewhere to deliver them, handlers do not
return `flux.Error`, and nobody reports a nil error. Frames for unknown streams, of every kind, are
always allowed. -/
theorem C58_no_crash_partial (reg : Registry H) (client : Bool) (as : List Act)
    (hp : politeFrom (.init reg client) as) : Handler.run reg client as ≠ .panic :=
  safe_runFrom reg client as [] _ [] rfl ⟨by simp [St.init], by simp [St.init], by simp [St.init]⟩ hp

/-- A frame for a stream nobody has opened is never a reason to crash, whatever its kind. -/
theorem C58_unknown_stream (s : St H) (f : AnyFrame) (r : React) (h : getStream s f.streamID = none)
    (hk : f.type ≥ typeRequestN) : ∃ m, settle s (Handler.step s (.frame f r)) = .ok (s, m) := by
  simp only [Handler.step, handleFrame, if_pos hk, h]
  split
  · exact ⟨_, rfl⟩
  · exact ⟨_, rfl⟩

end

/-! ## Cases -/

/-- `polite` as a check, for the cases below. -/
def politeB {H : Type} (s : St H) : Act → Bool
  | .frame (.setup _) _ => s.opTable.isSome
  | .frame (.request _) _ => true
  | .frame (.requestN v) _ =>
    match getStream s v.streamID with
    | none => true
    | some j => match s.objs[j]? with
      | some (.responder _ _ _ true _) => true
      | some (.flux _ _ _ (some (.subscribed _ _)) _) => true
      | _ => false
  | .frame f _ =>
    match getStream s f.streamID with
    | none => true
    | some j => match s.objs[j]? with
      | some (.responder _ _ _ _ none) => false
      | _ => true
  | .run _ ret => okSrc ret.flux && okMono ret.mono
  | .answer _ sig => okSig sig
  | .out _ op => okOp op
  | .input _ op => okOp op
  | .call _ _ input => okSrc input
  | _ => true

theorem politeB_input {H : Type} (s : St H) (id : UInt32)
    (h : (match getStream s id with
      | none => true
      | some j => match s.objs[j]? with
        | some (.responder _ _ _ _ none) => false
        | _ => true) = true) : okInput s id := by
  intro j hj k i out b ho
  rw [hj] at h
  simp [ho] at h

theorem politeB_sound {H : Type} (s : St H) (a : Act) (h : politeB s a = true) : polite s a := by
  cases a with
  | frame f r =>
    cases f with
    | setup v => exact .inl h
    | request v => trivial
    | requestN v =>
      intro j hj
      simp only [politeB, hj] at h
      split at h
      · exact .inl ⟨_, _, _, _, by assumption⟩
      · exact .inr ⟨_, _, _, _, _, _, by assumption⟩
      · cases h
    | cancel v => exact politeB_input _ _ h
    | payload v => exact politeB_input _ _ h
    | error v => exact politeB_input _ _ h
  | run t ret => exact Bool.and_eq_true_iff.mp h
  | answer i sig => exact h
  | out i op => exact h
  | input i op => exact h
  | call k p input => exact h
  | _ => trivial

def politeFromB {H : Type} (s : St H) : List Act → Bool
  | [] => true
  | a :: as => politeB s a && match settle s (Handler.step s a) with
    | .ok (s', _) => politeFromB s' as
    | _ => true

theorem politeFromB_sound {H : Type} : ∀ (as : List Act) (s : St H), politeFromB s as = true → politeFrom s as := by
  intro as
  induction as with
  | nil => intro s _; trivial
  | cons a as ih =>
    intro s h
    simp only [politeFromB, Bool.and_eq_true] at h
    refine ⟨politeB_sound s a h.1, fun s' e he => ih s' ?_⟩
    simpa [he] using h.2

/-- A stream is served, its credit raised, elements and the end sent; a channel is called and answered,
its input sent; frames for unknown streams arrive. -/
def politeHistory : List Act :=
  [streamRequest, .run 0 retCreated, .run 0 retCreated, .run 0 retCreated,
   .frame (.requestN ⟨2, 3⟩) noReact, .run 0 retCreated, .out 0 (.next ⟨[1], []⟩), .out 0 .complete,
   .frame (.cancel ⟨8⟩) noReact, .frame (.requestN ⟨12, 5⟩) noReact,
   .call .rc ⟨[2], []⟩ .created, .subscribeFlux 1 ⟨true, true, true, true, true, false⟩ [.request 4], .run 0 retCreated,
   .run 0 retCreated, .frame (.requestN ⟨1, 1⟩) noReact, .run 0 retCreated, .input 1 (.next ⟨[9], []⟩),
   .frame (.payload ⟨1, [], [7], false, true, true⟩) noReact]

example : politeFrom (.init oneHandler true) politeHistory :=
  politeFromB_sound _ _ (by decide +kernel)

/-- What this history does. -/
example : ((traceOf (Handler.run oneHandler true politeHistory)).filterMap fun
    | .sent _ f => some (f.type, f.streamID)
    | _ => none) = [(10, 2), (10, 2), (7, 1), (10, 1)] := by decide +kernel

/-- A frame of each kind for a stream nobody has opened. -/
example : (∀ f ∈ [AnyFrame.requestN ⟨9, 4⟩, .cancel ⟨9⟩, .payload ⟨9, [], [1], false, true, true⟩, .error ⟨9, 1, []⟩],
    getStream (.init oneHandler true) f.streamID = none ∧ f.type ≥ typeRequestN) := by decide +kernel

end Verif.Props
