import Verif.Props.SystemStreams
import Verif.Props.SystemFnf
import Verif.Props.Transport
/-
Property C93: one failed exchange does not end a connection for all others.
-/
set_option autoImplicit false
namespace Verif.Props
open Verif Frames Handler
open Verif.Invoke (Kind Registry getHandler)
open Verif.System (Sys Move)

section
variable {H : Type}

/-! ## What an end sends -/

/-- The frames a stream may have sent. -/
def maySay : Obj → AnyFrame → Prop
  | .mono _ _, f => ∃ g, f = .request g ∧ g.frameType = typeRequestResponse
  | .flux _ _ _ input _, f =>
    (∃ g, f = .request g ∧ g.frameType = if input.isSome then typeRequestChannel else typeRequestStream) ∨
    (∃ g, f = .requestN g) ∨ (∃ g, f = .cancel g) ∨ (input.isSome = true ∧ isReply f = true)
  | _, f => isReply f = true ∨ (∃ g, f = .requestN g) ∨ ∃ g, f = .cancel g

/-- The type of its request. -/
def typeFits : Obj → Prop
  | .mono req _ => req.frameType = typeRequestResponse
  | .flux req _ _ input _ => req.frameType = if input.isSome then typeRequestChannel else typeRequestStream
  | _ => True

def SaysInv (j : Nat) (o : Obj) (es : List (Handler.Ev H)) : Prop :=
  typeFits o ∧ ∀ f ∈ framesBy j es, maySay o f

theorem isReply_signalFrame (id : UInt32) (l : List (Flux.Ev Pay)) : ∀ f ∈ l.flatMap (signalFrame id), isReply f = true := by
  intro f hf
  obtain ⟨e, -, h⟩ := List.mem_flatMap.mp hf
  cases e
  case error x => cases x <;> simp [signalFrame] at h; subst h; rfl
  all_goals simp [signalFrame, elementFrame] at h <;> subst h <;> rfl

theorem isReply_outcomeFrame (id : UInt32) (l : List (Mono.Ev Pay)) : ∀ f ∈ l.flatMap (outcomeFrame id), isReply f = true := by
  intro f hf
  obtain ⟨e, -, h⟩ := List.mem_flatMap.mp hf
  cases e
  case error a x => cases x <;> simp [outcomeFrame] at h; subst h; rfl
  all_goals simp [outcomeFrame] at h <;> subst h <;> rfl

theorem says_step {j : Nat} {o o' : Obj} {ts ts' : List Task} {es es' : List (Handler.Ev H)}
    (hs : CStep j o ts o' ts' es') (inv : SaysInv j o es) : SaysInv j o' (es ++ es') := by
  obtain ⟨h1, h2⟩ := inv
  have reply : ∀ {id l} {r : List (Handler.Ev H)}, replyEvs j id l = .ok r → ∀ f ∈ framesBy j r, isReply f = true := by
    intro id l r hr f hf
    rw [framesBy_replyEvs j id l r hr] at hf
    exact isReply_signalFrame _ _ f hf
  have key : ∀ {o'' : Obj}, typeFits o'' → (∀ f, maySay o f → maySay o'' f) → (∀ f ∈ framesBy j es', maySay o'' f) →
      SaysInv j o'' (es ++ es') := by
    intro o'' q1 q2 q3
    refine ⟨q1, fun f hf => ?_⟩
    rw [framesBy_append] at hf
    rcases List.mem_append.mp hf with hf | hf
    · exact q2 f (h2 f hf)
    · exact q3 f hf
  cases hs
  case answer id m st sig h =>
    refine key trivial (fun _ h => h) fun f hf => .inl ?_
    rw [framesBy_answerEvs j _ _ _ h] at hf
    exact isReply_outcomeFrame _ _ f hf
  case outSub h => exact key trivial (fun _ h => h) fun f hf => .inl (reply h f hf)
  case outFirst h => exact key trivial (fun _ h => h) fun f hf => .inl (reply h f hf)
  case outReq h => exact key trivial (fun _ h => h) fun f hf => .inl (reply h f hf)
  case out h => exact key trivial (fun _ h => h) fun f hf => .inl (reply h f hf)
  case inp => exact key trivial (fun _ h => h) fun f hf => .inr (.inr ⟨_, framesBy_demandEvs j _ _ (fun _ => rfl) _ f hf⟩)
  case inpSub => exact key trivial (fun _ h => h) fun f hf => .inr (.inr ⟨_, framesBy_demandEvs j _ _ (fun _ => rfl) _ f hf⟩)
  case inpUp => exact key trivial (fun _ h => h) fun f hf => .inr (.inl ⟨_, by simpa [framesBy] using hf⟩)
  case monoOp req proc op hop =>
    refine key h1 (fun _ h => h) fun f hf => ?_
    rw [(monoMap_quiet j _).1] at hf; cases hf
  case monoSub req proc inst =>
    refine key h1 (fun _ h => h) fun f hf => ?_
    rw [framesBy_append, framesBy_cons, (monoMap_quiet j _).1] at hf
    exact ⟨req, by simpa [framesBy] using hf, h1⟩
  case fluxOp => exact key h1 (fun _ h => h) fun f hf => .inr (.inr (.inl ⟨_, framesBy_demandEvs j _ _ (fun _ => rfl) _ f hf⟩))
  case fluxIdle => exact key h1 (fun _ h => h) fun f hf => by cases hf
  case fluxSub =>
    refine key h1 (fun _ h => h) fun f hf => ?_
    rw [framesBy_cons] at hf
    exact .inr (.inr (.inl ⟨_, framesBy_demandEvs j _ _ (fun _ => rfl) _ f hf⟩))
  case upDone => exact key h1 (fun _ h => h) fun f hf => by cases hf
  case upFirst req input sub n _ =>
    exact key h1 (fun _ h => h) fun f hf => .inl ⟨{ req with initialN := u32 n }, by simpa [framesBy] using hf, h1⟩
  case upLater => exact key h1 (fun _ h => h) fun f hf => .inr (.inl ⟨_, by simpa [framesBy] using hf⟩)
  case inputSub h => exact key h1 (fun _ h => h) fun f hf => .inr (.inr (.inr ⟨rfl, reply h f hf⟩))
  case inputReq h => exact key h1 (fun _ h => h) fun f hf => .inr (.inr (.inr ⟨rfl, reply h f hf⟩))
  case input h => exact key h1 (fun _ h => h) fun f hf => .inr (.inr (.inr ⟨rfl, reply h f hf⟩))
  case asked => exact key h1 (fun _ h => h) fun f hf => by cases hf

theorem says_run {j : Nat} {o o' : Obj} {ts ts' : List Task} {es0 es : List (Handler.Ev H)}
    (inv : SaysInv j o es0) (h : CRun j o ts o' ts' es) : SaysInv j o' (es0 ++ es) := by
  induction h with
  | refl => simpa using inv
  | perm _ _ _ _ _ _ ih => exact ih
  | step _ _ _ _ _ _ _ hs ih => rw [← List.append_assoc]; exact says_step hs ih

theorem says_born {j : Nat} {o : Obj} {ts : List Task} {es : List (Handler.Ev H)} (h : Born j o ts es) : SaysInv j o es := by
  cases h with
  | answer id m _ h =>
    refine ⟨trivial, fun f hf => .inl ?_⟩
    rw [framesBy_answerEvs j _ _ _ h] at hf
    exact isReply_outcomeFrame _ _ f hf
  | fnf _ _ he => exact ⟨trivial, fun f hf => by rw [framesBy_born he] at hf; cases hf⟩
  | stream _ _ _ _ _ _ he => exact ⟨trivial, fun f hf => by rw [framesBy_born (he.imp_right And.right)] at hf; cases hf⟩
  | mono => exact ⟨rfl, fun f hf => by cases hf⟩
  | rs => exact ⟨rfl, fun f hf => by cases hf⟩
  | rc => exact ⟨rfl, fun f hf => by cases hf⟩

theorem says_history {reg : Registry H} {client : Bool} {as : List Act} {s : St H}
    {tr : List (Handler.Ev H)} (h : Handler.run reg client as = .ok (s, tr)) {j : Nat} {o : Obj}
    (ho : s.objs[j]? = some o) : SaysInv j o tr := by
  rcases Handler.history reg client as s tr h j with ⟨h1, -⟩ | ⟨o0, ts0, es0, o, es, hb, ho', hr, he⟩
  · rw [ho] at h1; cases h1
  · rw [ho] at ho'; cases ho'
    obtain ⟨h1, h2⟩ := says_run (says_born hb) hr
    rw [← he, framesBy_evsOf] at h2
    exact ⟨h1, h2⟩

/-- A request frame sent on behalf of no stream is a fire-and-forget call. -/
theorem loose_request {reg : Registry H} {client : Bool} (as : List Act) : ∀ {s : St H}
    {tr : List (Handler.Ev H)}, Handler.run reg client as = .ok (s, tr) → ∀ f ∈ looseFrames tr,
    isReq f = true → ∃ x p src, .call .fnf p src ∈ as ∧ f = .request (fnfRequest x p) := by
  induction as using snoc_induction with
  | nil => intro s tr h f hf; cases h; simp [looseFrames] at hf
  | snoc as a ih =>
    intro s' tr h f hf hq
    obtain ⟨s, t, e, h1, h2, rfl⟩ := run_snoc_inv _ _ _ _ _ _ h
    rw [looseFrames_append] at hf
    rcases List.mem_append.mp hf with hf | hf
    · obtain ⟨x, p, src, h3, h4⟩ := ih h1 f hf hq
      exact ⟨x, p, src, List.mem_append_left _ h3, h4⟩
    · cases settle_shape _ _ _ _ h2 with
      | calm _ _ _ c1 c2 c3 => rw [c3] at hf; cases hf
      | request => cases hf
      | serve t0 ret k id data md n _ _ ht hserve =>
        exfalso
        cases serve_served _ _ _ _ _ _ _ _ _ hserve with
        | short hl => simp [looseFrames] at hf; subst hf; cases hq
        | unknown op hl ho hn => simp [looseFrames] at hf; subst hf; cases hq
        | rr op hd es g1 g2 g3 g4 he =>
          have := looseFrames_obj (answerEvs_obj _ _ _ _ he)
          have h5 : looseFrames (.invoked .rr hd id ⟨data, md.drop 8⟩ :: es) = [] := by
            simpa [looseFrames] using this
          rw [h5] at hf; cases hf
        | other op hd _ _ g1 g2 g3 g4 g5 g6 g7 => rw [g7] at hf; cases hf
      | call k p input =>
        cases k
        case fnf =>
          simp [call, looseFrames] at hf
          exact ⟨(nextID s.client s.streamIDs).2, p, input, by simp, hf⟩
        all_goals cases hf

/-- A channel was called. -/
theorem channel_origin {reg : Registry H} {client : Bool} (as : List Act) : ∀ {s : St H}
    {tr : List (Handler.Ev H)}, Handler.run reg client as = .ok (s, tr) → ∀ (i : Nat) req first c (input : Input) sub,
    s.objs[i]? = some (.flux req first c (some input) sub) → ∃ p src, .call .rc p src ∈ as := by
  have keep : ∀ {j : Nat} {o o' : Obj} {ts ts' : List Task} {es : List (Handler.Ev H)}, CRun j o ts o' ts' es →
      (∀ req first c (input : Input) sub, o ≠ .flux req first c (some input) sub) →
      ∀ req first c (input : Input) sub, o' ≠ .flux req first c (some input) sub := by
    intro j o o' ts ts' es h h0
    induction h with
    | refl => exact h0
    | perm _ _ _ _ _ _ ih => exact ih
    | step _ _ _ _ _ _ _ hs ih =>
      intro req first c input sub he
      cases hs <;> cases he <;> exact ih _ _ _ _ _ rfl
  induction as using snoc_induction with
  | nil => intro s tr h i req first c input sub ho; cases h; simp [St.init] at ho
  | snoc as a ih =>
    intro s' tr h i req first c input sub ho
    obtain ⟨s, t, e, h1, h2, rfl⟩ := run_snoc_inv _ _ _ _ _ _ h
    cases hold : s.objs[i]? with
    | some o0 =>
      obtain ⟨o', h3, h4⟩ := (loc_settle i s _ (loc_step i s a) s' e h2).1 o0 hold
      rw [ho] at h3; cases h3
      by_cases hx : ∃ req first c, ∃ input : Input, ∃ sub, o0 = .flux req first c (some input) sub
      · obtain ⟨_, _, _, _, _, rfl⟩ := hx
        obtain ⟨p, src, h5⟩ := ih h1 i _ _ _ _ _ hold
        exact ⟨p, src, List.mem_append_left _ h5⟩
      · exact absurd rfl (keep h4 (fun a b c d e hh => hx ⟨a, b, c, d, e, hh⟩) _ _ _ _ _)
    | none =>
      have hlen : s.objs.length ≤ i := List.getElem?_eq_none_iff.mp hold
      have last : ∀ (x : Obj), s'.objs = s.objs ++ [x] → Obj.flux req first c (some input) sub = x := by
        intro x hx
        rw [hx, List.getElem?_append_right hlen] at ho
        cases hz : i - s.objs.length with
        | zero => rw [hz] at ho; simp at ho; exact ho.symm
        | succ m => rw [hz] at ho; simp at ho
      have same : s'.objs = s.objs → False := by
        intro hx; rw [hx, hold] at ho; cases ho
      cases settle_shape _ _ _ _ h2 with
      | calm _ _ _ c1 =>
        exfalso
        have h3 := congrArg List.length c1
        simp only [List.length_map] at h3
        have := (List.getElem?_eq_some_iff.mp ho).1
        omega
      | request f r k hk => exact (same rfl).elim
      | serve t0 ret k id data md n _ _ ht hserve =>
        exfalso
        cases serve_served _ _ _ _ _ _ _ _ _ hserve with
        | short => exact same rfl
        | unknown => exact same rfl
        | rr => cases last _ rfl
        | other op hd _ _ g1 g2 g3 g4 g5 => cases last _ g5
      | call k p src =>
        cases k
        · cases last _ rfl
        · exact (same rfl).elim
        · cases last _ rfl
        · exact ⟨p, src, by simp⟩

/-- A flux that sent anything is registered. -/
def OpenInv (j : Nat) (o : Obj) (ts : List Task) (es : List (Handler.Ev H)) : Prop :=
  (∃ id, .opened id j ∈ es) ∨
  (framesBy j es = [] ∧ (∀ t ∈ ts, ∃ n, t = .doRequest j n) ∧
    ∃ req first c input, o = .flux req first c input none ∧ freshInput input)

theorem open_step {j : Nat} {o o' : Obj} {ts ts' : List Task} {es es' : List (Handler.Ev H)}
    (hs : CStep j o ts o' ts' es') (inv : OpenInv j o ts es) : OpenInv j o' ts' (es ++ es') := by
  rcases inv with ⟨id, h⟩ | ⟨h1, h2, req, first, c, input, rfl, h3⟩
  · exact .inl ⟨id, List.mem_append_left _ h⟩
  · have bad : ∀ {t : Task} {ts : List Task}, (∀ x ∈ t :: ts, ∃ n, x = Task.doRequest j n) → ∃ n, t = .doRequest j n :=
      fun h => h _ (by simp)
    cases hs
    case fluxIdle => exact .inr ⟨by simpa using h1, h2, _, _, _, _, rfl, h3⟩
    case fluxSub => exact .inl ⟨req.streamID, by simp⟩
    case upDone => obtain ⟨n, h⟩ := bad h2; cases h
    case upFirst => obtain ⟨n, h⟩ := bad h2; cases h
    case upLater => obtain ⟨n, h⟩ := bad h2; cases h
    case inputSub => obtain ⟨n, h⟩ := bad h2; cases h
    case inputReq => cases h3
    case input => cases h3
    case asked n =>
      refine .inr ⟨by simpa using h1, fun t ht => ?_, _, _, _, _, rfl, h3⟩
      rcases List.mem_append.mp ht with ht | ht
      · exact h2 t ht
      · exact ⟨n, by simpa using ht⟩

theorem opened_run {j : Nat} {o o' : Obj} {ts ts' : List Task} {es0 es : List (Handler.Ev H)}
    (inv : OpenInv j o ts es0) (h : CRun j o ts o' ts' es) : OpenInv j o' ts' (es0 ++ es) := by
  induction h with
  | refl => simpa using inv
  | perm _ _ _ _ _ hp ih =>
    rcases ih with h | ⟨h1, h2, h3⟩
    · exact .inl h
    · exact .inr ⟨h1, fun t ht => h2 t (hp.mem_iff.mpr ht), h3⟩
  | step _ _ _ _ _ _ _ hs ih => rw [← List.append_assoc]; exact open_step hs ih

/-- A call that sent its request is registered under its id. -/
theorem call_opened {reg : Registry H} {client : Bool} {as : List Act} {s : St H}
    {tr : List (Handler.Ev H)} (h : Handler.run reg client as = .ok (s, tr)) {j : Nat} {o : Obj}
    (ho : s.objs[j]? = some o) (hown : o.own = true) {f : AnyFrame} (hf : .sent (some j) f ∈ tr) : .opened o.sid j ∈ tr := by
  have hf := framesBy_mem hf
  have fin : ∀ id, .opened id j ∈ evsOf j tr → .opened o.sid j ∈ tr := by
    intro id h1
    have h1 := (List.mem_filter.mp h1).1
    obtain ⟨o', h2, h3⟩ := opened_history reg client as s tr h j id h1
    rw [ho] at h2; cases h2
    rw [← h3]; exact h1
  cases o with
  | answer => cases hown
  | responder => cases hown
  | mono req proc =>
    have hm := (m_history reg client as s tr h j req proc ho).frames
    rw [framesBy_evsOf] at hm
    rw [hm] at hf
    obtain ⟨id, h1, -⟩ := List.mem_map.mp hf
    obtain ⟨e, h2, h3⟩ := List.mem_filterMap.mp h1
    cases e with
    | opened id' i =>
      have hi : i = j := by
        have := (List.mem_filter.mp h2).2
        simpa [Handler.Ev.obj] using this
      subst hi
      exact fin _ h2
    | _ => cases h3
  | flux req first c input sub =>
    rcases Handler.history reg client as s tr h j with ⟨h1, -⟩ | ⟨o0, ts0, es0, o, es, hb, ho', hr, he⟩
    · rw [ho] at h1; cases h1
    · rw [ho] at ho'; cases ho'
      have ht := tag_run hr
      have go : OpenInv j o0 ts0 es0 → .opened req.streamID j ∈ tr := by
        intro h0
        rcases opened_run h0 hr with ⟨id, h1⟩ | ⟨h1, -⟩
        · rw [← he] at h1; exact fin id h1
        · rw [← he, framesBy_evsOf] at h1; rw [h1] at hf; cases hf
      cases hb with
      | answer => cases ht
      | fnf => cases ht
      | stream => cases ht
      | mono => cases ht
      | rs => exact go (.inr ⟨rfl, by simp, _, _, _, _, rfl, trivial⟩)
      | rc => exact go (.inr ⟨rfl, by simp, _, _, _, _, rfl, trivial⟩)

/-- Nothing is sent for a fire-and-forget request that is carried out. -/
theorem fnf_silent {reg : Registry H} {client : Bool} {as as1 as2 : List Act} {t : Nat} {ret : Ret}
    {s1 s : St H} {t1 tr : List (Handler.Ev H)} {id : UInt32} {data md : Bytes} {n : UInt32}
    (hr : RanAt reg client as as1 as2 t ret s1 t1 .fnf id data md n)
    (hex : (exported reg .fnf md).isSome = true) (h : Handler.run reg client as = .ok (s, tr)) :
    framesBy s1.objs.length tr = [] := by
  have h1 := hr.before
  have ht := hr.task
  have hreg := reg_run as1 h1
  rw [hr.split] at h
  unfold Handler.run at h h1
  rw [handler_runFrom_append, h1] at h
  obtain ⟨_, _, t2, q1, q2, rfl⟩ := andThen_ok h
  cases q1
  simp only [runFrom] at q2
  obtain ⟨s2, e, t3, q3, q4, rfl⟩ := andThen_ok q2
  have h3 : settle s1 (serve { s1 with tasks := s1.tasks.eraseIdx t } .fnf id data md n ret) = .ok (s2, e) := by
    simpa only [Handler.step, ht, runTask] using q3
  obtain ⟨hl, op, hd, ho, hh⟩ : ¬ md.length < 8 ∧ ∃ op hd, getU32 md = .ok op ∧ getHandler s1.reg .fnf op = some hd := by
    rw [exported] at hex
    by_cases hl : md.length < 8
    · rw [if_pos hl] at hex; cases hex
    · rw [if_neg hl] at hex
      obtain ⟨op, q1, -⟩ := getU32_take md (by omega)
      obtain ⟨hd, q2⟩ := Option.isSome_iff_exists.mp hex
      rw [namedOp, q1] at q2
      exact ⟨hl, op, hd, q1, by rw [hreg]; exact q2⟩
  have hnone : framesBy s1.objs.length t1 = [] ∧ tasksOf s1.objs.length s1.tasks = [] := by
    rcases Handler.history reg client as1 s1 t1 h1 s1.objs.length with ⟨-, q1, q2⟩ | ⟨_, _, _, o, _, _, q, -⟩
    · exact ⟨framesBy_nil_of_evsOf q2, q1⟩
    · simp at q
  have hold : ∀ x ∈ s1.tasks.eraseIdx t, x.obj ≠ some s1.objs.length := by
    intro x hx hc
    have := tasksOf_mem (List.mem_of_mem_eraseIdx hx) hc
    rw [hnone.2] at this; cases this
  have key : s2.objs = s1.objs ++ [.responder .fnf id none false none] ∧ s2.tasks = s1.tasks.eraseIdx t ∧
      framesBy s1.objs.length e = [] := by
    simp only [serve, if_neg hl, ho, Go.bind_ok, hh] at h3
    split at h3
    · cases h3
      refine ⟨?_, ?_, rfl⟩
      · simp only [register_objs]
      · unfold register
        split <;> rfl
    · cases h3
      exact ⟨rfl, rfl, rfl⟩
  obtain ⟨k1, k2, k3⟩ := key
  have hobj : s2.objs[s1.objs.length]? = some (.responder .fnf id none false none) := by rw [k1]; simp
  have htasks : tasksOf s1.objs.length s2.tasks = [] := by
    rw [k2]
    apply List.filter_eq_nil_iff.mpr
    intro x hx hc
    exact hold x hx (by simpa using hc)
  obtain ⟨o', -, hrun⟩ := (loc_runFrom s1.objs.length as2 s2 _ _ q4).1 _ hobj
  rw [htasks] at hrun
  have quiet : ∀ {o : Obj} {ts : List Task} {es : List (Handler.Ev H)},
      CRun s1.objs.length (.responder .fnf id none false none) [] o ts es →
      o = .responder .fnf id none false none ∧ (∀ t ∈ ts, ∃ n, t = .doRequest s1.objs.length n) ∧
      framesBy s1.objs.length es = [] := by
    intro o ts es hc
    generalize ho : Obj.responder .fnf id none false none = o0 at hc
    generalize hts : ([] : List Task) = ts0 at hc
    induction hc with
    | refl => subst ho hts; exact ⟨rfl, by simp, rfl⟩
    | perm _ _ _ _ _ hp ih =>
      obtain ⟨i1, i2, i3⟩ := ih
      exact ⟨i1, fun t ht => i2 t (hp.mem_iff.mpr ht), i3⟩
    | step _ _ _ _ _ _ _ hs ih =>
      obtain ⟨i1, i2, i3⟩ := ih
      subst ho
      subst i1
      have bad : ∀ {t : Task} {ts : List Task}, (∀ x ∈ t :: ts, ∃ n, x = Task.doRequest s1.objs.length n) →
          ∃ n, t = .doRequest s1.objs.length n := fun h => h _ (by simp)
      cases hs
      case outSub => obtain ⟨n, h⟩ := bad i2; cases h
      case inpUp => obtain ⟨n, h⟩ := bad i2; cases h
      case asked n =>
        refine ⟨rfl, fun t ht => ?_, by simpa using i3⟩
        rcases List.mem_append.mp ht with ht | ht
        · exact i2 t ht
        · exact ⟨n, by simpa using ht⟩
  rw [framesBy_append, framesBy_append, hnone.1, k3]
  have := (quiet hrun).2.2
  rw [framesBy_evsOf] at this
  simpa using this

/-! ## The end of a stream -/

/-- The frames after which a stream is removed. -/
def isLast : AnyFrame → Bool
  | .payload v => v.complete
  | .error _ => true
  | .cancel _ => true
  | _ => false

theorem closed_dispatch (s s' : St H) (r : React) (f : AnyFrame) (str : Option Nat) (e : List (Handler.Ev H)) (id : UInt32)
    (h : dispatch s r f str = .ok (s', e)) (hc : .closed id ∈ e) : isLast f = true := by
  cases f with
  | setup v =>
    simp only [dispatch] at h
    split at h
    · split at h <;> cases h; cases hc
    · cases h; cases hc
  | request v =>
    simp only [dispatch] at h
    split at h <;> cases h <;> cases hc
  | requestN v =>
    cases str with
    | none => cases h
    | some j =>
      simp only [dispatch] at h
      split at h <;> cases h; cases hc
  | cancel v => rfl
  | error v => rfl
  | payload v =>
    cases str with
    | none => cases h
    | some j =>
      simp only [isLast]
      simp only [dispatch] at h
      obtain ⟨s1, e1, e2, h1, h2, rfl⟩ := andThen_ok h
      rcases (Bool.eq_false_or_eq_true v.complete).symm with hv | hv
      · rw [hv] at h2
        cases h2
        rw [List.append_nil] at hc
        split at h1
        · exact absurd rfl ((noreg_deliver _ _ _ _ _ h1 _ hc).2 id)
        · cases h1; cases hc
      · exact hv

/-- Only a frame that ends a stream removes it. -/
theorem closed_ended {reg : Registry H} {client : Bool} (as : List Act) : ∀ {s : St H}
    {tr : List (Handler.Ev H)}, Handler.run reg client as = .ok (s, tr) → ∀ id, .closed id ∈ tr →
    ∃ f r, .frame f r ∈ as ∧ f.streamID = id ∧ isLast f = true := by
  induction as using snoc_induction with
  | nil => intro s tr h id hc; cases h; cases hc
  | snoc as a ih =>
    intro s' tr h id hc
    obtain ⟨s, t, e, h1, h2, rfl⟩ := run_snoc_inv _ _ _ _ _ _ h
    rcases List.mem_append.mp hc with hc | hc
    · obtain ⟨f, r, h3, h4⟩ := ih h1 id hc
      exact ⟨f, r, List.mem_append_left _ h3, h4⟩
    · obtain ⟨f, r, rfl, h4⟩ := (regs_settle _ _ _ _ h2).closed id hc
      refine ⟨f, r, by simp, h4, ?_⟩
      simp only [Handler.step] at h2
      cases hd : handleFrame s f r with
      | panic => rw [hd] at h2; cases h2
      | err m => rw [hd] at h2; cases h2; simp at hc
      | ok p =>
        rw [hd] at h2
        cases h2
        unfold handleFrame at hd
        split at hd
        · split at hd
          · split at hd <;> cases hd; cases hc
          · exact closed_dispatch _ _ _ _ _ _ _ hd hc
        · exact closed_dispatch _ _ _ _ _ _ _ hd hc

/-- Nothing follows a frame that ends a stream. -/
def endsOnce (fs : List AnyFrame) : Prop := fs.Pairwise fun g _ => isLast g = false

theorem endsOnce_short {fs : List AnyFrame} (h : fs.length ≤ 1) : endsOnce fs := by
  match fs, h with
  | [], _ => exact List.Pairwise.nil
  | [f], _ => exact List.pairwise_singleton _ _

theorem endsOnce_elements (id : UInt32) (l : List StreamSig) (h : ∀ y ∈ l, y.ends = false) :
    ∀ g ∈ l.flatMap (sigFrame id), isLast g = false := by
  intro g hg
  obtain ⟨y, h1, h2⟩ := List.mem_flatMap.mp hg
  have := h y h1
  cases y with
  | element p => simp [sigFrame] at h2; subst h2; rfl
  | complete => cases this
  | error e => cases this

theorem cutAtEnd_shape (l : List StreamSig) : ∃ a t, cutAtEnd l = a ++ t ∧ (∀ y ∈ a, y.ends = false) ∧ t.length ≤ 1 := by
  induction l with
  | nil => exact ⟨[], [], rfl, by simp, by simp⟩
  | cons x l ih =>
    simp only [cutAtEnd]
    split
    · exact ⟨[], [x], rfl, by simp, by simp⟩
    · rename_i hx
      obtain ⟨a, t, h1, h2, h3⟩ := ih
      refine ⟨x :: a, t, by rw [h1]; rfl, ?_, h3⟩
      intro y hy
      rcases List.mem_cons.mp hy with rfl | hy
      · simpa using hx
      · exact h2 y hy

theorem sigFrame_length (id : UInt32) (t : List StreamSig) (h : t.length ≤ 1) : (t.flatMap (sigFrame id)).length ≤ 1 := by
  match t, h with
  | [], _ => simp
  | [x], _ =>
    simp only [List.flatMap_cons, List.flatMap_nil, List.append_nil]
    cases x with
    | error e => cases e <;> simp [sigFrame]
    | _ => simp [sigFrame]

theorem endsOnce_shape (id : UInt32) (a t : List StreamSig) (h1 : ∀ y ∈ a, y.ends = false) (h2 : t.length ≤ 1) :
    endsOnce ((a ++ t).flatMap (sigFrame id)) := by
  rw [List.flatMap_append]
  have h3 := endsOnce_elements id a h1
  refine List.pairwise_append.mpr ⟨?_, endsOnce_short (sigFrame_length id t h2), fun g hg _ _ => h3 g hg⟩
  exact List.Pairwise.imp_of_mem (R := fun _ _ => True) (fun hg _ _ => h3 _ hg) (List.pairwise_of_forall (fun _ _ => trivial))

theorem endsOnce_relayed (id : UInt32) (f : Src) (hf : neverFails f) (sigs : List StreamSig) :
    endsOnce ((relayed f sigs).flatMap (sigFrame id)) := by
  obtain ⟨a, t, h1, h2, h3⟩ := cutAtEnd_shape sigs
  cases f with
  | created =>
    simp only [relayed, h1]
    exact endsOnce_shape id a t h2 h3
  | mapped tx =>
    simp only [relayed, h1, List.map_append]
    refine endsOnce_shape id _ _ ?_ (by simpa using h3)
    intro y hy
    obtain ⟨z, h4, rfl⟩ := List.mem_map.mp hy
    have h5 := h2 z h4
    cases z with
    | element p =>
      obtain ⟨q, h6⟩ := hf tx rfl p
      simp [mapSig, h6, StreamSig.ends]
    | complete => cases h5
    | error e => cases h5
  | failed e => exact endsOnce_short (sigFrame_length id [.error e] (by simp))

/-! ## No frame is refused -/

/-- What the ends may not do (see `C93_partial`): call channels, cancel, call a fire-and-forget operation
the peer does not export, answer with a stream through a transformation that fails. -/
structure Orderly (regA regB : Registry H) (s : Sys H) : Prop where
  channelsA : ∀ p src, .call .rc p src ∉ s.histA
  channelsB : ∀ p src, .call .rc p src ∉ s.histB
  cancelsA : ∀ f, .cancel f ∉ sentFrames s.trA
  cancelsB : ∀ f, .cancel f ∉ sentFrames s.trB
  knownA : ∀ p src, .call .fnf p src ∈ s.histA → (exported regB .fnf p.metadata).isSome = true
  knownB : ∀ p src, .call .fnf p src ∈ s.histB → (exported regA .fnf p.metadata).isSome = true
  mapsA : ∀ t ret, .run t ret ∈ s.histA → neverFails ret.flux
  mapsB : ∀ t ret, .run t ret ∈ s.histB → neverFails ret.flux

/-- The peer of a call says nothing after the end. -/
theorem answers_endOnce {regA regB : Registry H} {client : Bool} {s : Sys H} (hJ : Joined regA regB client s)
    (ht : Tidy s) (hq : Orderly regA regB s) {j : Nat} {o : Obj} (ho : s.a.objs[j]? = some o) (hown : o.own = true) :
    endsOnce (withId o.sid (sentFrames s.trB)) := by
  have hid := ownId_not _ _ (own_id_own hJ.a ht.callsA ho hown)
  obtain ⟨hty, -⟩ := says_history hJ.a ho
  cases o with
  | answer => cases hown
  | responder => cases hown
  | mono req proc =>
    have hreq : ∀ f r, .frame (.request f) r ∈ s.histB → f.streamID = req.streamID →
        kindOfType f.frameType = some .rr ∧ f.data = req.data ∧ f.metadata = req.metadata := by
      intro f r q1 q2
      have hm := sent_by_obj hJ ht ho q1 q2
      have h1 := (m_history _ _ _ _ _ hJ.a j req proc ho).frames
      rw [framesBy_evsOf] at h1
      rw [h1] at hm
      obtain ⟨_, -, h2⟩ := List.mem_map.mp hm
      cases h2
      refine ⟨?_, rfl, rfl⟩
      have hty : req.frameType = typeRequestResponse := hty
      rw [hty]; rfl
    rcases handled_frames req.streamID ⟨req.data, req.metadata⟩ hJ.b ht.callsB (hJ.usesB ht _) hid hreq with ⟨r, h1, h2⟩ | ⟨h1, -⟩
    · show endsOnce (withId req.streamID (sentFrames s.trB))
      rw [h2]
      apply endsOnce_short
      cases r with
      | none => simp
      | some sig =>
        obtain ⟨f, h3⟩ := handled_reply hJ.b h1
        simp [h3]
    · show endsOnce (withId req.streamID (sentFrames s.trB))
      rw [h1]; exact endsOnce_short (by simp)
  | flux req first c input sub =>
    cases input with
    | some input =>
      obtain ⟨p, src, h1⟩ := channel_origin _ hJ.a j _ _ _ _ _ ho
      exact absurd h1 (hq.channelsA p src)
    | none =>
      have hreq : ∀ f r, .frame (.request f) r ∈ s.histB → f.streamID = req.streamID →
          kindOfType f.frameType = some .rs ∧ f.data = req.data ∧ f.metadata = req.metadata := by
        intro f r q1 q2
        have hm := sent_by_obj hJ ht ho q1 q2
        obtain ⟨sv, dr, -, -, hfr, -⟩ := f_history _ _ _ _ _ hJ.a j _ _ _ _ _ ho
        rw [framesBy_evsOf] at hfr
        have hm : AnyFrame.request f ∈ (framesBy j s.trA).filter isGrant := List.mem_filter.mpr ⟨hm, rfl⟩
        rw [hfr] at hm
        obtain ⟨n, rfl⟩ := grants_request hm
        refine ⟨?_, rfl, rfl⟩
        have hty : req.frameType = typeRequestStream := hty
        show kindOfType req.frameType = _
        rw [hty]; rfl
      show endsOnce (withId req.streamID (sentFrames s.trB))
      rcases streamed_frames .rs (.inl rfl) req.streamID ⟨req.data, req.metadata⟩ hJ.b ht.callsB (hJ.usesB ht _) hid hreq with
        ⟨r, h1, -, h2, h3⟩ | ⟨h1, -⟩
      · rw [← h3 rfl, h2]
        cases h1 with
        | rejected => exact endsOnce_short (sigFrame_length _ _ (by simp))
        | waiting => exact endsOnce_short (by simp)
        | served as1 as2 t ret s1 t1 n ran =>
          exact endsOnce_relayed _ _ (hq.mapsB t ret (by rw [ran.split]; simp)) _
      · rw [h1]; exact endsOnce_short (by simp)

theorem deliver_no_err (s : St H) (j : Nat) (op : Flux.Op Pay) (m : String) : deliver s j op ≠ .err m := by
  intro h
  unfold deliver at h
  split at h
  · cases h
  · split at h <;> cases h
  · dsimp only at h
    split at h <;> split at h <;> cases h
  · cases h

theorem andThen_no_err {x : Go (Out H)} {f : St H → Go (Out H)} (hx : ∀ m, x ≠ .err m) (hf : ∀ s m, f s ≠ .err m)
    (m : String) : andThen x f ≠ .err m := by
  intro h
  unfold andThen at h
  split at h
  · split at h
    · cases h
    · exact hf _ _ ‹_›
    · cases h
  · exact hx _ rfl
  · cases h

theorem dispatch_no_err (s : St H) (r : React) (f : AnyFrame) (str : Option Nat) (hf : ∀ v, f ≠ .setup v) (m : String) :
    dispatch s r f str ≠ .err m := by
  have hc : ∀ id (s : St H) m, closing id s ≠ .err m := fun _ _ _ h => by cases h
  cases f with
  | setup v => exact absurd rfl (hf v)
  | request v =>
    intro h
    simp only [dispatch] at h
    split at h <;> cases h
  | requestN v =>
    cases str with
    | none => intro h; cases h
    | some j =>
      intro h
      simp only [dispatch] at h
      split at h <;> cases h
  | cancel v =>
    cases str with
    | none => intro h; cases h
    | some j => exact andThen_no_err (deliver_no_err _ _ _) (hc _) m
  | payload v =>
    cases str with
    | none => intro h; cases h
    | some j =>
      refine andThen_no_err ?_ ?_ m
      · intro m h
        split at h
        · exact deliver_no_err _ _ _ _ h
        · cases h
      · intro s m h
        split at h
        · exact andThen_no_err (deliver_no_err _ _ _) (hc _) m h
        · cases h
  | error v =>
    cases str with
    | none => intro h; cases h
    | some j => exact andThen_no_err (deliver_no_err _ _ _) (fun s => andThen_no_err (deliver_no_err _ _ _) (hc _)) m

/-- The request a frame of the peer's answers was sent by a call that is registered, or this is no
answer. -/
theorem handed_ok {regA regB : Registry H} {client : Bool} {s : Sys H} (hJ : Joined regA regB client s)
    (ht : Tidy s) (hq : Orderly regA regB s) (f : AnyFrame) (fs : List AnyFrame) (hf : s.ba = f :: fs) (r : React) (m : String) :
    handleFrame s.a f r ≠ .err m := by
  have hsent : f ∈ sentFrames s.trB := by rw [hJ.ba, hf]; simp
  -- once the call is found, all is well
  have live : ∀ (fr : RequestPayload) (r' : React), .frame (.request fr) r' ∈ s.histB → fr.streamID = f.streamID →
      (∀ v, f ≠ .setup v) → (∀ p src, .call .fnf p src ∈ s.histA → fr.frameType = typeRequestFNF → fr.metadata = p.metadata → False) →
      handleFrame s.a f r ≠ .err m := by
    intro fr r' h1 h2 h3 h4
    have h5 : .request fr ∈ sentFrames s.trA := by rw [hJ.ab]; exact List.mem_append_left _ (handedOver_mem h1)
    obtain ⟨b, hb⟩ := sent_source h5
    cases b with
    | none =>
      obtain ⟨x, p, src, h6, h7⟩ := loose_request _ hJ.a _ (looseFrames_mem hb) rfl
      cases h7
      exact (h4 p src h6 rfl rfl).elim
    | some j =>
      obtain ⟨o, h6, h7, h8⟩ := sent_history _ _ _ _ _ hJ.a j _ hb
      have hown := h8 rfl
      have hop := call_opened hJ.a h6 hown hb
      have hx : o.sid = f.streamID := by rw [← h7]; exact h2
      have hnc : .closed f.streamID ∉ s.trA := by
        intro hc
        obtain ⟨g, r'', q1, q2, q3⟩ := closed_ended _ hJ.a _ hc
        have := answers_endOnce hJ ht hq h6 hown
        rw [hx, hJ.ba, withId_append, hf, withId_cons] at this
        have hg : g ∈ withId f.streamID (handedOver s.histA) := List.mem_filter.mpr ⟨handedOver_mem q1, by simp [q2]⟩
        have := (List.pairwise_append.mp this).2.2 g hg f (by simp)
        rw [q3] at this; cases this
      have hg := getStream_live _ _ _ _ _ hJ.a f.streamID j (hJ.openedA ht) (hx ▸ hop) hnc
      intro he
      unfold handleFrame at he
      rw [hg] at he
      split at he
      · exact dispatch_no_err _ _ _ _ h3 m he
      · exact dispatch_no_err _ _ _ _ h3 m he
  -- frames that need no call
  have plain : (∃ v, f = .requestN v) ∨ (∃ v k, f = .request v ∧ kindOfType v.frameType = some k) → handleFrame s.a f r ≠ .err m := by
    intro h he
    unfold handleFrame at he
    split at he
    · rename_i hty
      split at he
      · split at he
        · rename_i hn
          rcases h with ⟨v, rfl⟩ | ⟨v, k, rfl, hk⟩
          · exact hn rfl
          · have hty : v.frameType ≥ typeRequestN := hty
            unfold kindOfType at hk
            repeat' split at hk
            all_goals first
              | (rename_i h1; rw [h1] at hty; exact absurd hty (by decide))
              | cases hk
        · cases he
      · exact dispatch_no_err _ _ _ _ (by rcases h with ⟨v, rfl⟩ | ⟨v, k, rfl, -⟩ <;> simp) m he
    · exact dispatch_no_err _ _ _ _ (by rcases h with ⟨v, rfl⟩ | ⟨v, k, rfl, -⟩ <;> simp) m he
  have request : ∀ {as1 as2 : List Act} {t : Nat} {ret : Ret} {s1 : St H} {t1 : List (Handler.Ev H)} {k : Kind}
      {data md : Bytes} {n : UInt32}, RanAt regB (!client) s.histB as1 as2 t ret s1 t1 k f.streamID data md n →
      (∀ v, f ≠ .setup v) → (k = .fnf → (exported regB .fnf md).isSome = true → False) → handleFrame s.a f r ≠ .err m := by
    intro as1 as2 t ret s1 t1 k data md n hr h0 h1
    obtain ⟨fr, r', h2, h3, h4, rfl, rfl⟩ := task_origin as1 hr.before k _ data md n (List.mem_of_getElem? hr.task)
    refine live fr r' (by rw [hr.split]; exact List.mem_append_left _ h2) h4 h0 ?_
    intro p src h5 h6 h7
    rw [h6] at h3
    have hk : k = .fnf := by
      have : kindOfType typeRequestFNF = some .fnf := rfl
      rw [this] at h3; cases h3; rfl
    exact h1 hk (h7 ▸ hq.knownA p src h5)
  obtain ⟨b, hb⟩ := sent_source hsent
  cases b with
  | none =>
    rcases (Bool.eq_false_or_eq_true (isReq f)).symm with hr | hr
    · obtain ⟨as1, as2, t, ret, s1, t1, k, id, data, md, n, h1, h2, rfl⟩ := loose_origin _ hJ.b f (looseFrames_mem hb) hr
      refine request h1 (by simp [errorFrame]) ?_
      rintro rfl h3
      rw [h2] at h3; cases h3
    · obtain ⟨x, p, src, -, rfl⟩ := loose_request _ hJ.b f (looseFrames_mem hb) hr
      exact plain (.inr ⟨_, .fnf, rfl, rfl⟩)
  | some i =>
    obtain ⟨o, h1, h2, -⟩ := sent_history _ _ _ _ _ hJ.b i f hb
    have hsay := (says_history hJ.b h1).2 f (framesBy_mem hb)
    have served : o.own = false → (∀ v, f ≠ .setup v) → handleFrame s.a f r ≠ .err m := by
      intro hown h0
      obtain ⟨as1, as2, t, ret, s1, t1, k, data, md, n, hr, rfl, h4, -⟩ := served_origin _ hJ.b i o h1 hown
      rw [← h2] at hr
      refine request hr h0 ?_
      rintro rfl h5
      have := framesBy_mem hb
      rw [fnf_silent hr h4 hJ.b] at this
      cases this
    cases o with
    | mono req proc =>
      obtain ⟨g, rfl, h3⟩ := hsay
      exact plain (.inr ⟨g, .rr, rfl, by rw [h3]; rfl⟩)
    | flux req first c input sub =>
      cases input with
      | some input =>
        obtain ⟨p, src, h3⟩ := channel_origin _ hJ.b i _ _ _ _ _ h1
        exact absurd h3 (hq.channelsB p src)
      | none =>
        rcases hsay with ⟨g, rfl, h3⟩ | ⟨g, rfl⟩ | ⟨g, rfl⟩ | ⟨h3, -⟩
        · exact plain (.inr ⟨g, .rs, rfl, by rw [h3]; rfl⟩)
        · exact plain (.inl ⟨g, rfl⟩)
        · exact absurd hsent (hq.cancelsB g)
        · cases h3
    | answer id mm st =>
      refine served rfl ?_
      rintro v rfl
      rcases hsay with h | ⟨_, h⟩ | ⟨_, h⟩ <;> cases h
    | responder k id out b inp =>
      refine served rfl ?_
      rintro v rfl
      rcases hsay with h | ⟨_, h⟩ | ⟨_, h⟩ <;> cases h

/-! ## The property -/

/-- The next frame of each wire is accepted: HandleFrame does not return an error. -/
def accepts (s : Sys H) : Prop :=
  (∀ f fs r m, s.ba = f :: fs → handleFrame s.a f r ≠ .err m) ∧
  ∀ f fs r m, s.ab = f :: fs → handleFrame s.b f r ≠ .err m

/-- C93 as stated in English: whatever the applications on both sides did, no frame makes HandleFrame
return an error, which would end the connection with all its streams (`C93_ends`). -/
def C93_statement (H : Type) : Prop :=
  ∀ (regA regB : Registry H) (client : Bool) (ms : List Move) (s : Sys H),
    System.run regA regB client ms = .ok s → Tidy s → accepts s

/-- The same connection seen from the other end. -/
def flipped (s : Sys H) : Sys H := ⟨s.b, s.a, s.ba, s.ab, s.histB, s.histA, s.trB, s.trA⟩

/-- C93, for ends that call no channels, cancel nothing, call only fire-and-forget operations the peer
exports, and answer with streams whose transformations do not fail: each of these exceptions is needed
(`C93_fnf_violated`, `C93_map_violated`, `C93_cancel_violated`, `C93_channel_violated`). Requests that
are rejected, handlers that fail and streams that end with an error harm no other exchange. -/
theorem C93_partial (regA regB : Registry H) (client : Bool) (ms : List Move) (s : Sys H)
    (h : System.run regA regB client ms = .ok s) (ht : Tidy s) (hq : Orderly regA regB s) : accepts s := by
  have hJ := joined_run ms h
  refine ⟨fun f fs r m hf => handed_ok hJ ht hq f fs hf r m, fun f fs r m hf => ?_⟩
  have hJ' : Joined regB regA (!client) (flipped s) := ⟨hJ.b, by rw [Bool.not_not]; exact hJ.a, hJ.ba, hJ.ab⟩
  exact handed_ok hJ' ⟨ht.callsB, ht.callsA, ht.onceB, ht.onceA⟩
    ⟨hq.channelsB, hq.channelsA, hq.cancelsB, hq.cancelsA, hq.knownB, hq.knownA, hq.mapsB, hq.mapsA⟩ f fs hf r m

/-! ## What is not isolated -/

def noHandlers : Registry Unit := fun _ => ⟨[], [], []⟩

/-- A fire-and-forget call to an operation the peer does not export; the peer answers with an error. -/
def unknownFnf : List Move :=
  [.atA (.call .fnf ⟨[], eightZeros⟩ .created), .toB noReact, .atB (.run 0 retCreated)]

def subscribed93 (k : Kind) : List Move :=
  [.atA (.call k ⟨[5], eightZeros⟩ .created), .atA (.subscribeFlux 0 ⟨true, true, true, true, true, false⟩ [.request 3]),
   .atA (.run 0 retCreated)]

/-- The peer answers the second of two calls with a stream through a transformation that fails on its
first element. -/
def failingMap : List Move :=
  [.atA (.call .rr ⟨[1], eightZeros⟩ .created), .atA (.subscribeMono 0 ⟨true, true, true⟩),
   .atA (.call .rs ⟨[5], eightZeros⟩ .created),
   .atA (.subscribeFlux 1 ⟨true, true, true, true, true, false⟩ [.request 3]), .atA (.run 0 retCreated), .toB noReact, .toB noReact,
   .atB (.run 1 ⟨.created, .mapped failsOnOne, true⟩), .atB (.run 1 retCreated), .atB (.run 1 retCreated),
   .atB (.out 0 (.next ⟨[1], []⟩)), .atB (.out 0 (.next ⟨[2], []⟩)), .toA noReact]

/-- A stream is cancelled before the peer's goroutine for it ran. -/
def earlyCancel : List Move := subscribed93 .rs ++ [.atA (.fluxCall 0 .cancel), .toB noReact]

/-- The input of a channel has an element before the peer's goroutine for it ran. -/
def earlyInput : List Move :=
  subscribed93 .rc ++ [.atA (.run 0 retCreated), .atA (.input 0 (.next ⟨[1], []⟩)), .toB noReact]

def isMonoSub : Act → Bool
  | .subscribeMono .. => true
  | _ => false

theorem tidy_of {s : Sys Unit} (h1 : callCount s.histA < 2 ^ 30) (h2 : callCount s.histB < 2 ^ 30)
    (h3 : s.histA.countP isMonoSub ≤ 1) (h4 : s.histB.countP isMonoSub ≤ 1) : Tidy s := by
  have once : ∀ (as : List Act), as.countP isMonoSub ≤ 1 → subscribedOnce as := by
    intro as h j
    refine Nat.le_trans (List.countP_mono_left ?_) h
    intro a _ hs
    cases a with
    | subscribeMono i inst => rfl
    | _ => cases hs
  exact ⟨h1, h2, once _ h3, once _ h4⟩

/-- C93 fails: the error frame that rejects a fire-and-forget call is refused by the caller, whose
connection ends with all its streams. -/
theorem C93_fnf_violated : ¬ C93_statement Unit := by
  intro h
  have := h noHandlers noHandlers true unknownFnf (sysAfter (System.run noHandlers noHandlers true unknownFnf)) rfl
    (tidy_of (by decide +kernel) (by decide +kernel) (by decide +kernel) (by decide +kernel))
  exact this.1 _ _ noReact (notFound 1) rfl rfl

/-- So it does after an element on which a transformation fails, if another element follows. -/
theorem C93_map_violated : ¬ C93_statement Unit := by
  intro h
  have := h oneHandler oneHandler true failingMap (sysAfter (System.run oneHandler oneHandler true failingMap)) rfl
    (tidy_of (by decide +kernel) (by decide +kernel) (by decide +kernel) (by decide +kernel))
  exact this.1 (elementFrame 3 ⟨[2], []⟩) [] noReact (notFound 3) rfl rfl

/-- The peer's connection ends if a stream is cancelled early. -/
theorem C93_cancel_violated : ¬ C93_statement Unit := by
  intro h
  have := h oneHandler oneHandler true earlyCancel (sysAfter (System.run oneHandler oneHandler true earlyCancel)) rfl
    (tidy_of (by decide +kernel) (by decide +kernel) (by decide +kernel) (by decide +kernel))
  exact this.2 (.cancel ⟨1⟩) [] noReact (notFound 1) rfl rfl

/-- Or if the input of a channel is fast. -/
theorem C93_channel_violated : ¬ C93_statement Unit := by
  intro h
  have := h oneHandler oneHandler true earlyInput (sysAfter (System.run oneHandler oneHandler true earlyInput)) rfl
    (tidy_of (by decide +kernel) (by decide +kernel) (by decide +kernel) (by decide +kernel))
  exact this.2 (elementFrame 1 ⟨[1], []⟩) [] noReact (notFound 1) rfl rfl

/-! ## What an error of HandleFrame does to the connection -/

section
open Verif.Transport
variable {α : Type}

/-- How much may still be read: one frame, if `Start` is inside `conn.Read`. -/
def readsLeft (c : Conn α) : Nat := match c.r with | .reading | .readingFirst | .first => 1 | _ => 0

/-- An error waits for `Start`. -/
theorem ends_errCh (isSetup : α → Bool) (es : List Transport.Ev) : ∀ (c c' : Conn α), c.errCh = true →
    c.run isSetup es = .ok c' →
    c'.errCh = true ∧ ∃ more, c'.got = c.got ++ more ∧ more.length ≤ readsLeft c ∧ readsLeft c ≤ 1 := by
  have hle : ∀ c : Conn α, readsLeft c ≤ 1 := by
    intro c; unfold readsLeft; split <;> omega
  induction es with
  | nil => intro c c' he h; cases h; exact ⟨he, [], by simp, by simp, hle _⟩
  | cons e es ih =>
    intro c c' he h
    simp only [Conn.run] at h
    obtain ⟨c1, h1, h2⟩ := bind_ok_inv h
    have step : c1.errCh = true ∧ ∃ more, c1.got = c.got ++ more ∧ more.length + readsLeft c1 ≤ readsLeft c := by
      cases e with
      | cancel => cases h1; exact ⟨he, [], by simp, by simp [readsLeft]⟩
      | readEnd =>
        simp only [Conn.step] at h1
        split at h1 <;> cases h1
        · exact ⟨he, [], by simp, by simp [readsLeft]⟩
        · exact ⟨he, [], by simp, by simp [readsLeft]⟩
        · exact ⟨he, [], by simp, by simp⟩
      | handler fail =>
        simp only [Conn.step, handlerStep] at h1
        split at h1
        · split at h1 <;> cases h1
          · exact ⟨by simp [he], [], by simp, by simp [readsLeft]⟩
          · exact ⟨he, [], by simp, by simp [readsLeft]⟩
          · exact ⟨he, [], by simp, by simp⟩
        · obtain ⟨q, -, h3⟩ := bind_ok_inv h1
          cases h3
          exact ⟨he, [], by simp, by simp [readsLeft]⟩
        · cases h1; exact ⟨he, [], by simp, by simp⟩
      | reader fail =>
        simp only [Conn.step, readerStep] at h1
        split at h1
        · rename_i hr
          cases h1
          refine ⟨he, [], by simp, ?_⟩
          simp only [readsLeft, hr]
          split <;> simp
        · rename_i hr
          split at h1
          · cases h1; exact ⟨he, [], by simp, by simp⟩
          · split at h1 <;> cases h1
            · refine ⟨he, [_], rfl, ?_⟩
              simp only [readsLeft, hr]
              cases fail <;> simp
            · exact ⟨he, [_], rfl, by simp [readsLeft, hr]⟩
        · rename_i hr
          cases h1
          exact ⟨he, [], by simp, by simp [readsLeft, he]⟩
        · rename_i hr
          split at h1
          · cases h1; exact ⟨he, [], by simp, by simp⟩
          · obtain ⟨q, -, h3⟩ := bind_ok_inv h1
            cases h3
            exact ⟨he, [_], rfl, by simp [readsLeft, hr]⟩
        · rename_i hr
          cases h1; exact ⟨he, [], by simp, by simp [readsLeft]⟩
        · rename_i hr
          cases h1
          refine ⟨he, [], by simp, ?_⟩
          simp only [readsLeft, hr]
          by_cases hf : c.h = .finished <;> simp [hf]
        · cases h1; exact ⟨he, [], by simp, by simp⟩
    obtain ⟨k1, more, k2, k3⟩ := step
    obtain ⟨k4, more', k5, k6, -⟩ := ih c1 c' k1 h2
    refine ⟨k4, more ++ more', by rw [k5, k2, List.append_assoc], ?_, hle _⟩
    rw [List.length_append]
    omega

/-- `Start` has left its loop. -/
def isDown (c : Conn α) : Prop := c.r = .dispose ∨ c.r = .wait ∨ c.r = .returned

theorem ends_down (isSetup : α → Bool) (es : List Transport.Ev) : ∀ (c c' : Conn α), isDown c →
    c.run isSetup es = .ok c' → isDown c' ∧ c'.got = c.got := by
  induction es with
  | nil => intro c c' hd h; cases h; exact ⟨hd, rfl⟩
  | cons e es ih =>
    intro c c' hd h
    simp only [Conn.run] at h
    obtain ⟨c1, h1, h2⟩ := bind_ok_inv h
    have step : isDown c1 ∧ c1.got = c.got := by
      cases e with
      | cancel => cases h1; exact ⟨hd, rfl⟩
      | readEnd =>
        simp only [Conn.step] at h1
        split at h1 <;> cases h1
        · exact ⟨.inl rfl, rfl⟩
        · exact ⟨.inl rfl, rfl⟩
        · exact ⟨hd, rfl⟩
      | handler fail =>
        simp only [Conn.step, handlerStep] at h1
        split at h1
        · split at h1 <;> cases h1 <;> exact ⟨hd, rfl⟩
        · obtain ⟨q, -, h3⟩ := bind_ok_inv h1
          cases h3
          exact ⟨hd, rfl⟩
        · cases h1; exact ⟨hd, rfl⟩
      | reader fail =>
        simp only [Conn.step, readerStep] at h1
        rcases hd with hr | hr | hr <;> rw [hr] at h1 <;> cases h1
        · exact ⟨.inr (.inl rfl), rfl⟩
        · refine ⟨?_, rfl⟩
          by_cases hf : c.h = .finished <;> simp [isDown, hf]
        · exact ⟨.inr (.inr hr), rfl⟩
    obtain ⟨k1, k2⟩ := ih c1 c' step.1 h2
    exact ⟨k1, k2.trans step.2⟩

/-- In this step HandleFrame was called and returned an error. -/
def handleFailed (isSetup : α → Bool) (c : Conn α) (e : Transport.Ev) (c1 : Conn α) : Prop :=
  (e = .handler true ∨ e = .reader true) ∧ c.step isSetup e = .ok c1 ∧ c1.handled ≠ c.handled

/-- C93: once HandleFrame has returned an error, at most one more frame is read from the connection,
whatever happens. -/
theorem C93_ends (isSetup : α → Bool) (c c1 c' : Conn α) (e : Transport.Ev) (es : List Transport.Ev)
    (hf : handleFailed isSetup c e c1) (h : c1.run isSetup es = .ok c') :
    ∃ more, c'.got = c1.got ++ more ∧ more.length ≤ 1 := by
  have fin : c1.errCh = true ∨ isDown c1 → ∃ more, c'.got = c1.got ++ more ∧ more.length ≤ 1 := by
    rintro (h1 | h1)
    · obtain ⟨-, more, h2, h3, h4⟩ := ends_errCh isSetup es c1 c' h1 h
      exact ⟨more, h2, by omega⟩
    · exact ⟨[], by rw [(ends_down isSetup es c1 c' h1 h).2]; simp, by simp⟩
  obtain ⟨he, h1, h2⟩ := hf
  apply fin
  rcases he with rfl | rfl
  · simp only [Conn.step, handlerStep] at h1
    split at h1
    · split at h1 <;> cases h1
      · left; simp
      · exact absurd rfl h2
      · exact absurd rfl h2
    · obtain ⟨q, -, h3⟩ := bind_ok_inv h1
      cases h3
      exact absurd rfl h2
    · cases h1; exact absurd rfl h2
  · simp only [Conn.step, readerStep] at h1
    split at h1
    · cases h1; exact absurd rfl h2
    · split at h1
      · cases h1; exact absurd rfl h2
      · split at h1 <;> cases h1
        · right; left; rfl
        · exact absurd rfl h2
    · cases h1; exact absurd rfl h2
    · split at h1
      · cases h1; exact absurd rfl h2
      · obtain ⟨q, -, h3⟩ := bind_ok_inv h1
        cases h3
        exact absurd rfl h2
    · cases h1; exact absurd rfl h2
    · cases h1; exact absurd rfl h2
    · cases h1; exact absurd rfl h2

/-- Still reading. -/
def isUp (c : Conn α) : Prop := c.r = .first ∨ c.r = .readingFirst ∨ c.r = .select ∨ c.r = .reading

/-- C93: as long as no call of HandleFrame returns an error, the context is not cancelled and the peer neither
closes the connection nor breaks it, `Start` goes on reading. -/
theorem C93_goes_on (isSetup : α → Bool) (server : Bool) (all : List α) (es : List Transport.Ev) (c : Conn α)
    (hs : server = true → ∀ f rest, all = f :: rest → isSetup f = true)
    (hes : ∀ e ∈ es, e ≠ .cancel ∧ e ≠ .readEnd)
    (hno : ∀ p e q c0 c1, es = p ++ e :: q → (Conn.init server all).run isSetup p = .ok c0 → ¬ handleFailed isSetup c0 e c1)
    (h : (Conn.init server all).run isSetup es = .ok c) : isUp c := by
  have main : ∀ (es : List Transport.Ev) (c0 : Conn α), (∀ e ∈ es, e ≠ .cancel ∧ e ≠ .readEnd) →
      (∀ p e q d d1, es = p ++ e :: q → c0.run isSetup p = .ok d → ¬ handleFailed isSetup d e d1) →
      isUp c0 → c0.errCh = false → c0.ctx = false →
      (c0.r = .first ∨ c0.r = .readingFirst → ∀ f rest, c0.input = f :: rest → isSetup f = true) →
      c0.run isSetup es = .ok c → isUp c := by
    intro es
    induction es with
    | nil => intro c0 _ _ hup _ _ _ h; cases h; exact hup
    | cons e es ih =>
      intro c0 hes hno hup he hc hi h
      simp only [Conn.run] at h
      obtain ⟨c1, h1, h2⟩ := bind_ok_inv h
      have hes' : ∀ e ∈ es, e ≠ .cancel ∧ e ≠ .readEnd := fun e h => hes e (List.mem_cons_of_mem _ h)
      have hno0 : ¬ handleFailed isSetup c0 e c1 := hno [] e es c0 c1 rfl rfl
      have hno' : ∀ p e' q d d1, es = p ++ e' :: q → c1.run isSetup p = .ok d → ¬ handleFailed isSetup d e' d1 := by
        intro p e' q d d1 hp hr
        refine hno (e :: p) e' q d d1 (by rw [hp]; rfl) ?_
        simp only [Conn.run, h1, Go.bind_ok]
        exact hr
      have go : isUp c1 → c1.errCh = false → c1.ctx = false →
          (c1.r = .first ∨ c1.r = .readingFirst → ∀ f rest, c1.input = f :: rest → isSetup f = true) → isUp c :=
        fun h1 h3 h4 h5 => ih c1 hes' hno' h1 h3 h4 h5 h2
      have hh1 := h1
      cases e with
      | cancel => exact absurd rfl (hes .cancel (by simp)).1
      | readEnd => exact absurd rfl (hes .readEnd (by simp)).2
      | reader fail =>
        simp only [Conn.step, readerStep] at h1
        split at h1
        · rename_i hr
          cases h1
          refine go (by simp [isUp, hc]) he hc ?_
          intro _ f rest hf; exact hi (.inl hr) f rest hf
        · rename_i hr
          split at h1
          · cases h1; exact go hup he hc hi
          · rename_i f fs hin
            have := hi (.inr hr) f fs hin
            rw [if_pos this] at h1
            cases h1
            cases fail with
            | true => exact absurd ⟨.inr rfl, hh1, by simp⟩ hno0
            | false => exact go (by simp [isUp]) he hc (by simp)
        · rename_i hr
          cases h1
          exact go (by simp [isUp, hc, he]) he hc (by simp [hc, he])
        · rename_i hr
          split at h1
          · cases h1; exact go hup he hc hi
          · obtain ⟨q, -, h3⟩ := bind_ok_inv h1
            cases h3
            exact go (by simp [isUp]) he hc (by simp)
        · rename_i hr; simp [isUp, hr] at hup
        · rename_i hr; simp [isUp, hr] at hup
        · rename_i hr; simp [isUp, hr] at hup
      | handler fail =>
        simp only [Conn.step, handlerStep] at h1
        split at h1
        · split at h1 <;> cases h1
          · cases fail with
            | true => exact absurd ⟨.inl rfl, hh1, by simp⟩ hno0
            | false => exact go hup (by simp [he]) hc hi
          · exact go hup he hc hi
          · exact go hup he hc hi
        · obtain ⟨q, -, h3⟩ := bind_ok_inv h1
          cases h3
          exact go hup he hc hi
        · cases h1; exact go hup he hc hi
  refine main es _ hes hno ?_ rfl rfl ?_ h
  · cases server <;> simp [isUp, Conn.init]
  · intro hr f rest hf
    cases server with
    | true => exact hs rfl f rest hf
    | false => rcases hr with hr | hr <;> cases hr

/-- Two frames are read and one of them handled. -/
example : ∃ c : Conn Nat, (Conn.init false [5, 6]).run (· == 0) [.reader true, .reader false, .handler false, .reader true] = .ok c ∧
    isUp c ∧ c.handled = [5] ∧
    ∀ p e q c0 c1, [.reader true, .reader false, .handler false, .reader true] = p ++ e :: q →
      (Conn.init false [5, 6]).run (· == 0) p = .ok c0 → ¬ handleFailed (· == 0) c0 e c1 := by
  refine ⟨_, rfl, .inr (.inr (.inr rfl)), rfl, ?_⟩
  intro p e q c0 c1 hp hr ⟨he, h1, h2⟩
  match p, hp with
  | [], hp => cases hp; cases hr; cases h1; exact h2 rfl
  | [a], hp => cases hp; cases hr; rcases he with he | he <;> cases he
  | [a, b], hp => cases hp; cases hr; rcases he with he | he <;> cases he
  | [a, b, c], hp => cases hp; cases hr; cases h1; exact h2 rfl
  | a :: b :: c :: d :: p, hp =>
    have := congrArg List.length hp
    simp at this

/-- Three frames are on their way when HandleFrame refuses the first: the reader, waiting in `conn.Read`,
takes the second and no more; the rest is never read. -/
example : (Conn.init false [5, 6, 7]).run (· == 0)
      [.reader false, .reader false, .reader false, .handler true] =
      .ok ⟨⟨none, false, [], false⟩, .reading, .load, true, false, [6, 7], [5], [5]⟩ ∧
    (Conn.init false [5, 6, 7]).run (· == 0)
      [.reader false, .reader false, .reader false, .handler true, .reader false, .reader false, .reader false, .handler false,
       .handler false, .handler false, .handler false, .reader false] =
      .ok ⟨⟨none, true, [], true⟩, .returned, .finished, true, false, [7], [5, 6], [5, 6]⟩ := ⟨rfl, rfl⟩

end

/-! ## Examples -/

/-- A request the peer rejects, a stream that fails and a stream that goes on. -/
def mixed93 : List Move :=
  [.atA (.call .rr ⟨[1], []⟩ .created), .atA (.subscribeMono 0 ⟨true, true, true⟩), .toB noReact,
   .atA (.call .fnf ⟨[1], eightZeros⟩ .created), .toB noReact,
   .atA (.call .rs ⟨[5], eightZeros⟩ .created),
   .atA (.subscribeFlux 1 ⟨true, true, true, true, true, false⟩ [.request 3]), .atA (.run 0 retCreated), .toB noReact,
   .atB (.run 0 retCreated), .toA noReact, .atB (.run 0 retCreated), .atB (.run 0 retCreated), .atB (.run 0 retCreated),
   .atB (.run 0 retCreated), .atB (.out 1 (.next ⟨[7], [8]⟩)), .toA noReact, .atB (.out 1 (.error (some "no")))]

def end93 : Sys Unit := sysAfter (System.run oneHandler oneHandler true mixed93)

/-- A call of a channel, or of a fire-and-forget operation that `reg` does not export, or a handler
answering with a mapped stream. -/
def unsettled (reg : Registry Unit) : Act → Bool
  | .call .rc _ _ => true
  | .call .fnf p _ => (exported reg .fnf p.metadata).isNone
  | .run _ ⟨_, .mapped _, _⟩ => true
  | _ => false

def isCancelFrame : Frames.AnyFrame → Bool
  | .cancel _ => true
  | _ => false

theorem orderly_of {regA regB : Registry Unit} {s : Sys Unit} (h1 : s.histA.any (unsettled regB) = false)
    (h2 : s.histB.any (unsettled regA) = false) (h3 : (sentFrames s.trA).any isCancelFrame = false)
    (h4 : (sentFrames s.trB).any isCancelFrame = false) : Orderly regA regB s := by
  rw [List.any_eq_false] at h1 h2 h3 h4
  have fnf : ∀ {reg : Registry Unit} {p : Pay} {src : Src}, ¬ unsettled reg (.call .fnf p src) = true →
      (exported reg .fnf p.metadata).isSome = true := by
    intro reg p src h
    cases he : exported reg .fnf p.metadata with
    | none => simp [unsettled, he] at h
    | some => rfl
  have maps : ∀ {reg : Registry Unit} {t : Nat} {ret : Ret}, ¬ unsettled reg (.run t ret) = true → neverFails ret.flux := by
    intro reg t ret h tx htx
    obtain ⟨m, fl, kept⟩ := ret
    cases htx
    exact absurd rfl h
  exact ⟨fun p src h => h1 _ h rfl, fun p src h => h2 _ h rfl, fun f h => h3 _ h rfl, fun f h => h4 _ h rfl,
    fun p src h => fnf (h1 _ h), fun p src h => fnf (h2 _ h), fun t ret h => maps (h1 _ h), fun t ret h => maps (h2 _ h)⟩

/-- The error frame of the failed stream is on the wire; three exchanges are under way or over, one of
them rejected; the frame will be accepted. -/
example : Tidy end93 ∧ Orderly oneHandler oneHandler end93 ∧ end93.ba = [errorFrame 5 "no"] ∧
    (sentFrames end93.trB).length = 3 ∧ accepts end93 := by
  have ht : Tidy end93 := tidy_of (by decide +kernel) (by decide +kernel) (by decide +kernel) (by decide +kernel)
  have ho : Orderly oneHandler oneHandler end93 :=
    orderly_of (by decide +kernel) (by decide +kernel) (by decide +kernel) (by decide +kernel)
  exact ⟨ht, ho, rfl, rfl, C93_partial oneHandler oneHandler true mixed93 end93 rfl ht ho⟩

end
end Verif.Props
