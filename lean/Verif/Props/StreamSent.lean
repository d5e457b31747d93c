import Verif.Props.StreamSeen
import Verif.Props.SystemHandled
/-
What is sent for one stream or channel request that is served.
-/
set_option autoImplicit false
namespace Verif.Props
open Verif Frames Handler
open Verif.Invoke (Kind Registry getHandler)

section
variable {H : Type}

/-! ## Specification -/

/-- What a source tells its sink. -/
def srcSigs : SrcOp → List StreamSig
  | .next p => [.element p]
  | .complete => [.complete]
  | .error e => [.error e]
  | .onSubscribe _ => []

/-- What the source of the flux answering with stream `i` tells its sink. -/
def outSigs (i : Nat) (as : List Act) : List StreamSig :=
  as.flatMap fun | .out j op => if j = i then srcSigs op else [] | _ => []

/-- What `Map` makes of it: the transformation of an element may fail. -/
def mapSig (tx : Pay → Except String Pay) : StreamSig → StreamSig
  | .element p => match tx p with | .ok q => .element q | .error msg => .error (some msg)
  | x => x

/-- What a flux returned by a handler says, given what its source says: `flux.Error` says it itself;
otherwise it is what the source says up to its end, through `Map` if there is one. After a failed
transformation the rest follows (C57_mapped_violated), but it is said to a stream that has ended. -/
def relayed (f : Src) (sigs : List StreamSig) : List StreamSig :=
  match f with
  | .created => cutAtEnd sigs
  | .mapped tx => (cutAtEnd sigs).map (mapSig tx)
  | .failed e => [.error e]

/-- The frames that carry it. -/
def sigFrame (id : UInt32) : StreamSig → List AnyFrame
  | .element p => [.payload ⟨id, p.metadata, p.data, false, false, true⟩]
  | .complete => [.payload ⟨id, [], [], false, true, false⟩]
  | .error (some e) => [.error ⟨id, 0, bytesOf e⟩]
  | .error none => []

/-! ## The subscriber -/

theorem outSigs_append (i : Nat) (a b : List Act) : outSigs i (a ++ b) = outSigs i a ++ outSigs i b := by
  simp [outSigs]

/-- What is done to the subscriber of a stream being answered. -/
def plainOp (op : Flux.Op Pay) : Prop := (∃ o : SrcOp, op = o.op) ∨ ∃ n, op = .call (.request n)

theorem plain_calls_nil (m : Flux.State) : Flux.calls (T := Pay) m [] = (m, []) := rfl

theorem plain_handle (m : Flux.State) : .cancelled ∉ (Flux.handleOnSubscribe (T := Pay) m []).2 := by
  unfold Flux.handleOnSubscribe
  split
  · simp
  · split
    · simp [plain_calls_nil]
    · simp only [Flux.call]
      split <;> simp

theorem plain_step (m : Flux.State) (op : Flux.Op Pay) (h : plainOp op) :
    .cancelled ∉ (Flux.step m op).2 ∧ ∀ cb, op ≠ .notify cb := by
  rcases h with ⟨o, rfl⟩ | ⟨n, rfl⟩
  · refine ⟨?_, fun cb => by cases o <;> simp [SrcOp.op]⟩
    cases o with
    | next p =>
      simp only [SrcOp.op, Flux.step, Flux.next]
      have on : ∀ m' : Flux.State, .cancelled ∉ (Flux.onNext m' p []).2 := by
        intro m'
        unfold Flux.onNext
        split
        · simp [plain_calls_nil]
        · simp
      split
      · simp
      · split
        · simp only [List.mem_append, not_or]
          exact ⟨on _, plain_handle _⟩
        · exact on _
    | complete =>
      simp only [SrcOp.op, Flux.step, Flux.complete]
      split
      · simp
      · simp only [Flux.doFinally, plain_calls_nil]
        split <;> simp <;> split <;> simp
    | error e =>
      simp only [SrcOp.op, Flux.step, Flux.error]
      split
      · simp
      · simp only [Flux.doFinally, plain_calls_nil]
        split <;> simp <;> split <;> simp
    | onSubscribe c =>
      simp only [SrcOp.op, Flux.step]
      split
      · simp
      · dsimp only; split <;> simp
  · refine ⟨?_, fun cb => by simp⟩
    simp only [Flux.step, Flux.call]
    split <;> simp

theorem plain_run (ops : List (Flux.Op Pay)) : ∀ (m : Flux.State), (∀ op ∈ ops, plainOp op) →
    .cancelled ∉ (Flux.runFrom m ops).2 := by
  induction ops with
  | nil => intro m _; simp [Flux.runFrom]
  | cons op ops ih =>
    intro m h
    have e : (Flux.runFrom m (op :: ops)).2 = (Flux.step m op).2 ++ (Flux.runFrom (Flux.step m op).1 ops).2 := rfl
    rw [e]
    simp only [List.mem_append, not_or]
    exact ⟨(plain_step m op (h op (by simp))).1, ih _ fun o ho => h o (by simp [ho])⟩

theorem signals_of_callbacks (t : List (Flux.Ev Pay)) : fluxSignals (fluxCallbacks t) = fluxSignals t := by
  simp only [fluxSignals, fluxCallbacks, List.filter_filter]
  congr 1
  funext e
  cases e <;> rfl

/-- A signal as a callback. -/
def sigEv : StreamSig → Flux.Ev Pay
  | .element p => .next p
  | .complete => .complete
  | .error e => .error e

theorem sigCallbacks_reply (x : StreamSig) : sigCallbacks replyInst x = [sigEv x] := by cases x <;> rfl

theorem flatMap_single {α β : Type} (f : α → β) (l : List α) : l.flatMap (fun x => [f x]) = l.map f := by
  induction l <;> simp_all

theorem fluxSignals_sigEv (l : List StreamSig) : fluxSignals (l.map sigEv) = l.map sigEv := by
  simp only [fluxSignals]
  rw [List.filter_eq_self]
  intro e he
  obtain ⟨x, -, rfl⟩ := List.mem_map.mp he
  cases x <;> rfl

theorem signals_plain (ops : List (Flux.Op Pay)) (h : ∀ op ∈ ops, plainOp op) :
    fluxSignals (Flux.run replyInst [] ops).2 = (cutAtEnd (ops.flatMap opSigs)).map sigEv := by
  have h1 := callbacks_run ops (.init replyInst []) rfl (fun op ho => (plain_step (.init replyInst []) op (h op ho)).2)
    (plain_run ops _ h)
  have h1 : fluxCallbacks (Flux.runFrom (.init replyInst []) ops).2 =
      (cutAtEnd (ops.flatMap opSigs)).flatMap (sigCallbacks replyInst) := h1
  have e : sigCallbacks replyInst = fun x => [sigEv x] := funext sigCallbacks_reply
  rw [e, flatMap_single] at h1
  have h2 := signals_of_callbacks (Flux.runFrom (.init replyInst []) ops).2
  rw [h1, fluxSignals_sigEv] at h2
  exact h2.symm

theorem fluxSignals_mapEv (tx : Pay → Except String Pay) (l : List (Flux.Ev Pay)) :
    fluxSignals (l.flatMap (Flux.mapEv tx replyInst)) = (fluxSignals l).flatMap (Flux.mapEv tx replyInst) := by
  induction l with
  | nil => rfl
  | cons e l ih =>
    rw [List.flatMap_cons, fluxSignals_append, ih]
    cases e with
    | next v =>
      have e1 : fluxSignals (.next v :: l) = .next v :: fluxSignals l := rfl
      rw [e1, List.flatMap_cons]
      congr 1
      simp only [Flux.mapEv]
      cases tx v <;> rfl
    | _ => rfl

theorem relayed_run (f : Src) (ops : List (Flux.Op Pay)) (h : ∀ op ∈ ops, plainOp op) :
    fluxSignals (throughMap f (sourceEvs f ops)) = (relayed f (ops.flatMap opSigs)).map sigEv := by
  cases f with
  | failed e => rfl
  | created => exact signals_plain ops h
  | mapped tx =>
    simp only [throughMap, sourceEvs, relayed]
    rw [fluxSignals_mapEv, signals_plain ops h]
    induction cutAtEnd (ops.flatMap opSigs) with
    | nil => rfl
    | cons x l ih =>
      simp only [List.map_cons, List.flatMap_cons, ih]
      cases x with
      | element p => simp only [sigEv, Flux.mapEv, mapSig]; cases tx p <;> rfl
      | complete => rfl
      | error e => rfl

theorem signalFrame_sigEv (id : UInt32) (x : StreamSig) : signalFrame id (sigEv x) = sigFrame id x := by
  cases x with
  | error e => cases e <;> rfl
  | _ => rfl

theorem frames_relayed (id : UInt32) (l : List StreamSig) :
    (l.map sigEv).flatMap (signalFrame id) = l.flatMap (sigFrame id) := by
  induction l with
  | nil => rfl
  | cons x l ih => simp only [List.map_cons, List.flatMap_cons, ih, signalFrame_sigEv]

theorem replyEvs_message (j : Nat) (id : UInt32) (l : List (Flux.Ev Pay)) : ∀ r : List (Handler.Ev H),
    replyEvs j id l = .ok r → .error none ∉ l := by
  induction l with
  | nil => intro r _; simp
  | cons e l ih =>
    intro r h
    simp only [replyEvs] at h
    obtain ⟨a, h1, h⟩ := bind_ok_inv h
    obtain ⟨b, h2, -⟩ := bind_ok_inv h
    simp only [List.mem_cons, not_or]
    refine ⟨?_, ih b h2⟩
    rintro rfl
    cases h1

/-! ## Steps -/

/-- The stream being answered is as before, up to its input, and nothing was answered. -/
def SameSub (i : Nat) (k : Kind) (id : UInt32) (out : Option (Src × Flux.State)) (b : Bool) (x : Go (Out H)) : Prop :=
  ∀ s' e, x = .ok (s', e) → (∃ inp, s'.objs[i]? = some (.responder k id out b inp)) ∧
    (framesBy i e).filter isReply = []

theorem kept_panic (i : Nat) (k : Kind) (id : UInt32) (out : Option (Src × Flux.State)) (b : Bool) :
    SameSub (H := H) i k id out b .panic := by intro _ _ h; cases h

theorem kept_demand (i : Nat) (id : UInt32) (l : List (Flux.Ev Pay)) :
    (framesBy i (demandEvs i id (.inp i : Flux.Ev Pay → Handler.Ev H) l)).filter isReply = [] := by
  rw [List.filter_eq_nil_iff]
  intro f hf
  rw [framesBy_demandEvs i id (.inp i : Flux.Ev Pay → Handler.Ev H) (fun _ => rfl) l f hf]
  simp [isReply]

theorem kept_onInp {i : Nat} {k : Kind} {id : UInt32} {out : Option (Src × Flux.State)} {b : Bool} {s : St H}
    (hi : i < s.objs.length) (st : Flux.State) (op : Flux.Op Pay) :
    SameSub i k id out b (.ok (onInp s i k id out b st op)) := by
  intro s' e h
  cases h
  exact ⟨⟨_, List.getElem?_set_self hi⟩, kept_demand i id _⟩

theorem kept_deliver {i : Nat} {k : Kind} {id : UInt32} {out : Option (Src × Flux.State)} {b : Bool} {s : St H}
    (ho : ∃ inp, s.objs[i]? = some (.responder k id out b inp)) (op : Flux.Op Pay) :
    SameSub i k id out b (deliver s i op) := by
  obtain ⟨inp, ho⟩ := ho
  have hi := (List.getElem?_eq_some_iff.mp ho).1
  unfold deliver
  rw [ho]
  cases inp with
  | none => exact kept_panic _ _ _ _ _
  | some st => exact kept_onInp hi st op

theorem kept_andThen {i : Nat} {k : Kind} {id : UInt32} {out : Option (Src × Flux.State)} {b : Bool}
    {x : Go (Out H)} {f : St H → Go (Out H)} (hx : SameSub i k id out b x)
    (hf : ∀ s, (∃ inp, s.objs[i]? = some (.responder k id out b inp)) → SameSub i k id out b (f s)) :
    SameSub i k id out b (andThen x f) := by
  intro s' e h
  obtain ⟨s1, e1, e2, h1, h2, rfl⟩ := andThen_ok h
  obtain ⟨h3, h4⟩ := hx _ _ h1
  obtain ⟨h5, h6⟩ := hf _ h3 _ _ h2
  exact ⟨h5, by rw [framesBy_append, List.filter_append, h4, h6]; rfl⟩

theorem kept_nop {i : Nat} {k : Kind} {id : UInt32} {out : Option (Src × Flux.State)} {b : Bool} {s : St H}
    (ho : ∃ inp, s.objs[i]? = some (.responder k id out b inp)) : SameSub i k id out b (.ok (s, [])) := by
  intro s' e h
  cases h
  exact ⟨ho, rfl⟩

theorem kept_closing {i : Nat} {k : Kind} {id : UInt32} {out : Option (Src × Flux.State)} {b : Bool} {s : St H}
    (x : UInt32) (ho : ∃ inp, s.objs[i]? = some (.responder k id out b inp)) : SameSub i k id out b (closing x s) := by
  intro s' e h
  cases h
  exact ⟨by rw [remove_objs]; exact ho, rfl⟩

theorem kept_dispatch {i : Nat} {k : Kind} {id : UInt32} {out : Option (Src × Flux.State)} {b : Bool} {s : St H}
    (ho : ∃ inp, s.objs[i]? = some (.responder k id out b inp)) (r : React) (f : AnyFrame)
    (hf : f.type ≥ typeRequestN) : SameSub i k id out b (dispatch s r f (some i)) := by
  cases f with
  | setup v => exact absurd hf (by simp only [AnyFrame.type]; decide)
  | request v =>
    simp only [dispatch]
    split
    · intro s' e h; cases h; exact ⟨ho, rfl⟩
    · exact kept_nop ho
  | requestN v =>
    simp only [dispatch]
    split
    · intro s' e h; cases h; exact ⟨ho, rfl⟩
    · exact kept_panic _ _ _ _ _
  | cancel v => exact kept_andThen (kept_deliver ho _) fun s h => kept_closing _ h
  | payload v =>
    simp only [dispatch]
    refine kept_andThen ?_ fun s h => ?_
    · split
      · exact kept_deliver ho _
      · exact kept_nop ho
    · split
      · exact kept_andThen (kept_deliver h _) fun s h => kept_closing _ h
      · exact kept_nop h
  | error v =>
    exact kept_andThen (kept_deliver ho _) fun s h => kept_andThen (kept_deliver h _) fun s h => kept_closing _ h

/-- What a step does to a stream being answered. -/
inductive Answers (i : Nat) (k : Kind) (id : UInt32) (out : Option (Src × Flux.State)) (b : Bool) (s : St H) (a : Act)
    (s' : St H) (e : List (Handler.Ev H)) : Prop
  | kept (inp : Option Flux.State) (obj : s'.objs[i]? = some (.responder k id out b inp))
      (frames : (framesBy i e).filter isReply = [])
      (sigs : ∀ f st, out = some (f, st) → f.noSubscription = false → outSigs i [a] = [])
      (nosub : ∀ t ret f n, a = .run t ret → s.tasks[t]? ≠ some (.subscribe i f n))
  | subscribed (t : Nat) (ret : Ret) (f : Src) (n : UInt32) (inp : Option Flux.State) (act : a = .run t ret)
      (task : s.tasks[t]? = some (.subscribe i f n))
      (obj : s'.objs[i]? = some (.responder k id (some (f, (subscribeSrc f).1)) b inp))
      (evs : replyEvs i id (throughMap f (subscribeSrc f).2) = .ok e)
  | op (f g : Src) (st : Flux.State) (op : Flux.Op Pay) (b' : Bool) (inp : Option Flux.State) (before : out = some (f, st))
      (plain : plainOp op) (sigs : opSigs op = outSigs i [a])
      (src : (g = f ∧ (f.noSubscription = false ∨ b = true)) ∨
        (g.noSubscription = false ∧ ∃ n, .firstRequest i g n ∈ s.tasks))
      (obj : s'.objs[i]? = some (.responder k id (some (g, (Flux.step st op).1)) b' inp))
      (evs : replyEvs i id (throughMap g (Flux.step st op).2) = .ok e)
      (nosub : ∀ t ret f n, a = .run t ret → s.tasks[t]? ≠ some (.subscribe i f n))

theorem onOut_ok {s s' : St H} {j : Nat} {k : Kind} {id : UInt32} {f : Src} {b : Bool} {inp : Option Flux.State}
    {r : Flux.State × List (Flux.Ev Pay)} {e : List (Handler.Ev H)} (hj : j < s.objs.length)
    (h : onOut s j k id f b inp r = .ok (s', e)) :
    s'.objs[j]? = some (.responder k id (some (f, r.1)) b inp) ∧ replyEvs j id (throughMap f r.2) = .ok e := by
  unfold onOut at h
  obtain ⟨es, h1, h2⟩ := bind_ok_inv h
  cases h2
  exact ⟨List.getElem?_set_self hj, h1⟩

theorem replyEvs_noerr (i : Nat) (id : UInt32) (l : List (Flux.Ev Pay)) (msg : String) :
    replyEvs (H := H) i id l ≠ .err msg := by
  induction l with
  | nil => intro h; cases h
  | cons x l ih =>
    intro h
    simp only [replyEvs] at h
    cases hx : replyEv (H := H) i id x with
    | panic => rw [hx] at h; cases h
    | err m => unfold replyEv at hx; split at hx <;> cases hx
    | ok a =>
      rw [hx, Go.bind_ok] at h
      cases hl : replyEvs (H := H) i id l with
      | panic => rw [hl] at h; cases h
      | err m => rw [hl] at h; cases h; exact ih hl
      | ok b => rw [hl] at h; cases h

theorem onOut_settle {s0 s s' : St H} {j : Nat} {k : Kind} {id : UInt32} {f : Src} {b : Bool} {inp : Option Flux.State}
    {r : Flux.State × List (Flux.Ev Pay)} {e : List (Handler.Ev H)} (hj : j < s.objs.length)
    (h : settle s0 (onOut s j k id f b inp r) = .ok (s', e)) :
    s'.objs[j]? = some (.responder k id (some (f, r.1)) b inp) ∧ replyEvs j id (throughMap f r.2) = .ok e := by
  apply onOut_ok hj
  cases hx : onOut s j k id f b inp r with
  | ok y => rw [hx] at h; exact h
  | panic => rw [hx] at h; cases h
  | err m =>
    unfold onOut at hx
    cases hy : replyEvs (H := H) j id (throughMap f r.2) with
    | ok es => rw [hy] at hx; cases hx
    | panic => rw [hy] at hx; cases hx
    | err m => exact absurd hy (replyEvs_noerr _ _ _ _)

theorem opSigs_op (o : SrcOp) : opSigs o.op = srcSigs o := by cases o <;> rfl

theorem responder_step {s s' : St H} {i : Nat} {k : Kind} {id : UInt32} {out : Option (Src × Flux.State)} {b : Bool}
    {inp : Option Flux.State} {e : List (Handler.Ev H)} (ho : s.objs[i]? = some (.responder k id out b inp)) (a : Act)
    (hs : settle s (Handler.step s a) = .ok (s', e)) : Answers i k id out b s a s' e := by
  have hi : i < s.objs.length := (List.getElem?_eq_some_iff.mp ho).1
  have keep : (∀ f st, out = some (f, st) → f.noSubscription = false → outSigs i [a] = []) →
      (∀ t ret f n, a = .run t ret → s.tasks[t]? ≠ some (.subscribe i f n)) →
      SameSub i k id out b (settle s (Handler.step s a)) → Answers i k id out b s a s' e := by
    intro h1 h2 h3
    obtain ⟨⟨inp', h4⟩, h5⟩ := h3 _ _ hs
    exact .kept inp' h4 h5 h1 h2
  have nop : outSigs i [a] = [] → (∀ t ret f n, a = .run t ret → s.tasks[t]? ≠ some (.subscribe i f n)) →
      Handler.step s a = .ok (s, []) → Answers i k id out b s a s' e := by
    intro h1 h2 h3
    exact keep (fun _ _ _ _ => h1) h2 (by rw [h3]; exact kept_nop ⟨inp, ho⟩)
  by_cases hact : actsOn s a = some i
  · cases a with
    | frame f r =>
      simp only [actsOn] at hact
      split at hact
      · rename_i hf
        refine keep (fun _ _ _ _ => rfl) (fun _ _ _ _ h => by cases h) ?_
        have e1 : Handler.step s (.frame f r) = dispatch s r f (some i) := by
          simp only [Handler.step, handleFrame, hf, if_true, hact]
        rw [e1]
        intro s2 e2 h2
        cases hd : dispatch s r f (some i) with
        | ok y => rw [hd] at h2; exact kept_dispatch ⟨inp, ho⟩ r f hf _ _ (hd.trans h2)
        | panic => rw [hd] at h2; cases h2
        | err m => rw [hd] at h2; cases h2; exact ⟨⟨inp, ho⟩, rfl⟩
      · cases hact
    | run t ret =>
      simp only [actsOn] at hact
      cases ht : s.tasks[t]? with
      | none => rw [ht] at hact; cases hact
      | some task =>
        rw [ht] at hact
        have hto : task.obj = some i := hact
        simp only [Handler.step, ht] at hs
        cases task with
        | request => cases hto
        | subscribe j f n =>
          simp only [Task.obj, Option.some.injEq] at hto
          subst hto
          simp only [runTask, ho] at hs
          obtain ⟨h1, h2⟩ := onOut_settle (s := addTasks { s with tasks := s.tasks.eraseIdx t } [.firstRequest j f n]) hi hs
          exact .subscribed t ret f n inp rfl ht h1 h2
        | firstRequest j f n =>
          simp only [Task.obj, Option.some.injEq] at hto
          subst hto
          cases out with
          | none => simp only [runTask, ho] at hs; cases hs
          | some x =>
            obtain ⟨g, st⟩ := x
            simp only [runTask, ho] at hs
            split at hs
            · cases hs
            · rename_i hf
              obtain ⟨h1, h2⟩ := onOut_settle (s := { s with tasks := s.tasks.eraseIdx t }) hi hs
              exact .op g f st (.call (.request n.toNat)) true inp rfl (.inr ⟨_, rfl⟩) rfl
                (.inr ⟨by simpa using hf, n, List.mem_of_getElem? ht⟩) h1 h2
                (fun t' ret' f' n' h => by cases h; rw [ht]; simp)
        | doRequest j n =>
          simp only [Task.obj, Option.some.injEq] at hto
          subst hto
          cases out with
          | none => cases b <;> simp only [runTask, ho] at hs <;> cases hs
          | some x =>
            obtain ⟨f, st⟩ := x
            cases b with
            | false => simp only [runTask, ho] at hs; cases hs
            | true =>
              simp only [runTask, ho] at hs
              obtain ⟨h1, h2⟩ := onOut_settle (s := { s with tasks := s.tasks.eraseIdx t }) hi hs
              exact .op f f st (.call (.request n)) true inp rfl (.inr ⟨_, rfl⟩) rfl
                (.inl ⟨rfl, .inr rfl⟩) h1 h2
                (fun t' ret' f' n' h => by cases h; rw [ht]; simp)
        | upRequest j n =>
          simp only [Task.obj, Option.some.injEq] at hto
          subst hto
          simp only [runTask, ho] at hs
          cases hs
          refine .kept inp ho ?_ (fun _ _ _ _ => rfl) (fun t' ret' f' n' h => by cases h; rw [ht]; simp)
          simp [framesBy, isReply]
        | subscribeIn j =>
          simp only [Task.obj, Option.some.injEq] at hto
          subst hto
          simp only [runTask, ho] at hs
          cases hs
    | out j op =>
      simp only [actsOn, Option.some.injEq] at hact
      subst hact
      cases out with
      | none =>
        refine keep (fun _ _ h => by cases h) (fun _ _ _ _ h => by cases h) ?_
        simp only [Handler.step, ho]
        exact kept_nop ⟨inp, ho⟩
      | some x =>
        obtain ⟨f, st⟩ := x
        simp only [Handler.step, ho] at hs
        split at hs
        · rename_i hf
          cases hs
          refine .kept inp ho rfl ?_ (fun _ _ _ _ h => by cases h)
          intro f' st' h h'
          cases h
          rw [hf] at h'; cases h'
        · rename_i hf
          obtain ⟨h1, h2⟩ := onOut_settle hi hs
          refine .op f f st op.op b inp rfl (.inl ⟨op, rfl⟩) ?_ (.inl ⟨rfl, .inl (by simpa using hf)⟩) h1 h2
            (fun _ _ _ _ h => by cases h)
          simp [outSigs, opSigs_op]
    | subscribeInp j inst start =>
      simp only [actsOn, Option.some.injEq] at hact
      subst hact
      refine keep (fun _ _ _ _ => rfl) (fun _ _ _ _ h => by cases h) ?_
      cases k with
      | rc =>
        cases inp with
        | none =>
          simp only [Handler.step, ho]
          intro s2 e2 h2
          cases h2
          exact ⟨⟨_, List.getElem?_set_self hi⟩, kept_demand j id _⟩
        | some st => simp only [Handler.step, ho]; exact kept_nop ⟨_, ho⟩
      | _ => simp only [Handler.step, ho]; exact kept_nop ⟨_, ho⟩
    | inpCall j c =>
      simp only [actsOn, Option.some.injEq] at hact
      subst hact
      refine keep (fun _ _ _ _ => rfl) (fun _ _ _ _ h => by cases h) ?_
      cases inp with
      | none => simp only [Handler.step, ho]; exact kept_nop ⟨_, ho⟩
      | some st => simp only [Handler.step, ho]; exact kept_onInp hi st _
    | call => cases hact
    | _ =>
      simp only [actsOn, Option.some.injEq] at hact
      subst hact
      exact nop rfl (fun _ _ _ _ h => by cases h) (by simp only [Handler.step, ho])
  · obtain ⟨h1, h2⟩ := idle_settle s a hi hact _ _ hs
    refine .kept inp (h1.trans ho) (by rw [framesBy_nil_of_evsOf h2]; rfl) ?_ ?_
    · intro f st _ _
      cases a with
      | out j op =>
        have : j ≠ i := by rintro rfl; exact hact rfl
        simp [outSigs, this]
      | _ => rfl
    · rintro t ret f n rfl hc
      exact hact (by simp [actsOn, hc, Task.obj])

/-! ## Goroutines of the stream -/

/-- Until the flux is subscribed to, the goroutine that will do so is there, and it will subscribe to `f`. -/
def SubTask (j : Nat) (f : Src) (o : Obj) (ts : List Task) : Prop :=
  (∀ g n, .subscribe j g n ∈ ts → g = f) ∧
  ∀ k id b inp, o = .responder k id none b inp → ∃ n, .subscribe j f n ∈ ts

theorem demandTasks_no_sub (j i : Nat) (g : Src) (n : UInt32) (l : List (Flux.Ev Pay)) :
    .subscribe i g n ∉ demandTasks j l := by
  induction l with
  | nil => simp [demandTasks]
  | cons e l ih => cases e <;> simp_all [demandTasks]

theorem subTask_step {j : Nat} {f : Src} {o o' : Obj} {ts ts' : List Task} {es : List (Handler.Ev H)}
    (hi : SubTask j f o ts) (ho : objTag o = 1) (h : CStep j o ts o' ts' es) : SubTask j f o' ts' := by
  obtain ⟨h1, h2⟩ := hi
  have more : ∀ (o o' : Obj) (ts xs : List Task), (∀ g n, .subscribe j g n ∈ ts → g = f) →
      (∀ k id b inp, o = .responder k id none b inp → ∃ n, .subscribe j f n ∈ ts) →
      (∀ k id b inp, o' = .responder k id none b inp → ∃ k id b inp, o = .responder k id none b inp) →
      (∀ g n, .subscribe j g n ∉ xs) → SubTask j f o' (ts ++ xs) := by
    intro o o' ts xs h1 h2 h3 h4
    refine ⟨fun g n hm => h1 g n ((List.mem_append.mp hm).resolve_right (h4 g n)), fun k id b inp he => ?_⟩
    obtain ⟨_, _, _, _, he⟩ := h3 _ _ _ _ he
    obtain ⟨n, hn⟩ := h2 _ _ _ _ he
    exact ⟨n, List.mem_append_left _ hn⟩
  have less : ∀ (o o' : Obj) (ts : List Task) (x : Task), (∀ g n, .subscribe j g n ∈ x :: ts → g = f) →
      (∀ k id b inp, o = .responder k id none b inp → ∃ n, .subscribe j f n ∈ x :: ts) →
      (∀ k id b inp, o' = .responder k id none b inp → ∃ k id b inp, o = .responder k id none b inp) →
      (∀ g n, .subscribe j g n ≠ x) → SubTask j f o' ts := by
    intro o o' ts x h1 h2 h3 h4
    refine ⟨fun g n hm => h1 g n (List.mem_cons_of_mem _ hm), fun k id b inp he => ?_⟩
    obtain ⟨_, _, _, _, he⟩ := h3 _ _ _ _ he
    obtain ⟨n, hn⟩ := h2 _ _ _ _ he
    exact ⟨n, (List.mem_cons.mp hn).resolve_left (h4 f n)⟩
  cases h with
  | outSub _ _ _ _ _ g n ts =>
    refine ⟨fun g' n' hm => ?_, fun k id b inp he => by cases he⟩
    rcases List.mem_append.mp hm with hm | hm
    · exact h1 g' n' (List.mem_cons_of_mem _ hm)
    · simp at hm
  | outFirst => exact less _ _ _ _ h1 h2 (fun _ _ _ _ he => by cases he) (by simp)
  | outReq => exact less _ _ _ _ h1 h2 (fun _ _ _ _ he => by cases he) (by simp)
  | out => exact ⟨h1, fun k id b inp he => by cases he⟩
  | inp _ _ out b st ts op _ =>
    refine more _ _ _ _ h1 h2 (fun k' id' b' inp' he => ?_) (fun g n => demandTasks_no_sub _ _ _ _ _)
    cases he; exact ⟨_, _, _, _, rfl⟩
  | inpSub _ out b ts =>
    refine more _ _ _ _ h1 h2 (fun k' id' b' inp' he => ?_) (fun g n => demandTasks_no_sub _ _ _ _ _)
    cases he; exact ⟨_, _, _, _, rfl⟩
  | inpUp => exact less _ _ _ _ h1 h2 (fun k' id' b' inp' he => ⟨_, _, _, _, he⟩) (by simp)
  | asked o ts n =>
    exact more _ _ _ _ h1 h2 (fun k' id' b' inp' he => ⟨_, _, _, _, he⟩) (by simp)
  | _ => cases ho

theorem subTask_run {j : Nat} {f : Src} {o o' : Obj} {ts ts' : List Task} {es : List (Handler.Ev H)}
    (hi : SubTask j f o ts) (ho : objTag o = 1) (h : CRun j o ts o' ts' es) : SubTask j f o' ts' := by
  induction h with
  | refl => exact hi
  | perm _ _ _ _ _ hp ih =>
    exact ⟨fun g n hm => (ih).1 g n (hp.mem_iff.mpr hm), fun k id b inp he => by
      obtain ⟨n, hn⟩ := ih.2 k id b inp he
      exact ⟨n, hp.mem_iff.mp hn⟩⟩
  | step _ _ _ _ _ _ hr hs ih => exact subTask_step ih ((tag_run hr).trans ho) hs

/-- The frames of a stream that is no channel are replies. -/
structure OnlyReplies (j : Nat) (o : Obj) (ts : List Task) (es : List (Handler.Ev H)) : Prop where
  obj : ∃ id out b, o = .responder .rs id out b none
  tasks : ∀ n, .upRequest j n ∉ ts
  frames : (framesBy j es).filter isReply = framesBy j es

theorem onlyReplies_step {j : Nat} {o o' : Obj} {ts ts' : List Task} {es es' : List (Handler.Ev H)}
    (inv : OnlyReplies j o ts es) (h : CStep j o ts o' ts' es') : OnlyReplies j o' ts' (es ++ es') := by
  obtain ⟨⟨id, out, b, rfl⟩, h2, h3⟩ := inv
  have frames : ∀ l, framesBy j es' = List.flatMap (signalFrame id) l →
      (framesBy j (es ++ es')).filter isReply = framesBy j (es ++ es') := by
    intro l hl
    rw [framesBy_append, List.filter_append, h3, hl, signalFrames_reply]
  cases h with
  | outSub _ _ _ _ _ f n ts _ h =>
    refine ⟨⟨_, _, _, rfl⟩, fun n' hm => ?_, frames _ (framesBy_replyEvs j id _ _ h)⟩
    rcases List.mem_append.mp hm with hm | hm
    · exact h2 n' (List.mem_cons_of_mem _ hm)
    · simp at hm
  | outFirst _ _ g st _ _ f n ts _ hf h =>
    exact ⟨⟨_, _, _, rfl⟩, fun n' hm => h2 n' (List.mem_cons_of_mem _ hm), frames _ (framesBy_replyEvs j id _ _ h)⟩
  | outReq _ _ f st _ n ts _ h =>
    exact ⟨⟨_, _, _, rfl⟩, fun n' hm => h2 n' (List.mem_cons_of_mem _ hm), frames _ (framesBy_replyEvs j id _ _ h)⟩
  | out _ _ f st _ _ ts _ op hf h =>
    exact ⟨⟨_, _, _, rfl⟩, h2, frames _ (framesBy_replyEvs j id _ _ h)⟩
  | inpUp _ _ _ _ _ n ts => exact absurd (List.mem_cons_self ..) (h2 n)
  | asked =>
    refine ⟨⟨_, _, _, rfl⟩, fun n' hm => ?_, ?_⟩
    · rcases List.mem_append.mp hm with hm | hm
      · exact h2 n' hm
      · simp at hm
    · rw [List.append_nil]; exact h3

theorem onlyReplies_run {j : Nat} {o o' : Obj} {ts ts' : List Task} {es0 es : List (Handler.Ev H)}
    (inv : OnlyReplies j o ts es0) (h : CRun j o ts o' ts' es) : OnlyReplies j o' ts' (es0 ++ es) := by
  induction h with
  | refl => simpa using inv
  | perm _ _ _ _ _ hp ih => exact ⟨ih.obj, fun n hm => ih.tasks n (hp.mem_iff.mpr hm), ih.frames⟩
  | step _ _ _ _ _ _ _ hs ih => rw [← List.append_assoc]; exact onlyReplies_step ih hs

theorem onlyReplies_history (reg : Registry H) (client : Bool) (as : List Act) (s : St H)
    (tr : List (Handler.Ev H)) (h : Handler.run reg client as = .ok (s, tr)) (j : Nat)
    (id : UInt32) (out : Option (Src × Flux.State)) (b : Bool) (inp : Option Flux.State)
    (ho : s.objs[j]? = some (.responder .rs id out b inp)) :
    (framesBy j tr).filter isReply = framesBy j tr := by
  rcases Handler.history reg client as s tr h j with ⟨h1, -⟩ | ⟨o0, ts0, es0, o, es, hb, ho', hr, he⟩
  · rw [ho] at h1; cases h1
  · rw [ho] at ho'; cases ho'
    have ht := tag_run hr
    have hk : ∀ k' id' ts', CRun j (.responder k' id' none false none) ts' (.responder .rs id out b inp)
        (tasksOf j s.tasks) es → k' = .rs := by
      intro k' id' ts' hr
      have hkk : ∀ {o : Obj} {ts : List Task} {es : List (Handler.Ev H)},
          CRun j (.responder k' id' none false none) ts' o ts es → ∃ id out b inp, o = .responder k' id out b inp := by
        intro o ts es hr
        induction hr with
        | refl => exact ⟨_, _, _, _, rfl⟩
        | perm _ _ _ _ _ _ ih => exact ih
        | step _ _ _ _ _ _ _ hs ih =>
          obtain ⟨_, _, _, _, rfl⟩ := ih
          cases hs <;> exact ⟨_, _, _, _, rfl⟩
      obtain ⟨_, _, _, _, he⟩ := hkk hr
      cases he; rfl
    cases hb with
    | fnf id' => have := hk _ _ _ hr; cases this
    | stream k' id' f n _ _ hes =>
      have := hk _ _ _ hr
      subst this
      have := (onlyReplies_run (es0 := es0) ⟨⟨_, _, _, rfl⟩, by simp, by rw [framesBy_born (hes.imp_right And.right)]; rfl⟩ hr).frames
      rw [← he, framesBy_evsOf] at this
      exact this
    | _ => cases ht

/-! ## Histories -/

/-- The flux answering with stream `i` has been subscribed to, and its source has said `sigs` since. -/
def Streaming (i : Nat) (k : Kind) (id : UInt32) (f : Src) (sigs : List StreamSig) (s : St H)
    (tr : List (Handler.Ev H)) : Prop :=
  ∃ st b inp ops, s.objs[i]? = some (.responder k id (some (f, st)) b inp) ∧
    st = (Flux.run replyInst [] ops).1 ∧ (∀ op ∈ ops, plainOp op) ∧
    (f.noSubscription = false → ops.flatMap opSigs = sigs) ∧
    (framesBy i tr).filter isReply = (fluxSignals (throughMap f (sourceEvs f ops))).flatMap (signalFrame id) ∧
    .error none ∉ throughMap f (sourceEvs f ops)

theorem relayed_failed (f : Src) (hf : f.noSubscription = true) (a b : List StreamSig) : relayed f a = relayed f b := by
  cases f with
  | failed e => rfl
  | _ => cases hf

theorem Streaming.frames {i : Nat} {k : Kind} {id : UInt32} {f : Src} {sigs : List StreamSig} {s : St H}
    {tr : List (Handler.Ev H)} (h : Streaming i k id f sigs s tr) :
    (framesBy i tr).filter isReply = (relayed f sigs).flatMap (sigFrame id) ∧ .error none ∉ relayed f sigs := by
  obtain ⟨st, b, inp, ops, -, -, h1, h2, h3, h4⟩ := h
  have e : relayed f sigs = relayed f (ops.flatMap opSigs) := by
    rcases (Bool.eq_false_or_eq_true f.noSubscription).symm with hf | hf
    · rw [h2 hf]
    · exact relayed_failed f hf _ _
  have hr := relayed_run f ops h1
  rw [e]
  refine ⟨by rw [h3, hr, frames_relayed], fun hm => h4 ?_⟩
  have : (.error none : Flux.Ev Pay) ∈ fluxSignals (throughMap f (sourceEvs f ops)) := by
    rw [hr]; exact List.mem_map.mpr ⟨_, hm, rfl⟩
  exact (List.mem_filter.mp this).1

theorem tasksOf_mem {j : Nat} {ts : List Task} {t : Task} (h : t ∈ ts) (ht : t.obj = some j) : t ∈ tasksOf j ts :=
  List.mem_filter.mpr ⟨h, by simp [ht]⟩

theorem streaming_step {reg : Registry H} {client : Bool} {as : List Act} {s s' : St H}
    {tr e : List (Handler.Ev H)} (h : Handler.run reg client as = .ok (s, tr)) (i : Nat) (k : Kind) (id : UInt32)
    (f : Src) (sigs : List StreamSig) (a : Act) (inv : Streaming i k id f sigs s tr)
    (hs : settle s (Handler.step s a) = .ok (s', e)) :
    Streaming i k id f (sigs ++ outSigs i [a]) s' (tr ++ e) := by
  obtain ⟨st, b, inp, ops, ho, h1, h2, h3, h4, h5⟩ := inv
  obtain ⟨⟨out', b', inp', heq, hout⟩, -⟩ := rs_history reg client as s tr h i k id _ b inp ho
  cases heq
  obtain ⟨q1, q2, q3, -⟩ := hout
  cases responder_step ho a hs with
  | kept inp' obj frames hsigs nosub =>
    refine ⟨st, b, inp', ops, obj, h1, h2, fun hf => ?_, ?_, h5⟩
    · rw [hsigs f st rfl hf, List.append_nil, h3 hf]
    · rw [framesBy_append, List.filter_append, frames, List.append_nil, h4]
  | subscribed t ret g n inp' act task obj evs =>
    exfalso
    have hm := tasksOf_mem (List.mem_of_getElem? task) (rfl : Task.obj (.subscribe i g n) = some i)
    rw [List.countP_eq_zero] at q1
    exact q1 _ hm rfl
  | op f' g st' op b' inp' before plain hsigs src obj evs nosub =>
    cases before
    have hg : g = f ∧ f.noSubscription = false := by
      rcases src with ⟨rfl, hn | hb⟩ | ⟨hn, n, hm⟩
      · exact ⟨rfl, hn⟩
      · exact ⟨rfl, q3 hb⟩
      · have := q2 i g n (tasksOf_mem hm rfl)
        subst this
        exact ⟨rfl, hn⟩
    obtain ⟨rfl, hn⟩ := hg
    have hev : sourceEvs g ops ++ (Flux.step st op).2 = sourceEvs g (ops ++ [op]) := by
      cases g
      case failed e => simp [Src.noSubscription] at hn
      all_goals simp only [sourceEvs, flux_run_snoc, ← h1]
    refine ⟨_, b', inp', ops ++ [op], obj, by rw [flux_run_snoc, ← h1], ?_, fun hf => ?_, ?_, ?_⟩
    · intro o hm
      rcases List.mem_append.mp hm with hm | hm
      · exact h2 o hm
      · rw [List.mem_singleton.mp hm]; exact plain
    · rw [List.flatMap_append, h3 hf, ← hsigs]; simp
    · rw [framesBy_append, List.filter_append, h4, framesBy_replyEvs i id _ _ evs, signalFrames_reply,
        ← List.flatMap_append, ← fluxSignals_append, ← throughMap_append, hev]
    · rw [← hev, throughMap_append, List.mem_append, not_or]
      exact ⟨h5, replyEvs_message _ _ _ _ evs⟩

/-- The handler has been invoked, and the flux it returned has not been subscribed to yet. -/
def Pending (i : Nat) (k : Kind) (id : UInt32) (f : Src) (s : St H) (tr : List (Handler.Ev H)) : Prop :=
  (∃ b inp, s.objs[i]? = some (.responder k id none b inp)) ∧ (framesBy i tr).filter isReply = [] ∧
  ∃ o, s.objs[i]? = some o ∧ SubTask i f o (tasksOf i s.tasks)

/-- What has become of a flux returned by a handler since the handler was invoked. -/
def Since (reg : Registry H) (client : Bool) (as1 : List Act) (i : Nat) (k : Kind) (id : UInt32) (f : Src)
    (as2 : List Act) (s : St H) (tr : List (Handler.Ev H)) : Prop :=
  Pending i k id f s tr ∨
  ∃ as3 as4 t' ret' n s3 t3, as2 = as3 ++ .run t' ret' :: as4 ∧
    Handler.run reg client (as1 ++ as3) = .ok (s3, t3) ∧ s3.tasks[t']? = some (.subscribe i f n) ∧
    Streaming i k id f (outSigs i as4) s tr

theorem since_step {reg : Registry H} {client : Bool} {as1 as2 : List Act} {s s' : St H}
    {tr e : List (Handler.Ev H)} (h : Handler.run reg client (as1 ++ as2) = .ok (s, tr)) (i : Nat) (k : Kind)
    (id : UInt32) (f : Src) (a : Act) (inv : Since reg client as1 i k id f as2 s tr)
    (hs : settle s (Handler.step s a) = .ok (s', e)) :
    Since reg client as1 i k id f (as2 ++ [a]) s' (tr ++ e) := by
  rcases inv with ⟨⟨b, inp, ho⟩, hfr, o, ho', hsub⟩ | ⟨as3, as4, t', ret', n, s3, t3, h1, h2, h3, h4⟩
  · rw [ho] at ho'; cases ho'
    cases responder_step ho a hs with
    | kept inp' obj frames hsigs nosub =>
      left
      refine ⟨⟨b, inp', obj⟩, by rw [framesBy_append, List.filter_append, hfr, frames]; rfl, _, obj, ?_⟩
      obtain ⟨o', q1, q2⟩ := (loc_settle i s _ (loc_step i s a) s' e hs).1 _ ho
      rw [obj] at q1; cases q1
      exact subTask_run hsub rfl q2
    | subscribed t ret g n inp' act task obj evs =>
      right
      have hg : g = f := hsub.1 g n (tasksOf_mem (List.mem_of_getElem? task) rfl)
      subst hg
      subst act
      refine ⟨as2, [], t, ret, n, s, tr, rfl, h, task, _, b, inp', [], obj, ?_, by simp, fun _ => rfl, ?_, ?_⟩
      · cases g <;> rfl
      · rw [framesBy_append, List.filter_append, hfr, framesBy_replyEvs i id _ _ evs, signalFrames_reply, List.nil_append]
        cases g <;> rfl
      · have := replyEvs_message _ _ _ _ evs
        cases g <;> exact this
    | op f' g st' op b' inp' before plain hsigs src obj evs nosub => cases before
  · right
    refine ⟨as3, as4 ++ [a], t', ret', n, s3, t3, by rw [h1]; simp, h2, h3, ?_⟩
    rw [outSigs_append]
    exact streaming_step h i k id f _ a h4 hs

/-- A request goroutine that finds its operation invokes it and goes on to subscribe to what it returns. -/
theorem stream_born {reg : Registry H} {client : Bool} {as1 : List Act} {t : Nat} {ret : Ret}
    {s1 s : St H} {t1 e : List (Handler.Ev H)} {k : Kind} {id : UInt32} {data md : Bytes} {n : UInt32}
    (hk : k = .rs ∨ k = .rc)
    (h1 : Handler.run reg client as1 = .ok (s1, t1)) (ht : s1.tasks[t]? = some (.request k id data md n))
    (hex : (exported reg k md).isSome = true) (hs : settle s1 (Handler.step s1 (.run t ret)) = .ok (s, e)) :
    Pending s1.objs.length k id ret.flux s (t1 ++ e) := by
  have hreg := reg_run as1 h1
  have h3 : settle s1 (serve { s1 with tasks := s1.tasks.eraseIdx t } k id data md n ret) = .ok (s, e) := by
    simpa only [Handler.step, ht, runTask] using hs
  obtain ⟨hl, op, hd, ho, hh⟩ : ¬ md.length < 8 ∧ ∃ op hd, getU32 md = .ok op ∧ getHandler s1.reg k op = some hd := by
    rw [exported] at hex
    by_cases hl : md.length < 8
    · rw [if_pos hl] at hex; cases hex
    · rw [if_neg hl] at hex
      obtain ⟨op, q1, -⟩ := getU32_take md (by omega)
      obtain ⟨hd, q2⟩ := Option.isSome_iff_exists.mp hex
      rw [namedOp, q1] at q2
      exact ⟨hl, op, hd, q1, by rw [hreg]; exact q2⟩
  have hnone : framesBy s1.objs.length t1 = [] ∧ tasksOf s1.objs.length s1.tasks = [] := by
    rcases Handler.history reg client as1 s1 t1 h1 s1.objs.length with ⟨-, q1, q2⟩ | ⟨_, _, _, o, _, _, q, -⟩
    · exact ⟨framesBy_nil_of_evsOf q2, q1⟩
    · simp at q
  have hold : ∀ x ∈ s1.tasks.eraseIdx t, x.obj ≠ some s1.objs.length := by
    intro x hx hc
    have := tasksOf_mem (List.mem_of_mem_eraseIdx hx) hc
    rw [hnone.2] at this; cases this
  have key : s.objs = s1.objs ++ [.responder k id none false none] ∧
      s.tasks = s1.tasks.eraseIdx t ++ [.subscribe s1.objs.length ret.flux n] ∧
      framesBy s1.objs.length e = [] := by
    rcases hk with rfl | rfl
    all_goals
      simp only [serve, if_neg hl, ho, Go.bind_ok, hh] at h3
      split at h3
      · cases h3
        refine ⟨?_, ?_, rfl⟩
        · simp only [addTasks, register_objs]
        · simp only [addTasks]
          congr 1
          unfold register
          split <;> rfl
      · cases h3
        exact ⟨rfl, rfl, rfl⟩
  obtain ⟨k1, k2, k3⟩ := key
  have hobj : s.objs[s1.objs.length]? = some (.responder k id none false none) := by rw [k1]; simp
  refine ⟨⟨_, _, hobj⟩, by rw [framesBy_append, hnone.1, k3]; rfl, _, hobj, fun g n' hm => ?_, fun _ _ _ _ _ => ⟨n, ?_⟩⟩
  · have hm := (List.mem_filter.mp hm).1
    rw [k2] at hm
    rcases List.mem_append.mp hm with hm | hm
    · exact absurd rfl (hold _ hm)
    · simp at hm; exact hm.1
  · exact tasksOf_mem (by rw [k2]; simp) rfl

/-- What was sent for a stream or channel request whose operation is exported. -/
theorem since_run {reg : Registry H} {client : Bool} {as1 : List Act} {t : Nat} {ret : Ret}
    {s1 : St H} {t1 : List (Handler.Ev H)} {k : Kind} {id : UInt32} {data md : Bytes} {n : UInt32}
    (hk : k = .rs ∨ k = .rc)
    (h1 : Handler.run reg client as1 = .ok (s1, t1)) (ht : s1.tasks[t]? = some (.request k id data md n))
    (hex : (exported reg k md).isSome = true) (as2 : List Act) : ∀ {s : St H} {tr : List (Handler.Ev H)},
    Handler.run reg client (as1 ++ .run t ret :: as2) = .ok (s, tr) →
    Since reg client (as1 ++ [.run t ret]) s1.objs.length k id ret.flux as2 s tr := by
  induction as2 using snoc_induction with
  | nil =>
    intro s tr h
    obtain ⟨s0, t0, e, h2, h3, rfl⟩ := run_snoc_inv _ _ _ _ _ _ h
    rw [h1] at h2; cases h2
    exact .inl (stream_born hk h1 ht hex h3)
  | snoc as2 a ih =>
    intro s tr h
    have e1 : as1 ++ .run t ret :: (as2 ++ [a]) = (as1 ++ .run t ret :: as2) ++ [a] := by simp
    rw [e1] at h
    obtain ⟨s0, t0, e, h2, h3, rfl⟩ := run_snoc_inv _ _ _ _ _ _ h
    have e2 : as1 ++ .run t ret :: as2 = (as1 ++ [.run t ret]) ++ as2 := by simp
    exact since_step (e2 ▸ h2) _ _ _ _ _ (ih h2) h3

/-! ## The whole end -/

/-- What became of the stream or channel request `id` with payload `p` at the end with the exported
operations `reg`, by its history `as`: what it has to say to the caller so far. When its goroutine ran,
it was rejected, or the operation it names was invoked, returning `ret`. Then that flux is still to be
subscribed to, or this was done, and it says what its source has said since. -/
inductive Streamed (reg : Registry H) (client : Bool) (k : Kind) (id : UInt32) (p : Pay) (as : List Act) :
    List StreamSig → Prop
  | rejected (as1 as2 : List Act) (t : Nat) (ret : Ret) (s1 : St H) (t1 : List (Handler.Ev H)) (n : UInt32)
      (ran : RanAt reg client as as1 as2 t ret s1 t1 k id p.data p.metadata n)
      (bad : exported reg k p.metadata = none) :
      Streamed reg client k id p as
        [.error (some (if p.metadata.length < 8 then "Invalid metadata" else "not_found"))]
  | waiting (as1 as2 : List Act) (t : Nat) (ret : Ret) (s1 : St H) (t1 : List (Handler.Ev H)) (n : UInt32)
      (ran : RanAt reg client as as1 as2 t ret s1 t1 k id p.data p.metadata n)
      (good : (exported reg k p.metadata).isSome = true) (s : St H) (tr : List (Handler.Ev H)) (n' : UInt32)
      (now : Handler.run reg client as = .ok (s, tr)) (task : .subscribe s1.objs.length ret.flux n' ∈ s.tasks) :
      Streamed reg client k id p as []
  | served (as1 as2 : List Act) (t : Nat) (ret : Ret) (s1 : St H) (t1 : List (Handler.Ev H)) (n : UInt32)
      (ran : RanAt reg client as as1 as2 t ret s1 t1 k id p.data p.metadata n)
      (good : (exported reg k p.metadata).isSome = true) (as3 as4 : List Act) (t' : Nat) (ret' : Ret) (s3 : St H)
      (t3 : List (Handler.Ev H)) (n' : UInt32) (split : as2 = as3 ++ .run t' ret' :: as4)
      (before : Handler.run reg client (as1 ++ .run t ret :: as3) = .ok (s3, t3))
      (task : s3.tasks[t']? = some (.subscribe s1.objs.length ret.flux n')) :
      Streamed reg client k id p as (relayed ret.flux (outSigs s1.objs.length as4))

theorem sigFrame_error (id : UInt32) (msg : String) :
    [StreamSig.error (some msg)].flatMap (sigFrame id) = [errorFrame id msg] := rfl

theorem errorFrame_reply (id : UInt32) (msg : String) : isReply (errorFrame id msg) = true := rfl

/-- Whatever is sent with the id of a stream or channel request of the peer answers it, but for what is
said about the input of a channel. -/
theorem streamed_frames (k : Kind) (hk : k = .rs ∨ k = .rc) (x : UInt32) (p : Pay) {reg : Registry H} {client : Bool}
    {as : List Act} {s : St H} {tr : List (Handler.Ev H)} (h : Handler.run reg client as = .ok (s, tr))
    (hc : callCount as < 2 ^ 30) (hu : uses (fun k => decide (k.2 = x)) s tr ≤ 1)
    (hx : ownId client x = false)
    (hreq : ∀ f r, .frame (.request f) r ∈ as → f.streamID = x →
      kindOfType f.frameType = some k ∧ f.data = p.data ∧ f.metadata = p.metadata) :
    (∃ r, Streamed reg client k x p as r ∧ .error none ∉ r ∧
      (withId x (sentFrames tr)).filter isReply = r.flatMap (sigFrame x) ∧
      (k = .rs → (withId x (sentFrames tr)).filter isReply = withId x (sentFrames tr))) ∨
    (withId x (sentFrames tr) = [] ∧ (∀ (i : Nat) (o : Obj), s.objs[i]? = some o → o.sid ≠ x) ∧
      ∀ f ∈ looseFrames tr, f.streamID ≠ x) := by
  have foreign : (true, x) ∉ idsIn s tr := by
    intro hk
    rcases mem_requestIds_of_key h _ hk with ⟨-, h2⟩ | ⟨h2, -⟩
    · have := (callIds_own client as hc).2 _ h2
      rw [hx] at this; cases this
    · cases h2
  have origin : ∀ {as1 as2 : List Act} {t : Nat} {ret : Ret} {s1 : St H} {t1 : List (Handler.Ev H)} {k' : Kind}
      {data md : Bytes} {n : UInt32}, RanAt reg client as as1 as2 t ret s1 t1 k' x data md n →
      k' = k ∧ data = p.data ∧ md = p.metadata := by
    intro as1 as2 t ret s1 t1 k' data md n hr
    obtain ⟨f, r, h1, h2, h3, rfl, rfl⟩ := task_origin as1 hr.before k' x data md n (List.mem_of_getElem? hr.task)
    obtain ⟨h4, h5, h6⟩ := hreq f r (by rw [hr.split]; exact List.mem_append_left _ h1) h3
    rw [h2] at h4; cases h4
    exact ⟨rfl, h5, h6⟩
  by_cases hobj : ∃ (i : Nat) (o : Obj), s.objs[i]? = some o ∧ o.sid = x
  · obtain ⟨i, o, ho, hox⟩ := hobj
    have hown : o.own = false := by
      cases hb : o.own with
      | false => rfl
      | true =>
        have : o.key = (true, x) := Prod.ext hb hox
        exact absurd (this ▸ obj_key_mem ho) foreign
    obtain ⟨as1, as2, t, ret, s1, t1, k', data, md, n, hr, h1, h2, -⟩ := served_origin as h i o ho hown
    rw [hox] at hr
    obtain ⟨rfl, rfl, rfl⟩ := origin hr
    have hrun := h
    rw [hr.split] at hrun
    have hsince := since_run hk hr.before hr.task h2 as2 hrun
    subst h1
    have hw := withId_of_obj x h hu ho hox
    have only : ∀ out b inp, s.objs[s1.objs.length]? = some (.responder k' x out b inp) → k' = .rs →
        (withId x (sentFrames tr)).filter isReply = withId x (sentFrames tr) := by
      rintro out b inp h3 rfl
      rw [hw]
      exact onlyReplies_history reg client as s tr h _ _ _ _ _ h3
    left
    rcases hsince with ⟨⟨b, inp, h3⟩, h4, o', h5, h6⟩ | ⟨as3, as4, t', ret', n', s3, t3, h3, h4, h5, h6⟩
    · rw [h3] at h5; cases h5
      obtain ⟨n', h7⟩ := h6.2 _ _ _ _ rfl
      exact ⟨[], .waiting as1 as2 t ret s1 t1 n hr h2 s tr n' h (List.mem_filter.mp h7).1, by simp,
        by rw [hw, h4]; rfl, only _ _ _ h3⟩
    · obtain ⟨h7, h8⟩ := h6.frames
      obtain ⟨st, b, inp, ops, h9, -⟩ := h6
      exact ⟨_, .served as1 as2 t ret s1 t1 n hr h2 as3 as4 t' ret' s3 t3 n' h3 (by simpa using h4) h5, h8,
        by rw [hw, h7], only _ _ _ h9⟩
  · have noobj : ∀ (i : Nat) (o : Obj), s.objs[i]? = some o → o.sid ≠ x := fun i o h1 h2 => hobj ⟨i, o, h1, h2⟩
    have hloose : withId x (sentFrames tr) = withId x (looseFrames tr) := by
      refine frames_source (fun f => decide (f.streamID = x)) none tr ?_
      intro b f hb hf
      cases b with
      | none => rfl
      | some i =>
        obtain ⟨o, h1, h2, -⟩ := sent_history reg client as s tr h i f hb
        exact absurd (h2 ▸ by simpa using hf) (noobj i o h1)
    rw [hloose]
    by_cases hl : ∃ f ∈ looseFrames tr, f.streamID = x
    · obtain ⟨f, hf, hfx⟩ := hl
      have hnr : isReq f = false := by
        cases hq : isReq f with
        | false => rfl
        | true =>
          have := loose_key_mem (s := s) hf
          rw [looseKey_req hq, hfx] at this
          exact absurd this foreign
      obtain ⟨as1, as2, t, ret, s1, t1, k', id, data, md, n, hr, h2, rfl⟩ := loose_origin as h f hf hnr
      have hid : id = x := hfx
      subst hid
      obtain ⟨rfl, rfl, rfl⟩ := origin hr
      have hlen : (withId id (looseFrames tr)).length ≤ 1 := by
        rw [uses_parts] at hu
        have : (fun f : AnyFrame => decide ((looseKey f).2 = id)) = fun f => decide (f.streamID = id) := by
          funext f; rw [looseKey_id]
        rw [this] at hu
        unfold withId
        omega
      have hmem : errorFrame id (if p.metadata.length < 8 then "Invalid metadata" else "not_found") ∈
          withId id (looseFrames tr) := List.mem_filter.mpr ⟨hf, by simp [hfx]⟩
      have hw : withId id (looseFrames tr) =
          [errorFrame id (if p.metadata.length < 8 then "Invalid metadata" else "not_found")] := by
        match hw : withId id (looseFrames tr), hlen, hmem with
        | [g], _, hmem => simp only [List.mem_singleton] at hmem; rw [← hmem]
      refine .inl ⟨_, .rejected as1 as2 t ret s1 t1 n hr h2, by simp, ?_, fun _ => ?_⟩
      · rw [hw, sigFrame_error]; rfl
      · rw [hw]; rfl
    · have hnil : ∀ f ∈ looseFrames tr, f.streamID ≠ x := fun f h1 h2 => hl ⟨f, h1, h2⟩
      exact .inr ⟨List.filter_eq_nil_iff.mpr fun f hf => by simp [hnil f hf], noobj, hnil⟩

end
end Verif.Props
