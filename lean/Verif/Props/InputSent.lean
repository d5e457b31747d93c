import Verif.Props.StreamSent
/-
What a channel call sends of its input.
-/
set_option autoImplicit false
namespace Verif.Props
open Verif Frames Handler
open Verif.Invoke (Kind Registry getHandler)

section
variable {H : Type}

/-! ## Specification -/

/-- What the source of the input of the channel call `j` tells its sink. -/
def inputSigs (j : Nat) (as : List Act) : List StreamSig :=
  as.flatMap fun | .input i op => if i = j then srcSigs op else [] | _ => []

/-- What the input `src` of the channel call `j`, made after `as1`, has said by the end of `as1 ++ .call .. :: as2`:
nothing before the goroutine that subscribes to it has run, what its source has said since otherwise. -/
inductive InputSaid (reg : Registry H) (client : Bool) (as1 : List Act) (j : Nat) (src : Src) (as2 : List Act) :
    List StreamSig → Prop
  | waiting (unsub : ∀ as3 as4 t ret s3 t3, as2 = as3 ++ .run t ret :: as4 →
      Handler.run reg client (as1 ++ as3) = .ok (s3, t3) → s3.tasks[t]? ≠ some (.subscribeIn j)) :
      InputSaid reg client as1 j src as2 []
  | subscribed (as3 as4 : List Act) (t : Nat) (ret : Ret) (s3 : St H) (t3 : List (Handler.Ev H))
      (split : as2 = as3 ++ .run t ret :: as4) (before : Handler.run reg client (as1 ++ as3) = .ok (s3, t3))
      (task : s3.tasks[t]? = some (.subscribeIn j)) :
      InputSaid reg client as1 j src as2 (relayed src (inputSigs j as4))

/-! ## Steps -/

theorem inputSigs_append (i : Nat) (a b : List Act) : inputSigs i (a ++ b) = inputSigs i a ++ inputSigs i b := by
  simp [inputSigs]

/-- The call `j` with this input. -/
def HasInput (j : Nat) (id : UInt32) (inpt : Input) (s : St H) : Prop :=
  ∃ req first c sub, s.objs[j]? = some (.flux req first c (some inpt) sub) ∧ req.streamID = id

/-- The input is as before, and nothing was said for it. -/
def SameIn (j : Nat) (id : UInt32) (inpt : Input) (x : Go (Out H)) : Prop :=
  ∀ s' e, x = .ok (s', e) → HasInput j id inpt s' ∧ (framesBy j e).filter isReply = []

theorem sameIn_panic (j : Nat) (id : UInt32) (inpt : Input) : SameIn (H := H) j id inpt .panic := by
  intro _ _ h; cases h

theorem sameIn_demand (i : Nat) (id : UInt32) (l : List (Flux.Ev Pay)) :
    (framesBy i (demandEvs i id (.flux i : Flux.Ev Pay → Handler.Ev H) l)).filter isReply = [] := by
  rw [List.filter_eq_nil_iff]
  intro f hf
  rw [framesBy_demandEvs i id (.flux i : Flux.Ev Pay → Handler.Ev H) (fun _ => rfl) l f hf]
  simp [isReply]

theorem sameIn_nop {j : Nat} {id : UInt32} {inpt : Input} {s : St H} (h : HasInput j id inpt s) :
    SameIn j id inpt (.ok (s, [])) := by
  intro s' e he; cases he; exact ⟨h, rfl⟩

theorem sameIn_deliver {j : Nat} {id : UInt32} {inpt : Input} {s : St H} (h : HasInput j id inpt s)
    (op : Flux.Op Pay) : SameIn j id inpt (deliver s j op) := by
  obtain ⟨req, first, c, sub, ho, hid⟩ := h
  have hl : j < s.objs.length := (List.getElem?_eq_some_iff.mp ho).1
  unfold deliver
  rw [ho]
  cases sub with
  | none =>
    intro s' e he
    cases he
    exact ⟨⟨req, first, _, none, List.getElem?_set_self hl, hid⟩, rfl⟩
  | some st =>
    intro s' e he
    cases he
    exact ⟨⟨req, first, _, _, List.getElem?_set_self hl, hid⟩, sameIn_demand j _ _⟩

theorem sameIn_andThen {j : Nat} {id : UInt32} {inpt : Input} {x : Go (Out H)} {f : St H → Go (Out H)}
    (hx : SameIn j id inpt x) (hf : ∀ s, HasInput j id inpt s → SameIn j id inpt (f s)) :
    SameIn j id inpt (andThen x f) := by
  intro s' e h
  obtain ⟨s1, e1, e2, h1, h2, rfl⟩ := andThen_ok h
  obtain ⟨h3, h4⟩ := hx _ _ h1
  obtain ⟨h5, h6⟩ := hf _ h3 _ _ h2
  exact ⟨h5, by rw [framesBy_append, List.filter_append, h4, h6]; rfl⟩

theorem sameIn_closing {j : Nat} {id : UInt32} {inpt : Input} {s : St H} (x : UInt32) (h : HasInput j id inpt s) :
    SameIn j id inpt (closing x s) := by
  intro s' e he
  cases he
  refine ⟨?_, rfl⟩
  unfold HasInput
  rw [remove_objs]; exact h

theorem sameIn_dispatch {j : Nat} {id : UInt32} {inpt : Input} {s : St H} (ho : HasInput j id inpt s) (r : React)
    (f : AnyFrame) (hf : f.type ≥ typeRequestN) : SameIn j id inpt (dispatch s r f (some j)) := by
  cases f with
  | setup v => exact absurd hf (by simp only [AnyFrame.type]; decide)
  | request v =>
    simp only [dispatch]
    split
    · intro s' e h; cases h; exact ⟨ho, rfl⟩
    · exact sameIn_nop ho
  | requestN v =>
    simp only [dispatch]
    split
    · intro s' e h; cases h; exact ⟨ho, rfl⟩
    · exact sameIn_panic _ _ _
  | cancel v => exact sameIn_andThen (sameIn_deliver ho _) fun s h => sameIn_closing _ h
  | payload v =>
    simp only [dispatch]
    refine sameIn_andThen ?_ fun s h => ?_
    · split
      · exact sameIn_deliver ho _
      · exact sameIn_nop ho
    · split
      · exact sameIn_andThen (sameIn_deliver h _) fun s h => sameIn_closing _ h
      · exact sameIn_nop h
  | error v =>
    exact sameIn_andThen (sameIn_deliver ho _) fun s h =>
      sameIn_andThen (sameIn_deliver h _) fun s h => sameIn_closing _ h

/-- What a step does to the input of a channel call. -/
inductive Feeds (j : Nat) (id : UInt32) (inpt : Input) (s : St H) (a : Act) (s' : St H)
    (e : List (Handler.Ev H)) : Prop
  | kept (obj : HasInput j id inpt s') (frames : (framesBy j e).filter isReply = [])
      (sigs : ∀ f st, inpt = .subscribed f st → f.noSubscription = false → inputSigs j [a] = [])
      (nosub : ∀ t ret, a = .run t ret → s.tasks[t]? ≠ some (.subscribeIn j))
  | subscribed (t : Nat) (ret : Ret) (f : Src) (before : inpt = .fresh f) (act : a = .run t ret)
      (task : s.tasks[t]? = some (.subscribeIn j)) (obj : HasInput j id (.subscribed f (subscribeSrc f).1) s')
      (evs : replyEvs j id (throughMap f (subscribeSrc f).2) = .ok e)
  | op (f : Src) (st : Flux.State) (op : Flux.Op Pay) (before : inpt = .subscribed f st) (plain : plainOp op)
      (sigs : opSigs op = inputSigs j [a]) (sub : f.noSubscription = false)
      (obj : HasInput j id (.subscribed f (Flux.step st op).1) s')
      (evs : replyEvs j id (throughMap f (Flux.step st op).2) = .ok e)

theorem onInput_settle {s0 s s' : St H} {j : Nat} {req : RequestPayload} {first c : Bool} {f : Src}
    {sub : Option Flux.State} {r : Flux.State × List (Flux.Ev Pay)} {e : List (Handler.Ev H)} (hj : j < s.objs.length)
    (h : settle s0 (onInput s j req first c f sub r) = .ok (s', e)) :
    HasInput j req.streamID (.subscribed f r.1) s' ∧ replyEvs j req.streamID (throughMap f r.2) = .ok e := by
  cases hy : replyEvs (H := H) j req.streamID (throughMap f r.2) with
  | ok es =>
    unfold onInput at h
    rw [hy] at h
    cases h
    exact ⟨⟨req, first, c, sub, List.getElem?_set_self hj, rfl⟩, rfl⟩
  | panic => unfold onInput at h; rw [hy] at h; cases h
  | err m => exact absurd hy (replyEvs_noerr _ _ _ _)

theorem input_step {s s' : St H} {j : Nat} {id : UInt32} {inpt : Input} {e : List (Handler.Ev H)}
    (hin : HasInput j id inpt s) (a : Act) (hs : settle s (Handler.step s a) = .ok (s', e)) :
    Feeds j id inpt s a s' e := by
  have hin' := hin
  obtain ⟨req, first, c, sub, ho, hid⟩ := hin
  have hi : j < s.objs.length := (List.getElem?_eq_some_iff.mp ho).1
  have keep : (∀ f st, inpt = .subscribed f st → f.noSubscription = false → inputSigs j [a] = []) →
      (∀ t ret, a = .run t ret → s.tasks[t]? ≠ some (.subscribeIn j)) →
      SameIn j id inpt (settle s (Handler.step s a)) → Feeds j id inpt s a s' e := by
    intro h1 h2 h3
    obtain ⟨h4, h5⟩ := h3 _ _ hs
    exact .kept h4 h5 h1 h2
  have nop : inputSigs j [a] = [] → (∀ t ret, a ≠ .run t ret) →
      Handler.step s a = .ok (s, []) → Feeds j id inpt s a s' e := by
    intro h1 h2 h3
    exact keep (fun _ _ _ _ => h1) (fun t ret h => absurd h (h2 t ret)) (by rw [h3]; exact sameIn_nop hin')
  by_cases hact : actsOn s a = some j
  · cases a with
    | frame f r =>
      simp only [actsOn] at hact
      split at hact
      · rename_i hf
        refine keep (fun _ _ _ _ => rfl) (fun _ _ h => by cases h) ?_
        have e1 : Handler.step s (.frame f r) = dispatch s r f (some j) := by
          simp only [Handler.step, handleFrame, hf, if_true, hact]
        rw [e1]
        intro s2 e2 h2
        cases hd : dispatch s r f (some j) with
        | ok y => rw [hd] at h2; exact sameIn_dispatch hin' r f hf _ _ (hd.trans h2)
        | panic => rw [hd] at h2; cases h2
        | err m => rw [hd] at h2; cases h2; exact ⟨hin', rfl⟩
      · cases hact
    | run t ret =>
      simp only [actsOn] at hact
      cases ht : s.tasks[t]? with
      | none => rw [ht] at hact; cases hact
      | some task =>
        rw [ht] at hact
        have hto : task.obj = some j := hact
        simp only [Handler.step, ht] at hs
        cases task with
        | request => cases hto
        | subscribe i f n =>
          simp only [Task.obj, Option.some.injEq] at hto
          subst hto
          simp only [runTask, ho] at hs
          cases hs
        | firstRequest i f n =>
          simp only [Task.obj, Option.some.injEq] at hto
          subst hto
          simp only [runTask, ho] at hs
          cases hs
        | doRequest i n =>
          simp only [Task.obj, Option.some.injEq] at hto
          subst hto
          simp only [runTask, ho] at hs
          cases inpt with
          | fresh f => cases hs
          | subscribed f st =>
            simp only at hs
            split at hs
            · cases hs
            · rename_i hf
              obtain ⟨h1, h2⟩ := onInput_settle (s := { s with tasks := s.tasks.eraseIdx t }) hi hs
              rw [hid] at h1 h2
              exact .op f st (.call (.request n)) rfl (.inr ⟨_, rfl⟩) rfl (by simpa using hf) h1 h2
        | upRequest i n =>
          simp only [Task.obj, Option.some.injEq] at hto
          subst hto
          simp only [runTask, ho] at hs
          have nosub : ∀ t' ret', Act.run t ret = .run t' ret' → s.tasks[t']? ≠ some (.subscribeIn i) := by
            intro t' ret' h; cases h; rw [ht]; simp
          split at hs
          · cases hs
            exact .kept hin' rfl (fun _ _ _ _ => rfl) nosub
          · split at hs
            · cases hs
              refine .kept ⟨{ req with initialN := u32 n }, false, c, sub, ?_, hid⟩ (by simp [framesBy, isReply])
                (fun _ _ _ _ => rfl) nosub
              simp only [addTasks, setObj]; rw [List.getElem?_set_self hi]
            · cases hs
              exact .kept hin' (by simp [framesBy, isReply]) (fun _ _ _ _ => rfl) nosub
        | subscribeIn i =>
          simp only [Task.obj, Option.some.injEq] at hto
          subst hto
          simp only [runTask, ho] at hs
          cases inpt with
          | fresh f =>
            obtain ⟨h1, h2⟩ := onInput_settle (s := { s with tasks := s.tasks.eraseIdx t }) hi hs
            rw [hid] at h1 h2
            exact .subscribed t ret f rfl rfl ht h1 h2
          | subscribed f st => cases hs
    | call => cases hact
    | subscribeFlux i inst start =>
      simp only [actsOn, Option.some.injEq] at hact
      subst hact
      refine keep (fun _ _ _ _ => rfl) (fun _ _ h => by cases h) ?_
      cases sub with
      | some st => simp only [Handler.step, ho]; exact sameIn_nop hin'
      | none =>
        simp only [Handler.step, ho]
        intro s2 e2 h2
        cases h2
        refine ⟨⟨req, first, c,
          some (Flux.runFrom (T := Pay) (Flux.State.init inst []) [.onSubscribe true, .start start]).1, ?_, hid⟩, ?_⟩
        · simp only [addTasks, setObj, register_objs]; rw [List.getElem?_set_self hi]
        · exact sameIn_demand i _ _
    | fluxCall i x =>
      simp only [actsOn, Option.some.injEq] at hact
      subst hact
      refine keep (fun _ _ _ _ => rfl) (fun _ _ h => by cases h) ?_
      cases sub with
      | none => simp only [Handler.step, ho]; exact sameIn_nop hin'
      | some st =>
        simp only [Handler.step, ho]
        intro s2 e2 h2
        cases h2
        exact ⟨⟨req, first, c, _, List.getElem?_set_self hi, hid⟩, sameIn_demand i _ _⟩
    | input i op =>
      simp only [actsOn, Option.some.injEq] at hact
      subst hact
      cases inpt with
      | fresh f =>
        refine keep (fun _ _ h => by cases h) (fun _ _ h => by cases h) ?_
        simp only [Handler.step, ho]
        exact sameIn_nop hin'
      | subscribed f st =>
        simp only [Handler.step, ho] at hs
        split at hs
        · rename_i hf
          cases hs
          refine .kept hin' rfl ?_ (fun _ _ h => by cases h)
          intro f' st' h h'
          cases h
          rw [hf] at h'; cases h'
        · rename_i hf
          obtain ⟨h1, h2⟩ := onInput_settle hi hs
          rw [hid] at h1 h2
          refine .op f st op.op rfl (.inl ⟨op, rfl⟩) ?_ (by simpa using hf) h1 h2
          simp [inputSigs, opSigs_op]
    | _ =>
      simp only [actsOn, Option.some.injEq] at hact
      subst hact
      exact nop rfl (fun _ _ h => by cases h) (by simp only [Handler.step, ho])
  · obtain ⟨h1, h2⟩ := idle_settle s a hi hact _ _ hs
    refine .kept ⟨req, first, c, sub, h1.trans ho, hid⟩ (by rw [framesBy_nil_of_evsOf h2]; rfl) ?_ ?_
    · intro f st _ _
      cases a with
      | input i op =>
        have : i ≠ j := by rintro rfl; exact hact rfl
        simp [inputSigs, this]
      | _ => rfl
    · rintro t ret rfl hc
      exact hact (by simp [actsOn, hc, Task.obj])

/-! ## Histories -/

/-- The input of the call `j` has been subscribed to, and its source has said `sigs` since. -/
def Feeding (j : Nat) (id : UInt32) (f : Src) (sigs : List StreamSig) (s : St H) (tr : List (Handler.Ev H)) : Prop :=
  ∃ ops, HasInput j id (.subscribed f (Flux.run replyInst [] ops).1) s ∧ (∀ op ∈ ops, plainOp op) ∧
    (f.noSubscription = false → ops.flatMap opSigs = sigs) ∧
    (framesBy j tr).filter isReply = (fluxSignals (throughMap f (sourceEvs f ops))).flatMap (signalFrame id) ∧
    .error none ∉ throughMap f (sourceEvs f ops)

theorem Feeding.frames {i : Nat} {id : UInt32} {f : Src} {sigs : List StreamSig} {s : St H}
    {tr : List (Handler.Ev H)} (h : Feeding i id f sigs s tr) :
    (framesBy i tr).filter isReply = (relayed f sigs).flatMap (sigFrame id) ∧ .error none ∉ relayed f sigs := by
  obtain ⟨ops, -, h1, h2, h3, h4⟩ := h
  have e : relayed f sigs = relayed f (ops.flatMap opSigs) := by
    rcases (Bool.eq_false_or_eq_true f.noSubscription).symm with hf | hf
    · rw [h2 hf]
    · exact relayed_failed f hf _ _
  have hr := relayed_run f ops h1
  rw [e]
  refine ⟨by rw [h3, hr, frames_relayed], fun hm => h4 ?_⟩
  have : (.error none : Flux.Ev Pay) ∈ fluxSignals (throughMap f (sourceEvs f ops)) := by
    rw [hr]; exact List.mem_map.mpr ⟨_, hm, rfl⟩
  exact (List.mem_filter.mp this).1

theorem feeding_step {s s' : St H} {tr e : List (Handler.Ev H)} (j : Nat) (id : UInt32)
    (f : Src) (sigs : List StreamSig) (a : Act) (inv : Feeding j id f sigs s tr)
    (hs : settle s (Handler.step s a) = .ok (s', e)) :
    Feeding j id f (sigs ++ inputSigs j [a]) s' (tr ++ e) ∧
      ∀ t ret, a = .run t ret → s.tasks[t]? ≠ some (.subscribeIn j) := by
  obtain ⟨ops, ho, h2, h3, h4, h5⟩ := inv
  cases input_step ho a hs with
  | kept obj frames hsigs nosub =>
    refine ⟨⟨ops, obj, h2, fun hf => ?_, ?_, h5⟩, nosub⟩
    · rw [hsigs f _ rfl hf, List.append_nil, h3 hf]
    · rw [framesBy_append, List.filter_append, frames, List.append_nil, h4]
  | subscribed t ret g before => cases before
  | op f' st' op before plain hsigs hn obj evs =>
    have e1 : f' = f := by cases before; rfl
    have e2 : st' = (Flux.run replyInst [] ops).1 := by cases before; rfl
    subst e1 e2
    have hev : sourceEvs f' ops ++ (Flux.step (Flux.run replyInst [] ops).1 op).2 = sourceEvs f' (ops ++ [op]) := by
      cases f'
      case failed e => simp [Src.noSubscription] at hn
      all_goals simp only [sourceEvs, flux_run_snoc]
    refine ⟨⟨ops ++ [op], by rw [flux_run_snoc]; exact obj, ?_, fun hf => ?_, ?_, ?_⟩, ?_⟩
    · intro o hm
      rcases List.mem_append.mp hm with hm | hm
      · exact h2 o hm
      · rw [List.mem_singleton.mp hm]; exact plain
    · rw [List.flatMap_append, h3 hf, ← hsigs]; simp
    · rw [framesBy_append, List.filter_append, h4, framesBy_replyEvs j id _ _ evs, signalFrames_reply,
        ← List.flatMap_append, ← fluxSignals_append, ← throughMap_append, hev]
    · rw [← hev, throughMap_append, List.mem_append, not_or]
      exact ⟨h5, replyEvs_message _ _ _ _ evs⟩
    · rintro t ret rfl hc
      obtain ⟨req, first, c, sub, ho, -⟩ := ho
      simp only [Handler.step, hc, runTask, ho] at hs
      cases hs

/-- What has become of the input of a channel call since it was made. -/
def SinceIn (reg : Registry H) (client : Bool) (as1 : List Act) (j : Nat) (id : UInt32) (f : Src)
    (as2 : List Act) (s : St H) (tr : List (Handler.Ev H)) : Prop :=
  (HasInput j id (.fresh f) s ∧ (framesBy j tr).filter isReply = [] ∧
    ∀ as3 as4 t ret s3 t3, as2 = as3 ++ .run t ret :: as4 →
      Handler.run reg client (as1 ++ as3) = .ok (s3, t3) → s3.tasks[t]? ≠ some (.subscribeIn j)) ∨
  ∃ as3 as4 t' ret' s3 t3, as2 = as3 ++ .run t' ret' :: as4 ∧
    Handler.run reg client (as1 ++ as3) = .ok (s3, t3) ∧ s3.tasks[t']? = some (.subscribeIn j) ∧
    Feeding j id f (inputSigs j as4) s tr

theorem sinceIn_step {reg : Registry H} {client : Bool} {as1 as2 : List Act} {s s' : St H}
    {tr e : List (Handler.Ev H)} (h : Handler.run reg client (as1 ++ as2) = .ok (s, tr)) (j : Nat)
    (id : UInt32) (f : Src) (a : Act) (inv : SinceIn reg client as1 j id f as2 s tr)
    (hs : settle s (Handler.step s a) = .ok (s', e)) :
    SinceIn reg client as1 j id f (as2 ++ [a]) s' (tr ++ e) := by
  rcases inv with ⟨ho, hfr, hno⟩ | ⟨as3, as4, t', ret', s3, t3, h1, h2, h3, h4⟩
  · cases input_step ho a hs with
    | kept obj frames hsigs nosub =>
      left
      refine ⟨obj, by rw [framesBy_append, List.filter_append, hfr, frames]; rfl, ?_⟩
      intro as3 as4 t ret s3 t3 hsplit hrun
      rcases List.eq_nil_or_concat as4 with rfl | ⟨as4', b, rfl⟩
      · obtain ⟨rfl, h2⟩ := List.append_inj' hsplit rfl
        rw [h] at hrun
        cases hrun
        exact nosub t ret (List.cons.inj h2).1
      · rw [List.concat_eq_append] at hsplit
        have e1 : as2 ++ [a] = (as3 ++ .run t ret :: as4') ++ [b] := by rw [hsplit]; simp
        obtain ⟨rfl, -⟩ := List.append_inj' e1 rfl
        exact hno as3 as4' t ret s3 t3 rfl hrun
    | subscribed t ret g before act task obj evs =>
      right
      cases before
      subst act
      refine ⟨as2, [], t, ret, s, tr, rfl, h, task, [], ?_, by simp, fun _ => rfl, ?_, ?_⟩
      · cases f <;> exact obj
      · rw [framesBy_append, List.filter_append, hfr, framesBy_replyEvs j id _ _ evs, signalFrames_reply, List.nil_append]
        cases f <;> rfl
      · have := replyEvs_message _ _ _ _ evs
        cases f <;> exact this
    | op f' st' op before => cases before
  · right
    refine ⟨as3, as4 ++ [a], t', ret', s3, t3, by rw [h1]; simp, h2, h3, ?_⟩
    rw [inputSigs_append]
    exact (feeding_step j id f _ a h4 hs).1

theorem channel_born {reg : Registry H} {client : Bool} {as1 : List Act} {s1 s : St H} {t1 e : List (Handler.Ev H)}
    {p : Pay} {src : Src} (h1 : Handler.run reg client as1 = .ok (s1, t1))
    (hs : settle s1 (Handler.step s1 (.call .rc p src)) = .ok (s, e)) :
    HasInput s1.objs.length (nextID s1.client s1.streamIDs).2 (.fresh src) s ∧
    (framesBy s1.objs.length (t1 ++ e)).filter isReply = [] := by
  cases hs
  refine ⟨⟨_, true, false, none, by simp [Handler.call]; rfl, rfl⟩, ?_⟩
  have : framesBy s1.objs.length t1 = [] := by
    rcases Handler.history reg client as1 s1 t1 h1 s1.objs.length with ⟨-, -, q2⟩ | ⟨_, _, _, o, _, _, q, -⟩
    · exact framesBy_nil_of_evsOf q2
    · simp at q
  rw [framesBy_append, this]
  rfl

theorem sinceIn_run {reg : Registry H} {client : Bool} {as1 : List Act} {s1 : St H} {t1 : List (Handler.Ev H)}
    {p : Pay} {src : Src} (h1 : Handler.run reg client as1 = .ok (s1, t1)) (as2 : List Act) :
    ∀ {s : St H} {tr : List (Handler.Ev H)}, Handler.run reg client (as1 ++ .call .rc p src :: as2) = .ok (s, tr) →
    SinceIn reg client (as1 ++ [.call .rc p src]) s1.objs.length (nextID s1.client s1.streamIDs).2 src as2 s tr := by
  induction as2 using snoc_induction with
  | nil =>
    intro s tr h
    obtain ⟨s0, t0, e, h2, h3, rfl⟩ := run_snoc_inv _ _ _ _ _ _ h
    rw [h1] at h2; cases h2
    obtain ⟨q1, q2⟩ := channel_born h1 h3
    refine .inl ⟨q1, q2, ?_⟩
    intro as3 as4 t ret s3 t3 hc
    cases as3 <;> cases hc
  | snoc as2 a ih =>
    intro s tr h
    have e1 : as1 ++ .call .rc p src :: (as2 ++ [a]) = (as1 ++ .call .rc p src :: as2) ++ [a] := by simp
    rw [e1] at h
    obtain ⟨s0, t0, e, h2, h3, rfl⟩ := run_snoc_inv _ _ _ _ _ _ h
    have e2 : as1 ++ .call .rc p src :: as2 = (as1 ++ [.call .rc p src]) ++ as2 := by simp
    exact sinceIn_step (e2 ▸ h2) _ _ _ _ (ih h2) h3

/-- What a channel call has sent of its input. -/
theorem input_sent {reg : Registry H} {client : Bool} {as1 as2 : List Act} {s1 s : St H} {t1 tr : List (Handler.Ev H)}
    {p : Pay} {src : Src} (h1 : Handler.run reg client as1 = .ok (s1, t1))
    (h : Handler.run reg client (as1 ++ .call .rc p src :: as2) = .ok (s, tr)) :
    ∃ r, InputSaid reg client (as1 ++ [.call .rc p src]) s1.objs.length src as2 r ∧ .error none ∉ r ∧
      (framesBy s1.objs.length tr).filter isReply = r.flatMap (sigFrame (nextID s1.client s1.streamIDs).2) := by
  rcases sinceIn_run h1 as2 h with ⟨-, h2, h3⟩ | ⟨as3, as4, t', ret', s3, t3, h2, h3, h4, h5⟩
  · exact ⟨[], .waiting h3, by simp, by rw [h2]; rfl⟩
  · obtain ⟨q1, q2⟩ := h5.frames
    exact ⟨_, .subscribed as3 as4 t' ret' s3 t3 h2 h3 h4, q2, q1⟩

end
end Verif.Props
