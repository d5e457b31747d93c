import Verif.Props.SystemCancel
/-
Property C103: cancelling the input of a channel over a whole connection.
-/
set_option autoImplicit false
namespace Verif.Props
open Verif Frames Handler
open Verif.Invoke (Kind Registry getHandler)
open Verif.System (Sys Move)

section
variable {H : Type}

/-! ## Specification

A connection is run (`System.run`). Stream number `j` of end A is a call of a channel operation, whose output A
subscribes to and whose input A supplies; stream number `i` of end B, with the same id `x`, is the same channel seen
by B's handler. B's handler cancels the input: the event `.inp i .cancelled`. -/

/-- How often B's handler has cancelled the input. -/
def inputCancels (i : Nat) (tr : List (Handler.Ev H)) : Nat := tr.countP fun | .inp k .cancelled => k == i | _ => false

/-- After a cancellation the handler sees no element and no end of the input. -/
def quietAfterInputCancel (s : Sys H) (i : Nat) : Prop :=
  ∀ a b, s.trB = a ++ .inp i .cancelled :: b →
    ∀ p e, .inp i (.next p) ∉ b ∧ .inp i .complete ∉ b ∧ .inp i (.error e) ∉ b

/-- A has been handed the cancellation. -/
def inputCancelArrived (s : Sys H) (x : UInt32) : Prop := cancelFrames x (handedOver s.histA) ≠ 0

/-- C103 as stated in English. -/
def C103_statement (H : Type) : Prop :=
  ∀ (regA regB : Registry H) (client : Bool) (ms : List Move) (s : Sys H),
    System.run regA regB client ms = .ok s → Tidy s → ∀ j i x, bothEnds s j i x →
      quietAfterInputCancel s i ∧
      cancelFrames x (sentFrames s.trB) = inputCancels i s.trB ∧
      (∀ fs r s', s.ba = .cancel ⟨x⟩ :: fs → System.step s (.toA r) = .ok s' → .flux j .complete ∈ s'.trA → .flux j .complete ∈ s.trA) ∧
      (inputCancelArrived s x → .src j .upCancel ∈ s.trA)

/-! ## The serving end -/

theorem input_demand_cancels (j : Nat) (id : UInt32) (l : List (Flux.Ev Pay)) :
    (framesBy j (demandEvs j id (.inp j : Flux.Ev Pay → Handler.Ev H) l)).countP isCancel = upCancels l := by
  induction l with
  | nil => rfl
  | cons e l ih =>
    cases e with
    | upCancel =>
      have e1 : framesBy j (demandEvs j id (.inp j : Flux.Ev Pay → Handler.Ev H) (.upCancel :: l)) =
          .cancel ⟨id⟩ :: framesBy j (demandEvs j id (.inp j : Flux.Ev Pay → Handler.Ev H) l) := by simp [demandEvs, framesBy]
      rw [e1, List.countP_cons, ih]
      simp [isCancel, upCancels]
    | _ => simp_all [demandEvs, framesBy, upCancels]

/-- What is known of the handler's subscriber of the input. -/
structure InputCancelInv (j : Nat) (o : Obj) (es : List (Handler.Ev H)) : Prop where
  obj : ∃ k id out b inp, o = .responder k id out b inp ∧
    (inp = none → inpEvs j es = []) ∧
    ∀ st, inp = some st → st.hasCancel = true ∧ (.cancelled ∈ inpEvs j es → st.closed = true)
  hush : HushAfter (inpEvs j es)
  frames : (framesBy j es).countP isCancel = cancelCount (inpEvs j es)

theorem inputCancel_step {j : Nat} {o o' : Obj} {ts ts' : List Task} {es es' : List (Handler.Ev H)}
    (inv : InputCancelInv j o es) (h : CStep j o ts o' ts' es') : InputCancelInv j o' (es ++ es') := by
  obtain ⟨⟨k, id, out, b, inp, rfl, hnone, hsub⟩, hhush, hfr⟩ := inv
  have quiet : ∀ o', (∃ k id out b, o' = .responder k id out b inp) → inpEvs j es' = [] →
      (framesBy j es').countP isCancel = 0 → InputCancelInv j o' (es ++ es') := by
    intro o' ⟨k, id, out, b, ho⟩ h1 h2
    refine ⟨⟨k, id, out, b, inp, ho, ?_, ?_⟩, ?_, ?_⟩
    · intro hn; rw [inpEvs_append, h1, hnone hn]; rfl
    · intro st hst; rw [inpEvs_append, h1, List.append_nil]; exact hsub st hst
    · rw [inpEvs_append, h1, List.append_nil]; exact hhush
    · rw [framesBy_append, List.countP_append, h2, inpEvs_append, h1, List.append_nil, hfr]; rfl
  have replies : ∀ o' (id : UInt32) (l : List (Flux.Ev Pay)), replyEvs j id l = .ok es' →
      (∃ k id out b, o' = .responder k id out b inp) → InputCancelInv j o' (es ++ es') := by
    intro o' id l hr ho
    refine quiet _ ho (inpEvs_replyEvs _ _ _ _ _ hr) ?_
    rw [framesBy_replyEvs _ _ _ _ hr]; exact replies_no_cancel _ _
  cases h with
  | outSub _ _ _ _ _ f n ts _ h => exact replies _ _ _ h ⟨_, _, _, _, rfl⟩
  | outFirst _ _ g st _ _ f n ts _ hf h => exact replies _ _ _ h ⟨_, _, _, _, rfl⟩
  | outReq _ _ f st _ n ts _ h => exact replies _ _ _ h ⟨_, _, _, _, rfl⟩
  | out _ _ f st _ _ ts _ op hf h => exact replies _ _ _ h ⟨_, _, _, _, rfl⟩
  | inp _ _ _ _ st _ op hop =>
    obtain ⟨s1, s2⟩ := hsub st rfl
    have hr := reaches_step st op hop
    obtain ⟨h1, h2⟩ := hush_step st op _ hhush s2
    refine ⟨⟨_, _, _, _, _, rfl, fun hn => (by cases hn), fun st' hst => ?_⟩, ?_, ?_⟩
    · cases hst
      refine ⟨hr.has.trans s1, ?_⟩
      rw [inpEvs_append, inpEvs_demandEvs]; exact h2
    · rw [inpEvs_append, inpEvs_demandEvs]; exact h1
    · rw [framesBy_append, List.countP_append, hfr, input_demand_cancels, inpEvs_append, inpEvs_demandEvs, cancelCount_append,
        hr.all s1]
  | inpSub _ _ _ _ inst start =>
    have hn := hnone rfl
    have r1 : Flux.runFrom (.init inst []) [(.onSubscribe true : Flux.Op Pay), .start start] =
        Flux.handleOnSubscribe { Flux.State.init inst [] with hasRequest := true, hasCancel := true } start := by
      simp [Flux.runFrom, Flux.step, Flux.State.init]
    rw [r1]
    have hr := reaches_handle { Flux.State.init inst [] with hasRequest := true, hasCancel := true } start
    obtain ⟨h1, h2⟩ := hush_step { Flux.State.init inst [] with hasRequest := true, hasCancel := true } (.start start) []
      (fun a b h => by simp at h) (fun h => by cases h)
    have e1 : inpEvs j (es ++ demandEvs j id (.inp j)
        (Flux.handleOnSubscribe (T := Pay) { Flux.State.init inst [] with hasRequest := true, hasCancel := true } start).2) =
        (Flux.handleOnSubscribe (T := Pay) { Flux.State.init inst [] with hasRequest := true, hasCancel := true } start).2 := by
      rw [inpEvs_append, hn, List.nil_append]
      exact inpEvs_demandEvs _ _ _
    refine ⟨⟨_, _, _, _, _, rfl, fun hn => (by cases hn), fun st' hst => ?_⟩, ?_, ?_⟩
    · cases hst
      refine ⟨hr.has, ?_⟩
      rw [e1]; exact h2
    · rw [e1]; exact h1
    · rw [e1, framesBy_append, List.countP_append, hfr, hn, ← hr.all rfl, input_demand_cancels]
      exact Nat.zero_add _
  | inpUp _ _ _ _ _ n ts => exact quiet _ ⟨_, _, _, _, rfl⟩ rfl (by simp [framesBy, isCancel])
  | asked _ _ n => exact quiet _ ⟨_, _, _, _, rfl⟩ rfl rfl

theorem inputCancel_run {j : Nat} {o o' : Obj} {ts ts' : List Task} {es0 es : List (Handler.Ev H)}
    (inv : InputCancelInv j o es0) (h : CRun j o ts o' ts' es) : InputCancelInv j o' (es0 ++ es) := by
  induction h with
  | refl => simpa using inv
  | perm _ _ _ _ _ _ ih => exact ih
  | step _ _ _ _ _ _ _ hs ih => rw [← List.append_assoc]; exact inputCancel_step ih hs

theorem inputCancel_history (reg : Registry H) (client : Bool) (as : List Act) (s : St H) (tr : List (Handler.Ev H))
    (h : Handler.run reg client as = .ok (s, tr)) (j : Nat) (k : Kind) (id : UInt32) (out : Option (Src × Flux.State)) (b : Bool)
    (inp : Option Flux.State) (ho : s.objs[j]? = some (.responder k id out b inp)) :
    InputCancelInv j (.responder k id out b inp) (evsOf j tr) := by
  rcases Handler.history reg client as s tr h j with ⟨h1, -⟩ | ⟨o0, ts0, es0, o, es, hb, ho', hr, he⟩
  · rw [ho] at h1; cases h1
  · rw [ho] at ho'; cases ho'
    have ht := tag_run hr
    have fin : ∀ k0 id0 (es0 : List (Handler.Ev H)), inpEvs j es0 = [] → framesBy j es0 = [] →
        InputCancelInv (H := H) j (.responder k0 id0 none false none) es0 := fun k0 id0 es0 h1 h2 =>
      ⟨⟨_, _, _, _, _, rfl, fun _ => h1, fun st hst => (by cases hst)⟩, fun a b h => (by rw [h1] at h; simp at h),
        by rw [h1, h2]; rfl⟩
    rw [he]
    cases hb with
    | fnf id0 _ h => exact inputCancel_run (fin _ _ _ (by rcases h with rfl | rfl <;> rfl) (by rcases h with rfl | rfl <;> rfl)) hr
    | stream k0 id0 f n _ hk h =>
      exact inputCancel_run (fin _ _ _ (by rcases h with rfl | ⟨-, rfl⟩ <;> rfl) (by rcases h with rfl | ⟨-, rfl⟩ <;> rfl)) hr
    | _ => cases ht

theorem inputCancels_eq (j : Nat) (tr : List (Handler.Ev H)) : inputCancels j tr = cancelCount (inpEvs j tr) := by
  induction tr with
  | nil => rfl
  | cons e tr ih =>
    unfold inputCancels at ih ⊢
    rw [List.countP_cons, ih]
    cases e with
    | inp k x =>
      by_cases hk : k = j
      · subst hk
        cases x <;> simp [inpEvs, cancelCount]
      · cases x <;> simp [inpEvs, cancelCount, hk]
    | _ => simp [inpEvs]

/-! ## C103 -/

/-- C103: after cancelling the input the handler sees nothing more of it. -/
theorem C103_quiet_partial (regA regB : Registry H) (client : Bool) (ms : List Move) (s : Sys H)
    (h : System.run regA regB client ms = .ok s) (j i : Nat) (x : UInt32) (hb : bothEnds s j i x) : quietAfterInputCancel s i := by
  obtain ⟨k, out, b, inp, -, ho⟩ := hb.server
  have inv := inputCancel_history regB (!client) s.histB s.b s.trB (joined_run ms h).b i k x out b inp ho
  have hush := inv.hush
  rw [inpEvs_evsOf] at hush
  intro a b hab p e
  have h1 : fluxSignals (inpEvs i b) = [] := by
    apply hush (inpEvs i a)
    rw [hab, inpEvs_append]
    simp [inpEvs]
  have key : ∀ y : Flux.Ev Pay, fluxSignals [y] = [y] → .inp i y ∉ b := by
    intro y hy hm
    have h2 : y ∈ inpEvs i b := List.mem_filterMap.mpr ⟨_, hm, by simp⟩
    obtain ⟨l1, l2, h3⟩ := List.append_of_mem h2
    have h4 : fluxSignals (inpEvs i b) = fluxSignals l1 ++ (fluxSignals [y] ++ fluxSignals l2) := by
      rw [h3, ← fluxSignals_append, ← fluxSignals_append]; rfl
    rw [h1, hy] at h4
    simp at h4
  exact ⟨key _ rfl, key _ rfl, key _ rfl⟩

/-- C103: each cancellation of the input puts one cancel frame on the wire. -/
theorem C103_told_partial (regA regB : Registry H) (client : Bool) (ms : List Move) (s : Sys H)
    (h : System.run regA regB client ms = .ok s) (ht : Tidy s) (j i : Nat) (x : UInt32) (hb : bothEnds s j i x) :
    cancelFrames x (sentFrames s.trB) = inputCancels i s.trB := by
  obtain ⟨k, out, b, inp, -, ho⟩ := hb.server
  have hJ := joined_run ms h
  have inv := inputCancel_history regB (!client) s.histB s.b s.trB hJ.b i k x out b inp ho
  have hfr := inv.frames
  rw [inpEvs_evsOf, framesBy_evsOf] at hfr
  rw [cancelFrames_withId, withId_of_obj x hJ.b (hJ.usesB ht x) ho rfl, hfr, inputCancels_eq]

/-- C103 fails whenever the cancellation of the input is handed to a caller whose subscriber of the output is still
waiting: the subscriber is told that the output is complete, and the stream is closed. -/
theorem C103_ends_violated (regA regB : Registry H) (client : Bool) (ms : List Move) (s : Sys H)
    (h : System.run regA regB client ms = .ok s) (ht : Tidy s) (j : Nat) (x : UInt32)
    (req : RequestPayload) (first c : Bool) (input : Option Input) (st : Flux.State)
    (ho : s.a.objs[j]? = some (.flux req first c input (some st)))
    (hwait : st.closed = false) (hinst : st.inst.onComplete = true) (hopen : .opened x j ∈ s.trA) (hcl : .closed x ∉ s.trA)
    (fs : List AnyFrame) (hf : s.ba = .cancel ⟨x⟩ :: fs) (r : React) :
    ∃ s' e, System.step s (.toA r) = .ok s' ∧ s'.trA = s.trA ++ e ∧ .flux j .complete ∈ e ∧ .closed x ∈ e := by
  have hJ := joined_run ms h
  have hg := getStream_live regA client s.histA s.a s.trA hJ.a x j (hJ.openedA ht) hopen hcl
  have hty : (AnyFrame.cancel ⟨x⟩).type ≥ typeRequestN := by show typeCancel ≥ typeRequestN; decide
  have hid : (AnyFrame.cancel ⟨x⟩).streamID = x := rfl
  have step : System.step s (.toA r) = System.moveA { s with ba := fs } (.frame (.cancel ⟨x⟩) r) := by
    simp only [System.step, hf]
  rw [step]
  simp only [System.moveA, Handler.step, handleFrame, if_pos hty, hid, hg, dispatch, deliver, ho, andThen, closing, settle]
  refine ⟨_, _, rfl, rfl, ?_, ?_⟩
  · refine List.mem_append_left _ ?_
    simp only [onFlux, Flux.step, Flux.complete, hwait, Bool.false_eq_true, if_false, hinst, if_true]
    simp [demandEvs]
  · simp

/-- C103 fails for every run: no source of a flux is ever cancelled. -/
theorem C103_stop_violated (regA regB : Registry H) (client : Bool) (ms : List Move) (s : Sys H)
    (h : System.run regA regB client ms = .ok s) (j : Nat) : .src j .upCancel ∉ s.trA :=
  no_stop regA client s.histA s.a s.trA (joined_run ms h).a j

end

/-! ## Concrete runs -/

/-- A calls a channel operation; B's handler requests one element of the input, sees it, cancels the input, and says an
element of the output. -/
def cancel103 : List Move := open96 ++
  [.atA (.input 1 (.next ⟨[7], []⟩)), .toB noReact, .atB (.inpCall 0 .cancel), .atB (.run 0 retCreated), .atB (.run 0 retCreated),
   .atB (.out 0 (.onSubscribe true)), .atB (.out 0 (.next ⟨[9], []⟩))]

def sys103 : Sys Unit := sysAfter (System.run oneHandler oneHandler true cancel103)

/-- The hypotheses of `C103_told_partial`, `C103_quiet_partial` and `C103_ends_violated` hold for this run. -/
theorem hyps103 : System.run oneHandler oneHandler true cancel103 = .ok sys103 ∧ Tidy sys103 ∧ bothEnds sys103 1 0 3 ∧
    inputCancels 0 sys103.trB = 1 ∧ cancelFrames 3 (sentFrames sys103.trB) = 1 ∧
    (∃ req first c input st, sys103.a.objs[1]? = some (.flux req first c input (some st)) ∧ st.closed = false ∧
      st.inst.onComplete = true) ∧
    .opened 3 1 ∈ sys103.trA ∧ .closed 3 ∉ sys103.trA ∧ .flux 1 .complete ∉ sys103.trA ∧ (∃ f, sys103.ba = [.cancel ⟨3⟩, f]) :=
  ⟨rfl, tidy_of (by decide +kernel) (by decide +kernel) (by decide +kernel) (by decide +kernel),
    ⟨⟨_, _, _, _, _, rfl, rfl⟩, _, _, _, _, .inr rfl, rfl⟩, by decide +kernel, by decide +kernel,
    ⟨_, _, _, _, _, rfl, rfl, rfl⟩, by decide +kernel, by decide +kernel, by decide +kernel, _, rfl⟩

/-- The same run, with another element of the input on its way when the handler cancels; the handler does not see it. -/
def late103 : List Move := open96 ++
  [.atA (.input 1 (.next ⟨[7], []⟩)), .toB noReact, .atB (.inpCall 0 (.request 1)), .atB (.run 1 retCreated), .toA noReact,
   .atA (.run 0 retCreated), .atA (.input 1 (.next ⟨[8], []⟩)), .atB (.inpCall 0 .cancel), .toB noReact]

def sysLate103 : Sys Unit := sysAfter (System.run oneHandler oneHandler true late103)

example : System.run oneHandler oneHandler true late103 = .ok sysLate103 ∧ Tidy sysLate103 ∧ bothEnds sysLate103 1 0 3 ∧
    inputCancels 0 sysLate103.trB = 1 ∧ fluxSignals (inpEvs 0 sysLate103.trB) = [.next ⟨[7], []⟩] ∧
    arrivals 3 sysLate103.histB = [.element ⟨[7], []⟩, .element ⟨[8], []⟩] :=
  ⟨rfl, tidy_of (by decide +kernel) (by decide +kernel) (by decide +kernel) (by decide +kernel),
    ⟨⟨_, _, _, _, _, rfl, rfl⟩, _, _, _, _, .inr rfl, rfl⟩, by decide +kernel, by decide +kernel, by decide +kernel⟩

/-- C103 fails: the caller is told that the output is complete; the element the handler says afterwards is never seen, and is
refused as of an unknown stream, which ends the connection (C93). -/
theorem C103_refused_violated : ∃ s s', System.step sys103 (.toA noReact) = .ok s ∧ .flux 1 .complete ∈ s.trA ∧
    System.step s (.toA noReact) = .ok s' ∧ .refused "stream ID 3 not found" ∈ s'.trA ∧
    handedOver s'.histA = [.requestN ⟨3, 1⟩, .cancel ⟨3⟩, .payload ⟨3, [], [9], false, false, true⟩] ∧ fluxSignals (fluxEvs 1 s'.trA) = [.complete] :=
  ⟨_, _, rfl, by decide +kernel, rfl, by decide +kernel, by decide +kernel, by decide +kernel⟩

theorem C103_violated : ¬ C103_statement Unit := by
  intro h
  obtain ⟨h1, h2, h3, -, -, ⟨req, first, c, input, st, o1, o3, o4⟩, h5, h6, h7, f, h8⟩ := hyps103
  obtain ⟨s', e, e1, e2, e3, -⟩ := C103_ends_violated oneHandler oneHandler true cancel103 sys103 h1 h2 1 3 req first c input st o1
    o3 o4 h5 h6 [f] h8 noReact
  exact h7 ((h oneHandler oneHandler true cancel103 sys103 h1 h2 1 0 3 h3).2.2.1 [f] noReact s' h8 e1
    (by rw [e2]; exact List.mem_append_right _ e3))

end Verif.Props
