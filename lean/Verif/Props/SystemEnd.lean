import Verif.Lemmas.HandlerIds
import Verif.Props.HandlerCalls
import Verif.Props.HandlerDemand
/-
What one end of a connection sends for each stream id, as needed to join two ends
(`Verif/Props/System.lean`).
-/
set_option autoImplicit false
namespace Verif.Props
open Verif Frames Handler
open Verif.Invoke (Kind Registry)

section
variable {H : Type}

/-- All frames sent, in order. -/
def sentFrames (tr : List (Handler.Ev H)) : List AnyFrame :=
  tr.filterMap fun | .sent _ f => some f | _ => none

theorem sentFrames_append (a b : List (Handler.Ev H)) : sentFrames (a ++ b) = sentFrames a ++ sentFrames b := by
  simp [sentFrames]

def isReq : AnyFrame → Bool
  | .request _ => true
  | _ => false

def isReqEv : Handler.Ev H → Bool
  | .sent _ f => isReq f
  | _ => false

/-! ## Events of one stream -/

/-- Opens nothing, requests nothing, and all frames are for `id`. -/
structure Plain (id : UInt32) (es : List (Handler.Ev H)) : Prop where
  opened : ∀ i k, .opened i k ∉ es
  frames : ∀ b f, .sent b f ∈ es → f.streamID = id ∧ isReq f = false

theorem plain_nil (id : UInt32) : Plain id ([] : List (Handler.Ev H)) := ⟨by simp, by simp⟩

theorem plain_append {id : UInt32} {a b : List (Handler.Ev H)} (ha : Plain id a) (hb : Plain id b) :
    Plain id (a ++ b) :=
  ⟨fun i k h => (List.mem_append.mp h).elim (ha.opened i k) (hb.opened i k),
   fun b f h => (List.mem_append.mp h).elim (ha.frames b f) (hb.frames b f)⟩

theorem plain_replyEvs (j : Nat) (id : UInt32) (l : List (Flux.Ev Pay)) :
    ∀ r : List (Handler.Ev H), replyEvs j id l = .ok r → Plain id r := by
  induction l with
  | nil => intro r h; cases h; exact plain_nil _
  | cons x l ih =>
    intro r h
    simp only [replyEvs] at h
    obtain ⟨a, ha, h⟩ := bind_ok_inv h
    obtain ⟨b, hb, h⟩ := bind_ok_inv h
    cases h
    refine plain_append ?_ (ih _ hb)
    unfold replyEv at ha
    split at ha <;> cases ha <;> constructor <;> simp [AnyFrame.streamID, isReq, errorFrame]

theorem plain_answerEvs (j : Nat) (id : UInt32) (l : List (Mono.Ev Pay)) :
    ∀ r : List (Handler.Ev H), answerEvs j id l = .ok r → Plain id r := by
  induction l with
  | nil => intro r h; cases h; exact plain_nil _
  | cons x l ih =>
    intro r h
    simp only [answerEvs] at h
    obtain ⟨a, ha, h⟩ := bind_ok_inv h
    obtain ⟨b, hb, h⟩ := bind_ok_inv h
    cases h
    refine plain_append ?_ (ih _ hb)
    unfold answerEv at ha
    split at ha <;> cases ha <;> constructor <;> simp [AnyFrame.streamID, isReq, errorFrame]

theorem plain_demandEvs (j : Nat) (id : UInt32) (wrap : Flux.Ev Pay → Handler.Ev H)
    (hw : ∀ e, Plain id [wrap e]) (l : List (Flux.Ev Pay)) : Plain id (demandEvs j id wrap l) := by
  induction l with
  | nil => exact plain_nil _
  | cons x l ih =>
    cases x <;> simp only [demandEvs]
    case upCancel =>
      refine plain_append (hw _) (plain_append (a := [_]) ?_ ih)
      constructor <;> simp [AnyFrame.streamID, isReq]
    all_goals exact plain_append (hw _) ih

theorem plain_mono (id : UInt32) (j : Nat) (l : List (Mono.Ev Pay)) :
    Plain id (l.map (.mono j) : List (Handler.Ev H)) := by
  constructor <;> simp

/-- How often a stream may have been registered, and how many request frames it may have sent. -/
def countsOk : Obj → Nat → Nat → Prop
  | .answer .., o, r => o = 0 ∧ r = 0
  | .responder .., o, r => o ≤ 1 ∧ r = 0
  | .mono .., o, r => r = o
  | .flux _ first _ _ sub, o, r =>
    (if sub.isNone then o = 0 else o ≤ 1) ∧ (if first then r = 0 else r ≤ 1)

structure KInv (o : Obj) (es : List (Handler.Ev H)) : Prop where
  frames : ∀ b f, .sent b f ∈ es → f.streamID = o.sid ∧ (isReq f = true → o.own = true)
  opened : ∀ id i, .opened id i ∈ es → id = o.sid
  counts : countsOk o (openedIds es).length (es.filter isReqEv).length

theorem plain_counts {id : UInt32} {es : List (Handler.Ev H)} (h : Plain id es) :
    openedIds es = [] ∧ es.filter isReqEv = [] := by
  constructor
  · apply List.filterMap_eq_nil_iff.mpr
    intro e he
    cases e with
    | opened i k => exact absurd he (h.opened i k)
    | _ => rfl
  · apply List.filter_eq_nil_iff.mpr
    intro e he
    cases e with
    | sent b f => simp [isReqEv, (h.frames b f he).2]
    | _ => simp [isReqEv]

theorem kinv_plain {o o' : Obj} {es es' : List (Handler.Ev H)} (inv : KInv o es) (hk : o'.key = o.key)
    (hp : Plain o.sid es') (hc : ∀ a b, countsOk o a b → countsOk o' a b) : KInv o' (es ++ es') := by
  have h1 : o'.own = o.own := congrArg Prod.fst hk
  have h2 : o'.sid = o.sid := congrArg Prod.snd hk
  obtain ⟨c1, c2⟩ := plain_counts hp
  refine ⟨?_, ?_, ?_⟩
  · intro b f h
    rw [h1, h2]
    rcases List.mem_append.mp h with h | h
    · exact inv.frames b f h
    · obtain ⟨h3, h4⟩ := hp.frames b f h
      exact ⟨h3, fun h => by rw [h4] at h; cases h⟩
  · intro id i h
    rw [h2]
    rcases List.mem_append.mp h with h | h
    · exact inv.opened id i h
    · exact absurd h (hp.opened _ _)
  · rw [openedIds_append, List.filter_append, c1, c2, List.append_nil, List.append_nil]
    exact hc _ _ inv.counts

theorem k_step {j : Nat} {o o' : Obj} {ts ts' : List Task} {es es' : List (Handler.Ev H)}
    (inv : KInv o es) (h : CStep j o ts o' ts' es') : KInv o' (es ++ es') ∧ o'.key = o.key := by
  cases h with
  | answer id m st _ sig _ h =>
    exact ⟨kinv_plain inv rfl (plain_answerEvs _ _ _ _ h) fun _ _ h => h, rfl⟩
  | outSub k id out b inp f n ts _ h =>
    exact ⟨kinv_plain inv rfl (plain_replyEvs _ _ _ _ h) fun _ _ h => h, rfl⟩
  | outFirst k id g st b inp f n _ _ hf h =>
    exact ⟨kinv_plain inv rfl (plain_replyEvs _ _ _ _ h) fun _ _ h => h, rfl⟩
  | outReq k id f st inp n _ _ h =>
    exact ⟨kinv_plain inv rfl (plain_replyEvs _ _ _ _ h) fun _ _ h => h, rfl⟩
  | out k id f st b inp _ _ op hf h =>
    exact ⟨kinv_plain inv rfl (plain_replyEvs _ _ _ _ h) fun _ _ h => h, rfl⟩
  | inp k id out b st ts op _ =>
    exact ⟨kinv_plain inv rfl (plain_demandEvs _ _ _ (fun e => by constructor <;> simp) _) fun _ _ h => h, rfl⟩
  | inpSub id out b ts inst start =>
    exact ⟨kinv_plain inv rfl (plain_demandEvs _ _ _ (fun e => by constructor <;> simp) _) fun _ _ h => h, rfl⟩
  | inpUp k id out b inp n =>
    exact ⟨kinv_plain inv rfl ⟨by simp, by simp [AnyFrame.streamID, isReq, Obj.sid]⟩ fun _ _ h => h, rfl⟩
  | monoOp req proc _ op hop => exact ⟨kinv_plain inv rfl (plain_mono _ _ _) fun _ _ h => h, rfl⟩
  | monoSub req proc _ inst =>
    refine ⟨⟨?_, ?_, ?_⟩, rfl⟩
    · intro b f h
      simp only [List.mem_append, List.mem_cons, List.mem_map, List.mem_singleton, List.not_mem_nil, or_false] at h
      rcases h with h | h | h
      · exact inv.frames b f h
      · simp at h
      · cases h; exact ⟨rfl, fun _ => rfl⟩
    · intro id i h
      simp only [List.mem_append, List.mem_cons, List.mem_map, List.mem_singleton, List.not_mem_nil, or_false] at h
      rcases h with h | (h | h) | h
      · exact inv.opened id i h
      · cases h; rfl
      · simp at h
      · cases h
    · obtain ⟨c1, c2⟩ := plain_counts (plain_mono (H := H) 0 j (proc.step (.subscribe inst)).2)
      have := inv.counts
      simp only [countsOk] at this ⊢
      have e1 : openedIds (.opened req.streamID j :: (proc.step (.subscribe inst)).2.map (.mono j) ++
          [.sent (some j) (.request req)] : List (Handler.Ev H)) = [req.streamID] := by
        rw [← List.singleton_append, openedIds_append, openedIds_append, c1]; rfl
      have e2 : (.opened req.streamID j :: (proc.step (.subscribe inst)).2.map (.mono j) ++
          [.sent (some j) (.request req)] : List (Handler.Ev H)).filter isReqEv =
          [.sent (some j) (.request req)] := by
        rw [← List.singleton_append, List.filter_append, List.filter_append, c2]; rfl
      rw [openedIds_append, List.filter_append, e1, e2, List.length_append, List.length_append, this]
      rfl
  | fluxOp req first c input st ts op _ =>
    exact ⟨kinv_plain inv rfl (plain_demandEvs _ _ _ (fun e => by constructor <;> simp) _) fun _ _ h => h, rfl⟩
  | fluxIdle req first c input _ op =>
    exact ⟨kinv_plain inv rfl (plain_nil _) fun _ _ h => h, rfl⟩
  | fluxSub req first c input ts inst start =>
    have hp := plain_demandEvs (H := H) j req.streamID (.flux j) (fun e => by constructor <;> simp)
      (Flux.runFrom (.init inst []) [.onSubscribe true, .start start]).2
    obtain ⟨c1, c2⟩ := plain_counts hp
    refine ⟨⟨?_, ?_, ?_⟩, rfl⟩
    · intro b f h
      rcases List.mem_append.mp h with h | h
      · exact inv.frames b f h
      · rcases List.mem_cons.mp h with h | h
        · cases h
        · obtain ⟨h3, h4⟩ := hp.frames b f h
          exact ⟨h3, fun _ => rfl⟩
    · intro id i h
      rcases List.mem_append.mp h with h | h
      · exact inv.opened id i h
      · rcases List.mem_cons.mp h with h | h
        · cases h; rfl
        · exact absurd h (hp.opened _ _)
    · have := inv.counts
      have e1 : ∀ l : List (Handler.Ev H), openedIds l = [] →
          openedIds (.opened req.streamID j :: l) = [req.streamID] := by
        intro l h; simp only [openedIds] at h ⊢; simp [h]
      have e2 : ∀ l : List (Handler.Ev H), l.filter isReqEv = [] →
          (.opened req.streamID j :: l).filter isReqEv = [] := by
        intro l h; simp [isReqEv, h]
      rw [openedIds_append, List.filter_append, e1 _ c1, e2 _ c2]
      simp only [countsOk, Option.isNone_none, if_true] at this ⊢
      refine ⟨by simp [this.1], by simpa using this.2⟩
  | upDone req first input sub n => exact ⟨kinv_plain inv rfl (plain_nil _) fun _ _ h => h, rfl⟩
  | upFirst req input sub n ts =>
    refine ⟨⟨?_, ?_, ?_⟩, rfl⟩
    · intro b f h
      rcases List.mem_append.mp h with h | h
      · exact inv.frames b f h
      · simp at h; obtain ⟨rfl, rfl⟩ := h; exact ⟨rfl, fun _ => rfl⟩
    · intro id i h
      rcases List.mem_append.mp h with h | h
      · exact inv.opened id i h
      · simp at h
    · have := inv.counts
      rw [openedIds_append, List.filter_append]
      simp only [countsOk] at this ⊢
      refine ⟨by simpa [openedIds] using this.1, ?_⟩
      have h2 := this.2
      simp only [if_true] at h2
      rw [List.length_append, h2, Nat.zero_add]
      exact List.length_filter_le ..
  | upLater req input sub n =>
    exact ⟨kinv_plain inv rfl ⟨by simp, by simp [AnyFrame.streamID, isReq, Obj.sid]⟩ fun _ _ h => h, rfl⟩
  | inputSub req first c f sub _ _ h =>
    exact ⟨kinv_plain inv rfl (plain_replyEvs _ _ _ _ h) fun _ _ h => h, rfl⟩
  | inputReq req first c f st sub n _ _ hf h =>
    exact ⟨kinv_plain inv rfl (plain_replyEvs _ _ _ _ h) fun _ _ h => h, rfl⟩
  | input req first c f st sub _ _ op hf h =>
    exact ⟨kinv_plain inv rfl (plain_replyEvs _ _ _ _ h) fun _ _ h => h, rfl⟩
  | asked _ ts n => exact ⟨kinv_plain inv rfl (plain_nil _) fun _ _ h => h, rfl⟩

theorem k_run {j : Nat} {o o' : Obj} {ts ts' : List Task} {es0 es : List (Handler.Ev H)}
    (inv : KInv o es0) (h : CRun j o ts o' ts' es) : KInv o' (es0 ++ es) := by
  induction h with
  | refl => simpa using inv
  | perm _ _ _ _ _ _ ih => exact ih
  | step _ _ _ _ _ _ _ hs ih => rw [← List.append_assoc]; exact (k_step ih hs).1

theorem k_born {j : Nat} {o : Obj} {ts : List Task} {es : List (Handler.Ev H)} (h : Born j o ts es) :
    KInv o es := by
  cases h with
  | answer id m _ h =>
    have hp := plain_answerEvs j id _ _ h
    obtain ⟨c1, c2⟩ := plain_counts hp
    refine ⟨fun b f h => ⟨(hp.frames b f h).1, fun h' => ?_⟩, fun i k h => absurd h (hp.opened _ _), ?_⟩
    · rw [(hp.frames b f h).2] at h'; cases h'
    · rw [c1, c2]; exact ⟨rfl, rfl⟩
  | fnf id _ he =>
    rcases he with rfl | rfl
    · exact ⟨by simp, by simp [Obj.sid], by simp [countsOk, openedIds, isReqEv]⟩
    · exact ⟨by simp, by simp, by simp [countsOk, openedIds]⟩
  | stream k id f n _ hk he =>
    rcases he with rfl | ⟨-, rfl⟩
    · exact ⟨by simp, by simp [Obj.sid], by simp [countsOk, openedIds, isReqEv]⟩
    · exact ⟨by simp, by simp, by simp [countsOk, openedIds]⟩
  | mono id p => exact ⟨by simp, by simp, by simp [countsOk, openedIds]⟩
  | rs id p => exact ⟨by simp, by simp, by simp [countsOk, openedIds]⟩
  | rc id p input => exact ⟨by simp, by simp, by simp [countsOk, openedIds]⟩

/-- Each stream of an end: its frames and registrations carry its id, and are as many as they may. -/
theorem k_history (reg : Registry H) (client : Bool) (as : List Act) (s : St H)
    (tr : List (Handler.Ev H)) (h : Handler.run reg client as = .ok (s, tr)) (j : Nat) :
    (s.objs[j]? = none ∧ evsOf j tr = []) ∨ ∃ o, s.objs[j]? = some o ∧ KInv o (evsOf j tr) := by
  rcases Handler.history reg client as s tr h j with ⟨h1, -, h3⟩ | ⟨o0, ts0, es0, o, es, hb, ho', hr, he⟩
  · exact .inl ⟨h1, h3⟩
  · exact .inr ⟨o, ho', by rw [he]; exact k_run (k_born hb) hr⟩

theorem sent_history (reg : Registry H) (client : Bool) (as : List Act) (s : St H)
    (tr : List (Handler.Ev H)) (h : Handler.run reg client as = .ok (s, tr)) (j : Nat) (f : AnyFrame)
    (hf : .sent (some j) f ∈ tr) :
    ∃ o, s.objs[j]? = some o ∧ f.streamID = o.sid ∧ (isReq f = true → o.own = true) := by
  have hm : .sent (some j) f ∈ evsOf j tr := List.mem_filter.mpr ⟨hf, by simp [Handler.Ev.obj]⟩
  rcases k_history reg client as s tr h j with ⟨-, h2⟩ | ⟨o, h1, h2⟩
  · rw [h2] at hm; cases hm
  · exact ⟨o, h1, h2.frames _ _ hm⟩

theorem opened_history (reg : Registry H) (client : Bool) (as : List Act) (s : St H)
    (tr : List (Handler.Ev H)) (h : Handler.run reg client as = .ok (s, tr)) (j : Nat) (id : UInt32)
    (hf : .opened id j ∈ tr) : ∃ o, s.objs[j]? = some o ∧ id = o.sid := by
  have hm : .opened id j ∈ evsOf j tr := List.mem_filter.mpr ⟨hf, by simp [Handler.Ev.obj]⟩
  rcases k_history reg client as s tr h j with ⟨-, h2⟩ | ⟨o, h1, h2⟩
  · rw [h2] at hm; cases hm
  · exact ⟨o, h1, h2.opened _ _ hm⟩

end
end Verif.Props
