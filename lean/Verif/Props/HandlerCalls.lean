import Verif.Props.HandlerDemand
import Verif.Props.Mono
/-
Property C62: what a requester of a request/response call sends and gets.
-/
set_option autoImplicit false
namespace Verif.Props
open Verif Frames Handler
open Verif.Invoke (Kind Registry)

section
variable {H : Type}

/-! ## Specification -/

/-- The callbacks of the mono of stream `j`, in order. -/
def monoEvs (j : Nat) (tr : List (Handler.Ev H)) : List (Mono.Ev Pay) :=
  tr.filterMap fun | .mono i e => if i = j then some e else none | _ => none

/-- The result a received frame carries for stream `id`: a payload, or an error. -/
def resultOf (id : UInt32) : Act → Option (Mono.Sig Pay)
  | .frame (.payload v) _ =>
    if v.streamID = id ∧ v.next = true then some (.success ⟨v.data, v.metadata⟩) else none
  | .frame (.error v) _ => if v.streamID = id then some (.error (some (strOf v.data))) else none
  | _ => none

/-- The results received for stream `id`. -/
def results (id : UInt32) (as : List Act) : List (Mono.Sig Pay) := as.filterMap (resultOf id)

/-- The frame ends stream `id` without a result: a cancel, or a completion without payload. -/
def endsEmpty (id : UInt32) (a : Act) : Bool :=
  match a with
  | .frame f _ => decide (f.streamID = id) && endsStream f && (resultOf id a).isNone
  | _ => false

/-- No frame ends stream `id` without a result before the first result. -/
def noEmptyEnd (id : UInt32) : List Act → Prop
  | [] => True
  | a :: as => (resultOf id a).isSome = true ∨ (endsEmpty id a = false ∧ noEmptyEnd id as)

instance (id : UInt32) : (as : List Act) → Decidable (noEmptyEnd id as)
  | [] => .isTrue trivial
  | a :: as =>
    have := instDecidableNoEmptyEnd id as
    inferInstanceAs (Decidable ((resultOf id a).isSome = true ∨ (endsEmpty id a = false ∧ noEmptyEnd id as)))

def subscribesTo (j : Nat) : Act → Bool
  | .subscribeMono i _ => i = j
  | _ => false

/-- C62 as stated in English: a call (made in the history `before`, not subscribed yet, and with an
id not used for another stream) that is then subscribed once sends its request frame, only that, and its callbacks see the first result
received for its stream (`outcome`), whatever else happens. -/
def C62_statement (H : Type) : Prop :=
  ∀ (reg : Registry H) (client : Bool) (before after : List Act) (s1 s2 : St H)
    (t1 t2 : List (Handler.Ev H)) (j : Nat) (req : RequestPayload) (inst : Mono.Installed),
    Handler.run reg client before = .ok (s1, t1) → s1.objs[j]? = some (.mono req .init) →
    .closed req.streamID ∉ t1 →
    Handler.runFrom s1 (.subscribeMono j inst :: after) = .ok (s2, t2) →
    (openedIds (t1 ++ t2)).Nodup → (∀ a ∈ after, subscribesTo j a = false) →
    framesBy j (t1 ++ t2) = [.request req] ∧
    monoEvs j t2 = outcome 0 inst (results req.streamID after)

/-! ## Steps that do not concern the mono -/

/-- Callbacks of mono `j` and removals. -/
def touches (j : Nat) : Handler.Ev H → Bool
  | .mono i _ => i = j
  | .closed _ => true
  | _ => false

theorem touches_obj {j i : Nat} (hi : i ≠ j) {e : Handler.Ev H} (h : e.obj = some i) : touches j e = false := by
  cases e <;> simp [Handler.Ev.obj] at h <;> simp [touches, *]

/-- Neither the object `j` nor its callbacks are touched, and no stream is removed. -/
def Still (j : Nat) (s : St H) (x : Go (Out H)) : Prop :=
  ∀ s' e, x = .ok (s', e) → s'.objs[j]? = s.objs[j]? ∧ ∀ ev ∈ e, touches j ev = false

theorem still_nop (j : Nat) (s : St H) : Still j s (.ok (s, [])) := by
  intro s' e h; cases h; exact ⟨rfl, by simp⟩
theorem still_err (j : Nat) (s : St H) (m : String) : Still j s (.err m) := by intro s' e h; cases h
theorem still_panic (j : Nat) (s : St H) : Still j s .panic := by intro s' e h; cases h

theorem still_of_ok {j : Nat} {s : St H} {x : Go (Out H)}
    (h : ∀ s' e, x = .ok (s', e) → Still j s (.ok (s', e))) : Still j s x :=
  fun s' e hx => h s' e hx s' e rfl

theorem still_at (j i : Nat) (s s' : St H) (e : List (Handler.Ev H)) (o : Obj) (hi : i ≠ j)
    (hs : s'.objs = s.objs.set i o) (he : ∀ ev ∈ e, ev.obj = some i) : Still j s (.ok (s', e)) := by
  intro s' e h
  cases h
  refine ⟨?_, fun ev hev => touches_obj hi (he ev hev)⟩
  rw [hs, List.getElem?_set_ne hi]

theorem still_objs (j : Nat) (s s' : St H) (e : List (Handler.Ev H)) (x : List Obj) (hj : j < s.objs.length)
    (hs : s'.objs = s.objs ++ x) (he : ∀ ev ∈ e, touches j ev = false) : Still j s (.ok (s', e)) := by
  intro s' e h
  cases h
  refine ⟨?_, he⟩
  rw [hs, List.getElem?_append_left hj]

theorem still_serve (j : Nat) (s : St H) (k : Kind) (id : UInt32) (data md : Bytes) (n : UInt32)
    (ret : Ret) (hj : j < s.objs.length) : Still j s (serve s k id data md n ret) := by
  apply still_of_ok
  intro s' e h
  unfold serve at h
  split at h
  · cases h; exact still_objs _ _ _ _ [] hj (by simp) (by simp [touches])
  · cases hop : getU32 md with
    | ok op =>
      rw [hop] at h
      simp only [bind, Go.bind] at h
      split at h
      · cases h; exact still_objs _ _ _ _ [] hj (by simp) (by simp [touches])
      · split at h
        · cases hr : (answerEvs s.objs.length id (monoSubscribe ret.mono).2 : Go (List (Handler.Ev H))) with
          | ok es =>
            rw [hr] at h
            cases h
            refine still_objs _ _ _ _ _ hj rfl ?_
            intro ev hev
            rcases List.mem_cons.mp hev with rfl | hev
            · rfl
            · exact touches_obj (by omega) (answerEvs_obj _ _ _ _ hr ev hev)
          | err m => rw [hr] at h; cases h
          | panic => rw [hr] at h; cases h
        · split at h
          · cases h
            exact still_objs _ _ _ _ _ hj (by rw [register_objs]) (by simp [touches])
          · cases h
            exact still_objs _ _ _ _ _ hj rfl (by simp [touches])
        · split at h
          · cases h
            exact still_objs _ _ _ _ _ hj (by simp only [addTasks]; rw [register_objs]) (by simp [touches])
          · cases h
            exact still_objs _ _ _ _ _ hj rfl (by simp [touches])
    | err m => rw [hop] at h; cases h
    | panic => rw [hop] at h; cases h

theorem ne_of_kind {s : St H} {i j : Nat} {req : RequestPayload} {proc : Mono.Proc Pay} {o : Obj}
    (hj : s.objs[j]? = some (.mono req proc)) (ho : s.objs[i]? = some o) (ht : objTag o ≠ 2) : i ≠ j := by
  rintro rfl
  rw [ho] at hj; cases hj; exact ht rfl

theorem still_runTask (j : Nat) (s : St H) (ret : Ret) (task : Task) (req : RequestPayload)
    (proc : Mono.Proc Pay) (hj : s.objs[j]? = some (.mono req proc)) :
    Still j s (runTask s ret task) := by
  have hl : j < s.objs.length := (List.getElem?_eq_some_iff.mp hj).1
  apply still_of_ok
  intro s' e h
  cases task with
  | request k id data md n =>
    intro t f hx
    cases hx
    exact still_serve j s k id data md n ret hl _ _ h
  | subscribe i f n =>
    simp only [runTask] at h
    split at h
    · rename_i ho
      obtain ⟨hr, rfl⟩ := onOut_ok h
      exact still_at j i _ _ _ _ (ne_of_kind hj ho (by simp [objTag])) rfl (replyEvs_obj _ _ _ _ hr)
    · cases h
  | firstRequest i f n =>
    simp only [runTask] at h
    split at h
    · rename_i ho
      split at h
      · cases h
      · obtain ⟨hr, rfl⟩ := onOut_ok h
        exact still_at j i _ _ _ _ (ne_of_kind hj ho (by simp [objTag])) rfl (replyEvs_obj _ _ _ _ hr)
    · cases h
  | doRequest i n =>
    simp only [runTask] at h
    split at h
    · rename_i ho
      obtain ⟨hr, rfl⟩ := onOut_ok h
      exact still_at j i _ _ _ _ (ne_of_kind hj ho (by simp [objTag])) rfl (replyEvs_obj _ _ _ _ hr)
    · rename_i ho
      split at h
      · cases h
      · obtain ⟨hr, rfl⟩ := onInput_ok h
        exact still_at j i _ _ _ _ (ne_of_kind hj ho (by simp [objTag])) rfl (replyEvs_obj _ _ _ _ hr)
    · cases h
  | upRequest i n =>
    simp only [runTask] at h
    split at h
    · rename_i ho
      cases h
      exact still_at j i _ _ _ _ (ne_of_kind hj ho (by simp [objTag])) (set_self ho) (by simp [Ev.obj])
    · rename_i ho
      split at h
      · cases h
        exact still_nop _ _
      · split at h
        · cases h
          exact still_at j i _ _ _ _ (ne_of_kind hj ho (by simp [objTag])) rfl (by simp [Ev.obj])
        · cases h
          exact still_at j i _ _ _ _ (ne_of_kind hj ho (by simp [objTag])) (set_self ho) (by simp [Ev.obj])
    · cases h
  | subscribeIn i =>
    simp only [runTask] at h
    split at h
    · rename_i ho
      obtain ⟨hr, rfl⟩ := onInput_ok h
      exact still_at j i _ _ _ _ (ne_of_kind hj ho (by simp [objTag])) rfl (replyEvs_obj _ _ _ _ hr)
    · cases h

/-- Everything but received frames and subscribing leaves a requester's mono alone. -/
theorem still_step (j : Nat) (s : St H) (a : Act) (req : RequestPayload)
    (proc : Mono.Proc Pay) (hj : s.objs[j]? = some (.mono req proc)) (hsub : subscribesTo j a = false)
    (hfr : ∀ f r, a ≠ .frame f r) : Still j s (Handler.step s a) := by
  have hl : j < s.objs.length := (List.getElem?_eq_some_iff.mp hj).1
  cases a with
  | frame f r => exact absurd rfl (hfr f r)
  | run t ret =>
    simp only [Handler.step]
    split
    · exact still_runTask j { s with tasks := s.tasks.eraseIdx t } ret _ req proc hj
    · exact still_nop _ _
  | answer i sig =>
    simp only [Handler.step]
    split
    · rename_i id m st ho
      apply still_of_ok
      intro s' e h
      cases hr : (answerEvs i id (throughMonoMap m (Mono.signal st 0 sig [] []).2) : Go (List (Handler.Ev H))) with
      | ok es =>
        rw [hr] at h
        cases h
        exact still_at j i _ _ _ _ (ne_of_kind hj ho (by simp [objTag])) rfl (answerEvs_obj _ _ _ _ hr)
      | err m => rw [hr] at h; cases h
      | panic => rw [hr] at h; cases h
    · exact still_nop _ _
  | out i op =>
    simp only [Handler.step]
    split
    · rename_i ho
      split
      · exact still_nop _ _
      · apply still_of_ok
        intro s' e h
        obtain ⟨hr, rfl⟩ := onOut_ok h
        exact still_at j i _ _ _ _ (ne_of_kind hj ho (by simp [objTag])) rfl (replyEvs_obj _ _ _ _ hr)
    · exact still_nop _ _
  | subscribeInp i inst start =>
    simp only [Handler.step]
    split
    · rename_i ho
      exact still_at j i _ _ _ _ (ne_of_kind hj ho (by simp [objTag])) rfl (demandEvs_obj _ _ _ (fun _ => rfl) _)
    · exact still_nop _ _
  | inpCall i c =>
    simp only [Handler.step]
    split
    · rename_i ho
      exact still_at j i _ _ _ _ (ne_of_kind hj ho (by simp [objTag])) rfl (demandEvs_obj _ _ _ (fun _ => rfl) _)
    · exact still_nop _ _
  | call k p input =>
    simp only [Handler.step, Handler.call]
    cases k
    · exact still_objs _ _ _ _ _ hl rfl (by simp)
    · exact still_objs _ _ _ _ [] hl (by simp) (by simp [touches])
    · exact still_objs _ _ _ _ _ hl rfl (by simp)
    · exact still_objs _ _ _ _ _ hl rfl (by simp)
  | subscribeMono i inst =>
    have hi : i ≠ j := by simpa [subscribesTo] using hsub
    simp only [Handler.step]
    split
    · refine still_at j i _ _ _ (o := ?_) hi ?_ ?_
      rotate_left
      · simp only [setObj, register_objs]; rfl
      · intro e he
        simp only [List.cons_append, List.mem_cons, List.mem_append, List.mem_map, List.not_mem_nil,
          or_false] at he
        rcases he with rfl | ⟨x, -, rfl⟩ | rfl <;> rfl
    · exact still_nop _ _
  | subscribeFlux i inst start =>
    simp only [Handler.step]
    split
    · rename_i ho
      refine still_at j i _ _ _ (o := ?_) (ne_of_kind hj ho (by simp [objTag])) ?_ ?_
      rotate_left
      · simp only [setObj, addTasks, register_objs]; rfl
      · intro e he
        rcases List.mem_cons.mp he with rfl | he
        · rfl
        · exact demandEvs_obj _ _ _ (fun _ => rfl) _ _ he
    · exact still_nop _ _
  | fluxCall i c =>
    simp only [Handler.step]
    split
    · rename_i ho
      exact still_at j i _ _ _ _ (ne_of_kind hj ho (by simp [objTag])) rfl (demandEvs_obj _ _ _ (fun _ => rfl) _)
    · exact still_nop _ _
  | input i op =>
    simp only [Handler.step]
    split
    · rename_i ho
      split
      · exact still_nop _ _
      · apply still_of_ok
        intro s' e h
        obtain ⟨hr, rfl⟩ := onInput_ok h
        exact still_at j i _ _ _ _ (ne_of_kind hj ho (by simp [objTag])) rfl (replyEvs_obj _ _ _ _ hr)
    · exact still_nop _ _

/-! ## Frames -/

theorem monoEvs_append (j : Nat) (a b : List (Handler.Ev H)) : monoEvs j (a ++ b) = monoEvs j a ++ monoEvs j b := by
  simp [monoEvs]

theorem monoEvs_untouched {j : Nat} {e : List (Handler.Ev H)} (h : ∀ ev ∈ e, touches j ev = false) :
    monoEvs j e = [] ∧ ∀ id, .closed id ∉ e := by
  constructor
  · apply List.filterMap_eq_nil_iff.mpr
    intro ev hev
    have := h ev hev
    cases ev <;> simp [touches] at this <;> simp [this]
  · intro id hid
    have := h _ hid
    simp [touches] at this

theorem monoEvs_map (j : Nat) (l : List (Mono.Ev Pay)) :
    monoEvs j (l.map (.mono j) : List (Handler.Ev H)) = l := by
  induction l with
  | nil => rfl
  | cons e l ih => simpa [monoEvs] using ih

/-- What one frame does to a mono that is registered only under its own id: nothing and no removal
of it (the frame does not concern it), or exactly the result the frame carries, if any, and a removal
only if the frame ends the stream. -/
structure FrameEffect (j : Nat) (req : RequestPayload) (proc : Mono.Proc Pay) (s' : St H)
    (e : List (Handler.Ev H)) (res : Option (Mono.Sig Pay)) (ends : Bool) : Prop where
  obj : s'.objs[j]? = some (.mono req ((proc.run ((res.toList).map sigOfPOp)).1))
  evs : monoEvs j e = (proc.run ((res.toList).map sigOfPOp)).2
  closed : ends = false → .closed req.streamID ∉ e

theorem deliver_other (i j : Nat) (s : St H) (op : Flux.Op Pay) (hi : i ≠ j) :
    Still j s (deliver s i op) := by
  unfold deliver
  split
  · exact still_at j i _ _ _ _ hi rfl (demandEvs_obj i _ (.inp i) (fun _ => rfl) _)
  · split
    · exact still_at j i _ _ _ _ hi rfl (mono_obj _ _)
    · exact still_at j i _ _ _ _ hi rfl (mono_obj _ _)
    · exact still_nop _ _
  · rename_i sub _
    cases sub with
    | some st => exact still_at j i _ _ _ _ hi rfl (demandEvs_obj i _ (.flux i) (fun _ => rfl) _)
    | none => exact still_at j i _ _ _ _ hi rfl (by simp)
  · exact still_panic _ _

theorem frame_other (i j : Nat) (s s' : St H) (f : AnyFrame) (r : React) (e : List (Handler.Ev H))
    (hi : i ≠ j) (h : dispatch s r f (some i) = .ok (s', e)) :
    s'.objs[j]? = s.objs[j]? ∧ monoEvs j e = [] ∧ ∀ id, f.streamID ≠ id → .closed id ∉ e := by
  have nothing : ∀ (s s' : St H) e, Still j s (.ok (s', e)) →
      s'.objs[j]? = s.objs[j]? ∧ monoEvs j e = [] ∧ ∀ id, f.streamID ≠ id → .closed id ∉ e := by
    intro s s' e hst
    obtain ⟨h1, h2⟩ := hst _ _ rfl
    obtain ⟨h3, h4⟩ := monoEvs_untouched h2
    exact ⟨h1, h3, fun id _ => h4 id⟩
  have comb : ∀ (s s' : St H) e (x : Go (Out H)) g, Still j s x → andThen x g = .ok (s', e) →
      (∀ t e, g t = .ok (s', e) → s'.objs[j]? = t.objs[j]? ∧ monoEvs j e = [] ∧
        ∀ id, f.streamID ≠ id → .closed id ∉ e) →
      s'.objs[j]? = s.objs[j]? ∧ monoEvs j e = [] ∧ ∀ id, f.streamID ≠ id → .closed id ∉ e := by
    intro s s' e x g hst hx hg
    obtain ⟨t, e1, e2, h1, h2, rfl⟩ := andThen_ok hx
    obtain ⟨h3, h4⟩ := hst _ _ h1
    obtain ⟨h5, h6⟩ := monoEvs_untouched h4
    obtain ⟨h7, h8, h9⟩ := hg t e2 h2
    refine ⟨h7.trans h3, by rw [monoEvs_append, h5, h8]; rfl, fun id hid hm => ?_⟩
    exact (List.mem_append.mp hm).elim (h6 id) (h9 id hid)
  have cls : ∀ (t s' : St H) e, closing f.streamID t = .ok (s', e) →
      s'.objs[j]? = t.objs[j]? ∧ monoEvs j e = [] ∧ ∀ id, f.streamID ≠ id → .closed id ∉ e := by
    intro t s' e h
    cases h
    refine ⟨by rw [remove_objs], rfl, ?_⟩
    intro id hid hm
    simp at hm; exact hid hm.symm
  cases f with
  | setup v =>
    simp only [dispatch] at h
    split at h
    · split at h
      · cases h; exact ⟨rfl, rfl, by simp⟩
      · cases h
      · cases h
    · cases h; exact ⟨rfl, rfl, by simp⟩
  | request v =>
    simp only [dispatch] at h
    split at h <;> cases h <;> exact ⟨rfl, rfl, by simp⟩
  | requestN v =>
    simp only [dispatch] at h
    split at h <;> cases h
    exact ⟨rfl, rfl, by simp⟩
  | cancel v =>
    simp only [dispatch] at h
    exact comb _ _ _ _ _ (deliver_other i j s _ hi) h (fun t e ht => cls t s' e ht)
  | payload v =>
    refine comb _ _ _ _ _ ?_ h ?_
    · split
      · exact deliver_other i j s _ hi
      · exact still_nop _ _
    · intro t e ht
      split at ht
      · exact comb _ _ _ _ _ (deliver_other i j t _ hi) ht (fun t e ht => cls t s' e ht)
      · cases ht; exact ⟨rfl, rfl, by simp⟩
  | error v =>
    refine comb _ _ _ _ _ (deliver_other i j s _ hi) h ?_
    intro t e ht
    exact comb _ _ _ _ _ (deliver_other i j t _ hi) ht (fun t e ht => cls t s' e ht)

theorem frame_here (j : Nat) (s s' : St H) (f : AnyFrame) (r : React) (e : List (Handler.Ev H))
    (req : RequestPayload) (proc : Mono.Proc Pay) (hj : s.objs[j]? = some (.mono req proc))
    (hid : f.streamID = req.streamID) (ht : f.type ≥ typeRequestN)
    (h : dispatch s r f (some j) = .ok (s', e)) :
    FrameEffect j req proc s' e (resultOf req.streamID (.frame f r)) (endsStream f) := by
  have hl : j < s.objs.length := (List.getElem?_eq_some_iff.mp hj).1
  have fin : ∀ (t s' : St H) (e : List (Handler.Ev H)) p inner id, t.objs[j]? = some (.mono req p) →
      andThen (deliver t j (.complete inner)) (closing id) = .ok (s', e) →
      s'.objs[j]? = some (.mono req p) ∧ monoEvs j e = [] := by
    intro t s' e p inner id hp h
    unfold deliver at h
    rw [hp] at h
    simp only [andThen, closing] at h
    cases h
    exact ⟨by rw [remove_objs]; exact hp, rfl⟩
  have tt : ∀ f : AnyFrame, f.type ≥ typeRequestN → (∀ v, f ≠ .setup v) ∧ (∀ v, f = .request v → v.frameType ≥ typeRequestN) := by
    intro f hf
    constructor
    · rintro v rfl; revert hf; simp only [AnyFrame.type]; decide
    · rintro v rfl; exact hf
  cases f with
  | setup v => exact absurd rfl ((tt _ ht).1 v)
  | request v =>
    simp only [dispatch] at h
    split at h <;> cases h <;> exact ⟨hj, rfl, by simp⟩
  | requestN v =>
    simp only [dispatch, canRequest, hj] at h
    cases h
  | cancel v =>
    obtain ⟨h1, h2⟩ := fin _ _ _ _ _ _ hj h
    exact ⟨h1, h2, by simp [endsStream]⟩
  | payload v =>
    simp only [dispatch] at h
    have hid' : v.streamID = req.streamID := hid
    obtain ⟨t, e1, e2, h1, h2, rfl⟩ := andThen_ok h
    have hres : t.objs[j]? = some (.mono req
          (proc.run (((resultOf req.streamID (.frame (.payload v) r)).toList).map sigOfPOp)).1) ∧
        monoEvs j e1 = (proc.run (((resultOf req.streamID (.frame (.payload v) r)).toList).map sigOfPOp)).2 ∧
        ∀ id, .closed id ∉ e1 := by
      simp only [resultOf, hid', true_and]
      split at h1
      · rename_i hn
        unfold deliver at h1
        rw [hj] at h1
        cases h1
        rw [if_pos hn]
        refine ⟨?_, ?_, ?_⟩
        · simp only [setObj, Option.toList, List.map, Mono.Proc.run, sigOfPOp]
          rw [List.getElem?_set_self hl]
        · rw [monoEvs_map]; simp [Mono.Proc.run, sigOfPOp]
        · simp
      · rename_i hn
        cases h1
        rw [if_neg hn]
        exact ⟨hj, rfl, by simp⟩
    obtain ⟨h3, h4, h5⟩ := hres
    split at h2
    · rename_i hc
      obtain ⟨h6, h7⟩ := fin _ _ _ _ _ _ h3 h2
      exact ⟨h6, by rw [monoEvs_append, h7, List.append_nil, h4], by simp [endsStream, hc]⟩
    · cases h2
      exact ⟨h3, by rw [List.append_nil, h4], fun _ => by rw [List.append_nil]; exact h5 _⟩
  | error v =>
    simp only [dispatch] at h
    have hid' : v.streamID = req.streamID := hid
    obtain ⟨t, e1, e2, h1, h2, rfl⟩ := andThen_ok h
    unfold deliver at h1
    rw [hj] at h1
    cases h1
    obtain ⟨h6, h7⟩ := fin _ _ _ (proc.step (.error (some (strOf v.data)))).1 _ _
      (by simp only [setObj]; rw [List.getElem?_set_self hl]) h2
    refine ⟨?_, ?_, by simp [endsStream]⟩
    · simp only [resultOf, hid', if_true, Option.toList, List.map, Mono.Proc.run, sigOfPOp]
      exact h6
    · rw [monoEvs_append, h7, monoEvs_map]
      simp [resultOf, hid', Mono.Proc.run, sigOfPOp]

theorem deliver_noerr (s : St H) (j : Nat) (op : Flux.Op Pay) : ∀ m, deliver s j op ≠ .err m := by
  intro m
  unfold deliver
  split
  · simp
  · split <;> simp
  · rename_i sub _
    cases sub <;> simp
  · simp

theorem closing_noerr (id : UInt32) : ∀ (t : St H) (m : String), closing id t ≠ .err m := by
  intro t m; simp [closing]

theorem andThen_noerr {x : Go (Out H)} {f : St H → Go (Out H)} (hx : ∀ m, x ≠ .err m)
    (hf : ∀ t m, f t ≠ .err m) : ∀ m, andThen x f ≠ .err m := by
  intro m h
  unfold andThen at h
  cases x with
  | ok p =>
    obtain ⟨t, e1⟩ := p
    simp only at h
    cases hh : f t with
    | ok q => rw [hh] at h; cases h
    | err m => exact hf t m hh
    | panic => rw [hh] at h; cases h
  | err m => exact hx m rfl
  | panic => cases h

/-- One step of a history: `reg` says that the mono is found under no id but its own. -/
theorem mono_step (j : Nat) (s s' : St H) (a : Act) (e : List (Handler.Ev H))
    (req : RequestPayload) (proc : Mono.Proc Pay) (hj : s.objs[j]? = some (.mono req proc))
    (hsub : subscribesTo j a = false) (hreg : ∀ id, getStream s id = some j → id = req.streamID)
    (h : settle s (Handler.step s a) = .ok (s', e)) :
    (getStream s req.streamID = some j ∧
      FrameEffect j req proc s' e (resultOf req.streamID a) (endsEmpty req.streamID a || (resultOf req.streamID a).isSome)) ∨
    ((getStream s req.streamID ≠ some j ∨ resultOf req.streamID a = none) ∧
      s'.objs[j]? = s.objs[j]? ∧ monoEvs j e = [] ∧
      (getStream s req.streamID = some j → .closed req.streamID ∉ e)) := by
  by_cases hfr : ∀ f r, a ≠ .frame f r
  · right
    have hres : resultOf req.streamID a = none := by
      cases a <;> first | rfl | exact absurd rfl (hfr _ _)
    cases hs : Handler.step s a with
    | ok p =>
      rw [hs] at h
      obtain ⟨h1, h2⟩ := still_step j s a req proc hj hsub hfr _ _ (hs.trans h)
      obtain ⟨h3, h4⟩ := monoEvs_untouched h2
      exact ⟨.inr hres, h1, h3, fun _ => h4 _⟩
    | err m =>
      rw [hs] at h
      cases h
      exact ⟨.inr hres, rfl, rfl, by simp⟩
    | panic => rw [hs] at h; cases h
  · obtain ⟨f, r, rfl⟩ : ∃ f r, a = .frame f r := by
      cases a with
      | frame f r => exact ⟨f, r, rfl⟩
      | _ => exact absurd (by intro _ _ h; cases h) hfr
    simp only [Handler.step] at h
    cases hs : handleFrame s f r with
    | ok p =>
      rw [hs] at h
      have h' := hs.trans h
      unfold handleFrame at h'
      split at h'
      · rename_i ht
        split at h'
        · rename_i hg
          split at h'
          · cases h'
          · cases h'
            right
            by_cases hid : f.streamID = req.streamID
            · refine ⟨.inl (by rw [← hid, hg]; simp), rfl, rfl, by simp⟩
            · refine ⟨.inr ?_, rfl, rfl, by simp⟩
              cases f <;> simp [resultOf] <;> simp_all [AnyFrame.streamID]
        · rename_i i hg
          by_cases hi : i = j
          · subst hi
            have hid := hreg _ hg
            left
            refine ⟨hid ▸ hg, ?_⟩
            have fe := frame_here i s s' f r e req proc hj hid ht h'
            refine ⟨fe.obj, fe.evs, ?_⟩
            intro hend
            apply fe.closed
            simp only [endsEmpty, hid, decide_true, Bool.true_and] at hend
            cases hh : endsStream f
            · rfl
            · rw [hh] at hend
              cases hr : resultOf req.streamID (.frame f r) <;> simp [hr] at hend
          · right
            obtain ⟨h1, h2, h3⟩ := frame_other i j s s' f r e hi h'
            by_cases hid : f.streamID = req.streamID
            · have : getStream s req.streamID ≠ some j := by
                rw [← hid, hg]; simpa using hi
              exact ⟨.inl this, h1, h2, fun h => absurd h this⟩
            · refine ⟨.inr ?_, h1, h2, fun _ => h3 _ hid⟩
              cases f <;> simp [resultOf] <;> simp_all [AnyFrame.streamID]
      · rename_i ht
        right
        have key : s'.objs[j]? = s.objs[j]? ∧ e = [] := by
          unfold dispatch at h'
          cases f <;> simp only at h'
          case setup v =>
            split at h'
            · split at h' <;> cases h'; exact ⟨rfl, rfl⟩
            · cases h'; exact ⟨rfl, rfl⟩
          case request v => split at h' <;> cases h' <;> exact ⟨rfl, rfl⟩
          all_goals cases h'
        refine ⟨.inr ?_, key.1, by rw [key.2]; rfl, by rw [key.2]; simp⟩
        cases f
        case payload v => exact absurd (show (AnyFrame.payload v).type ≥ typeRequestN by simp only [AnyFrame.type]; decide) ht
        case error v => exact absurd (show (AnyFrame.error v).type ≥ typeRequestN by simp only [AnyFrame.type]; decide) ht
        all_goals rfl
    | err m =>
      rw [hs] at h
      cases h
      right
      refine ⟨?_, rfl, rfl, by simp⟩
      by_cases hg : getStream s req.streamID = some j
      · right
        have h' := hs
        unfold handleFrame at h'
        by_cases hid : f.streamID = req.streamID
        · split at h'
          · rename_i ht
            rw [hid, hg] at h'
            simp only at h'
            exfalso
            cases f with
            | setup v => revert ht; simp only [AnyFrame.type]; decide
            | request v => simp only [dispatch] at h'; split at h' <;> cases h'
            | requestN v => simp only [dispatch, canRequest, hj] at h'; cases h'
            | cancel v => exact andThen_noerr (deliver_noerr _ _ _) (closing_noerr _) m h'
            | payload v =>
              refine andThen_noerr ?_ ?_ m h'
              · intro m; split
                · exact deliver_noerr _ _ _ m
                · simp
              · intro t m; split
                · exact andThen_noerr (deliver_noerr _ _ _) (closing_noerr _) m
                · simp
            | error v =>
              exact andThen_noerr (deliver_noerr _ _ _)
                (fun t => andThen_noerr (deliver_noerr _ _ _) (closing_noerr _)) m h'
          · rename_i ht
            cases f
            case payload v => exact absurd (show (AnyFrame.payload v).type ≥ typeRequestN by simp only [AnyFrame.type]; decide) ht
            case error v => exact absurd (show (AnyFrame.error v).type ≥ typeRequestN by simp only [AnyFrame.type]; decide) ht
            all_goals rfl
        · cases f <;> simp [resultOf] <;> simp_all [AnyFrame.streamID]
      · exact .inl hg
    | panic => rw [hs] at h; cases h

/-! ## Histories of a call -/

/-- What is known of a requester's mono: its request never changes, it is registered only under the
id of the request, and sends the request once for each registration. -/
structure MInv (j : Nat) (req : RequestPayload) (o : Obj) (es : List (Handler.Ev H)) : Prop where
  obj : ∃ proc, o = .mono req proc
  opened : ∀ id i, .opened id i ∈ es → id = req.streamID
  frames : framesBy j es = (openedIds es).map fun _ => .request req

theorem openedIds_append (a b : List (Handler.Ev H)) : openedIds (a ++ b) = openedIds a ++ openedIds b := by
  simp [openedIds]

theorem monoMap_quiet (j : Nat) (l : List (Mono.Ev Pay)) :
    framesBy j (l.map (.mono j) : List (Handler.Ev H)) = [] ∧
    openedIds (l.map (.mono j) : List (Handler.Ev H)) = [] := by
  induction l with
  | nil => exact ⟨rfl, rfl⟩
  | cons e l ih => exact ⟨by simpa [framesBy] using ih.1, by simpa [openedIds] using ih.2⟩

theorem m_step {j : Nat} {req : RequestPayload} {o o' : Obj} {ts ts' : List Task}
    {es es' : List (Handler.Ev H)} (inv : MInv j req o es) (h : CStep j o ts o' ts' es') :
    MInv j req o' (es ++ es') := by
  obtain ⟨⟨proc, rfl⟩, hop, hfr⟩ := inv
  cases h with
  | monoOp _ _ _ op =>
    obtain ⟨h1, h2⟩ := monoMap_quiet (H := H) j (proc.step op).2
    refine ⟨⟨_, rfl⟩, ?_, ?_⟩
    · intro id i hm
      rcases List.mem_append.mp hm with h | h
      · exact hop id i h
      · simp at h
    · rw [framesBy_append, openedIds_append, h1, h2, List.append_nil, List.append_nil, hfr]
  | monoSub _ _ _ inst =>
    obtain ⟨h1, h2⟩ := monoMap_quiet (H := H) j (proc.step (.subscribe inst)).2
    refine ⟨⟨_, rfl⟩, ?_, ?_⟩
    · intro id i hm
      rcases List.mem_append.mp hm with h | h
      · exact hop id i h
      · simp at h; exact h.1
    · have e1 : openedIds (.opened req.streamID j :: ((proc.step (.subscribe inst)).2.map (.mono j) : List (Handler.Ev H)) ++
          [.sent (some j) (.request req)]) = [req.streamID] := by
        rw [openedIds_append]
        have : openedIds (.opened req.streamID j :: ((proc.step (.subscribe inst)).2.map (.mono j) : List (Handler.Ev H)))
            = req.streamID :: openedIds ((proc.step (.subscribe inst)).2.map (.mono j) : List (Handler.Ev H)) := rfl
        rw [this, h2]; rfl
      have e2 : framesBy j (.opened req.streamID j :: ((proc.step (.subscribe inst)).2.map (.mono j) : List (Handler.Ev H)) ++
          [.sent (some j) (.request req)]) = [.request req] := by
        rw [framesBy_append, framesBy_cons, h1]; simp [framesBy]
      rw [framesBy_append, openedIds_append, e1, e2, hfr]
      simp
  | asked _ _ n =>
    exact ⟨⟨_, rfl⟩, by simpa using hop, by simpa using hfr⟩

theorem m_run {j : Nat} {req : RequestPayload} {o o' : Obj} {ts ts' : List Task}
    {es0 es : List (Handler.Ev H)} (inv : MInv j req o es0) (h : CRun j o ts o' ts' es) :
    MInv j req o' (es0 ++ es) := by
  induction h with
  | refl => simpa using inv
  | perm _ _ _ _ _ _ ih => exact ih
  | step _ _ _ _ _ _ _ hs ih => rw [← List.append_assoc]; exact m_step ih hs

theorem m_history (reg : Registry H) (client : Bool) (as : List Act) (s : St H)
    (tr : List (Handler.Ev H)) (h : Handler.run reg client as = .ok (s, tr)) (j : Nat)
    (req : RequestPayload) (proc : Mono.Proc Pay) (ho : s.objs[j]? = some (.mono req proc)) :
    MInv j req (.mono req proc) (evsOf j tr) := by
  rcases Handler.history reg client as s tr h j with ⟨h1, -⟩ | ⟨o0, ts0, es0, o, es, hb, ho', hr, he⟩
  · rw [ho] at h1; cases h1
  · rw [ho] at ho'; cases ho'
    have ht := tag_run hr
    cases hb with
    | mono id p =>
      have := m_run (es0 := []) ⟨⟨_, rfl⟩, by simp, rfl⟩ hr
      obtain ⟨⟨proc', e⟩, h1, h2⟩ := this
      cases e
      rw [he]
      exact ⟨⟨_, rfl⟩, h1, h2⟩
    | _ => cases ht

/-- How often stream `j` was registered. -/
def openedTimes (j : Nat) (tr : List (Handler.Ev H)) : List Unit :=
  tr.filterMap fun | .opened _ i => if i = j then some () else none | _ => none

theorem openedIds_evsOf (j : Nat) (tr : List (Handler.Ev H)) :
    (openedIds (evsOf j tr)).length = (openedTimes j tr).length := by
  induction tr with
  | nil => rfl
  | cons e tr ih =>
    by_cases h : e.obj = some j
    · have : evsOf j (e :: tr) = e :: evsOf j tr := by simp [evsOf, h]
      rw [this]
      cases e <;> simp [Handler.Ev.obj] at h <;> simp_all [openedIds, openedTimes]
    · rw [evsOf_cons_ne h, ih]
      cases e <;> simp [Handler.Ev.obj] at h <;> simp_all [openedTimes]

/-- C62: whatever happens, a call sends exactly its request frame each time it is subscribed, and
no other frame. -/
theorem C62_one_request (reg : Registry H) (client : Bool) (as : List Act) (s : St H)
    (tr : List (Handler.Ev H)) (h : Handler.run reg client as = .ok (s, tr)) (j : Nat)
    (req : RequestPayload) (proc : Mono.Proc Pay) (ho : s.objs[j]? = some (.mono req proc)) :
    framesBy j tr = List.replicate (openedTimes j tr).length (.request req) := by
  have := (m_history reg client as s tr h j req proc ho).frames
  rw [framesBy_evsOf, List.map_const', openedIds_evsOf] at this
  exact this

/-! ## The tables -/

theorem getStream_opened (reg : Registry H) (client : Bool) (as : List Act) (s : St H)
    (tr : List (Handler.Ev H)) (h : Handler.run reg client as = .ok (s, tr)) (id : UInt32) (j : Nat)
    (hg : getStream s id = some j) : .opened id j ∈ tr := by
  have ht := tables_run reg client as s tr h
  unfold getStream at hg
  split at hg
  · rw [ht.1] at hg; exact mem_tableOps_add _ _ _ _ (get_added _ _ _ hg)
  · rw [ht.2] at hg; exact mem_tableOps_add _ _ _ _ (get_added _ _ _ hg)

theorem addedIds_sublist (odd : Bool) (tr : List (Handler.Ev H)) :
    (addedIds (tableOps odd tr)).Sublist (openedIds tr) := by
  induction tr with
  | nil => exact List.Sublist.slnil
  | cons e tr ih =>
    cases e
    case opened id j =>
      simp only [tableOps]
      split
      · exact ih.cons₂ _
      · exact ih.cons _
    case closed id =>
      simp only [tableOps]
      split
      · exact ih
      · exact ih
    all_goals exact ih

theorem registered_live {S : Type} (ops : List (Lookup.Op S)) (id : UInt32) (j : S)
    (ha : .add id j ∈ ops) (hr : .remove id ∉ ops) : (id, j) ∈ registered ops := by
  induction ops using lookup_snoc_induction with
  | nil => cases ha
  | snoc ops op ih =>
    rw [registered_snoc]
    simp only [List.mem_append, List.mem_singleton, not_or] at ha hr
    cases op with
    | add id' s' =>
      simp only
      rcases ha with ha | ha
      · exact List.mem_append_left _ (ih ha hr.1)
      · cases ha; simp
    | remove id' =>
      simp only
      rcases ha with ha | ha
      · refine List.mem_filter.mpr ⟨ih ha hr.1, ?_⟩
        have : id ≠ id' := fun e => hr.2 (by rw [e])
        simpa using this
      · cases ha

theorem mem_tableOps (odd : Bool) (id : UInt32) (tr : List (Handler.Ev H)) (ho : decide (id &&& 1 = 1) = odd) :
    (∀ j, .opened id j ∈ tr → .add id j ∈ tableOps odd tr) ∧
    (.closed id ∉ tr → .remove id ∉ tableOps odd tr) := by
  induction tr with
  | nil => simp [tableOps]
  | cons e tr ih =>
    cases e
    case opened id' j' =>
      constructor
      · intro j hj
        simp only [tableOps]
        rcases List.mem_cons.mp hj with h | h
        · cases h; rw [if_pos ho]; simp
        · split
          · exact List.mem_cons_of_mem _ (ih.1 j h)
          · exact ih.1 j h
      · intro hc
        simp only [List.mem_cons, not_or] at hc
        simp only [tableOps]
        split
        · simpa using ih.2 hc.2
        · exact ih.2 hc.2
    case closed id' =>
      constructor
      · intro j hj
        simp only [tableOps]
        rcases List.mem_cons.mp hj with h | h
        · cases h
        · split
          · exact List.mem_cons_of_mem _ (ih.1 j h)
          · exact ih.1 j h
      · intro hc
        simp only [List.mem_cons, not_or] at hc
        have : id ≠ id' := fun e => hc.1 (by rw [e])
        simp only [tableOps]
        split
        · simp only [List.mem_cons, not_or]
          exact ⟨fun e => this (by cases e; rfl), ih.2 hc.2⟩
        · exact ih.2 hc.2
    all_goals
      constructor
      · intro j hj
        simp only [List.mem_cons] at hj
        rcases hj with h | h
        · cases h
        · exact ih.1 j h
      · intro hc
        simp only [List.mem_cons, not_or] at hc
        exact ih.2 hc.2

/-- A stream that was registered and not removed is found (ids used once). -/
theorem getStream_live (reg : Registry H) (client : Bool) (as : List Act) (s : St H)
    (tr : List (Handler.Ev H)) (h : Handler.run reg client as = .ok (s, tr)) (id : UInt32) (j : Nat)
    (hu : (openedIds tr).Nodup) (ho : .opened id j ∈ tr) (hc : .closed id ∉ tr) :
    getStream s id = some j := by
  have ht := tables_run reg client as s tr h
  unfold getStream
  split
  · rename_i hp
    obtain ⟨h1, h2⟩ := mem_tableOps true id tr (by simpa using hp)
    rw [ht.1]
    exact C21_live_found_partial _ (hu.sublist (addedIds_sublist _ _)) _ _ (registered_live _ _ _ (h1 j ho) (h2 hc))
  · rename_i hp
    obtain ⟨h1, h2⟩ := mem_tableOps false id tr (by simpa using hp)
    rw [ht.2]
    exact C21_live_found_partial _ (hu.sublist (addedIds_sublist _ _)) _ _ (registered_live _ _ _ (h1 j ho) (h2 hc))

/-! ## The rest of a history -/

theorem handler_run_snoc (reg : Registry H) (client : Bool) (as : List Act) (a : Act) (s s' : St H)
    (tr e : List (Handler.Ev H)) (h : Handler.run reg client as = .ok (s, tr))
    (hs : settle s (Handler.step s a) = .ok (s', e)) :
    Handler.run reg client (as ++ [a]) = .ok (s', tr ++ e) := by
  unfold Handler.run at h ⊢
  rw [handler_runFrom_append, h]
  simp only [andThen, runFrom, hs, List.append_nil]

theorem found_only_there (reg : Registry H) (client : Bool) (as : List Act) (s : St H)
    (tr : List (Handler.Ev H)) (h : Handler.run reg client as = .ok (s, tr)) (j : Nat)
    (req : RequestPayload) (proc : Mono.Proc Pay) (hj : s.objs[j]? = some (.mono req proc)) :
    ∀ id, getStream s id = some j → id = req.streamID := by
  intro id hg
  have := getStream_opened reg client as s tr h id j hg
  apply (m_history reg client as s tr h j req proc hj).opened id j
  exact List.mem_filter.mpr ⟨this, by simp [Handler.Ev.obj]⟩

theorem resultOf_isResult (id : UInt32) (a : Act) (r : Mono.Sig Pay) (h : resultOf id a = some r) :
    isResult r := by
  unfold resultOf at h
  split at h
  · split at h
    · cases h; trivial
    · cases h
  · split at h
    · cases h; trivial
    · cases h
  · cases h

/-- Without another subscription the mono sees some results, and nothing else. -/
theorem mono_some (reg : Registry H) (client : Bool) (j : Nat) (req : RequestPayload) (after : List Act) :
    ∀ (before : List Act) (s s2 : St H) (tr t2 : List (Handler.Ev H)) (proc : Mono.Proc Pay),
      Handler.run reg client before = .ok (s, tr) → s.objs[j]? = some (.mono req proc) →
      Handler.runFrom s after = .ok (s2, t2) → (∀ a ∈ after, subscribesTo j a = false) →
      ∃ rs : List (Mono.Sig Pay), (∀ r ∈ rs, isResult r) ∧ monoEvs j t2 = (proc.run (rs.map sigOfPOp)).2 := by
  induction after with
  | nil =>
    intro before s s2 tr t2 proc hr hj h _
    cases h
    exact ⟨[], by simp, rfl⟩
  | cons a after ih =>
    intro before s s2 tr t2 proc hr hj h hs
    simp only [runFrom] at h
    obtain ⟨s', e1, e2, h1, h2, rfl⟩ := andThen_ok h
    have hr' := handler_run_snoc reg client before a s s' tr e1 hr h1
    have hs' : ∀ a ∈ after, subscribesTo j a = false := fun x hx => hs x (by simp [hx])
    rcases mono_step j s s' a e1 req proc hj (hs a (by simp)) (found_only_there reg client before s tr hr j req proc hj) h1 with
      ⟨-, fe⟩ | ⟨-, ho, he, -⟩
    · obtain ⟨rs, h3, h4⟩ := ih _ s' s2 _ e2 _ hr' fe.obj h2 hs'
      refine ⟨(resultOf req.streamID a).toList ++ rs, ?_, ?_⟩
      · intro r hm
        rcases List.mem_append.mp hm with h | h
        · exact resultOf_isResult _ _ _ (by simpa using h)
        · exact h3 r h
      · rw [monoEvs_append, fe.evs, h4, List.map_append, proc_run_append]
    · obtain ⟨rs, h3, h4⟩ := ih _ s' s2 _ e2 _ hr' (ho.trans hj) h2 hs'
      exact ⟨rs, h3, by rw [monoEvs_append, he, h4]; rfl⟩

/-- While the stream is open, the first of them is the first result received. -/
theorem mono_first (reg : Registry H) (client : Bool) (j : Nat) (req : RequestPayload) (after : List Act) :
    ∀ (before : List Act) (s s2 : St H) (tr t2 : List (Handler.Ev H)) (proc : Mono.Proc Pay),
      Handler.run reg client before = .ok (s, tr) → s.objs[j]? = some (.mono req proc) →
      Handler.runFrom s after = .ok (s2, t2) → (∀ a ∈ after, subscribesTo j a = false) →
      (openedIds (tr ++ t2)).Nodup → .opened req.streamID j ∈ tr → .closed req.streamID ∉ tr →
      noEmptyEnd req.streamID after →
      ∃ rs : List (Mono.Sig Pay), (∀ r ∈ rs, isResult r) ∧ monoEvs j t2 = (proc.run (rs.map sigOfPOp)).2 ∧
        rs.head? = (results req.streamID after).head? := by
  induction after with
  | nil =>
    intro before s s2 tr t2 proc hr hj h _ _ _ _ _
    cases h
    exact ⟨[], by simp, rfl, rfl⟩
  | cons a after ih =>
    intro before s s2 tr t2 proc hr hj h hs hu hop hcl hne
    simp only [runFrom] at h
    obtain ⟨s', e1, e2, h1, h2, rfl⟩ := andThen_ok h
    have hr' := handler_run_snoc reg client before a s s' tr e1 hr h1
    have hs' : ∀ a ∈ after, subscribesTo j a = false := fun x hx => hs x (by simp [hx])
    have hu1 : (openedIds tr).Nodup := by
      rw [openedIds_append] at hu; exact (List.nodup_append.mp hu).1
    have hg := getStream_live reg client before s tr hr req.streamID j hu1 hop hcl
    -- the frame carries no result, and does not end the stream
    have go : s'.objs[j]? = some (.mono req proc) → monoEvs j e1 = [] → resultOf req.streamID a = none →
        .closed req.streamID ∉ e1 → noEmptyEnd req.streamID after →
        ∃ rs : List (Mono.Sig Pay), (∀ r ∈ rs, isResult r) ∧
          monoEvs j (e1 ++ e2) = (proc.run (rs.map sigOfPOp)).2 ∧
          rs.head? = (results req.streamID (a :: after)).head? := by
      intro g1 g2 g3 g4 g5
      obtain ⟨rs, h3, h4, h5⟩ := ih _ s' s2 _ e2 _ hr' g1 h2 hs' (by rwa [List.append_assoc])
        (List.mem_append_left _ hop) (by
          intro hm; exact (List.mem_append.mp hm).elim hcl g4) g5
      refine ⟨rs, h3, by rw [monoEvs_append, g2, h4]; rfl, ?_⟩
      rw [h5]; simp [results, g3]
    rcases mono_step j s s' a e1 req proc hj (hs a (by simp)) (found_only_there reg client before s tr hr j req proc hj) h1 with
      ⟨-, fe⟩ | ⟨hno, ho, he, hc⟩
    · cases hres : resultOf req.streamID a with
      | none =>
        rw [hres] at fe
        rcases hne with hn | ⟨hn1, hn2⟩
        · rw [hres] at hn; cases hn
        · exact go fe.obj fe.evs hres (fe.closed (by rw [hn1]; rfl)) hn2
      | some sig =>
        obtain ⟨rs, h3, h4⟩ := mono_some reg client j req after _ s' s2 _ e2 _ hr' fe.obj h2 hs'
        rw [hres] at fe h4
        refine ⟨sig :: rs, ?_, ?_, by simp [results, hres]⟩
        · intro r hm
          rcases List.mem_cons.mp hm with rfl | h
          · exact resultOf_isResult _ _ _ hres
          · exact h3 r h
        · rw [monoEvs_append, fe.evs, h4, show (sig :: rs).map sigOfPOp =
            ((some sig).toList).map sigOfPOp ++ rs.map sigOfPOp from rfl, proc_run_append]
    · have hres : resultOf req.streamID a = none := by
        rcases hno with h | h
        · exact absurd hg h
        · exact h
      rcases hne with hn | ⟨hn1, hn2⟩
      · rw [hres] at hn; cases hn
      · exact go (ho.trans hj) he hres (hc hg) hn2

theorem outcome_head {T : Type} (i : Nat) (inst : Mono.Installed) (a b : List (Mono.Sig T))
    (h : a.head? = b.head?) : outcome i inst a = outcome i inst b := by
  cases a with
  | nil => cases b with
    | nil => rfl
    | cons y b => cases h
  | cons x a => cases b with
    | nil => cases h
    | cons y b =>
      simp only [List.head?_cons, Option.some.injEq] at h
      subst h
      cases x <;> rfl

/-- C62: a call that is subscribed once sends exactly its request frame, and its subscriber sees
exactly the first result received for its stream: its success or error callback, then Finally,
once. Whatever else happens in between; missing: histories in which the peer ends the stream without
a result first (see `C62_outcome_violated`, `C62_no_outcome_violated`). -/
theorem C62_outcome_partial (reg : Registry H) (client : Bool) (before after : List Act) (s1 s2 : St H)
    (t1 t2 : List (Handler.Ev H)) (j : Nat) (req : RequestPayload) (inst : Mono.Installed)
    (h1 : Handler.run reg client before = .ok (s1, t1)) (hj : s1.objs[j]? = some (.mono req .init))
    (hnew : .closed req.streamID ∉ t1)
    (h2 : Handler.runFrom s1 (.subscribeMono j inst :: after) = .ok (s2, t2))
    (hu : (openedIds (t1 ++ t2)).Nodup) (hs : ∀ a ∈ after, subscribesTo j a = false)
    (hne : noEmptyEnd req.streamID after) :
    framesBy j (t1 ++ t2) = [.request req] ∧
    monoEvs j t2 = outcome 0 inst (results req.streamID after) := by
  simp only [runFrom] at h2
  obtain ⟨s', e1, e2, h3, h4, rfl⟩ := andThen_ok h2
  have hr' := handler_run_snoc reg client before _ s1 s' t1 e1 h1 h3
  have hl : j < s1.objs.length := (List.getElem?_eq_some_iff.mp hj).1
  simp only [Handler.step, hj, settle] at h3
  cases h3
  have ho : (setObj (register s1 req.streamID j) j
      (.mono req (Mono.Proc.step .init (.subscribe inst)).1)).objs[j]? =
      some (.mono req (Mono.Proc.step .init (.subscribe inst)).1) := by
    simp only [setObj, register_objs]; rw [List.getElem?_set_self hl]
  have he : ((.opened req.streamID j :: ((Mono.Proc.step .init (.subscribe inst)).2.map (.mono j) : List (Handler.Ev H)) ++
      [.sent (some j) (.request req)])) = [.opened req.streamID j, .sent (some j) (.request req)] := rfl
  obtain ⟨rs, h5, h6, h7⟩ := mono_first reg client j req after _ _ s2 _ e2 _ hr' ho h4 hs
    (by rwa [List.append_assoc]) (by simp) (by
      rw [he]; simpa using hnew) hne
  constructor
  · obtain ⟨m, h8⟩ : ∃ proc', s2.objs[j]? = some (.mono req proc') := by
      obtain ⟨o', h9, h10⟩ := (loc_runFrom j after _ s2 e2 h4).1 _ ho
      have := (m_run (req := req) (es0 := []) ⟨⟨_, rfl⟩, by simp, rfl⟩ h10).obj
      obtain ⟨p, rfl⟩ := this
      exact ⟨p, h9⟩
    have hrun : Handler.run reg client (before ++ .subscribeMono j inst :: after) =
        .ok (s2, t1 ++ ([.opened req.streamID j, .sent (some j) (.request req)] ++ e2)) := by
      unfold Handler.run at h1 ⊢
      rw [handler_runFrom_append, h1]
      simp only [andThen, runFrom, Handler.step, hj, settle, h4]
      rfl
    rw [he, C62_one_request reg client _ s2 _ hrun j req m h8]
    have : (openedTimes j (t1 ++ ([.opened req.streamID j, .sent (some j) (.request req)] ++ e2))).length = 1 := by
      have hm := m_history reg client _ s2 _ hrun j req m h8
      have hn : (openedIds (evsOf j (t1 ++ ([.opened req.streamID j, .sent (some j) (.request req)] ++ e2)))).Nodup := by
        refine (List.Sublist.filterMap _ (List.filter_sublist (l := _))).nodup ?_
        exact hu
      rw [← openedIds_evsOf]
      have hall : ∀ x ∈ openedIds (evsOf j (t1 ++ ([.opened req.streamID j, .sent (some j) (.request req)] ++ e2))),
          x = req.streamID := by
        intro x hx
        obtain ⟨ev, h1, h2⟩ := List.mem_filterMap.mp hx
        cases ev <;> simp at h2
        subst h2
        exact hm.opened _ _ h1
      have hmem : req.streamID ∈ openedIds (evsOf j (t1 ++ ([.opened req.streamID j, .sent (some j) (.request req)] ++ e2))) := by
        refine List.mem_filterMap.mpr ⟨.opened req.streamID j, ?_, rfl⟩
        exact List.mem_filter.mpr ⟨by simp, by simp [Handler.Ev.obj]⟩
      revert hn hall hmem
      generalize openedIds (evsOf j (t1 ++ ([.opened req.streamID j, .sent (some j) (.request req)] ++ e2))) = l
      intro hn hall hmem
      match l, hn, hall, hmem with
      | [], _, _, hmem => cases hmem
      | [x], _, _, _ => rfl
      | x :: y :: l, hn, hall, _ =>
        have e1 := hall x (by simp)
        have e2 := hall y (by simp)
        rw [e1, e2] at hn
        simp at hn
    rw [this]; rfl
  · have := (C24_processor_partial [] rs inst (by simpa using h5)).1
    rw [he, monoEvs_append, h6]
    have e3 : monoEvs j ([.opened req.streamID j, .sent (some j) (.request req)] : List (Handler.Ev H)) = [] := rfl
    rw [e3, List.nil_append, ← outcome_head 0 inst rs _ h7]
    exact this

/-! ## Violations -/

/-- Two calls; the second one is ended by a payload frame without payload, then a result comes. -/
def endedFirst : List Act :=
  [.frame (.payload ⟨3, [], [], false, true, false⟩) noReact,
   .frame (.payload ⟨3, [], [7], false, true, true⟩) noReact]

def twoCalls : List Act :=
  [.call .rr ⟨[], []⟩ .created, .subscribeMono 0 ⟨true, true, true⟩, .call .rr ⟨[5], []⟩ .created]

/-- C62 fails: a payload received after an empty completion is not delivered. -/
theorem C62_outcome_violated : ¬ C62_statement Unit := by
  intro h
  have e1 : objAfter (Handler.run oneHandler true twoCalls) 1 =
      some (.mono ⟨4, 3, [], [5], false, true, 1⟩ .init) := rfl
  obtain ⟨s1, h1, h2⟩ := objAfter_ok _ _ _ e1
  have h3 : traceOf (Handler.run oneHandler true (twoCalls ++ .subscribeMono 1 ⟨true, true, true⟩ :: endedFirst)) =
      [.opened 1 0, .sent (some 0) (.request ⟨4, 1, [], [], false, true, 1⟩), .opened 3 1,
       .sent (some 1) (.request ⟨4, 3, [], [5], false, true, 1⟩), .closed 3,
       .refused "stream ID 3 not found"] := by decide +kernel
  have h4 : traceOf (Handler.run oneHandler true twoCalls) =
      [.opened 1 0, .sent (some 0) (.request ⟨4, 1, [], [], false, true, 1⟩)] := by decide +kernel
  rw [h4] at h1
  unfold Handler.run at h1 h3
  rw [handler_runFrom_append, h1] at h3
  simp only [andThen] at h3
  cases hr : runFrom s1 (.subscribeMono 1 ⟨true, true, true⟩ :: endedFirst) with
  | ok p =>
    obtain ⟨s2, t2⟩ := p
    rw [hr] at h3
    simp only [traceOf] at h3
    have := (h oneHandler true twoCalls endedFirst s1 s2 _ t2 1 _ ⟨true, true, true⟩ h1 h2 (by simp) hr
      (by rw [h3]; decide) (by decide)).2
    have ht2 : t2 = [.opened 3 1, .sent (some 1) (.request ⟨4, 3, [], [5], false, true, 1⟩), .closed 3,
       .refused "stream ID 3 not found"] := by simpa using h3
    rw [ht2] at this
    revert this; decide
  | err m => rw [hr] at h3; simp [traceOf] at h3
  | panic => rw [hr] at h3; simp [traceOf] at h3

/-- A call answered by an empty completion has no outcome at all, so its caller waits for ever
(Block has no time limit). -/
theorem C62_no_outcome_violated :
    monoEvs 0 (traceOf (Handler.run oneHandler true
      [.call .rr ⟨[], []⟩ .created, .subscribeMono 0 ⟨true, true, true⟩,
       .frame (.payload ⟨1, [], [], false, true, false⟩) noReact])) = [] := by decide +kernel

/-- Subscribing a call twice sends the request twice. -/
theorem C62_twice_violated :
    framesBy 0 (traceOf (Handler.run oneHandler true
      [.call .rr ⟨[], []⟩ .created, .subscribeMono 0 ⟨true, true, true⟩,
       .subscribeMono 0 ⟨true, true, true⟩])) =
      [.request ⟨4, 1, [], [], false, true, 1⟩, .request ⟨4, 1, [], [], false, true, 1⟩] := by decide +kernel

/-- A call answered by a payload, an error frame following. -/
def answeredTwice : List Act :=
  [.frame (.payload ⟨1, [], [], false, false, false⟩) noReact,
   .frame (.payload ⟨1, [9], [7], false, false, true⟩) noReact,
   .frame (.error ⟨1, 0, [88]⟩) noReact]

/-- The hypotheses of `C62_outcome_partial` hold, and its conclusion is not trivial. -/
example : noEmptyEnd 1 answeredTwice ∧ (∀ a ∈ answeredTwice, subscribesTo 0 a = false) ∧
    results 1 answeredTwice = [.success ⟨[7], [9]⟩, .error (some "X")] ∧
    monoEvs 0 (traceOf (Handler.run oneHandler true
      ([.call .rr ⟨[5], []⟩ .created] ++ .subscribeMono 0 ⟨true, true, true⟩ :: answeredTwice))) =
    [.success 0 ⟨[7], [9]⟩, .fin 0 .complete] := by decide +kernel
example : objAfter (Handler.run oneHandler true [.call .rr ⟨[5], []⟩ .created]) 0 =
    some (.mono ⟨4, 1, [], [5], false, true, 1⟩ .init) := rfl

end
end Verif.Props
