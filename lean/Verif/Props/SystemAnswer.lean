import Verif.Props.SystemServe
/-
What is sent for one request/response request that is served.
-/
set_option autoImplicit false
namespace Verif.Props
open Verif Frames Handler
open Verif.Invoke (Kind Registry getHandler)

section
variable {H : Type}

/-! ## Specification -/

/-- What the source of the mono answering with stream `i` signals. -/
def answerSigs (i : Nat) (as : List Act) : List (Mono.Sig Pay) :=
  as.filterMap fun | .answer j sig => if j = i then some sig else none | _ => none

/-- What a mono returned by a handler comes to, given what its source signals: `Just` and `Error` say
it themselves; otherwise the first signal counts, unless it cancels; `Map` transforms a value, and
its transformation may fail. -/
def resolution (m : MonoSrc) (sigs : List (Mono.Sig Pay)) : Option (Mono.Sig Pay) :=
  match m, sigs with
  | .just p, _ => some (.success p)
  | .failed e, _ => some (.error e)
  | .created, .success p :: _ => some (.success p)
  | .created, .error e :: _ => some (.error e)
  | .mapped tx, .success p :: _ =>
    some (match tx p with | .ok q => .success q | .error msg => .error (some msg))
  | .mapped _, .error e :: _ => some (.error e)
  | _, _ => none

/-- The frames that carry it. -/
def replyOf (id : UInt32) : Mono.Sig Pay → List AnyFrame
  | .success p => [.payload ⟨id, p.metadata, p.data, false, true, true⟩]
  | .error (some e) => [.error ⟨id, 0, bytesOf e⟩]
  | _ => []

def replies (id : UInt32) (m : MonoSrc) (sigs : List (Mono.Sig Pay)) : List AnyFrame :=
  (resolution m sigs).toList.flatMap (replyOf id)

/-! ## Proof -/

theorem answerSigs_append (i : Nat) (a b : List Act) : answerSigs i (a ++ b) = answerSigs i a ++ answerSigs i b := by
  simp [answerSigs]

theorem resolution_append (m : MonoSrc) (l : List (Mono.Sig Pay)) (x : Mono.Sig Pay) (hl : l ≠ []) :
    resolution m (l ++ [x]) = resolution m l := by
  cases l with
  | nil => exact absurd rfl hl
  | cons a l => cases m <;> cases a <;> rfl

theorem framesBy_nil_of_evsOf {i : Nat} {tr : List (Handler.Ev H)} (h : evsOf i tr = []) : framesBy i tr = [] := by
  rw [← framesBy_evsOf, h]; rfl

theorem answerEvs_no_err (i : Nat) (id : UInt32) (l : List (Mono.Ev Pay)) (msg : String) :
    answerEvs (H := H) i id l ≠ .err msg := by
  induction l with
  | nil => intro h; cases h
  | cons x l ih =>
    intro h
    simp only [answerEvs] at h
    cases hx : answerEv (H := H) i id x with
    | panic => rw [hx] at h; cases h
    | err m => unfold answerEv at hx; split at hx <;> cases hx
    | ok a =>
      rw [hx, Go.bind_ok] at h
      cases hl : answerEvs (H := H) i id l with
      | panic => rw [hl] at h; cases h
      | err m => rw [hl] at h; cases h; exact ih hl
      | ok b => rw [hl] at h; cases h

/-- What an open mono does for a signal. -/
def sigEvs : Mono.Sig Pay → List (Mono.Ev Pay)
  | .success v => [.success 0 v]
  | .error e => [.error 0 e]
  | .cancel => []

/-- The frames for one signal to an open mono. -/
theorem answer_now (i : Nat) (id : UInt32) (m : MonoSrc) (hm : m = .created ∨ ∃ tx, m = .mapped tx)
    (sig : Mono.Sig Pay) (es : List (Handler.Ev H))
    (h : answerEvs i id (throughMonoMap m (sigEvs sig)) = .ok es) :
    framesBy i es = replies id m [sig] ∧ resolution m [sig] ≠ some (.error none) := by
  constructor
  case right =>
    have : sig ≠ .error none := by
      rintro rfl
      rcases hm with rfl | ⟨tx, rfl⟩ <;> cases h
    rcases hm with rfl | ⟨tx, rfl⟩
    · cases sig <;> simp_all [resolution]
    · cases sig with
      | success v => simp only [resolution]; cases tx v <;> simp
      | error e => simpa [resolution] using this
      | cancel => simp [resolution]
  rw [framesBy_answerEvs i id _ es h]
  rcases hm with rfl | ⟨tx, rfl⟩
  · cases sig with
    | success v => rfl
    | cancel => rfl
    | error e => cases e <;> rfl
  · cases sig with
    | success v =>
      simp only [sigEvs, throughMonoMap, List.flatMap_cons, List.flatMap_nil, List.append_nil, Mono.mapEv, replies, resolution]
      cases tx v <;> simp [answerInst, outcomesOnly, outcomeFrame, replyOf]
    | cancel => rfl
    | error e => cases e <;> rfl

theorem answer_register_never {reg : Registry H} {client : Bool} {as : List Act} {s : St H}
    {tr : List (Handler.Ev H)} (h : Handler.run reg client as = .ok (s, tr)) {i : Nat} {id : UInt32}
    {m : MonoSrc} {st : Mono.State Pay} (ho : s.objs[i]? = some (.answer id m st)) (x : UInt32) :
    getStream s x ≠ some i := by
  intro hg
  have h1 := getStream_opened reg client as s tr h x i hg
  have hm : .opened x i ∈ evsOf i tr := List.mem_filter.mpr ⟨h1, by simp [Handler.Ev.obj]⟩
  rcases k_history reg client as s tr h i with ⟨-, h2⟩ | ⟨o, h2, h3⟩
  · rw [h2] at hm; cases hm
  · rw [ho] at h2; cases h2
    have h4 : (openedIds (evsOf i tr)).length = 0 := h3.counts.1
    have : x ∈ openedIds (evsOf i tr) := List.mem_filterMap.mpr ⟨_, hm, rfl⟩
    rw [List.eq_nil_of_length_eq_zero h4] at this
    cases this

/-- A step that does not signal to an answering mono leaves it alone. -/
theorem answer_idle {reg : Registry H} {client : Bool} {as : List Act} {s : St H}
    {tr : List (Handler.Ev H)} (h : Handler.run reg client as = .ok (s, tr)) {i : Nat} {id : UInt32}
    {m : MonoSrc} {st : Mono.State Pay} (ho : s.objs[i]? = some (.answer id m st)) (a : Act)
    (ha : ∀ sig, a ≠ .answer i sig) : Idle i s (settle s (Handler.step s a)) := by
  have hi : i < s.objs.length := (List.getElem?_eq_some_iff.mp ho).1
  by_cases hact : actsOn s a = some i
  · have nop : Handler.step s a = .ok (s, []) → Idle i s (settle s (Handler.step s a)) := by
      intro h; rw [h]; exact idle_nop _ _ _ rfl
    cases a with
    | frame f r =>
      simp only [actsOn] at hact
      split at hact
      · exact absurd hact (answer_register_never h ho _)
      · cases hact
    | run t ret =>
      simp only [actsOn] at hact
      cases ht : s.tasks[t]? with
      | none => rw [ht] at hact; cases hact
      | some task =>
        rw [ht] at hact
        have hto : task.obj = some i := hact
        simp only [Handler.step, ht]
        cases task with
        | request => cases hto
        | _ =>
          simp only [Task.obj, Option.some.injEq] at hto
          subst hto
          simp only [runTask, ho]
          exact idle_panic _ _
    | answer j sig => simp only [actsOn, Option.some.injEq] at hact; subst hact; exact absurd rfl (ha sig)
    | call => cases hact
    | _ =>
      simp only [actsOn, Option.some.injEq] at hact
      subst hact
      exact nop (by simp only [Handler.step, ho])
  · exact idle_settle s a hi hact

/-- The state of an answering mono, and what was sent for it. -/
def Answering (i : Nat) (id : UInt32) (m : MonoSrc) (sigs : List (Mono.Sig Pay)) (s : St H)
    (tr : List (Handler.Ev H)) : Prop :=
  ∃ st, s.objs[i]? = some (.answer id m st) ∧ AnswerInv m st ∧
    ((m = .created ∨ ∃ tx, m = .mapped tx) → unresolved st = sigs.isEmpty) ∧
    framesBy i tr = replies id m sigs ∧ resolution m sigs ≠ some (.error none)

theorem answering_born (i : Nat) (id : UInt32) (m : MonoSrc) (es : List (Handler.Ev H))
    (h : answerEvs i id (monoSubscribe m).2 = .ok es) :
    AnswerInv m (monoSubscribe m).1 ∧
    ((m = .created ∨ ∃ tx, m = .mapped tx) → unresolved (monoSubscribe m).1 = true) ∧
    framesBy i es = replies id m [] ∧ resolution m [] ≠ some (.error none) := by
  have hb := rr_born i id m es h
  obtain ⟨st, h1, h2, -⟩ := hb
  cases h1
  refine ⟨h2, ?_, ?_, ?_⟩
  case refine_3 =>
    cases m with
    | failed e =>
      cases e with
      | none => cases h
      | some e => simp [resolution]
    | _ => simp [resolution]
  · rintro (rfl | ⟨tx, rfl⟩) <;> rfl
  · rw [framesBy_answerEvs i id _ es h]
    cases m with
    | created => rfl
    | mapped tx => rfl
    | just p => rfl
    | failed e => cases e <;> rfl

theorem answering_step {reg : Registry H} {client : Bool} {as : List Act} {s s' : St H}
    {tr e : List (Handler.Ev H)} (h : Handler.run reg client as = .ok (s, tr)) (i : Nat) (id : UInt32)
    (m : MonoSrc) (sigs : List (Mono.Sig Pay)) (a : Act) (inv : Answering i id m sigs s tr)
    (hs : settle s (Handler.step s a) = .ok (s', e)) :
    Answering i id m (sigs ++ answerSigs i [a]) s' (tr ++ e) := by
  obtain ⟨st, ho, hinv, hun, hfr, hnn⟩ := inv
  have hi : i < s.objs.length := (List.getElem?_eq_some_iff.mp ho).1
  by_cases ha : ∃ sig, a = .answer i sig
  · obtain ⟨sig, rfl⟩ := ha
    have e1 : answerSigs i [.answer i sig] = [sig] := by simp [answerSigs]
    rw [e1]
    simp only [Handler.step, ho] at hs
    have hs : (do
        let es ← answerEvs i id (throughMonoMap m (Mono.signal st 0 sig [] []).2)
        Go.ok (setObj s i (.answer id m (Mono.signal st 0 sig [] []).1), es)) = Go.ok (s', e) := by
      cases hx : answerEvs (H := H) i id (throughMonoMap m (Mono.signal st 0 sig [] []).2) with
      | ok es => rw [hx] at hs; exact hs
      | panic => rw [hx] at hs; cases hs
      | err msg => exact absurd hx (answerEvs_no_err i id _ msg)
    obtain ⟨es, he, hs⟩ := bind_ok_inv hs
    cases hs
    have hset : ∀ o : Obj, (setObj s i o).objs[i]? = some o := fun o => List.getElem?_set_self hi
    by_cases hm : m = .created ∨ ∃ tx, m = .mapped tx
    · have hsub : ∃ sb, st.subs = [sb] ∧ sb.inst = ⟨true, true, false⟩ := by
        rcases hm with rfl | ⟨tx, rfl⟩
        · exact hinv.subs.1 rfl
        · exact hinv.subs.2.1 tx rfl
      obtain ⟨sb, hsb, hinst⟩ := hsub
      obtain ⟨⟨sb', h1, h2, h3, -⟩, h4, h5⟩ := signal_sub st sb hsb hinv.cbs hinst sig
      refine ⟨_, hset _, ⟨h4, fun _ => ⟨sb', h1, h2⟩, fun _ _ => ⟨sb', h1, h2⟩, ?_, ?_⟩, ?_, ?_⟩
      · rintro p rfl; rcases hm with hm | ⟨_, hm⟩ <;> cases hm
      · rintro p rfl; rcases hm with hm | ⟨_, hm⟩ <;> cases hm
      · intro _; simp [unresolved, h1, h3]
      · have hu := hun hm
        simp only [unresolved, hsb] at hu
        rw [framesBy_append, hfr]
        rw [h5] at he
        rcases (Bool.eq_false_or_eq_true sb.closed).symm with hcl | hcl
        · have hnil : sigs = [] := by simpa [hcl] using hu
          subst hnil
          have : replies id m [] = [] := by rcases hm with rfl | ⟨tx, rfl⟩ <;> rfl
          rw [this, List.nil_append, List.nil_append]
          exact answer_now i id m hm sig e (by cases sig <;> simpa [hcl, sigEvs] using he)
        · have hne : sigs ≠ [] := by rintro rfl; simp [hcl] at hu
          have : framesBy i e = [] := answer_none i id m e (by simpa [hcl] using he)
          rw [this, List.append_nil, replies, replies, resolution_append m sigs sig hne]
          exact ⟨rfl, hnn⟩
    · have hsub : st.subs = [] := by
        cases m with
        | created => exact absurd (.inl rfl) hm
        | mapped tx => exact absurd (.inr ⟨tx, rfl⟩) hm
        | just p => exact hinv.subs.2.2.1 p rfl
        | failed e => exact hinv.subs.2.2.2 e rfl
      have e2 : Mono.signal st 0 sig [] [] = (st, []) := by simp [Mono.signal, hsub]
      rw [e2] at he ⊢
      refine ⟨st, hset _, hinv, fun h => absurd h hm, ?_⟩
      rw [framesBy_append, hfr, answer_none i id m e he, List.append_nil]
      cases m with
      | created => exact absurd (.inl rfl) hm
      | mapped tx => exact absurd (.inr ⟨tx, rfl⟩) hm
      | just p => exact ⟨rfl, hnn⟩
      | failed e => exact ⟨rfl, hnn⟩
  · have e1 : answerSigs i [a] = [] := by
      cases a with
      | answer j sig =>
        have : j ≠ i := by rintro rfl; exact ha ⟨sig, rfl⟩
        simp [answerSigs, this]
      | _ => rfl
    obtain ⟨h1, h2⟩ := answer_idle h ho a (fun sig hc => ha ⟨sig, hc⟩) _ _ hs
    rw [e1, List.append_nil]
    exact ⟨st, h1.trans ho, hinv, hun, by rw [framesBy_append, framesBy_nil_of_evsOf h2, List.append_nil, hfr], hnn⟩

/-- What was sent for a request/response request whose operation is exported. -/
theorem answering_run {reg : Registry H} {client : Bool} {as1 : List Act} {t : Nat} {ret : Ret}
    {s1 : St H} {t1 : List (Handler.Ev H)} {id : UInt32} {data md : Bytes} {n : UInt32}
    (h1 : Handler.run reg client as1 = .ok (s1, t1)) (ht : s1.tasks[t]? = some (.request .rr id data md n))
    (hex : (exported reg .rr md).isSome = true) (as2 : List Act) : ∀ {s : St H} {tr : List (Handler.Ev H)},
    Handler.run reg client (as1 ++ .run t ret :: as2) = .ok (s, tr) →
    Answering s1.objs.length id ret.mono (answerSigs s1.objs.length as2) s tr := by
  induction as2 using snoc_induction with
  | nil =>
    intro s tr h
    obtain ⟨s0, t0, e, h2, h3, rfl⟩ := run_snoc_inv _ _ _ _ _ _ h
    rw [h1] at h2; cases h2
    have hreg := reg_run as1 h1
    have h3 : settle s1 (serve { s1 with tasks := s1.tasks.eraseIdx t } .rr id data md n ret) = .ok (s, e) := by
      simpa only [Handler.step, ht, runTask] using h3
    obtain ⟨hl, op, hd, ho, hh⟩ : ¬ md.length < 8 ∧ ∃ op hd, getU32 md = .ok op ∧ getHandler s1.reg .rr op = some hd := by
      rw [exported] at hex
      by_cases hl : md.length < 8
      · rw [if_pos hl] at hex; cases hex
      · rw [if_neg hl] at hex
        obtain ⟨op, q1, -⟩ := getU32_take md (by omega)
        obtain ⟨hd, q2⟩ := Option.isSome_iff_exists.mp hex
        rw [namedOp, q1] at q2
        exact ⟨hl, op, hd, q1, by rw [hreg]; exact q2⟩
    simp only [serve, if_neg hl, ho, Go.bind_ok, hh] at h3
    cases hx : answerEvs (H := H) s1.objs.length id (monoSubscribe ret.mono).2 with
    | panic => rw [hx] at h3; cases h3
    | err msg => exact absurd hx (answerEvs_no_err _ id _ msg)
    | ok es =>
      rw [hx] at h3
      cases h3
      obtain ⟨b1, b2, b3, b4⟩ := answering_born _ id ret.mono es hx
      refine ⟨_, by simp, b1, fun hm => b2 hm, ?_, b4⟩
      have hnone : framesBy s1.objs.length t1 = [] := by
        rcases k_history reg client as1 s1 t1 h1 s1.objs.length with ⟨-, q⟩ | ⟨o, q, -⟩
        · exact framesBy_nil_of_evsOf q
        · simp at q
      rw [framesBy_append, hnone, List.nil_append, framesBy_cons]
      have : framesBy s1.objs.length [(.invoked .rr hd id ⟨data, md.drop 8⟩ : Handler.Ev H)] = [] := rfl
      rw [this, List.nil_append, b3]; rfl
  | snoc as2 a ih =>
    intro s tr h
    have e1 : as1 ++ .run t ret :: (as2 ++ [a]) = (as1 ++ .run t ret :: as2) ++ [a] := by simp
    rw [e1] at h
    obtain ⟨s0, t0, e, h2, h3, rfl⟩ := run_snoc_inv _ _ _ _ _ _ h
    rw [answerSigs_append]
    exact answering_step h2 _ _ _ _ _ (ih h2) h3

end
end Verif.Props
