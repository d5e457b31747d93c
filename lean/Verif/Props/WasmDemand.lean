import Verif.Props.WasmStreams
import Verif.Props.SystemCancel
/-
Property C100: the demand of a stream's subscriber between a wasm host and its guest.
-/
set_option autoImplicit false
namespace Verif.Props
open Verif Frames Handler
open Verif.Invoke (Kind Registry getHandler)
open Verif.System (Sys Move)
open Verif.WasmRecv (Side)

section
variable {H : Type}

/-! ## Specification

As for C95: stream number `j` of end A is a call of a stream or channel operation, and stream number `i` of end B,
with the same id, is the flux B's handler has returned for it (`bothEnds`). `demands` is what A's application requests
of the stream, `asks` is what the source of B's flux is asked for. End A is the host or the guest, as `side` says. -/

/-- B's source keeps to the protocol: it calls OnSubscribe at most once, and says an element only after it has
been asked for some. -/
structure politeOn (side : Side) (regB : Registry H) (s : Sys H) (i : Nat) : Prop where
  once : s.histB.countP (isOnSub i) ≤ 1
  asked : ∀ b1 a b2, s.histB = b1 ++ a :: b2 → saysNext i a = true →
    ∀ s1 t1, Wasm.run (Wasm.Side.other side) regB b1 = .ok (s1, t1) → asks i t1 ≠ []

/-- The guest (end B) has no goroutines: whenever it is handed a frame, all that came before is done. -/
def promptGuest (regB : Registry H) (s : Sys H) : Prop :=
  ∀ b1 f r b2, s.histB = b1 ++ .frame f r :: b2 →
    ∀ s1 t1, Wasm.run .guest regB b1 = .ok (s1, t1) → s1.tasks = []

/-- C100 as stated in English. -/
def C100_statement (H : Type) : Prop :=
  ∀ (side : Side) (regA regB : Registry H) (ms : List Move) (s : Sys H),
    Wasm.runSys side regA regB ms = .ok s → Tidy s → (side = .host → promptGuest regB s) →
    ∀ j i x, bothEnds s j i x → sensibleDemands s j → politeOn side regB s i →
      (asks i s.trB).sum ≤ (demands j s.trA).sum ∧
      (demandSettled s j i → (asks i s.trB).sum = (demands j s.trA).sum)

/-! ## From one transport to the other -/

section
variable {side : Side} {regA regB : Registry H} {ms : List Move} {s s' : Sys H}

theorem OverRsocket.bothEnds (h : OverRsocket side regA regB ms s s') {j i : Nat} {x : UInt32} (hb : bothEnds s j i x) :
    bothEnds s' j i x :=
  ⟨by rw [h.alike.a]; exact hb.caller, by rw [h.alike.b]; exact hb.server⟩

theorem demands_alike {e e' : List (Handler.Ev H)} (h : Alike side e e') (j : Nat) : demands j e = demands j e' :=
  h.filterMap _ (fun _ => rfl) (fun _ _ _ _ => rfl)

theorem asks_alike {e e' : List (Handler.Ev H)} (h : Alike side e e') (i : Nat) : asks i e = asks i e' :=
  h.filterMap _ (fun _ => rfl) (fun _ _ _ _ => rfl)

theorem OverRsocket.sensible (h : OverRsocket side regA regB ms s s') {j : Nat} (hn : sensibleDemands s j) :
    sensibleDemands s' j := by
  unfold sensibleDemands at hn ⊢
  rw [← demands_alike h.alike.trA]; exact hn

theorem OverRsocket.polite (h : OverRsocket side regA regB ms s s') {i : Nat} (hp : politeOn side regB s i) :
    politeSource regB (Wasm.Side.client side) s' i := by
  refine ⟨by rw [h.alike.histB]; exact hp.once, fun b1 a b2 hb ha s1 t1 hr => ?_⟩
  rw [h.alike.histB] at hb
  rw [← other_client] at hr
  have hw := h.endB
  have hf := h.fitsB
  rw [hb] at hw hf
  obtain ⟨s2, t2, -, h1, -⟩ := wasm_run_prefix hw
  obtain ⟨t', h2, h3⟩ := run_alike b1 h1 fun f hm => hf f (by rw [handedOver_append]; exact List.mem_append_left _ hm)
  rw [h2] at hr; cases hr
  rw [← asks_alike h3]
  exact hp.asked b1 a b2 hb ha _ _ h1

theorem OverRsocket.demandSettled (h : OverRsocket side regA regB ms s s') {j i : Nat} (hs : demandSettled s j i) :
    demandSettled s' j i :=
  ⟨h.alike.ab.trans hs.wire, by rw [h.alike.a]; exact hs.atA, by rw [h.alike.b]; exact hs.atB,
    by rw [h.alike.a]; exact hs.goesOn, by rw [h.alike.b]; exact hs.ready⟩

end

/-! ## The guest serves -/

theorem guest_kept {reg : Registry H} (side : Side) (as : List Act) : ∀ {s : St H} {tr : List (Handler.Ev H)},
    Wasm.run side reg as = .ok (s, tr) → ∀ t ret, .run t ret ∈ as → ret.kept = Wasm.keeps side := by
  induction as using snoc_induction with
  | nil => intro s tr _ t ret hm; cases hm
  | snoc as a ih =>
    intro s' tr h t ret hm
    obtain ⟨s, t0, e, h1, h2, rfl⟩ := wasm_run_snoc_inv h
    rcases List.mem_append.mp hm with hm | hm
    · exact ih h1 t ret hm
    · cases List.mem_singleton.mp hm
      simp only [Wasm.step] at h2
      split at h2
      · cases h2
      · rename_i hk; simpa using hk

theorem objs_grow {s s' : St H} {as : List Act} {e : List (Handler.Ev H)} (h : Handler.runFrom s as = .ok (s', e))
    {i : Nat} {o : Obj} (ho : s.objs[i]? = some o) : ∃ o', s'.objs[i]? = some o' ∧ o'.sid = o.sid := by
  obtain ⟨o', h1, h2⟩ := (loc_runFrom i as s s' e h).1 o ho
  exact ⟨o', h1, congrArg Prod.snd (key_run h2)⟩

/-- A stream is open from when it was served. -/
theorem prompt_open {reg : Registry H} {client : Bool} {as b1 b2 : List Act} {a : Act} {s s1 : St H}
    {tr t1 : List (Handler.Ev H)} {f : RequestPayload} {i : Nat} {k : Kind} {x : UInt32} {out : Option (Src × Flux.State)}
    {b : Bool} {inp : Option Flux.State}
    (h : Handler.run reg client as = .ok (s, tr)) (hk : allKept as)
    (hu : uses (fun k => decide (k.2 = x)) s tr ≤ 1) (hs : as = b1 ++ a :: b2)
    (h1 : Handler.run reg client b1 = .ok (s1, t1)) (ho : s.objs[i]? = some (.responder k x out b inp))
    (hf : .request f ∈ handedOver b1) (hx : f.streamID = x) (hkind : (kindOfType f.frameType).isSome = true)
    (hidle : s1.tasks = []) : .opened x i ∈ t1 := by
  have hrun := h
  rw [hs] at hrun
  unfold Handler.run at hrun h1
  rw [handler_runFrom_append, h1] at hrun
  obtain ⟨s1', t1', e2, z3, z4, z5⟩ := andThen_ok hrun
  cases z3
  have hu' := hu
  rw [uses_parts] at hu'
  -- the stream is there
  have hthere : ∃ (i' : Nat) (o : Obj), s1.objs[i']? = some o ∧ o.sid = x := by
    apply Classical.byContradiction
    intro hno
    refine arrived_known (s := s1) (tr := t1) (f := f) h1 hkind hf ?_ ?_ (by rw [hidle]; simp)
    · intro i' o hi' hsid
      exact hno ⟨i', o, hi', hsid.trans hx⟩
    · intro g hg hgx
      have hg' : .sent none g ∈ tr := by
        rw [z5]
        obtain ⟨ev, q1, q2⟩ := List.mem_filterMap.mp hg
        cases ev with
        | sent b g' =>
          cases b with
          | none => cases q2; exact List.mem_append_left _ q1
          | some _ => cases q2
        | _ => cases q2
      have := source_of_obj x h hu ho rfl none g hg' (hgx.trans hx)
      cases this
  obtain ⟨i', o, hi', hsid⟩ := hthere
  obtain ⟨o', ho', hsid'⟩ := objs_grow z4 hi'
  have hii : i' = i := index_unique (p := fun o : Obj => decide (o.key.2 = x)) (by omega) ho'
    (by simp [Obj.key, hsid', hsid]) ho (by simp [Obj.key, Obj.sid])
  subst hii
  -- it is a responder
  obtain ⟨o2, q1, q2⟩ := (loc_runFrom i' _ s1 _ _ z4).1 _ hi'
  rw [ho] at q1; cases q1
  have htag := tag_run q2
  cases o with
  | responder k' x' out' b' inp' =>
    cases hsid
    exact responder_opened (s := s1) (tr := t1) h1 hi' (fun t ret hm => hk t ret (by rw [hs]; exact List.mem_append_left _ hm))
  | _ => cases htag

/-- A stream operation's responder has no input. -/
theorem rs_no_input {reg : Registry H} {client : Bool} {as : List Act} {s : St H} {tr : List (Handler.Ev H)}
    (h : Handler.run reg client as = .ok (s, tr)) {i : Nat} {x : UInt32} {out : Option (Src × Flux.State)} {b : Bool}
    {inp : Option Flux.State} (ho : s.objs[i]? = some (.responder .rs x out b inp)) : inp = none := by
  rcases Handler.history reg client as s tr h i with ⟨h1, -, -⟩ | ⟨o0, ts0, es0, o, es, hb, ho', hr, -⟩
  · rw [ho] at h1; cases h1
  · rw [ho] at ho'; cases ho'
    have key : ∀ {o o' : Obj} {ts ts' : List Task} {es : List (Handler.Ev H)}, CRun i o ts o' ts' es →
        (∀ x out b inp, o = .responder .rs x out b inp → inp = none) →
        ∀ x out b inp, o' = .responder .rs x out b inp → inp = none := by
      intro o o' ts ts' es hr h0
      induction hr with
      | refl => exact h0
      | perm _ _ _ _ _ _ ih => exact ih
      | step _ _ _ _ _ _ _ hs ih =>
        intro x out b inp hx
        cases hs <;> first
          | (cases hx; exact ih _ _ _ _ rfl)
          | (cases hx; have := ih _ _ _ _ rfl; cases this)
          | cases hx
          | (subst hx; exact ih _ _ _ _ rfl)
    refine key hr ?_ _ _ _ _ rfl
    intro x out b inp hx
    subst hx
    cases hb with
    | stream => rfl

/-- What a responder does does not enter it in the table. -/
theorem responder_quiet {i : Nat} {o o' : Obj} {ts ts' : List Task} {es : List (Handler.Ev H)}
    (h : CRun i o ts o' ts' es) : ∀ {k : Kind} {x : UInt32}, (∃ out b inp, o = .responder k x out b inp) →
      ∀ y n, .opened y n ∉ es := by
  induction h with
  | refl => intro _ _ _ y n hm; cases hm
  | perm _ _ _ _ _ _ ih => exact ih
  | step _ _ _ _ _ _ hr hs ih =>
    intro k x h0 y n hm
    obtain ⟨out, b, inp, rfl⟩ := responder_kind_run hr h0
    rcases List.mem_append.mp hm with hm | hm
    · exact ih h0 _ _ hm
    · cases hs with
      | outSub _ _ _ _ _ f n _ _ h => exact (plain_replyEvs _ _ _ _ h).opened _ _ hm
      | outFirst _ _ _ _ _ _ f n _ _ hf h => exact (plain_replyEvs _ _ _ _ h).opened _ _ hm
      | outReq _ _ f st inp n _ _ h => exact (plain_replyEvs _ _ _ _ h).opened _ _ hm
      | out _ _ f st b inp _ _ op hf h => exact (plain_replyEvs _ _ _ _ h).opened _ _ hm
      | inp _ _ out b st ts op _ =>
        exact (plain_demandEvs _ x _ (fun e => by constructor <;> simp) _).opened _ _ hm
      | inpSub _ out b ts inst start =>
        exact (plain_demandEvs _ x _ (fun e => by constructor <;> simp) _).opened _ _ hm
      | inpUp => simp at hm
      | asked => cases hm

/-- Where the table is not told of streams, no stream a stream operation serves is ever in it. -/
theorem rs_unopened {reg : Registry H} {client : Bool} (as : List Act) : ∀ {s : St H} {tr : List (Handler.Ev H)},
    Handler.run reg client as = .ok (s, tr) → (∀ t ret, .run t ret ∈ as → ret.kept = false) →
    ∀ {i : Nat} {x : UInt32} {out : Option (Src × Flux.State)} {b : Bool} {inp : Option Flux.State},
      s.objs[i]? = some (.responder .rs x out b inp) → ∀ y, .opened y i ∉ tr := by
  induction as using snoc_induction with
  | nil => intro s tr h _ i x out b inp ho; cases h; simp [St.init] at ho
  | snoc as a ih =>
    intro s' tr h hk i x out b inp ho y hm
    obtain ⟨s, t, e, h1, h2, rfl⟩ := run_snoc_inv _ _ _ _ _ _ h
    cases hold : s.objs[i]? with
    | some o0 =>
      obtain ⟨o', h3, h4⟩ := (loc_settle i s _ (loc_step i s a) s' e h2).1 o0 hold
      rw [ho] at h3; cases h3
      have htag := tag_run h4
      cases o0 with
      | responder k0 x0 out0 b0 inp0 =>
        obtain ⟨_, _, _, hx⟩ := responder_kind_run h4 ⟨_, _, _, rfl⟩
        cases hx
        rcases List.mem_append.mp hm with hm | hm
        · exact ih h1 (fun t ret hm => hk t ret (List.mem_append_left _ hm)) hold y hm
        · exact responder_quiet h4 ⟨_, _, _, rfl⟩ y i (List.mem_filter.mpr ⟨hm, by simp [Handler.Ev.obj]⟩)
      | _ => cases htag
    | none =>
      rcases List.mem_append.mp hm with hm | hm
      · obtain ⟨o, q, -⟩ := opened_history reg client as s t h1 i y hm
        rw [hold] at q; cases q
      have hlen : s.objs.length ≤ i := List.getElem?_eq_none_iff.mp hold
      have last : ∀ (o : Obj), s'.objs = s.objs ++ [o] → .responder .rs x out b inp = o := by
        intro o hx
        rw [hx, List.getElem?_append_right hlen] at ho
        cases hz : i - s.objs.length with
        | zero => rw [hz] at ho; simpa using ho.symm
        | succ m => rw [hz] at ho; simp at ho
      cases settle_shape _ _ _ _ h2 with
      | calm _ _ _ c1 =>
        have h3 := congrArg List.length c1
        simp only [List.length_map] at h3
        obtain ⟨hlt, -⟩ := List.getElem?_eq_some_iff.mp ho
        omega
      | request f r k hk' => rw [show (addTasks s _).objs = s.objs from rfl, hold] at ho; cases ho
      | call k p input =>
        cases k with
        | fnf => cases hm with | tail _ hm => cases hm
        | _ => cases hm
      | serve t ret k id data md n _ _ htask hserve =>
        have hret : ret.kept = false := hk t ret (by simp)
        by_cases hl : md.length < 8
        · simp only [serve, if_pos hl] at hserve
          cases hserve; simp at hm
        · obtain ⟨op, q1, -⟩ := getU32_take md (by omega)
          simp only [serve, if_neg hl, q1, Go.bind_ok] at hserve
          cases hg : getHandler s.reg k op with
          | none => simp only [hg] at hserve; cases hserve; simp at hm
          | some hd =>
            simp only [hg] at hserve
            cases k with
            | rr =>
              obtain ⟨es, z1, z2⟩ := bind_ok_inv hserve
              cases z2
              have := last _ rfl
              cases this
            | fnf =>
              simp only [hret] at hserve
              cases hserve
              have := last _ rfl
              cases this
            | rs =>
              simp only [hret] at hserve
              cases hserve
              simp at hm
            | rc =>
              dsimp only at hserve
              split at hserve
              · cases hserve
                have := last (.responder .rc id none false none) (by simp [addTasks, register_objs])
                cases this
              · cases hserve
                have := last (.responder .rc id none false none) (by simp [addTasks])
                cases this

theorem registers_keeps {reg : Registry H} (side : Side) {as : List Act} {s : St H} {tr : List (Handler.Ev H)}
    (h : Wasm.run side reg as = .ok (s, tr)) (b : Bool) (hb : Wasm.keeps side = b) :
    ∀ t ret, .run t ret ∈ as → ret.kept = b := fun t ret hm => (guest_kept side as h t ret hm).trans hb

/-- Whenever B is handed a request for more elements, it has been handed the request of the stream before. -/
theorem request_first {regA regB : Registry H} {client : Bool} {s : Sys H} (hJ : Joined regA regB client s) (ht : Tidy s)
    {j : Nat} {req : RequestPayload} {first c : Bool} {input : Option Input} {sub : Option Flux.State}
    (ho : s.a.objs[j]? = some (.flux req first c input sub)) {b1 b2 : List Act} {f : RequestN} {r : React}
    (hb : s.histB = b1 ++ .frame (.requestN f) r :: b2) (hx : f.streamID = req.streamID) :
    ∃ g, .request g ∈ handedOver b1 ∧ g.streamID = req.streamID ∧ (kindOfType g.frameType).isSome = true := by
  have hw := withId_of_obj req.streamID hJ.a (hJ.usesA ht _) ho rfl
  obtain ⟨-, sv, dr, h1, -, -⟩ := C61_grants_partial _ _ _ _ _ hJ.a j _ _ _ _ _ ho
  rw [← hw, hJ.ab, hb, handedOver_append] at h1
  have e1 : handedOver (.frame (.requestN f) r :: b2) = .requestN f :: handedOver b2 := rfl
  have e2 : AnyFrame.streamID (.requestN f) = req.streamID := hx
  rw [e1, List.append_assoc, withId, List.filter_append, List.filter_append, List.cons_append,
    List.filter_cons, if_pos (by simp [e2]), List.filter_cons, if_pos (by rfl)] at h1
  cases hg : (withId req.streamID (handedOver b1)).filter isGrant with
  | nil =>
    rw [withId] at hg
    rw [hg] at h1
    cases sv <;> simp [grants] at h1
  | cons a l =>
    have ha : a ∈ (withId req.streamID (handedOver b1)).filter isGrant := by rw [hg]; simp
    rw [withId] at hg
    rw [hg] at h1
    cases sv with
    | nil => simp [grants] at h1
    | cons n ns =>
      simp only [grants, List.cons_append, List.cons.injEq] at h1
      obtain ⟨rfl, -⟩ := h1
      obtain ⟨ha, -⟩ := List.mem_filter.mp ha
      obtain ⟨ha, -⟩ := List.mem_filter.mp ha
      refine ⟨_, ha, rfl, ?_⟩
      have hty : req.frameType = if input.isSome then typeRequestChannel else typeRequestStream := (says_history hJ.a ho).1
      show (kindOfType req.frameType).isSome = true
      rw [hty]
      split <;> rfl

/-! ## The host serves -/

/-- Requests for more elements of the stream `x`. -/
def moreOf (x : UInt32) : Act → Bool
  | .frame (.requestN f) _ => decide (f.streamID = x)
  | _ => false

/-- An end that does not have the stream in its table drops them. -/
theorem run_unheard {reg : Registry H} {client : Bool} (x : UInt32) (as : List Act) : ∀ {s : St H} {tr : List (Handler.Ev H)},
    Handler.run reg client as = .ok (s, tr) → (∀ j, .opened x j ∉ tr) →
    Handler.run reg client (as.filter fun a => !moreOf x a) = .ok (s, tr) := by
  induction as using snoc_induction with
  | nil => intro s tr h _; exact h
  | snoc as a ih =>
    intro s' tr h hn
    obtain ⟨s, t, e, h1, h2, rfl⟩ := run_snoc_inv _ _ _ _ _ _ h
    have ih := ih h1 fun j hm => hn j (List.mem_append_left _ hm)
    rw [List.filter_append]
    rcases (Bool.eq_false_or_eq_true (moreOf x a)).symm with ha | ha
    · rw [show [a].filter (fun a => !moreOf x a) = [a] by simp [ha]]
      exact handler_run_snoc _ _ _ _ _ _ _ _ ih h2
    · rw [show [a].filter (fun a => !moreOf x a) = [] by simp [ha], List.append_nil]
      cases a with
      | frame f r =>
        cases f with
        | requestN f =>
          have hx : f.streamID = x := by simpa [moreOf] using ha
          have hg := getStream_never_opened reg client as s t h1 x fun j hm => hn j (List.mem_append_left _ hm)
          have hz : Handler.step s (.frame (.requestN f) r) = .ok (s, []) := by
            show handleFrame s (.requestN f) r = _
            unfold handleFrame
            rw [if_pos (by show typeRequestN ≥ typeRequestN; decide), show (AnyFrame.requestN f).streamID = x from hx, hg]
            rfl
          rw [hz] at h2
          cases h2
          rw [List.append_nil]
          exact ih
        | _ => cases ha
      | _ => cases ha

/-! ## The theorems -/

/-- C100: the source is never asked for more than the subscriber has requested, whichever side calls. -/
theorem C100_bound_partial (side : Side) (regA regB : Registry H) (ms : List Move) (s : Sys H)
    (h : Wasm.runSys side regA regB ms = .ok s) (ht : Tidy s) (j i : Nat) (x : UInt32) (hb : bothEnds s j i x)
    (hn : sensibleDemands s j) (hone : s.histB.countP (isOnSub i) ≤ 1) :
    (asks i s.trB).sum ≤ (demands j s.trA).sum := by
  obtain ⟨s', ho⟩ := overRsocket h
  rw [demands_alike ho.alike.trA, asks_alike ho.alike.trB]
  exact C95_bound_partial regA regB (Wasm.Side.client side) ms s' ho.run (ho.tidy ht) j i x (ho.bothEnds hb) (ho.sensible hn)
    (by rw [ho.alike.histB]; exact hone)

/-- C100: when the host calls the guest, the source has been asked for exactly as much as the subscriber has requested
once the stream is settled and goes on, if it is the stream of a stream operation, or of a channel
operation whose input has not ended. -/
theorem C100_exact_partial (regA regB : Registry H) (ms : List Move) (s : Sys H)
    (h : Wasm.runSys .host regA regB ms = .ok s) (ht : Tidy s) (hg : promptGuest regB s) (j i : Nat) (x : UInt32)
    (hb : bothEnds s j i x) (hn : sensibleDemands s j) (hp : politeOn .host regB s i) (hs : demandSettled s j i)
    (ho : (∃ out b inp, s.b.objs[i]? = some (.responder .rs x out b inp)) ∨ .closed x ∉ s.trB) :
    (asks i s.trB).sum = (demands j s.trA).sum := by
  obtain ⟨s', hr⟩ := overRsocket h
  have hJ := joined_run _ hr.run
  have ht' := hr.tidy ht
  rw [demands_alike hr.alike.trA, asks_alike hr.alike.trB]
  refine C95_exact_partial regA regB (Wasm.Side.client .host) ms s' hr.run ht' j i x (hr.bothEnds hb) (hr.sensible hn)
    (hr.polite hp) (hr.demandSettled hs) ?_
  intro b1 f r b2 hb1 hx s1 t1 h1
  have hb' := hr.bothEnds hb
  obtain ⟨req, first, c, input, sub, hA, rfl⟩ := hb'.caller
  obtain ⟨k, out, b, inp, hk, hB⟩ := hb'.server
  obtain ⟨g, q1, q2, q3⟩ := request_first hJ ht' hA hb1 hx
  have hkept : allKept s'.histB := by
    rw [hr.alike.histB]
    exact registers_keeps (Wasm.Side.other .host) hr.endB true rfl
  -- the guest is idle
  have hidle : s1.tasks = [] := by
    have hw := hr.endB
    have hfits := hr.fitsB
    rw [hr.alike.histB] at hb1
    rw [hb1] at hw hfits
    obtain ⟨s2, t2, -, z1, -⟩ := wasm_run_prefix hw
    obtain ⟨t', z2, -⟩ := run_alike b1 z1 fun f hm => hfits f (by rw [handedOver_append]; exact List.mem_append_left _ hm)
    have h1' : Handler.run regB (!Wasm.Side.client .host) b1 = .ok (s1, t1) := h1
    rw [← other_client] at h1'
    rw [z2] at h1'; cases h1'
    exact hg b1 _ r b2 hb1 _ _ z1
  have hop := prompt_open hJ.b hkept (hJ.usesB ht' _) hb1 h1 hB q1 q2 q3 hidle
  refine ⟨hop, fun hc => ?_⟩
  have hrun := hJ.b
  rw [hb1] at hrun
  unfold Handler.run at hrun
  have h1' := h1
  unfold Handler.run at h1'
  rw [handler_runFrom_append, h1'] at hrun
  obtain ⟨s1', t1', e2, z3, z4, z5⟩ := andThen_ok hrun
  cases z3
  rcases ho with ⟨out, b, inp, hrs⟩ | hopen
  · have hnd : (openedIds t1).Nodup := by
      have := hJ.openedB ht'
      rw [z5, openedIds_append] at this
      exact (List.nodup_append.mp this).1
    refine unsubscribed_open b1 h1 hnd _ _ hop hc ?_
    obtain ⟨o, w1, w2⟩ := opened_history regB _ b1 s1 t1 h1 i _ hop
    obtain ⟨o', w3, w4⟩ := (loc_runFrom i _ s1 _ _ z4).1 _ w1
    rw [← hr.alike.b] at hrs
    rw [hrs] at w3; cases w3
    have htag := tag_run w4
    cases o with
    | responder k' x' out' b' inp' =>
      obtain ⟨_, _, _, hx'⟩ := responder_kind_run w4 ⟨_, _, _, rfl⟩
      cases hx'
      have := rs_no_input h1 w1
      subst this
      exact ⟨_, _, _, _, w1⟩
    | _ => cases htag
  · apply hopen
    have : ∀ l : List (Handler.Ev H), .closed req.streamID ∈ l ↔
        req.streamID ∈ l.filterMap fun | .closed y => some y | _ => none := by
      intro l
      rw [List.mem_filterMap]
      refine ⟨fun hm => ⟨_, hm, rfl⟩, fun ⟨e, w1, w2⟩ => ?_⟩
      cases e <;> cases w2
      exact w1
    rw [this, hr.alike.trB.filterMap _ (fun _ => rfl) (fun _ _ _ _ => rfl), ← this, z5]
    exact List.mem_append_left _ hc

/-- Where the guest calls the host, the one request that counts. -/
theorem once_asked (regA regB : Registry H) (ms : List Move) (s : Sys H)
    (h : Wasm.runSys .guest regA regB ms = .ok s) (ht : Tidy s) (j i : Nat) (x : UInt32) (hb : bothEnds s j i x)
    (hn : sensibleDemands s j) (hone : s.histB.countP (isOnSub i) ≤ 1)
    (hrs : ∃ out b inp, s.b.objs[i]? = some (.responder .rs x out b inp)) :
    ∃ n ∈ demands j s.trA, (asks i s.trB).sum ≤ n ∧
      (∀ f r, .frame (.request f) r ∈ s.histB → f.streamID = x → (f.initialN.toNat : Int) = n) ∧
      (politeOn .guest regB s i → (∀ t ∈ s.b.tasks, t.obj ≠ some i) →
        (∃ k x f st b inp, s.b.objs[i]? = some (.responder k x (some (f, st)) b inp) ∧ st.hasRequest = true) →
        (asks i s.trB).sum = n) := by
  obtain ⟨s', hr⟩ := overRsocket h
  have hJ := joined_run _ hr.run
  have ht' := hr.tidy ht
  have hn := hr.sensible hn
  rw [← hr.alike.histB] at hone
  obtain ⟨out, b, inp, hB⟩ := hrs
  rw [← hr.alike.b] at hB
  obtain ⟨req, first, c, input, sub, hA, rfl⟩ := (hr.bothEnds hb).caller
  rw [demands_alike hr.alike.trA, asks_alike hr.alike.trB]
  have hkept : ∀ t ret, .run t ret ∈ s'.histB → ret.kept = false := by
    rw [hr.alike.histB]
    exact registers_keeps (Wasm.Side.other .guest) hr.endB false rfl
  -- the stream is not in the table
  have hun : ∀ j, .opened req.streamID j ∉ s'.trB := by
    intro j' hm
    obtain ⟨o, w1, w2⟩ := opened_history _ _ _ _ _ hJ.b j' _ hm
    have hu := hJ.usesB ht' req.streamID
    rw [uses_parts] at hu
    have : j' = i := index_unique (p := fun o : Obj => decide (o.key.2 = req.streamID)) (by omega) w1
      (by simp [Obj.key, w2]) hB (by simp [Obj.key, Obj.sid])
    subst this
    exact rs_unopened _ hJ.b hkept hB _ hm
  have hf := run_unheard req.streamID _ hJ.b hun
  have hone' : (s'.histB.filter fun a => !moreOf req.streamID a).countP (isOnSub i) ≤ 1 := by
    rw [List.countP_filter]
    refine Nat.le_trans (List.countP_mono_left ?_) hone
    intro a _ ha
    simp only [Bool.and_eq_true] at ha
    exact ha.1
  obtain ⟨as1, a, as2, f, r, q1, q2, q3, q4, q5, q6, q7⟩ := served_asked hf (.inl rfl) hB hone'
  have hz : moreCredit req.streamID as2 = 0 := by
    apply moreCredit_zero
    intro f' r' hm hx
    have hm' : .frame (.requestN f') r' ∈ s'.histB.filter fun a => !moreOf req.streamID a := by rw [q1]; simp [hm]
    have := (List.mem_filter.mp hm').2
    simp [moreOf, hx] at this
  have hw : 0 ≤ askWork i s'.b.tasks := by
    have hnn := doRequest_nonneg _ hJ.b
    refine sum_nonneg_int ?_
    intro n hm
    obtain ⟨t, ht, rfl⟩ := List.mem_map.mp hm
    cases t with
    | doRequest j n =>
      simp only [askWeight]
      split
      · exact hnn _ _ ht
      · exact Int.le_refl _
    | subscribe j f n => simp only [askWeight]; split <;> omega
    | firstRequest j f n => simp only [askWeight]; split <;> omega
    | _ => exact Int.le_refl _
  have hpot : 0 ≤ askPot (replySub (.responder .rs req.streamID out b inp)) := by
    cases replySub (.responder .rs req.streamID out b inp) with
    | none => exact Int.le_refl _
    | some st => simp only [askPot]; split <;> omega
  -- its request
  have hsent : ∀ f r, .frame (.request f) r ∈ s'.histB → f.streamID = req.streamID →
      .request f ∈ (withId req.streamID (sentFrames s'.trA)).filter isGrant := by
    intro f r hm hx
    refine List.mem_filter.mpr ⟨List.mem_filter.mpr ⟨?_, by simp [AnyFrame.streamID, hx]⟩, rfl⟩
    rw [hJ.ab]
    exact List.mem_append_left _ (handedOver_mem (r := r) hm)
  have hfm : .frame (.request f) r ∈ s'.histB := by
    have : .frame (.request f) r ∈ s'.histB.filter fun a => !moreOf req.streamID a := by rw [q1]; simp [q2]
    exact (List.mem_filter.mp this).1
  have hwi := withId_of_obj req.streamID hJ.a (hJ.usesA ht' _) hA rfl
  obtain ⟨-, sv, dr, h1, h2, -⟩ := C61_grants_partial _ _ _ _ _ hJ.a j _ _ _ _ _ hA
  rw [hwi, h1] at hsent
  cases sv with
  | nil => cases hsent _ _ hfm q3
  | cons n ns =>
    have hmem : n ∈ demands j s'.trA := h2.mem_iff.mpr (by simp)
    obtain ⟨n0, n1⟩ := hn n hmem
    have hin : ∀ f r, .frame (.request f) r ∈ s'.histB → f.streamID = req.streamID → (f.initialN.toNat : Int) = n := by
      intro f r hm hx
      have hf : f = { req with initialN := u32 n } := by
        rcases List.mem_cons.mp (hsent _ _ hm hx) with hm | hm
        · cases hm; rfl
        · obtain ⟨_, -, hm⟩ := List.mem_map.mp hm; cases hm
      rw [hf]
      show ((u32 n).toNat : Int) = n
      unfold u32
      rw [UInt32.toNat_ofNat_of_lt' (by simp only [UInt32.size]; omega)]
      omega
    have hfn := hin f r hfm q3
    refine ⟨n, hmem, by omega, fun f r hm hx => hin f r (by rw [hr.alike.histB]; exact hm) hx, ?_⟩
    intro hp hidle hready
    have hp' := hr.polite hp
    have hw0 : askWork i s'.b.tasks = 0 := by
      rw [hr.alike.b]
      have : ∀ l : List Task, (∀ y ∈ l, y.obj ≠ some i) → askWork i l = 0 := by
        intro l hl
        induction l with
        | nil => rfl
        | cons y l ih =>
          have z1 := ih fun z hz => hl z (List.mem_cons_of_mem _ hz)
          have z2 : askWeight i y = 0 := by
            have := hl y (by simp)
            cases y <;> simp [Task.obj, askWeight] at this ⊢ <;> (intro hc; exact absurd hc this)
          simp only [askWork, List.map_cons, List.sum_cons] at z1 ⊢
          omega
      exact this _ hidle
    have hp0 : askPot (replySub (.responder .rs req.streamID out b inp)) = 0 := by
      obtain ⟨k, x, g, st, b', inp', w1, w2⟩ := hready
      rw [← hr.alike.b, hB] at w1
      cases w1
      simp [replySub, askPot, w2]
    have := q7 (by
      intro b1 a b2 hb1 ha s1 t1 hs1
      obtain ⟨c1, c2, e1, e2, e3⟩ := List.filter_eq_append_iff.mp hb1
      obtain ⟨d1, d2, e4, e5, e6, e7⟩ := List.filter_eq_cons_iff.mp e3
      have hsplit : s'.histB = (c1 ++ d1) ++ a :: d2 := by rw [e1, e4]; simp
      have hd1 : d1.filter (fun a => !moreOf req.streamID a) = [] := List.filter_eq_nil_iff.mpr e5
      have hrun := hJ.b
      rw [hsplit] at hrun
      unfold Handler.run at hrun
      rw [handler_runFrom_append] at hrun
      obtain ⟨s2, t2, t3, w1, -, w3⟩ := andThen_ok hrun
      have w1' : Handler.run regB (!Wasm.Side.client .guest) (c1 ++ d1) = .ok (s2, t2) := w1
      have w4 := run_unheard req.streamID _ w1' (fun j hm => hun j (by rw [w3]; exact List.mem_append_left _ hm))
      rw [List.filter_append, hd1, List.append_nil, e2, hs1] at w4
      cases w4
      exact hp'.asked _ _ _ hsplit ha _ _ w1') (by
      intro b1 f' r' b2 hb1 hx
      have hm' : .frame (.requestN f') r' ∈ s'.histB.filter fun a => !moreOf req.streamID a := by rw [hb1]; simp
      have := (List.mem_filter.mp hm').2
      simp [moreOf, hx] at this)
    omega

/-- C100 does not hold when the guest calls the host: however much the subscriber requests of the stream of a stream
operation, and however often, the source of the host's flux is never asked for more than one of these requests. -/
theorem C100_once_violated (regA regB : Registry H) (ms : List Move) (s : Sys H)
    (h : Wasm.runSys .guest regA regB ms = .ok s) (ht : Tidy s) (j i : Nat) (x : UInt32) (hb : bothEnds s j i x)
    (hn : sensibleDemands s j) (hone : s.histB.countP (isOnSub i) ≤ 1)
    (hrs : ∃ out b inp, s.b.objs[i]? = some (.responder .rs x out b inp)) :
    ∃ n ∈ demands j s.trA, (asks i s.trB).sum ≤ n := by
  obtain ⟨n, h1, h2, -⟩ := once_asked regA regB ms s h ht j i x hb hn hone hrs
  exact ⟨n, h1, h2⟩

/-- C100: when the guest calls the host, the source of the stream of a stream operation has been asked for exactly one of
the requests of the subscriber once the host is done with it. -/
theorem C100_single_partial (regA regB : Registry H) (ms : List Move) (s : Sys H)
    (h : Wasm.runSys .guest regA regB ms = .ok s) (ht : Tidy s) (j i : Nat) (x : UInt32) (hb : bothEnds s j i x)
    (hn : sensibleDemands s j) (hp : politeOn .guest regB s i) (hidle : ∀ t ∈ s.b.tasks, t.obj ≠ some i)
    (hrs : ∃ f st b inp, s.b.objs[i]? = some (.responder .rs x (some (f, st)) b inp) ∧ st.hasRequest = true) :
    ∃ n ∈ demands j s.trA, (asks i s.trB).sum = n := by
  obtain ⟨f, st, b, inp, h1, h2⟩ := hrs
  obtain ⟨n, h3, -, -, h4⟩ := once_asked regA regB ms s h ht j i x hb hn hp.once ⟨_, _, _, h1⟩
  exact ⟨n, h3, h4 hp hidle ⟨_, _, _, _, _, _, h1, h2⟩⟩

/-! ## Concrete runs -/

/-- A check for every point of a history. -/
def atEach (side : Side) (reg : Registry H) (p : Act → St H → List (Handler.Ev H) → Bool) (as : List Act) : Bool :=
  (List.range as.length).all fun n => match as[n]?, Wasm.run side reg (as.take n) with
    | some a, .ok (s, t) => p a s t
    | _, _ => true

theorem atEach_mem {side : Side} {reg : Registry H} {p : Act → St H → List (Handler.Ev H) → Bool} {as : List Act}
    (h : atEach side reg p as = true) {b1 b2 : List Act} {a : Act} (hb : as = b1 ++ a :: b2) {s1 : St H}
    {t1 : List (Handler.Ev H)} (hr : Wasm.run side reg b1 = .ok (s1, t1)) : p a s1 t1 = true := by
  have h1 := List.all_eq_true.mp h b1.length (by rw [hb]; simp)
  have e1 : as[b1.length]? = some a := by rw [hb]; simp
  have e2 : as.take b1.length = b1 := by rw [hb]; simp
  simpa only [e1, e2, hr] using h1

theorem politeOn_of {side : Side} {regB : Registry H} {s : Sys H} {i : Nat} (h1 : s.histB.countP (isOnSub i) ≤ 1)
    (h2 : atEach (Wasm.Side.other side) regB (fun a _ t => !saysNext i a || !(asks i t).isEmpty) s.histB = true) :
    politeOn side regB s i := by
  refine ⟨h1, fun b1 a b2 hb ha s1 t1 hr hc => ?_⟩
  have := atEach_mem h2 hb hr
  simp [ha, hc] at this

theorem promptGuest_of {regB : Registry H} {s : Sys H}
    (h : atEach .guest regB (fun a s1 _ => !System.isFrame a || s1.tasks.isEmpty) s.histB = true) : promptGuest regB s := by
  intro b1 f r b2 hb s1 t1 hr
  have := atEach_mem h hb hr
  simpa [System.isFrame] using this

end

/-- A calls a stream operation, requests one element and then two more, and B's source is asked by B. -/
def demand100 (side : Side) : List Move :=
  let a := Act.run 0 (retOn side)
  let b := Act.run 0 (retOn (Wasm.Side.other side))
  [.atA (.call .rs ⟨[5], eightZeros⟩ .created), .atA (.subscribeFlux 0 ⟨true, true, true, true, true, false⟩ [.request 1]),
   .atA a, .toB noReact, .atB b, .atB b, .atB b, .atB (.out 0 (.onSubscribe true)), .atB (.out 0 (.next ⟨[7], []⟩)), .toA noReact,
   .atA (.fluxCall 0 (.request 2)), .atA a, .toB noReact, .atB b]

def end100 (side : Side) : Sys Unit := sysAfter (Wasm.runSys side oneHandler oneHandler (demand100 side))

/-- The hypotheses of the theorems hold for it, whoever calls. -/
theorem hyps100 (side : Side) : Wasm.runSys side oneHandler oneHandler (demand100 side) = .ok (end100 side) ∧
    Tidy (end100 side) ∧ bothEnds (end100 side) 0 0 (callId (St.init oneHandler (Wasm.Side.client side))) ∧
    sensibleDemands (end100 side) 0 ∧ politeOn side oneHandler (end100 side) 0 ∧ demandSettled (end100 side) 0 0 ∧
    ∃ out b inp, (end100 side).b.objs[0]? = some (.responder .rs (callId (St.init oneHandler (Wasm.Side.client side))) out b inp) := by
  refine ⟨by cases side <;> rfl, tidy_of ?_ ?_ ?_ ?_, ⟨?_, ?_⟩, ?_, politeOn_of ?_ ?_, ⟨?_, ?_, ?_, ?_, ?_⟩, ?_⟩
  case refine_5 => cases side <;> exact ⟨_, _, _, _, _, rfl, rfl⟩
  case refine_6 => cases side <;> exact ⟨_, _, _, _, .inl rfl, rfl⟩
  case refine_7 => unfold sensibleDemands; cases side <;> decide +kernel
  case refine_13 => cases side <;> exact ⟨_, _, _, _, rfl⟩
  case refine_14 => cases side <;> exact ⟨_, _, _, _, _, _, rfl, rfl⟩
  case refine_15 => cases side <;> exact ⟨_, _, _, rfl⟩
  all_goals cases side <;> decide +kernel

theorem prompt100 : promptGuest oneHandler (end100 .host) := promptGuest_of (by decide +kernel)

/-- When the host calls, the guest's source is asked for one element, then two. -/
example : asks 0 (end100 .host).trB = [1, 2] ∧ demands 0 (end100 .host).trA = [1, 2] := by decide +kernel

/-- When the guest calls, the host's source is asked only once. -/
theorem C100_lost_violated : asks 0 (end100 .guest).trB = [1] ∧ demands 0 (end100 .guest).trA = [1, 2] := by decide +kernel

example : ∃ n ∈ demands 0 (end100 .guest).trA, (asks 0 (end100 .guest).trB).sum = n := by
  obtain ⟨h1, h2, h3, h4, h5, h6, -⟩ := hyps100 .guest
  exact C100_single_partial _ _ _ _ h1 h2 0 0 _ h3 h4 h5 h6.atB ⟨_, _, _, _, rfl, rfl⟩

theorem C100_violated : ¬ C100_statement Unit := by
  intro h
  obtain ⟨h1, h2, h3, h4, h5, h6, -⟩ := hyps100 .guest
  have := (h .guest oneHandler oneHandler _ _ h1 h2 (fun h => by cases h) 0 0 _ h3 h4 h5).2 h6
  rw [C100_lost_violated.1, C100_lost_violated.2] at this
  revert this; decide

end Verif.Props
