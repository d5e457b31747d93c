import Verif.Props.MeshAsked
import Verif.Props.WasmDemand
/-
Property C124: the demand of a stream's subscriber through a mesh. Also the last part of C123.
-/
set_option autoImplicit false
namespace Verif.Props
open Verif Frames Handler
open Verif.Invoke (Kind Registry getHandler)
open Verif.System (Sys Move)
open Verif.WasmRecv (Side)
open Verif.MeshSystem (MSys Link MMove)

section
variable {H : Type}

/-! ## Specification

As for C123. `demands` are the amounts a subscriber requests of its flux, `asks` those a source is asked for. -/

/-- Nothing of the stream is under way in the two modules, and it goes on: its end was seen by neither the guest that
subscribed nor the host that passed it on, and the source has called OnSubscribe. -/
structure meshSettled (s : MSys H) (i j k v : Nat) (y : UInt32) : Prop where
  hostIdle : (s.inst i).a.tasks = []
  guestIdle : (s.inst i).b.tasks = []
  wire : (s.inst i).ba = []
  goesOn : ∃ req first input sub, (s.inst i).b.objs[j]? = some (.flux req first false input sub)
  hostIdle' : (s.inst k).a.tasks = []
  guestIdle' : (s.inst k).b.tasks = []
  wire' : (s.inst k).ab = []
  goesOn' : ∃ (j' : Nat) (req : RequestPayload) (first : Bool) (input : Option Input) (sub : Option Flux.State),
    (s.inst k).a.objs[j']? = some (.flux req first false input sub) ∧ req.streamID = y
  ready : ∃ f st b inp, (s.inst k).b.objs[v]? = some (.responder .rs y (some (f, st)) b inp) ∧ st.hasRequest = true

/-- The guest of module `i` subscribes to a stream that is passed on to module `d.inst` as request `y`, where `v` is the
stream that answers. The subscriber requests amounts that fit the field of the frame; the guest there is prompt, and the
source keeps to the protocol. -/
structure meshDemand (dest : H → Option Mesh.Dest) (host guest : Nat → Registry H) (i : Nat) (pre : List MMove) (s0 : MSys H)
    (p : Pay) (src : Src) (mid : List MMove) (inst : Flux.Installed) (start : List Flux.Call) (post : List MMove)
    (s : MSys H) (d : Mesh.Dest) (y : UInt32) (v : Nat) : Prop where
  stream : meshStream dest host guest i pre s0 p src mid inst start post s
  target : goesTo dest (host i) .rs p.metadata d
  tidy : ∀ k, Tidy (s.inst k)
  passed : passedAs s i (callId (s0.inst i).b) d.inst y
  served : ∃ out b inp, (s.inst d.inst).b.objs[v]? = some (.responder .rs y out b inp)
  fits : ∀ n ∈ demands (s0.inst i).b.objs.length (s.inst i).trB, 0 ≤ n ∧ n < 4294967296
  prompt : promptGuest (guest d.inst) (s.inst d.inst)
  polite : politeOn .host (guest d.inst) (s.inst d.inst) v

/-- C124 as stated in English. -/
def C124_statement (H : Type) : Prop :=
  ∀ (dest : H → Option Mesh.Dest) (host guest : Nat → Registry H) (i : Nat) (pre : List MMove) (s0 : MSys H)
    (p : Pay) (src : Src) (mid : List MMove) (inst : Flux.Installed) (start : List Flux.Call) (post : List MMove)
    (s : MSys H) (d : Mesh.Dest) (y : UInt32) (v : Nat),
    meshDemand dest host guest i pre s0 p src mid inst start post s d y v →
    (asks v (s.inst d.inst).trB).sum ≤ (demands (s0.inst i).b.objs.length (s.inst i).trB).sum ∧
    (meshSettled s i (s0.inst i).b.objs.length d.inst v y →
      (asks v (s.inst d.inst).trB).sum = (demands (s0.inst i).b.objs.length (s.inst i).trB).sum)

/-! ## The host that asks -/

/-- A stream that is over was ended or cancelled where its subscriber could see it. -/
theorem over_seen {j : Nat} {o o' : Obj} {ts ts' : List Task} {es : List (Handler.Ev H)} (h : CRun j o ts o' ts' es)
    {req0 : RequestPayload} {first0 : Bool} {input0 : Option Input} {st0 : Flux.State}
    (ho : o = .flux req0 first0 false input0 (some st0)) (hi : st0.inst = replyInst) (hcl : st0.closed = false) :
    ∃ req first c input st, o' = .flux req first c input (some st) ∧ req.streamID = req0.streamID ∧ st.inst = replyInst ∧
      (c = true ∨ st.closed = true → .cancelled ∈ fluxEvs j es ∨ fluxSignals (fluxEvs j es) ≠ []) := by
  induction h with
  | refl => exact ⟨_, _, _, _, _, ho, rfl, hi, by rw [hcl]; simp⟩
  | perm _ _ _ _ _ hp ih => exact ih
  | step _ _ _ _ _ _ hr hs ih =>
    obtain ⟨req, first, c, input, st, he, hid, hin, hend⟩ := ih
    have keep : ∀ (es es' : List (Handler.Ev H)), (.cancelled ∈ fluxEvs j es ∨ fluxSignals (fluxEvs j es) ≠ []) →
        .cancelled ∈ fluxEvs j (es ++ es') ∨ fluxSignals (fluxEvs j (es ++ es')) ≠ [] := by
      intro es es' h
      rw [fluxEvs_append, fluxSignals_append]
      rcases h with h | h
      · exact .inl (List.mem_append_left _ h)
      · exact .inr (by simp [h])
    cases hs with
    | fluxOp _ _ _ _ _ _ op hop =>
      cases he
      have sp := flux_step_spec st op
      refine ⟨_, _, _, _, _, rfl, hid, sp.inst.trans hin, fun h => ?_⟩
      by_cases h0 : c = true ∨ st.closed = true
      · exact keep _ _ (hend h0)
      · have hc : c = false := by cases c <;> simp at h0 ⊢
        have hc2 : st.closed = false := by cases hx : st.closed <;> simp [hx] at h0 ⊢
        rw [fluxEvs_append, fluxSignals_append, fluxEvs_demandEvs, sp.signals, hc2, if_neg (by simp), hin]
        have hterm : isTerminal op = true → fluxExpected replyInst op ≠ [] := by
          cases op <;> simp [isTerminal, fluxExpected, replyInst]
        have ht : isTerminal op = true ∨ .cancelled ∈ (Flux.step st op).2 := by
          rcases h with h | h
          · left
            cases op with
            | complete _ => rfl
            | _ => simp only [doneAfter, hc] at h; cases h
          · rw [sp.closed, hc2] at h
            simp only [Bool.false_or, Bool.or_eq_true, decide_eq_true_eq] at h
            rcases h with h | h
            · exact .inl h
            · exact .inr ((cancelled_mem_iff _).mpr h)
        rcases ht with ht | ht
        · exact .inr (by simp [hterm ht])
        · exact .inl (List.mem_append_right _ ht)
    | fluxIdle => cases he
    | fluxSub => cases he
    | upDone | upFirst | upLater | inputSub | inputReq | input =>
      cases he
      exact ⟨_, _, _, _, _, rfl, hid, hin, fun h => keep _ _ (hend h)⟩
    | asked => exact ⟨_, _, _, _, _, he, hid, hin, fun h => keep _ _ (hend h)⟩
    | _ => cases he

theorem over_history {reg : Registry H} {client : Bool} {b1 b2 : List Act} {s3 s : St H} {t3 tr : List (Handler.Ev H)}
    {j : Nat} {req : RequestPayload} (h1 : Handler.run reg client b1 = .ok (s3, t3))
    (ho : s3.objs[j]? = some (.flux req true false none none))
    (h : Handler.run reg client (b1 ++ .subscribeFlux j replyInst [] :: b2) = .ok (s, tr)) :
    ∃ req' first c input st, s.objs[j]? = some (.flux req' first c input (some st)) ∧ req'.streamID = req.streamID ∧
      (c = true → .cancelled ∈ fluxEvs j tr ∨ fluxSignals (fluxEvs j tr) ≠ []) := by
  unfold Handler.run at h h1
  rw [handler_runFrom_append, h1] at h
  obtain ⟨sx, tx, t4, h2, h3, rfl⟩ := andThen_ok h
  cases h2
  simp only [runFrom] at h3
  obtain ⟨s4, e4, e5, h4, h5, rfl⟩ := andThen_ok h3
  simp only [Handler.step, ho, settle] at h4
  cases h4
  have hlen := (List.getElem?_eq_some_iff.mp ho).1
  obtain ⟨o', q1, q2⟩ := (loc_runFrom j b2 _ _ _ h5).1
    (.flux req true false none (some (Flux.runFrom (T := Pay) (.init replyInst []) [.onSubscribe true, .start []]).1)) (by
      have hl : j < (register s3 req.streamID j).objs.length := by unfold register; split <;> exact hlen
      exact List.getElem?_set_self hl)
  obtain ⟨req', first, c, input, st, rfl, w1, -, w2⟩ := over_seen q2 rfl rfl rfl
  refine ⟨_, _, _, _, _, q1, w1, fun hc => ?_⟩
  rcases w2 (.inl hc) with w | w
  · left
    rw [fluxEvs_evsOf] at w
    rw [fluxEvs_append, fluxEvs_append]
    exact List.mem_append_right _ (List.mem_append_right _ w)
  · right
    rw [fluxEvs_evsOf] at w
    rw [fluxEvs_append, fluxEvs_append, fluxSignals_append, fluxSignals_append]
    simp [w]

/-! ## The streams of a call -/

/-- The stream of a call. -/
theorem stream_object {regA regB : Registry H} {client : Bool} {pre mid post : List Move} {k : Kind} {p : Pay} {src : Src}
    {inst : Flux.Installed} {start : List Flux.Call} {s0 s : Sys H}
    (h : streamRun regA regB client pre s0 k p src mid inst start post s) :
    ∃ req f c i sub, s.a.objs[s0.a.objs.length]? = some (.flux req f c i sub) ∧ req.streamID = callId s0.a := by
  obtain ⟨hk, h0, -, h⟩ := h
  have hJ := joined_run _ h
  have hJ0 := joined_run _ h0
  rw [List.append_assoc] at h
  obtain ⟨s0', h3, h4⟩ := sys_append_ok _ _ h
  rw [show System.runFrom (.init regA regB client) pre = .ok s0 from h0] at h3
  cases h3
  obtain ⟨s2, h5, h6⟩ := sys_cons_ok h4
  have hJ2 := joined_step _ hJ0 h5
  obtain ⟨⟨more, hmore⟩, -⟩ := hist_runFrom _ h6
  simp only [System.step, System.isFrame, Bool.false_eq_true, if_false, System.moveA, Handler.step, settle] at h5
  have h5 := (Go.ok.inj h5).symm
  have ho2 : ∃ input, s2.a.objs[s0.a.objs.length]? =
      some (.flux (fluxRequest k (callId s0.a) p requestMax) true false input none) := by
    rw [h5]
    rcases hk with rfl | rfl
    · refine ⟨none, ?_⟩
      show (s0.a.objs ++ _)[_]? = _
      rw [List.getElem?_append_right (by omega), Nat.sub_self]
      rfl
    · refine ⟨some (.fresh src), ?_⟩
      show (s0.a.objs ++ _)[_]? = _
      rw [List.getElem?_append_right (by omega), Nat.sub_self]
      rfl
  obtain ⟨input, ho2⟩ := ho2
  have hrun := hJ.a
  have hrun2 := hJ2.a
  rw [hmore] at hrun
  unfold Handler.run at hrun hrun2
  rw [handler_runFrom_append, hrun2] at hrun
  obtain ⟨_, _, t2, q1, q2, q3⟩ := andThen_ok hrun
  cases q1
  obtain ⟨o', q4, q5⟩ := (loc_runFrom _ _ s2.a _ _ q2).1 _ ho2
  obtain ⟨n, f, c, i, sub, rfl⟩ := flux_req_run (req := fluxRequest k (callId s0.a) p requestMax) q5
    ⟨requestMax, true, false, input, none, rfl⟩
  exact ⟨_, _, _, _, _, q4, rfl⟩

theorem wasm_object {side : Side} {regA regB : Registry H} {pre mid post : List Move} {k : Kind} {p : Pay} {src : Src}
    {inst : Flux.Installed} {start : List Flux.Call} {s0 s : Sys H}
    (h : wasmStream side regA regB pre s0 k p src mid inst start post s) :
    ∃ req f c i sub, s.a.objs[s0.a.objs.length]? = some (.flux req f c i sub) ∧ req.streamID = callId s0.a := by
  obtain ⟨s0', s', e0, h1, h2⟩ := h.rsocket
  have := stream_object h1
  rwa [e0, h2.alike.a] at this

/-- Nothing makes a goroutine that subscribes to a flux that answers but the request itself. -/
theorem subTask_old {j : Nat} {o o' : Obj} {ts ts' : List Task} {es : List (Handler.Ev H)} (h : CRun j o ts o' ts' es)
    {f : Src} {n : UInt32} : .subscribe j f n ∈ ts' → .subscribe j f n ∈ ts := by
  have hd : ∀ l : List (Flux.Ev Pay), (.subscribe j f n : Task) ∉ demandTasks j l := by
    intro l hm
    have := List.countP_eq_zero.mp (demandTasks_sub j l) _ hm
    simp [isSubTask] at this
  induction h with
  | refl => exact id
  | perm _ _ _ _ _ hp ih => exact fun h => ih (hp.mem_iff.mpr h)
  | step _ _ _ _ _ _ hr hs ih =>
    intro hm
    refine ih ?_
    cases hs with
    | outSub =>
      rcases List.mem_append.mp hm with h | h
      · exact List.mem_cons_of_mem _ h
      · simp at h
    | inp | inpSub | fluxOp | fluxSub =>
      rcases List.mem_append.mp hm with h | h
      · exact h
      · exact absurd h (hd _)
    | upFirst =>
      rcases List.mem_append.mp hm with h | h
      · exact List.mem_cons_of_mem _ h
      · split at h <;> simp at h
    | asked =>
      rcases List.mem_append.mp hm with h | h
      · exact h
      · simp at h
    | outFirst | outReq | inpUp | upDone | upLater | inputSub | inputReq => exact List.mem_cons_of_mem _ hm
    | _ => exact hm

theorem one_eq {α : Type} {p : α → Bool} {l : List α} {a b : α} (h : l.countP p ≤ 1) (ha : a ∈ l) (hb : b ∈ l)
    (pa : p a = true) (pb : p b = true) : a = b := by
  obtain ⟨i, hi⟩ := List.getElem?_of_mem ha
  obtain ⟨j, hj⟩ := List.getElem?_of_mem hb
  have := index_unique (by rw [← List.countP_eq_length_filter]; exact h) hi pa hj pb
  subst this
  rw [hi] at hj
  exact Option.some.inj hj

/-! ## What a link stands for -/

section
variable {dest : H → Option Mesh.Dest} {host guest : Nat → Registry H} {s : MSys H}

/-- The flux that answers a stream that was passed on. -/
structure AskedBy (s : MSys H) (l : Link) (n : UInt32) : Prop where
  object : ∃ out b inp, (s.inst l.caller).a.objs[l.answer]? = some (.responder .rs l.request out b inp)
  range : ∀ n ∈ asks l.answer (s.inst l.caller).trA, 0 ≤ n ∧ n < 4294967296
  asked : .firstRequest l.answer .created n ∈ (s.inst l.caller).a.tasks ∨ (n.toNat : Int) ∈ asks l.answer (s.inst l.caller).trA
  frame : ∃ f r, .frame (.request f) r ∈ (s.inst l.caller).histA ∧ f.streamID = l.request ∧ f.initialN = n

theorem link_answers (I : MeshRun dest host guest (fun _ _ => False) s []) {r : RunRec H} {d : Mesh.Dest} {l : Link}
    (hr : r.on (host l.caller) (s.inst l.caller).histA) (hf : RunFor dest (host l.caller) r d)
    (hl : LinkFor host guest s [] l.caller r d l) (hk : r.k = .rs)   : AskedBy s l r.n := by
  obtain ⟨pre', s0', mid', post', -, -, -, h4⟩ := hl.rs hk
  obtain ⟨as3, as4, t', ret', s3, t3, n', q1, q2, q3, -, as5, rfl⟩ := h4.out
  have hH := I.hostAt l.caller
  have hs := hr.split
  have e1 : (s.inst l.caller).histA = (r.as1 ++ .run r.t r.ret :: as3) ++ .run t' ret' :: .out l.answer (.onSubscribe true) :: as5 := by
    rw [hs, q1]; simp
  have f3 : ∀ f ∈ handedOver (r.as1 ++ .run r.t r.ret :: as3), fits f := fun f hm => hH.fits f (by
    rw [e1, handedOver_append]; exact List.mem_append_left _ hm)
  have f2 : ∀ f ∈ handedOver (r.as1 ++ [.run r.t r.ret]), fits f := fun f hm => f3 f (by
    rw [show r.as1 ++ .run r.t r.ret :: as3 = (r.as1 ++ [.run r.t r.ret]) ++ as3 by simp, handedOver_append]
    exact List.mem_append_left _ hm)
  have f1 : ∀ f ∈ handedOver r.as1, fits f := fun f hm => f3 f (by rw [handedOver_append]; exact List.mem_append_left _ hm)
  obtain ⟨x1, g1, -⟩ := run_alike _ hr.before f1
  obtain ⟨x3, g3, -⟩ := run_alike _ q2 f3
  obtain ⟨x, g, ga⟩ := run_alike _ hH.run hH.fits
  -- how it came into being
  have g3' := g3
  rw [show r.as1 ++ .run r.t r.ret :: as3 = (r.as1 ++ [.run r.t r.ret]) ++ as3 by simp] at g3'
  unfold Handler.run at g3'
  rw [handler_runFrom_append] at g3'
  obtain ⟨s2, x2, x4, g2, g4, -⟩ := andThen_ok g3'
  have g2' : Handler.run (host l.caller) (Wasm.Side.client .host) (r.as1 ++ [.run r.t r.ret]) = .ok (s2, x2) := g2
  obtain ⟨s1', x1', e2, w1, w2, -⟩ := run_snoc_inv _ _ _ _ _ _ g2'
  rw [g1] at w1
  cases w1
  have hex : (exported (host l.caller) r.k r.md).isSome = true := by
    have := hf.dest
    cases hx : exported (host l.caller) r.k r.md with
    | none => rw [hx] at this; cases this
    | some _ => rfl
  obtain ⟨b1, b2, -, -⟩ := served_born (by rw [hk]; exact fun h => by cases h) g1 hr.task hex w2
  have b2 := b2.resolve_left (by rw [hk]; exact fun h => by cases h)
  have ho2 : s2.objs[l.answer]? = some (.responder .rs l.request none false none) := by
    rw [hl.answer, hl.request, b1, List.getElem?_append_right (Nat.le_refl _), Nat.sub_self, hk]; rfl
  -- its goroutine
  have hn : n' = r.n := by
    have hm : .subscribe r.s1.objs.length r.ret.flux n' ∈ s2.tasks := by
      obtain ⟨o', -, hc⟩ := (loc_runFrom r.s1.objs.length _ _ _ _ g4).1 _ (hl.answer ▸ ho2)
      have := subTask_old hc (f := r.ret.flux) (n := n') (List.mem_filter.mpr ⟨List.mem_of_getElem? q3, by simp [Task.obj]⟩)
      exact (List.mem_filter.mp this).1
    have := one_eq (one_sub_history g2' r.s1.objs.length) hm
      (b := .subscribe r.s1.objs.length r.ret.flux r.n) (by rw [b2]; simp) (by simp [isSubTask]) (by simp [isSubTask])
    cases this
    rfl
  have hone := h4.once
  rw [e1] at g hone
  rw [hl.created, ← hl.answer, hn] at q3
  obtain ⟨v1, v2⟩ := answer_asks g3 q3 g hone
  rw [← asks_alike ga] at v1 v2
  obtain ⟨f, rc, u1, u2, u3⟩ := request_credit _ g1 _ _ _ _ _ (List.mem_of_getElem? hr.task)
  refine ⟨?_, v1, v2, f, rc, by rw [hs]; exact List.mem_append_left _ u1, u2.trans hl.request.symm, u3⟩
  have g' := g
  rw [show (r.as1 ++ .run r.t r.ret :: as3) ++ .run t' ret' :: .out l.answer (.onSubscribe true) :: as5 =
    (r.as1 ++ [.run r.t r.ret]) ++ (as3 ++ .run t' ret' :: .out l.answer (.onSubscribe true) :: as5) by simp] at g'
  unfold Handler.run at g'
  rw [handler_runFrom_append, g2] at g'
  obtain ⟨_, _, e5, z1, z2, -⟩ := andThen_ok g'
  cases z1
  obtain ⟨o', z3, hc⟩ := (loc_runFrom l.answer _ _ _ _ z2).1 _ ho2
  obtain ⟨out, b, inp, rfl⟩ := responder_kind_run hc ⟨_, _, _, rfl⟩
  exact ⟨_, _, _, z3⟩

/-- The host that was asked sends the request, once it has run its goroutines. -/
theorem asked_request {regA regB : Registry H} {ms : List Move} {x : Sys H} (hx : Wasm.runSys .host regA regB ms = .ok x)
    (ht : Tidy x) {j : Nat} {b1 b2 : List Act} {s3 : St H} {t3 : List (Handler.Ev H)} {req : RequestPayload}
    (hh : x.histA = b1 ++ .subscribeFlux j replyInst [] :: b2) (h1 : Wasm.run .host regA b1 = .ok (s3, t3))
    (ho : s3.objs[j]? = some (.flux req true false none none)) {pre mid post : List Move} {s0 : Sys H} {p : Pay}
    (hw : wasmStream .host regA regB pre s0 .rs p .created mid replyInst [] post x) (hj : j = s0.a.objs.length)
    (hcalm : .cancelled ∉ fluxEvs j x.trA) (hd : demands j x.trA ≠ []) (hidle : x.a.tasks = []) :
    requestSent x (callId s0.a) := by
  obtain ⟨x', hr⟩ := overRsocket hx
  have hJ := joined_run _ hr.run
  have f1 : ∀ f ∈ handedOver b1, fits f := fun f hm => hr.fitsA f (by
    rw [hh, handedOver_append]; exact List.mem_append_left _ hm)
  obtain ⟨x1, g1, -⟩ := run_alike _ h1 f1
  have g := hJ.a
  rw [hr.alike.histA, hh] at g
  obtain ⟨req', first, c, input, st, w1, w2, w3⟩ := over_history g1 ho g
  have hid : req'.streamID = callId s0.a := by
    obtain ⟨req2, f, c2, i2, sub, v1, v2⟩ := wasm_object hw
    rw [hr.alike.a, hj, v1] at w1
    cases w1
    exact v2
  unfold requestSent
  rw [wire_alike hr.alike.trA]
  cases c with
  | false =>
    obtain ⟨v1, sv, dr, v2, v3, v4⟩ := C61_grants_partial _ _ _ _ _ hJ.a j _ _ _ _ _ w1
    rw [v4 rfl, hr.alike.a, hidle, ← demands_alike hr.alike.trA] at v3
    cases sv with
    | nil => exact absurd v3.eq_nil hd
    | cons n sv =>
      have hm : .request { req' with initialN := u32 n } ∈ framesBy j x'.trA := by
        have : .request { req' with initialN := u32 n } ∈ (framesBy j x'.trA).filter isGrant := by rw [v2]; exact .head _
        exact (List.mem_filter.mp this).1
      refine ⟨{ req' with initialN := u32 n }, hid, ?_⟩
      obtain ⟨e, z1, z2⟩ := List.mem_filterMap.mp hm
      refine List.mem_filterMap.mpr ⟨e, z1, ?_⟩
      split at z2
      · split at z2
        · exact z2
        · cases z2
      · cases z2
  | true =>
    rw [← fluxEvs_alike hr.alike.trA] at w3
    rcases w3 rfl with w3 | w3
    · exact absurd w3 hcalm
    · rcases C99_stream .host _ _ _ _ _ _ _ _ _ _ _ _ hw ht (fun hk => by cases hk) with h9 | ⟨r', h9, -⟩
      · rw [hj] at w3; exact absurd h9 w3
      · have : ∃ f, f.streamID = callId s0.a ∧ .request f ∈ handedOver x.histB := by
          have key : ∀ as1 as2 t ret s1 t1 n data md, RanOn .guest regB x.histB as1 as2 t ret s1 t1 .rs (callId s0.a) data md n →
              ∃ f, f.streamID = callId s0.a ∧ .request f ∈ handedOver x.histB := by
            intro as1 as2 t ret s1 t1 n data md ran
            obtain ⟨x2, r1, -⟩ := run_alike _ ran.before (fun f hm => hr.fitsB f (by
              rw [ran.split, handedOver_append]; exact List.mem_append_left _ hm))
            obtain ⟨f, rc, q1, q2, q3, -⟩ := task_origin _ r1 _ _ _ _ _ (List.mem_of_getElem? ran.task)
            exact ⟨f, q3, by rw [ran.split, handedOver_append]; exact List.mem_append_left _ (handedOver_mem q1)⟩
          cases h9 with
          | rejected _ _ _ _ _ _ _ ran _ => exact key _ _ _ _ _ _ _ _ _ ran
          | waiting _ _ _ _ _ _ _ ran _ _ _ _ _ _ => exact key _ _ _ _ _ _ _ _ _ ran
          | served _ _ _ _ _ _ _ ran _ _ _ _ _ _ _ _ _ _ _ => exact key _ _ _ _ _ _ _ _ _ ran
        obtain ⟨f, u1, u2⟩ := this
        refine ⟨f, u1, ?_⟩
        rw [wire_eq, hJ.ab, hr.alike.histB]
        exact List.mem_append_left _ u2

end

section
variable (dest : H → Option Mesh.Dest) (host guest : Nat → Registry H) (i : Nat) (pre mid post : List MMove)
    (s0 s : MSys H) (p : Pay) (src : Src) (inst : Flux.Installed) (start : List Flux.Call) (d : Mesh.Dest)

/-- C123: a stream that was passed on is sent to the other module as soon as the goroutines of the two hosts have run. -/
theorem C123_sent (h : meshStream dest host guest i pre s0 p src mid inst start post s) (ht : ∀ k, Tidy (s.inst k))
    (k : Nat) (y : UInt32) (hy : passedAs s i (callId (s0.inst i).b) k y) (hi : (s.inst i).a.tasks = [])
    (hk : (s.inst k).a.tasks = []) : requestSent (s.inst k) y := by
  have I := meshRun_run h.whole
  obtain ⟨l, hl, rfl, hx, rfl, rfl⟩ := hy
  obtain ⟨r, d', h1, h2, h3⟩ := I.each l hl
  obtain ⟨e1, e2, e3⟩ := stream_payload h (ht _) h1 (h3.request.symm.trans hx)
  have A := link_answers I h1 h2 h3 e1
  obtain ⟨pre', s0', mid', post', q1, q2, q3, q4⟩ := h3.rs e1
  obtain ⟨b1, b2, s3, t3, req, w1, w2, w3⟩ := q4.opened
  have hd := q4.dem
  simp only [dueAt, List.filterMap_nil, requestsOn, List.append_nil] at hd
  rw [q3]
  rw [h3.target] at hk ⊢
  obtain ⟨ms, hms⟩ := I.reach d'.inst
  refine asked_request hms (ht _) w1 w2 w3 q1 rfl q4.calm ?_ hk
  rw [hd]
  intro hn
  rcases A.asked with h | h
  · rw [hi] at h; cases h
  · rw [hn] at h; cases h


variable {dest host guest i pre mid post s0 s p src inst start d} {y : UInt32} {v : Nat}

/-- C124: the source is never asked for more than one of the amounts the subscriber has requested, and once all is settled
and the stream goes on, it has been asked for exactly one of them. -/
theorem C124_single_partial (h : meshDemand dest host guest i pre s0 p src mid inst start post s d y v) :
    ∃ n ∈ demands (s0.inst i).b.objs.length (s.inst i).trB, (asks v (s.inst d.inst).trB).sum ≤ n ∧
      (meshSettled s i (s0.inst i).b.objs.length d.inst v y → (asks v (s.inst d.inst).trB).sum = n) := by
  have I := meshRun_run h.stream.whole
  obtain ⟨l, hl, rfl, hx, htar, rfl⟩ := h.passed
  obtain ⟨r, d', h1, h2, h3⟩ := I.each l hl
  obtain ⟨e1, e2, e3⟩ := stream_payload h.stream (h.tidy _) h1 (h3.request.symm.trans hx)
  have A := link_answers I h1 h2 h3 e1
  have := h2.dest
  have hd := h.target
  unfold goesTo at hd
  rw [e1, e3, hd] at this
  cases this
  obtain ⟨pre', s0', mid', post', q1, q2, q3, q4⟩ := h3.rs e1
  have hdem := q4.dem
  simp only [dueAt, List.filterMap_nil, requestsOn, List.append_nil] at hdem
  -- the caller's module
  obtain ⟨ms, hms⟩ := I.reach l.caller
  obtain ⟨pre2, mid2, post2, hw⟩ := guest_stream h.stream
  have hbA : bothEnds (swapSys (s.inst l.caller)) (s0.inst l.caller).b.objs.length l.answer l.request := by
    refine ⟨?_, ?_⟩
    · obtain ⟨req, f, c, i, sub, w1, w2⟩ := wasm_object hw
      exact ⟨req, f, c, i, sub, w1, w2.trans hx.symm⟩
    · obtain ⟨out, b, inp, w⟩ := A.object
      exact ⟨_, _, _, _, .inl rfl, w⟩
  obtain ⟨n, n1, n2, n3, -⟩ := once_asked _ _ _ _ (runSys_swap hms) (swap_tidy (h.tidy _)) _ _ _ hbA h.fits q4.once A.object
  -- the other module
  obtain ⟨ms', hms'⟩ := I.reach d.inst
  have hbB : bothEnds (s.inst d.inst) s0'.a.objs.length v l.id := by
    refine ⟨?_, ?_⟩
    · obtain ⟨req, f, c, i, sub, w1, w2⟩ := wasm_object q1
      exact ⟨req, f, c, i, sub, w1, w2.trans q3.symm⟩
    · obtain ⟨out, b, inp, w⟩ := h.served
      exact ⟨_, _, _, _, .inl rfl, w⟩
  have hsB : sensibleDemands (s.inst d.inst) s0'.a.objs.length := by
    unfold sensibleDemands
    rw [hdem]
    exact A.range
  refine ⟨n, n1, ?_, fun hs => ?_⟩
  · have := C100_bound_partial .host _ _ _ _ hms' (h.tidy _) _ _ _ hbB hsB h.polite.once
    rw [hdem] at this
    exact Int.le_trans this n2
  · have hset : demandSettled (s.inst d.inst) s0'.a.objs.length v := by
      refine ⟨hs.wire', by rw [hs.hostIdle']; rfl, by rw [hs.guestIdle']; simp, ?_, ?_⟩
      · obtain ⟨j', req, first, input, sub, w1, w2⟩ := hs.goesOn'
        obtain ⟨x', hr⟩ := overRsocket hms'
        have hJ := joined_run _ hr.run
        obtain ⟨req2, f, c, i, sub2, w3, w4⟩ := wasm_object q1
        rw [← hr.alike.a] at w1 w3 ⊢
        have hu := hJ.usesA (hr.tidy (h.tidy _)) l.id
        rw [uses_parts] at hu
        have : j' = s0'.a.objs.length := index_unique (p := fun o : Obj => decide (o.key.2 = l.id)) (by omega) w1
          (by simp [Obj.key, Obj.sid, w2]) w3 (by simp [Obj.key, Obj.sid, w4, q3])
        subst this
        exact ⟨_, _, _, _, w1⟩
      · obtain ⟨f, st, b, inp, w1, w2⟩ := hs.ready
        exact ⟨_, _, _, _, _, _, w1, w2⟩
    have hex := C100_exact_partial _ _ _ _ hms' (h.tidy _) h.prompt _ _ _ hbB hsB h.polite hset (.inl h.served)
    rw [hex, hdem]
    refine Int.le_antisymm n2 ?_
    obtain ⟨f, rc, u1, u2, u3⟩ := A.frame
    have hn := n3 f rc u1 u2
    have hm : n ∈ asks l.answer (s.inst l.caller).trA := by
      rcases A.asked with h | h
      · rw [hs.hostIdle] at h; cases h
      · rw [← hn, u3]; exact h
    obtain ⟨a, b, hab⟩ := List.append_of_mem hm
    have ha : 0 ≤ a.sum := sum_nonneg_int fun z hz => (A.range z (by rw [hab]; simp [hz])).1
    have hb : 0 ≤ b.sum := sum_nonneg_int fun z hz => (A.range z (by rw [hab]; simp [hz])).1
    rw [hab, List.sum_append, List.sum_cons]
    omega

/-- C124: the source is never asked for more than the subscriber has requested. -/
theorem C124_bound_partial (h : meshDemand dest host guest i pre s0 p src mid inst start post s d y v) :
    (asks v (s.inst d.inst).trB).sum ≤ (demands (s0.inst i).b.objs.length (s.inst i).trB).sum := by
  obtain ⟨n, h1, h2, -⟩ := C124_single_partial h
  obtain ⟨a, b, hab⟩ := List.append_of_mem h1
  have hf := h.fits
  rw [hab] at hf ⊢
  have ha : 0 ≤ a.sum := sum_nonneg_int fun z hz => (hf z (by simp [hz])).1
  have hb : 0 ≤ b.sum := sum_nonneg_int fun z hz => (hf z (by simp [hz])).1
  rw [List.sum_append, List.sum_cons]
  omega

end

/-! ## Example -/

/-- As in the example of C123, but the guest of module 1 requests one element and, when it has come, two more. -/
def post124 : List MMove :=
  [.other 1 (.atB (.run 0 ret121)), .other 1 (.toA noReact), .forward 1 0,
   .other 1 (.atA (.run 0 ⟨.created, .created, false⟩)),
   .other 0 (.atA (.run 0 ⟨.created, .created, false⟩)), .other 0 (.toB noReact), .other 0 (.atB (.run 0 ret121)),
   .other 0 (.atB (.run 0 ret121)), .other 0 (.atB (.out 0 (.onSubscribe true))), .other 0 (.atB (.run 0 ret121)),
   .other 0 (.atB (.out 0 (.next ⟨[7], [8]⟩))), .other 0 (.toA noReact), .other 1 (.toB noReact),
   .other 1 (.atB (.fluxCall 0 (.request 2))), .other 1 (.atB (.run 0 ret121)), .other 1 (.toA noReact)]

def end124 : MSys (Option Mesh.Dest) :=
  meshAfter (MeshSystem.run id hosts123 guests123 ([] ++ .other 1 (.atB (.call .rs ⟨[5], eightZeros ++ [6]⟩ .created)) ::
    [] ++ .other 1 (.atB (.subscribeFlux 0 ⟨true, true, true, true, true, false⟩ [.request 1])) :: post124))

theorem hyps124 : meshDemand id hosts123 guests123 1 [] (.init hosts123 guests123) ⟨[5], eightZeros ++ [6]⟩ .created []
    ⟨true, true, true, true, true, false⟩ [.request 1] post124 end124 ⟨0, 0⟩ 2 0 := by
  refine ⟨⟨rfl, by simp, rfl⟩, rfl, ?_, ⟨⟨1, 1, 0, 0, 2, some 0⟩, .head _, rfl, rfl, rfl, rfl⟩, ⟨_, _, _, rfl⟩,
    by decide +kernel, promptGuest_of (by decide +kernel), politeOn_of (by decide +kernel) (by decide +kernel)⟩
  intro k
  match k with
  | 0 => exact tidy_few (by decide +kernel) (by decide +kernel) (by decide +kernel) (by decide +kernel)
  | 1 => exact tidy_few (by decide +kernel) (by decide +kernel) (by decide +kernel) (by decide +kernel)
  | k + 2 =>
    have h1 : (end124.inst (k + 2)).histA = [] := rfl
    have h2 : (end124.inst (k + 2)).histB = [] := rfl
    exact tidy_few (by rw [h1]; decide) (by rw [h2]; decide) (by rw [h1]; decide) (by rw [h2]; decide)

theorem settled124 : meshSettled end124 1 0 0 0 2 :=
  ⟨rfl, rfl, rfl, ⟨_, _, _, _, rfl⟩, rfl, rfl, rfl, ⟨0, _, _, _, _, rfl, rfl⟩, ⟨_, _, _, _, rfl, rfl⟩⟩

/-- The source is asked for the first amount only. -/
theorem C124_lost_violated : asks 0 (end124.inst 0).trB = [1] ∧ demands 0 (end124.inst 1).trB = [1, 2] := by decide +kernel

theorem C124_violated : ¬ C124_statement (Option Mesh.Dest) := by
  intro h
  have := (h _ _ _ _ _ _ _ _ _ _ _ _ _ _ _ _ hyps124).2 settled124
  have e : ((MSys.init hosts123 guests123).inst 1).b.objs.length = 0 := rfl
  rw [e, C124_lost_violated.1, C124_lost_violated.2] at this
  revert this; decide

/-- The hypotheses of the last theorem of C123 are met, too. -/
example : passedAs end124 1 1 0 2 ∧ (end124.inst 1).a.tasks = [] ∧ (end124.inst 0).a.tasks = [] ∧
    requestSent (end124.inst 0) 2 :=
  ⟨hyps124.passed, rfl, rfl, C123_sent _ _ _ _ _ _ _ _ _ _ _ _ _ hyps124.stream hyps124.tidy 0 2 hyps124.passed rfl rfl⟩

end
end Verif.Props
