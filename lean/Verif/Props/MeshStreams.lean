import Verif.Props.MeshCalls
/-
Property C123: streams between the modules of a mesh.
-/
set_option autoImplicit false
namespace Verif.Props
open Verif Frames Handler
open Verif.Invoke (Kind Registry getHandler)
open Verif.System (Sys Move)
open Verif.WasmRecv (Side)
open Verif.MeshSystem (MSys Link MMove)

section
variable {H : Type}

/-! ## Specification

As for C121 (`meshCall`), with a stream. The guest installs the callbacks `inst` and calls `start` from inside
OnSubscribe. `fluxEvs` is what it sees. -/

/-- After `pre`, the guest of module `i` calls an import with payload `p`, things go on everywhere (`mid`), it subscribes
to the flux the call returned, for the first time, and things go on (`post`). -/
structure meshStream (dest : H → Option Mesh.Dest) (host guest : Nat → Registry H) (i : Nat) (pre : List MMove) (s0 : MSys H)
    (p : Pay) (src : Src) (mid : List MMove) (inst : Flux.Installed) (start : List Flux.Call) (post : List MMove)
    (s : MSys H) : Prop where
  before : MeshSystem.run dest host guest pre = .ok s0
  once : ∀ inst start, .other i (.atB (.subscribeFlux (s0.inst i).b.objs.length inst start)) ∉ mid
  whole : MeshSystem.run dest host guest (pre ++ .other i (.atB (.call .rs p src)) :: mid ++
    .other i (.atB (.subscribeFlux (s0.inst i).b.objs.length inst start)) :: post) = .ok s

/-- The guest of the module has sent the request `x`: its subscriber has asked for elements. -/
def guestSent (m : Sys H) (x : UInt32) : Prop := ∃ f, f.streamID = x ∧ .request f ∈ System.wire m.trB

/-! ## The flux that answers is subscribed to once -/

/-- What a stream that answers looks like once its flux was subscribed to. -/
def subbed (j : Nat) (o : Obj) (ts : List Task) : Prop :=
  (∃ k id f st b inp, o = .responder k id (some (f, st)) b inp) ∧ ts.countP (isSubTask j) = 0

theorem demandTasks_sub (j : Nat) (l : List (Flux.Ev Pay)) : (demandTasks j l).countP (isSubTask j) = 0 := by
  induction l with
  | nil => rfl
  | cons e l ih => cases e <;> simp_all [demandTasks, isSubTask]

theorem subbed_run {j : Nat} {o o' : Obj} {ts ts' : List Task} {es : List (Handler.Ev H)} (h : CRun j o ts o' ts' es)
    (ho : subbed j o ts) : subbed j o' ts' := by
  induction h with
  | refl => exact ho
  | perm _ _ _ _ _ hp ih => exact ⟨ih.1, by rw [← hp.countP_eq]; exact ih.2⟩
  | step _ _ _ _ _ _ _ hs ih =>
    obtain ⟨⟨k, id, f, st, b, inp, he⟩, hn⟩ := ih
    cases hs with
    | outSub => simp [isSubTask] at hn
    | outFirst => exact ⟨⟨_, _, _, _, _, _, rfl⟩, by simpa [isSubTask] using hn⟩
    | outReq => exact ⟨⟨_, _, _, _, _, _, rfl⟩, by simpa [isSubTask] using hn⟩
    | out => exact ⟨⟨_, _, _, _, _, _, rfl⟩, hn⟩
    | inp => cases he; exact ⟨⟨_, _, _, _, _, _, rfl⟩, by rw [List.countP_append, hn, demandTasks_sub]⟩
    | inpSub => cases he; exact ⟨⟨_, _, _, _, _, _, rfl⟩, by rw [List.countP_append, hn, demandTasks_sub]⟩
    | inpUp => cases he; exact ⟨⟨_, _, _, _, _, _, rfl⟩, by simpa [isSubTask] using hn⟩
    | asked => exact ⟨⟨k, id, f, st, b, inp, he⟩, by rw [List.countP_append, hn]; simp [isSubTask]⟩
    | _ => cases he

theorem one_sub {j : Nat} {o o' : Obj} {ts ts' : List Task} {es : List (Handler.Ev H)} (h : CRun j o ts o' ts' es)
    (ho : ts.countP (isSubTask j) ≤ 1) : ts'.countP (isSubTask j) ≤ 1 := by
  induction h with
  | refl => exact ho
  | perm _ _ _ _ _ hp ih => rw [← hp.countP_eq]; exact ih
  | step _ _ _ _ _ _ _ hs ih =>
    cases hs with
    | outSub =>
      rw [List.countP_append]
      simp only [List.countP_cons, List.countP_nil, isSubTask] at ih ⊢
      simp only [decide_true, if_true, Nat.add_zero, Bool.false_eq_true, if_false] at ih ⊢
      omega
    | outFirst => simpa [isSubTask] using ih
    | outReq => simpa [isSubTask] using ih
    | inp => rw [List.countP_append, demandTasks_sub]; exact ih
    | inpSub => rw [List.countP_append, demandTasks_sub]; exact ih
    | fluxOp => rw [List.countP_append, demandTasks_sub]; exact ih
    | fluxSub => rw [List.countP_append, demandTasks_sub]; exact ih
    | inpUp => simpa [isSubTask] using ih
    | upDone => simpa [isSubTask] using ih
    | upFirst =>
      simp only [List.countP_append, List.countP_cons, isSubTask] at ih ⊢
      split <;> simpa [isSubTask] using ih
    | upLater => simpa [isSubTask] using ih
    | inputSub => simpa [isSubTask] using ih
    | inputReq => simpa [isSubTask] using ih
    | asked => rw [List.countP_append]; simpa [isSubTask] using ih
    | _ => exact ih

theorem countP_tasksOf (j : Nat) (ts : List Task) : (tasksOf j ts).countP (isSubTask j) = ts.countP (isSubTask j) := by
  unfold tasksOf
  rw [List.countP_filter]
  congr 1
  funext t
  cases t <;> simp [isSubTask, Task.obj]

theorem one_sub_history {reg : Registry H} {client : Bool} {as : List Act} {s : St H} {tr : List (Handler.Ev H)}
    (h : Handler.run reg client as = .ok (s, tr)) (j : Nat) : s.tasks.countP (isSubTask j) ≤ 1 := by
  rw [← countP_tasksOf]
  rcases Handler.history reg client as s tr h j with ⟨-, h1, -⟩ | ⟨o0, ts0, es0, o, es, hb, -, hr, -⟩
  · rw [h1]; simp
  · refine one_sub hr ?_
    cases hb <;> simp [isSubTask]

/-- Once the flux of a stream that answers was subscribed to, nothing is left to subscribe to it. -/
theorem sub_once {side : Side} {reg : Registry H} {b1 c1 : List Act} {t : Nat} {ret : Ret} {s1 s : St H} {j : Nat} {f : Src}
    {n : UInt32} {t1 tr : List (Handler.Ev H)} (h1 : Wasm.run side reg b1 = .ok (s1, t1))
    (ht : s1.tasks[t]? = some (.subscribe j f n)) (h : Wasm.run side reg (b1 ++ .run t ret :: c1) = .ok (s, tr))
    (hf : ∀ f ∈ handedOver (b1 ++ .run t ret :: c1), fits f) (f' : Src) (n' : UInt32) : .subscribe j f' n' ∉ s.tasks := by
  intro hm
  have e : b1 ++ .run t ret :: c1 = (b1 ++ [.run t ret]) ++ c1 := by simp
  rw [e] at h hf
  obtain ⟨s2, t2, -, h2, -⟩ := wasm_run_prefix h
  obtain ⟨s1', t1', e1, h1', w, -⟩ := wasm_run_snoc_inv h2
  rw [h1] at h1'
  cases h1'
  have f2 : ∀ f ∈ handedOver (b1 ++ [.run t ret]), fits f := fun f hm => hf f (by
    rw [handedOver_append]; exact List.mem_append_left _ hm)
  have f1 : ∀ f ∈ handedOver b1, fits f := fun f hm => f2 f (by rw [handedOver_append]; exact List.mem_append_left _ hm)
  obtain ⟨r1, q1, -⟩ := run_alike _ h1 f1
  obtain ⟨r2, q2, -⟩ := run_alike _ h2 f2
  obtain ⟨r3, q3, -⟩ := run_alike _ h hf
  have hone := one_sub_history q1 j
  rw [countP_erase (isSubTask j) ht] at hone
  have hz : (s1.tasks.eraseIdx t).countP (isSubTask j) = 0 := by simp [isSubTask] at hone ⊢; exact hone
  simp only [Wasm.step] at w
  split at w
  · cases w
  rw [ht] at w
  simp only [runTask] at w
  split at w
  · rename_i k id out b inp ho
    simp only [onOut] at w
    obtain ⟨es, -, w⟩ := bind_ok_inv w
    cases w
    unfold Handler.run at q2 q3
    rw [handler_runFrom_append, q2] at q3
    obtain ⟨sx, ea, eb, z1, z2, -⟩ := andThen_ok q3
    cases z1
    obtain ⟨o', -, hr⟩ := (loc_runFrom j c1 _ _ _ z2).1
      (.responder k id (some (f, (subscribeSrc f).1)) b inp) (by
        simp only [setObj, addTasks]
        rw [List.getElem?_set_self (List.getElem?_eq_some_iff.mp ho).1])
    have := (subbed_run hr ⟨⟨_, _, _, _, _, _, rfl⟩, by
      rw [countP_tasksOf]
      simp only [setObj, addTasks, List.countP_append, hz]
      simp [isSubTask]⟩).2
    rw [countP_tasksOf, List.countP_eq_zero] at this
    exact this _ hm (by simp [isSubTask])
  · cases w

/-- There is one point in a history at which it was. -/
theorem sub_split {side : Side} {reg : Registry H} {as b1 c1 b2 c2 : List Act} {t t' : Nat} {ret ret' : Ret} {s1 s2 s : St H}
    {j : Nat} {f f' : Src} {n n' : UInt32} {t1 t2 tr : List (Handler.Ev H)} (h : Wasm.run side reg as = .ok (s, tr))
    (hf : ∀ f ∈ handedOver as, fits f) (e1 : as = b1 ++ .run t ret :: c1) (e2 : as = b2 ++ .run t' ret' :: c2)
    (h1 : Wasm.run side reg b1 = .ok (s1, t1)) (k1 : s1.tasks[t]? = some (.subscribe j f n))
    (h2 : Wasm.run side reg b2 = .ok (s2, t2)) (k2 : s2.tasks[t']? = some (.subscribe j f' n')) : c1 = c2 := by
  have key : ∀ (b1 c1 b2 c2 : List Act) (t t' : Nat) (ret ret' : Ret) (s1 s2 : St H) (f f' : Src) (n n' : UInt32)
      (t1 t2 : List (Handler.Ev H)), as = b1 ++ .run t ret :: c1 → as = b2 ++ .run t' ret' :: c2 →
      Wasm.run side reg b1 = .ok (s1, t1) → s1.tasks[t]? = some (.subscribe j f n) →
      Wasm.run side reg b2 = .ok (s2, t2) → s2.tasks[t']? = some (.subscribe j f' n') → ¬ b1.length < b2.length := by
    intro b1 c1 b2 c2 t t' ret ret' s1 s2 f f' n n' t1 t2 e1 e2 h1 k1 h2 k2 hlt
    have hb : ∃ m, b2 = b1 ++ .run t ret :: m := by
      have hp : b1 ++ .run t ret :: c1 = b2 ++ .run t' ret' :: c2 := e1.symm.trans e2
      have h3 : b1 ++ [.run t ret] <+: b2 := by
        refine List.prefix_of_prefix_length_le (l₃ := as) ⟨c1, by rw [e1]; simp⟩ ⟨.run t' ret' :: c2, e2.symm⟩ ?_
        simp; omega
      obtain ⟨m, hm⟩ := h3
      exact ⟨m, by rw [← hm]; simp⟩
    obtain ⟨m, rfl⟩ := hb
    refine sub_once h1 k1 h2 (fun f hm => hf f ?_) f' n' (List.mem_of_getElem? k2)
    rw [e2, handedOver_append]
    exact List.mem_append_left _ hm
  have a := key _ _ _ _ _ _ _ _ _ _ _ _ _ _ _ _ e1 e2 h1 k1 h2 k2
  have b := key _ _ _ _ _ _ _ _ _ _ _ _ _ _ _ _ e2 e1 h2 k2 h1 k1
  have hl : b1.length = b2.length := by omega
  have := List.append_inj (e1.symm.trans e2) hl
  exact (List.cons.inj this.2).2

/-! ## From the mesh to a connection -/

theorem guest_stream {dest : H → Option Mesh.Dest} {host guest : Nat → Registry H} {i : Nat} {pre mid post : List MMove}
    {s0 s : MSys H} {p : Pay} {src : Src} {inst : Flux.Installed} {start : List Flux.Call}
    (h : meshStream dest host guest i pre s0 p src mid inst start post s) :
    ∃ pre' mid' post', wasmStream .guest (guest i) (host i) pre' (swapSys (s0.inst i)) .rs p src mid' inst start post'
      (swapSys (s.inst i)) := by
  obtain ⟨h0, honce, h⟩ := h
  obtain ⟨pre', hp⟩ := (meshRun_run h0).reach i
  obtain ⟨s1, h1, h⟩ := mesh_append _ h
  obtain ⟨s0', h2, h1⟩ := mesh_append _ h1
  rw [show MeshSystem.runFrom dest (.init host guest) pre = .ok s0 from h0] at h2
  cases h2
  simp only [MeshSystem.runFrom] at h h1
  obtain ⟨s2, h2, h1⟩ := bind_ok_inv h1
  obtain ⟨s3, h3, h⟩ := bind_ok_inv h
  obtain ⟨mid', hm, hmid⟩ := moves_runFrom _ h1 i
  obtain ⟨post', hq, -⟩ := moves_runFrom _ h i
  have r1 := step_atB h2
  have r2 := step_atB h3
  refine ⟨pre'.map swapMove, mid'.map swapMove, post'.map swapMove, .inl rfl, runSys_swap hp, fun inst start hin => ?_, ?_⟩
  · obtain ⟨m, hm1, hm2⟩ := List.mem_map.mp hin
    cases m with
    | atB a =>
      cases hm2
      exact honce _ _ (hmid _ hm1)
    | _ => cases hm2
  · have : Wasm.runSys .host (host i) (guest i) (pre' ++ .atB (.call .rs p src) :: mid' ++
        .atB (.subscribeFlux (s0.inst i).b.objs.length inst start) :: post') = .ok (s.inst i) := by
      unfold Wasm.runSys at hp ⊢
      rw [runSysFrom_append, runSysFrom_append, hp]
      simp only [Wasm.runSysFrom, r1, hm, r2, hq]
    have := runSys_swap this
    simp only [List.map_append, List.map_cons, swapMove] at this
    exact this

section
variable {dest : H → Option Mesh.Dest} {host guest : Nat → Registry H} {i : Nat} {pre mid post : List MMove}
    {s0 s : MSys H} {p : Pay} {src : Src} {inst : Flux.Installed} {start : List Flux.Call}

theorem stream_payload (h : meshStream dest host guest i pre s0 p src mid inst start post s) (ht : Tidy (s.inst i))
    {r : RunRec H} (hr : r.on (host i) (s.inst i).histA) (hx : r.id = callId (s0.inst i).b) :
    r.k = .rs ∧ r.data = p.data ∧ r.md = p.metadata := by
  obtain ⟨pre', mid', post', hw⟩ := guest_stream h
  obtain ⟨s0', s', e0, h0, h1⟩ := hw.rsocket
  have c := stream_called h0 (h1.tidy (swap_tidy ht))
  obtain ⟨sv, hsv⟩ := c.grants
  rw [← c.sent, c.joined.ab, withId_append, List.filter_append, e0] at hsv
  have hH := (meshRun_run h.whole).hostAt i
  have hs := hr.split
  have hf1 : ∀ f ∈ handedOver r.as1, fits f := fun f hm => hH.fits f (by
    rw [hs, handedOver_append]; exact List.mem_append_left _ hm)
  obtain ⟨tr', r1, -⟩ := run_alike _ hr.before hf1
  obtain ⟨f, rc, q1, q2, q3, q4, q5⟩ := task_origin _ r1 _ _ _ _ _ (List.mem_of_getElem? hr.task)
  have hmem : (.request f : AnyFrame) ∈ handedOver (s.inst i).histA := by
    rw [hs, handedOver_append]; exact List.mem_append_left _ (handedOver_mem q1)
  have : (.request f : AnyFrame) ∈ (withId (callId (s0.inst i).b) (handedOver s'.histB)).filter isGrant ++
      (withId (callId (s0.inst i).b) s'.ab).filter isGrant :=
    List.mem_append_left _ (List.mem_filter.mpr
      ⟨List.mem_filter.mpr ⟨by rw [h1.alike.histB]; exact hmem, decide_eq_true (q3.trans hx)⟩, rfl⟩)
  rw [show (withId (callId (s0.inst i).b) (handedOver s'.histB)).filter isGrant ++
      (withId (callId (s0.inst i).b) s'.ab).filter isGrant = _ from hsv] at this
  obtain ⟨n, rfl⟩ := grants_request this
  refine ⟨?_, q4.symm, q5.symm⟩
  have : some Kind.rs = some r.k := q2
  exact (Option.some.inj this).symm

/-! ## What the callbacks of the mesh are told -/

theorem sigOverWire_twice (sig : StreamSig) : sigOverWire (sigOverWire sig) = sigOverWire sig := by
  cases sig with
  | error e =>
    cases e with
    | none => rfl
    | some e =>
      have := overWire_twice (.error (some e))
      simp only [overWire, Mono.Sig.error.injEq, Option.some.injEq] at this
      simp only [sigOverWire, this]
  | _ => rfl

theorem ends_overWire (sig : StreamSig) : (sigOverWire sig).ends = sig.ends := by
  cases sig with
  | error e => cases e <;> rfl
  | _ => rfl

theorem cutAtEnd_map (l : List StreamSig) : cutAtEnd (l.map sigOverWire) = (cutAtEnd l).map sigOverWire := by
  induction l with
  | nil => rfl
  | cons x l ih =>
    simp only [List.map_cons, cutAtEnd, ends_overWire]
    split
    · rfl
    · rw [ih]; rfl

theorem cutAtEnd_begun (l : List StreamSig) : ∀ l', l' <+: cutAtEnd l → cutAtEnd l' = l' := by
  induction l with
  | nil => intro l' h; rw [List.prefix_nil.mp h]; rfl
  | cons x l ih =>
    intro l' h
    cases l' with
    | nil => rfl
    | cons y l' =>
      simp only [cutAtEnd] at h
      split at h
      · rename_i hx
        obtain ⟨rfl, h3⟩ := List.cons_prefix_cons.mp h
        rw [List.prefix_nil.mp h3]
        simp [cutAtEnd]
      · rename_i hx
        obtain ⟨rfl, h3⟩ := List.cons_prefix_cons.mp h
        rw [cutAtEnd, if_neg hx, ih l' h3]

theorem told_signals (l : List (Flux.Ev Pay)) : l.filterMap toldSig = (fluxSignals l).filterMap toldSig := by
  induction l with
  | nil => rfl
  | cons e l ih =>
    unfold fluxSignals at ih ⊢
    cases e <;> simp [List.filterMap_cons, toldSig, ih]

theorem told_callbacks (l : List (Flux.Ev Pay)) : l.filterMap toldSig = (fluxCallbacks l).filterMap toldSig := by
  induction l with
  | nil => rfl
  | cons e l ih =>
    unfold fluxCallbacks at ih ⊢
    cases e <;> simp [List.filterMap_cons, toldSig, ih]

theorem told_sigCalls (l : List StreamSig) : (l.flatMap (sigCalls replyInst)).filterMap toldSig = l := by
  induction l with
  | nil => rfl
  | cons e l ih =>
    rw [List.flatMap_cons, List.filterMap_append, ih]
    cases e <;> rfl

theorem told_sigCallbacks (l : List StreamSig) : (l.flatMap (sigCallbacks replyInst)).filterMap toldSig = l := by
  induction l with
  | nil => rfl
  | cons e l ih =>
    rw [List.flatMap_cons, List.filterMap_append, ih]
    cases e <;> rfl

/-- What became of the request in the caller's host, in terms of the call of the mesh. -/
theorem streamed_link (h : meshStream dest host guest i pre s0 p src mid inst start post s) {d : Mesh.Dest}
    (hd : goesTo dest (host i) .rs p.metadata d) {res : List StreamSig}
    (hr : StreamedOn .host (host i) .rs (callId (s0.inst i).b) p (s.inst i).histA res) :
    ∃ y, passedAs s i (callId (s0.inst i).b) d.inst y ∧ ∃ pre' s0' mid' post',
      wasmStream .host (host d.inst) (guest d.inst) pre' s0' .rs (sentPay d p.data p.metadata) .created mid' replyInst [] post'
        (s.inst d.inst) ∧ y = callId s0'.a ∧ .cancelled ∉ fluxEvs s0'.a.objs.length (s.inst d.inst).trA ∧
      res = cutAtEnd ((fluxEvs s0'.a.objs.length (s.inst d.inst).trA).filterMap toldSig) := by
  have I := meshRun_run h.whole
  have hH := I.hostAt i
  have main : ∀ (as1 as2 : List Act) (t : Nat) (ret : Ret) (s1 : St H) (t1 : List (Handler.Ev H)) (n : UInt32)
      (_ : RanOn .host (host i) (s.inst i).histA as1 as2 t ret s1 t1 .rs (callId (s0.inst i).b) p.data p.metadata n),
      ∃ y, passedAs s i (callId (s0.inst i).b) d.inst y ∧ ∃ pre' s0' mid' post',
      wasmStream .host (host d.inst) (guest d.inst) pre' s0' .rs (sentPay d p.data p.metadata) .created mid' replyInst [] post'
        (s.inst d.inst) ∧ y = callId s0'.a ∧ .cancelled ∉ fluxEvs s0'.a.objs.length (s.inst d.inst).trA ∧
      ret = ⟨.created, .created, false⟩ ∧
      ∃ as3 as4 t' ret' s3 t3 n', as2 = as3 ++ .run t' ret' :: as4 ∧
        Wasm.run .host (host i) (as1 ++ .run t ret :: as3) = .ok (s3, t3) ∧
        s3.tasks[t']? = some (.subscribe s1.objs.length .created n') ∧
        outSigs s1.objs.length as4 = (fluxEvs s0'.a.objs.length (s.inst d.inst).trA).filterMap toldSig := by
    intro as1 as2 t ret s1 t1 n ran
    obtain ⟨l, hl⟩ := I.all i ⟨as1, as2, t, ret, s1, t1, .rs, _, p.data, p.metadata, n⟩ d ran
      ⟨fun h => (by cases h), hd⟩ (fun h => h)
    obtain ⟨pre', s0', mid', post', h1, h2, h3, h4⟩ := hl.rs rfl
    obtain ⟨as3, as4, t', ret', s3, t3, n', q1, q2, q3, q4, -⟩ := h4.out
    have e1 := hl.created
    have e2 := hl.answer
    simp only at e1 e2 q1 q2 q3
    subst e1
    refine ⟨l.id, ⟨l, hl.mem, hl.caller, hl.request, hl.target, rfl⟩, pre', s0', mid', post', h1, h3, h4.calm, rfl,
      as3, as4, t', ret', s3, t3, n', q1, q2, q3, ?_⟩
    rw [← q4, e2]
    simp [dueAt, outSigs]
  cases hr with
  | rejected as1 as2 t ret s1 t1 n ran bad => unfold goesTo at hd; rw [bad] at hd; cases hd
  | waiting as1 as2 t ret s1 t1 n ran good s2 tr n' now task =>
    obtain ⟨y, h1, pre', s0', mid', post', h2, h3, h4, h5, as3, as4, t', ret', s3, t3, n', q1, q2, q3, q4⟩ :=
      main as1 as2 t ret s1 t1 n ran
    have e : (s.inst i).histA = (as1 ++ .run t ret :: as3) ++ .run t' ret' :: as4 := by rw [ran.split, q1]; simp
    have hf := hH.fits
    rw [e] at now hf
    exact absurd task (sub_once q2 q3 now hf _ _)
  | served as1 as2 t ret s1 t1 n ran good as3 as4 t' ret' s3 t3 n' split before task =>
    obtain ⟨y, h1, pre', s0', mid', post', h2, h3, h4, rfl, as5, as6, t'', ret'', s5, t5, n'', q1, q2, q3, q4⟩ :=
      main as1 as2 t ret s1 t1 n ran
    refine ⟨y, h1, pre', s0', mid', post', h2, h3, h4, ?_⟩
    have e1 : (s.inst i).histA = (as1 ++ .run t ⟨.created, .created, false⟩ :: as3) ++ .run t' ret' :: as4 := by
      rw [ran.split, split]; simp
    have e2 : (s.inst i).histA = (as1 ++ .run t ⟨.created, .created, false⟩ :: as5) ++ .run t'' ret'' :: as6 := by
      rw [ran.split, q1]; simp
    have := sub_split hH.run hH.fits e1 e2 before task q2 q3
    subst this
    rw [← q4]
    rfl

/-! ## C123 -/

/-- C123: what the subscriber of a stream through the mesh sees, at any point of any run, is the beginning of what the
guest of the module that exports the operation has answered to the request this call was passed on as, in that order and
without gaps. -/
theorem C123_stream (dest : H → Option Mesh.Dest) (host guest : Nat → Registry H) (i : Nat) (pre mid post : List MMove)
    (s0 s : MSys H) (p : Pay) (src : Src) (inst : Flux.Installed) (start : List Flux.Call) (d : Mesh.Dest)
    (h : meshStream dest host guest i pre s0 p src mid inst start post s) (hd : goesTo dest (host i) .rs p.metadata d)
    (ht : ∀ k, Tidy (s.inst k)) :
    fluxSignals (fluxEvs (s0.inst i).b.objs.length (s.inst i).trB) = [] ∨
    ∃ y r, passedAs s i (callId (s0.inst i).b) d.inst y ∧
      StreamedOn .guest (guest d.inst) .rs y ⟨p.data, be32 d.index ++ p.metadata.drop 4⟩ (s.inst d.inst).histB r ∧
      ∃ seen, seen <+: cutAtEnd r ∧ fluxSignals (fluxEvs (s0.inst i).b.objs.length (s.inst i).trB) =
        (seen.map sigOverWire).flatMap (sigCalls inst) := by
  obtain ⟨pre', mid', post', hw⟩ := guest_stream h
  rcases C99_stream .guest _ _ _ _ _ _ _ _ _ _ _ _ hw (swap_tidy (ht i)) (fun hk => by cases hk) with h1 | ⟨r, h1, seen, h2, h3⟩
  · exact .inl h1
  · obtain ⟨y, h4, pre2, s02, mid2, post2, h5, h6, h7, h8⟩ := streamed_link h hd h1
    rcases C99_stream .host _ _ _ _ _ _ _ _ _ _ _ _ h5 (ht d.inst) (fun hk => by cases hk) with h9 | ⟨r', h9, seen', h10, h11⟩
    · left
      rw [told_signals, h9] at h8
      subst h8
      rw [List.prefix_nil.mp h2] at h3
      exact h3
    · right
      rw [told_signals, h11, told_sigCalls, cutAtEnd_map, cutAtEnd_begun _ _ h10] at h8
      rw [h8, cutAtEnd_map, cutAtEnd_begun _ _ h10] at h2
      obtain ⟨more, hm⟩ := h2
      obtain ⟨seen2, more2, e1, e2, e3⟩ := List.map_eq_append_iff.mp hm.symm
      refine ⟨y, r', h4, by rw [h6]; exact h9, seen2, List.IsPrefix.trans ⟨more2, e1.symm⟩ h10, ?_⟩
      rw [← e2, List.map_map, show sigOverWire ∘ sigOverWire = sigOverWire from funext sigOverWire_twice] at h3
      exact h3

/-- C123: once the subscriber has asked for elements and nothing of the call is under way in the caller's module, it was
passed on; and once it was also sent to the other module and nothing of it is under way there, either, a subscriber that
has not cancelled has seen exactly what the guest there has answered, up to the end of the stream. -/
theorem C123_completes (dest : H → Option Mesh.Dest) (host guest : Nat → Registry H) (i : Nat) (pre mid post : List MMove)
    (s0 s : MSys H) (p : Pay) (src : Src) (inst : Flux.Installed) (start : List Flux.Call) (d : Mesh.Dest)
    (h : meshStream dest host guest i pre s0 p src mid inst start post s) (hd : goesTo dest (host i) .rs p.metadata d)
    (ht : ∀ k, Tidy (s.inst k)) (hs : guestSent (s.inst i) (callId (s0.inst i).b))
    (hc : .cancelled ∉ fluxEvs (s0.inst i).b.objs.length (s.inst i).trB) (hq : askedAll (s.inst i) (callId (s0.inst i).b)) :
    ∃ y, passedAs s i (callId (s0.inst i).b) d.inst y ∧
      (settled (s.inst d.inst) y → requestSent (s.inst d.inst) y →
      ∃ r, StreamedOn .guest (guest d.inst) .rs y ⟨p.data, be32 d.index ++ p.metadata.drop 4⟩ (s.inst d.inst).histB r ∧
        fluxCallbacks (fluxEvs (s0.inst i).b.objs.length (s.inst i).trB) =
          ((cutAtEnd r).map sigOverWire).flatMap (sigCallbacks inst)) := by
  obtain ⟨pre', mid', post', hw⟩ := guest_stream h
  obtain ⟨res, h1, h2⟩ := C99_completes .guest _ _ _ _ _ _ _ _ _ _ _ _ hw (swap_tidy (ht i)) (fun hk => by cases hk) hs hc
    ⟨hq.2.1, hq.1, hq.2.2⟩
  obtain ⟨y, h3, pre2, s02, mid2, post2, h4, h5, h6, h7⟩ := streamed_link h hd h1
  refine ⟨y, h3, fun hy hy' => ?_⟩
  rw [h5] at hy hy'
  obtain ⟨r, h8, h9⟩ := C99_completes .host _ _ _ _ _ _ _ _ _ _ _ _ h4 (ht d.inst) (fun hk => by cases hk) hy' h6 hy
  refine ⟨r, by rw [h5]; exact h8, ?_⟩
  rw [told_callbacks, h9, told_sigCallbacks, cutAtEnd_map, cutAtEnd_begun _ _ (List.prefix_refl _)] at h7
  rw [h7, cutAtEnd_map, cutAtEnd_begun _ _ (List.prefix_refl _), List.map_map,
    show sigOverWire ∘ sigOverWire = sigOverWire from funext sigOverWire_twice] at h2
  exact h2

/-- C123: wherever a stream was passed on to, that is the module that exports the operation, and of the request it was
passed on as, the guest there has done nothing yet, or exactly one thing: invoked its operation, once, with the payload of
the call. Once it was sent there and nothing of it is under way there, it has. -/
theorem C123_invoked (dest : H → Option Mesh.Dest) (host : Nat → Registry H) (exports : Nat → List (Invoke.Call H))
    (hc : ∀ k, fewCalls (exports k)) (i : Nat) (pre mid post : List MMove)
    (s0 s : MSys H) (p : Pay) (src : Src) (inst : Flux.Installed) (start : List Flux.Call) (d : Mesh.Dest)
    (h : meshStream dest host (fun k => Invoke.run Registry.init (exports k)) i pre s0 p src mid inst start post s)
    (hd : goesTo dest (host i) .rs p.metadata d) (ht : ∀ k, Tidy (s.inst k)) (k : Nat) (y : UInt32)
    (hy : passedAs s i (callId (s0.inst i).b) k y) :
    k = d.inst ∧
    let done := (verdicts (s.inst k).trB).filter fun v => decide (v.id = y)
    let due := wasmVerdict .guest (exports k) .rs y p.data (be32 d.index ++ p.metadata.drop 4)
    (done = [] ∨ done = [due]) ∧ (settled (s.inst k) y → requestSent (s.inst k) y → done = [due]) := by
  have I := meshRun_run h.whole
  obtain ⟨l, hl, rfl, hx, rfl, rfl⟩ := hy
  obtain ⟨r, d', h1, h2, h3⟩ := I.each l hl
  obtain ⟨e1, e2, e3⟩ := stream_payload h (ht _) h1 (h3.request.symm.trans hx)
  have := h2.dest
  unfold goesTo at hd
  rw [e1, e3, hd] at this
  cases this
  refine ⟨h3.target, ?_⟩
  obtain ⟨pre', s0', mid', post', q1, q2, q3, q4⟩ := h3.rs e1
  rw [h3.target, q3, ← e2, ← e3]
  exact C99_invoked .host _ _ (hc d.inst) _ _ _ _ _ _ _ _ _ _ q1 (ht d.inst)

end

/-! ## Example -/

/-- Module 0 exports the stream `1.2`; module 1 imports it. -/
def imports123 : Nat → List (Invoke.Call (Option Mesh.Dest))
  | 1 => [.exp .rs [1] [2] (some ⟨0, 0⟩)]
  | _ => []

def exports123 : Nat → List (Invoke.Call (Option Mesh.Dest))
  | 0 => [.exp .rs [1] [2] none]
  | _ => []

def hosts123 (k : Nat) : Registry (Option Mesh.Dest) := Invoke.run Registry.init (imports123 k)
def guests123 (k : Nat) : Registry (Option Mesh.Dest) := Invoke.run Registry.init (exports123 k)

/-- The guest of module 1 subscribes and asks for three elements; the request reaches its host, is passed on to the guest of
module 0, which says two elements and ends the stream. -/
def post123 : List MMove :=
  [.other 1 (.atB (.run 0 ret121)), .other 1 (.toA noReact), .forward 1 0,
   .other 1 (.atA (.run 0 ⟨.created, .created, false⟩)),
   .other 0 (.atA (.run 0 ⟨.created, .created, false⟩)), .other 0 (.toB noReact), .other 0 (.atB (.run 0 ret121)),
   .other 0 (.atB (.run 0 ret121)), .other 0 (.atB (.out 0 (.onSubscribe true))), .other 0 (.atB (.run 0 ret121)),
   .other 0 (.atB (.out 0 (.next ⟨[7], [8]⟩))), .other 0 (.toA noReact), .other 1 (.toB noReact),
   .other 0 (.atB (.out 0 (.next ⟨[6], []⟩))), .other 0 (.atB (.out 0 .complete)), .other 0 (.toA noReact),
   .other 0 (.toA noReact), .other 1 (.toB noReact), .other 1 (.toB noReact)]

def end123 : MSys (Option Mesh.Dest) :=
  meshAfter (MeshSystem.run id hosts123 guests123 ([] ++ .other 1 (.atB (.call .rs ⟨[5], eightZeros ++ [6]⟩ .created)) ::
    [] ++ .other 1 (.atB (.subscribeFlux 0 ⟨true, true, true, true, true, false⟩ [.request 3])) :: post123))
/-- The hypotheses of the theorems are met, and the subscriber gets the elements and the end. -/
example : meshStream id hosts123 guests123 1 [] (.init hosts123 guests123) ⟨[5], eightZeros ++ [6]⟩ .created []
      ⟨true, true, true, true, true, false⟩ [.request 3] post123 end123 ∧
    goesTo id (hosts123 1) .rs (eightZeros ++ [6]) ⟨0, 0⟩ ∧ (∀ k, Tidy (end123.inst k)) ∧ (∀ k, fewCalls (exports123 k)) ∧
    guestSent (end123.inst 1) 1 ∧ .cancelled ∉ fluxEvs 0 (end123.inst 1).trB ∧ askedAll (end123.inst 1) 1 ∧
    passedAs end123 1 1 0 2 ∧ settled (end123.inst 0) 2 ∧ requestSent (end123.inst 0) 2 ∧
    fluxCallbacks (fluxEvs 0 (end123.inst 1).trB) = [.next ⟨[7], [8]⟩, .next ⟨[6], []⟩, .complete, .fin .complete] ∧
    verdicts (end123.inst 0).trB = [.invoked .rs none 2 ⟨[5], eightZeros ++ [6]⟩] := by
  refine ⟨⟨rfl, by simp, rfl⟩, rfl, ?_, ?_, ⟨⟨typeRequestStream, 1, eightZeros ++ [6], [5], false, false, 3⟩, rfl, by decide +kernel⟩,
    by decide +kernel, ?_, ⟨⟨1, 1, 0, 0, 2, some 0⟩, .head _, rfl, rfl, rfl, rfl⟩, ?_,
    ⟨⟨typeRequestStream, 2, eightZeros ++ [6], [5], false, false, 3⟩, rfl, by decide +kernel⟩, rfl, rfl⟩
  · intro k
    match k with
    | 0 => exact tidy_few (by decide +kernel) (by decide +kernel) (by decide +kernel) (by decide +kernel)
    | 1 => exact tidy_few (by decide +kernel) (by decide +kernel) (by decide +kernel) (by decide +kernel)
    | k + 2 =>
      have h1 : (end123.inst (k + 2)).histA = [] := rfl
      have h2 : (end123.inst (k + 2)).histB = [] := rfl
      exact tidy_few (by rw [h1]; decide) (by rw [h2]; decide) (by rw [h1]; decide) (by rw [h2]; decide)
  · intro k
    match k with
    | 0 => show 1 < 2 ^ 32; omega
    | k + 1 => show 0 < 2 ^ 32; omega
  · refine ⟨rfl, rfl, fun k data md n h => ?_⟩
    have : (end123.inst 1).a.tasks = [] := rfl
    rw [this] at h; cases h
  · refine ⟨rfl, rfl, fun k data md n h => ?_⟩
    have : (end123.inst 0).b.tasks = [] := rfl
    rw [this] at h; cases h

end
end Verif.Props
