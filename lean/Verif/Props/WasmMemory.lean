import Verif.Props.MeshCalls
import Verif.Props.TcpCalls
import Verif.Props.WasmStreams
import Verif.Props.WasmSystem
/-
Property C127: calls and streams between a host and its guest, down to the bytes in the guest's memory.
-/
set_option autoImplicit false
namespace Verif.Props
open Verif Frames Handler
open Verif.Invoke (Kind Registry)
open Verif.WasmRecv (Side)

section
variable {H : Type}

/-! ## Specification

A call between a host and its guest: the connection has run for a while (`pre`, ending in `t0`); the application of the
side `side` calls; the connection runs on (`mid`); the application subscribes to what the call has returned; and things go
on (`post`). `reg` are the exported operations of both sides. The call is stream number `(endOf side t0).objs.length`
of its side and has the id `callId (endOf side t0)`. -/

/-- One of the two ends. -/
def endOf (side : Side) (t : WasmSystem.Sys H) : St H :=
  match side with
  | .host => t.host
  | .guest => t.guest

/-- What was observed at this end. -/
def seenAt (side : Side) (t : WasmSystem.Sys H) : List (Handler.Ev H) :=
  match side with
  | .host => t.trHost
  | .guest => t.trGuest

/-- The bytes of the frames handed over at this end. -/
def bytesAt (side : Side) (t : WasmSystem.Sys H) : List Bytes :=
  match side with
  | .host => t.atHost
  | .guest => t.atGuest

/-- Something done at this end. -/
def doneBy (side : Side) (a : Act) : WasmSystem.Move :=
  match side with
  | .host => .atHost a
  | .guest => .atGuest a

/-- What the application and the goroutines of this end do. -/
def actBy : Side → WasmSystem.Move → Option Act
  | .host, .atHost a => if System.isFrame a then none else some a
  | .guest, .atGuest a => if System.isFrame a then none else some a
  | _, _ => none

def memRun (mem : WasmSystem.Mem) (reg : Side → Registry H) (ms : List WasmSystem.Move) (t : WasmSystem.Sys H) : Prop :=
  WasmSystem.run mem (reg .host) (reg .guest) ms = .ok t

/-- The moves of the run described above. -/
def memCall (side : Side) (j : Nat) (pre : List WasmSystem.Move) (p : Pay) (src : Src) (mid : List WasmSystem.Move)
    (inst : Mono.Installed) (post : List WasmSystem.Move) : List WasmSystem.Move :=
  pre ++ doneBy side (.call .rr p src) :: mid ++ doneBy side (.subscribeMono j inst) :: post

/-- The same with a fire-and-forget call, which has nothing to subscribe to. -/
def memFnf (side : Side) (pre : List WasmSystem.Move) (p : Pay) (src : Src) (post : List WasmSystem.Move) :
    List WasmSystem.Move :=
  pre ++ doneBy side (.call .fnf p src) :: post

/-- The same with a stream or channel; the subscriber begins with the calls `start`. -/
def memStream (side : Side) (j : Nat) (pre : List WasmSystem.Move) (k : Kind) (p : Pay) (src : Src)
    (mid : List WasmSystem.Move) (inst : Flux.Installed) (start : List Flux.Call) (post : List WasmSystem.Move) :
    List WasmSystem.Move :=
  pre ++ doneBy side (.call k p src) :: mid ++ doneBy side (.subscribeFlux j inst start) :: post

/-- Each side makes less than 2^30 calls (the ids would begin anew) and no application subscribes twice to the mono of
a call. -/
def memTidy (ms : List WasmSystem.Move) : Prop :=
  ∀ side, callCount (ms.filterMap (actBy side)) < 2 ^ 30 ∧ subscribedOnce (ms.filterMap (actBy side))

/-- `as` is what has happened at this end, in order: what its application and its goroutines did, and the frames handed over,
which are those of the bytes that came in. -/
structure HistoryAt (reg : Side → Registry H) (side : Side) (ms : List WasmSystem.Move) (t : WasmSystem.Sys H)
    (as : List Act) : Prop where
  run : Wasm.run side (reg side) as = .ok (endOf side t, seenAt side t)
  acts : as.filter (fun a => !System.isFrame a) = ms.filterMap (actBy side)
  frames : (handedOver as).map frameWire = bytesAt side t

/-- Nothing of the request `x` of the side `side` is under way. -/
def memSettled (side : Side) (t : WasmSystem.Sys H) (x : UInt32) : Prop :=
  t.sendCh = [] ∧ t.recvCh = [] ∧ ∀ k data md n, .request k x data md n ∉ (endOf (Wasm.Side.other side) t).tasks

/-- The callbacks of the call see nothing, or what the other side's application has answered to this very call; and if nothing
is under way any more, they have seen it. -/
def memAnswered (reg : Side → Registry H) (side : Side) (ms : List WasmSystem.Move) (t0 t : WasmSystem.Sys H) (p : Pay)
    (inst : Mono.Installed) : Prop :=
  let seen := monoEvs (endOf side t0).objs.length (seenAt side t)
  let x := callId (endOf side t0)
  ∃ as, HistoryAt reg (Wasm.Side.other side) ms t as ∧
    (seen = [] ∨ ∃ sig, HandledOn (Wasm.Side.other side) (reg (Wasm.Side.other side)) x p as (some sig) ∧
      seen = outcome 0 inst [overWire sig]) ∧
    (memSettled side t x → ∃ r, HandledOn (Wasm.Side.other side) (reg (Wasm.Side.other side)) x p as r ∧
      seen = outcome 0 inst (r.map overWire).toList)

/-- The request was sent. -/
def memSent (side : Side) (t : WasmSystem.Sys H) (x : UInt32) : Prop :=
  ∃ f, f.streamID = x ∧ .request f ∈ sentFrames (seenAt side t)

/-- What the subscriber of the stream sees is the beginning of what the other side's application has said, in order and without a
gap; if nothing is under way any more, the request was sent and the subscriber has not cancelled, it is all of it. -/
def memStreamed (reg : Side → Registry H) (side : Side) (ms : List WasmSystem.Move) (t0 t : WasmSystem.Sys H) (k : Kind)
    (p : Pay) (inst : Flux.Installed) : Prop :=
  let seen := fluxEvs (endOf side t0).objs.length (seenAt side t)
  let x := callId (endOf side t0)
  ∃ as, HistoryAt reg (Wasm.Side.other side) ms t as ∧
    (fluxSignals seen = [] ∨ ∃ r, StreamedOn (Wasm.Side.other side) (reg (Wasm.Side.other side)) k x p as r ∧
      ∃ got, got <+: cutAtEnd r ∧ fluxSignals seen = (got.map sigOverWire).flatMap (sigCalls inst)) ∧
    (memSent side t x → .cancelled ∉ seen → memSettled side t x →
      ∃ r, StreamedOn (Wasm.Side.other side) (reg (Wasm.Side.other side)) k x p as r ∧
        fluxCallbacks seen = ((cutAtEnd r).map sigOverWire).flatMap (sigCallbacks inst))

/-- What the other side does with the request: nothing yet, or exactly one thing, rejecting it or invoking the operation it
names, once, with the payload of the call; if nothing is under way any more and the request was sent, it has. -/
def memServed (calls : Side → List (Invoke.Call H)) (side : Side) (t0 t : WasmSystem.Sys H) (k : Kind) (p : Pay) : Prop :=
  let x := callId (endOf side t0)
  let done := (verdicts (seenAt (Wasm.Side.other side) t)).filter fun v => decide (v.id = x)
  let due := wasmVerdict (Wasm.Side.other side) (calls (Wasm.Side.other side)) k x p.data p.metadata
  (done = [] ∨ done = [due]) ∧ (memSettled side t x → memSent side t x → done = [due])

/-- C127 as stated in English. The input of a channel must not have been cancelled (C99). -/
def C127_statement (H : Type) : Prop :=
  ∀ (mem : WasmSystem.Mem) (calls : Side → List (Invoke.Call H)), (∀ side, fewCalls (calls side)) →
  let reg := fun side => Invoke.run Registry.init (calls side)
  ∀ (side : Side) (pre mid post : List WasmSystem.Move) (t0 t : WasmSystem.Sys H) (p : Pay) (src : Src),
    memRun mem reg pre t0 →
    (∀ inst, memTidy (memCall side (endOf side t0).objs.length pre p src mid inst post) →
      memRun mem reg (memCall side (endOf side t0).objs.length pre p src mid inst post) t →
      memAnswered reg side (memCall side (endOf side t0).objs.length pre p src mid inst post) t0 t p inst ∧
        memServed calls side t0 t .rr p) ∧
    (memTidy (memFnf side pre p src post) → memRun mem reg (memFnf side pre p src post) t →
      memServed calls side t0 t .fnf p) ∧
    (∀ k inst start, (k = .rs ∨ k = .rc) →
      (∀ i c, doneBy side (.subscribeFlux (endOf side t0).objs.length i c) ∉ mid) →
      memTidy (memStream side (endOf side t0).objs.length pre k p src mid inst start post) →
      memRun mem reg (memStream side (endOf side t0).objs.length pre k p src mid inst start post) t →
      memServed calls side t0 t k p ∧
      ((k = .rc → .cancel ⟨callId (endOf side t0)⟩ ∉ sentFrames (seenAt (Wasm.Side.other side) t)) →
        memStreamed reg side (memStream side (endOf side t0).objs.length pre k p src mid inst start post) t0 t k p inst))

/-! ## From memory to frames -/

/-- The move of a connection that hands over frames and whose first end is this side. -/
def sideMove (side : Side) (m : WasmSystem.Move) : System.Move :=
  match side with
  | .host => frameMove m
  | .guest => swapMove (frameMove m)

theorem sideMove_done (side : Side) (a : Act) : sideMove side (doneBy side a) = .atA a := by cases side <;> rfl

/-- What a connection that hands over frames has in common with one through the memory. -/
structure OnSide (reg : Side → Registry H) (side : Side) (ms : List WasmSystem.Move) (t : WasmSystem.Sys H)
    (s : System.Sys H) : Prop where
  run : Wasm.runSys side (reg side) (reg (Wasm.Side.other side)) (ms.map (sideMove side)) = .ok s
  a : endOf side t = s.a
  b : endOf (Wasm.Side.other side) t = s.b
  trA : seenAt side t = s.trA
  trB : seenAt (Wasm.Side.other side) t = s.trB
  quiet : t.sendCh = [] → t.recvCh = [] → s.ab = [] ∧ s.ba = []
  bytes : (handedOver s.histB).map frameWire = bytesAt (Wasm.Side.other side) t

/-- What an end of a connection that hands over frames does. -/
def actA : System.Move → Option Act
  | .atA a => if System.isFrame a then none else some a
  | _ => none

def actB : System.Move → Option Act
  | .atB a => if System.isFrame a then none else some a
  | _ => none

theorem moveA_hist {side : Side} {s s' : System.Sys H} {a : Act} (h : Wasm.moveA side s a = .ok s') :
    s'.histA = s.histA ++ [a] ∧ s'.histB = s.histB := by
  unfold Wasm.moveA at h
  split at h
  · cases h; exact ⟨rfl, rfl⟩
  · cases h
  · cases h

theorem moveB_hist {side : Side} {s s' : System.Sys H} {a : Act} (h : Wasm.moveB side s a = .ok s') :
    s'.histA = s.histA ∧ s'.histB = s.histB ++ [a] := by
  unfold Wasm.moveB at h
  split at h
  · cases h; exact ⟨rfl, rfl⟩
  · cases h
  · cases h

def ownActs (as : List Act) : List Act := as.filter fun a => !System.isFrame a

theorem ownActs_append (a b : List Act) : ownActs (a ++ b) = ownActs a ++ ownActs b := List.filter_append ..

theorem runSys_acts {side : Side} {regA regB : Registry H} (ms : List System.Move) : ∀ {s : System.Sys H},
    Wasm.runSys side regA regB ms = .ok s →
    ownActs s.histA = ms.filterMap actA ∧ ownActs s.histB = ms.filterMap actB := by
  induction ms using snoc_induction with
  | nil => intro s h; cases h; exact ⟨rfl, rfl⟩
  | snoc ms m ih =>
    intro s' h
    obtain ⟨s, h1, h2⟩ := runSys_snoc_inv h
    obtain ⟨i1, i2⟩ := ih h1
    rw [List.filterMap_append, List.filterMap_append, ← i1, ← i2]
    cases m with
    | atA a =>
      simp only [Wasm.stepSys] at h2
      split at h2
      · rename_i hf; cases h2; simp [actA, actB, hf]
      · rename_i hf
        obtain ⟨e1, e2⟩ := moveA_hist h2
        rw [e1, e2, ownActs_append]
        simp [actA, actB, hf, ownActs]
    | atB a =>
      simp only [Wasm.stepSys] at h2
      split at h2
      · rename_i hf; cases h2; simp [actA, actB, hf]
      · rename_i hf
        obtain ⟨e1, e2⟩ := moveB_hist h2
        rw [e1, e2, ownActs_append]
        simp [actA, actB, hf, ownActs]
    | toA r =>
      simp only [Wasm.stepSys] at h2
      split at h2
      · cases h2; simp [actA, actB]
      · obtain ⟨e1, e2⟩ := moveA_hist h2
        rw [e1, e2, ownActs_append]
        simp [actA, actB, ownActs, System.isFrame]
    | toB r =>
      simp only [Wasm.stepSys] at h2
      split at h2
      · cases h2; simp [actA, actB]
      · obtain ⟨e1, e2⟩ := moveB_hist h2
        rw [e1, e2, ownActs_append]
        simp [actA, actB, ownActs, System.isFrame]

theorem actA_sideMove (side : Side) (m : WasmSystem.Move) : actA (sideMove side m) = actBy side m := by
  cases side <;> cases m <;> rfl

theorem actB_sideMove (side : Side) (m : WasmSystem.Move) : actB (sideMove side m) = actBy (Wasm.Side.other side) m := by
  cases side <;> cases m <;> rfl

theorem OnSide.acts {reg : Side → Registry H} {side : Side} {ms : List WasmSystem.Move} {t : WasmSystem.Sys H}
    {s : System.Sys H} (h : OnSide reg side ms t s) :
    ownActs s.histA = ms.filterMap (actBy side) ∧ ownActs s.histB = ms.filterMap (actBy (Wasm.Side.other side)) := by
  obtain ⟨h1, h2⟩ := runSys_acts _ h.run
  rw [List.filterMap_map] at h1 h2
  exact ⟨by rw [h1]; congr 1; funext m; exact actA_sideMove side m,
    by rw [h2]; congr 1; funext m; exact actB_sideMove side m⟩

theorem callCount_own (as : List Act) : callCount (ownActs as) = callCount as := by
  induction as with
  | nil => rfl
  | cons a as ih => unfold ownActs at ih ⊢; cases a <;> simp_all [callCount, System.isFrame]

theorem subscriptionsTo_own (j : Nat) (as : List Act) : subscriptionsTo j (ownActs as) = subscriptionsTo j as := by
  unfold subscriptionsTo ownActs
  rw [List.countP_filter]
  congr 1
  funext a
  cases a <;> simp [System.isFrame, subscribesTo]

theorem OnSide.tidy {reg : Side → Registry H} {side : Side} {ms : List WasmSystem.Move} {t : WasmSystem.Sys H}
    {s : System.Sys H} (h : OnSide reg side ms t s) (ht : memTidy ms) : Tidy s := by
  obtain ⟨h1, h2⟩ := h.acts
  have ha := ht side
  have hb := ht (Wasm.Side.other side)
  rw [← h1, callCount_own] at ha
  rw [← h2, callCount_own] at hb
  exact ⟨ha.1, hb.1, fun j => by rw [← subscriptionsTo_own]; exact ha.2 j,
    fun j => by rw [← subscriptionsTo_own]; exact hb.2 j⟩

theorem OnSide.history {reg : Side → Registry H} {side : Side} {ms : List WasmSystem.Move} {t : WasmSystem.Sys H}
    {s : System.Sys H} (h : OnSide reg side ms t s) : HistoryAt reg (Wasm.Side.other side) ms t s.histB :=
  ⟨by rw [h.b, h.trB]; exact (runSys_ends _ h.run).2, h.acts.2, h.bytes⟩

theorem OnSide.settled {reg : Side → Registry H} {side : Side} {ms : List WasmSystem.Move} {t : WasmSystem.Sys H}
    {s : System.Sys H} (h : OnSide reg side ms t s) {x : UInt32} (hs : memSettled side t x) : settled s x := by
  obtain ⟨h1, h2, h3⟩ := hs
  rw [h.b] at h3
  exact ⟨(h.quiet h1 h2).1, (h.quiet h1 h2).2, h3⟩

/-- Through the memory as with frames. -/
theorem on_side {mem : WasmSystem.Mem} {reg : Side → Registry H} (side : Side) {ms : List WasmSystem.Move}
    {t : WasmSystem.Sys H} (h : memRun mem reg ms t) (hfit : allFit mem t.trHost t.trGuest) :
    ∃ s, OnSide reg side ms t s := by
  obtain ⟨hl, s, h1, h2⟩ := C110_frames_partial mem (reg .host) (reg .guest) ms t h hfit
  obtain ⟨s', o⟩ := overRsocket h1
  have hj := joined_run _ o.run
  have hab : sentFrames s.trA = handedOver s.histB ++ s.ab := by
    have := hj.ab
    rw [o.alike.histB, o.alike.ab, ← wire_eq, ← wire_alike o.alike.trA] at this
    exact this
  have hba : sentFrames s.trB = handedOver s.histA ++ s.ba := by
    have := hj.ba
    rw [o.alike.histA, o.alike.ba, ← wire_eq, ← wire_alike o.alike.trB] at this
    exact this
  have hg : (handedOver s.histB).map frameWire = t.atGuest := by
    have := hl.1
    rw [h2.trHost, hab, h2.sendCh, List.map_append] at this
    exact (List.append_cancel_right this).symm
  have hh : (handedOver s.histA).map frameWire = t.atHost := by
    have := hl.2
    rw [h2.trGuest, hba, h2.recvCh, List.map_append] at this
    exact (List.append_cancel_right this).symm
  have hq : t.sendCh = [] → t.recvCh = [] → s.ab = [] ∧ s.ba = [] := fun e1 e2 => by
    rw [h2.sendCh] at e1
    rw [h2.recvCh, List.map_eq_nil_iff] at e2
    exact ⟨e1, e2⟩
  cases side with
  | host => exact ⟨s, h1, h2.host, h2.guest, h2.trHost, h2.trGuest, hq, hg⟩
  | guest =>
    refine ⟨swapSys s, ?_, h2.guest, h2.host, h2.trGuest, h2.trHost, fun e1 e2 => (hq e1 e2).symm, hh⟩
    have := runSys_swap h1
    rw [List.map_map] at this
    exact this

theorem wasmSystem_run_grows {mem : WasmSystem.Mem} {regH regG : Registry H} (a b : List WasmSystem.Move) :
    ∀ {t0 t : WasmSystem.Sys H}, WasmSystem.run mem regH regG a = .ok t0 →
    WasmSystem.run mem regH regG (a ++ b) = .ok t → t0.trHost <+: t.trHost ∧ t0.trGuest <+: t.trGuest := by
  induction b using snoc_induction with
  | nil =>
    intro t0 t h0 h
    rw [List.append_nil, h0] at h
    cases h
    exact ⟨List.prefix_rfl, List.prefix_rfl⟩
  | snoc b m ih =>
    intro t0 t h0 h
    rw [← List.append_assoc, wasmSystem_snoc] at h
    obtain ⟨u, h1, h2⟩ := bind_ok_inv h
    have hg := wasmSystem_grows h2
    have := ih h0 h1
    exact ⟨this.1.trans hg.1, this.2.trans hg.2⟩

/-- The same for a run and a beginning of it. -/
theorem on_side2 {mem : WasmSystem.Mem} {reg : Side → Registry H} (side : Side) {pre more : List WasmSystem.Move}
    {t0 t : WasmSystem.Sys H} (h0 : memRun mem reg pre t0) (h : memRun mem reg (pre ++ more) t)
    (hfit : allFit mem t.trHost t.trGuest) :
    ∃ s0 s, OnSide reg side pre t0 s0 ∧ OnSide reg side (pre ++ more) t s := by
  have hg := wasmSystem_run_grows _ _ h0 h
  obtain ⟨s0, o0⟩ := on_side side h0 (allFit_prefix hg.1 hg.2 hfit)
  obtain ⟨s, o⟩ := on_side side h hfit
  exact ⟨s0, s, o0, o⟩

section
variable {mem : WasmSystem.Mem} {reg : Side → Registry H} {side : Side} {pre mid post : List WasmSystem.Move}
  {t0 t : WasmSystem.Sys H} {p : Pay} {src : Src}

theorem memCall_frames {inst : Mono.Installed} (h0 : memRun mem reg pre t0)
    (h : memRun mem reg (memCall side (endOf side t0).objs.length pre p src mid inst post) t)
    (hfit : allFit mem t.trHost t.trGuest) :
    ∃ s0 s, OnSide reg side pre t0 s0 ∧
      OnSide reg side (memCall side (endOf side t0).objs.length pre p src mid inst post) t s ∧
      wasmCall side (reg side) (reg (Wasm.Side.other side)) (pre.map (sideMove side)) s0 p src (mid.map (sideMove side)) inst
        (post.map (sideMove side)) s := by
  have h' := h
  unfold memCall at h'
  rw [List.append_assoc] at h'
  obtain ⟨s0, s, o0, o⟩ := on_side2 side h0 h' hfit
  rw [← List.append_assoc] at o
  refine ⟨s0, s, o0, o, o0.run, ?_⟩
  have := o.run
  simp only [List.map_append, List.map_cons, sideMove_done, o0.a] at this
  exact this

theorem memFnf_frames (h0 : memRun mem reg pre t0) (h : memRun mem reg (memFnf side pre p src post) t)
    (hfit : allFit mem t.trHost t.trGuest) :
    ∃ s0 s, OnSide reg side pre t0 s0 ∧ OnSide reg side (memFnf side pre p src post) t s ∧
      wasmFnf side (reg side) (reg (Wasm.Side.other side)) (pre.map (sideMove side)) s0 p src
        (post.map (sideMove side)) s := by
  obtain ⟨s0, s, o0, o⟩ := on_side2 side h0 h hfit
  refine ⟨s0, s, o0, o, o0.run, ?_⟩
  have := o.run
  simp only [List.map_append, List.map_cons, sideMove_done] at this
  exact this

theorem memStream_frames {k : Kind} {inst : Flux.Installed} {start : List Flux.Call} (hk : k = .rs ∨ k = .rc)
    (ho : ∀ i c, doneBy side (.subscribeFlux (endOf side t0).objs.length i c) ∉ mid) (h0 : memRun mem reg pre t0)
    (h : memRun mem reg (memStream side (endOf side t0).objs.length pre k p src mid inst start post) t)
    (hfit : allFit mem t.trHost t.trGuest) :
    ∃ s0 s, OnSide reg side pre t0 s0 ∧
      OnSide reg side (memStream side (endOf side t0).objs.length pre k p src mid inst start post) t s ∧
      wasmStream side (reg side) (reg (Wasm.Side.other side)) (pre.map (sideMove side)) s0 k p src
        (mid.map (sideMove side)) inst start (post.map (sideMove side)) s := by
  have h' := h
  unfold memStream at h'
  rw [List.append_assoc] at h'
  obtain ⟨s0, s, o0, o⟩ := on_side2 side h0 h' hfit
  rw [← List.append_assoc] at o
  refine ⟨s0, s, o0, o, hk, o0.run, ?_, ?_⟩
  · intro i c hm
    obtain ⟨m, h1, h2⟩ := List.mem_map.mp hm
    rw [← o0.a] at h2
    have : m = doneBy side (.subscribeFlux (endOf side t0).objs.length i c) := by
      cases side <;> cases m <;> first | (cases h2; rfl) | cases h2
    exact ho i c (this ▸ h1)
  · have := o.run
    simp only [List.map_append, List.map_cons, sideMove_done, o0.a] at this
    exact this

end

/-! ## C127 -/

/-- C127, partial: the answer of a call. Missing: frames that do not fit in the buffers. -/
theorem C127_call_partial (mem : WasmSystem.Mem) (reg : Side → Registry H) (side : Side) (pre mid post : List WasmSystem.Move)
    (t0 t : WasmSystem.Sys H) (p : Pay) (src : Src) (inst : Mono.Installed) (h0 : memRun mem reg pre t0)
    (ht : memTidy (memCall side (endOf side t0).objs.length pre p src mid inst post))
    (h : memRun mem reg (memCall side (endOf side t0).objs.length pre p src mid inst post) t)
    (hfit : allFit mem t.trHost t.trGuest) :
    memAnswered reg side (memCall side (endOf side t0).objs.length pre p src mid inst post) t0 t p inst := by
  obtain ⟨s0, s, o0, o, hr⟩ := memCall_frames h0 h hfit
  refine ⟨s.histB, o.history, ?_, fun hs => ?_⟩
  · have := C98_answer _ _ _ _ _ _ _ _ _ _ _ hr (o.tidy ht)
    rw [← o0.a, ← o.trA] at this
    exact this
  · have := C98_completes _ _ _ _ _ _ _ _ _ _ _ hr (o.tidy ht) (by rw [← o0.a]; exact o.settled hs)
    rw [← o0.a, ← o.trA] at this
    exact this

/-- C127, partial: what the other side does with a call. -/
theorem C127_invoked_partial (mem : WasmSystem.Mem) (calls : Side → List (Invoke.Call H)) (hc : ∀ side, fewCalls (calls side))
    (side : Side) (pre mid post : List WasmSystem.Move) (t0 t : WasmSystem.Sys H) (p : Pay) (src : Src) (inst : Mono.Installed)
    (h0 : memRun mem (fun side => Invoke.run Registry.init (calls side)) pre t0)
    (ht : memTidy (memCall side (endOf side t0).objs.length pre p src mid inst post))
    (h : memRun mem (fun side => Invoke.run Registry.init (calls side))
      (memCall side (endOf side t0).objs.length pre p src mid inst post) t)
    (hfit : allFit mem t.trHost t.trGuest) : memServed calls side t0 t .rr p := by
  obtain ⟨s0, s, o0, o, hr⟩ := memCall_frames h0 h hfit
  have := C98_invoked _ _ _ (hc _) _ _ _ _ _ _ _ _ hr (o.tidy ht)
  unfold memServed
  rw [o0.a, o.trB]
  exact ⟨this.1, fun hs _ => this.2 (o.settled hs)⟩

/-- C127, partial: the same for fire-and-forget. -/
theorem C127_fnf_partial (mem : WasmSystem.Mem) (calls : Side → List (Invoke.Call H)) (hc : ∀ side, fewCalls (calls side))
    (side : Side) (pre post : List WasmSystem.Move) (t0 t : WasmSystem.Sys H) (p : Pay) (src : Src)
    (h0 : memRun mem (fun side => Invoke.run Registry.init (calls side)) pre t0)
    (ht : memTidy (memFnf side pre p src post))
    (h : memRun mem (fun side => Invoke.run Registry.init (calls side)) (memFnf side pre p src post) t)
    (hfit : allFit mem t.trHost t.trGuest) : memServed calls side t0 t .fnf p := by
  obtain ⟨s0, s, o0, o, hr⟩ := memFnf_frames h0 h hfit
  have := C98_fnf _ _ _ (hc _) _ _ _ _ _ _ hr (o.tidy ht)
  unfold memServed
  rw [o0.a, o.trB]
  exact ⟨this.1, fun hs _ => this.2 (o.settled hs)⟩

/-- C127, partial: what the subscriber of a stream sees. The same for a channel whose input the other side has not
cancelled. -/
theorem C127_stream_partial (mem : WasmSystem.Mem) (reg : Side → Registry H) (side : Side)
    (pre mid post : List WasmSystem.Move) (t0 t : WasmSystem.Sys H) (k : Kind) (p : Pay) (src : Src) (inst : Flux.Installed)
    (start : List Flux.Call) (hk : k = .rs ∨ k = .rc)
    (ho : ∀ i c, doneBy side (.subscribeFlux (endOf side t0).objs.length i c) ∉ mid) (h0 : memRun mem reg pre t0)
    (ht : memTidy (memStream side (endOf side t0).objs.length pre k p src mid inst start post))
    (h : memRun mem reg (memStream side (endOf side t0).objs.length pre k p src mid inst start post) t)
    (hfit : allFit mem t.trHost t.trGuest)
    (hin : k = .rc → .cancel ⟨callId (endOf side t0)⟩ ∉ sentFrames (seenAt (Wasm.Side.other side) t)) :
    memStreamed reg side (memStream side (endOf side t0).objs.length pre k p src mid inst start post) t0 t k p inst := by
  obtain ⟨s0, s, o0, o, hr⟩ := memStream_frames hk ho h0 h hfit
  rw [o0.a, o.trB] at hin
  refine ⟨s.histB, o.history, ?_, fun hq hc hs => ?_⟩
  · have := C99_stream _ _ _ _ _ _ _ _ _ _ _ _ _ hr (o.tidy ht) hin
    rw [← o0.a, ← o.trA] at this
    exact this
  · unfold memSent at hq
    rw [o0.a, o.trA] at hq hc
    have := C99_completes _ _ _ _ _ _ _ _ _ _ _ _ _ hr (o.tidy ht) hin hq hc (by rw [← o0.a]; exact o.settled hs)
    rw [← o0.a, ← o.trA] at this
    exact this

/-- C127, partial: what the other side does with the request of a stream or channel. -/
theorem C127_stream_invoked_partial (mem : WasmSystem.Mem) (calls : Side → List (Invoke.Call H))
    (hc : ∀ side, fewCalls (calls side)) (side : Side)
    (pre mid post : List WasmSystem.Move) (t0 t : WasmSystem.Sys H) (k : Kind) (p : Pay) (src : Src) (inst : Flux.Installed)
    (start : List Flux.Call) (hk : k = .rs ∨ k = .rc)
    (ho : ∀ i c, doneBy side (.subscribeFlux (endOf side t0).objs.length i c) ∉ mid)
    (h0 : memRun mem (fun side => Invoke.run Registry.init (calls side)) pre t0)
    (ht : memTidy (memStream side (endOf side t0).objs.length pre k p src mid inst start post))
    (h : memRun mem (fun side => Invoke.run Registry.init (calls side))
      (memStream side (endOf side t0).objs.length pre k p src mid inst start post) t)
    (hfit : allFit mem t.trHost t.trGuest) : memServed calls side t0 t k p := by
  obtain ⟨s0, s, o0, o, hr⟩ := memStream_frames hk ho h0 h hfit
  have := C99_invoked _ _ _ (hc _) _ _ _ _ _ _ _ _ _ _ hr (o.tidy ht)
  unfold memServed
  rw [o0.a, o.trB]
  refine ⟨this.1, fun hs hq => this.2 (o.settled hs) ?_⟩
  unfold memSent at hq
  rw [o.trA] at hq
  exact hq

end

/-! ## Frames that are too large -/

theorem fnf111_wire (d e : Bytes) : frameWire (fnf111 (d ++ e)) = frameWire (fnf111 d) ++ e := by
  simp [frameWire, fnf111, Spec.requestWire, Spec.metadataBlock, eightZeros]

theorem fnf111_length (d : Bytes) : (frameWire (fnf111 d)).length = 17 + d.length := by
  have := fnf111_wire [] d
  rw [List.nil_append] at this
  rw [this, List.length_append]
  rfl

theorem fnf111_proper (d : Bytes) : Proper (fnf111 d) :=
  ⟨⟨.inr (.inl rfl), rfl, fun _ _ => rfl⟩, by show (1 : UInt32).toNat < _; decide⟩

theorem fnf111_truncated (d buf : Bytes) (hb : 17 ≤ buf.length) (hd : buf.length - 17 ≤ d.length) :
    (fnf111 d).encode buf = .ok (frameWire (fnf111 (d.take (buf.length - 17)))) := by
  have h2 : frameWire (fnf111 []) =
      headerBytes 1 typeRequestFNF (RequestPayload.flags ⟨typeRequestFNF, 1, eightZeros, [], false, true, 1⟩) ++
        Spec.metadataBlock eightZeros := by decide +kernel
  show RequestPayload.encode ⟨typeRequestFNF, 1, eightZeros, d, false, true, 1⟩ buf = _
  have hf : RequestPayload.flags ⟨typeRequestFNF, 1, eightZeros, d, false, true, 1⟩ =
    RequestPayload.flags ⟨typeRequestFNF, 1, eightZeros, [], false, true, 1⟩ := rfl
  have h11 : (Spec.metadataBlock eightZeros).length = 11 := by decide
  have hw := fnf111_wire [] (d.take (buf.length - 17))
  rw [List.nil_append] at hw
  rw [hw, h2]
  unfold RequestPayload.encode
  simp only [hf]
  rw [putHeader_ok _ _ _ (by simp; omega)]
  simp only [Go.bind_ok]
  rw [show hasInitialN typeRequestFNF = false from rfl]
  simp only [Bool.false_eq_true, if_false, Go.bind_ok]
  rw [putMetadata_ok (by decide) (by rw [h11]; simp; omega)]
  simp only [Go.bind_ok, h11, Cur.copy, Cur.all, List.nil_append, List.drop_drop, List.length_drop]
  rw [List.drop_eq_nil_of_le (by omega), List.append_nil]

/-- A request of the guest that is one byte too large for the buffer. -/
theorem leak127_send (low high d buf : Bytes) (x : UInt8) (k : Nat) (hd : d.length = k + 1) (hb : buf.length = k + 20)
    (hk : k < 2 ^ 20) : ∃ buf' n, Wasm.guestWrite buf (fnf111 d) = .ok (buf', n) ∧
    Wasm.hostSend (low ++ buf' ++ x :: high) low.length n = ([frameWire (fnf111 (d.take k ++ [x]))], false) := by
  have hs : (fnf111 d).size.toNat = k + 18 := by
    rw [size_eq_length (fnf111_proper d).1 (by show eightZeros.length + d.length + 13 < _; simp [eightZeros]; omega),
      fnf111_length]
    omega
  generalize hsz : (fnf111 d).size = sz at hs
  have he := fnf111_truncated d (buf.drop 3) (by simp; omega) (by simp; omega)
  rw [List.length_drop, hb, show k + 20 - 3 - 17 = k by omega] at he
  have hl : (frameWire (fnf111 (d.take k ++ [x]))).length = sz.toNat := by
    rw [fnf111_length, List.length_append, List.length_take, hd, hs]; simp; omega
  have hz : (sz + 3) = UInt32.ofNat (3 + sz.toNat) := by
    apply UInt32.toNat_inj.mp
    rw [UInt32.toNat_ofNat_lt (by omega), UInt32.toNat_add]
    simp; omega
  have hg := C51_host_splits [frameWire (fnf111 (d.take k ++ [x]))] low high
    (by simp only [List.mem_singleton, forall_eq]; omega)
    (by simp only [List.flatMap_cons, List.flatMap_nil, List.append_nil, framed_len3]; omega)
  simp only [List.flatMap_cons, List.flatMap_nil, List.append_nil, framed_len3, hl] at hg
  refine ⟨be24 sz ++ frameWire (fnf111 (d.take k)), sz + 3, ?_, ?_⟩
  · unfold Wasm.guestWrite
    rw [if_neg (by omega), he, hsz]
    rfl
  · rw [← hg, framed, hl, fnf111_wire, UInt32.ofNat_toNat, hz]
    simp only [List.append_assoc, List.cons_append, List.nil_append]

def retHost : Ret := ⟨.created, .created, false⟩

/-- The host after it has served the request. -/
def host127 (e : Bytes) : St Unit × List (Handler.Ev Unit) :=
  match Wasm.step .host (addTasks (.init served111 false) [.request .fnf 1 e eightZeros 1]) (.run 0 retHost) with
  | .ok x => x
  | _ => (.init served111 false, [])

theorem host127_ok (e : Bytes) :
    Wasm.step .host (addTasks (.init served111 false) [.request .fnf 1 e eightZeros 1]) (.run 0 retHost) =
      .ok (host127 e) := rfl

theorem host127_seen (e : Bytes) : verdicts (host127 e).2 = [.invoked .fnf () 1 ⟨e, eightZeros⟩] := rfl

theorem leak127_step (mem : WasmSystem.Mem) (d : Bytes) :
    WasmSystem.step (.init mem served111 served111) (.atGuest (.call .fnf ⟨d, eightZeros⟩ .created)) =
    WasmSystem.guestSends ⟨.init served111 false, (call (.init served111 true) .fnf ⟨d, eightZeros⟩ .created).1, [], [],
      List.replicate mem.guestSize 0, List.replicate mem.hostSize 0, mem, [], [], [], [.sent none (fnf111 d)]⟩
      [fnf111 d] := by
  have hc : Wasm.step (H := Unit) .guest (.init served111 true) (.call .fnf ⟨d, eightZeros⟩ .created) =
    .ok ((call (.init served111 true) .fnf ⟨d, eightZeros⟩ .created).1, [.sent none (fnf111 d)]) := rfl
  have hg : ∀ t : WasmSystem.Sys Unit, t.guest = .init served111 true →
      WasmSystem.step t (.atGuest (.call .fnf ⟨d, eightZeros⟩ .created)) =
      WasmSystem.guestSends ⟨t.host, (call (.init served111 true) .fnf ⟨d, eightZeros⟩ .created).1, t.sendCh, t.recvCh,
        t.guestBuf, t.hostBuf, t.mem, t.atGuest, t.atHost, t.trHost, t.trGuest ++ [.sent none (fnf111 d)]⟩
        (System.wire [Ev.sent (H := Unit) none (fnf111 d)]) := by
    intro t ht
    simp only [WasmSystem.step]
    rw [if_neg (by simp [System.isFrame]), ht, hc]
    rfl
  exact hg _ rfl

/-- Buffers of 16 KiB, a request of the guest that is one byte too large, and the host serves it. -/
theorem leak127_run (gs : Nat) (low high d : Bytes) (x : UInt8) (k : Nat) (hd : d.length = k + 1) (hk : k < 2 ^ 20) :
    ∃ t, WasmSystem.run ⟨gs, k + 20, low, x :: high⟩ served111 served111
      [.atGuest (.call .fnf ⟨d, eightZeros⟩ .created), .recvLoop noReact, .atHost (.run 0 retHost)] = .ok t ∧
      t.trHost = (host127 (d.take k ++ [x])).2 := by
  have hb : (List.replicate (k + 20) (0 : UInt8)).length = k + 20 := List.length_replicate
  obtain ⟨buf', n, h1, h2⟩ := leak127_send low high d _ x k hd hb hk
  have h3 := recvBytes_frame (n := 2 ^ 24) (fnf111_proper (d.take k ++ [x]))
    (by unfold fitsIn; rw [fnf111_length, List.length_append, List.length_take, hd]; simp; omega)
    (St.init (H := Unit) served111 false) noReact
  generalize d.take k ++ [x] = e at h2 h3 ⊢
  have h4 : ∀ t : WasmSystem.Sys Unit, t.hostBuf = List.replicate (k + 20) 0 → t.mem = ⟨gs, k + 20, low, x :: high⟩ →
      WasmSystem.guestSends t [fnf111 d] =
        .ok { t with hostBuf := buf', recvCh := t.recvCh ++ [frameWire (fnf111 e)] } := by
    intro t e1 e2
    simp only [WasmSystem.guestSends, e1, e2, h1, Go.bind_ok, h2]
    rw [if_neg (by simp)]
  have h5 : ∀ t : WasmSystem.Sys Unit, t.host = .init served111 false → t.recvCh = [frameWire (fnf111 e)] →
      WasmSystem.step t (.recvLoop noReact) =
        .ok { t with host := addTasks (.init served111 false) [.request .fnf 1 e eightZeros 1], recvCh := [],
                     atHost := t.atHost ++ [frameWire (fnf111 e)], sendCh := t.sendCh ++ [], trHost := t.trHost ++ [] } := by
    intro t e1 e2
    simp only [WasmSystem.step, e2, e1, h3]
    rfl
  have h6 : ∀ t : WasmSystem.Sys Unit,
      t.host = addTasks (.init served111 false) [.request .fnf 1 e eightZeros 1] →
      ∃ u, WasmSystem.step t (.atHost (.run 0 retHost)) = .ok u ∧ u.trHost = t.trHost ++ (host127 e).2 := by
    intro t e1
    simp only [WasmSystem.step]
    rw [if_neg (by simp [System.isFrame]), e1, host127_ok]
    exact ⟨_, rfl, rfl⟩
  unfold WasmSystem.run
  simp only [WasmSystem.runFrom, leak127_step]
  rw [h4 _ rfl rfl]
  simp only [Go.bind_ok]
  rw [h5 _ rfl rfl]
  simp only [Go.bind_ok]
  generalize hw : (WasmSystem.Sys.mk (addTasks (.init served111 false) [.request .fnf 1 e eightZeros 1])
    _ _ _ _ _ _ _ _ _ _ : WasmSystem.Sys Unit) = w
  obtain ⟨u, h7, h8⟩ := h6 w (by rw [← hw])
  rw [h7]
  exact ⟨u, rfl, by rw [h8, ← hw]; rfl⟩

/-- C127 fails: the guest calls an operation of the host with so much data that the request is too large for the 16 KiB of the buffer
by one byte. The host invokes the operation with other data: the last byte is the one in the guest's memory behind the
buffer. -/
theorem C127_leak_violated (low high d : Bytes) (x : UInt8) (hd : d.length = 16365) :
    ∃ t, memRun (WasmSystem.newInstance low (x :: high)) (fun _ => Invoke.run Registry.init oneExport)
      (memFnf .guest [] ⟨d, eightZeros⟩ .created [.recvLoop noReact, .atHost (.run 0 retHost)]) t ∧
      verdicts t.trHost = [.invoked .fnf () 1 ⟨d.take 16364 ++ [x], eightZeros⟩] := by
  obtain ⟨t, h1, h2⟩ := leak127_run 16384 low high d x 16364 hd (by decide)
  exact ⟨t, h1, by rw [h2]; rfl⟩

theorem C127_violated : ¬ C127_statement Unit := by
  intro hc
  have hl : (List.replicate 16364 (0 : UInt8)).length = 16364 := List.length_replicate
  generalize List.replicate 16364 (0 : UInt8) = e at hl
  obtain ⟨t, h1, h2⟩ := C127_leak_violated [] [] (e ++ [0]) 1 (by rw [List.length_append, hl]; rfl)
  rw [show List.take 16364 (e ++ [0]) = e by rw [← hl]; simp] at h2
  have ht : memTidy (memFnf .guest [] ⟨e ++ [0], eightZeros⟩ .created
      [.recvLoop noReact, .atHost (.run 0 retHost)]) := by
    intro side
    cases side
    · exact ⟨show 0 < 2 ^ 30 by decide, fun j => Nat.zero_le _⟩
    · exact ⟨show 1 < 2 ^ 30 by decide, fun j => Nat.zero_le _⟩
  have := (hc (WasmSystem.newInstance [] [1]) (fun _ => oneExport) (fun _ => by show 1 < 2 ^ 32; omega) .guest [] []
    [.recvLoop noReact, .atHost (.run 0 retHost)] _ t ⟨e ++ [0], eightZeros⟩ .created rfl).2.1 ht h1
  have := this.1
  have hs : seenAt (Wasm.Side.other .guest) t = t.trHost := rfl
  have hi : callId (endOf .guest (WasmSystem.Sys.init (WasmSystem.newInstance [] [1])
    (Invoke.run Registry.init oneExport) (Invoke.run Registry.init oneExport) : WasmSystem.Sys Unit)) = 1 := rfl
  rw [hs, h2, hi] at this
  have hv : ∀ d, wasmVerdict (Wasm.Side.other .guest) oneExport .fnf 1 d eightZeros = .invoked .fnf () 1 ⟨d, eightZeros⟩ := by
    intro d
    have h : (exportsOf .fnf oneExport)[opIdOf eightZeros]? = some ([1], [2], ()) := by decide +kernel
    have h' : eightZeros.length = 8 := by decide +kernel
    simp only [wasmVerdict, h, h', Wasm.Side.other]
    rfl
  rw [hv] at this
  simp [Verdict.id] at this

/-! ## Concrete runs -/

def calls127 : Side → List (Invoke.Call Unit) := fun _ => [.exp .rr [1] [2] (), .exp .fnf [1] [3] (), .exp .rs [1] [4] ()]

def reg127 : Side → Registry Unit := fun side => Invoke.run Registry.init (calls127 side)

def loopsTo (side : Side) : WasmSystem.Move :=
  match side with
  | .host => .recvLoop noReact
  | .guest => .sendLoop noReact

/-- The other side runs the goroutine of the request and resolves its mono, and the answer comes back. -/
def trip127 (side : Side) : List WasmSystem.Move :=
  [loopsTo (Wasm.Side.other side), doneBy (Wasm.Side.other side) (.run 0 (retOn (Wasm.Side.other side))),
   doneBy (Wasm.Side.other side) (.answer 0 (.success ⟨[7], [8]⟩)), loopsTo side]

/-- The request goes over, the other side serves it, gets an element of its source and the end, and both come back. -/
def streamTrip127 (side : Side) : List WasmSystem.Move :=
  [doneBy side (.run 0 (retOn side)), loopsTo (Wasm.Side.other side),
   doneBy (Wasm.Side.other side) (.run 0 (retOn (Wasm.Side.other side))),
   doneBy (Wasm.Side.other side) (.run 0 (retOn (Wasm.Side.other side))),
   doneBy (Wasm.Side.other side) (.out 0 (.next ⟨[7], []⟩)), doneBy (Wasm.Side.other side) (.out 0 .complete),
   loopsTo side, loopsTo side]

def init127 : WasmSystem.Sys Unit := .init mem110 (reg127 .host) (reg127 .guest)

def after127 (ms : List WasmSystem.Move) : WasmSystem.Sys Unit :=
  match WasmSystem.run mem110 (reg127 .host) (reg127 .guest) ms with
  | .ok t => t
  | _ => init127

theorem after127_run {ms : List WasmSystem.Move}
    (h : (match WasmSystem.run mem110 (reg127 .host) (reg127 .guest) ms with | .ok _ => true | _ => false) = true) :
    memRun mem110 reg127 ms (after127 ms) := by
  unfold memRun after127
  revert h
  cases WasmSystem.run mem110 (reg127 .host) (reg127 .guest) ms with
  | ok t => intro _; rfl
  | err e => intro h; cases h
  | panic => intro h; cases h

def fit127 (t : WasmSystem.Sys Unit) : Bool :=
  (sentFrames t.trHost).all (fun f => decide (3 + (frameWire f).length ≤ 32)) &&
    (sentFrames t.trGuest).all (fun f => decide (3 + (frameWire f).length ≤ 32))

theorem fit127_ok {t : WasmSystem.Sys Unit} (h : fit127 t = true) : allFit mem110 t.trHost t.trGuest := by
  simp only [fit127, Bool.and_eq_true, List.all_eq_true, decide_eq_true_eq] at h
  have key : ∀ f, 3 + (frameWire f).length ≤ 32 → fitsIn 32 f := fun f hf => ⟨hf, by omega⟩
  exact ⟨fun f hf => key f (h.1 f hf), fun f hf => key f (h.2 f hf)⟩

theorem memTidy_of {ms : List WasmSystem.Move}
    (h : ∀ side, callCount (ms.filterMap (actBy side)) < 2 ^ 30 ∧ (ms.filterMap (actBy side)).countP isMonoSub ≤ 1) :
    memTidy ms := by
  intro side
  refine ⟨(h side).1, fun j => ?_⟩
  refine Nat.le_trans (List.countP_mono_left ?_) (h side).2
  intro a _ hs
  cases a <;> first | rfl | cases hs

def call127 (side : Side) : List WasmSystem.Move :=
  memCall side 0 [] ⟨[5], eightZeros⟩ .created [] ⟨true, true, true⟩ (trip127 side)

/-- The hypotheses of `C127_call_partial` and `C127_invoked_partial` are met, whoever calls; the call succeeds. -/
example (side : Side) : memRun mem110 reg127 [] init127 ∧ memTidy (call127 side) ∧
    memRun mem110 reg127 (call127 side) (after127 (call127 side)) ∧
    allFit mem110 (after127 (call127 side)).trHost (after127 (call127 side)).trGuest ∧
    memSettled side (after127 (call127 side)) (callId (endOf side init127)) ∧
    monoEvs 0 (seenAt side (after127 (call127 side))) = [.success 0 ⟨[7], [8]⟩, .fin 0 .complete] := by
  refine ⟨rfl, memTidy_of fun s => ?_, after127_run ?_, fit127_ok ?_, ⟨?_, ?_, ?_⟩, ?_⟩
  · cases side <;> cases s <;> decide +kernel
  · cases side <;> decide +kernel
  · cases side <;> decide +kernel
  · cases side <;> decide +kernel
  · cases side <;> decide +kernel
  · intro k d m n h
    have : ∀ t ∈ (endOf (Wasm.Side.other side) (after127 (call127 side))).tasks, t.isRequest = false := by
      cases side <;> decide +kernel
    cases this _ h
  · cases side <;> decide +kernel

def fnf127 (side : Side) : List WasmSystem.Move :=
  memFnf side [] ⟨[5], eightZeros⟩ .created
    [loopsTo (Wasm.Side.other side), doneBy (Wasm.Side.other side) (.run 0 (retOn (Wasm.Side.other side)))]

/-- Those of `C127_fnf_partial`. -/
example (side : Side) : memTidy (fnf127 side) ∧ memRun mem110 reg127 (fnf127 side) (after127 (fnf127 side)) ∧
    allFit mem110 (after127 (fnf127 side)).trHost (after127 (fnf127 side)).trGuest ∧
    (verdicts (seenAt (Wasm.Side.other side) (after127 (fnf127 side)))).map (fun v => match v with
      | .invoked .fnf () id p => some (id, p)
      | _ => none) =
      [some (callId (endOf side init127), ⟨[5], if side = .host then [] else eightZeros⟩)] := by
  refine ⟨memTidy_of fun s => ?_, after127_run ?_, fit127_ok ?_, ?_⟩
  · cases side <;> cases s <;> decide +kernel
  · cases side <;> decide +kernel
  · cases side <;> decide +kernel
  · cases side <;> decide +kernel

def stream127 (side : Side) : List WasmSystem.Move :=
  memStream side 0 [] .rs ⟨[5], eightZeros⟩ .created [] ⟨true, true, true, true, true, false⟩ [.request 5] (streamTrip127 side)

/-- Those of `C127_stream_partial` and `C127_stream_invoked_partial`; the stream is complete. -/
example (side : Side) : memTidy (stream127 side) ∧ memRun mem110 reg127 (stream127 side) (after127 (stream127 side)) ∧
    allFit mem110 (after127 (stream127 side)).trHost (after127 (stream127 side)).trGuest ∧
    .cancelled ∉ fluxEvs 0 (seenAt side (after127 (stream127 side))) ∧
    memSent side (after127 (stream127 side)) (callId (endOf side init127)) ∧
    memSettled side (after127 (stream127 side)) (callId (endOf side init127)) ∧
    fluxCallbacks (fluxEvs 0 (seenAt side (after127 (stream127 side)))) = [.next ⟨[7], []⟩, .complete, .fin .complete] := by
  refine ⟨memTidy_of fun s => ?_, after127_run ?_, fit127_ok ?_, ?_,
    ⟨⟨typeRequestStream, callId (endOf side init127), eightZeros, [5], false, false, 5⟩, rfl, ?_⟩, ⟨?_, ?_, ?_⟩, ?_⟩
  case refine_8 =>
    intro k d m n h
    have : ∀ t ∈ (endOf (Wasm.Side.other side) (after127 (stream127 side))).tasks, t.isRequest = false := by
      cases side <;> decide +kernel
    cases this _ h
  case refine_1 => cases side <;> cases s <;> decide +kernel
  all_goals cases side <;> decide +kernel

end Verif.Props
