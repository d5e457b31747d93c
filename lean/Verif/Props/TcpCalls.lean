import Verif.Props.TcpSystem
import Verif.Props.Isolation
import Verif.Props.SystemFnf
import Verif.Props.SystemStreams
/-
Property C111: calls and streams over TCP, down to the bytes.
-/
set_option autoImplicit false
namespace Verif.Props
open Verif Frames Handler
open Verif.Invoke (Kind Registry)

section
variable {H : Type}

/-! ## Specification

Two ends are run over TCP (`TcpSystem.run`): bytes are carried in pieces of any size, the receivers read when they want. After
`pre`, end A calls an operation with payload `p`, things go on (`mid`), A subscribes to what the call returned, and things
go on (`post`). The call is stream number `t0.a.objs.length` of A and has the id `callId t0.a`. -/

/-- A request/response call. -/
def tcpCall (regA regB : Registry H) (client : Bool) (pre : List TcpSystem.Move) (t0 : TcpSystem.Sys H) (p : Pay) (src : Src)
    (mid : List TcpSystem.Move) (inst : Mono.Installed) (post : List TcpSystem.Move) (t : TcpSystem.Sys H) : Prop :=
  TcpSystem.run regA regB client pre = .ok t0 ∧
  TcpSystem.run regA regB client (pre ++ .atA (.call .rr p src) :: mid ++
    .atA (.subscribeMono t0.a.objs.length inst) :: post) = .ok t

/-- A fire-and-forget call. -/
def tcpFnf (regA regB : Registry H) (client : Bool) (pre : List TcpSystem.Move) (t0 : TcpSystem.Sys H) (p : Pay) (src : Src)
    (post : List TcpSystem.Move) (t : TcpSystem.Sys H) : Prop :=
  TcpSystem.run regA regB client pre = .ok t0 ∧
  TcpSystem.run regA regB client (pre ++ .atA (.call .fnf p src) :: post) = .ok t

/-- A stream or channel, subscribed to once, by a subscriber that begins with the calls `start`. -/
structure tcpStream (regA regB : Registry H) (client : Bool) (pre : List TcpSystem.Move) (t0 : TcpSystem.Sys H) (k : Kind)
    (p : Pay) (src : Src) (mid : List TcpSystem.Move) (inst : Flux.Installed) (start : List Flux.Call)
    (post : List TcpSystem.Move) (t : TcpSystem.Sys H) : Prop where
  kind : k = .rs ∨ k = .rc
  before : TcpSystem.run regA regB client pre = .ok t0
  once : ∀ inst start, .atA (.subscribeFlux t0.a.objs.length inst start) ∉ mid
  whole : TcpSystem.run regA regB client (pre ++ .atA (.call k p src) :: mid ++
    .atA (.subscribeFlux t0.a.objs.length inst start) :: post) = .ok t

/-- No end makes 2^30 calls, and no call is subscribed to twice (then ids are reused, C108). -/
structure TcpTidy (t : TcpSystem.Sys H) : Prop where
  callsA : callCount t.histA < 2 ^ 30
  callsB : callCount t.histB < 2 ^ 30
  onceA : subscribedOnce t.histA
  onceB : subscribedOnce t.histB

/-- Nothing of the request `x` is under way: as many frames were handed over as sent, and B's goroutine for it has
run. -/
def tcpSettled (t : TcpSystem.Sys H) (x : UInt32) : Prop :=
  (handedOver t.histB).length = (sentFrames t.trA).length ∧ (handedOver t.histA).length = (sentFrames t.trB).length ∧
  ∀ k data md n, .request k x data md n ∉ t.b.tasks

/-- C111 for the answer of a call: the callbacks see nothing, or what the peer's application has answered to this very
call; and if nothing is under way any more, they have seen it. -/
def callAnswered (regB : Registry H) (client : Bool) (t0 t : TcpSystem.Sys H) (p : Pay) (inst : Mono.Installed) : Prop :=
  (monoEvs t0.a.objs.length t.trA = [] ∨
    ∃ sig, Handled regB (!client) (callId t0.a) p t.histB (some sig) ∧
      monoEvs t0.a.objs.length t.trA = outcome 0 inst [overWire sig]) ∧
  (tcpSettled t (callId t0.a) →
    ∃ r, Handled regB (!client) (callId t0.a) p t.histB r ∧
      monoEvs t0.a.objs.length t.trA = outcome 0 inst (r.map overWire).toList)

/-- The same for a stream: what the subscriber sees is the beginning of what the peer's application has said, in order and
without a gap; if nothing is under way any more, the subscriber has asked for something, and has not cancelled, it is all of it. -/
def streamAnswered (regB : Registry H) (client : Bool) (t0 t : TcpSystem.Sys H) (k : Kind) (p : Pay)
    (inst : Flux.Installed) : Prop :=
  (fluxSignals (fluxEvs t0.a.objs.length t.trA) = [] ∨
    ∃ r, Streamed regB (!client) k (callId t0.a) p t.histB r ∧ ∃ seen, seen <+: cutAtEnd r ∧
      fluxSignals (fluxEvs t0.a.objs.length t.trA) = (seen.map sigOverWire).flatMap (sigCalls inst)) ∧
  ((∃ f, f.streamID = callId t0.a ∧ .request f ∈ sentFrames t.trA) → .cancelled ∉ fluxEvs t0.a.objs.length t.trA →
    tcpSettled t (callId t0.a) →
    ∃ r, Streamed regB (!client) k (callId t0.a) p t.histB r ∧
      fluxCallbacks (fluxEvs t0.a.objs.length t.trA) = ((cutAtEnd r).map sigOverWire).flatMap (sigCallbacks inst))

/-- What the peer does with the request: nothing yet, or exactly one thing, rejecting it or invoking the operation it names,
once, with the payload of the call; if nothing is under way any more and the request was sent, it has. -/
def requestServed (callsB : List (Invoke.Call H)) (k : Kind) (t0 t : TcpSystem.Sys H) (p : Pay) : Prop :=
  let done := (verdicts t.trB).filter fun v => decide (v.id = callId t0.a)
  (done = [] ∨ done = [verdict callsB k (callId t0.a) p.data p.metadata]) ∧
  (tcpSettled t (callId t0.a) → (∃ f, f.streamID = callId t0.a ∧ .request f ∈ sentFrames t.trA) →
    done = [verdict callsB k (callId t0.a) p.data p.metadata])

/-! ## From bytes to frames -/

theorem callCount_seen (as : List Act) : callCount (as.map seenAct) = callCount as := by
  induction as with
  | nil => rfl
  | cons a as ih => cases a <;> simp_all [callCount, seenAct]

theorem subscriptionsTo_seen (j : Nat) (as : List Act) : subscriptionsTo j (as.map seenAct) = subscriptionsTo j as := by
  unfold subscriptionsTo
  rw [List.countP_map]
  congr 1
  funext a
  cases a <;> rfl

theorem answerSigs_seen (i : Nat) (as : List Act) : answerSigs i (as.map seenAct) = answerSigs i as := by
  unfold answerSigs
  rw [List.filterMap_map]
  congr 1
  funext a
  cases a <;> rfl

theorem outSigs_seen (i : Nat) (as : List Act) : outSigs i (as.map seenAct) = outSigs i as := by
  unfold outSigs
  rw [List.flatMap_map]
  congr 1
  funext a
  cases a <;> rfl

theorem runFrom_seen (as : List Act) (ho : ∀ f ∈ handedOver as, Ordinary f) (s : St H) :
    Handler.runFrom s (as.map seenAct) = Handler.runFrom s as := by
  induction as generalizing s with
  | nil => rfl
  | cons a as ih =>
    have h1 : handedOver (a :: as) = handedOver [a] ++ handedOver as := handedOver_append [a] as
    rw [h1] at ho
    have h2 := step_seen (fun f hf => ho f (List.mem_append_left _ hf)) s
    have h3 := fun s => ih (fun f hf => ho f (List.mem_append_right _ hf)) s
    simp only [List.map_cons, Handler.runFrom, h2, h3]

theorem run_seen {reg : Registry H} {client : Bool} {as : List Act} (ho : ∀ f ∈ handedOver as, Ordinary f) :
    Handler.run reg client (as.map seenAct) = Handler.run reg client as := runFrom_seen as ho _

theorem ranAt_seen {reg : Registry H} {client : Bool} {as as1 as2 : List Act} {t : Nat} {ret : Ret} {s1 : St H}
    {t1 : List (Handler.Ev H)} {k : Kind} {id : UInt32} {data md : Bytes} {n : UInt32}
    (ho : ∀ f ∈ handedOver as, Ordinary f) (h : RanAt reg client as as1 as2 t ret s1 t1 k id data md n) :
    RanAt reg client (as.map seenAct) (as1.map seenAct) (as2.map seenAct) t ret s1 t1 k id data md n := by
  have hs := h.split
  refine ⟨by rw [hs, List.map_append, List.map_cons]; rfl, ?_, h.task⟩
  rw [run_seen]
  · exact h.before
  · intro f hf
    refine ho f ?_
    rw [hs, handedOver_append]
    exact List.mem_append_left _ hf

theorem handled_seen {reg : Registry H} {client : Bool} {x : UInt32} {p : Pay} {as : List Act}
    {r : Option (Mono.Sig Pay)} (ho : ∀ f ∈ handedOver as, Ordinary f) (h : Handled reg client x p as r) :
    Handled reg client x p (as.map seenAct) r := by
  cases h with
  | rejected as1 as2 t ret s1 t1 n ran bad => exact .rejected _ _ t ret s1 t1 n (ranAt_seen ho ran) bad
  | served as1 as2 t ret s1 t1 n ran good =>
    rw [← answerSigs_seen]
    exact .served _ _ t ret s1 t1 n (ranAt_seen ho ran) good

theorem streamed_seen {reg : Registry H} {client : Bool} {k : Kind} {x : UInt32} {p : Pay} {as : List Act}
    {r : List StreamSig} (ho : ∀ f ∈ handedOver as, Ordinary f) (h : Streamed reg client k x p as r) :
    Streamed reg client k x p (as.map seenAct) r := by
  cases h with
  | rejected as1 as2 t ret s1 t1 n ran bad => exact .rejected _ _ t ret s1 t1 n (ranAt_seen ho ran) bad
  | waiting as1 as2 t ret s1 t1 n ran good s tr n' now task =>
    exact .waiting _ _ t ret s1 t1 n (ranAt_seen ho ran) good s tr n' (by rw [run_seen ho]; exact now) task
  | served as1 as2 t ret s1 t1 n ran good as3 as4 t' ret' s3 t3 n' split before task =>
    rw [← outSigs_seen]
    refine .served _ _ t ret s1 t1 n (ranAt_seen ho ran) good (as3.map seenAct) _ t' ret' s3 t3 n'
      (by rw [split, List.map_append, List.map_cons]; rfl) ?_ task
    rw [← before, ← run_seen (as := as1 ++ .run t ret :: as3), List.map_append, List.map_cons]
    · rfl
    · intro f hf
      refine ho f ?_
      rw [ran.split, split, show as1 ++ .run t ret :: (as3 ++ .run t' ret' :: as4) =
        (as1 ++ .run t ret :: as3) ++ .run t' ret' :: as4 by simp, handedOver_append]
      exact List.mem_append_left _ hf

/-- The same frames, tasks and subscriptions. -/
structure Matches (regA regB : Registry H) (client : Bool) (t : TcpSystem.Sys H) (s : System.Sys H) : Prop where
  joined : Joined regA regB client s
  same : SameSys t s

section
variable {regA regB : Registry H} {client : Bool} {t : TcpSystem.Sys H} {s : System.Sys H}

theorem Matches.ordinary (h : Matches regA regB client t s) : ∀ f ∈ handedOver s.histB, Ordinary f := fun f hf =>
  ((connection_frames h.joined).1 f (by rw [h.joined.ab]; exact List.mem_append_left _ hf)).1

theorem Matches.tidy (h : Matches regA regB client t s) (ht : TcpTidy t) : Tidy s := by
  obtain ⟨h1, h2, h3, h4⟩ := ht
  rw [h.same.histA] at h1 h3
  rw [h.same.histB] at h2 h4
  rw [callCount_seen] at h1 h2
  exact ⟨h1, h2, fun j => subscriptionsTo_seen j s.histA ▸ h3 j, fun j => subscriptionsTo_seen j s.histB ▸ h4 j⟩

theorem Matches.settled (h : Matches regA regB client t s) {x : UInt32} (hx : tcpSettled t x) : settled s x := by
  obtain ⟨h1, h2, h3⟩ := hx
  rw [h.same.histB, handedOver_seen, h.same.trA, h.joined.ab] at h1
  rw [h.same.histA, handedOver_seen, h.same.trB, h.joined.ba] at h2
  simp only [List.length_map, List.length_append] at h1 h2
  exact ⟨List.eq_nil_of_length_eq_zero (by omega), List.eq_nil_of_length_eq_zero (by omega), by rw [← h.same.b]; exact h3⟩

theorem Matches.handled (h : Matches regA regB client t s) {x : UInt32} {p : Pay} {r : Option (Mono.Sig Pay)}
    (hh : Handled regB (!client) x p s.histB r) : Handled regB (!client) x p t.histB r := by
  rw [h.same.histB]; exact handled_seen h.ordinary hh

theorem Matches.streamed (h : Matches regA regB client t s) {k : Kind} {x : UInt32} {p : Pay} {r : List StreamSig}
    (hh : Streamed regB (!client) k x p s.histB r) : Streamed regB (!client) k x p t.histB r := by
  rw [h.same.histB]; exact streamed_seen h.ordinary hh

end

/-- A move of an end is the same move if frames are handed over. -/
theorem same_own {regA regB : Registry H} {client : Bool} {t t' : TcpSystem.Sys H} {s : System.Sys H} (act : Act)
    (hn : System.isFrame act = false)
    (hm : Matches regA regB client t s) (ha : below4G t'.trA)
    (h : TcpSystem.step t (.atA act) = .ok t') :
    ∃ s', System.step s (.atA act) = .ok s' ∧ Matches regA regB client t' s' := by
  simp only [TcpSystem.step, hn, Bool.false_eq_true, if_false] at h
  obtain ⟨h1, h2⟩ := seenAct_notFrame (act := act) (by simp [hn])
  rw [← h1] at h
  obtain ⟨s', h3, h5, h4⟩ := same_moveA hm.joined (by rw [h2]; rfl) hm.same ha h
  exact ⟨s', by simp only [System.step, hn, Bool.false_eq_true, if_false, h3], h5, h4⟩

/-- Any moves, and what end A does by itself in them. -/
theorem same_moves {regA regB : Registry H} {client : Bool} {ms : List TcpSystem.Move} {t t' : TcpSystem.Sys H}
    {s : System.Sys H} (hm : Matches regA regB client t s) (ha : below4G t'.trA) (hb : below4G t'.trB)
    (h : TcpSystem.runFrom t ms = .ok t') :
    ∃ ms' s', System.runFrom s ms' = .ok s' ∧ Matches regA regB client t' s' ∧ ∀ act, .atA act ∈ ms' → .atA act ∈ ms := by
  obtain ⟨ms', s', h1, h2, h3⟩ := same_run_own ms hm.joined hm.same ha hb h
  exact ⟨ms', s', h1, ⟨joined_runFrom ms' hm.joined h1, h2⟩, h3⟩

theorem tcp_append_ok (ms : List TcpSystem.Move) : ∀ {t v : TcpSystem.Sys H} {l : List TcpSystem.Move},
    TcpSystem.runFrom t (ms ++ l) = .ok v → ∃ u, TcpSystem.runFrom t ms = .ok u ∧ TcpSystem.runFrom u l = .ok v := by
  induction ms with
  | nil => intro t v l h; exact ⟨t, rfl, h⟩
  | cons m ms ih =>
    intro t v l h
    obtain ⟨u, h1, h2⟩ := bind_ok_inv h
    obtain ⟨w, h3, h4⟩ := ih h2
    exact ⟨w, by simp only [TcpSystem.runFrom, h1, Go.bind_ok]; exact h3, h4⟩

/-- A call and what follows it. -/
theorem tcp_called {regA regB : Registry H} {client : Bool} {pre rest : List TcpSystem.Move} {t0 t : TcpSystem.Sys H}
    {act : Act} (hn : System.isFrame act = false) (h0 : TcpSystem.run regA regB client pre = .ok t0)
    (h : TcpSystem.run regA regB client (pre ++ .atA act :: rest) = .ok t) (ha : below4G t.trA) (hb : below4G t.trB) :
    ∃ pre' s0 s1 t1, System.run regA regB client pre' = .ok s0 ∧ Matches regA regB client t0 s0 ∧
      System.step s0 (.atA act) = .ok s1 ∧ Matches regA regB client t1 s1 ∧ TcpSystem.runFrom t1 rest = .ok t := by
  obtain ⟨u, h1, h2⟩ := tcp_append_ok pre h
  rw [show TcpSystem.runFrom _ pre = .ok t0 from h0] at h1
  cases h1
  have hg := tcp_run_grows _ h2
  have hm0 : Matches regA regB client (.init regA regB client) (System.Sys.init regA regB client) :=
    ⟨joined_run [] rfl, same_init _ _ _⟩
  obtain ⟨pre', s0, e1, e2, -⟩ := same_moves hm0 (below4G_prefix hg.1 ha) (below4G_prefix hg.2 hb) h0
  obtain ⟨t1, h3, h4⟩ := bind_ok_inv h2
  have hg1 := tcp_run_grows _ h4
  obtain ⟨s1, e3, e4⟩ := same_own act hn e2 (below4G_prefix hg1.1 ha) h3
  exact ⟨pre', s0, s1, t1, e1, e2, e3, e4, h4⟩

theorem run_parts {regA regB : Registry H} {client : Bool} {pre : List System.Move} {s0 s1 s : System.Sys H} {m : System.Move}
    {l : List System.Move} (h0 : System.run regA regB client pre = .ok s0) (h1 : System.step s0 m = .ok s1)
    (h2 : System.runFrom s1 l = .ok s) : System.run regA regB client (pre ++ m :: l) = .ok s := by
  unfold System.run at h0 ⊢
  rw [system_runFrom_append, h0]
  simp only [System.runFrom, h1]
  exact h2

/-- A call over TCP is one in which frames are handed over. -/
theorem tcpCall_same {regA regB : Registry H} {client : Bool} {pre mid post : List TcpSystem.Move} {t0 t : TcpSystem.Sys H}
    {p : Pay} {src : Src} {inst : Mono.Installed} (h : tcpCall regA regB client pre t0 p src mid inst post t)
    (ha : below4G t.trA) (hb : below4G t.trB) :
    ∃ pre' s0 mid' post' s, callRun regA regB client pre' s0 p src mid' inst post' s ∧
      Matches regA regB client t0 s0 ∧ Matches regA regB client t s := by
  obtain ⟨h0, h⟩ := h
  rw [List.append_assoc, List.cons_append] at h
  obtain ⟨pre', s0, s1, t1, e1, e2, e3, e4, h4⟩ := tcp_called rfl h0 h ha hb
  obtain ⟨u, h5, h6⟩ := tcp_append_ok mid h4
  obtain ⟨v, h7, h8⟩ := bind_ok_inv h6
  have g7 := tcp_run_grows (.atA (.subscribeMono t0.a.objs.length inst) :: post) h6
  have g8 := tcp_run_grows _ h8
  obtain ⟨mid', s2, e5, e6, -⟩ := same_moves e4 (below4G_prefix g7.1 ha) (below4G_prefix g7.2 hb) h5
  obtain ⟨s3, e7, e8⟩ := same_own _ rfl e6 (below4G_prefix g8.1 ha) h7
  obtain ⟨post', s, e9, e10, -⟩ := same_moves e8 ha hb h8
  refine ⟨pre', s0, mid', post', s, ⟨e1, ?_⟩, e2, e10⟩
  rw [List.append_assoc, List.cons_append]
  refine run_parts e1 e3 ?_
  rw [system_runFrom_append, e5]
  show System.runFrom s2 _ = _
  simp only [System.runFrom, ← e2.same.a, e7]
  exact e9

theorem tcpFnf_same {regA regB : Registry H} {client : Bool} {pre post : List TcpSystem.Move} {t0 t : TcpSystem.Sys H}
    {p : Pay} {src : Src} (h : tcpFnf regA regB client pre t0 p src post t) (ha : below4G t.trA) (hb : below4G t.trB) :
    ∃ pre' s0 post' s, fnfRun regA regB client pre' s0 p src post' s ∧
      Matches regA regB client t0 s0 ∧ Matches regA regB client t s := by
  obtain ⟨pre', s0, s1, t1, e1, e2, e3, e4, h4⟩ := tcp_called rfl h.1 h.2 ha hb
  obtain ⟨post', s, e9, e10, -⟩ := same_moves e4 ha hb h4
  exact ⟨pre', s0, post', s, ⟨e1, run_parts e1 e3 e9⟩, e2, e10⟩

theorem tcpStream_same {regA regB : Registry H} {client : Bool} {pre mid post : List TcpSystem.Move} {t0 t : TcpSystem.Sys H}
    {k : Kind} {p : Pay} {src : Src} {inst : Flux.Installed} {start : List Flux.Call}
    (h : tcpStream regA regB client pre t0 k p src mid inst start post t) (ha : below4G t.trA) (hb : below4G t.trB) :
    ∃ pre' s0 mid' post' s, streamRun regA regB client pre' s0 k p src mid' inst start post' s ∧
      Matches regA regB client t0 s0 ∧ Matches regA regB client t s := by
  obtain ⟨hk, h0, ho, h⟩ := h
  rw [List.append_assoc, List.cons_append] at h
  obtain ⟨pre', s0, s1, t1, e1, e2, e3, e4, h4⟩ := tcp_called rfl h0 h ha hb
  obtain ⟨u, h5, h6⟩ := tcp_append_ok mid h4
  obtain ⟨v, h7, h8⟩ := bind_ok_inv h6
  have g7 := tcp_run_grows (.atA (.subscribeFlux t0.a.objs.length inst start) :: post) h6
  have g8 := tcp_run_grows _ h8
  obtain ⟨mid', s2, e5, e6, f6⟩ := same_moves e4 (below4G_prefix g7.1 ha) (below4G_prefix g7.2 hb) h5
  obtain ⟨s3, e7, e8⟩ := same_own _ rfl e6 (below4G_prefix g8.1 ha) h7
  obtain ⟨post', s, e9, e10, -⟩ := same_moves e8 ha hb h8
  refine ⟨pre', s0, mid', post', s, ⟨hk, e1, ?_, ?_⟩, e2, e10⟩
  · intro i st hm
    exact ho i st (by rw [e2.same.a]; exact f6 _ hm)
  · rw [List.append_assoc, List.cons_append]
    refine run_parts e1 e3 ?_
    rw [system_runFrom_append, e5]
    show System.runFrom s2 _ = _
    simp only [System.runFrom, ← e2.same.a, e7]
    exact e9

/-! ## C111 -/

/-- C111: the callbacks of a call see what the peer's application has answered to it, however TCP cuts the bytes into
pieces. -/
theorem C111_call_partial (regA regB : Registry H) (client : Bool) (pre mid post : List TcpSystem.Move)
    (t0 t : TcpSystem.Sys H) (p : Pay) (src : Src) (inst : Mono.Installed)
    (h : tcpCall regA regB client pre t0 p src mid inst post t) (ht : TcpTidy t) (ha : below4G t.trA) (hb : below4G t.trB) :
    callAnswered regB client t0 t p inst := by
  obtain ⟨pre', s0, mid', post', s, hr, m0, m⟩ := tcpCall_same h ha hb
  unfold callAnswered
  rw [m0.same.a, m.same.trA]
  refine ⟨?_, fun hs => ?_⟩
  · rcases C87_answer _ _ _ _ _ _ _ _ _ _ _ hr (m.tidy ht) with h1 | ⟨sig, h1, h2⟩
    · exact .inl h1
    · exact .inr ⟨sig, m.handled h1, h2⟩
  · obtain ⟨r, h1, h2⟩ := C87_completes _ _ _ _ _ _ _ _ _ _ _ hr (m.tidy ht) (m.settled hs)
    exact ⟨r, m.handled h1, h2⟩

/-- C111: the peer serves a call once, with the payload of the call. -/
theorem C111_invoked_partial (regA : Registry H) (callsB : List (Invoke.Call H)) (hc : fewCalls callsB) (client : Bool)
    (pre mid post : List TcpSystem.Move) (t0 t : TcpSystem.Sys H) (p : Pay) (src : Src) (inst : Mono.Installed)
    (h : tcpCall regA (Invoke.run Registry.init callsB) client pre t0 p src mid inst post t) (ht : TcpTidy t)
    (ha : below4G t.trA) (hb : below4G t.trB) : requestServed callsB .rr t0 t p := by
  obtain ⟨pre', s0, mid', post', s, hr, m0, m⟩ := tcpCall_same h ha hb
  have := C87_invoked _ _ hc _ _ _ _ _ _ _ _ _ hr (m.tidy ht)
  unfold requestServed
  rw [m0.same.a, m.same.trB]
  exact ⟨this.1, fun hs _ => this.2 (m.settled hs)⟩

/-- C111: the same for fire-and-forget. -/
theorem C111_fnf_partial (regA : Registry H) (callsB : List (Invoke.Call H)) (hc : fewCalls callsB) (client : Bool)
    (pre post : List TcpSystem.Move) (t0 t : TcpSystem.Sys H) (p : Pay) (src : Src)
    (h : tcpFnf regA (Invoke.run Registry.init callsB) client pre t0 p src post t) (ht : TcpTidy t)
    (ha : below4G t.trA) (hb : below4G t.trB) : requestServed callsB .fnf t0 t p := by
  obtain ⟨pre', s0, post', s, hr, m0, m⟩ := tcpFnf_same h ha hb
  have := C92_invoked _ _ hc _ _ _ _ _ _ _ hr (m.tidy ht)
  unfold requestServed
  rw [m0.same.a, m.same.trB]
  exact ⟨this.1, fun hs _ => this.2 (m.settled hs)⟩

/-- C111: the subscriber of a stream sees what the peer's application has said. The same for a channel whose input the peer
has not cancelled. -/
theorem C111_stream_partial (regA regB : Registry H) (client : Bool) (pre mid post : List TcpSystem.Move)
    (t0 t : TcpSystem.Sys H) (k : Kind) (p : Pay) (src : Src) (inst : Flux.Installed) (start : List Flux.Call)
    (h : tcpStream regA regB client pre t0 k p src mid inst start post t) (ht : TcpTidy t) (ha : below4G t.trA)
    (hb : below4G t.trB) (hin : k = .rc → .cancel ⟨callId t0.a⟩ ∉ sentFrames t.trB) :
    streamAnswered regB client t0 t k p inst := by
  obtain ⟨pre', s0, mid', post', s, hr, m0, m⟩ := tcpStream_same h ha hb
  rw [m0.same.a, m.same.trB] at hin
  unfold streamAnswered
  rw [m0.same.a, m.same.trA]
  refine ⟨?_, fun hq hc hs => ?_⟩
  · rcases C91_stream_partial _ _ _ _ _ _ _ _ _ _ _ _ _ hr (m.tidy ht) hin with h1 | ⟨r, h1, h2⟩
    · exact .inl h1
    · exact .inr ⟨r, m.streamed h1, h2⟩
  · obtain ⟨r, h1, h2⟩ := C91_completes_partial _ _ _ _ _ _ _ _ _ _ _ _ _ hr (m.tidy ht) hin hq hc (m.settled hs)
    exact ⟨r, m.streamed h1, h2⟩

/-- C111: the peer serves the request of a stream or channel once, with the payload of the call. -/
theorem C111_stream_invoked_partial (regA : Registry H) (callsB : List (Invoke.Call H)) (hc : fewCalls callsB) (client : Bool)
    (pre mid post : List TcpSystem.Move) (t0 t : TcpSystem.Sys H) (k : Kind) (p : Pay) (src : Src) (inst : Flux.Installed)
    (start : List Flux.Call)
    (h : tcpStream regA (Invoke.run Registry.init callsB) client pre t0 k p src mid inst start post t) (ht : TcpTidy t)
    (ha : below4G t.trA) (hb : below4G t.trB) : requestServed callsB k t0 t p := by
  obtain ⟨pre', s0, mid', post', s, hr, m0, m⟩ := tcpStream_same h ha hb
  have := C91_invoked _ _ hc _ _ _ _ _ _ _ _ _ _ _ hr (m.tidy ht)
  unfold requestServed
  rw [m0.same.a, m.same.trB]
  refine ⟨this.1, fun hs hq => this.2 (m.settled hs) ?_⟩
  rw [m.same.trA] at hq
  exact hq


/-- C111 as stated in English: the same for every size and every channel. -/
def C111_statement (H : Type) : Prop :=
  (∀ (regA regB : Registry H) (client : Bool) (pre mid post : List TcpSystem.Move) (t0 t : TcpSystem.Sys H) (p : Pay)
    (src : Src) (inst : Mono.Installed), tcpCall regA regB client pre t0 p src mid inst post t → TcpTidy t →
    callAnswered regB client t0 t p inst) ∧
  (∀ (regA regB : Registry H) (client : Bool) (pre mid post : List TcpSystem.Move) (t0 t : TcpSystem.Sys H) (k : Kind)
    (p : Pay) (src : Src) (inst : Flux.Installed) (start : List Flux.Call),
    tcpStream regA regB client pre t0 k p src mid inst start post t → TcpTidy t → streamAnswered regB client t0 t k p inst) ∧
  (∀ (regA : Registry H) (callsB : List (Invoke.Call H)), fewCalls callsB →
    ∀ (client : Bool) (pre mid post : List TcpSystem.Move) (t0 t : TcpSystem.Sys H) (p : Pay) (src : Src), TcpTidy t →
    (∀ inst, tcpCall regA (Invoke.run Registry.init callsB) client pre t0 p src mid inst post t →
      requestServed callsB .rr t0 t p) ∧
    (tcpFnf regA (Invoke.run Registry.init callsB) client pre t0 p src post t → requestServed callsB .fnf t0 t p) ∧
    (∀ k inst start, tcpStream regA (Invoke.run Registry.init callsB) client pre t0 k p src mid inst start post t →
      requestServed callsB k t0 t p))

end

/-! ## A payload of 4 GiB -/

/-- A fire-and-forget request of the client for operation 0, its first. -/
def fnf111 (data : Bytes) : AnyFrame := .request ⟨typeRequestFNF, 1, eightZeros, data, false, true, 1⟩

def served111 : Registry Unit := Invoke.run Registry.init oneExport

theorem huge_pack111 (data : Bytes) (h : data.length = 2 ^ 32) :
    TcpConn.pack (fnf111 data) = TcpConn.pack (fnf111 []) := by
  have hs : (fnf111 data).size = (fnf111 []).size := by
    show RequestPayload.size ⟨typeRequestFNF, 1, eightZeros, data, false, true, 1⟩ =
      RequestPayload.size ⟨typeRequestFNF, 1, eightZeros, [], false, true, 1⟩
    simp [RequestPayload.size, hasInitialN, typeRequestFNF, typeRequestStream, typeRequestChannel, eightZeros, h]
  have he : (fnf111 data).encode (List.replicate (fnf111 []).size.toNat 0) =
      (fnf111 []).encode (List.replicate (fnf111 []).size.toNat 0) := by
    show RequestPayload.encode ⟨typeRequestFNF, 1, eightZeros, data, false, true, 1⟩ (List.replicate 17 0) =
      RequestPayload.encode ⟨typeRequestFNF, 1, eightZeros, [], false, true, 1⟩ (List.replicate 17 0)
    have hc : ∃ d, (do
        let c ← putHeader ⟨[], List.replicate 17 0⟩ 1 typeRequestFNF
          (RequestPayload.flags ⟨typeRequestFNF, 1, eightZeros, [], false, true, 1⟩)
        let c ← if hasInitialN typeRequestFNF then c.put (be32 1) else .ok c
        putMetadata c eightZeros) = .ok ⟨d, []⟩ := ⟨_, rfl⟩
    obtain ⟨d, hc⟩ := hc
    have key : ∀ x : Bytes, RequestPayload.encode ⟨typeRequestFNF, 1, eightZeros, x, false, true, 1⟩ (List.replicate 17 0) =
        ((do
        let c ← putHeader ⟨[], List.replicate 17 0⟩ 1 typeRequestFNF
          (RequestPayload.flags ⟨typeRequestFNF, 1, eightZeros, [], false, true, 1⟩)
        let c ← if hasInitialN typeRequestFNF then c.put (be32 1) else .ok c
        putMetadata c eightZeros) >>= fun c => .ok (c.copy x).all) := by
      intro x
      unfold RequestPayload.encode
      rfl
    rw [key, key, hc]
    show Go.ok (Cur.copy ⟨d, []⟩ data).all = Go.ok (Cur.copy ⟨d, []⟩ []).all
    simp [Cur.copy, Cur.all]
  unfold TcpConn.pack
  rw [hs, he]

/-- After the request was sent. -/
def sent111 (data : Bytes) (p : TcpSystem.Pipe) : TcpSystem.Sys Unit :=
  ⟨(call (.init oneHandler true) .fnf ⟨data, eightZeros⟩ .created).1, .init served111 false, p, .init,
    [.call .fnf ⟨data, eightZeros⟩ .created], [], [.sent none (fnf111 data)], []⟩

/-- After it came in. -/
def came111 (data : Bytes) (p : TcpSystem.Pipe) : TcpSystem.Sys Unit :=
  { sent111 data p with
    b := addTasks (.init served111 false) [.request .fnf 1 [] eightZeros 1], histB := [.frame (fnf111 []) noReact] }

/-- Serving it. -/
def ran111 : St Unit × List (Handler.Ev Unit) :=
  match settle (addTasks (.init served111 false) [.request .fnf 1 [] eightZeros 1])
    (Handler.step (addTasks (.init served111 false) [.request .fnf 1 [] eightZeros 1]) (.run 0 retCreated)) with
  | .ok r => r
  | _ => (.init served111 false, [])

/-- After it was served. -/
def done111 (data : Bytes) (p : TcpSystem.Pipe) : TcpSystem.Sys Unit :=
  { sent111 data p with
    b := ran111.1, histB := [.frame (fnf111 []) noReact, .run 0 retCreated], trB := ran111.2 }

theorem huge_sent111 {data : Bytes} {p : TcpSystem.Pipe} (hs : TcpSystem.Pipe.init.send [fnf111 data] = .ok p) :
    TcpSystem.step (.init oneHandler served111 true) (.atA (.call .fnf ⟨data, eightZeros⟩ .created)) =
      .ok (sent111 data p) := by
  show (TcpSystem.Pipe.init.send [fnf111 data] >>= fun ab => _) = _
  rw [hs]
  rfl

theorem huge_came111 {data : Bytes} {q : TcpSystem.Pipe} (hq : q.queue = [fnf111 []]) :
    TcpSystem.step (sent111 data q) (.toB noReact) = .ok (came111 data { q with queue := [] }) := by
  have : (sent111 data q).ab.queue = [fnf111 []] := hq
  simp only [TcpSystem.step, this]
  rfl

theorem huge_run111 (data : Bytes) (q : TcpSystem.Pipe) :
    TcpSystem.step (came111 data q) (.atB (.run 0 retCreated)) = .ok (done111 data q) := by
  rfl

/-- C111 fails: of a payload of 4 GiB the handler gets nothing. -/
theorem C111_huge_violated (data : Bytes) (h : data.length = 2 ^ 32) :
    ∃ post t, tcpFnf oneHandler served111 true [] (.init oneHandler served111 true)
        ⟨data, eightZeros⟩ .created post t ∧ TcpTidy t ∧ verdicts t.trB = [.invoked .fnf () 1 ⟨[], []⟩] := by
  have hf : Fine (fnf111 []) := ⟨⟨.inr (.inl rfl), rfl, fun _ _ => rfl⟩, by decide, by decide⟩
  obtain ⟨p, hp⟩ := send_ok (p := .init) [fnf111 []] (by simpa using hf) (by
    intro ⟨f, h1, h2⟩
    have hf : f = fnf111 [] := by simpa using h1
    rw [hf] at h2
    revert h2
    decide)
  have hs : TcpSystem.Pipe.init.send [fnf111 data] = .ok p := by
    rw [← hp]
    simp only [TcpSystem.Pipe.send, huge_pack111 data h]
  have hp : PipeFits p [fnf111 []] [] [fnf111 []] := pipe_send [fnf111 []] pipe_init (by simpa using hf) hp
  obtain ⟨q, e1, f1⟩ := readB_all [fnf111 []] (t := sent111 data (p.carry p.out.length))
    (fs := [fnf111 []]) (done := []) (pipe_carry hp p.out.length) pipe_carried
  refine ⟨.carryAB p.out.length :: (List.replicate 1 .readB ++ [.toB noReact, .atB (.run 0 retCreated)]),
    done111 data { q with queue := [] }, ⟨rfl, ?_⟩, ⟨by show 1 < 2 ^ 30; omega, by show 0 < 2 ^ 30; omega, fun j => ?_, fun j => ?_⟩, rfl⟩
  · show (TcpSystem.step _ _ >>= fun s => TcpSystem.runFrom s _) = _
    rw [huge_sent111 hs]
    refine tcp_runFrom_append (List.replicate 1 .readB) e1 ?_
    show (TcpSystem.step (sent111 data q) _ >>= fun s => TcpSystem.runFrom s _) = _
    rw [huge_came111 f1.queue]
    simp only [Go.bind_ok, TcpSystem.runFrom, huge_run111]
  · show 0 ≤ 1; omega
  · show 0 ≤ 1; omega

theorem C111_violated : ¬ C111_statement Unit := by
  intro hc
  have hl : (List.replicate (2 ^ 32) (0 : UInt8)).length = 2 ^ 32 := List.length_replicate
  generalize List.replicate (2 ^ 32) (0 : UInt8) = data at hl
  obtain ⟨post, t, h1, h2, h3⟩ := C111_huge_violated data hl
  have := (hc.2.2 oneHandler oneExport (by show 1 < 2 ^ 32; omega) true [] [] post _ t _ _ h2).2.1 h1
  have h4 := this.1
  rw [h3] at h4
  have hv : verdict oneExport .fnf 1 data eightZeros = .invoked .fnf () 1 ⟨data, []⟩ := by
    have h : (exportsOf .fnf oneExport)[opIdOf eightZeros]? = some ([1], [2], ()) := by decide +kernel
    have h' : eightZeros.length = 8 := by decide +kernel
    have h'' : eightZeros.drop 8 = [] := by decide +kernel
    simp only [verdict, h, h', h'']
    rfl
  rcases h4 with h4 | h4
  · cases h4
  · replace h4 : [Verdict.invoked Kind.fnf () 1 ⟨[], []⟩] = [verdict oneExport .fnf 1 data eightZeros] := h4
    rw [hv] at h4
    simp only [List.cons.injEq, Verdict.invoked.injEq, Pay.mk.injEq] at h4
    rw [← h4.1.2.2.2.1] at hl
    cases hl

/-! ## Concrete runs -/

/-- The call of `moves109`, with its answer handled. -/
def post111 : List TcpSystem.Move :=
  [.carryAB 2, .readB, .toB noReact, .carryAB 5, .readB, .carryAB 100, .readB, .toB noReact,
   .atB (.run 0 retCreated), .atB (.answer 0 (.success ⟨[7], []⟩)), .carryBA 100, .readA, .toA noReact]

def end111 : TcpSystem.Sys Unit :=
  tcpAfter (TcpSystem.run oneHandler oneHandler true ([] ++ .atA (.call .rr ⟨[1, 2], eightZeros⟩ .created) :: [] ++
    .atA (.subscribeMono 0 ⟨true, true, true⟩) :: post111))

theorem tcpTidy_of {t : TcpSystem.Sys Unit} (h1 : callCount t.histA < 2 ^ 30) (h2 : callCount t.histB < 2 ^ 30)
    (h3 : t.histA.countP isMonoSub ≤ 1) (h4 : t.histB.countP isMonoSub ≤ 1) : TcpTidy t := by
  have := tidy_of (s := ⟨t.a, t.b, [], [], t.histA, t.histB, t.trA, t.trB⟩) h1 h2 h3 h4
  exact ⟨h1, h2, this.onceA, this.onceB⟩

/-- The hypotheses of C111_call_partial are met, and the caller has seen the answer. -/
example : tcpCall oneHandler oneHandler true [] (.init oneHandler oneHandler true) ⟨[1, 2], eightZeros⟩ .created []
      ⟨true, true, true⟩ post111 end111 ∧ TcpTidy end111 ∧ below4G end111.trA ∧ below4G end111.trB ∧
    monoEvs 0 end111.trA ≠ [] ∧ tcpSettled end111 1 := by
  refine ⟨⟨rfl, tcp_ok (by decide +kernel)⟩,
    tcpTidy_of (by decide +kernel) (by decide +kernel) (by decide +kernel) (by decide +kernel), by unfold below4G; decide +kernel, by unfold below4G; decide +kernel,
    by decide +kernel, by decide +kernel, by decide +kernel, ?_⟩
  have ht : end111.b.tasks = [] := List.eq_nil_of_length_eq_zero (by decide +kernel)
  intro k d m n h
  rw [ht] at h
  cases h

/-- A stream: the request goes over in two pieces, two elements and the end come back in one. -/
def streamed111 : List TcpSystem.Move :=
  [.atA (.run 0 retCreated), .carryAB 4, .readB, .carryAB 99, .readB, .toB noReact, .atB (.run 0 retCreated),
   .atB (.run 0 retCreated), .atB (.run 0 retCreated), .atB (.out 0 (.next ⟨[7], [8]⟩)), .atB (.out 0 (.next ⟨[6], []⟩)),
   .atB (.out 0 .complete), .carryBA 99, .readA, .toA noReact, .readA, .readA, .toA noReact, .toA noReact]

def endStream111 : TcpSystem.Sys Unit :=
  tcpAfter (TcpSystem.run oneHandler oneHandler true ([] ++ .atA (.call .rs ⟨[5], eightZeros⟩ .created) :: [] ++
    .atA (.subscribeFlux 0 ⟨true, true, true, true, true, false⟩ [.request 3]) :: streamed111))

/-- The hypotheses of C111_stream_partial are met, and the subscriber has seen it all. -/
example : tcpStream oneHandler oneHandler true [] (.init oneHandler oneHandler true) .rs ⟨[5], eightZeros⟩ .created []
      ⟨true, true, true, true, true, false⟩ [.request 3] streamed111 endStream111 ∧ TcpTidy endStream111 ∧
    below4G endStream111.trA ∧ below4G endStream111.trB ∧
    fluxCallbacks (fluxEvs 0 endStream111.trA) = [.next ⟨[7], [8]⟩, .next ⟨[6], []⟩, .complete, .fin .complete] ∧
    tcpSettled endStream111 1 := by
  refine ⟨⟨.inl rfl, rfl, (fun _ _ h => by cases h), tcp_ok (by decide +kernel)⟩,
    tcpTidy_of (by decide +kernel) (by decide +kernel) (by decide +kernel) (by decide +kernel),
    by unfold below4G; decide +kernel, by unfold below4G; decide +kernel,
    by decide +kernel, by decide +kernel, by decide +kernel, ?_⟩
  have ht : endStream111.b.tasks = [] := List.eq_nil_of_length_eq_zero (by decide +kernel)
  intro k d m n h
  rw [ht] at h
  cases h

end Verif.Props
