import Verif.Model.GuestFails
import Verif.Props.ConnectionEnd
import Verif.Props.WasmCancel
/-
Property C136 (a guest that fails, and the calls on it).
-/
set_option autoImplicit false
namespace Verif.Props
open Verif Frames Handler
open Verif.Invoke (Kind Registry)
open Verif.GuestFails (Host)

/-! ## The claim -/

/-- All is done: no frame is on its way, no goroutine has anything left to do. -/
def hostIdle {H : Type} (c : Host H) : Prop := c.sendCh = [] ∧ c.recvCh = [] ∧ c.st.tasks = []

/-- C136 in full, for a call or stream with all callbacks that is subscribed once: if the guest failed while it handled the request, then
once all is done the subscriber has been told the result of the call, or the end of the stream. -/
def C136_statement : Prop :=
  ∀ (H : Type) (reg : Registry H) (before after : List GuestFails.Act) (c1 c2 : Host H)
    (t1 t2 : List (Handler.Ev H)) (j : Nat), GuestFails.run reg before = .ok (c1, t1) →
    (∀ req, c1.st.objs[j]? = some (.mono req .init) →
      GuestFails.runFrom c1 (.act (.subscribeMono j ⟨true, true, true⟩) :: after) = .ok (c2, t2) →
      (openedIds (t1 ++ t2)).Nodup → .request req ∈ c2.crashed → hostIdle c2 → monoEvs j t2 ≠ []) ∧
    (∀ req first c input start, c1.st.objs[j]? = some (.flux req first c input none) →
      GuestFails.runFrom c1 (.act (.subscribeFlux j ⟨true, true, true, true, true, false⟩ start) :: after) = .ok (c2, t2) →
      (openedIds (t1 ++ t2)).Nodup → .request req ∈ c2.crashed → hostIdle c2 → Flux.Ev.cancelled ∉ fluxEvs j t2 →
      Flux.Ev.complete ∈ fluxEvs j t2 ∨ ∃ e, Flux.Ev.error e ∈ fluxEvs j t2)

/-- What the host does in a history, the frames it receives included (`q`: those on their way at its beginning). -/
def hostDoings : List AnyFrame → List GuestFails.Act → List Act
  | _, [] => []
  | q, .act a :: as => a :: hostDoings q as
  | q, .guest out _ :: as => hostDoings (q ++ out) as
  | [], .recv _ :: as => hostDoings [] as
  | f :: q, .recv r :: as => .frame f r :: hostDoings q as

/-- What the guest sends in a history. -/
def sentByGuest (as : List GuestFails.Act) : List AnyFrame :=
  as.flatMap fun | .guest out _ => out | _ => []

section
variable {H : Type}

/-! ## Histories -/

/-- From any state, a history over wasm is one over rsocket. -/
theorem runFrom_alike {side : WasmRecv.Side} (as : List Act) : ∀ {s s' : St H} {tr : List (Handler.Ev H)},
    Wasm.runFrom side s as = .ok (s', tr) → (∀ f ∈ handedOver as, fits f) →
    ∃ tr', Handler.runFrom s as = .ok (s', tr') ∧ Alike side tr tr' := by
  induction as with
  | nil => intro s s' tr h _; cases h; exact ⟨_, rfl, .nil⟩
  | cons a as ih =>
    intro s s' tr h hf
    simp only [Wasm.runFrom] at h
    obtain ⟨s1, e1, e2, h1, h2, rfl⟩ := andThen_ok h
    obtain ⟨e1', h3, h4⟩ := step_alike (fun f r hfr => hf f (by subst hfr; simp [handedOver])) h1
    obtain ⟨e2', h5, h6⟩ := ih h2 fun f hm => hf f (by
      rw [← List.singleton_append, handedOver_append]; exact List.mem_append_right _ hm)
    exact ⟨e1' ++ e2', by simp only [Handler.runFrom, h3, andThen, h5], h4.append h6⟩

theorem guest_runFrom (as : List GuestFails.Act) : ∀ (c c' : Host H) (tr : List (Handler.Ev H)),
    GuestFails.runFrom c as = .ok (c', tr) → Wasm.runFrom .host c.st (hostDoings c.recvCh as) = .ok (c'.st, tr) := by
  induction as with
  | nil =>
    intro c c' tr h
    cases h
    simp only [hostDoings, Wasm.runFrom]
  | cons a as ih =>
    intro c c' tr h
    obtain ⟨r, h1, h⟩ := bind_ok_inv h
    obtain ⟨r', h2, h⟩ := bind_ok_inv h
    cases h
    have h2 := ih _ _ _ h2
    cases a with
    | act a =>
      simp only [GuestFails.step] at h1
      split at h1
      · cases h1
      obtain ⟨q, h3, h4⟩ := bind_ok_inv h1
      cases h4
      simp only [hostDoings, Wasm.runFrom, h3, andThen, h2]
    | guest out failed =>
      simp only [GuestFails.step] at h1
      split at h1
      · cases h1
      cases h1
      exact h2
    | recv x =>
      obtain ⟨st, sendCh, recvCh, crashed⟩ := c
      cases recvCh with
      | nil => cases h1
      | cons f fs =>
        obtain ⟨q, h3, h4⟩ := bind_ok_inv h1
        cases h4
        simp only [hostDoings, Wasm.runFrom, h3, andThen, h2]

/-- What is received was on its way, or is sent by the guest. -/
theorem hostDoings_frames (as : List GuestFails.Act) : ∀ (c c' : Host H) (tr : List (Handler.Ev H)),
    GuestFails.runFrom c as = .ok (c', tr) →
    ∀ f r, Act.frame f r ∈ hostDoings c.recvCh as → f ∈ c.recvCh ∨ f ∈ sentByGuest as := by
  induction as with
  | nil => intro c c' tr _ f r h; cases h
  | cons a as ih =>
    intro c c' tr h f r hm
    obtain ⟨q, h1, h⟩ := bind_ok_inv h
    obtain ⟨q', h2, h⟩ := bind_ok_inv h
    cases h
    have h2 := ih _ _ _ h2 f r
    cases a with
    | act a =>
      simp only [GuestFails.step] at h1
      split at h1
      · cases h1
      rename_i hfr
      obtain ⟨p, h3, h4⟩ := bind_ok_inv h1
      cases h4
      rcases List.mem_cons.1 hm with h | h
      · exact absurd (by rw [← h]; rfl) hfr
      · exact h2 h
    | guest out failed =>
      simp only [GuestFails.step] at h1
      split at h1
      · cases h1
      cases h1
      have hg : sentByGuest (.guest out failed :: as) = out ++ sentByGuest as := rfl
      rw [hg, List.mem_append]
      rcases h2 hm with h | h
      · rcases List.mem_append.1 h with h | h
        · exact .inl h
        · exact .inr (.inl h)
      · exact .inr (.inr h)
    | recv x =>
      obtain ⟨st, sendCh, recvCh, crashed⟩ := c
      cases recvCh with
      | nil => cases h1
      | cons g fs =>
        obtain ⟨p, h3, h4⟩ := bind_ok_inv h1
        cases h4
        rcases List.mem_cons.1 hm with h | h
        · cases h; exact .inl List.mem_cons_self
        · rcases h2 h with h | h
          · exact .inl (List.mem_cons_of_mem _ h)
          · exact .inr h

/-- What is on its way at the end was there at the beginning or was sent meanwhile. -/
theorem guest_recvCh (as : List GuestFails.Act) : ∀ (c c' : Host H) (tr : List (Handler.Ev H)),
    GuestFails.runFrom c as = .ok (c', tr) → ∀ f ∈ c'.recvCh, f ∈ c.recvCh ∨ f ∈ sentByGuest as := by
  induction as with
  | nil => intro c c' tr h f hm; cases h; exact .inl hm
  | cons a as ih =>
    intro c c' tr h f hm
    obtain ⟨q, h1, h⟩ := bind_ok_inv h
    obtain ⟨q', h2, h⟩ := bind_ok_inv h
    cases h
    have h2 := ih _ _ _ h2 f hm
    cases a with
    | act a =>
      simp only [GuestFails.step] at h1
      split at h1
      · cases h1
      obtain ⟨p, h3, h4⟩ := bind_ok_inv h1
      cases h4
      exact h2
    | guest out failed =>
      simp only [GuestFails.step] at h1
      split at h1
      · cases h1
      cases h1
      have hg : sentByGuest (.guest out failed :: as) = out ++ sentByGuest as := rfl
      rw [hg, List.mem_append]
      rcases h2 with h | h
      · rcases List.mem_append.1 h with h | h
        · exact .inl h
        · exact .inr (.inl h)
      · exact .inr (.inr h)
    | recv x =>
      obtain ⟨st, sendCh, recvCh, crashed⟩ := c
      cases recvCh with
      | nil => cases h1
      | cons g fs =>
        obtain ⟨p, h3, h4⟩ := bind_ok_inv h1
        cases h4
        rcases h2 with h | h
        · exact .inl (List.mem_cons_of_mem _ h)
        · exact .inr h

/-- Both parts of a history as histories over rsocket. -/
theorem guest_parts {reg : Registry H} {before after : List GuestFails.Act} {c1 c2 : Host H} {t1 t2 : List (Handler.Ev H)}
    (h1 : GuestFails.run reg before = .ok (c1, t1)) (h2 : GuestFails.runFrom c1 after = .ok (c2, t2))
    (hf : ∀ f ∈ sentByGuest (before ++ after), fits f) :
    ∃ t1' t2', Handler.run reg false (hostDoings [] before) = .ok (c1.st, t1') ∧ Alike .host t1 t1' ∧
      Handler.runFrom c1.st (hostDoings c1.recvCh after) = .ok (c2.st, t2') ∧ Alike .host t2 t2' := by
  have hs : sentByGuest (before ++ after) = sentByGuest before ++ sentByGuest after := by simp [sentByGuest]
  rw [hs] at hf
  obtain ⟨t1', a1, b1⟩ := runFrom_alike (hostDoings [] before) (guest_runFrom before _ _ _ h1) fun f hm => by
    obtain ⟨r, hm⟩ := handedOver_of_mem hm
    rcases hostDoings_frames before _ _ _ h1 f r hm with h | h
    · cases h
    · exact hf f (List.mem_append_left _ h)
  obtain ⟨t2', a2, b2⟩ := runFrom_alike (hostDoings c1.recvCh after) (guest_runFrom after _ _ _ h2) fun f hm => by
    obtain ⟨r, hm⟩ := handedOver_of_mem hm
    rcases hostDoings_frames after _ _ _ h2 f r hm with h | h
    · rcases guest_recvCh before _ _ _ h1 f h with h | h
      · cases h
      · exact hf f (List.mem_append_left _ h)
    · exact hf f (List.mem_append_right _ h)
  exact ⟨t1', t2', a1, b1, a2, b2⟩

theorem openedIds_alike {side : WasmRecv.Side} {e e' : List (Handler.Ev H)} (h : Alike side e e') : openedIds e = openedIds e' :=
  h.filterMap _ (fun _ => rfl) (fun _ _ _ _ => rfl)

theorem monoEvs_alike {side : WasmRecv.Side} {e e' : List (Handler.Ev H)} (h : Alike side e e') (j : Nat) :
    monoEvs j e = monoEvs j e' :=
  h.filterMap _ (fun _ => rfl) (fun _ _ _ _ => rfl)

/-! ## What subscribers see -/

/-- C136, partial, calls: whether the guest fails or not, the subscriber of a call sees exactly the result the host received from the guest,
as its only outcome. Missing: an outcome if there was none (`C136_call_waits_violated`). (The guest sends neither setup
frames nor requests in fragments, which the host ignores.) -/
theorem C136_call_partial (reg : Registry H) (before after : List GuestFails.Act) (c1 c2 : Host H)
    (t1 t2 : List (Handler.Ev H)) (j : Nat) (req : RequestPayload) (inst : Mono.Installed)
    (h1 : GuestFails.run reg before = .ok (c1, t1)) (hj : c1.st.objs[j]? = some (.mono req .init))
    (hnew : .closed req.streamID ∉ t1)
    (h2 : GuestFails.runFrom c1 (.act (.subscribeMono j inst) :: after) = .ok (c2, t2))
    (hf : ∀ f ∈ sentByGuest (before ++ after), fits f)
    (hu : (openedIds (t1 ++ t2)).Nodup) (hs : ∀ a ∈ hostDoings c1.recvCh after, subscribesTo j a = false)
    (hne : noEmptyEnd req.streamID (hostDoings c1.recvCh after)) :
    monoEvs j t2 = outcome 0 inst (results req.streamID (hostDoings c1.recvCh after)) := by
  obtain ⟨t1', t2', a1, b1, a2, b2⟩ := guest_parts h1 h2 (by simpa [sentByGuest] using hf)
  rw [monoEvs_alike b2 j]
  refine (C62_outcome_partial reg false _ _ _ _ _ _ j req inst a1 hj ?_ a2 ?_ hs hne).2
  · exact fun h => hnew ((mem_alike b1 (fun _ h => by cases h) (fun _ _ _ _ h => by cases h)).2 h)
  · rw [← openedIds_alike (b1.append b2)]; exact hu

/-- C136, partial, streams: whether the guest fails or not, the subscriber of a stream or channel sees what the host received
from the guest, up to the first end; all of it if it does not cancel. Missing: an end if none came (`C136_stream_waits_violated`). -/
theorem C136_stream_partial (reg : Registry H) (before after : List GuestFails.Act) (c1 c2 : Host H)
    (t1 t2 : List (Handler.Ev H)) (j : Nat) (req : RequestPayload) (first c : Bool) (input : Option Input)
    (inst : Flux.Installed) (start : List Flux.Call)
    (h1 : GuestFails.run reg before = .ok (c1, t1)) (hj : c1.st.objs[j]? = some (.flux req first c input none))
    (h2 : GuestFails.runFrom c1 (.act (.subscribeFlux j inst start) :: after) = .ok (c2, t2))
    (hf : ∀ f ∈ sentByGuest (before ++ after), fits f)
    (hu : (openedIds (t1 ++ t2)).Nodup) :
    (∃ r, r <+: cutAtEnd (arrivals req.streamID (hostDoings c1.recvCh after)) ∧
      fluxSignals (fluxEvs j t2) = r.flatMap (sigCalls inst)) ∧
    (.cancelled ∉ fluxEvs j t2 → fluxCallbacks (fluxEvs j t2) =
      (cutAtEnd (arrivals req.streamID (hostDoings c1.recvCh after))).flatMap (sigCallbacks inst)) := by
  obtain ⟨t1', t2', a1, b1, a2, b2⟩ := guest_parts h1 h2 (by simpa [sentByGuest] using hf)
  rw [fluxEvs_alike b2 j]
  refine (C90_received reg false _ _ _ _ _ _ j req first c input inst start a1 hj a2 ?_).2
  rw [← openedIds_alike (b1.append b2)]; exact hu

/-- The guest sends nothing for the stream. -/
theorem guest_never {c c' : Host H} {as : List GuestFails.Act} {tr : List (Handler.Ev H)} {id : UInt32}
    (h : GuestFails.runFrom c as = .ok (c', tr)) (hn : ∀ f ∈ c.recvCh ++ sentByGuest as, f.streamID ≠ id) :
    neverAnswered id (hostDoings c.recvCh as) :=
  fun f r hm => hn f (List.mem_append.2 (hostDoings_frames as _ _ _ h f r hm))

/-- C136 fails for calls: if the guest sends nothing for the call, its subscriber never sees anything, however often the guest fails and
whatever else happens. -/
theorem C136_call_waits_violated (reg : Registry H) (before after : List GuestFails.Act) (c1 c2 : Host H)
    (t1 t2 : List (Handler.Ev H)) (j : Nat) (req : RequestPayload) (inst : Mono.Installed)
    (h1 : GuestFails.run reg before = .ok (c1, t1)) (hj : c1.st.objs[j]? = some (.mono req .init))
    (hnew : .closed req.streamID ∉ t1)
    (h2 : GuestFails.runFrom c1 (.act (.subscribeMono j inst) :: after) = .ok (c2, t2))
    (hf : ∀ f ∈ sentByGuest (before ++ after), fits f)
    (hu : (openedIds (t1 ++ t2)).Nodup) (hs : ∀ a ∈ hostDoings c1.recvCh after, subscribesTo j a = false)
    (hn : ∀ f ∈ c1.recvCh ++ sentByGuest after, f.streamID ≠ req.streamID) : monoEvs j t2 = [] := by
  have h3 : neverAnswered req.streamID (hostDoings c1.recvCh after) := fun f r hm =>
    guest_never h2 (by simpa [sentByGuest] using hn) f r (List.mem_cons_of_mem _ hm)
  rw [C136_call_partial reg before after c1 c2 t1 t2 j req inst h1 hj hnew h2 hf hu hs (never_results h3).2,
    (never_results h3).1]
  rfl

/-- The same for streams and channels: no element, no completion, no error. -/
theorem C136_stream_waits_violated (reg : Registry H) (before after : List GuestFails.Act) (c1 c2 : Host H)
    (t1 t2 : List (Handler.Ev H)) (j : Nat) (req : RequestPayload) (first c : Bool) (input : Option Input)
    (inst : Flux.Installed) (start : List Flux.Call)
    (h1 : GuestFails.run reg before = .ok (c1, t1)) (hj : c1.st.objs[j]? = some (.flux req first c input none))
    (h2 : GuestFails.runFrom c1 (.act (.subscribeFlux j inst start) :: after) = .ok (c2, t2))
    (hf : ∀ f ∈ sentByGuest (before ++ after), fits f)
    (hu : (openedIds (t1 ++ t2)).Nodup)
    (hn : ∀ f ∈ c1.recvCh ++ sentByGuest after, f.streamID ≠ req.streamID) : fluxSignals (fluxEvs j t2) = [] := by
  have h3 : neverAnswered req.streamID (hostDoings c1.recvCh after) := fun f r hm =>
    guest_never h2 (by simpa [sentByGuest] using hn) f r (List.mem_cons_of_mem _ hm)
  obtain ⟨r, hr, h⟩ := (C136_stream_partial reg before after c1 c2 t1 t2 j req first c input inst start h1 hj h2 hf hu).1
  rw [never_arrivals h3] at hr
  rw [h, List.prefix_nil.1 hr]
  rfl

/-- How often the guest was run in a history. -/
def guestRuns : List GuestFails.Act → Nat
  | [] => 0
  | .guest _ _ :: as => guestRuns as + 1
  | _ :: as => guestRuns as

theorem guest_sendCh (as : List GuestFails.Act) : ∀ (c c' : Host H) (tr : List (Handler.Ev H)),
    GuestFails.runFrom c as = .ok (c', tr) →
    guestRuns as ≤ (c.sendCh ++ sentFrames tr).length ∧ c'.sendCh = (c.sendCh ++ sentFrames tr).drop (guestRuns as) := by
  induction as with
  | nil => intro c c' tr h; cases h; simp [guestRuns, sentFrames]
  | cons a as ih =>
    intro c c' tr h
    obtain ⟨q, h1, h⟩ := bind_ok_inv h
    obtain ⟨q', h2, h⟩ := bind_ok_inv h
    cases h
    have h2 := ih _ _ _ h2
    have hw : ∀ e : List (Handler.Ev H), System.wire e = sentFrames e := fun _ => rfl
    cases a with
    | act a =>
      simp only [GuestFails.step] at h1
      split at h1
      · cases h1
      obtain ⟨p, h3, h4⟩ := bind_ok_inv h1
      cases h4
      simpa only [guestRuns, hw, sentFrames_append, List.append_assoc] using h2
    | guest out failed =>
      obtain ⟨st, sendCh, recvCh, crashed⟩ := c
      cases sendCh with
      | nil => cases h1
      | cons f fs =>
        cases h1
        simpa only [guestRuns, List.nil_append, List.cons_append, List.length_cons, Nat.add_le_add_iff_right, List.drop_succ_cons]
          using h2
    | recv x =>
      obtain ⟨st, sendCh, recvCh, crashed⟩ := c
      cases recvCh with
      | nil => cases h1
      | cons g fs =>
        obtain ⟨p, h3, h4⟩ := bind_ok_inv h1
        cases h4
        simpa only [guestRuns, hw, sentFrames_append, List.append_assoc] using h2

/-- C136, what is sent after a failure: each run of the guest, failed or not, takes exactly one frame, in the order in which they were
sent; the guest is given every frame once. -/
theorem C136_each_frame_once (reg : Registry H) (as : List GuestFails.Act) (c : Host H) (tr : List (Handler.Ev H))
    (h : GuestFails.run reg as = .ok (c, tr)) :
    guestRuns as ≤ (sentFrames tr).length ∧ c.sendCh = (sentFrames tr).drop (guestRuns as) := by
  simpa [GuestFails.Host.init] using guest_sendCh as _ _ _ h

/-- The same history, but for which of the guest's runs failed. -/
def sameButFailures : List GuestFails.Act → List GuestFails.Act → Prop
  | [], [] => True
  | .act a :: as, .act b :: bs => a = b ∧ sameButFailures as bs
  | .recv r :: as, .recv q :: bs => r = q ∧ sameButFailures as bs
  | .guest out _ :: as, .guest out' _ :: bs => out = out' ∧ sameButFailures as bs
  | _, _ => False

theorem unnoticed_from (as : List GuestFails.Act) : ∀ (bs : List GuestFails.Act) (c d c' : Host H) (tr : List (Handler.Ev H)),
    sameButFailures as bs → c.st = d.st ∧ c.sendCh = d.sendCh ∧ c.recvCh = d.recvCh → GuestFails.runFrom c as = .ok (c', tr) →
    ∃ d', GuestFails.runFrom d bs = .ok (d', tr) ∧ c'.st = d'.st ∧ c'.sendCh = d'.sendCh ∧ c'.recvCh = d'.recvCh := by
  induction as with
  | nil =>
    intro bs c d c' tr hs hc h
    cases bs with
    | nil => cases h; exact ⟨d, rfl, hc⟩
    | cons b bs => cases hs
  | cons a as ih =>
    intro bs c d c' tr hs hc h
    obtain ⟨st, sendCh, recvCh, cr⟩ := c
    obtain ⟨st', sendCh', recvCh', cr'⟩ := d
    obtain ⟨rfl, rfl, rfl⟩ := hc
    obtain ⟨q, h1, h⟩ := bind_ok_inv h
    obtain ⟨q', h2, h⟩ := bind_ok_inv h
    cases h
    have key : ∀ (b : GuestFails.Act) (bs : List GuestFails.Act) (d1 : Host H), sameButFailures as bs →
        GuestFails.step ⟨st, sendCh, recvCh, cr'⟩ b = .ok (d1, q.2) →
        q.1.st = d1.st ∧ q.1.sendCh = d1.sendCh ∧ q.1.recvCh = d1.recvCh →
        ∃ d', GuestFails.runFrom ⟨st, sendCh, recvCh, cr'⟩ (b :: bs) = .ok (d', q.2 ++ q'.2) ∧
          q'.1.st = d'.st ∧ q'.1.sendCh = d'.sendCh ∧ q'.1.recvCh = d'.recvCh := by
      intro b bs d1 hs' hb hq
      obtain ⟨d', h3, h4⟩ := ih bs q.1 d1 q'.1 q'.2 hs' hq h2
      refine ⟨d', ?_, h4⟩
      show (GuestFails.step _ b >>= _) = _
      rw [hb]
      show (GuestFails.runFrom d1 bs >>= _) = _
      rw [h3]
      rfl
    cases bs with
    | nil => cases a <;> cases hs
    | cons b bs =>
      cases a with
      | act a =>
        cases b with
        | act b =>
          obtain ⟨rfl, hs⟩ := hs
          simp only [GuestFails.step] at h1
          split at h1
          · cases h1
          rename_i hfr
          obtain ⟨p, h3, h4⟩ := bind_ok_inv h1
          cases h4
          refine key (.act a) bs ⟨p.1, sendCh ++ System.wire p.2, recvCh, cr'⟩ hs ?_ ⟨rfl, rfl, rfl⟩
          simp only [GuestFails.step, hfr, h3]
          rfl
        | _ => cases hs
      | guest out failed =>
        cases b with
        | guest out' failed' =>
          obtain ⟨rfl, hs⟩ := hs
          cases sendCh with
          | nil => cases h1
          | cons f fs =>
            cases h1
            exact key (.guest out failed') bs _ hs rfl ⟨rfl, rfl, rfl⟩
        | _ => cases hs
      | recv x =>
        cases b with
        | recv y =>
          obtain ⟨rfl, hs⟩ := hs
          cases recvCh with
          | nil => cases h1
          | cons f fs =>
            obtain ⟨p, h3, h4⟩ := bind_ok_inv h1
            cases h4
            refine key (.recv x) bs ⟨p.1, sendCh ++ System.wire p.2, fs, cr'⟩ hs ?_ ⟨rfl, rfl, rfl⟩
            simp only [GuestFails.step, h3]
            rfl
        | _ => cases hs

/-- C136, why it fails: nothing the host or its application does or is told depends on whether the guest failed. Had the guest returned wherever
it failed, having sent the same, then the host would have come to the same state in the same way. -/
theorem C136_unnoticed_violated (reg : Registry H) (as bs : List GuestFails.Act) (c : Host H) (tr : List (Handler.Ev H))
    (h : GuestFails.run reg as = .ok (c, tr)) (hs : sameButFailures as bs) :
    ∃ d, GuestFails.run reg bs = .ok (d, tr) ∧ c.st = d.st ∧ c.sendCh = d.sendCh ∧ c.recvCh = d.recvCh :=
  unnoticed_from as bs _ _ c tr hs ⟨rfl, rfl, rfl⟩ h

end

/-! ## Cases -/

def hostTrace {H : Type} (x : Go (Host H × List (Handler.Ev H))) : List (Handler.Ev H) :=
  match x with
  | .ok (_, tr) => tr
  | _ => []

def crashedFrames {H : Type} (x : Go (Host H × List (Handler.Ev H))) : List UInt32 :=
  match x with
  | .ok (c, _) => c.crashed.map (·.streamID)
  | _ => []

/-- Two calls: the guest fails with the first and answers the second. -/
def failThenAnswer : List GuestFails.Act :=
  [.act (.call .rr ⟨[1], []⟩ .created), .act (.call .rr ⟨[2], []⟩ .created), .act (.subscribeMono 0 ⟨true, true, true⟩),
   .act (.subscribeMono 1 ⟨true, true, true⟩), .guest [] true, .guest [.payload ⟨4, [], [8], false, true, true⟩] false, .recv noReact]

example : crashedFrames (GuestFails.run oneHandler failThenAnswer) = [2] ∧
    monoEvs 0 (hostTrace (GuestFails.run oneHandler failThenAnswer)) = [] ∧
    monoEvs 1 (hostTrace (GuestFails.run oneHandler failThenAnswer)) = outcome 0 ⟨true, true, true⟩ [.success ⟨[8], []⟩] := by
  decide +kernel

/-- A stream: the guest sends two elements and fails. -/
def failInStream : List GuestFails.Act :=
  [.act (.call .rs ⟨[1], []⟩ .created), .act (.subscribeFlux 0 ⟨true, true, true, true, true, false⟩ [.request 5]),
   .act (.run 0 ⟨.created, .created, false⟩),
   .guest [.payload ⟨2, [], [7], false, false, true⟩, .payload ⟨2, [], [8], false, false, true⟩] true, .recv noReact, .recv noReact]

example : fluxSignals (fluxEvs 0 (hostTrace (GuestFails.run oneHandler failInStream))) = [.next ⟨[7], []⟩, .next ⟨[8], []⟩] ∧
    crashedFrames (GuestFails.run oneHandler failInStream) = [2] := by decide +kernel

example : (sentFrames (hostTrace (GuestFails.run oneHandler failThenAnswer))).map (·.streamID) = [2, 4] ∧
    guestRuns failThenAnswer = 2 := by decide +kernel

example : sameButFailures failThenAnswer (failThenAnswer.map fun | .guest out _ => .guest out false | a => a) := by
  simp [failThenAnswer, sameButFailures]

/-- C136 fails: a call is made and the guest fails with it. -/
theorem C136_violated : ¬ C136_statement := by
  intro h
  have e : ∃ (c1 c2 : Host Unit) (req : RequestPayload) (t2 : List (Handler.Ev Unit)),
      GuestFails.run oneHandler [.act (.call .rr ⟨[], []⟩ .created)] = .ok (c1, []) ∧
      c1.st.objs[0]? = some (.mono req .init) ∧
      GuestFails.runFrom c1 [.act (.subscribeMono 0 ⟨true, true, true⟩), .guest [] true] = .ok (c2, t2) ∧
      openedIds ([] ++ t2) = [2] ∧ c2.crashed = [.request req] ∧ hostIdle c2 ∧ monoEvs 0 t2 = [] :=
    ⟨_, _, _, _, rfl, rfl, rfl, rfl, rfl, ⟨rfl, rfl, rfl⟩, rfl⟩
  obtain ⟨c1, c2, req, t2, e1, e2, e3, e4, e5, e6, e7⟩ := e
  exact (h Unit oneHandler _ _ c1 c2 _ t2 0 e1).1 req e2 e3 (by rw [e4]; decide) (by rw [e5]; simp) e6 e7

end Verif.Props
