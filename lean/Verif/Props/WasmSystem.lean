import Verif.Model.WasmSystem
import Verif.Props.TcpSystem
import Verif.Props.WasmBuffers
import Verif.Props.WasmCancel
/-
Property C110: a host and its guest get each other's frames through the guest's memory.
-/
set_option autoImplicit false
namespace Verif.Props
open Verif Frames Handler
open Verif.Invoke (Kind Registry)

section
variable {H : Type}

/-! ## Specification -/

/-- The bytes handed over at each side are those of the frames the other one has sent, in this order, and what was not handed
over is still on its way: nothing is lost, changed or invented. -/
def nothingLost (t : WasmSystem.Sys H) : Prop :=
  t.atGuest ++ t.sendCh.map frameWire = (sentFrames t.trHost).map frameWire ∧
  t.atHost ++ t.recvCh = (sentFrames t.trGuest).map frameWire

/-- The same thing in a connection that hands over frames. -/
def frameMove : WasmSystem.Move → System.Move
  | .atHost a => .atA a
  | .atGuest a => .atB a
  | .sendLoop r => .toB r
  | .recvLoop r => .toA r

/-- The two are in the same state: the ends are, the same has been observed, the same frames are on their way. -/
structure SameWasm (t : WasmSystem.Sys H) (s : System.Sys H) : Prop where
  host : t.host = s.a
  guest : t.guest = s.b
  trHost : t.trHost = s.trA
  trGuest : t.trGuest = s.trB
  sendCh : t.sendCh = s.ab
  recvCh : t.recvCh = s.ba.map frameWire

/-- C110 as stated in English: in whatever way host and guest are used, the bytes they get are those of the frames sent,
and the connection behaves as if frames were handed over. -/
def C110_statement (H : Type) : Prop :=
  ∀ (mem : WasmSystem.Mem) (regH regG : Registry H) (ms : List WasmSystem.Move),
    match Wasm.runSys .host regH regG (ms.map frameMove) with
    | .ok s => ∃ t, WasmSystem.run mem regH regG ms = .ok t ∧ nothingLost t ∧ SameWasm t s
    | .err e => WasmSystem.run mem regH regG ms = .err e
    | .panic => WasmSystem.run mem regH regG ms = .panic

/-- A frame and its length fit in a buffer, and the length in its three bytes. -/
def fitsIn (size : Nat) (f : AnyFrame) : Prop := 3 + (frameWire f).length ≤ size ∧ (frameWire f).length < 2 ^ 24

/-- All these frames fit. -/
def allFit (mem : WasmSystem.Mem) (trHost trGuest : List (Handler.Ev H)) : Prop :=
  (∀ f ∈ sentFrames trHost, fitsIn mem.guestSize f) ∧ (∀ f ∈ sentFrames trGuest, fitsIn mem.hostSize f)

/-- No frame that is too large is sent while these things happen, if frames are handed over as they are. -/
def keepsSmall (mem : WasmSystem.Mem) (regH regG : Registry H) (ms : List WasmSystem.Move) : Prop :=
  ∀ pre s, pre <+: ms → Wasm.runSys .host regH regG (pre.map frameMove) = .ok s → allFit mem s.trA s.trB

/-! ## One frame -/

/-- Frames as the ends send them. -/
def Proper (f : AnyFrame) : Prop := Ordinary f ∧ f.streamID.toNat < 2 ^ 31

theorem body_le_wire (f : AnyFrame) (ho : Ordinary f) : bodySize f ≤ (frameWire f).length := by
  cases f with
  | setup f => exact ho.elim
  | request f =>
    simp only [bodySize, frameWire, Spec.requestWire, Spec.header, List.length_append, Spec.bigEndian_length,
      Spec.metadataBlock_length]
    split <;> split <;> simp_all <;> omega
  | payload f =>
    simp only [bodySize, frameWire, Spec.payloadWire, Spec.header, List.length_append, Spec.bigEndian_length,
      Spec.metadataBlock_length]
    split <;> simp_all <;> omega
  | error f => simp [bodySize, frameWire, Spec.errorWire]; omega
  | requestN f => simp [bodySize]
  | cancel f => simp [bodySize]

/-- What is known of a frame that fits. -/
theorem fit_facts {f : AnyFrame} {n : Nat} (hp : Proper f) (hf : fitsIn n f) :
    bodySize f + 13 < 2 ^ 32 ∧ f.size.toNat = (frameWire f).length ∧ f.size.toNat < 2 ^ 24 ∧ Encodable f ∧
      EncodesAs f (frameWire f) ∧ TcpConn.parse (frameWire f) = .ok (frameSeen f) := by
  have hb : bodySize f + 13 < 2 ^ 32 := by have := body_le_wire f hp.1; have := hf.2; omega
  have hs := size_eq_length hp.1 hb
  have h24 : f.size.toNat < 2 ^ 24 := by have := hf.2; omega
  have hm := wire_metadata hb h24
  have he : Encodable f := by
    cases f with
    | setup f => exact hp.1.elim
    | request f => exact ⟨hp.1.1, hm, hb⟩
    | payload f => exact ⟨hm, by simp only [bodySize] at hb; omega⟩
    | error f => show 10 + f.data.length < _; simp only [bodySize] at hb; omega
    | requestN f => trivial
    | cancel f => trivial
  obtain ⟨w, hw, hex⟩ := encodable_exact f he
  have hea := exact_encodesAs hw hex
  obtain ⟨hpk, hpa, -, -⟩ := pack_parse hp.1 hp.2 hb h24
  obtain ⟨n', e1, e2⟩ := mustNew_ok h24
  have : w = frameWire f := by
    unfold TcpConn.pack at hpk
    rw [e1] at hpk
    simp only [Go.bind_ok, hea (List.replicate f.size.toNat 0) List.length_replicate, e2] at hpk
    have := Go.ok.inj hpk
    rw [framed, ← hs, UInt32.ofNat_toNat] at this
    exact List.append_cancel_left this
  exact ⟨hb, hs, h24, he, this ▸ hea, hpa⟩

/-- The host writes a frame for the guest. -/
theorem hostWrite_fit {f : AnyFrame} {buf : Bytes} (hp : Proper f) (hf : fitsIn buf.length f) :
    ∃ buf' n, Wasm.hostWrite buf f = .ok (buf', n) ∧ buf'.length = buf.length ∧
      Wasm.guestSend buf' 0 n = ([frameWire f], false) := by
  obtain ⟨-, hs, h24, he, hea, -⟩ := fit_facts hp hf
  obtain ⟨w, hw, ht⟩ := C51_host_to_guest f buf he h24 (by have := hf.1; omega)
  have : w = frameWire f := by
    have h1 := hw (List.replicate f.size.toNat 0) List.length_replicate
    rw [hea _ List.length_replicate] at h1
    exact (Go.ok.inj h1).symm
  subst this
  unfold Wasm.toGuest at ht
  obtain ⟨⟨buf', n⟩, h1, h2⟩ := bind_ok_inv ht
  obtain ⟨body, -, rfl, -, hl⟩ := hostWrite_shape h1
  refine ⟨_, _, h1, ?_, Go.ok.inj h2⟩
  simp only [List.length_append, be24_length]; omega

/-- The guest writes a frame for the host. -/
theorem guestWrite_fit {f : AnyFrame} {buf : Bytes} (low high : Bytes) (hp : Proper f) (hf : fitsIn buf.length f) :
    ∃ buf' n, Wasm.guestWrite buf f = .ok (buf', n) ∧ buf'.length = buf.length ∧
      Wasm.hostSend (low ++ buf' ++ high) low.length n = ([frameWire f], false) := by
  obtain ⟨-, hs, h24, he, hea, -⟩ := fit_facts hp hf
  obtain ⟨w, hw, ht⟩ := C51_guest_to_host f low buf high he h24 (by have := hf.1; omega)
  have : w = frameWire f := by
    have h1 := hw (List.replicate f.size.toNat 0) List.length_replicate
    rw [hea _ List.length_replicate] at h1
    exact (Go.ok.inj h1).symm
  subst this
  unfold Wasm.toHost at ht
  obtain ⟨⟨buf', n⟩, h1, h2⟩ := bind_ok_inv ht
  refine ⟨_, _, h1, ?_, Go.ok.inj h2⟩
  unfold Wasm.guestWrite at h1
  split at h1
  · cases h1
  · obtain ⟨body, h3, h4⟩ := bind_ok_inv h1
    have hl := encode_len h3
    rw [List.length_drop] at hl
    cases h4
    simp only [List.length_append, be24_length]; omega

theorem decode_id_requestN {h : Header} {b : Bytes} {f : RequestN} (hd : RequestN.decode h b = .ok f) :
    f.streamID = h.streamID := by
  unfold RequestN.decode at hd
  obtain ⟨n, -, hd⟩ := bind_ok_inv hd
  cases hd; rfl

theorem decode_id_payload {h : Header} {b : Bytes} {f : Payload} (hd : Payload.decode h b = .ok f) :
    f.streamID = h.streamID := by
  unfold Payload.decode at hd
  obtain ⟨n, -, hd⟩ := bind_ok_inv hd
  cases hd; rfl

theorem decode_id_error {h : Header} {b : Bytes} {f : Error} (hd : Error.decode h b = .ok f) :
    f.streamID = h.streamID := by
  unfold Error.decode at hd
  obtain ⟨n, -, hd⟩ := bind_ok_inv hd
  obtain ⟨n, -, hd⟩ := bind_ok_inv hd
  cases hd; rfl

/-- The bytes of a frame are handled like the frame. -/
theorem recvBytes_frame {f : AnyFrame} {n : Nat} (hp : Proper f) (hf : fitsIn n f) (s : St H) (r : React) :
    WasmSystem.recvBytes s (frameWire f) r = Wasm.recv s f r := by
  obtain ⟨hb, hs, h24, he, -, -⟩ := fit_facts hp hf
  have hm := wire_metadata hb h24
  cases f with
  | setup f => exact hp.1.elim
  | request f =>
    obtain ⟨e1, h, e2, e3⟩ := C03_request_roundtrip_partial f (List.replicate f.size.toNat 0) hp.1.1 hp.2 hm
      hb hp.1.2.1 List.length_replicate
    obtain ⟨p1, b, p2, p3⟩ := parse_of_recv e2
    have hn : (requestSeen f).initialN = f.initialN := by
      simp only [requestSeen]
      split
      · rfl
      · rename_i h
        exact (hp.1.2.2 (fun h1 => h (.inl h1)) (fun h1 => h (.inr h1))).symm
    have h1 : ¬ f.frameType ≥ typeRequestN := by rcases hp.1.1 with h | h | h | h <;> rw [h] <;> decide
    obtain ⟨k, hk⟩ : ∃ k, kindOfType f.frameType = some k := by
      rcases hp.1.1 with h | h | h | h <;> rw [h] <;> exact ⟨_, rfl⟩
    have hfo : (requestSeen f).follows = false := hp.1.2.1
    have h1' : ¬ (AnyFrame.request f).type ≥ typeRequestN := h1
    unfold WasmSystem.recvBytes Wasm.recv
    simp only [frameWire, p1, p2, Go.bind_ok, e3, if_neg h1, if_neg h1', hk, p3, hfo, hp.1.2.1]
    simp only [dispatch, hn]
    rfl
  | requestN f =>
    obtain ⟨e1, h, e2, e3⟩ := C04_requestN_roundtrip f (List.replicate f.size.toNat 0) hp.2 List.length_replicate
    obtain ⟨p1, b, p2, p3⟩ := parse_of_recv e2
    have hi := decode_id_requestN p3
    unfold WasmSystem.recvBytes Wasm.recv
    simp only [frameWire, p1, p2, Go.bind_ok, e3, AnyFrame.type, AnyFrame.streamID, hi]
    rw [if_pos (by decide), if_pos (by decide)]
    cases getStream s h.streamID with
    | none => rfl
    | some j => simp only [p3, Go.bind_ok]; rfl
  | cancel f =>
    obtain ⟨e1, h, e2, e3⟩ := C04_cancel_roundtrip f (List.replicate f.size.toNat 0) hp.2 List.length_replicate
    obtain ⟨p1, b, p2, p3⟩ := parse_of_recv e2
    have hi : h.streamID = f.streamID := by cases p3; rfl
    have hr : Wasm.recv s (.cancel f) r = match getStream s f.streamID with
      | none => .ok (s, [])
      | some j => dispatch s r (.cancel f) (some j) := by
      unfold Wasm.recv
      rw [if_pos (by show typeCancel ≥ typeRequestN; decide)]
      simp only [AnyFrame.streamID]
      cases getStream s f.streamID <;> rfl
    rw [hr]
    unfold WasmSystem.recvBytes
    simp only [frameWire, p1, p2, Go.bind_ok, e3, hi]
    cases getStream s f.streamID with
    | none => rfl
    | some j => rfl
  | payload f =>
    simp only [bodySize] at hb
    obtain ⟨e1, h, e2, e3⟩ := C02_payload_roundtrip f (List.replicate f.size.toNat 0) hp.2 hm (by omega)
      List.length_replicate
    obtain ⟨p1, b, p2, p3⟩ := parse_of_recv e2
    have hi := decode_id_payload p3
    unfold WasmSystem.recvBytes Wasm.recv
    simp only [frameWire, p1, p2, Go.bind_ok, e3, AnyFrame.type, AnyFrame.streamID, hi]
    rw [if_pos (by decide), if_pos (by decide)]
    cases getStream s h.streamID with
    | none => rfl
    | some j => simp only [p3, Go.bind_ok]; rfl
  | error f =>
    simp only [bodySize] at hb
    obtain ⟨e1, h, e2, e3⟩ := C04_error_roundtrip f (List.replicate f.size.toNat 0) hp.2 (by omega)
      List.length_replicate
    obtain ⟨p1, b, p2, p3⟩ := parse_of_recv e2
    have hi := decode_id_error p3
    unfold WasmSystem.recvBytes Wasm.recv
    simp only [frameWire, p1, p2, Go.bind_ok, e3, AnyFrame.type, AnyFrame.streamID, hi]
    rw [if_pos (by decide), if_pos (by decide)]
    cases getStream s h.streamID with
    | none => rfl
    | some j => simp only [p3, Go.bind_ok]; rfl

/-! ## The whole connection -/

/-- All frames on a connection over wasm are proper. -/
theorem wasm_frames {side : WasmRecv.Side} {regA regB : Registry H} {ms : List System.Move} {s : System.Sys H}
    (h : Wasm.runSys side regA regB ms = .ok s) :
    (∀ f ∈ sentFrames s.trA, Proper f) ∧ (∀ f ∈ sentFrames s.trB, Proper f) := by
  obtain ⟨s', hr⟩ := overRsocket h
  have := connection_frames (joined_run _ hr.run)
  rw [← sentFrames_alike hr.alike.trA, ← sentFrames_alike hr.alike.trB] at this
  exact this

/-- What is on its way was sent. -/
theorem wasm_queued {side : WasmRecv.Side} {regA regB : Registry H} {ms : List System.Move} {s : System.Sys H}
    (h : Wasm.runSys side regA regB ms = .ok s) :
    (∀ f ∈ s.ab, f ∈ sentFrames s.trA) ∧ (∀ f ∈ s.ba, f ∈ sentFrames s.trB) := by
  obtain ⟨s', hr⟩ := overRsocket h
  have hj := joined_run _ hr.run
  rw [sentFrames_alike hr.alike.trA, sentFrames_alike hr.alike.trB, hj.ab, hj.ba, hr.alike.ab, hr.alike.ba]
  exact ⟨fun f hf => List.mem_append_right _ hf, fun f hf => List.mem_append_right _ hf⟩

/-- The state behind a run: what the theorems say, and the sizes of the buffers. -/
structure WasmInv (mem : WasmSystem.Mem) (t : WasmSystem.Sys H) (s : System.Sys H) : Prop where
  same : SameWasm t s
  lost : nothingLost t
  memory : t.mem = mem
  guestBuf : t.guestBuf.length = mem.guestSize
  hostBuf : t.hostBuf.length = mem.hostSize

theorem guestSends_fit (fs : List AnyFrame) : ∀ (t : WasmSystem.Sys H), t.hostBuf.length = t.mem.hostSize →
    (∀ f ∈ fs, Proper f ∧ fitsIn t.mem.hostSize f) →
    ∃ buf, WasmSystem.guestSends t fs = .ok { t with hostBuf := buf, recvCh := t.recvCh ++ fs.map frameWire } ∧
      buf.length = t.mem.hostSize := by
  induction fs with
  | nil => intro t hl _; exact ⟨t.hostBuf, by simp [WasmSystem.guestSends], hl⟩
  | cons f fs ih =>
    intro t hl hf
    obtain ⟨hp, hfit⟩ := hf f (List.mem_cons_self ..)
    rw [← hl] at hfit
    obtain ⟨buf', n, h1, h2, h3⟩ := guestWrite_fit t.mem.low t.mem.high hp hfit
    obtain ⟨buf, h4, h5⟩ := ih { t with hostBuf := buf', recvCh := t.recvCh ++ [frameWire f] } (h2.trans hl)
      fun g hg => hf g (List.mem_cons_of_mem _ hg)
    refine ⟨buf, ?_, h5⟩
    simp only [WasmSystem.guestSends, h1, Go.bind_ok, h3]
    rw [if_neg (by simp), h4]
    simp

theorem guestSends_keeps (fs : List AnyFrame) : ∀ {t t' : WasmSystem.Sys H}, WasmSystem.guestSends t fs = .ok t' →
    t'.trHost = t.trHost ∧ t'.trGuest = t.trGuest ∧ t'.mem = t.mem := by
  induction fs with
  | nil => intro t t' h; cases h; exact ⟨rfl, rfl, rfl⟩
  | cons f fs ih =>
    intro t t' h
    simp only [WasmSystem.guestSends] at h
    obtain ⟨⟨buf, n⟩, -, h⟩ := bind_ok_inv h
    dsimp only at h
    split at h
    · cases h
    · obtain ⟨h1, h2, h3⟩ := ih h
      exact ⟨h1, h2, h3⟩

/-- The host does something. -/
theorem hostDid_same {mem : WasmSystem.Mem} {t : WasmSystem.Sys H} {s : System.Sys H} {act : Act} {rest : List AnyFrame}
    (hi : SameWasm t { s with ba := rest }) (hl : nothingLost t) (hm : t.mem = mem)
    (hg : t.guestBuf.length = mem.guestSize) (hh : t.hostBuf.length = mem.hostSize) :
    match Wasm.moveA .host { s with ba := rest } act with
    | .ok s' => ∃ t', WasmSystem.hostDid t (Wasm.step .host t.host act) = .ok t' ∧ WasmInv mem t' s'
    | .err e => WasmSystem.hostDid t (Wasm.step .host t.host act) = .err e
    | .panic => WasmSystem.hostDid t (Wasm.step .host t.host act) = .panic := by
  have hst : t.host = s.a := hi.host
  unfold Wasm.moveA
  dsimp only
  rw [hst]
  cases hx : Wasm.step .host s.a act with
  | err e => rfl
  | panic => rfl
  | ok x =>
    obtain ⟨a, e⟩ := x
    refine ⟨_, rfl, ⟨rfl, hi.guest, ?_, hi.trGuest, ?_, hi.recvCh⟩, ⟨?_, hl.2⟩, hm, hg, hh⟩
    · show t.trHost ++ e = s.trA ++ e
      rw [show t.trHost = s.trA from hi.trHost]
    · show t.sendCh ++ _ = s.ab ++ _
      rw [show t.sendCh = s.ab from hi.sendCh]
    · show t.atGuest ++ (t.sendCh ++ System.wire e).map frameWire = (sentFrames (t.trHost ++ e)).map frameWire
      rw [List.map_append, ← List.append_assoc, hl.1, sentFrames_append, List.map_append, wire_eq]

/-- The guest does something. -/
theorem guestDid_same {mem : WasmSystem.Mem} {t : WasmSystem.Sys H} {s : System.Sys H} {act : Act} {rest : List AnyFrame}
    (hi : SameWasm t { s with ab := rest }) (hl : nothingLost t) (hm : t.mem = mem)
    (hg : t.guestBuf.length = mem.guestSize) (hh : t.hostBuf.length = mem.hostSize)
    (hf : ∀ s', Wasm.moveB .host { s with ab := rest } act = .ok s' →
      ∀ f ∈ sentFrames s'.trB, Proper f ∧ fitsIn mem.hostSize f) :
    match Wasm.moveB .host { s with ab := rest } act with
    | .ok s' => ∃ t', WasmSystem.guestDid t (Wasm.step .guest t.guest act) = .ok t' ∧ WasmInv mem t' s'
    | .err e => WasmSystem.guestDid t (Wasm.step .guest t.guest act) = .err e
    | .panic => WasmSystem.guestDid t (Wasm.step .guest t.guest act) = .panic := by
  have hst : t.guest = s.b := hi.guest
  revert hf
  unfold Wasm.moveB
  dsimp only
  rw [hst]
  rw [show Wasm.Side.other .host = .guest from rfl]
  cases hx : Wasm.step .guest s.b act with
  | err e => intro _; rfl
  | panic => intro _; rfl
  | ok x =>
    obtain ⟨b, e⟩ := x
    intro hf
    have hf' := hf _ rfl
    obtain ⟨buf, h1, h2⟩ := guestSends_fit (System.wire e) { t with guest := b, trGuest := t.trGuest ++ e }
      (by show t.hostBuf.length = t.mem.hostSize; rw [hm]; exact hh)
      (fun f h => by
        show Proper f ∧ fitsIn t.mem.hostSize f
        rw [hm]
        refine hf' f ?_
        show f ∈ sentFrames (s.trB ++ e)
        rw [sentFrames_append]
        exact List.mem_append_right _ h)
    refine ⟨_, h1, ⟨hi.host, rfl, hi.trHost, ?_, hi.sendCh, ?_⟩, ⟨hl.1, ?_⟩, hm, hg, h2.trans (by rw [← hm])⟩
    · show t.trGuest ++ e = s.trB ++ e
      rw [show t.trGuest = s.trB from hi.trGuest]
    · show t.recvCh ++ _ = (s.ba ++ _).map frameWire
      rw [show t.recvCh = s.ba.map frameWire from hi.recvCh, List.map_append]
    · show t.atHost ++ (t.recvCh ++ (System.wire e).map frameWire) = (sentFrames (t.trGuest ++ e)).map frameWire
      rw [← List.append_assoc, hl.2, sentFrames_append, List.map_append, wire_eq]

theorem recvAll_one (s : St H) (b : Bytes) (r : React) :
    WasmSystem.recvAll s r [b] = WasmSystem.recvBytes s b r := by
  unfold WasmSystem.recvAll andThen
  cases WasmSystem.recvBytes s b r with
  | ok x => simp [WasmSystem.recvAll]
  | err e => rfl
  | panic => rfl

/-- The outcome is the one of a connection that hands over frames. -/
def sameOutcome (mem : WasmSystem.Mem) : Go (WasmSystem.Sys H) → Go (System.Sys H) → Prop
  | x, .ok s => ∃ t, x = .ok t ∧ WasmInv mem t s
  | x, .err e => x = .err e
  | x, .panic => x = .panic

theorem wasm_step_same {mem : WasmSystem.Mem} {regH regG : Registry H} {ms : List System.Move}
    {t : WasmSystem.Sys H} {s : System.Sys H} (m : WasmSystem.Move)
    (hr : Wasm.runSys .host regH regG ms = .ok s) (hi : WasmInv mem t s)
    (hfit : allFit mem s.trA s.trB)
    (hnext : ∀ s', Wasm.stepSys .host s (frameMove m) = .ok s' → allFit mem s'.trA s'.trB) :
    sameOutcome mem (WasmSystem.step t m) (Wasm.stepSys .host s (frameMove m)) := by
  have hrun : ∀ s', Wasm.stepSys .host s (frameMove m) = .ok s' →
      ∀ f ∈ sentFrames s'.trB, Proper f ∧ fitsIn mem.hostSize f := by
    intro s' hs f hf
    have : Wasm.runSys .host regH regG (ms ++ [frameMove m]) = .ok s' := by
      unfold Wasm.runSys at hr ⊢
      rw [runSysFrom_append, hr]
      simp only [Wasm.runSysFrom, hs]
    exact ⟨(wasm_frames this).2 f hf, (hnext s' hs).2 f hf⟩
  cases m with
  | atHost act =>
    simp only [frameMove, Wasm.stepSys, WasmSystem.step]
    split
    · exact ⟨t, rfl, hi⟩
    · have := hostDid_same (mem := mem) (t := t) (s := s) (act := act) (rest := s.ba) hi.same hi.lost hi.memory hi.guestBuf hi.hostBuf
      revert this
      show (match Wasm.moveA .host s act with | .ok s' => _ | .err e => _ | .panic => _) → _
      cases Wasm.moveA .host s act <;> exact id
  | atGuest act =>
    simp only [frameMove, Wasm.stepSys, WasmSystem.step] at hrun ⊢
    split
    · exact ⟨t, rfl, hi⟩
    · rename_i hn
      have := guestDid_same (mem := mem) (t := t) (s := s) (act := act) (rest := s.ab) hi.same hi.lost hi.memory hi.guestBuf hi.hostBuf
        (fun s' h => hrun s' (by rw [if_neg hn]; exact h))
      revert this
      show (match Wasm.moveB .host s act with | .ok s' => _ | .err e => _ | .panic => _) → _
      cases Wasm.moveB .host s act <;> exact id
  | recvLoop r =>
    simp only [frameMove, Wasm.stepSys, WasmSystem.step]
    cases hq : s.ba with
    | nil =>
      have : t.recvCh = [] := by rw [hi.same.recvCh, hq]; rfl
      rw [this]
      exact ⟨t, rfl, hi⟩
    | cons f fs =>
      have hc : t.recvCh = frameWire f :: fs.map frameWire := by rw [hi.same.recvCh, hq]; rfl
      have hf := (wasm_queued hr).2 f (by rw [hq]; exact List.mem_cons_self ..)
      have hb := recvBytes_frame ((wasm_frames hr).2 f hf) (hfit.2 f hf) t.host r
      rw [hc]
      dsimp only
      rw [hb]
      have := hostDid_same (mem := mem) (t := { t with recvCh := fs.map frameWire, atHost := t.atHost ++ [frameWire f] })
        (s := s) (act := .frame f r) (rest := fs)
        ⟨hi.same.host, hi.same.guest, hi.same.trHost, hi.same.trGuest, hi.same.sendCh, rfl⟩
        ⟨hi.lost.1, by
          show t.atHost ++ [frameWire f] ++ fs.map frameWire = _
          rw [← hi.lost.2, hc]; simp⟩ hi.memory hi.guestBuf hi.hostBuf
      revert this
      show (match Wasm.moveA .host { s with ba := fs } (.frame f r) with | .ok s' => _ | .err e => _ | .panic => _) → _
      cases Wasm.moveA .host { s with ba := fs } (.frame f r) <;> exact id
  | sendLoop r =>
    simp only [frameMove, Wasm.stepSys, WasmSystem.step] at hrun ⊢
    cases hq : s.ab with
    | nil =>
      have : t.sendCh = [] := by rw [hi.same.sendCh, hq]
      rw [this]
      exact ⟨t, rfl, hi⟩
    | cons f fs =>
      have hc : t.sendCh = f :: fs := by rw [hi.same.sendCh, hq]
      have hf := (wasm_queued hr).1 f (by rw [hq]; exact List.mem_cons_self ..)
      have hp := (wasm_frames hr).1 f hf
      have hfi := hfit.1 f hf
      have hb := recvBytes_frame hp hfi t.guest r
      obtain ⟨buf, n, h1, h2, h3⟩ := hostWrite_fit (buf := t.guestBuf) hp (by rw [hi.guestBuf]; exact hfi)
      rw [hc]
      simp only [h1, Go.bind_ok, h3, recvAll_one, hb]
      have := guestDid_same (mem := mem)
        (t := { t with sendCh := fs, guestBuf := buf, atGuest := t.atGuest ++ [frameWire f] })
        (s := s) (act := .frame f r) (rest := fs)
        ⟨hi.same.host, hi.same.guest, hi.same.trHost, hi.same.trGuest, rfl, hi.same.recvCh⟩
        ⟨by
          show t.atGuest ++ [frameWire f] ++ fs.map frameWire = _
          rw [← hi.lost.1, hc]; simp, hi.lost.2⟩ hi.memory (h2.trans hi.guestBuf) hi.hostBuf
        (fun s' h => hrun s' (by rw [hq]; exact h))
      revert this
      show (match Wasm.moveB .host { s with ab := fs } (.frame f r) with | .ok s' => _ | .err e => _ | .panic => _) → _
      cases Wasm.moveB .host { s with ab := fs } (.frame f r) with
      | ok s' =>
        intro ⟨t', h, hi'⟩
        refine ⟨t', ?_, hi'⟩
        have h : WasmSystem.guestDid _ (Wasm.recv t.guest f r) = .ok t' := h
        rw [h]
        rfl
      | err e =>
        intro h
        have h : WasmSystem.guestDid _ (Wasm.recv t.guest f r) = .err e := h
        show (WasmSystem.guestDid _ _ >>= _) = _
        rw [h]
        rfl
      | panic =>
        intro h
        have h : WasmSystem.guestDid _ (Wasm.recv t.guest f r) = .panic := h
        show (WasmSystem.guestDid _ _ >>= _) = _
        rw [h]
        rfl

theorem wasm_init_inv (mem : WasmSystem.Mem) (regH regG : Registry H) :
    WasmInv mem (.init mem regH regG) (.init regH regG (Wasm.Side.client .host)) :=
  ⟨⟨rfl, rfl, rfl, rfl, rfl, rfl⟩, ⟨rfl, rfl⟩, rfl, List.length_replicate, List.length_replicate⟩

theorem wasmSystem_snoc (mem : WasmSystem.Mem) (regH regG : Registry H) (ms : List WasmSystem.Move) (m : WasmSystem.Move) :
    WasmSystem.run mem regH regG (ms ++ [m]) = (WasmSystem.run mem regH regG ms >>= fun t => WasmSystem.step t m) := by
  unfold WasmSystem.run
  generalize WasmSystem.Sys.init mem regH regG = t
  induction ms generalizing t with
  | nil =>
    show (WasmSystem.step t m >>= fun s => WasmSystem.runFrom s []) = WasmSystem.step t m
    cases WasmSystem.step t m <;> rfl
  | cons a ms ih =>
    show (WasmSystem.step t a >>= fun s => WasmSystem.runFrom s (ms ++ [m])) =
      ((WasmSystem.step t a >>= fun s => WasmSystem.runFrom s ms) >>= _)
    cases WasmSystem.step t a with
    | ok t' => exact ih t'
    | err e => rfl
    | panic => rfl

theorem runSys_snoc (side : WasmRecv.Side) (regA regB : Registry H) (ms : List System.Move) (m : System.Move) :
    Wasm.runSys side regA regB (ms ++ [m]) = (Wasm.runSys side regA regB ms >>= fun s => Wasm.stepSys side s m) := by
  unfold Wasm.runSys
  rw [runSysFrom_append]
  cases Wasm.runSysFrom side (System.Sys.init regA regB (Wasm.Side.client side)) ms with
  | ok s =>
    show Wasm.runSysFrom side s [m] = Wasm.stepSys side s m
    simp only [Wasm.runSysFrom]
    cases Wasm.stepSys side s m <;> rfl
  | err e => rfl
  | panic => rfl

theorem wasm_run_same {mem : WasmSystem.Mem} {regH regG : Registry H} (ms : List WasmSystem.Move) :
    keepsSmall mem regH regG ms →
    sameOutcome mem (WasmSystem.run mem regH regG ms) (Wasm.runSys .host regH regG (ms.map frameMove)) := by
  induction ms using snoc_induction with
  | nil => intro _; exact ⟨_, rfl, wasm_init_inv mem regH regG⟩
  | snoc ms m ih =>
    intro hk
    have ih := ih fun pre s hp => hk pre s (hp.trans (List.prefix_append _ _))
    rw [wasmSystem_snoc, List.map_append, List.map_cons, List.map_nil, runSys_snoc]
    cases hr : Wasm.runSys .host regH regG (ms.map frameMove) with
    | err e => rw [hr] at ih; rw [show WasmSystem.run mem regH regG ms = .err e from ih]; rfl
    | panic => rw [hr] at ih; rw [show WasmSystem.run mem regH regG ms = .panic from ih]; rfl
    | ok s =>
      rw [hr] at ih
      obtain ⟨t, h1, h2⟩ := ih
      rw [h1]
      refine wasm_step_same m hr h2 (hk ms s (List.prefix_append _ _) hr) fun s' hs => ?_
      refine hk (ms ++ [m]) s' (List.prefix_rfl) ?_
      rw [List.map_append, List.map_cons, List.map_nil, runSys_snoc, hr]
      exact hs

/-- C110, partial: as long as the frames fit in the buffers. Missing: larger frames. -/
theorem C110_same_partial (mem : WasmSystem.Mem) (regH regG : Registry H) (ms : List WasmSystem.Move)
    (hsmall : keepsSmall mem regH regG ms) :
    match Wasm.runSys .host regH regG (ms.map frameMove) with
    | .ok s => ∃ t, WasmSystem.run mem regH regG ms = .ok t ∧ nothingLost t ∧ SameWasm t s
    | .err e => WasmSystem.run mem regH regG ms = .err e
    | .panic => WasmSystem.run mem regH regG ms = .panic := by
  have := wasm_run_same ms hsmall
  revert this
  cases Wasm.runSys .host regH regG (ms.map frameMove) with
  | ok s => intro ⟨t, h1, h2⟩; exact ⟨t, h1, h2.lost, h2.same⟩
  | err e => exact id
  | panic => exact id

theorem hostDid_ok {u u' : WasmSystem.Sys H} {x : Go (Out H)} (hx : WasmSystem.hostDid u x = .ok u') :
    ∃ a e, x = .ok (a, e) ∧ u'.trHost = u.trHost ++ e ∧ u'.trGuest = u.trGuest := by
  match x, hx with
  | .ok (a, e), hx => cases hx; exact ⟨a, e, rfl, rfl, rfl⟩
  | .err _, hx => cases hx
  | .panic, hx => cases hx

theorem guestDid_ok {u u' : WasmSystem.Sys H} {x : Go (Out H)} (hx : WasmSystem.guestDid u x = .ok u') :
    ∃ a e, x = .ok (a, e) ∧ u'.trHost = u.trHost ∧ u'.trGuest = u.trGuest ++ e := by
  match x, hx with
  | .ok (a, e), hx =>
    obtain ⟨h1, h2, -⟩ := guestSends_keeps _ hx
    exact ⟨a, e, rfl, h1, h2⟩
  | .err _, hx => cases hx
  | .panic, hx => cases hx

theorem wasmSystem_grows {t t' : WasmSystem.Sys H} {m : WasmSystem.Move} (h : WasmSystem.step t m = .ok t') :
    t.trHost <+: t'.trHost ∧ t.trGuest <+: t'.trGuest := by
  cases m with
  | atHost act =>
    simp only [WasmSystem.step] at h
    split at h
    · cases h; exact ⟨List.prefix_rfl, List.prefix_rfl⟩
    · obtain ⟨a, e, -, h2, h3⟩ := hostDid_ok h
      exact ⟨⟨e, h2.symm⟩, ⟨[], by rw [h3]; simp⟩⟩
  | atGuest act =>
    simp only [WasmSystem.step] at h
    split at h
    · cases h; exact ⟨List.prefix_rfl, List.prefix_rfl⟩
    · obtain ⟨a, e, -, h2, h3⟩ := guestDid_ok h
      exact ⟨⟨[], by rw [h2]; simp⟩, ⟨e, h3.symm⟩⟩
  | recvLoop r =>
    simp only [WasmSystem.step] at h
    split at h
    · cases h; exact ⟨List.prefix_rfl, List.prefix_rfl⟩
    · obtain ⟨a, e, -, h2, h3⟩ := hostDid_ok h
      exact ⟨⟨e, h2.symm⟩, ⟨[], by rw [h3]; simp⟩⟩
  | sendLoop r =>
    simp only [WasmSystem.step] at h
    split at h
    · cases h; exact ⟨List.prefix_rfl, List.prefix_rfl⟩
    · obtain ⟨⟨buf, n⟩, -, h⟩ := bind_ok_inv h
      obtain ⟨u, hu, h⟩ := bind_ok_inv h
      split at h
      · cases h
      · cases h
        obtain ⟨a, e, -, h2, h3⟩ := guestDid_ok hu
        exact ⟨⟨[], by rw [h2]; simp⟩, ⟨e, h3.symm⟩⟩

/-- What is seen in a step is what the end has done. -/
theorem wasm_step_traces {mem : WasmSystem.Mem} {t t' : WasmSystem.Sys H} {s : System.Sys H} {m : WasmSystem.Move}
    {regH regG : Registry H} {ms : List System.Move}
    (hr : Wasm.runSys .host regH regG ms = .ok s) (hi : WasmInv mem t s) (hfit : allFit mem s.trA s.trB)
    (h : WasmSystem.step t m = .ok t') :
    ∃ s', Wasm.stepSys .host s (frameMove m) = .ok s' ∧ t'.trHost = s'.trA ∧ t'.trGuest = s'.trB := by
  cases m with
  | atHost act =>
    simp only [frameMove, Wasm.stepSys, WasmSystem.step] at h ⊢
    split at h
    · rename_i hn; cases h; exact ⟨s, by rw [if_pos hn], hi.same.trHost, hi.same.trGuest⟩
    · rename_i hn
      obtain ⟨a, e, h1, h2, h3⟩ := hostDid_ok h
      rw [if_neg hn]
      unfold Wasm.moveA
      rw [← hi.same.host, h1]
      exact ⟨_, rfl, by rw [h2, hi.same.trHost], by rw [h3, hi.same.trGuest]⟩
  | atGuest act =>
    simp only [frameMove, Wasm.stepSys, WasmSystem.step] at h ⊢
    split at h
    · rename_i hn; cases h; exact ⟨s, by rw [if_pos hn], hi.same.trHost, hi.same.trGuest⟩
    · rename_i hn
      obtain ⟨a, e, h1, h2, h3⟩ := guestDid_ok h
      rw [if_neg hn]
      unfold Wasm.moveB
      rw [← hi.same.guest, show Wasm.Side.other .host = .guest from rfl, h1]
      exact ⟨_, rfl, by rw [h2, hi.same.trHost], by rw [h3, hi.same.trGuest]⟩
  | recvLoop r =>
    simp only [frameMove, Wasm.stepSys, WasmSystem.step] at h ⊢
    cases hq : s.ba with
    | nil =>
      have : t.recvCh = [] := by rw [hi.same.recvCh, hq]; rfl
      rw [this] at h
      cases h
      exact ⟨s, rfl, hi.same.trHost, hi.same.trGuest⟩
    | cons f fs =>
      have hc : t.recvCh = frameWire f :: fs.map frameWire := by rw [hi.same.recvCh, hq]; rfl
      have hf := (wasm_queued hr).2 f (by rw [hq]; exact List.mem_cons_self ..)
      have hb := recvBytes_frame ((wasm_frames hr).2 f hf) (hfit.2 f hf) t.host r
      rw [hc] at h
      dsimp only at h
      rw [hb, hi.same.host] at h
      obtain ⟨a, e, h1, h2, h3⟩ := hostDid_ok h
      unfold Wasm.moveA
      dsimp only
      rw [show Wasm.step .host s.a (.frame f r) = Wasm.recv s.a f r from rfl, h1]
      exact ⟨_, rfl, by rw [h2]; exact congrArg (· ++ e) hi.same.trHost, by rw [h3]; exact hi.same.trGuest⟩
  | sendLoop r =>
    simp only [frameMove, Wasm.stepSys, WasmSystem.step] at h ⊢
    cases hq : s.ab with
    | nil =>
      have : t.sendCh = [] := by rw [hi.same.sendCh, hq]
      rw [this] at h
      cases h
      exact ⟨s, rfl, hi.same.trHost, hi.same.trGuest⟩
    | cons f fs =>
      have hc : t.sendCh = f :: fs := by rw [hi.same.sendCh, hq]
      have hf := (wasm_queued hr).1 f (by rw [hq]; exact List.mem_cons_self ..)
      have hp := (wasm_frames hr).1 f hf
      have hfi := hfit.1 f hf
      have hb := recvBytes_frame hp hfi t.guest r
      obtain ⟨buf, n, e1, e2, e3⟩ := hostWrite_fit (buf := t.guestBuf) hp (by rw [hi.guestBuf]; exact hfi)
      rw [hc] at h
      simp only [e1, Go.bind_ok, e3, recvAll_one, hb] at h
      obtain ⟨u, hu, h⟩ := bind_ok_inv h
      rw [if_neg (by simp)] at h
      cases h
      rw [hi.same.guest] at hu
      obtain ⟨a, e, h1, h2, h3⟩ := guestDid_ok hu
      unfold Wasm.moveB
      dsimp only
      rw [show Wasm.step (Wasm.Side.other .host) s.b (.frame f r) = Wasm.recv s.b f r from rfl, h1]
      exact ⟨_, rfl, by rw [h2]; exact hi.same.trHost, by rw [h3]; exact congrArg (· ++ e) hi.same.trGuest⟩

theorem allFit_prefix {mem : WasmSystem.Mem} {a a' b b' : List (Handler.Ev H)} (ha : a <+: a') (hb : b <+: b')
    (h : allFit mem a' b') : allFit mem a b := by
  obtain ⟨x, rfl⟩ := ha
  obtain ⟨y, rfl⟩ := hb
  unfold allFit at h ⊢
  rw [sentFrames_append, sentFrames_append] at h
  exact ⟨fun f hf => h.1 f (List.mem_append_left _ hf), fun f hf => h.2 f (List.mem_append_left _ hf)⟩

theorem wasm_run_frames {mem : WasmSystem.Mem} {regH regG : Registry H} (ms : List WasmSystem.Move) : ∀ {t : WasmSystem.Sys H},
    WasmSystem.run mem regH regG ms = .ok t → allFit mem t.trHost t.trGuest →
    ∃ s, Wasm.runSys .host regH regG (ms.map frameMove) = .ok s ∧ WasmInv mem t s := by
  induction ms using snoc_induction with
  | nil => intro t h _; cases h; exact ⟨_, rfl, wasm_init_inv mem regH regG⟩
  | snoc ms m ih =>
    intro t h hfit
    rw [wasmSystem_snoc] at h
    obtain ⟨u, h1, h2⟩ := bind_ok_inv h
    have hg := wasmSystem_grows h2
    obtain ⟨s, h3, hi⟩ := ih h1 (allFit_prefix hg.1 hg.2 hfit)
    have hfs : allFit mem s.trA s.trB := by
      rw [← hi.same.trHost, ← hi.same.trGuest]; exact allFit_prefix hg.1 hg.2 hfit
    obtain ⟨s', h4, h5, h6⟩ := wasm_step_traces h3 hi hfs h2
    have := wasm_step_same m h3 hi hfs fun s'' hs => by
      rw [h4] at hs; cases hs; rw [← h5, ← h6]; exact hfit
    rw [h4, h2] at this
    obtain ⟨t', e, hi'⟩ := this
    cases e
    exact ⟨s', by rw [List.map_append, List.map_cons, List.map_nil, runSys_snoc, h3]; exact h4, hi'⟩

/-- C110, partial: the same for what was really sent. Missing: larger frames. -/
theorem C110_frames_partial (mem : WasmSystem.Mem) (regH regG : Registry H) (ms : List WasmSystem.Move)
    (t : WasmSystem.Sys H) (h : WasmSystem.run mem regH regG ms = .ok t) (hfit : allFit mem t.trHost t.trGuest) :
    nothingLost t ∧ ∃ s, Wasm.runSys .host regH regG (ms.map frameMove) = .ok s ∧ SameWasm t s := by
  obtain ⟨s, h1, h2⟩ := wasm_run_frames ms h hfit
  exact ⟨h2.lost, s, h1, h2.same⟩

/-! ## Frames that are too large -/

def noErr {α : Type} (x : Go α) : Prop := ∀ e, x ≠ .err e

theorem noErr_bind {α β : Type} {x : Go α} {k : α → Go β} (hx : noErr x) (hk : ∀ a, noErr (k a)) : noErr (x >>= k) := by
  intro e h
  cases x with
  | ok a => exact hk a e h
  | err e' => exact hx e' rfl
  | panic => cases h

theorem noErr_ok {α : Type} (a : α) : noErr (.ok a) := fun _ h => by cases h

theorem noErr_put (c : Cur) (w : Bytes) : noErr (c.put w) := by
  intro e h
  unfold Cur.put at h
  split at h <;> cases h

theorem noErr_skip (c : Cur) (n : Nat) : noErr (c.skip n) := by
  intro e h
  unfold Cur.skip at h
  split at h <;> cases h

theorem noErr_putMetadata (c : Cur) (md : Bytes) : noErr (putMetadata c md) := by
  unfold putMetadata
  dsimp only
  split
  · exact noErr_bind (noErr_put _ _) fun _ => noErr_skip _ _
  · exact noErr_ok _

theorem noErr_encode {f : AnyFrame} (ho : Ordinary f) (buf : Bytes) : noErr (f.encode buf) := by
  cases f with
  | setup f => exact ho.elim
  | request f =>
    refine noErr_bind (noErr_put _ _) fun c => ?_
    dsimp only
    split
    · exact noErr_bind (noErr_put _ _) fun c => noErr_bind (noErr_putMetadata _ _) fun c => noErr_ok _
    · exact noErr_bind (noErr_ok _) fun c => noErr_bind (noErr_putMetadata _ _) fun c => noErr_ok _
  | payload f => exact noErr_bind (noErr_put _ _) fun c => noErr_bind (noErr_putMetadata _ _) fun c => noErr_ok _
  | requestN f => exact noErr_bind (noErr_put _ _) fun c => noErr_bind (noErr_put _ _) fun c => noErr_ok _
  | cancel f => exact noErr_bind (noErr_put _ _) fun c => noErr_ok _
  | error f => exact noErr_bind (noErr_put _ _) fun c => noErr_bind (noErr_put _ _) fun c => noErr_ok _

theorem hostWrite_large {f : AnyFrame} {buf buf' : Bytes} {n : UInt32} (h24 : f.size.toNat < 2 ^ 24)
    (hb : buf.length < 3 + f.size.toNat) (h : Wasm.hostWrite buf f = .ok (buf', n)) :
    Wasm.guestSend buf' 0 n = ([], true) := by
  obtain ⟨body, -, rfl, rfl, hl⟩ := hostWrite_shape h
  have hn : beNat ((be24 f.size ++ body).take 3) = f.size.toNat := by
    rw [List.take_append_of_le_length (by simp), List.take_of_length_le (by simp), beNat_be24]
    omega
  have hc : (0 : UInt32) < 3 + f.size := by
    rw [UInt32.lt_iff_toNat_lt, UInt32.toNat_add]
    simp; omega
  rw [Wasm.guestSend, if_pos hc]
  split
  · rfl
  · rw [dif_pos (by rw [hn]; simp; omega)]

/-- C110: what happens to a frame of the host that does not fit in the guest's buffer: the guest crashes. -/
theorem C110_host_large (t : WasmSystem.Sys H) (f : AnyFrame) (fs : List AnyFrame) (r : React) (hq : t.sendCh = f :: fs)
    (ho : Ordinary f) (hbuf : t.guestBuf.length < 3 + (frameWire f).length) (h24 : (frameWire f).length < 2 ^ 24) :
    WasmSystem.step t (.sendLoop r) = .panic := by
  have hs := size_eq_length ho (by have := body_le_wire f ho; omega)
  simp only [WasmSystem.step, hq]
  cases hw : Wasm.hostWrite t.guestBuf f with
  | panic => rfl
  | err e =>
    exact absurd hw (noErr_bind (noErr_skip _ _) (fun c => noErr_bind (noErr_encode ho _) fun _ => noErr_ok _) e)
  | ok x =>
    obtain ⟨buf', n⟩ := x
    simp only [Go.bind_ok, hostWrite_large (by omega) (by omega) hw]
    rfl

end

theorem fnf_wire (d e : Bytes) : frameWire (fnf109 (d ++ e)) = frameWire (fnf109 d) ++ e := by
  simp [frameWire, fnf109, Spec.requestWire, Spec.metadataBlock]

theorem fnf_truncated (d buf : Bytes) (hb : 6 ≤ buf.length) (hd : buf.length - 6 ≤ d.length) (h32 : buf.length < 2 ^ 31) :
    (fnf109 d).encode buf = .ok (frameWire (fnf109 (d.take (buf.length - 6)))) := by
  have h1 : ∀ e : Bytes, (fnf109 e).encode buf = .ok
      (headerBytes 1 typeRequestFNF (RequestPayload.flags ⟨typeRequestFNF, 1, [], [], false, true, 1⟩) ++
        e.take (buf.length - 6) ++ buf.drop (6 + e.length)) := by
    intro e
    show RequestPayload.encode ⟨typeRequestFNF, 1, [], e, false, true, 1⟩ buf = _
    have hf : RequestPayload.flags ⟨typeRequestFNF, 1, [], e, false, true, 1⟩ =
      RequestPayload.flags ⟨typeRequestFNF, 1, [], [], false, true, 1⟩ := rfl
    unfold RequestPayload.encode
    simp only [hf]
    rw [putHeader_ok _ _ _ (by simpa using hb)]
    simp [putMetadata, Cur.all, Cur.copy, hasInitialN, typeRequestFNF, typeRequestStream, typeRequestChannel]
  have h2 : frameWire (fnf109 []) =
      headerBytes 1 typeRequestFNF (RequestPayload.flags ⟨typeRequestFNF, 1, [], [], false, true, 1⟩) := by decide +kernel
  rw [h1, ← h2, ← fnf_wire, List.nil_append, List.drop_eq_nil_of_le (by omega), List.append_nil]

theorem fnf_length (d : Bytes) : (frameWire (fnf109 d)).length = 6 + d.length := by
  have := fnf_wire [] d
  rw [List.nil_append] at this
  rw [this, List.length_append]
  rfl

theorem fnf_proper (d : Bytes) : Proper (fnf109 d) :=
  ⟨⟨.inr (.inl rfl), rfl, fun _ _ => rfl⟩, by show (1 : UInt32).toNat < _; decide⟩

/-- A request of the guest that is one byte too large for the buffer. -/
theorem leak_send (low high d buf : Bytes) (x : UInt8) (k : Nat) (hd : d.length = k + 1) (hb : buf.length = k + 9)
    (hk : k < 2 ^ 20) : ∃ buf' n, Wasm.guestWrite buf (fnf109 d) = .ok (buf', n) ∧
    Wasm.hostSend (low ++ buf' ++ x :: high) low.length n = ([frameWire (fnf109 (d.take k ++ [x]))], false) := by
  have hs : (fnf109 d).size.toNat = k + 7 := by
    rw [size_eq_length (fnf_proper d).1 (by show ([] : Bytes).length + d.length + 13 < _; simp; omega), fnf_length]
    omega
  generalize hsz : (fnf109 d).size = sz at hs
  have he := fnf_truncated d (buf.drop 3) (by simp; omega) (by simp; omega) (by simp; omega)
  rw [List.length_drop, hb, show k + 9 - 3 - 6 = k by omega] at he
  have hl : (frameWire (fnf109 (d.take k ++ [x]))).length = sz.toNat := by
    rw [fnf_length, List.length_append, List.length_take, hd, hs]; simp; omega
  have hz : (sz + 3) = UInt32.ofNat (3 + sz.toNat) := by
    apply UInt32.toNat_inj.mp
    rw [UInt32.toNat_ofNat_lt (by omega), UInt32.toNat_add]
    simp; omega
  have hg := C51_host_splits [frameWire (fnf109 (d.take k ++ [x]))] low high
    (by simp only [List.mem_singleton, forall_eq]; omega)
    (by simp only [List.flatMap_cons, List.flatMap_nil, List.append_nil, framed_len3]; omega)
  simp only [List.flatMap_cons, List.flatMap_nil, List.append_nil, framed_len3, hl] at hg
  refine ⟨be24 sz ++ frameWire (fnf109 (d.take k)), sz + 3, ?_, ?_⟩
  · unfold Wasm.guestWrite
    rw [if_neg (by omega), he, hsz]
    rfl
  · rw [← hg, framed, hl, fnf_wire, UInt32.ofNat_toNat, hz]
    simp only [List.append_assoc, List.cons_append, List.nil_append]

/-- After this request. -/
def leaked110 (gs hs : Nat) (buf low high d e : Bytes) : WasmSystem.Sys Unit :=
  ⟨addTasks (.init oneHandler false) [.request .fnf 1 e [] 1],
    (call (.init oneHandler true) .fnf ⟨d, []⟩ .created).1, [], [], List.replicate gs 0,
    buf, ⟨gs, hs, low, high⟩, [], [frameWire (fnf109 e)], [], [.sent none (fnf109 d)]⟩

def sentLeak (gs hs : Nat) (buf low high d e : Bytes) : WasmSystem.Sys Unit :=
  ⟨.init oneHandler false,
    (call (.init oneHandler true) .fnf ⟨d, []⟩ .created).1, [], [frameWire (fnf109 e)], List.replicate gs 0,
    buf, ⟨gs, hs, low, high⟩, [], [], [], [.sent none (fnf109 d)]⟩

theorem leak_step (mem : WasmSystem.Mem) (d : Bytes) :
    WasmSystem.step (.init mem oneHandler oneHandler) (.atGuest (.call .fnf ⟨d, []⟩ .created)) =
    WasmSystem.guestSends ⟨.init oneHandler false, (call (.init oneHandler true) .fnf ⟨d, []⟩ .created).1, [], [],
      List.replicate mem.guestSize 0, List.replicate mem.hostSize 0, mem, [], [], [], [.sent none (fnf109 d)]⟩
      [fnf109 d] := by
  have hc : Wasm.step (H := Unit) .guest (.init oneHandler true) (.call .fnf ⟨d, []⟩ .created) =
    .ok ((call (.init oneHandler true) .fnf ⟨d, []⟩ .created).1, [.sent none (fnf109 d)]) := rfl
  have hg : ∀ t : WasmSystem.Sys Unit, t.guest = .init oneHandler true →
      WasmSystem.step t (.atGuest (.call .fnf ⟨d, []⟩ .created)) =
      WasmSystem.guestSends ⟨t.host, (call (.init oneHandler true) .fnf ⟨d, []⟩ .created).1, t.sendCh, t.recvCh,
        t.guestBuf, t.hostBuf, t.mem, t.atGuest, t.atHost, t.trHost, t.trGuest ++ [.sent none (fnf109 d)]⟩
        (System.wire [Ev.sent (H := Unit) none (fnf109 d)]) := by
    intro t ht
    simp only [WasmSystem.step]
    rw [if_neg (by simp [System.isFrame]), ht, hc]
    rfl
  exact hg _ rfl

theorem leak_run (gs : Nat) (low high d : Bytes) (x : UInt8) (k : Nat) (hd : d.length = k + 1) (hk : k < 2 ^ 20) :
    ∃ buf, WasmSystem.run ⟨gs, k + 9, low, x :: high⟩ oneHandler oneHandler
      [.atGuest (.call .fnf ⟨d, []⟩ .created), .recvLoop noReact] =
        .ok (leaked110 gs (k + 9) buf low (x :: high) d (d.take k ++ [x])) := by
  have hb : (List.replicate (k + 9) (0 : UInt8)).length = k + 9 := List.length_replicate
  obtain ⟨buf', n, h1, h2⟩ := leak_send low high d _ x k hd hb hk
  have h3 := recvBytes_frame (n := 2 ^ 24) (fnf_proper (d.take k ++ [x]))
    (by unfold fitsIn; rw [fnf_length, List.length_append, List.length_take, hd]; simp; omega)
    (St.init (H := Unit) oneHandler false) noReact
  refine ⟨buf', ?_⟩
  have s1 : WasmSystem.step (.init ⟨gs, k + 9, low, x :: high⟩ oneHandler oneHandler)
      (.atGuest (.call .fnf ⟨d, []⟩ .created)) =
      .ok (sentLeak gs (k + 9) buf' low (x :: high) d (d.take k ++ [x])) := by
    have h4 : ∀ t : WasmSystem.Sys Unit, t.hostBuf = List.replicate (k + 9) 0 → t.mem = ⟨gs, k + 9, low, x :: high⟩ →
        WasmSystem.guestSends t [fnf109 d] =
          .ok { t with hostBuf := buf', recvCh := t.recvCh ++ [frameWire (fnf109 (d.take k ++ [x]))] } := by
      intro t e1 e2
      simp only [WasmSystem.guestSends, e1, e2, h1, Go.bind_ok, h2]
      rw [if_neg (by simp)]
    rw [leak_step]
    exact h4 _ rfl rfl
  have s2 : WasmSystem.step (sentLeak gs (k + 9) buf' low (x :: high) d (d.take k ++ [x])) (.recvLoop noReact) =
      .ok (leaked110 gs (k + 9) buf' low (x :: high) d (d.take k ++ [x])) := by
    show WasmSystem.hostDid _ (WasmSystem.recvBytes (St.init (H := Unit) oneHandler false)
      (frameWire (fnf109 (d.take k ++ [x]))) noReact) = _
    rw [h3]
    rfl
  unfold WasmSystem.run
  simp only [WasmSystem.runFrom, s1, s2, Go.bind_ok]

/-- C110 fails: of a frame of the guest that is too large for the 16 KiB of the buffer by one byte, the host handles a different
one, which ends in the byte of the guest's memory behind the buffer. -/
theorem C110_leak_violated (low high d : Bytes) (x : UInt8) (hd : d.length = 16376) :
    ∃ t, WasmSystem.run (WasmSystem.newInstance low (x :: high)) oneHandler oneHandler
      [.atGuest (.call .fnf ⟨d, []⟩ .created), .recvLoop noReact] = .ok t ∧
      sentFrames t.trGuest = [fnf109 d] ∧ t.atHost = [frameWire (fnf109 (d.take 16375 ++ [x]))] := by
  obtain ⟨buf, h⟩ := leak_run 16384 low high d x 16375 hd (by decide)
  exact ⟨_, h, rfl, rfl⟩

theorem C110_violated : ¬ C110_statement Unit := by
  intro hc
  have hl : (List.replicate 16375 (0 : UInt8)).length = 16375 := List.length_replicate
  generalize List.replicate 16375 (0 : UInt8) = e at hl
  have hd : (e ++ [0]).length = 16376 := by rw [List.length_append, hl]; rfl
  obtain ⟨t, h1, h2, h3⟩ := C110_leak_violated [] [] (e ++ [0]) 1 hd
  have := hc (WasmSystem.newInstance [] [1]) oneHandler oneHandler
    [.atGuest (.call .fnf ⟨e ++ [0], []⟩ .created), .recvLoop noReact]
  have hr : ∃ s, Wasm.runSys .host oneHandler oneHandler
      ([WasmSystem.Move.atGuest (.call .fnf ⟨e ++ [0], []⟩ .created), .recvLoop noReact].map frameMove) = .ok s := ⟨_, rfl⟩
  obtain ⟨s, hr⟩ := hr
  rw [hr] at this
  obtain ⟨t', e1, e2, -⟩ := this
  rw [h1] at e1
  cases e1
  have e2 := e2.2
  rw [h2, h3] at e2
  have e3 := (List.cons.inj e2).1
  rw [show List.take 16375 (e ++ [0]) = e by rw [← hl]; simp, fnf_wire, fnf_wire] at e3
  have := List.append_cancel_left e3
  revert this
  decide

/-! ## A concrete run -/

/-- Buffers of 32 bytes. -/
def mem110 : WasmSystem.Mem := ⟨32, 32, [9], [8, 7]⟩

/-- The host calls the guest and the guest answers; then the guest calls the host. -/
def moves110 : List WasmSystem.Move :=
  [.atHost (.call .rr ⟨[1, 2], eightZeros⟩ .created), .atHost (.subscribeMono 0 ⟨true, true, true⟩),
   .sendLoop noReact, .atGuest (.run 0 { retCreated with kept := true }), .atGuest (.answer 0 (.success ⟨[7], []⟩)),
   .atGuest (.call .fnf ⟨[3], eightZeros⟩ .created), .recvLoop noReact]

def fitCheck (x : Go (System.Sys Unit)) : Bool :=
  match x with
  | .ok s => (sentFrames s.trA).all (fun f => decide (3 + (frameWire f).length ≤ 32)) &&
      (sentFrames s.trB).all (fun f => decide (3 + (frameWire f).length ≤ 32))
  | _ => true

theorem fitCheck_ok {x : Go (System.Sys Unit)} {s : System.Sys Unit} (h : fitCheck x = true) (hx : x = .ok s) :
    allFit mem110 s.trA s.trB := by
  subst hx
  simp only [fitCheck, Bool.and_eq_true, List.all_eq_true, decide_eq_true_eq] at h
  have key : ∀ f, 3 + (frameWire f).length ≤ 32 → fitsIn 32 f := fun f hf => ⟨hf, by omega⟩
  exact ⟨fun f hf => key f (h.1 f hf), fun f hf => key f (h.2 f hf)⟩

/-- The hypothesis of C110_same_partial is met, and the run is not empty: an answer has come in at the host, and a request is on its way. -/
example : keepsSmall mem110 oneHandler oneHandler moves110 ∧
    (match WasmSystem.run mem110 oneHandler oneHandler moves110 with
      | .ok t => (t.atHost.length, t.atGuest.length, t.recvCh.length, t.sendCh.length)
      | _ => (0, 0, 0, 0)) = (1, 1, 1, 0) := by
  refine ⟨?_, by decide +kernel⟩
  intro pre s hp hs
  refine fitCheck_ok ?_ hs
  have hk : ∀ k < 8, fitCheck (Wasm.runSys .host oneHandler oneHandler ((moves110.take k).map frameMove)) = true := by
    decide +kernel
  rw [List.prefix_iff_eq_take.mp hp]
  exact hk _ (Nat.lt_succ_of_le hp.length_le)

/-- The hypotheses of C110_frames_partial. -/
example : ∃ t, WasmSystem.run mem110 oneHandler oneHandler moves110 = .ok t ∧ allFit mem110 t.trHost t.trGuest ∧
    nothingLost t := by
  have h : ∀ x : Go (WasmSystem.Sys Unit), (match x with
      | .ok t => (sentFrames t.trHost).all (fun f => decide (3 + (frameWire f).length ≤ 32)) &&
        (sentFrames t.trGuest).all (fun f => decide (3 + (frameWire f).length ≤ 32))
      | _ => false) = true → ∃ t, x = .ok t ∧ allFit mem110 t.trHost t.trGuest := by
    intro x hx
    match x, hx with
    | .ok t, h =>
      simp only [Bool.and_eq_true, List.all_eq_true, decide_eq_true_eq] at h
      have key : ∀ f, 3 + (frameWire f).length ≤ 32 → fitsIn 32 f := fun f hf => ⟨hf, by omega⟩
      exact ⟨t, rfl, fun f hf => key f (h.1 f hf), fun f hf => key f (h.2 f hf)⟩
  obtain ⟨t, h1, h2⟩ := h (WasmSystem.run mem110 oneHandler oneHandler moves110) (by decide +kernel)
  exact ⟨t, h1, h2, (C110_frames_partial _ _ _ _ _ h1 h2).1⟩

/-- The hypotheses of C110_host_large: a request of 33 bytes in a buffer of 32. -/
example : ∃ t, WasmSystem.run mem110 oneHandler oneHandler
      [.atHost (.call .fnf ⟨List.replicate 24 5, []⟩ .created)] = .ok t ∧
    WasmSystem.step t (.sendLoop noReact) = .panic := by
  refine ⟨_, rfl, C110_host_large _ _ _ _ rfl ⟨.inr (.inl rfl), rfl, fun _ _ => rfl⟩ ?_ ?_⟩ <;> decide +kernel

end Verif.Props
