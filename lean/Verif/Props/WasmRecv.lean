import Verif.Model.WasmRecv
import Verif.Spec.Reassembly
import Verif.Props.Frames2
import Verif.Props.WasmBuffers
/-
Properties C65, C76, C77, C78 and C79: requests received over wasm.
-/
set_option autoImplicit false
namespace Verif.Props
open Verif Frames
open Verif.Invoke (Kind)
open Verif.Handler (Pay)

section
variable {H : Type}

/-- The kind of request a frame type stands for. -/
def kindSpec (t : UInt8) (k : Kind) : Prop :=
  t = 4 ∧ k = .rr ∨ t = 5 ∧ k = .fnf ∨ t = 6 ∧ k = .rs ∨ t = 7 ∧ k = .rc

instance (t : UInt8) (k : Kind) : Decidable (kindSpec t k) := inferInstanceAs (Decidable (_ ∨ _))

/-- The handler calls in a trace: kind, handler, stream and data. -/
def wasmCalls : List (WasmRecv.Ev H) → List (Kind × H × UInt32 × Bytes)
  | [] => []
  | .invoked k h id p _ :: es => (k, h, id, p.data) :: wasmCalls es
  | _ :: es => wasmCalls es

theorem wasmCalls_append (a b : List (WasmRecv.Ev H)) :
    wasmCalls (a ++ b) = wasmCalls a ++ wasmCalls b := by
  induction a with
  | nil => rfl
  | cons e a ih => cases e <;> simp [wasmCalls, ih]

/-- A request small enough for the wire. -/
structure FitsWire (r : RequestPayload) : Prop where
  kind : isRequest r.frameType
  id : r.streamID.toNat < 2^31
  md : r.metadata.length < 2^24

/-- A payload frame small enough for the wire. -/
structure PayloadFits (p : Payload) : Prop where
  id : p.streamID.toNat < 2^31
  md : p.metadata.length < 2^24

/-- C65 as stated in English: a request and the payload frames continuing it make up metadata and data
(rule of reassembly: Spec/Reassembly.lean); then exactly the handler of its kind for the operation in the
first four metadata bytes is called, once, with all of the data. -/
def C65_statement : Prop :=
  ∀ (H : Type) (side : WasmRecv.Side) (hs : WasmRecv.Handlers H) (r : RequestPayload) (ps : List Payload)
    (md data : Bytes) (complete : Bool) (k : Kind) (op : UInt32) (h : H),
    FitsWire r → (∀ p ∈ ps, PayloadFits p ∧ p.streamID = r.streamID) →
    Spec.reassembleRequest r ps = some (md, data, complete, []) →
    8 ≤ md.length → md.take 4 = Spec.bigEndian 4 op.toNat → kindSpec r.frameType k → hs k op = some h →
    ∃ s tr, WasmRecv.recvAll side hs .init (Spec.requestWire r :: ps.map Spec.payloadWire) = .ok (s, tr) ∧
      wasmCalls tr = [(k, h, r.streamID, data)]

/-! ### What the receiver sees of a request, fragmented or not -/

/-- The flags on the wire (the code's own encoder never sets follows). -/
def wireFlags (f : RequestPayload) : UInt16 := f.flags ||| (if f.follows then flagFollow else 0)

theorem wireFlags_toNat (f : RequestPayload) (hmd : f.metadata.length < 2^24) :
    (wireFlags f).toNat = Spec.mdFlag f.metadata + Spec.bit f.follows 0x80 +
      Spec.bit (f.frameType == 7 && f.complete) 0x40 := by
  have hp := UInt32.ofNat_pos_iff (n := f.metadata.length) (by omega)
  have h0 : 0 < f.metadata.length ↔ f.metadata ≠ [] := List.length_pos_iff
  unfold wireFlags RequestPayload.flags
  simp only [hp, h0, typeRequestChannel]
  rcases (Bool.eq_false_or_eq_true (f.frameType == 7 && f.complete)).symm with hb | hb <;>
    rcases (Bool.eq_false_or_eq_true f.follows).symm with hf | hf <;>
    by_cases hm : f.metadata = [] <;> simp [hb, hf, hm, Spec.mdFlag, Spec.bit] <;> decide

theorem wireFlags_lt (f : RequestPayload) (hmd : f.metadata.length < 2^24) : (wireFlags f).toNat < 1024 := by
  rw [wireFlags_toNat f hmd]
  unfold Spec.mdFlag Spec.bit
  split <;> split <;> split <;> omega

theorem wireFlags_check (f : RequestPayload) (hmd : f.metadata.length < 2^24) :
    check (wireFlags f) flagMetadata = decide (f.metadata ≠ []) ∧
    check (wireFlags f) flagFollow = f.follows ∧
    check (wireFlags f) flagComplete = (f.frameType == typeRequestChannel && f.complete) := by
  have hp := UInt32.ofNat_pos_iff (n := f.metadata.length) (by omega)
  have h0 : 0 < f.metadata.length ↔ f.metadata ≠ [] := List.length_pos_iff
  unfold wireFlags RequestPayload.flags
  simp only [hp, h0]
  generalize (f.frameType == typeRequestChannel && f.complete) = b
  by_cases hm : f.metadata = [] <;> cases b <;> cases f.follows <;> simp [hm] <;> decide

/-- The receiver decodes any specified request, also one with the follows flag. -/
theorem request_seen (f : RequestPayload) (w : FitsWire f) :
    ∃ h body, parseHeader (Spec.requestWire f) = .ok h ∧ sliceFrom (Spec.requestWire f) 6 = .ok body ∧
      RequestPayload.decode h body = .ok (requestSeen f) ∧ h.type = f.frameType ∧ h.streamID = f.streamID := by
  obtain ⟨ht, hid, hmd⟩ := w
  have hlt := wireFlags_lt f hmd
  have htt : f.frameType.toNat < 64 := by
    rcases ht with h | h | h | h <;> rw [h] <;> decide
  have hw : Spec.requestWire f = headerBytes f.streamID f.frameType (wireFlags f) ++
      ((if hasInitialN f.frameType then be32 f.initialN else []) ++
        (Spec.metadataBlock f.metadata ++ f.data)) := by
    rw [headerBytes_eq htt hlt, wireFlags_toNat f hmd]
    simp [Spec.requestWire, hasInitialN_iff, Spec.be32_eq]
  refine ⟨mkHeader f.streamID f.frameType (wireFlags f), (if hasInitialN f.frameType then be32 f.initialN else []) ++
        (Spec.metadataBlock f.metadata ++ f.data), ?_, ?_, ?_, mkHeader_type _ htt hlt, mkHeader_streamID _ _ hid⟩
  · rw [hw, parseHeader_headerBytes]
  · rw [hw, sliceFrom_append' _ _ _ (by simp [headerBytes])]
  simp only [RequestPayload.decode, mkHeader_flag _ htt hlt,
    mkHeader_streamID _ _ hid, mkHeader_type _ htt hlt]
  have hc := wireFlags_check f hmd
  by_cases hn : hasInitialN f.frameType
  · simp only [hn, if_true, getU32_be32, Go.bind_ok]
    rw [sliceFrom_append' _ _ _ (by simp)]
    simp only [Go.bind_ok, Go.pure_eq]
    rw [getMetadata_ok hmd _ hc.1]
    have := (hasInitialN_iff _).mp hn
    obtain ⟨ft, id, md, data, fo, co, n⟩ := f
    simp only at *
    simp only [Go.bind_ok, hc, requestSeen]
    rcases this with h | h <;> subst h <;> simp [typeRequestChannel]
  · simp only [hn, Bool.false_eq_true, if_false, List.nil_append, Go.pure_eq, Go.bind_ok]
    rw [getMetadata_ok hmd _ hc.1]
    have := mt (hasInitialN_iff _).mpr hn
    obtain ⟨ft, id, md, data, fo, co, n⟩ := f
    simp only at *
    simp only [Go.bind_ok, hc, requestSeen]
    have h7 : ft ≠ 7 := fun h => this (Or.inr h)
    have h6 : ft ≠ 6 := fun h => this (Or.inl h)
    simp [h6, h7, typeRequestChannel]

theorem kindOfType_spec {t : UInt8} {k : Kind} (h : kindSpec t k) :
    Handler.kindOfType t = some k ∧ ¬ t ≥ typeRequestN := by
  rcases h with ⟨h, h'⟩ | ⟨h, h'⟩ | ⟨h, h'⟩ | ⟨h, h'⟩ <;> subst h h' <;> decide

theorem kindSpec_exists {t : UInt8} (h : isRequest t) : ∃ k, kindSpec t k := by
  rcases h with h | h | h | h <;> subst h
  · exact ⟨.rr, by decide⟩
  · exact ⟨.fnf, by decide⟩
  · exact ⟨.rs, by decide⟩
  · exact ⟨.rc, by decide⟩

/-- A request frame on the wire: swallowed if it has the follows flag, else served. -/
theorem recv_request (side : WasmRecv.Side) (hs : WasmRecv.Handlers H) (s : WasmRecv.St) (r : RequestPayload)
    (w : FitsWire r) {k : Kind} (hk : kindSpec r.frameType k) :
    WasmRecv.recvOne side hs s (Spec.requestWire r) =
      match WasmRecv.checkFollows s (requestSeen r) with
      | some s' => .ok (s', [])
      | none => WasmRecv.serve side hs s k r.streamID r.data r.metadata (requestSeen r).initialN := by
  obtain ⟨h, body, h1, h2, h3, h4, h5⟩ := request_seen r w
  obtain ⟨k1, k2⟩ := kindOfType_spec hk
  unfold WasmRecv.recvOne
  simp only [h1, h2, Go.bind_ok, h4, k2, if_false, k1, WasmRecv.onRequest, h3]
  rfl

theorem op_of_md {md : Bytes} {op : UInt32} (h8 : 8 ≤ md.length)
    (hop : md.take 4 = Spec.bigEndian 4 op.toNat) : getU32 md = .ok op := by
  have e : md = be32 op ++ md.drop 4 := by
    rw [Spec.be32_eq, ← hop, List.take_append_drop]
  rw [e]
  exact getU32_be32 _ _

/-! ### C76 -/

/-- C76: over wasm, on the host as on the guest, whatever was received before: an unfragmented request whose
metadata is shorter than 8 bytes, or for whose operation there is no handler, is answered by exactly one
error on its own stream and no handler is called; any other makes exactly one call, of the handler
for its own kind and the operation in its first four metadata bytes, with its own data, stream and
initial demand. -/
theorem C76_dispatch (side : WasmRecv.Side) (hs : WasmRecv.Handlers H) (s : WasmRecv.St) (r : RequestPayload)
    (w : FitsWire r) (hf : r.follows = false) (k : Kind) (hk : kindSpec r.frameType k) :
    (r.metadata.length < 8 →
      ∃ s' msg, WasmRecv.recvOne side hs s (Spec.requestWire r) = .ok (s', [.error r.streamID msg])) ∧
    (∀ op : UInt32, 8 ≤ r.metadata.length → r.metadata.take 4 = Spec.bigEndian 4 op.toNat →
      (hs k op = none →
        ∃ s' msg, WasmRecv.recvOne side hs s (Spec.requestWire r) = .ok (s', [.error r.streamID msg])) ∧
      (∀ h, hs k op = some h →
        ∃ s' p n, WasmRecv.recvOne side hs s (Spec.requestWire r) = .ok (s', [.invoked k h r.streamID p n]) ∧
          p.data = r.data ∧ (k = .rs ∨ k = .rc → n = r.initialN))) := by
  have e := recv_request side hs s r w hk
  have hc : WasmRecv.checkFollows s (requestSeen r) = none := by
    simp [WasmRecv.checkFollows, requestSeen, hf]
  rw [hc] at e
  refine ⟨fun hl => ?_, fun op h8 hop => ⟨fun hn => ?_, fun h hh => ?_⟩⟩
  · exact ⟨s, "Invalid metadata", by rw [e]; simp [WasmRecv.serve, hl]⟩
  · refine ⟨s, "not_found", ?_⟩
    rw [e]
    simp [WasmRecv.serve, Nat.not_lt.mpr h8, op_of_md h8 hop, hn]
  · refine ⟨if WasmRecv.registers side k then WasmRecv.register
        { s with objs := s.objs ++ [.responder false false] } r.streamID s.objs.length else s,
      ⟨r.data, WasmRecv.handlerMeta side k r.metadata⟩, (requestSeen r).initialN, ?_, rfl, ?_⟩
    · rw [e]
      simp [WasmRecv.serve, Nat.not_lt.mpr h8, op_of_md h8 hop, hh]
    · intro hk'
      rcases hk with ⟨a, b⟩ | ⟨a, b⟩ | ⟨a, b⟩ | ⟨a, b⟩ <;> subst b <;> simp [requestSeen, a] at hk' ⊢

theorem sink_calls (s : WasmRecv.St) (j : Nat) (e e' : List (WasmRecv.Ev H)) (h : WasmRecv.sink s j e = .ok e') :
    e' = e := by
  unfold WasmRecv.sink at h
  split at h
  · cases h
  · cases h; rfl
  · cases h

theorem request_calls (s : WasmRecv.St) (j : Nat) (n : UInt32) (e : List (WasmRecv.Ev H))
    (h : WasmRecv.request s j n = .ok e) : wasmCalls e = [] := by
  unfold WasmRecv.request at h
  split at h
  · cases h; rfl
  · cases h; rfl
  · cases h

theorem onStream_calls (s s' : WasmRecv.St) (j : Nat) (hd : Header) (body : Bytes) (tr : List (WasmRecv.Ev H))
    (h : WasmRecv.onStream s j hd body = .ok (s', tr)) : wasmCalls tr = [] := by
  unfold WasmRecv.onStream at h
  split at h
  · obtain ⟨f, _, h⟩ := bind_ok_inv h
    obtain ⟨e, he, h⟩ := bind_ok_inv h
    cases h
    exact request_calls _ _ _ _ he
  split at h
  · obtain ⟨e, he, h⟩ := bind_ok_inv h
    cases h
    rw [sink_calls _ _ _ _ he]
    rfl
  split at h
  · obtain ⟨f, _, h⟩ := bind_ok_inv h
    obtain ⟨e, he, h⟩ := bind_ok_inv h
    cases h
    unfold WasmRecv.onPayload at he
    split at he
    · rw [sink_calls _ _ _ _ he, wasmCalls_append]
      split <;> split <;> rfl
    · cases he; rfl
  split at h
  · obtain ⟨f, _, h⟩ := bind_ok_inv h
    obtain ⟨e, he, h⟩ := bind_ok_inv h
    cases h
    rw [sink_calls _ _ _ _ he]
    rfl
  · cases h; rfl

/-- Only requests make calls: whatever bytes arrive, if their type is not one of the four, no
handler is called. -/
theorem C76_only_requests (side : WasmRecv.Side) (hs : WasmRecv.Handlers H) (s s' : WasmRecv.St) (data : Bytes)
    (hd : Header) (hh : parseHeader data = .ok hd) (ht : ¬ isRequest hd.type) (tr : List (WasmRecv.Ev H))
    (h : WasmRecv.recvOne side hs s data = .ok (s', tr)) : wasmCalls tr = [] := by
  unfold WasmRecv.recvOne at h
  rw [hh] at h
  simp only [Go.bind_ok] at h
  obtain ⟨body, _, h⟩ := bind_ok_inv h
  split at h
  · split at h
    · cases h; rfl
    · exact onStream_calls _ _ _ _ _ _ h
  · have : Handler.kindOfType hd.type = none := by
      unfold Handler.kindOfType
      have h4 : hd.type ≠ typeRequestResponse := fun h => ht (Or.inl h)
      have h5 : hd.type ≠ typeRequestFNF := fun h => ht (Or.inr (Or.inl h))
      have h6 : hd.type ≠ typeRequestStream := fun h => ht (Or.inr (Or.inr (Or.inl h)))
      have h7 : hd.type ≠ typeRequestChannel := fun h => ht (Or.inr (Or.inr (Or.inr h)))
      simp [h4, h5, h6, h7]
    rw [this] at h
    cases h; rfl

/-- Operation id 1, no parent stream. -/
def opOne : Bytes := [0, 0, 0, 1, 0, 0, 0, 0]

/-- One handler `()` for every kind, under operation id 1. -/
def onlyOne : WasmRecv.Handlers Unit := fun _ op => if op = 1 then some () else none

example : FitsWire ⟨6, 2, opOne ++ [7], [5], false, false, 3⟩ ∧ kindSpec 6 .rs ∧
    (opOne ++ [7]).take 4 = Spec.bigEndian 4 (1 : UInt32).toNat ∧ onlyOne .rs 1 = some () ∧
    onlyOne .rs 2 = none :=
  ⟨⟨by decide, by decide, by decide⟩, by decide, by decide, by decide, by decide⟩

/-! ### C65 -/

theorem header_payload (p : Payload) (w : PayloadFits p) :
    ∃ hd, parseHeader (Spec.payloadWire p) = .ok hd ∧ hd.type = 10 := by
  obtain ⟨h, e, ht⟩ := payload_decode p w.id w.md
  unfold recv at e
  obtain ⟨hd, h1, e⟩ := bind_ok_inv e
  obtain ⟨b, h2, e⟩ := bind_ok_inv e
  obtain ⟨f, h3, e⟩ := bind_ok_inv e
  cases e
  exact ⟨h, h1, ht⟩

theorem payloads_no_calls (side : WasmRecv.Side) (hs : WasmRecv.Handlers H) (ps : List Payload)
    (w : ∀ p ∈ ps, PayloadFits p) : ∀ (s s' : WasmRecv.St) (tr : List (WasmRecv.Ev H)),
    WasmRecv.recvAll side hs s (ps.map Spec.payloadWire) = .ok (s', tr) → wasmCalls tr = [] := by
  induction ps with
  | nil => intro s s' tr h; cases h; rfl
  | cons p ps ih =>
    intro s s' tr h
    simp only [List.map_cons, WasmRecv.recvAll] at h
    obtain ⟨⟨s1, e1⟩, h1, h⟩ := bind_ok_inv h
    obtain ⟨⟨s2, e2⟩, h2, h⟩ := bind_ok_inv h
    cases h
    obtain ⟨hd, hh, ht⟩ := header_payload p (w p List.mem_cons_self)
    rw [wasmCalls_append, C76_only_requests side hs s s1 _ hd hh (by rw [ht]; decide) e1 h1,
      ih (fun q hq => w q (List.mem_cons_of_mem _ hq)) _ _ _ h2]
    rfl

/-- C65 fails for every fragmented request: whatever payload frames follow, in whatever state, no handler is
called. (Both receivers store the first fragment, under the wrong kind, and never look at it again.) -/
theorem C65_fragmented_never (side : WasmRecv.Side) (hs : WasmRecv.Handlers H) (s : WasmRecv.St) (r : RequestPayload)
    (w : FitsWire r) (hf : r.follows = true) (ps : List Payload) (wp : ∀ p ∈ ps, PayloadFits p)
    (s' : WasmRecv.St) (tr : List (WasmRecv.Ev H))
    (h : WasmRecv.recvAll side hs s (Spec.requestWire r :: ps.map Spec.payloadWire) = .ok (s', tr)) :
    wasmCalls tr = [] := by
  obtain ⟨k, hk⟩ := kindSpec_exists w.kind
  simp only [WasmRecv.recvAll] at h
  rw [recv_request side hs s r w hk] at h
  simp only [WasmRecv.checkFollows, requestSeen, hf, if_true, Go.bind_ok] at h
  obtain ⟨⟨s2, e2⟩, h2, h⟩ := bind_ok_inv h
  cases h
  exact payloads_no_calls side hs ps wp _ _ _ h2

/-- A request/response call in two fragments. -/
def twoFragments : RequestPayload × Payload :=
  (⟨4, 2, opOne, [5], true, true, 1⟩, ⟨2, [], [6], false, true, true⟩)

/-- C65 does not hold, on either side. -/
theorem C65_violated : ¬ C65_statement := by
  intro hst
  obtain ⟨s, tr, h, hi⟩ := hst Unit .host onlyOne twoFragments.1 [twoFragments.2] opOne [5, 6] true .rr 1 ()
    ⟨by decide, by decide, by decide⟩ (by
      intro p hp
      rcases List.mem_singleton.mp hp with rfl
      exact ⟨⟨by decide, by decide⟩, by decide⟩) (by decide) (by decide) (by decide) (by decide) (by decide)
  rw [C65_fragmented_never .host onlyOne .init twoFragments.1 ⟨by decide, by decide, by decide⟩ (by decide)
    [twoFragments.2] (by
      intro p hp
      rcases List.mem_singleton.mp hp with rfl
      exact ⟨by decide, by decide⟩) s tr h] at hi
  cases hi

/-- C65, the part that holds: a request that fits in one frame, in every state. Missing: fragmented
requests, which are never served. -/
theorem C65_unfragmented_partial (side : WasmRecv.Side) (hs : WasmRecv.Handlers H) (s : WasmRecv.St)
    (r : RequestPayload) (md data : Bytes) (complete : Bool) (k : Kind) (op : UInt32) (h : H) (w : FitsWire r)
    (hf : r.follows = false) (hr : Spec.reassembleRequest r [] = some (md, data, complete, [])) (h8 : 8 ≤ md.length)
    (hop : md.take 4 = Spec.bigEndian 4 op.toNat) (hk : kindSpec r.frameType k) (hh : hs k op = some h) :
    ∃ s' tr, WasmRecv.recvAll side hs s [Spec.requestWire r] = .ok (s', tr) ∧
      wasmCalls tr = [(k, h, r.streamID, data)] := by
  simp only [Spec.reassembleRequest, Spec.continueFrame, hf, Bool.false_eq_true, if_false, Option.some.injEq,
    Prod.mk.injEq] at hr
  obtain ⟨rfl, rfl, _, _⟩ := hr
  obtain ⟨s', p, n, e, hp, _⟩ := ((C76_dispatch side hs s r w hf k hk).2 op h8 hop).2 h hh
  refine ⟨s', [.invoked k h r.streamID p n], ?_, by simp [wasmCalls, hp]⟩
  simp [WasmRecv.recvAll, e]

example : Spec.reassembleRequest ⟨6, 2, opOne, [5], false, true, 3⟩ [] = some (opOne, [5], true, []) := by decide

/-! ### C77 -/

/-- The bytes are a complete frame of their type: the header, the fixed fields and the announced metadata
are there. -/
def CompleteFrame (hd : Header) (body : Bytes) : Prop :=
  (isRequest hd.type → ((hd.type = 6 ∨ hd.type = 7) → 4 ≤ body.length) ∧
    metadataFits (check hd.flag flagMetadata) (if hd.type = 6 ∨ hd.type = 7 then body.drop 4 else body)) ∧
  (hd.type = 8 ∨ hd.type = 11 → 4 ≤ body.length) ∧
  (hd.type = 10 → metadataFits (check hd.flag flagMetadata) body)

/-- C77 as stated in English: nothing a guest sends crashes the host. -/
def C77_statement : Prop :=
  ∀ (H : Type) (hs : WasmRecv.Handlers H) (frames : List Bytes),
    WasmRecv.recvAll .host hs .init frames ≠ .panic

/-- Whether a result is a crash. -/
def panics {α : Type} : Go α → Bool
  | .panic => true
  | _ => false

theorem of_panics {α : Type} {x : Go α} (h : panics x = true) : x = .panic := by
  cases x <;> simp_all [panics]

/-- Three bytes crash the host. -/
theorem C77_truncated_violated : WasmRecv.recvAll .host onlyOne .init [[1, 2, 3]] = .panic := rfl

/-- So do well-formed frames: a channel request (whose handler has not subscribed to its input yet) and a
cancel frame. -/
theorem C77_cancel_violated :
    WasmRecv.recvAll .host onlyOne .init
      [Spec.requestWire ⟨7, 1, opOne, [], false, false, 1⟩, Spec.cancelWire ⟨1⟩] = .panic := of_panics (by decide)

/-- A cancel frame for any stream being served crashes the guest. -/
theorem C77_guest_cancel_violated :
    WasmRecv.recvAll .guest onlyOne .init
      [Spec.requestWire ⟨6, 2, opOne, [], false, false, 1⟩, Spec.cancelWire ⟨2⟩] = .panic := of_panics (by decide)

theorem C77_violated : ¬ C77_statement := fun h => h Unit onlyOne _ C77_cancel_violated

/-- A frame of the peer reaches a stream that is not ready for it: no input sink yet, no subscription yet,
or a request-n frame on a call with a single result. -/
def NotReady (o : Option WasmRecv.Stm) (hd : Header) : Prop :=
  match o with
  | some (.responder sub sink) =>
    (hd.type = 8 ∧ sub = false) ∨
    (sink = false ∧ (hd.type = 9 ∨ hd.type = 11 ∨
      (hd.type = 10 ∧ (check hd.flag flagNext = true ∨ check hd.flag flagComplete = true))))
  | some .mono => hd.type = 8
  | some (.flux input) => hd.type = 8 ∧ input = false
  | none => hd.type = 8 ∨ hd.type = 9 ∨ hd.type = 11 ∨
      (hd.type = 10 ∧ (check hd.flag flagNext = true ∨ check hd.flag flagComplete = true))

theorem sink_panics (s : WasmRecv.St) (j : Nat) (e : List (WasmRecv.Ev H)) :
    WasmRecv.sink s j e = .panic ↔ (s.objs[j]? = none ∨ ∃ b, s.objs[j]? = some (.responder b false)) := by
  unfold WasmRecv.sink
  split
  · rename_i b he; simp [he]
  · rename_i o ho he
    simp only [he, reduceCtorEq, false_or, false_iff, not_exists]
    intro b hb
    exact ho b (Option.some.inj hb)
  · rename_i he; simp [he]

theorem request_panics (s : WasmRecv.St) (j : Nat) (n : UInt32) :
    WasmRecv.request (H := H) s j n = .panic ↔
      ¬ ((∃ b, s.objs[j]? = some (.responder true b)) ∨ s.objs[j]? = some (.flux true)) := by
  unfold WasmRecv.request
  split
  · rename_i b he; simp [he]
  · rename_i he; simp [he]
  · rename_i h1 h2
    simp only [true_iff, not_or, not_exists]
    exact ⟨h1, h2⟩

theorem bind_panic_iff {α β : Type} (x : Go α) (f : α → Go β) :
    (x >>= f) = .panic ↔ x = .panic ∨ ∃ a, x = .ok a ∧ f a = .panic := by
  cases x with
  | ok a => simp
  | err e => simp [Bind.bind, Go.bind]
  | panic => simp [Bind.bind, Go.bind]

theorem serve_no_panic (side : WasmRecv.Side) (hs : WasmRecv.Handlers H) (s : WasmRecv.St) (k : Kind) (id : UInt32)
    (data md : Bytes) (n : UInt32) : WasmRecv.serve side hs s k id data md n ≠ .panic := by
  unfold WasmRecv.serve
  split
  · simp
  · obtain ⟨op, e⟩ := (getU32_total md).1 (by omega)
    rw [e]
    simp only [Go.bind_ok]
    split <;> simp

theorem onRequest_panics (side : WasmRecv.Side) (hs : WasmRecv.Handlers H) (s : WasmRecv.St) (k : Kind) (hd : Header)
    (body : Bytes) :
    WasmRecv.onRequest side hs s k hd body = .panic ↔ RequestPayload.decode hd body = .panic := by
  unfold WasmRecv.onRequest
  rw [bind_panic_iff]
  constructor
  · rintro (h | ⟨r, _, h⟩)
    · exact h
    · split at h
      · cases h
      · exact absurd h (serve_no_panic _ _ _ _ _ _ _ _)
  · exact Or.inl

theorem not_panic_ok {α : Type} {x : Go α} (hne : ∀ e, x ≠ .err e) : x ≠ .panic ↔ ∃ a, x = .ok a := by
  cases x with
  | ok a => simp
  | err e => exact absurd rfl (hne e)
  | panic => simp

theorem onPayload_panics (s : WasmRecv.St) (j : Nat) (f : Payload) :
    WasmRecv.onPayload (H := H) s j f = .panic ↔
      (f.next = true ∨ f.complete = true) ∧ (s.objs[j]? = none ∨ ∃ b, s.objs[j]? = some (.responder b false)) := by
  unfold WasmRecv.onPayload
  split
  · rename_i h
    rw [sink_panics]
    simp only [Bool.or_eq_true] at h
    simp [h]
  · rename_i h
    simp only [Bool.or_eq_true] at h
    simp [h]

theorem onStream_panics (s : WasmRecv.St) (j : Nat) (hd : Header) (body : Bytes) (ht : hd.type ≥ typeRequestN) :
    WasmRecv.onStream (H := H) s j hd body = .panic ↔
      ¬ CompleteFrame hd body ∨ NotReady s.objs[j]? hd := by
  have hnr : ¬ isRequest hd.type := by
    intro h
    rcases h with h | h | h | h <;> rw [h] at ht <;> exact absurd ht (by decide)
  have hco : CompleteFrame hd body ↔ ((hd.type = 8 ∨ hd.type = 11 → 4 ≤ body.length) ∧
      (hd.type = 10 → metadataFits (check hd.flag flagMetadata) body)) := by
    unfold CompleteFrame
    simp [hnr]
  rw [hco]
  unfold WasmRecv.onStream
  by_cases h8 : hd.type = 8
  · have ⟨g1, g2⟩ := getU32_total body
    rw [if_pos (by rw [h8]; rfl)]
    simp only [h8, bind_panic_iff, request_panics, RequestN.decode]
    by_cases h4 : 4 ≤ body.length
    · obtain ⟨n, e⟩ := g1 h4
      rcases ho : s.objs[j]? with _ | (⟨sub, snk⟩ | _ | inp) <;> simp [e, h4, NotReady, h8] 
    · simp [g2 h4, h4]
  by_cases h9 : hd.type = 9
  · rw [if_neg (by rw [h9]; decide), if_pos (by rw [h9]; rfl)]
    simp only [bind_panic_iff, sink_panics]
    rcases ho : s.objs[j]? with _ | (⟨sub, snk⟩ | _ | inp) <;> simp [NotReady, h9]
  by_cases h10 : hd.type = 10
  · have ⟨g1, g2⟩ := getMetadata_total (check hd.flag flagMetadata) body
    rw [if_neg (by rw [h10]; decide), if_neg (by rw [h10]; decide), if_pos (by rw [h10]; rfl)]
    simp only [bind_panic_iff, onPayload_panics, Payload.decode]
    by_cases hm : metadataFits (check hd.flag flagMetadata) body
    · obtain ⟨md, r, e⟩ := g1 hm
      rcases ho : s.objs[j]? with _ | (⟨sub, snk⟩ | _ | inp) <;>
        simp [NotReady, h10, e, hm, and_comm]
    · simp [g2 hm, hm, h10]
  by_cases h11 : hd.type = 11
  · have ⟨g1, g2⟩ := getU32_total body
    rw [if_neg (by rw [h11]; decide), if_neg (by rw [h11]; decide), if_neg (by rw [h11]; decide),
      if_pos (by rw [h11]; rfl)]
    simp only [bind_panic_iff, sink_panics, Error.decode]
    by_cases h4 : 4 ≤ body.length
    · obtain ⟨n, e⟩ := g1 h4
      rcases ho : s.objs[j]? with _ | (⟨sub, snk⟩ | _ | inp) <;>
        simp [e, h4, NotReady, h11, sliceFrom]
    · simp [g2 h4, h4, h11]
  · have hx : ¬ NotReady s.objs[j]? hd := by
      rcases ho : s.objs[j]? with _ | (⟨sub, snk⟩ | _ | inp) <;> simp [NotReady, h8, h9, h10, h11]
    simp [hx, h8, h9, h10, h11, typeRequestN, typeCancel, typePayload, typeError]

/-- C77, exactly: receiving bytes crashes (on the host as on the guest, in every state) if and only if they are
shorter than a header, or an incomplete request or an incomplete frame for a known stream, or
a frame for a known stream that is not ready for it. -/
theorem C77_crash_iff_partial (side : WasmRecv.Side) (hs : WasmRecv.Handlers H) (s : WasmRecv.St) (data : Bytes) :
    WasmRecv.recvOne side hs s data = .panic ↔
      data.length < 6 ∨ ∃ hd, parseHeader data = .ok hd ∧
        ((isRequest hd.type ∧ ¬ CompleteFrame hd (data.drop 6)) ∨
         (8 ≤ hd.type ∧ ∃ j, WasmRecv.getStream s hd.streamID = some j ∧
            (¬ CompleteFrame hd (data.drop 6) ∨ NotReady s.objs[j]? hd))) := by
  match data with
  | [] | [_] | [_, _] | [_, _, _] | [_, _, _, _] | [_, _, _, _, _] => simp [WasmRecv.recvOne, parseHeader]
  | b0 :: b1 :: b2 :: b3 :: b4 :: b5 :: body =>
    have hp : parseHeader (b0 :: b1 :: b2 :: b3 :: b4 :: b5 :: body) = .ok ⟨b0, b1, b2, b3, b4, b5⟩ := rfl
    have hsl : sliceFrom (b0 :: b1 :: b2 :: b3 :: b4 :: b5 :: body) 6 = .ok body := by simp [sliceFrom]
    have hdr : (b0 :: b1 :: b2 :: b3 :: b4 :: b5 :: body).drop 6 = body := rfl
    have hlen : ¬ (b0 :: b1 :: b2 :: b3 :: b4 :: b5 :: body).length < 6 := by simp
    simp only [hlen, false_or, hp, Go.ok.injEq, exists_eq_left', hdr]
    generalize hhd : (⟨b0, b1, b2, b3, b4, b5⟩ : Header) = hd at *
    unfold WasmRecv.recvOne
    rw [hp, hsl]
    simp only [Go.bind_ok]
    by_cases ht : hd.type ≥ typeRequestN
    · have hnr : ¬ isRequest hd.type := by
        intro h
        rcases h with h | h | h | h <;> rw [h] at ht <;> exact absurd ht (by decide)
      have h8 : 8 ≤ hd.type := ht
      simp only [ht, if_true, hnr, false_and, false_or, h8, true_and]
      cases hg : WasmRecv.getStream s hd.streamID with
      | none => simp
      | some j =>
        simp only [Option.some.injEq, exists_eq_left']
        exact onStream_panics s j hd body ht
    · have h8 : ¬ 8 ≤ hd.type := ht
      simp only [ht, if_false, h8, false_and, or_false]
      by_cases hr : isRequest hd.type
      · obtain ⟨k, hk⟩ := kindSpec_exists hr
        rw [(kindOfType_spec hk).1]
        simp only [hr, true_and]
        rw [onRequest_panics]
        have hc := C10_request_partial hd body
        have hn : ¬ (hd.type = 8 ∨ hd.type = 11) ∧ ¬ hd.type = 10 := by
          rcases hr with h | h | h | h <;> rw [h] <;> decide
        unfold CompleteFrame
        simp only [hr, true_implies, hn.1, hn.2, false_implies, and_true]
        rw [← hc]
        exact Decidable.not_not.symm
      · have : Handler.kindOfType hd.type = none := by
          unfold Handler.kindOfType
          have h4 : hd.type ≠ typeRequestResponse := fun h => hr (Or.inl h)
          have h5 : hd.type ≠ typeRequestFNF := fun h => hr (Or.inr (Or.inl h))
          have h6 : hd.type ≠ typeRequestStream := fun h => hr (Or.inr (Or.inr (Or.inl h)))
          have h7 : hd.type ≠ typeRequestChannel := fun h => hr (Or.inr (Or.inr (Or.inr h)))
          simp [h4, h5, h6, h7]
        simp [this, hr]

/-- The bytes are a complete frame. -/
def CompleteBytes (data : Bytes) : Prop :=
  6 ≤ data.length ∧ ∀ hd, parseHeader data = .ok hd → CompleteFrame hd (data.drop 6)

/-- Nothing is registered. -/
def NoStreams (s : WasmRecv.St) : Prop := ∀ id, WasmRecv.getStream s id = none

theorem noStreams_step (hs : WasmRecv.Handlers H) (s s' : WasmRecv.St) (data : Bytes) (tr : List (WasmRecv.Ev H))
    (h0 : NoStreams s) (hn : ∀ hd, parseHeader data = .ok hd → hd.type ≠ 7)
    (h : WasmRecv.recvOne .host hs s data = .ok (s', tr)) : NoStreams s' := by
  unfold WasmRecv.recvOne at h
  obtain ⟨hd, hh, h⟩ := bind_ok_inv h
  obtain ⟨body, _, h⟩ := bind_ok_inv h
  have h7 := hn hd hh
  split at h
  · rw [h0] at h
    cases h
    exact h0
  · split at h
    · rename_i k hk
      have hrc : k ≠ .rc := by
        intro e
        subst e
        unfold Handler.kindOfType at hk
        split at hk
        · cases hk
        split at hk
        · cases hk
        split at hk
        · cases hk
        split at hk
        · rename_i h7'
          exact h7 h7'
        · cases hk
      have hreg : WasmRecv.registers .host k = false := by cases k <;> first | rfl | exact absurd rfl hrc
      unfold WasmRecv.onRequest at h
      obtain ⟨r, _, h⟩ := bind_ok_inv h
      split at h
      · rename_i s2 hf
        cases h
        unfold WasmRecv.checkFollows at hf
        split at hf
        · cases hf
          exact h0
        · cases hf
      · unfold WasmRecv.serve at h
        split at h
        · cases h; exact h0
        · obtain ⟨op, _, h⟩ := bind_ok_inv h
          split at h
          · cases h; exact h0
          · rw [hreg] at h
            cases h
            exact h0
    · cases h
      exact h0

/-- C77 over histories: as long as the guest opens no channel (and the host has no call of its own in
progress), no sequence of complete frames, of whatever types and for whatever streams, crashes the
host. -/
theorem C77_no_channels_partial (hs : WasmRecv.Handlers H) (frames : List Bytes)
    (hc : ∀ b ∈ frames, CompleteBytes b)
    (hn : ∀ b ∈ frames, ∀ hd, parseHeader b = .ok hd → hd.type ≠ 7) :
    WasmRecv.recvAll .host hs .init frames ≠ .panic := by
  suffices h : ∀ s, NoStreams s → WasmRecv.recvAll .host hs s frames ≠ .panic by
    apply h
    intro id
    unfold WasmRecv.getStream
    split <;> rfl
  induction frames with
  | nil => intro s _; simp [WasmRecv.recvAll]
  | cons b bs ih =>
    intro s hs0 hp
    simp only [WasmRecv.recvAll] at hp
    rw [bind_panic_iff] at hp
    rcases hp with hp | ⟨⟨s1, e1⟩, h1, hp⟩
    · rw [C77_crash_iff_partial] at hp
      have hcb := hc b List.mem_cons_self
      rcases hp with hp | ⟨hd, hh, ⟨_, hp⟩ | ⟨_, j, hj, _⟩⟩
      · exact absurd hcb.1 (by omega)
      · exact hp (hcb.2 hd hh)
      · rw [hs0] at hj; cases hj
    · rw [bind_panic_iff] at hp
      rcases hp with hp | ⟨⟨s2, e2⟩, _, hp⟩
      · refine ih (fun q hq => hc q (List.mem_cons_of_mem _ hq)) (fun q hq => hn q (List.mem_cons_of_mem _ hq)) s1 ?_ hp
        exact noStreams_step hs s s1 b e1 hs0 (hn b List.mem_cons_self) h1
      · cases hp

/-- The hypotheses of `C77_no_channels_partial` are met by a request frame. -/
example : CompleteBytes (Spec.requestWire ⟨6, 1, opOne, [], false, false, 1⟩) := by
  refine ⟨by decide, fun hd h => ?_⟩
  have : hd = ⟨0, 0, 0, 1, 0x19, 0⟩ := by
    have e : parseHeader (Spec.requestWire ⟨6, 1, opOne, [], false, false, 1⟩) = .ok ⟨0, 0, 0, 1, 0x19, 0⟩ := rfl
    rw [e] at h
    exact (Go.ok.inj h).symm
  subst this
  unfold CompleteFrame metadataFits
  decide

/-! ### C78 -/

/-- Set handlers one after the other: instance.go 591-596 and its copies. -/
def setAll : WasmRecv.Slots H → List (UInt32 × H) → Go (WasmRecv.Slots H)
  | l, [] => .ok l
  | l, (i, h) :: cs => do
    let l' ← WasmRecv.setHandler l i h
    setAll l' cs

/-- The handler set last for an index. -/
def lastSet (i : UInt32) : List (UInt32 × H) → Option H
  | [] => none
  | (j, h) :: cs => (lastSet i cs).or (if j = i then some h else none)

/-- C78 as stated in English: the host finds, for every index, the handler set last for it, and none for
other indices. -/
def C78_statement : Prop :=
  ∀ (H : Type) (calls : List (UInt32 × H)),
    ∃ l, setAll [] calls = .ok l ∧ ∀ i, WasmRecv.getHandler l i = lastSet i calls

/-- C78 fails at the last index: the table is not extended (index+1 is 0) and the write crashes. -/
theorem C78_violated : ¬ C78_statement := by
  intro h
  obtain ⟨l, hl, _⟩ := h Unit [(0xFFFFFFFF, ())]
  have : setAll [] [((0xFFFFFFFF : UInt32), ())] = .panic := rfl
  rw [this] at hl
  cases hl

theorem setHandler_ok (l : WasmRecv.Slots H) (i : UInt32) (h : H) (hi : i ≠ 0xFFFFFFFF) (hl : l.length < 2^32) :
    ∃ l', WasmRecv.setHandler l i h = .ok l' ∧ l'.length < 2^32 ∧
      ∀ j, WasmRecv.getHandler l' j = if i = j then some h else WasmRecv.getHandler l j := by
  have hi' : i.toNat + 1 < 2^32 := by
    have := i.toNat_lt
    have h2 : i.toNat ≠ 0xFFFFFFFF := fun e => hi (UInt32.toNat_inj.mp e)
    omega
  have e1 : (i + 1).toNat = i.toNat + 1 := by
    rw [UInt32.toNat_add]
    exact Nat.mod_eq_of_lt hi'
  have hpl : (WasmRecv.pad l i).length = max l.length (i.toNat + 1) := by
    simp [WasmRecv.pad, e1]; omega
  have hlt : i.toNat < (WasmRecv.pad l i).length := by omega
  refine ⟨(WasmRecv.pad l i).set i.toNat (some h), by simp [WasmRecv.setHandler, hlt], by simp; omega, fun j => ?_⟩
  have hj := j.toNat_lt
  unfold WasmRecv.getHandler
  rw [List.length_set]
  have c1 : UInt32.ofNat (WasmRecv.pad l i).length ≤ j ↔ (WasmRecv.pad l i).length ≤ j.toNat := by
    rw [UInt32.le_iff_toNat_le, UInt32.toNat_ofNat_of_lt' (show (WasmRecv.pad l i).length < 2^32 by omega)]
  have c2 : UInt32.ofNat l.length ≤ j ↔ l.length ≤ j.toNat := by
    rw [UInt32.le_iff_toNat_le, UInt32.toNat_ofNat_of_lt' (by omega)]
  by_cases hij : i = j
  · subst hij
    rw [if_neg (by rw [c1]; omega)]
    simp [hlt]
  · have hne : i.toNat ≠ j.toNat := fun e => hij (UInt32.toNat_inj.mp e)
    rw [if_neg hij, List.getElem?_set_ne hne]
    simp only [c1, c2]
    by_cases hp : (WasmRecv.pad l i).length ≤ j.toNat
    · rw [if_pos hp, if_pos (by omega)]
    · rw [if_neg hp]
      unfold WasmRecv.pad
      by_cases hlj : l.length ≤ j.toNat
      · rw [if_pos hlj, List.getElem?_append_right hlj]
        rw [List.getElem?_replicate]
        split <;> rfl
      · rw [if_neg hlj, List.getElem?_append_left (by omega)]

/-- C78, the part that holds: for all calls with indices below 2^32-1. Missing: the last index. -/
theorem C78_last_set_partial (calls : List (UInt32 × H)) (hc : ∀ c ∈ calls, c.1 ≠ 0xFFFFFFFF) :
    ∃ l, setAll [] calls = .ok l ∧ ∀ i, WasmRecv.getHandler l i = lastSet i calls := by
  suffices h : ∀ l : WasmRecv.Slots H, l.length < 2^32 → ∃ l', setAll l calls = .ok l' ∧
      ∀ i, WasmRecv.getHandler l' i = (lastSet i calls).or (WasmRecv.getHandler l i) by
    obtain ⟨l, h1, h2⟩ := h [] (by simp)
    refine ⟨l, h1, fun i => ?_⟩
    rw [h2]
    have : WasmRecv.getHandler ([] : WasmRecv.Slots H) i = none := by simp [WasmRecv.getHandler]
    simp [this]
  induction calls with
  | nil => intro l _; exact ⟨l, rfl, fun i => by simp [lastSet]⟩
  | cons c cs ih =>
    intro l hl
    obtain ⟨i, h⟩ := c
    obtain ⟨l1, e1, hl1, g1⟩ := setHandler_ok l i h (hc (i, h) List.mem_cons_self) hl
    obtain ⟨l2, e2, g2⟩ := ih (fun c hcc => hc c (List.mem_cons_of_mem _ hcc)) l1 hl1
    refine ⟨l2, by simp [setAll, e1, e2], fun j => ?_⟩
    rw [g2, g1, lastSet]
    by_cases hij : i = j
    · simp [hij]
    · simp [hij]

example : ∃ l, setAll [] [(2, 'a'), (0, 'b'), (2, 'c')] = .ok l ∧ WasmRecv.getHandler l 2 = some 'c' ∧
    WasmRecv.getHandler l 1 = none ∧ WasmRecv.getHandler l 0 = some 'b' :=
  ⟨[some 'b', none, some 'c'], by decide⟩

/-! ### C79 -/

/-- The metadata a called handler gets. -/
def handlerMetas : List (WasmRecv.Ev H) → List Bytes
  | [] => []
  | .invoked _ _ _ p _ :: es => p.metadata :: handlerMetas es
  | _ :: es => handlerMetas es

/-- C79 as stated in English: whatever its kind and on both sides, the handler gets the metadata of the
caller without the 8 bytes of routing. -/
def C79_statement : Prop :=
  ∀ (H : Type) (side : WasmRecv.Side) (hs : WasmRecv.Handlers H) (s s' : WasmRecv.St) (r : RequestPayload)
    (routing user : Bytes) (tr : List (WasmRecv.Ev H)), FitsWire r → r.follows = false →
    routing.length = 8 → r.metadata = routing ++ user →
    WasmRecv.recvOne side hs s (Spec.requestWire r) = .ok (s', tr) → ∀ m ∈ handlerMetas tr, m = user

/-- The routing bytes reach handlers of streams on the guest, and every handler on the host. -/
theorem C79_violated : ¬ C79_statement := by
  intro h
  have := h Unit .guest onlyOne .init
    (WasmRecv.register { WasmRecv.St.init with objs := [.responder false false] } 2 0)
    ⟨6, 2, opOne, [5], false, false, 3⟩ opOne []
    [.invoked .rs () 2 ⟨[5], opOne⟩ 3] ⟨by decide, by decide, by decide⟩ rfl rfl rfl rfl opOne (by simp [handlerMetas])
  exact absurd this (by decide)

theorem C79_host_violated : ∃ r : RequestPayload, FitsWire r ∧ r.metadata = opOne ++ [7] ∧
    WasmRecv.recvOne .host onlyOne .init (Spec.requestWire r) =
      .ok (.init, [.invoked .rr () r.streamID ⟨r.data, opOne ++ [7]⟩ 1]) :=
  ⟨⟨4, 2, opOne ++ [7], [5], false, true, 1⟩, ⟨by decide, by decide, by decide⟩, rfl, rfl⟩

/-- C79, the part that holds: request/response and fire-and-forget on the guest. -/
theorem C79_guest_partial (hs : WasmRecv.Handlers H) (s s' : WasmRecv.St) (r : RequestPayload)
    (routing user : Bytes) (tr : List (WasmRecv.Ev H)) (w : FitsWire r) (hf : r.follows = false)
    (hk : r.frameType = 4 ∨ r.frameType = 5) (h8 : routing.length = 8) (hmd : r.metadata = routing ++ user)
    (h : WasmRecv.recvOne .guest hs s (Spec.requestWire r) = .ok (s', tr)) :
    ∀ m ∈ handlerMetas tr, m = user := by
  obtain ⟨k, hkk⟩ := kindSpec_exists w.kind
  rw [recv_request .guest hs s r w hkk] at h
  have hc : WasmRecv.checkFollows s (requestSeen r) = none := by
    simp [WasmRecv.checkFollows, requestSeen, hf]
  rw [hc] at h
  simp only [WasmRecv.serve] at h
  split at h
  · cases h; simp [handlerMetas]
  · obtain ⟨op, _, h⟩ := bind_ok_inv h
    split at h
    · cases h; simp [handlerMetas]
    · cases h
      have hm : WasmRecv.handlerMeta .guest k r.metadata = user := by
        rcases hkk with ⟨a, b⟩ | ⟨a, b⟩ | ⟨a, b⟩ | ⟨a, b⟩ <;> subst b
        · simp [WasmRecv.handlerMeta, hmd, ← h8]
        · simp [WasmRecv.handlerMeta, hmd, ← h8]
        · rw [a] at hk; exact absurd hk (by decide)
        · rw [a] at hk; exact absurd hk (by decide)
      simp [handlerMetas, hm]

/-- In every case the user's metadata is the end of what the handler gets. -/
theorem C79_suffix_partial (side : WasmRecv.Side) (hs : WasmRecv.Handlers H) (s s' : WasmRecv.St) (r : RequestPayload)
    (routing user : Bytes) (tr : List (WasmRecv.Ev H)) (w : FitsWire r) (hf : r.follows = false)
    (h8 : routing.length = 8) (hmd : r.metadata = routing ++ user)
    (h : WasmRecv.recvOne side hs s (Spec.requestWire r) = .ok (s', tr)) :
    ∀ m ∈ handlerMetas tr, m = user ∨ m = routing ++ user := by
  obtain ⟨k, hkk⟩ := kindSpec_exists w.kind
  rw [recv_request side hs s r w hkk] at h
  have hc : WasmRecv.checkFollows s (requestSeen r) = none := by
    simp [WasmRecv.checkFollows, requestSeen, hf]
  rw [hc] at h
  simp only [WasmRecv.serve] at h
  split at h
  · cases h; simp [handlerMetas]
  · obtain ⟨op, _, h⟩ := bind_ok_inv h
    split at h
    · cases h; simp [handlerMetas]
    · cases h
      simp only [handlerMetas, List.mem_singleton, forall_eq, hmd]
      cases side <;> cases k <;> simp [WasmRecv.handlerMeta, ← h8]

example : WasmRecv.recvOne .guest onlyOne .init (Spec.requestWire ⟨4, 2, opOne ++ [7], [5], false, true, 1⟩) =
    .ok (.init, [.invoked .rr () 2 ⟨[5], [7]⟩ 1]) := rfl

end
end Verif.Props
