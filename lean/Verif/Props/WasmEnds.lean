import Verif.Props.WasmRecv
import Verif.Props.LookupExact
/-
Property C107: what a frame for a stream does on a wasm host and on its guest, and how a stream ends there.
-/
set_option autoImplicit false
namespace Verif.Props
open Verif Frames
open Verif.Handler (Pay strOf)

section
variable {H : Type}

/-! ## Specification -/

/-- `FrameFor id j bytes calls ends`: the bytes are a frame for the stream `id`; `calls` is what it asks of the
stream, which is number `j`; `ends` says whether it is the last one of the stream. -/
inductive FrameFor (id : UInt32) (j : Nat) : Bytes → List (WasmRecv.Ev H) → Bool → Prop
  | requestN (f : RequestN) (hid : f.streamID = id) :
      FrameFor id j (Spec.requestNWire f) [.doRequest j f.n.toNat] false
  | cancel (f : Cancel) (hid : f.streamID = id) : FrameFor id j (Spec.cancelWire f) [.onComplete j] true
  | payload (f : Payload) (hid : f.streamID = id) (fits : f.metadata.length < 2^24) :
      FrameFor id j (Spec.payloadWire f)
        ((if f.next then [.onNext j ⟨f.data, f.metadata⟩] else []) ++ (if f.complete then [.onComplete j] else [])) f.complete
  | error (f : Error) (hid : f.streamID = id) :
      FrameFor id j (Spec.errorWire f) [.onError j (strOf f.data), .onComplete j] true

/-- The table a stream id belongs to. -/
def tableFor (s : WasmRecv.St) (id : UInt32) : Lookup.State Nat :=
  if id &&& 1 = 1 then s.guestStreams else s.hostStreams

/-- C107 as stated in English: the stream is called as the frame asks, and after the last frame of a stream it is not
known any more, while all others are. The tables are the result of any history of streams coming and going. -/
def C107_statement (H : Type) : Prop :=
  ∀ (side : WasmRecv.Side) (hs : WasmRecv.Handlers H) (s s' : WasmRecv.St) (opsG opsH : List (Lookup.Op Nat)),
    s.guestStreams = Lookup.run .init opsG → s.hostStreams = Lookup.run .init opsH → freshAdds opsG → freshAdds opsH →
    ∀ (id : UInt32) (j : Nat) (bytes : Bytes) (calls tr : List (WasmRecv.Ev H)) (ends : Bool), id.toNat < 2^31 →
      WasmRecv.getStream s id = some j → FrameFor id j bytes calls ends →
      WasmRecv.recvOne side hs s bytes = .ok (s', tr) →
      tr = calls ∧ (ends = true → WasmRecv.getStream s' id = none) ∧
      (∀ id', id' ≠ id → WasmRecv.getStream s' id' = WasmRecv.getStream s id')

/-! ## Proof -/

/-- A frame that decodes: its header and body. -/
theorem recv_parts {α : Type} {dec : Header → Bytes → Go α} {b : Bytes} {h : Header} {f : α}
    (hr : Frames.recv dec b = .ok (h, f)) :
    ∃ body, parseHeader b = .ok h ∧ sliceFrom b 6 = .ok body ∧ dec h body = .ok f := by
  unfold Frames.recv at hr
  obtain ⟨h', h1, hr⟩ := bind_ok_inv hr
  obtain ⟨body, h2, hr⟩ := bind_ok_inv hr
  obtain ⟨f', h3, hr⟩ := bind_ok_inv hr
  cases hr
  exact ⟨body, h1, h2, h3⟩

theorem error_seen (f : Error) (hid : f.streamID.toNat < 2^31) :
    ∃ h, Frames.recv Error.decode (Spec.errorWire f) = .ok (h, f) ∧ h.type = 0x0B := by
  refine ⟨mkHeader f.streamID typeError 0, ?_, mkHeader_type _ (by decide) (by decide)⟩
  rw [show Spec.errorWire f = headerBytes f.streamID typeError 0 ++ (be32 f.code ++ f.data) by
    simp [Spec.errorWire, Spec.be32_eq, typeError]
    exact (headerBytes_eq (t := 11) (fg := 0) (by decide) (by decide)).symm]
  unfold Frames.recv
  rw [parseHeader_headerBytes, sliceFrom_append' _ _ _ (by simp [headerBytes])]
  simp only [Go.bind_ok, Error.decode, getU32_be32, mkHeader_streamID _ _ hid]
  rw [sliceFrom_append' _ _ _ (by simp)]
  simp

/-- What the receiver makes of a frame for a stream: the calls, and the removal after the last frame. -/
theorem recv_for (side : WasmRecv.Side) (hs : WasmRecv.Handlers H) (s : WasmRecv.St) {id : UInt32} {j : Nat} {b : Bytes}
    {calls : List (WasmRecv.Ev H)} {ends : Bool} (hid : id.toNat < 2^31) (hf : FrameFor id j b calls ends) :
    (WasmRecv.getStream s id = none → WasmRecv.recvOne side hs s b = .ok (s, [])) ∧
    (WasmRecv.getStream s id = some j → ∀ s' tr, WasmRecv.recvOne side hs s b = .ok (s', tr) →
      tr = calls ∧ s' = if ends then WasmRecv.remove s id else s) := by
  have sink_ok : ∀ (e e' : List (WasmRecv.Ev H)), WasmRecv.sink s j e = .ok e' → e' = e := by
    intro e e' h
    unfold WasmRecv.sink at h
    split at h <;> cases h
    rfl
  cases hf with
  | requestN f e =>
    subst e
    obtain ⟨h, h1, h2⟩ := (C04_requestN_roundtrip f (List.replicate 10 0) hid rfl).2
    obtain ⟨body, p1, p2, p3⟩ := recv_parts h1
    have hsid : h.streamID = f.streamID := by
      unfold RequestN.decode at p3
      obtain ⟨n, -, p3⟩ := bind_ok_inv p3
      cases p3; rfl
    have hr : WasmRecv.recvOne side hs s (Spec.requestNWire f) = match WasmRecv.getStream s f.streamID with
        | none => .ok (s, [])
        | some j => WasmRecv.onStream s j h body := by
      unfold WasmRecv.recvOne
      simp only [p1, p2, Go.bind_ok, h2, hsid]
      rw [if_pos (by decide)]
      cases WasmRecv.getStream s f.streamID <;> rfl
    refine ⟨fun hn => by rw [hr, hn], fun hn s' tr hk => ?_⟩
    rw [hr, hn] at hk
    simp only [WasmRecv.onStream, h2] at hk
    rw [if_pos (by decide), p3, Go.bind_ok] at hk
    obtain ⟨e, he, hk⟩ := bind_ok_inv hk
    cases hk
    unfold WasmRecv.request at he
    split at he <;> cases he <;> exact ⟨rfl, rfl⟩
  | cancel f e =>
    subst e
    obtain ⟨h, h1, h2⟩ := (C04_cancel_roundtrip f (List.replicate 6 0) hid rfl).2
    obtain ⟨body, p1, p2, p3⟩ := recv_parts h1
    have hsid : h.streamID = f.streamID := by
      unfold Cancel.decode at p3
      cases p3; rfl
    have hr : WasmRecv.recvOne side hs s (Spec.cancelWire f) = match WasmRecv.getStream s f.streamID with
        | none => .ok (s, [])
        | some j => WasmRecv.onStream s j h body := by
      unfold WasmRecv.recvOne
      simp only [p1, p2, Go.bind_ok, h2, hsid]
      rw [if_pos (by decide)]
      cases WasmRecv.getStream s f.streamID <;> rfl
    refine ⟨fun hn => by rw [hr, hn], fun hn s' tr hk => ?_⟩
    rw [hr, hn] at hk
    simp only [WasmRecv.onStream, h2] at hk
    rw [if_neg (by decide), if_pos (by decide)] at hk
    obtain ⟨e, he, hk⟩ := bind_ok_inv hk
    cases hk
    exact ⟨sink_ok _ _ he, by rw [hsid]; rfl⟩
  | payload f e fits =>
    subst e
    obtain ⟨h, h1, h2⟩ := payload_decode f hid fits
    obtain ⟨body, p1, p2, p3⟩ := recv_parts h1
    have hsid : h.streamID = f.streamID := by
      unfold Payload.decode at p3
      obtain ⟨n, -, p3⟩ := bind_ok_inv p3
      cases p3; rfl
    have hr : WasmRecv.recvOne side hs s (Spec.payloadWire f) = match WasmRecv.getStream s f.streamID with
        | none => .ok (s, [])
        | some j => WasmRecv.onStream s j h body := by
      unfold WasmRecv.recvOne
      simp only [p1, p2, Go.bind_ok, h2, hsid]
      rw [if_pos (by decide)]
      cases WasmRecv.getStream s f.streamID <;> rfl
    refine ⟨fun hn => by rw [hr, hn], fun hn s' tr hk => ?_⟩
    rw [hr, hn] at hk
    simp only [WasmRecv.onStream, h2] at hk
    rw [if_neg (by decide), if_neg (by decide), if_pos (by decide), p3, Go.bind_ok] at hk
    obtain ⟨e, he, hk⟩ := bind_ok_inv hk
    cases hk
    refine ⟨?_, by rw [hsid]⟩
    unfold WasmRecv.onPayload at he
    split at he
    · exact sink_ok _ _ he
    · rename_i hno
      cases he
      simp only [Bool.or_eq_true, not_or, Bool.not_eq_true] at hno
      simp [hno.1, hno.2]
  | error f e =>
    subst e
    obtain ⟨h, h1, h2⟩ := error_seen f hid
    obtain ⟨body, p1, p2, p3⟩ := recv_parts h1
    have hsid : h.streamID = f.streamID := by
      unfold Error.decode at p3
      obtain ⟨n, -, p3⟩ := bind_ok_inv p3
      obtain ⟨m, -, p3⟩ := bind_ok_inv p3
      cases p3; rfl
    have hr : WasmRecv.recvOne side hs s (Spec.errorWire f) = match WasmRecv.getStream s f.streamID with
        | none => .ok (s, [])
        | some j => WasmRecv.onStream s j h body := by
      unfold WasmRecv.recvOne
      simp only [p1, p2, Go.bind_ok, h2, hsid]
      rw [if_pos (by decide)]
      cases WasmRecv.getStream s f.streamID <;> rfl
    refine ⟨fun hn => by rw [hr, hn], fun hn s' tr hk => ?_⟩
    rw [hr, hn] at hk
    simp only [WasmRecv.onStream, h2] at hk
    rw [if_neg (by decide), if_neg (by decide), if_neg (by decide), if_pos (by decide), p3, Go.bind_ok] at hk
    obtain ⟨e, he, hk⟩ := bind_ok_inv hk
    cases hk
    exact ⟨sink_ok _ _ he, by rw [hsid]; rfl⟩

theorem getStream_tableFor (s : WasmRecv.St) (id : UInt32) : WasmRecv.getStream s id = Lookup.get (tableFor s id) id := by
  unfold WasmRecv.getStream tableFor; split <;> rfl

theorem tableFor_remove (s : WasmRecv.St) (id id' : UInt32) :
    tableFor (WasmRecv.remove s id) id' =
      if (id &&& 1 = 1 ↔ id' &&& 1 = 1) then Lookup.remove (tableFor s id') id else tableFor s id' := by
  unfold tableFor WasmRecv.remove
  by_cases h1 : id &&& 1 = 1 <;> by_cases h2 : id' &&& 1 = 1 <;> simp [h1, h2]

theorem find_eraseIdx {α : Type} (p : α → Bool) : ∀ (l : List α) (j : Nat), (∀ x, l[j]? = some x → p x = false) →
    (l.eraseIdx j).find? p = l.find? p
  | [], _, _ => by simp
  | a :: l, 0, h => by
    have := h a rfl
    simp [this]
  | a :: l, j + 1, h => by
    simp only [List.eraseIdx_cons_succ, List.find?_cons]
    rw [find_eraseIdx p l j (fun x hx => h x (by simpa using hx))]

/-- Removing one stream leaves the others alone, whatever the history. -/
theorem get_remove_other (ops : List (Lookup.Op Nat)) (id id' : UInt32) (hne : id' ≠ id) :
    Lookup.get (Lookup.remove (Lookup.run .init ops) id) id' = Lookup.get (Lookup.run .init ops) id' := by
  have e : Lookup.remove (Lookup.run .init ops) id = Lookup.run .init (ops ++ [.remove id]) := by
    simp [Lookup.run, Lookup.step]
  rw [e, (C21_exact_partial _).1, (C21_exact_partial _).1]
  rw [show sticky (ops ++ [.remove id]) = stickyStep (sticky ops) (.remove id) by simp [sticky]]
  simp only [stickyStep]
  split
  · rfl
  · rename_i j hj
    split
    · rfl
    · unfold streamOf
      rw [find_eraseIdx]
      intro x hx
      obtain ⟨hlt, hid, -⟩ := List.findIdx?_eq_some_iff_getElem.mp hj
      rw [List.getElem?_eq_getElem hlt] at hx
      cases hx
      simp only [decide_eq_true_eq] at hid
      simp [hid, Ne.symm hne]

theorem registered_snoc_remove {S : Type} (ops : List (Lookup.Op S)) (id : UInt32) :
    registered (ops ++ [.remove id]) = (registered ops).filter (·.1 ≠ id) := by
  simp [registered]

/-! ## C107 -/

/-- C107: a frame for a stream that is known makes exactly the calls it asks for; one for a stream that is not known
makes none and changes nothing; a frame that is not the last one of its stream changes nothing either. -/
theorem C107_calls_partial (side : WasmRecv.Side) (hs : WasmRecv.Handlers H) (s : WasmRecv.St) (id : UInt32) (j : Nat)
    (bytes : Bytes) (calls : List (WasmRecv.Ev H)) (ends : Bool) (hid : id.toNat < 2^31)
    (hf : FrameFor id j bytes calls ends) :
    (WasmRecv.getStream s id = none → WasmRecv.recvOne side hs s bytes = .ok (s, [])) ∧
    (WasmRecv.getStream s id = some j → ∀ s' tr, WasmRecv.recvOne side hs s bytes = .ok (s', tr) →
      tr = calls ∧ (ends = false → s' = s)) := by
  obtain ⟨h1, h2⟩ := recv_for side hs s hid hf
  refine ⟨h1, fun hn s' tr hk => ?_⟩
  obtain ⟨h3, h4⟩ := h2 hn s' tr hk
  exact ⟨h3, fun he => by rw [h4, he]; rfl⟩

/-- C107: whatever a frame does to its own stream, the others are still known afterwards, and no new one is. -/
theorem C107_others_partial (side : WasmRecv.Side) (hs : WasmRecv.Handlers H) (s s' : WasmRecv.St)
    (opsG opsH : List (Lookup.Op Nat)) (hg : s.guestStreams = Lookup.run .init opsG)
    (hh : s.hostStreams = Lookup.run .init opsH) (id : UInt32) (j : Nat) (bytes : Bytes) (calls tr : List (WasmRecv.Ev H))
    (ends : Bool) (hid : id.toNat < 2^31) (hn : WasmRecv.getStream s id = some j) (hf : FrameFor id j bytes calls ends)
    (hk : WasmRecv.recvOne side hs s bytes = .ok (s', tr)) (id' : UInt32) (hne : id' ≠ id) :
    WasmRecv.getStream s' id' = WasmRecv.getStream s id' := by
  obtain ⟨-, rfl⟩ := (recv_for side hs s hid hf).2 hn s' tr hk
  cases ends
  · rfl
  · simp only [if_true]
    rw [getStream_tableFor, getStream_tableFor, tableFor_remove]
    split
    · obtain ⟨ops, ho⟩ : ∃ ops, tableFor s id' = Lookup.run .init ops := by
        unfold tableFor; split
        · exact ⟨_, hg⟩
        · exact ⟨_, hh⟩
      rw [ho]; exact get_remove_other ops id id' hne
    · rfl

/-- C107: after its last frame a stream is not known any more, provided that it is not the first stream its table
ever had, and that one was never removed. -/
theorem C107_ends_partial (side : WasmRecv.Side) (hs : WasmRecv.Handlers H) (s s' : WasmRecv.St) (id : UInt32) (j : Nat)
    (first : UInt32) (k : Nat) (ops : List (Lookup.Op Nat)) (ht : tableFor s id = Lookup.run .init (.add first k :: ops))
    (hfresh : freshAdds (.add first k :: ops)) (hfirst : .remove first ∉ ops) (hne : id ≠ first)
    (bytes : Bytes) (calls tr : List (WasmRecv.Ev H)) (hid : id.toNat < 2^31) (hn : WasmRecv.getStream s id = some j)
    (hf : FrameFor id j bytes calls true) (hk : WasmRecv.recvOne side hs s bytes = .ok (s', tr)) :
    WasmRecv.getStream s' id = none := by
  obtain ⟨-, rfl⟩ := (recv_for side hs s hid hf).2 hn s' tr hk
  simp only [if_true]
  rw [getStream_tableFor, tableFor_remove, if_pos Iff.rfl, ht]
  rw [show Lookup.remove (Lookup.run .init (.add first k :: ops)) id = Lookup.run .init (.add first k :: (ops ++ [.remove id])) by
    simp [Lookup.run, Lookup.step]]
  rw [(C21_lookup_partial first k (ops ++ [Lookup.Op.remove id]) ?_ ?_).1 id]
  · rw [← List.cons_append, registered_snoc_remove]
    unfold streamOf
    rw [List.find?_eq_none.mpr, Option.map_none]
    intro x hx
    simpa using (List.mem_filter.mp hx).2
  · intro before after id' x e
    rw [← List.cons_append] at e
    rcases List.append_eq_append_iff.mp e with ⟨a, h1, h2⟩ | ⟨a, h1, h2⟩
    · cases a with
      | nil => simp at h2
      | cons y a => simp at h2
    · cases a with
      | nil => simp at h2
      | cons y a =>
        simp only [List.cons_append, List.cons.injEq] at h2
        obtain ⟨rfl, -⟩ := h2
        exact hfresh before a id' x h1
  · simp only [List.mem_append, List.mem_singleton, not_or]
    exact ⟨hfirst, fun h => by cases h; exact hne rfl⟩

/-- C107 fails for the first stream a table ever had: whatever has come and gone since, it is still known after its last
frame. -/
theorem C107_first_violated (side : WasmRecv.Side) (hs : WasmRecv.Handlers H) (s s' : WasmRecv.St) (id : UInt32) (j : Nat)
    (ops : List (Lookup.Op Nat)) (ht : tableFor s id = Lookup.run .init (.add id j :: ops)) (bytes : Bytes)
    (calls tr : List (WasmRecv.Ev H)) (ends : Bool) (hid : id.toNat < 2^31) (hf : FrameFor id j bytes calls ends)
    (hk : WasmRecv.recvOne side hs s bytes = .ok (s', tr)) : WasmRecv.getStream s' id = some j := by
  have hn : WasmRecv.getStream s id = some j := by rw [getStream_tableFor, ht]; exact C21_oldest_violated _ _ _
  obtain ⟨-, rfl⟩ := (recv_for side hs s hid hf).2 hn s' tr hk
  cases ends
  · exact hn
  · simp only [if_true]
    rw [getStream_tableFor, tableFor_remove, if_pos Iff.rfl, ht]
    rw [show Lookup.remove (Lookup.run .init (.add id j :: ops)) id = Lookup.run .init (.add id j :: (ops ++ [.remove id])) by
      simp [Lookup.run, Lookup.step]]
    exact C21_oldest_violated _ _ _

end

/-! ## Concrete cases -/

/-- Two calls of the host, with ids 2 and 4. -/
def wasmTwoCalls : WasmRecv.St := ⟨.init, Lookup.run .init [.add 2 0, .add 4 1], [.mono, .flux false], []⟩

theorem freshTwo : freshAdds [(.add 2 0 : Lookup.Op Nat), .add 4 1] := by
  intro before after id s e
  match before, e with
  | [], e => rfl
  | [_], e =>
    simp only [List.cons_append, List.nil_append, List.cons.injEq] at e
    obtain ⟨rfl, h2, -⟩ := e
    cases h2; rfl
  | _ :: _ :: _, e => simp at e

theorem C107_violated : ¬ C107_statement Unit := by
  intro h
  have hk : WasmRecv.recvOne .host (fun _ _ => none) wasmTwoCalls (Spec.cancelWire ⟨2⟩) =
    .ok (WasmRecv.remove wasmTwoCalls 2, [(.onComplete 0 : WasmRecv.Ev Unit)]) := rfl
  have := (h .host (fun _ _ => none) wasmTwoCalls _ [] [.add 2 0, .add 4 1] rfl rfl
    (by intro b a i s e; simp at e) freshTwo 2 0 _ _ _ true (by decide) (by decide) (.cancel ⟨2⟩ rfl) hk).2.1 rfl
  rw [C107_first_violated .host (fun _ _ => none) wasmTwoCalls _ 2 0 [.add 4 1] rfl _ _ _ true (by decide)
    (.cancel ⟨2⟩ rfl) hk] at this
  cases this

/-- The hypotheses of `C107_calls_partial`, `C107_others_partial` and `C107_ends_partial` are met by the last element of
the second call; the first call stays known, the second one does not. -/
example : ∃ s', tableFor wasmTwoCalls 4 = Lookup.run .init (.add 2 0 :: [.add 4 1]) ∧
    freshAdds [(.add 2 0 : Lookup.Op Nat), .add 4 1] ∧ (.remove 2 : Lookup.Op Nat) ∉ [(.add 4 1 : Lookup.Op Nat)] ∧
    WasmRecv.getStream wasmTwoCalls 4 = some 1 ∧
    FrameFor (H := Unit) 4 1 (Spec.payloadWire ⟨4, [8], [7], false, true, true⟩) [.onNext 1 ⟨[7], [8]⟩, .onComplete 1] true ∧
    WasmRecv.recvOne (H := Unit) .host (fun _ _ => none) wasmTwoCalls (Spec.payloadWire ⟨4, [8], [7], false, true, true⟩) =
      .ok (s', [.onNext 1 ⟨[7], [8]⟩, .onComplete 1]) ∧
    WasmRecv.getStream s' 4 = none ∧ WasmRecv.getStream s' 2 = some 0 :=
  ⟨_, rfl, freshTwo, by decide, by decide, .payload ⟨4, [8], [7], false, true, true⟩ rfl (by decide), rfl, by decide, by decide⟩

end Verif.Props
