import Verif.Lemmas.Fragment
import Verif.Props.Frames2
/-
Properties C07, C08, C09: fragmentation.
-/
namespace Verif.Props
open Verif Frames

theorem payloadLength_eq (p : Payload) : Spec.payloadLength p = (Spec.payloadWire p).length := by
  simp only [Spec.payloadLength, Spec.payloadWire, Spec.header, List.length_append,
    Spec.bigEndian_length, Spec.metadataBlock_length]
  omega

theorem payload_size' (f : Payload) (hsz : f.metadata.length + f.data.length + 9 < 2^32) :
    f.size.toNat = Spec.payloadLength f := by
  have hp := UInt32.ofNat_pos_iff (n := f.metadata.length) (by omega)
  have h0 : 0 < f.metadata.length ↔ f.metadata ≠ [] := List.length_pos_iff
  unfold Payload.size Spec.payloadLength
  simp only [hp, h0]
  by_cases hm : f.metadata = [] <;> simp [hm, UInt32.toNat_add, UInt32.toNat_ofNat'] at hsz ⊢ <;>
    omega

/-! ## C07 -/

/-- C07: fragmenting a payload frame that is larger than the maximum gives frames that satisfy
the fragmentation rule. (`fuel` is the model's iteration budget: the loop ends within as many
iterations as there are bytes, plus one.) -/
theorem C07_payload_fragmentation (f : Payload) (max : UInt32)
    (hsz : f.metadata.length + f.data.length + 9 < 2^32) (hmax : 10 ≤ max.toNat)
    (hbig : max.toNat < Spec.payloadLength f) :
    ∃ frames, (∀ fuel, f.metadata.length + f.data.length < fuel →
        f.fragment max fuel = some (.ok frames)) ∧
      Spec.Fragments f max.toNat frames := by
  obtain ⟨ps, hps, hok⟩ := splitPayloads_ok f.streamID f.next f.complete max _ f.data f.metadata
    (Nat.le_refl _) hsz (Or.inl hmax)
  have hnle : ¬ f.size ≤ max := by
    rw [UInt32.le_iff_toNat_le, payload_size' f hsz]; omega
  refine ⟨ps, fun fuel hf => by rw [Payload.fragment, if_neg hnle, hps fuel hf], ?_⟩
  refine ⟨?_, hok.stream, hok.bounded, hok.hmd, hok.hdata, hok.init, hok.last⟩
  intro h
  have := hok.empty.mp h
  simp [Spec.payloadLength, this] at hbig
  omega

/-- A frame that fits is not fragmented. -/
theorem C07_payload_fits (f : Payload) (max : UInt32) (fuel : Nat)
    (hsz : f.metadata.length + f.data.length + 9 < 2^32)
    (hfit : Spec.payloadLength f ≤ max.toNat) : f.fragment max fuel = some (.ok []) := by
  rw [Payload.fragment, if_pos]
  rw [UInt32.le_iff_toNat_le, payload_size' f hsz]; exact hfit

example : ∃ f : Payload, f.metadata.length + f.data.length + 9 < 2^32 ∧ 10 ≤ (12 : UInt32).toNat ∧
    (12 : UInt32).toNat < Spec.payloadLength f ∧
    f.fragment 12 100 = some (.ok
      [⟨3, [1, 2, 3], [], true, false, false⟩, ⟨3, [4], [5, 6], true, false, false⟩,
       ⟨3, [], [7, 8], false, true, true⟩]) :=
  ⟨⟨3, [1, 2, 3, 4], [5, 6, 7, 8], false, true, true⟩, by decide⟩

/-! ## C08 -/

/-- Encode a frame and decode the bytes on the other side. -/
def transmit {α : Type} (encode : α → Bytes → Go Bytes) (size : α → UInt32)
    (decode : Header → Bytes → Go α) (f : α) : Go α := do
  let w ← encode f (List.replicate (size f).toNat 0)
  let r ← recv decode w
  .ok r.2

/-- Bytes of a request frame on the wire. -/
def requestLength (f : RequestPayload) : Nat :=
  6 + (if f.frameType = 6 ∨ f.frameType = 7 then 4 else 0) +
    (if f.metadata = [] then 0 else 3) + f.metadata.length + f.data.length

/-- C08 as stated in English: the receiver of the transmitted fragments recovers the request, and
no fragment is larger than the maximum. -/
def C08_statement : Prop :=
  ∀ (f : RequestPayload) (max : UInt32), isRequest f.frameType → f.streamID.toNat < 2^31 →
    f.metadata.length < 2^24 → requestLength f < 2^32 - 16 → 14 ≤ max.toNat →
    max.toNat < requestLength f →
    ∃ fuel r ps r' ps', f.fragment max fuel = some (.ok (some (r, ps))) ∧
      transmit RequestPayload.encode RequestPayload.size RequestPayload.decode r = .ok r' ∧
      ps.mapM (transmit Payload.encode Payload.size Payload.decode) = .ok ps' ∧
      requestLength r ≤ max.toNat ∧ (∀ p ∈ ps, Spec.payloadLength p ≤ max.toNat) ∧
      (∃ c, Spec.reassembleRequest r' ps' = some (f.metadata, f.data, c, []))

/-- C08 fails: the follows flag of the first fragment is lost by the encoder, so the receiver
takes the first fragment for the whole request. -/
theorem C08_request_fragmentation_violated : ¬ C08_statement := by
  intro hst
  obtain ⟨fuel, r, ps, r', ps', h1, h2, h3, _, _, c, h4⟩ :=
    hst ⟨4, 2, [], [1, 2, 3, 4, 5, 6, 7, 8, 9], false, true, 1⟩ 14 (by decide) (by decide)
      (by decide) (by decide) (by decide) (by decide)
  match fuel, h1 with
  | 0, h1 => exact absurd h1 (by simp [show RequestPayload.fragment ⟨4, 2, [], [1, 2, 3, 4, 5, 6, 7, 8, 9], false, true, 1⟩ 14 0 =
      none from rfl])
  | 1, h1 => exact absurd h1 (by simp [show RequestPayload.fragment ⟨4, 2, [], [1, 2, 3, 4, 5, 6, 7, 8, 9], false, true, 1⟩ 14 1 =
      none from rfl])
  | k + 2, h1 =>
    have e : RequestPayload.fragment ⟨4, 2, [], [1, 2, 3, 4, 5, 6, 7, 8, 9], false, true, 1⟩ 14
        (k + 2) = some (.ok (some (⟨4, 2, [], [1, 2, 3, 4, 5, 6, 7, 8], true, false, 1⟩,
          [⟨2, [], [9], false, true, true⟩]))) := by rfl
    rw [e] at h1
    obtain ⟨rfl, rfl⟩ := Prod.mk.inj (Option.some.inj (Go.ok.inj (Option.some.inj h1)))
    have e2 : transmit RequestPayload.encode RequestPayload.size RequestPayload.decode
        ⟨4, 2, [], [1, 2, 3, 4, 5, 6, 7, 8], true, false, 1⟩ =
        .ok ⟨4, 2, [], [1, 2, 3, 4, 5, 6, 7, 8], false, true, 1⟩ := by decide
    rw [e2] at h2
    have := Go.ok.inj h2; subst this
    have e3 : Spec.reassembleRequest ⟨4, 2, [], [1, 2, 3, 4, 5, 6, 7, 8], false, true, 1⟩ ps' =
        some ([], [1, 2, 3, 4, 5, 6, 7, 8], true, ps') := by
      cases ps' <;> rfl
    rw [e3] at h4
    have := (Prod.mk.inj (Prod.mk.inj (Option.some.inj h4)).2).1
    revert this; decide

/-- C08 also fails before encoding: a request with short metadata has its metadata sent twice. -/
theorem C08_metadata_duplicated_violated : ∃ (f r : RequestPayload) (ps : List Payload),
    isRequest f.frameType ∧ 14 ≤ (20 : UInt32).toNat ∧ 20 < requestLength f ∧
    f.fragment 20 100 = some (.ok (some (r, ps))) ∧ f.metadata = [7] ∧
    Spec.reassembleRequest r ps = some ([7, 7], f.data, true, []) :=
  ⟨⟨4, 2, [7], List.replicate 20 1, false, true, 1⟩,
   ⟨4, 2, [7], List.replicate 10 1, true, false, 1⟩,
   [⟨2, [7], List.replicate 10 1, false, true, true⟩], by decide⟩

theorem request_size' (f : RequestPayload) (hsz : f.metadata.length + f.data.length + 13 < 2^32) :
    f.size.toNat = requestLength f := by
  have hp := UInt32.ofNat_pos_iff (n := f.metadata.length) (by omega)
  have h0 : 0 < f.metadata.length ↔ f.metadata ≠ [] := List.length_pos_iff
  unfold RequestPayload.size requestLength
  simp only [hp, h0, hasInitialN_iff]
  by_cases hm : f.metadata = [] <;> by_cases hn : f.frameType = 6 ∨ f.frameType = 7 <;>
    simp [hm, hn, UInt32.toNat_add, UInt32.toNat_ofNat'] at hsz ⊢ <;> omega

/-- C08, the part that holds: before encoding, if the metadata is empty or does not fit into the
first fragment, the fragments are bounded, belong to the stream, and reassemble to the request
(with the original completion flag on the last fragment). Missing: short metadata (sent
twice) and the follows flag on the wire; both really fail. -/
theorem C08_request_fragmentation_partial (f : RequestPayload) (max : UInt32)
    (hsz : f.metadata.length + f.data.length + 13 < 2^32)
    (hmax : 14 ≤ max.toNat) (hbig : max.toNat < requestLength f)
    (hmd : f.metadata = [] ∨ max.toNat ≤
      f.metadata.length + 9 + (if f.frameType = 6 ∨ f.frameType = 7 then 4 else 0)) :
    ∃ r ps, (∀ fuel, f.metadata.length + f.data.length < fuel →
        f.fragment max fuel = some (.ok (some (r, ps)))) ∧
      r.frameType = f.frameType ∧ r.streamID = f.streamID ∧ r.initialN = f.initialN ∧
      requestLength r ≤ max.toNat ∧
      (∀ p ∈ ps, p.streamID = f.streamID ∧ Spec.payloadLength p ≤ max.toNat) ∧
      Spec.reassembleRequest r ps = some (f.metadata, f.data, f.complete, []) := by
  have hm32 := max.toNat_lt
  have hnle : ¬ f.size ≤ max := by
    rw [UInt32.le_iff_toNat_le, request_size' f hsz]; omega
  obtain ⟨nd, hnd⟩ : ∃ nd : Nat,
      nd = 6 + (if f.frameType = 6 ∨ f.frameType = 7 then 4 else 0) := ⟨_, rfl⟩
  have hnd10 : nd ≤ 10 := by rw [hnd]; split <;> omega
  have hndU : (6 + (if hasInitialN f.frameType then 4 else 0) : UInt32).toNat = nd := by
    rw [hnd]; simp only [hasInitialN_iff]; split <;> rfl
  have hMD : (max - (6 + (if hasInitialN f.frameType then 4 else 0)) - 3).toNat =
      max.toNat - nd - 3 := by
    rw [UInt32.toNat_sub_of_le, UInt32.toNat_sub_of_le, hndU]
    · rfl
    · rw [UInt32.le_iff_toNat_le, hndU]; omega
    · rw [UInt32.le_iff_toNat_le, UInt32.toNat_sub_of_le, hndU]
      · show 3 ≤ _; omega
      · rw [UInt32.le_iff_toNat_le, hndU]; omega
  have hlm : (UInt32.ofNat f.metadata.length).toNat = f.metadata.length :=
    UInt32.toNat_ofNat_lt (by omega)
  have hld : (UInt32.ofNat f.data.length).toNat = f.data.length :=
    UInt32.toNat_ofNat_lt (by omega)
  have hcond : (UInt32.ofNat f.metadata.length ≥
      max - (6 + (if hasInitialN f.frameType then 4 else 0)) - 3) ↔
      max.toNat - nd - 3 ≤ f.metadata.length := by
    rw [ge_iff_le, UInt32.le_iff_toNat_le, hMD, hlm]
  simp only [requestLength, ← hnd] at hbig
  unfold RequestPayload.fragment
  simp only [hnle, if_false, hcond, hMD]
  by_cases hA : max.toNat - nd - 3 ≤ f.metadata.length
  · simp only [hA, if_true, sliceTo, sliceFrom]
    have hmne : f.metadata ≠ [] := by intro h; rw [h] at hA; simp at hA; omega
    simp only [hmne, if_false] at hbig
    obtain ⟨ps, hps, hok⟩ := splitPayloads_ok f.streamID true f.complete max
      (f.metadata.length + f.data.length) f.data
      (f.metadata.drop (max.toNat - nd - 3)) (by simp) (by simp; omega) (Or.inl (by omega))
    refine ⟨⟨f.frameType, f.streamID, f.metadata.take (max.toNat - nd - 3), [], true, false,
      f.initialN⟩, ps, fun fuel hf => by rw [hps fuel hf]; rfl, rfl, rfl, rfl, ?_,
      fun p hp => ⟨hok.stream p hp, hok.bounded p hp⟩, ?_⟩
    · simp only [requestLength, ← hnd, List.length_take]
      split <;> simp <;> omega
    · have hpe : ps ≠ [] := by
        intro h
        have := hok.empty.mp h
        rw [List.drop_eq_nil_iff] at this
        have h1 := this.1
        rw [this.2] at hbig
        simp at hbig; omega
      rw [Spec.reassembleRequest, continueFrame_ok f.complete true ps _ _ _ hpe hok.init hok.last,
        hok.hmd, hok.hdata]
      simp
  · simp only [hA, if_false]
    have hme : f.metadata = [] := by
      rcases hmd with h | h
      · exact h
      · omega
    simp only [hme, if_true, List.length_nil] at hbig hsz
    have hdiff : (f.size - max).toNat = nd + f.data.length - max.toNat := by
      rw [UInt32.toNat_sub_of_le, request_size' f (by rw [hme]; simpa using hsz), requestLength,
        ← hnd, hme]
      · simp
      · rw [UInt32.le_iff_toNat_le, request_size' f (by rw [hme]; simpa using hsz), requestLength,
          ← hnd, hme]; simp; omega
    have hoff : (UInt32.ofNat f.data.length - (f.size - max)).toNat =
        max.toNat - nd := by
      rw [UInt32.toNat_sub_of_le, hdiff, hld]
      · omega
      · rw [UInt32.le_iff_toNat_le, hdiff, hld]; omega
    simp only [hoff, sliceTo, sliceFrom, show max.toNat - nd ≤ f.data.length by omega, if_true]
    obtain ⟨ps, hps, hok⟩ := splitPayloads_ok f.streamID true f.complete max
      (f.metadata.length + f.data.length)
      (f.data.drop (max.toNat - nd)) f.metadata (by simp) (by rw [hme]; simp; omega)
      (Or.inl (by omega))
    refine ⟨⟨f.frameType, f.streamID, f.metadata, f.data.take (max.toNat - nd), true, false,
      f.initialN⟩, ps, fun fuel hf => by rw [hps fuel hf]; rfl, rfl, rfl, rfl, ?_,
      fun p hp => ⟨hok.stream p hp, hok.bounded p hp⟩, ?_⟩
    · simp only [requestLength, ← hnd, List.length_take, hme]
      simp; omega
    · have hpe : ps ≠ [] := by
        intro h
        have := (hok.empty.mp h).2
        rw [List.drop_eq_nil_iff] at this
        omega
      rw [Spec.reassembleRequest, continueFrame_ok f.complete true ps _ _ _ hpe hok.init hok.last,
        hok.hmd, hok.hdata]
      simp [hme]

/-- C08, exactly, before encoding: the fragments are bounded, belong to the stream, and reassemble to the request, except
that metadata which fits into the first fragment with room to spare arrives twice. -/
theorem C08_exact_partial (f : RequestPayload) (max : UInt32)
    (hsz : f.metadata.length + f.data.length + 13 < 2^32)
    (hmax : 14 ≤ max.toNat) (hbig : max.toNat < requestLength f) :
    ∃ r ps, (∀ fuel, f.metadata.length + f.data.length < fuel →
        f.fragment max fuel = some (.ok (some (r, ps)))) ∧
      r.frameType = f.frameType ∧ r.streamID = f.streamID ∧ r.initialN = f.initialN ∧
      requestLength r ≤ max.toNat ∧
      (∀ p ∈ ps, p.streamID = f.streamID ∧ Spec.payloadLength p ≤ max.toNat) ∧
      Spec.reassembleRequest r ps = some (
        if max.toNat ≤ f.metadata.length + 9 + (if f.frameType = 6 ∨ f.frameType = 7 then 4 else 0) then f.metadata
        else f.metadata ++ f.metadata, f.data, f.complete, []) := by
  have hm32 := max.toNat_lt
  have hnle : ¬ f.size ≤ max := by
    rw [UInt32.le_iff_toNat_le, request_size' f hsz]; omega
  obtain ⟨nd, hnd⟩ : ∃ nd : Nat,
      nd = 6 + (if f.frameType = 6 ∨ f.frameType = 7 then 4 else 0) := ⟨_, rfl⟩
  have hnd10 : nd ≤ 10 := by rw [hnd]; split <;> omega
  have hndU : (6 + (if hasInitialN f.frameType then 4 else 0) : UInt32).toNat = nd := by
    rw [hnd]; simp only [hasInitialN_iff]; split <;> rfl
  have hMD : (max - (6 + (if hasInitialN f.frameType then 4 else 0)) - 3).toNat =
      max.toNat - nd - 3 := by
    rw [UInt32.toNat_sub_of_le, UInt32.toNat_sub_of_le, hndU]
    · rfl
    · rw [UInt32.le_iff_toNat_le, hndU]; omega
    · rw [UInt32.le_iff_toNat_le, UInt32.toNat_sub_of_le, hndU]
      · show 3 ≤ _; omega
      · rw [UInt32.le_iff_toNat_le, hndU]; omega
  have hlm : (UInt32.ofNat f.metadata.length).toNat = f.metadata.length :=
    UInt32.toNat_ofNat_lt (by omega)
  have hld : (UInt32.ofNat f.data.length).toNat = f.data.length :=
    UInt32.toNat_ofNat_lt (by omega)
  have hcond : (UInt32.ofNat f.metadata.length ≥
      max - (6 + (if hasInitialN f.frameType then 4 else 0)) - 3) ↔
      max.toNat - nd - 3 ≤ f.metadata.length := by
    rw [ge_iff_le, UInt32.le_iff_toNat_le, hMD, hlm]
  simp only [requestLength, ← hnd] at hbig
  unfold RequestPayload.fragment
  simp only [hnle, if_false, hcond, hMD]
  by_cases hA : max.toNat - nd - 3 ≤ f.metadata.length
  · simp only [hA, if_true, sliceTo, sliceFrom]
    have hmne : f.metadata ≠ [] := by intro h; rw [h] at hA; simp at hA; omega
    simp only [hmne, if_false] at hbig
    obtain ⟨ps, hps, hok⟩ := splitPayloads_ok f.streamID true f.complete max
      (f.metadata.length + f.data.length) f.data
      (f.metadata.drop (max.toNat - nd - 3)) (by simp) (by simp; omega) (Or.inl (by omega))
    refine ⟨⟨f.frameType, f.streamID, f.metadata.take (max.toNat - nd - 3), [], true, false,
      f.initialN⟩, ps, fun fuel hf => by rw [hps fuel hf]; rfl, rfl, rfl, rfl, ?_,
      fun p hp => ⟨hok.stream p hp, hok.bounded p hp⟩, ?_⟩
    · simp only [requestLength, ← hnd, List.length_take]
      split <;> simp <;> omega
    · have hpe : ps ≠ [] := by
        intro h
        have := hok.empty.mp h
        rw [List.drop_eq_nil_iff] at this
        have h1 := this.1
        rw [this.2] at hbig
        simp at hbig; omega
      rw [Spec.reassembleRequest, continueFrame_ok f.complete true ps _ _ _ hpe hok.init hok.last,
        hok.hmd, hok.hdata, if_pos (by omega)]
      simp
  · simp only [hA, if_false]
    have hlen : requestLength f = nd + (if f.metadata = [] then 0 else 3) + f.metadata.length + f.data.length := by
      rw [hnd]; rfl
    have hdiff : (f.size - max).toNat = requestLength f - max.toNat := by
      rw [UInt32.toNat_sub_of_le, request_size' f hsz]
      rw [UInt32.le_iff_toNat_le, request_size' f hsz]; omega
    have h03 : (if f.metadata = [] then 0 else 3) ≤ 3 := by split <;> omega
    have hoffle : requestLength f - max.toNat ≤ f.data.length := by
      rw [hlen]; omega
    have hoff : (UInt32.ofNat f.data.length - (f.size - max)).toNat =
        f.data.length - (requestLength f - max.toNat) := by
      rw [UInt32.toNat_sub_of_le, hdiff, hld]
      rw [UInt32.le_iff_toNat_le, hdiff, hld]; omega
    simp only [hoff, sliceTo, sliceFrom, Nat.sub_le, if_true]
    obtain ⟨ps, hps, hok⟩ := splitPayloads_ok f.streamID true f.complete max
      (f.metadata.length + f.data.length)
      (f.data.drop (f.data.length - (requestLength f - max.toNat))) f.metadata (by simp) (by simp; omega)
      (Or.inl (by omega))
    refine ⟨⟨f.frameType, f.streamID, f.metadata, f.data.take (f.data.length - (requestLength f - max.toNat)), true, false,
      f.initialN⟩, ps, fun fuel hf => by rw [hps fuel hf]; rfl, rfl, rfl, rfl, ?_,
      fun p hp => ⟨hok.stream p hp, hok.bounded p hp⟩, ?_⟩
    · have : requestLength ⟨f.frameType, f.streamID, f.metadata,
          f.data.take (f.data.length - (requestLength f - max.toNat)), true, false, f.initialN⟩ =
          nd + (if f.metadata = [] then 0 else 3) + f.metadata.length + (f.data.length - (requestLength f - max.toNat)) := by
        rw [hnd]; simp only [requestLength, List.length_take, Nat.min_eq_left (Nat.sub_le _ _)]
      rw [this]
      omega
    · have hpe : ps ≠ [] := by
        intro h
        have := (hok.empty.mp h).2
        rw [List.drop_eq_nil_iff] at this
        rw [hlen] at this hoffle
        omega
      rw [Spec.reassembleRequest, continueFrame_ok f.complete true ps _ _ _ hpe hok.init hok.last,
        hok.hmd, hok.hdata, if_neg (by omega)]
      simp

/-- Metadata that arrives twice, and metadata that does not. -/
example : ∃ f g : RequestPayload, f.metadata ≠ [] ∧ g.metadata ≠ [] ∧ (20 : UInt32).toNat < requestLength f ∧
    (20 : UInt32).toNat < requestLength g ∧
    (20 : UInt32).toNat ≤ f.metadata.length + 9 + (if f.frameType = 6 ∨ f.frameType = 7 then 4 else 0) ∧
    ¬ (20 : UInt32).toNat ≤ g.metadata.length + 9 + (if g.frameType = 6 ∨ g.frameType = 7 then 4 else 0) :=
  ⟨⟨6, 3, List.replicate 8 1, List.replicate 20 1, false, true, 9⟩, ⟨6, 3, List.replicate 6 1, List.replicate 20 1, false, true, 9⟩, by decide⟩

example : ∃ f : RequestPayload, f.metadata.length + f.data.length + 13 < 2^32 ∧
    14 ≤ (15 : UInt32).toNat ∧ (15 : UInt32).toNat < requestLength f ∧ f.metadata ≠ [] ∧
    (15 : UInt32).toNat ≤
      f.metadata.length + 9 + (if f.frameType = 6 ∨ f.frameType = 7 then 4 else 0) :=
  ⟨⟨6, 3, [1, 2, 3, 4], [5, 6, 7, 8], false, true, 9⟩, by decide⟩

/-! ## C09 -/

/-- C09 as stated in English: `Fragment` returns normally. -/
def C09_statement : Prop :=
  (∀ (f : Payload) (max : UInt32), ∃ fuel r, f.fragment max fuel = some (.ok r)) ∧
  (∀ (f : RequestPayload) (max : UInt32), ∃ fuel r, f.fragment max fuel = some (.ok r))

/-- C09 fails: an infinite loop with a maximum of 9 bytes ... -/
theorem C09_fragment_terminates_violated : ¬ C09_statement := by
  intro h
  obtain ⟨fuel, r, h⟩ := h.1 ⟨3, [1], [2], false, true, true⟩ 9
  rw [Payload.fragment, if_neg (by decide),
    splitPayloads_diverges 3 true true 9 [2] [1] ⟨3, [], [], true, false, false⟩ (by decide)] at h
  cases h

/-- ... and a crash for a stream request with a maximum of 8 bytes. -/
theorem C09_fragment_crash_violated : ∃ (f : RequestPayload) (max : UInt32),
    ∀ fuel, f.fragment max fuel = some .panic :=
  ⟨⟨6, 3, [], [1], false, true, 1⟩, 8, fun _ => by rfl⟩

/-- C09 for payload frames, exactly: fragmentation returns unless the frame has to be fragmented
and the maximum leaves no room at all (6 bytes without metadata, 9 bytes with). -/
theorem C09_payload_terminates_partial (f : Payload) (max : UInt32)
    (hsz : f.metadata.length + f.data.length + 9 < 2^31) :
    (∃ fuel r, f.fragment max fuel = some (.ok r)) ↔
      ¬ (max.toNat < Spec.payloadLength f ∧
         ((f.metadata = [] ∧ max = 6) ∨ (f.metadata ≠ [] ∧ max = 9))) := by
  have hle : f.size ≤ max ↔ ¬ max.toNat < Spec.payloadLength f := by
    rw [UInt32.le_iff_toNat_le, payload_size' f (by omega)]; omega
  by_cases hfit : max.toNat < Spec.payloadLength f
  · have hnle : ¬ f.size ≤ max := by rw [hle]; simpa using hfit
    simp only [Payload.fragment, hnle, if_false, hfit, true_and]
    by_cases hne : f.metadata = [] ∧ f.data = []
    · have h6 : Spec.payloadLength f = 6 := by simp [Spec.payloadLength, hne]
      constructor
      · rintro _ (⟨_, h⟩ | ⟨h, _⟩)
        · subst h; rw [h6] at hfit; exact absurd hfit (by decide)
        · exact h hne.1
      · intro _
        refine ⟨1, [], ?_⟩
        rw [hne.1, hne.2]; simp [splitPayloads, splitStep_empty]
    · constructor
      · rintro ⟨fuel, r, h⟩ hst
        obtain ⟨p, hp⟩ := splitStep_stuck f.streamID f.next f.complete max f.data f.metadata
          (by omega) hne hst
        rw [splitPayloads_diverges _ _ _ _ _ _ p hp] at h
        cases h
      · intro hst
        by_cases h10 : 10 ≤ max.toNat ∨ (f.metadata = [] ∧ 7 ≤ max.toNat)
        · obtain ⟨ps, hps, _⟩ := splitPayloads_ok f.streamID f.next f.complete max _ f.data
            f.metadata (Nat.le_refl _) (by omega) h10
          exact ⟨_, ps, hps _ (Nat.lt_succ_self _)⟩
        · have h6 : ¬ (f.metadata = [] ∧ max.toNat = 6) := by
            rintro ⟨h1, h2⟩; exact hst (Or.inl ⟨h1, UInt32.toNat_inj.mp h2⟩)
          have h9 : ¬ (f.metadata ≠ [] ∧ max.toNat = 9) := by
            rintro ⟨h1, h2⟩; exact hst (Or.inr ⟨h1, UInt32.toNat_inj.mp h2⟩)
          have hu : max.toNat < 6 ∨ (f.metadata ≠ [] ∧ max.toNat < 9) := by
            by_cases hm : f.metadata = []
            · simp [hm] at h10 h6; left; omega
            · simp [hm] at h10 h9; right; exact ⟨hm, by omega⟩
          obtain ⟨p, hp⟩ := splitStep_underflow f.streamID f.next f.complete max f.data f.metadata
            hsz hne hu
          exact ⟨2, [p], by simp [splitPayloads, hp, splitStep_empty]⟩
  · have hyes : f.size ≤ max := hle.mpr hfit
    simp only [Payload.fragment, hyes, if_true, hfit, false_and, not_false_eq_true, iff_true]
    exact ⟨0, [], rfl⟩

/-- C09 for request frames: returns for every maximum of at least 14 bytes. -/
theorem C09_request_terminates_partial (f : RequestPayload) (max : UInt32)
    (hsz : f.metadata.length + f.data.length + 13 < 2^31) (hmax : 14 ≤ max.toNat) :
    ∃ fuel r, f.fragment max fuel = some (.ok r) := by
  have hm32 := max.toNat_lt
  unfold RequestPayload.fragment
  by_cases hnle : f.size ≤ max
  · exact ⟨0, none, by simp [hnle]⟩
  simp only [hnle, if_false]
  have hbig : max.toNat < requestLength f := by
    rw [UInt32.le_iff_toNat_le, request_size' f (by omega)] at hnle; omega
  obtain ⟨nd, hnd⟩ : ∃ nd : Nat,
      nd = 6 + (if f.frameType = 6 ∨ f.frameType = 7 then 4 else 0) := ⟨_, rfl⟩
  have hnd10 : nd ≤ 10 := by rw [hnd]; split <;> omega
  have hndU : (6 + (if hasInitialN f.frameType then 4 else 0) : UInt32).toNat = nd := by
    rw [hnd]; simp only [hasInitialN_iff]; split <;> rfl
  have hMD : (max - (6 + (if hasInitialN f.frameType then 4 else 0)) - 3).toNat =
      max.toNat - nd - 3 := by
    rw [UInt32.toNat_sub_of_le, UInt32.toNat_sub_of_le, hndU]
    · rfl
    · rw [UInt32.le_iff_toNat_le, hndU]; omega
    · rw [UInt32.le_iff_toNat_le, UInt32.toNat_sub_of_le, hndU]
      · show 3 ≤ _; omega
      · rw [UInt32.le_iff_toNat_le, hndU]; omega
  have hlm : (UInt32.ofNat f.metadata.length).toNat = f.metadata.length :=
    UInt32.toNat_ofNat_lt (by omega)
  have hld : (UInt32.ofNat f.data.length).toNat = f.data.length :=
    UInt32.toNat_ofNat_lt (by omega)
  have hcond : (UInt32.ofNat f.metadata.length ≥
      max - (6 + (if hasInitialN f.frameType then 4 else 0)) - 3) ↔
      max.toNat - nd - 3 ≤ f.metadata.length := by
    rw [ge_iff_le, UInt32.le_iff_toNat_le, hMD, hlm]
  simp only [hcond, hMD]
  by_cases hA : max.toNat - nd - 3 ≤ f.metadata.length
  · simp only [hA, if_true, sliceTo, sliceFrom]
    obtain ⟨ps, hps, hok⟩ := splitPayloads_ok f.streamID true f.complete max
      (f.metadata.length + f.data.length) f.data
      (f.metadata.drop (max.toNat - nd - 3)) (by simp) (by simp; omega) (Or.inl (by omega))
    exact ⟨_, _, by rw [hps _ (Nat.lt_succ_self _)]; rfl⟩
  · simp only [hA, if_false]
    have hlen := hbig
    simp only [requestLength, ← hnd] at hlen
    have hdiff : (f.size - max).toNat = requestLength f - max.toNat := by
      rw [UInt32.toNat_sub_of_le, request_size' f (by omega)]
      rw [UInt32.le_iff_toNat_le, request_size' f (by omega)]; omega
    have hoffle : requestLength f - max.toNat ≤ f.data.length := by
      simp only [requestLength, ← hnd]; split <;> omega
    have hoff : (UInt32.ofNat f.data.length - (f.size - max)).toNat =
        f.data.length - (requestLength f - max.toNat) := by
      rw [UInt32.toNat_sub_of_le, hdiff, hld]
      rw [UInt32.le_iff_toNat_le, hdiff, hld]; omega
    simp only [hoff, sliceTo, sliceFrom, Nat.sub_le, if_true]
    obtain ⟨ps, hps, hok⟩ := splitPayloads_ok f.streamID true f.complete max
      (f.metadata.length + f.data.length)
      (f.data.drop (f.data.length - (requestLength f - max.toNat))) f.metadata
      (by simp) (by simp; omega) (Or.inl (by omega))
    exact ⟨_, _, by rw [hps _ (Nat.lt_succ_self _)]; rfl⟩

/-- Bytes of the fixed part of a request frame. -/
def requestFixed (f : RequestPayload) : Nat := 6 + (if f.frameType = 6 ∨ f.frameType = 7 then 4 else 0)

/-- C09 for request frames, exactly: fragmentation returns unless the frame has to be fragmented and the maximum is below
what the first fragment needs at least (a crash), or leaves no room for the rest in a payload frame: 6 bytes without
metadata, 9 bytes with (an infinite loop). -/
theorem C09_request_exact_partial (f : RequestPayload) (max : UInt32)
    (hsz : f.metadata.length + f.data.length + 13 < 2^31) :
    (∃ fuel r, f.fragment max fuel = some (.ok r)) ↔
      ¬ (max.toNat < requestLength f ∧
         ((f.metadata = [] ∧ (max.toNat < requestFixed f ∨ max = 6)) ∨
          (f.metadata ≠ [] ∧ (max.toNat < requestFixed f + 3 ∨ max = 9)))) := by
  have hm32 := max.toNat_lt
  have h6 : max = 6 ↔ max.toNat = 6 := by rw [← UInt32.toNat_inj]; rfl
  have h9 : max = 9 ↔ max.toNat = 9 := by rw [← UInt32.toNat_inj]; rfl
  have hle : f.size ≤ max ↔ ¬ max.toNat < requestLength f := by
    rw [UInt32.le_iff_toNat_le, request_size' f (by omega)]; omega
  rcases Classical.em (¬ max.toNat < requestLength f) with hbig | hbig'
  · have hyes : f.size ≤ max := hle.mpr hbig
    simp only [RequestPayload.fragment, hyes, if_true, hbig, false_and, not_false_eq_true, iff_true]
    exact ⟨0, none, rfl⟩
  have hbig : max.toNat < requestLength f := Nat.lt_of_not_le fun h => hbig' (Nat.not_lt.mpr h)
  by_cases h14 : 14 ≤ max.toNat
  · refine ⟨fun _ => ?_, fun _ => C09_request_terminates_partial f max hsz h14⟩
    have : requestFixed f ≤ 10 := by unfold requestFixed; split <;> omega
    rw [h6, h9]
    rintro ⟨-, ⟨-, h⟩ | ⟨-, h⟩⟩ <;> omega
  have hnle : ¬ f.size ≤ max := by rw [hle]; simpa using hbig
  obtain ⟨nd, hnd⟩ : ∃ nd : Nat, nd = requestFixed f := ⟨_, rfl⟩
  have hndc : nd = 6 ∨ nd = 10 := by rw [hnd]; unfold requestFixed; split <;> omega
  have hndU : (6 + (if hasInitialN f.frameType then 4 else 0) : UInt32).toNat = nd := by
    rw [hnd]; simp only [requestFixed, hasInitialN_iff]; split <;> rfl
  have hMD : (max - (6 + (if hasInitialN f.frameType then 4 else 0)) - 3).toNat =
      if nd + 3 ≤ max.toNat then max.toNat - nd - 3 else 2^32 + max.toNat - nd - 3 := by
    rw [UInt32.toNat_sub, UInt32.toNat_sub, hndU]
    have : UInt32.toNat 3 = 3 := rfl
    rw [this]
    split <;> omega
  have hlm : (UInt32.ofNat f.metadata.length).toNat = f.metadata.length := UInt32.toNat_ofNat_lt (by omega)
  have hld : (UInt32.ofNat f.data.length).toNat = f.data.length := UInt32.toNat_ofNat_lt (by omega)
  have hcond : (UInt32.ofNat f.metadata.length ≥ max - (6 + (if hasInitialN f.frameType then 4 else 0)) - 3) ↔
      nd + 3 ≤ max.toNat ∧ max.toNat - nd - 3 ≤ f.metadata.length := by
    rw [ge_iff_le, UInt32.le_iff_toNat_le, hMD, hlm]
    split <;> omega
  have hlen : requestLength f = nd + (if f.metadata = [] then 0 else 3) + f.metadata.length + f.data.length := by
    rw [hnd]; rfl
  have hml : f.metadata = [] ↔ f.metadata.length = 0 := List.length_eq_zero_iff.symm
  rw [← hnd]
  unfold RequestPayload.fragment
  simp only [hnle, if_false, hcond, hMD, hbig, true_and]
  by_cases hA : nd + 3 ≤ max.toNat ∧ max.toNat - nd - 3 ≤ f.metadata.length
  · simp only [hA, and_self, if_true, sliceTo, sliceFrom]
    by_cases hgo : 10 ≤ max.toNat ∨ (f.metadata.drop (max.toNat - nd - 3) = [] ∧ 7 ≤ max.toNat)
    · obtain ⟨ps, hps, hok⟩ := splitPayloads_ok f.streamID true f.complete max
        (f.metadata.length + f.data.length) f.data
        (f.metadata.drop (max.toNat - nd - 3)) (by simp) (by simp; omega) hgo
      refine ⟨fun _ => ?_, fun _ => ⟨f.metadata.length + f.data.length + 1, _, by rw [hps _ (Nat.lt_succ_self _)]; rfl⟩⟩
      rw [h6, h9]
      rintro (⟨-, h⟩ | ⟨hne, h⟩)
      · omega
      · rcases hgo with hgo | ⟨hgo, -⟩
        · omega
        · have := List.drop_eq_nil_iff.mp hgo
          have : f.metadata.length ≠ 0 := fun e => hne (hml.mpr e)
          omega
    · have hnine : max.toNat = 9 ∧ nd = 6 := by omega
      have hdr : f.metadata.drop (max.toNat - nd - 3) = f.metadata := by rw [show max.toNat - nd - 3 = 0 by omega, List.drop_zero]
      have hne : f.metadata ≠ [] := by
        intro e; rw [hdr] at hgo; exact hgo (.inr ⟨e, by omega⟩)
      obtain ⟨p, hp⟩ := splitStep_stuck f.streamID true f.complete max f.data f.metadata (by omega)
        (fun e => hne e.1) (.inr ⟨hne, h9.mpr hnine.1⟩)
      constructor
      · rintro ⟨fuel, r, h⟩
        rw [hdr, splitPayloads_diverges _ _ _ _ _ _ p hp] at h
        cases h
      · intro h
        exact absurd (.inr ⟨hne, .inr (h9.mpr hnine.1)⟩) h
  · simp only [hA, if_false]
    have hdiff : (f.size - max).toNat = requestLength f - max.toNat := by
      rw [UInt32.toNat_sub_of_le, request_size' f (by omega)]
      rw [UInt32.le_iff_toNat_le, request_size' f (by omega)]; omega
    have hoff : (UInt32.ofNat f.data.length - (f.size - max)).toNat =
        if requestLength f - max.toNat ≤ f.data.length then f.data.length - (requestLength f - max.toNat)
        else 2^32 + f.data.length - (requestLength f - max.toNat) := by
      rw [UInt32.toNat_sub, hdiff, hld]
      have : requestLength f < 2^31 := by rw [hlen]; split <;> omega
      split <;> omega
    simp only [hoff, sliceTo, sliceFrom]
    by_cases hcr : requestLength f - max.toNat ≤ f.data.length
    · simp only [hcr, if_true, Nat.sub_le]
      by_cases hgo : 10 ≤ max.toNat ∨ (f.metadata = [] ∧ 7 ≤ max.toNat)
      · obtain ⟨ps, hps, hok⟩ := splitPayloads_ok f.streamID true f.complete max
          (f.metadata.length + f.data.length)
          (f.data.drop (f.data.length - (requestLength f - max.toNat))) f.metadata
          (by simp) (by simp; omega) hgo
        refine ⟨fun _ => ?_, fun _ => ⟨f.metadata.length + f.data.length + 1, _, by rw [hps _ (Nat.lt_succ_self _)]; rfl⟩⟩
        rw [h6, h9]
        rintro (⟨he, h⟩ | ⟨hne, h⟩)
        · simp only [he, if_true] at hlen
          simp at hlen
          omega
        · simp only [hne, if_false] at hlen
          have : f.metadata.length ≠ 0 := fun e => hne (hml.mpr e)
          omega
      · have hme : f.metadata = [] := by
          refine Decidable.byContradiction fun hne => ?_
          simp only [hne, if_false] at hlen
          have : f.metadata.length ≠ 0 := fun e => hne (hml.mpr e)
          omega
        have hsix : max.toNat = 6 := by
          simp only [hme, if_true] at hlen
          simp at hlen
          simp only [hme, true_and] at hgo
          omega
        have hd : ¬ (f.metadata = [] ∧ f.data.drop (f.data.length - (requestLength f - max.toNat)) = []) := by
          rintro ⟨-, e⟩
          have := List.drop_eq_nil_iff.mp e
          simp only [hme, if_true] at hlen
          simp at hlen
          omega
        obtain ⟨p, hp⟩ := splitStep_stuck f.streamID true f.complete max
          (f.data.drop (f.data.length - (requestLength f - max.toNat))) f.metadata (by simp; omega)
          hd (.inl ⟨hme, h6.mpr hsix⟩)
        constructor
        · rintro ⟨fuel, r, h⟩
          rw [splitPayloads_diverges _ _ _ _ _ _ p hp] at h
          cases h
        · intro h
          exact absurd (.inl ⟨hme, .inr (h6.mpr hsix)⟩) h
    · have : ¬ (2^32 + f.data.length - (requestLength f - max.toNat) ≤ f.data.length) := by
        have : requestLength f < 2^31 := by rw [hlen]; split <;> omega
        omega
      simp only [hcr, if_false, this]
      constructor
      · rintro ⟨fuel, r, h⟩
        cases h
      · intro h
        refine absurd ?_ h
        by_cases hme : f.metadata = []
        · simp only [hme, if_true] at hlen
          simp at hlen
          exact .inl ⟨hme, .inl (by omega)⟩
        · simp only [hme, if_false] at hlen
          exact .inr ⟨hme, .inl (by omega)⟩

/-- Requests which return, crash, and loop. -/
example : (∃ fuel r, RequestPayload.fragment ⟨6, 3, [], [1, 2, 3], false, true, 1⟩ 11 fuel = some (.ok r)) ∧
    (¬ ∃ fuel r, RequestPayload.fragment ⟨6, 3, [7], [1, 2], false, true, 1⟩ 12 fuel = some (.ok r)) ∧
    (¬ ∃ fuel r, RequestPayload.fragment ⟨4, 3, [7], [1, 2], false, true, 1⟩ 9 fuel = some (.ok r)) := by
  refine ⟨?_, ?_, ?_⟩ <;> rw [C09_request_exact_partial _ _ (by decide)] <;> decide

end Verif.Props
