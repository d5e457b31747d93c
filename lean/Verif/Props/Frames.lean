import Verif.Lemmas.Frames
/-
Properties C01 - C06 and C10: frame header, frame encodings, frame decoders.
-/
namespace Verif.Props
open Verif Frames

/-! ## C01 -/

/-- C01, forward direction: header bytes are the specified ones and parse back. -/
theorem C01_header_roundtrip (id : UInt32) (t : UInt8) (fg : UInt16)
    (hid : id.toNat < 2^31) (ht : t.toNat < 64) (hf : fg.toNat < 1024) :
    headerBytes id t fg = Spec.header id.toNat t.toNat fg.toNat ∧
    ∃ h, parseHeader (headerBytes id t fg) = .ok h ∧
      h.streamID = id ∧ h.type = t ∧ h.flag = fg := by
  refine ⟨headerBytes_eq ht hf, mkHeader id t fg, ?_, mkHeader_streamID _ _ hid,
    mkHeader_type _ ht hf, mkHeader_flag _ ht hf⟩
  simpa using parseHeader_headerBytes id t fg []

example : (0x7FFFFFFF : UInt32).toNat < 2^31 ∧ (0x3F : UInt8).toNat < 64 ∧
    (0x3FF : UInt16).toNat < 1024 := by decide

/-- C01, converse: every six bytes parse; rewriting the parsed fields gives the same bytes with
the reserved top bit cleared. -/
theorem C01_header_reencode (b0 b1 b2 b3 b4 b5 : UInt8) :
    ∃ h, parseHeader [b0, b1, b2, b3, b4, b5] = .ok h ∧
      h.streamID.toNat < 2^31 ∧ h.type.toNat < 64 ∧ h.flag.toNat < 1024 ∧
      headerBytes h.streamID h.type h.flag = [b0 &&& 0x7F, b1, b2, b3, b4, b5] := by
  refine ⟨⟨b0, b1, b2, b3, b4, b5⟩, rfl, ?_⟩
  have hb0 := b0.toNat_lt; have hb1 := b1.toNat_lt; have hb2 := b2.toNat_lt
  have hb3 := b3.toNat_lt; have hb4 := b4.toNat_lt; have hb5 := b5.toNat_lt
  have hid : (Header.streamID ⟨b0, b1, b2, b3, b4, b5⟩).toNat =
      (b0.toNat % 128) * 2^24 + b1.toNat * 2^16 + b2.toNat * 2^8 + b3.toNat := by
    have := Nat.and_two_pow_sub_one_eq_mod (beNat [b0, b1, b2, b3]) 31
    simp [Header.streamID, UInt32.toNat_and, UInt32.toNat_ofNat', beNat] at *
    rw [Nat.mod_eq_of_lt (by omega), this]
    omega
  have hn : (Header.n ⟨b0, b1, b2, b3, b4, b5⟩).toNat = b4.toNat * 256 + b5.toNat := by
    simp [Header.n, UInt16.toNat_ofNat', beNat]; omega
  have hty : (Header.type ⟨b0, b1, b2, b3, b4, b5⟩).toNat = b4.toNat / 4 := by
    rw [Header.type, word_type, hn]; omega
  have hfl : (Header.flag ⟨b0, b1, b2, b3, b4, b5⟩).toNat = (b4.toNat % 4) * 256 + b5.toNat := by
    rw [Header.flag, word_flag, hn]; omega
  have hb : (b0 &&& 0x7F).toNat = b0.toNat % 128 := by
    have := Nat.and_two_pow_sub_one_eq_mod b0.toNat 7
    simpa [UInt8.toNat_and] using this
  refine ⟨by omega, by omega, by omega, ?_⟩
  have hw := headerWord_toNat (t := Header.type ⟨b0, b1, b2, b3, b4, b5⟩)
    (fg := Header.flag ⟨b0, b1, b2, b3, b4, b5⟩) (by omega) (by omega)
  simp only [headerBytes, be32, be16, hw, hid, hty, hfl, List.cons_append, List.nil_append,
    List.cons.injEq, and_true]
  refine ⟨?_, ?_, ?_, ?_, ?_, ?_⟩ <;> apply UInt8.toNat_inj.mp <;>
    simp only [UInt8.toNat_ofNat', hb] <;> omega

/-! ## C02 -/

theorem payload_flags_toNat (f : Payload) (hmd : f.metadata.length < 2^24) :
    f.flags.toNat = Spec.mdFlag f.metadata + Spec.bit f.follows 0x80 +
      Spec.bit f.complete 0x40 + Spec.bit f.next 0x20 := by
  have hp := UInt32.ofNat_pos_iff (n := f.metadata.length) (by omega)
  have h0 : 0 < f.metadata.length ↔ f.metadata ≠ [] := List.length_pos_iff
  unfold Payload.flags Spec.mdFlag Spec.bit
  simp only [hp, h0]
  by_cases hm : f.metadata = [] <;> cases f.follows <;> cases f.complete <;> cases f.next <;>
    simp [hm] <;> decide

theorem payload_encode (f : Payload) (hmd : f.metadata.length < 2^24) (buf : Bytes)
    (hb : (Spec.payloadWire f).length ≤ buf.length) :
    f.encode buf = .ok (Spec.payloadWire f ++ buf.drop (Spec.payloadWire f).length) := by
  have hfl := payload_flags_toNat f hmd
  have hlt : f.flags.toNat < 1024 := by
    rw [hfl]; unfold Spec.mdFlag Spec.bit; split <;> split <;> split <;> split <;> omega
  have hw : Spec.payloadWire f =
      headerBytes f.streamID typePayload f.flags ++ (Spec.metadataBlock f.metadata ++ f.data) := by
    rw [headerBytes_eq (by decide) hlt, hfl]; simp [Spec.payloadWire, typePayload]
  rw [hw] at hb ⊢
  simp [headerBytes] at hb
  unfold Payload.encode
  rw [putHeader_ok _ _ _ (by simp; omega)]
  simp only [Go.bind_ok, List.nil_append]
  rw [putMetadata_ok (by omega) (by simp; omega)]
  simp only [Go.bind_ok]
  rw [Cur.copyAll (by simp; omega)]
  simp [headerBytes]
  congr 1; omega

theorem payload_size (f : Payload) (hmd : f.metadata.length < 2^24)
    (hsz : (Spec.payloadWire f).length < 2^32) :
    f.size.toNat = (Spec.payloadWire f).length := by
  have hp := UInt32.ofNat_pos_iff (n := f.metadata.length) (by omega)
  have h0 : 0 < f.metadata.length ↔ f.metadata ≠ [] := List.length_pos_iff
  simp only [Spec.payloadWire, Spec.header, List.length_append, Spec.bigEndian_length,
    Spec.metadataBlock_length] at hsz ⊢
  unfold Payload.size
  simp only [hp, h0]
  by_cases hm : f.metadata = [] <;> simp [hm, UInt32.toNat_add, UInt32.toNat_ofNat'] at hsz ⊢ <;>
    omega

theorem payload_decode (f : Payload) (hid : f.streamID.toNat < 2^31)
    (hmd : f.metadata.length < 2^24) :
    ∃ h, recv Payload.decode (Spec.payloadWire f) = .ok (h, f) ∧ h.type = typePayload := by
  have hfl := payload_flags_toNat f hmd
  have hlt : f.flags.toNat < 1024 := by
    rw [hfl]; unfold Spec.mdFlag Spec.bit; split <;> split <;> split <;> split <;> omega
  have hw : Spec.payloadWire f =
      headerBytes f.streamID typePayload f.flags ++ (Spec.metadataBlock f.metadata ++ f.data) := by
    rw [headerBytes_eq (by decide) hlt, hfl]; simp [Spec.payloadWire, typePayload]
  refine ⟨mkHeader f.streamID typePayload f.flags, ?_, mkHeader_type _ (by decide) hlt⟩
  rw [hw]
  unfold recv
  rw [parseHeader_headerBytes, sliceFrom_append' _ _ _ (by simp [headerBytes])]
  simp only [Go.bind_ok, Payload.decode, mkHeader_flag _ (by decide : typePayload.toNat < 64) hlt,
    mkHeader_streamID _ _ hid]
  have hp := UInt32.ofNat_pos_iff (n := f.metadata.length) (by omega)
  have h0 : 0 < f.metadata.length ↔ f.metadata ≠ [] := List.length_pos_iff
  have hc : check f.flags flagMetadata = decide (f.metadata ≠ []) ∧
      check f.flags flagFollow = f.follows ∧ check f.flags flagComplete = f.complete ∧
      check f.flags flagNext = f.next := by
    unfold Payload.flags
    simp only [hp, h0]
    by_cases hm : f.metadata = [] <;> cases f.follows <;> cases f.complete <;> cases f.next <;>
      simp [hm] <;> decide
  rw [getMetadata_ok hmd _ hc.1]
  simp [hc]

/-- C02: encoding a payload frame into a buffer of `Size()` bytes produces the specified wire
bytes, and the receiver decodes them to the same frame, with frame type PAYLOAD. -/
theorem C02_payload_roundtrip (f : Payload) (buf : Bytes)
    (hid : f.streamID.toNat < 2^31) (hmd : f.metadata.length < 2^24)
    (hsz : f.metadata.length + f.data.length + 9 < 2^32) (hb : buf.length = f.size.toNat) :
    f.encode buf = .ok (Spec.payloadWire f) ∧
    ∃ h, recv Payload.decode (Spec.payloadWire f) = .ok (h, f) ∧ h.type = 0x0A := by
  have hl : (Spec.payloadWire f).length < 2^32 := by
    simp only [Spec.payloadWire, Spec.header, List.length_append, Spec.bigEndian_length,
      Spec.metadataBlock_length]
    split <;> omega
  have hs := payload_size f hmd hl
  refine ⟨?_, payload_decode f hid hmd⟩
  rw [payload_encode f hmd buf (by omega), List.drop_eq_nil_of_le (by omega)]
  simp

example : ∃ f : Payload, f.streamID.toNat < 2^31 ∧ f.metadata.length < 2^24 ∧
    f.metadata.length + f.data.length + 9 < 2^32 ∧ f.metadata ≠ [] ∧ f.data ≠ [] ∧ f.next ∧
    (List.replicate 14 0 : Bytes).length = f.size.toNat :=
  ⟨⟨7, [1, 2], [3, 4, 5], false, false, true⟩, by decide⟩

/-! ## C03 -/

/-- The request frame types. -/
def isRequest (t : UInt8) : Prop := t = 4 ∨ t = 5 ∨ t = 6 ∨ t = 7

instance (t : UInt8) : Decidable (isRequest t) := inferInstanceAs (Decidable (_ ∨ _))

/-- What a receiver should see of a request frame: initial N exists only for stream and channel
requests (otherwise one response is expected), the completion flag only for channels (otherwise
the requester is done with its request). -/
def requestSeen (f : RequestPayload) : RequestPayload :=
  { f with initialN := if f.frameType = 6 ∨ f.frameType = 7 then f.initialN else 1
           complete := if f.frameType = 7 then f.complete else true }

/-- C03 as stated in English: every request frame survives encode/decode. -/
def C03_statement : Prop :=
  ∀ (f : RequestPayload) (buf : Bytes), isRequest f.frameType → f.streamID.toNat < 2^31 →
    f.metadata.length < 2^24 → f.metadata.length + f.data.length + 13 < 2^32 →
    buf.length = f.size.toNat →
    ∃ w h, f.encode buf = .ok w ∧ recv RequestPayload.decode w = .ok (h, requestSeen f)

theorem request_flags_toNat (f : RequestPayload) (hmd : f.metadata.length < 2^24) :
    f.flags.toNat = Spec.mdFlag f.metadata + Spec.bit (f.frameType == 7 && f.complete) 0x40 := by
  have hp := UInt32.ofNat_pos_iff (n := f.metadata.length) (by omega)
  have h0 : 0 < f.metadata.length ↔ f.metadata ≠ [] := List.length_pos_iff
  unfold RequestPayload.flags Spec.mdFlag Spec.bit
  simp only [hp, h0]
  rw [show (7 : UInt8) = typeRequestChannel from rfl]
  generalize (f.frameType == typeRequestChannel && f.complete) = b
  by_cases hm : f.metadata = [] <;> cases b <;> simp [hm] <;> decide

theorem request_flags_lt (f : RequestPayload) (hmd : f.metadata.length < 2^24) :
    f.flags.toNat < 1024 := by
  rw [request_flags_toNat f hmd]; unfold Spec.mdFlag Spec.bit; split <;> split <;> omega

theorem hasInitialN_iff (t : UInt8) : hasInitialN t = true ↔ (t = 6 ∨ t = 7) := by
  simp [hasInitialN, typeRequestStream, typeRequestChannel]

theorem request_wire (f : RequestPayload) (ht : isRequest f.frameType)
    (hmd : f.metadata.length < 2^24) (hfo : f.follows = false) :
    Spec.requestWire f = headerBytes f.streamID f.frameType f.flags ++
      ((if hasInitialN f.frameType then be32 f.initialN else []) ++
        (Spec.metadataBlock f.metadata ++ f.data)) := by
  have hlt := request_flags_lt f hmd
  have htt : f.frameType.toNat < 64 := by
    rcases ht with h | h | h | h <;> rw [h] <;> decide
  rw [headerBytes_eq htt hlt, request_flags_toNat f hmd]
  simp [Spec.requestWire, hfo, Spec.bit, hasInitialN_iff, Spec.be32_eq]

theorem request_encode (f : RequestPayload) (ht : isRequest f.frameType)
    (hmd : f.metadata.length < 2^24) (hfo : f.follows = false) (buf : Bytes)
    (hb : (Spec.requestWire f).length ≤ buf.length) :
    f.encode buf = .ok (Spec.requestWire f ++ buf.drop (Spec.requestWire f).length) := by
  rw [request_wire f ht hmd hfo] at hb ⊢
  by_cases hn : hasInitialN f.frameType
  · simp [headerBytes, hn] at hb
    unfold RequestPayload.encode
    rw [putHeader_ok _ _ _ (by simp; omega)]
    simp only [Go.bind_ok, List.nil_append, hn, if_true]
    rw [Cur.put_ok (by simp; omega)]
    simp only [Go.bind_ok]
    rw [putMetadata_ok (by omega) (by simp; omega)]
    simp only [Go.bind_ok]
    rw [Cur.copyAll (by simp; omega)]
    simp [headerBytes]
    congr 1; omega
  · simp [headerBytes, hn] at hb
    unfold RequestPayload.encode
    rw [putHeader_ok _ _ _ (by simp; omega)]
    simp only [Go.bind_ok, List.nil_append, hn]
    simp only [Bool.false_eq_true, if_false]
    rw [putMetadata_ok (by omega) (by simp; omega)]
    simp only [Go.bind_ok]
    rw [Cur.copyAll (by simp; omega)]
    simp [headerBytes]
    congr 1; omega

theorem request_size (f : RequestPayload) (hmd : f.metadata.length < 2^24)
    (hsz : (Spec.requestWire f).length < 2^32) :
    f.size.toNat = (Spec.requestWire f).length := by
  have hp := UInt32.ofNat_pos_iff (n := f.metadata.length) (by omega)
  have h0 : 0 < f.metadata.length ↔ f.metadata ≠ [] := List.length_pos_iff
  simp only [Spec.requestWire, Spec.header, List.length_append, Spec.bigEndian_length,
    Spec.metadataBlock_length] at hsz ⊢
  unfold RequestPayload.size
  simp only [hp, h0, hasInitialN_iff]
  by_cases hm : f.metadata = [] <;> by_cases hn : f.frameType = 6 ∨ f.frameType = 7 <;>
    simp [hm, hn, UInt32.toNat_add, UInt32.toNat_ofNat'] at hsz ⊢ <;>
    omega

theorem request_decode (f : RequestPayload) (ht : isRequest f.frameType)
    (hid : f.streamID.toNat < 2^31) (hmd : f.metadata.length < 2^24) (hfo : f.follows = false) :
    ∃ h, recv RequestPayload.decode (Spec.requestWire f) = .ok (h, requestSeen f) ∧
      h.type = f.frameType := by
  have hlt := request_flags_lt f hmd
  have htt : f.frameType.toNat < 64 := by
    rcases ht with h | h | h | h <;> rw [h] <;> decide
  refine ⟨mkHeader f.streamID f.frameType f.flags, ?_, mkHeader_type _ htt hlt⟩
  rw [request_wire f ht hmd hfo]
  unfold recv
  rw [parseHeader_headerBytes, sliceFrom_append' _ _ _ (by simp [headerBytes])]
  simp only [Go.bind_ok, RequestPayload.decode, mkHeader_flag _ htt hlt,
    mkHeader_streamID _ _ hid, mkHeader_type _ htt hlt]
  have hp := UInt32.ofNat_pos_iff (n := f.metadata.length) (by omega)
  have h0 : 0 < f.metadata.length ↔ f.metadata ≠ [] := List.length_pos_iff
  have hc : check f.flags flagMetadata = decide (f.metadata ≠ []) ∧
      check f.flags flagFollow = false ∧
      check f.flags flagComplete = (f.frameType == typeRequestChannel && f.complete) := by
    unfold RequestPayload.flags
    simp only [hp, h0]
    generalize (f.frameType == typeRequestChannel && f.complete) = b
    by_cases hm : f.metadata = [] <;> cases b <;> simp [hm] <;> decide
  by_cases hn : hasInitialN f.frameType
  · simp only [hn, if_true, getU32_be32, Go.bind_ok]
    rw [sliceFrom_append' _ _ _ (by simp)]
    simp only [Go.bind_ok, Go.pure_eq]
    rw [getMetadata_ok hmd _ hc.1]
    have := (hasInitialN_iff _).mp hn
    obtain ⟨ft, id, md, data, fo, co, n⟩ := f
    simp only at *
    subst hfo
    simp only [Go.bind_ok, hc, requestSeen]
    rcases this with h | h <;> subst h <;> simp [typeRequestChannel]
  · simp only [hn, Bool.false_eq_true, if_false, List.nil_append, Go.pure_eq, Go.bind_ok]
    rw [getMetadata_ok hmd _ hc.1]
    have := mt (hasInitialN_iff _).mpr hn
    obtain ⟨ft, id, md, data, fo, co, n⟩ := f
    simp only at *
    subst hfo
    simp only [Go.bind_ok, hc, requestSeen]
    have h7 : ft ≠ 7 := fun h => this (Or.inr h)
    have h6 : ft ≠ 6 := fun h => this (Or.inl h)
    simp [h6, h7, typeRequestChannel]

/-- C03 does not hold: the encoder never sets the follows flag. -/
theorem C03_request_roundtrip_violated : ¬ C03_statement := by
  intro hst
  obtain ⟨w, h, he, hd⟩ := hst ⟨4, 2, [], [9], true, true, 1⟩ [0, 0, 0, 0, 0, 0, 0]
    (by decide) (by decide) (by decide) (by decide) (by decide)
  have : w = [0, 0, 0, 2, 0x10, 0, 9] := by
    have : (RequestPayload.encode ⟨4, 2, [], [9], true, true, 1⟩ [0, 0, 0, 0, 0, 0, 0]) =
      .ok [0, 0, 0, 2, 0x10, 0, 9] := by decide
    rw [this] at he; exact (Go.ok.inj he).symm
  subst this
  have h2 : recv RequestPayload.decode [0, 0, 0, 2, 0x10, 0, 9] =
    .ok (⟨0, 0, 0, 2, 0x10, 0⟩, ⟨4, 2, [], [9], false, true, 1⟩) := by decide
  rw [h2] at hd
  have := (Prod.mk.inj (Go.ok.inj hd)).2
  revert this; decide

/-- C03, the part that holds: unfragmented requests (follows flag clear) round-trip, with the
specified wire bytes. Missing: frames with the follows flag. -/
theorem C03_request_roundtrip_partial (f : RequestPayload) (buf : Bytes)
    (ht : isRequest f.frameType) (hid : f.streamID.toNat < 2^31)
    (hmd : f.metadata.length < 2^24) (hsz : f.metadata.length + f.data.length + 13 < 2^32)
    (hfo : f.follows = false) (hb : buf.length = f.size.toNat) :
    f.encode buf = .ok (Spec.requestWire f) ∧
    ∃ h, recv RequestPayload.decode (Spec.requestWire f) = .ok (h, requestSeen f) ∧
      h.type = f.frameType := by
  have hl : (Spec.requestWire f).length < 2^32 := by
    simp only [Spec.requestWire, Spec.header, List.length_append, Spec.bigEndian_length,
      Spec.metadataBlock_length]
    split <;> split <;> simp <;> omega
  have hs := request_size f hmd hl
  refine ⟨?_, request_decode f ht hid hmd hfo⟩
  rw [request_encode f ht hmd hfo buf (by omega), List.drop_eq_nil_of_le (by omega)]
  simp

example : ∃ f : RequestPayload, isRequest f.frameType ∧ f.streamID.toNat < 2^31 ∧
    f.metadata.length < 2^24 ∧ f.metadata.length + f.data.length + 13 < 2^32 ∧
    f.follows = false ∧ f.metadata ≠ [] ∧ (List.replicate 15 0 : Bytes).length = f.size.toNat :=
  ⟨⟨7, 3, [1], [2], false, true, 77⟩, by decide⟩

end Verif.Props
