import Verif.Model.TcpConn
import Verif.Props.Frames2
import Verif.Props.Scanner
import Verif.Props.Small
import Verif.Lemmas.HandlerShape
/-
Frames written to and read from a TCP connection, as needed for property C109.
-/
set_option autoImplicit false
namespace Verif.Props
open Verif Frames

/-! ## Specification -/

/-- The bytes of the application in a frame. -/
def bodySize : AnyFrame → Nat
  | .setup f => f.metadata.length + f.data.length
  | .request f => f.metadata.length + f.data.length
  | .payload f => f.metadata.length + f.data.length
  | .error f => f.data.length
  | _ => 0

/-- What a receiver should see of a frame (`requestSeen`: fields that a kind of request does not have). -/
def frameSeen : AnyFrame → AnyFrame
  | .request f => .request (requestSeen f)
  | f => f

/-- The frames an end sends after the setup frame: requests are of one of the four kinds, not marked as
fragments, and ask for one value if they cannot ask for more. -/
def Ordinary : AnyFrame → Prop
  | .setup _ => False
  | .request f => isRequest f.frameType ∧ f.follows = false ∧
      (f.frameType ≠ typeRequestStream → f.frameType ≠ typeRequestChannel → f.initialN = 1)
  | _ => True

/-- The bytes of a frame according to the protocol. -/
def frameWire : AnyFrame → Bytes
  | .setup f => Spec.setupWire f
  | .request f => Spec.requestWire f
  | .requestN f => Spec.requestNWire f
  | .cancel f => Spec.cancelWire f
  | .payload f => Spec.payloadWire f
  | .error f => Spec.errorWire f

/-! ## Proof -/

theorem wire_size {f : AnyFrame} (ho : Ordinary f) (hb : bodySize f + 13 < 2 ^ 32)
    (hs : f.size.toNat < 2 ^ 24) : f.size.toNat = (frameWire f).length ∧ 6 ≤ f.size.toNat := by
  cases f with
  | setup f => exact ho.elim
  | request f =>
    have hm : f.metadata.length < 2 ^ 24 := by
      simp only [AnyFrame.size, RequestPayload.size, bodySize] at hb hs
      by_cases h1 : hasInitialN f.frameType <;> by_cases h2 : UInt32.ofNat f.metadata.length > 0 <;>
        simp [h1, h2, UInt32.toNat_add, UInt32.toNat_ofNat'] at hs <;> omega
    have hl : (Spec.requestWire f).length < 2 ^ 32 := by
      simp only [bodySize] at hb
      simp only [Spec.requestWire, Spec.header, List.length_append, Spec.bigEndian_length,
        Spec.metadataBlock_length]
      split <;> split <;> simp <;> omega
    refine ⟨request_size f hm hl, ?_⟩
    show 6 ≤ f.size.toNat
    rw [request_size f hm hl]
    simp only [Spec.requestWire, Spec.header, List.length_append, Spec.bigEndian_length]
    omega
  | requestN f => exact ⟨by simp [frameWire, Spec.requestNWire, Spec.header]; rfl, by show 6 ≤ (10 : UInt32).toNat; decide⟩
  | cancel f => exact ⟨by simp [frameWire, Spec.cancelWire, Spec.header]; rfl, by show 6 ≤ (6 : UInt32).toNat; decide⟩
  | payload f =>
    have hm : f.metadata.length < 2 ^ 24 := by
      simp only [AnyFrame.size, Payload.size, bodySize] at hb hs
      by_cases h2 : UInt32.ofNat f.metadata.length > 0 <;>
        simp [h2, UInt32.toNat_add, UInt32.toNat_ofNat'] at hs <;> omega
    have hl : (Spec.payloadWire f).length < 2 ^ 32 := by
      simp only [bodySize] at hb
      simp only [Spec.payloadWire, Spec.header, List.length_append, Spec.bigEndian_length,
        Spec.metadataBlock_length]
      split <;> omega
    refine ⟨payload_size f hm hl, ?_⟩
    show 6 ≤ f.size.toNat
    rw [payload_size f hm hl]
    simp only [Spec.payloadWire, Spec.header, List.length_append, Spec.bigEndian_length]
    omega
  | error f =>
    simp only [bodySize] at hb
    have : f.size.toNat = 6 + 4 + f.data.length := by
      rw [Error.size, UInt32.toNat_ofNat_lt (by omega)]
    refine ⟨?_, by show 6 ≤ f.size.toNat; omega⟩
    show f.size.toNat = _
    rw [this]
    simp [frameWire, Spec.errorWire, Spec.header]
    omega

theorem wire_metadata {f : AnyFrame} (hb : bodySize f + 13 < 2 ^ 32) (hs : f.size.toNat < 2 ^ 24) :
    match f with
    | .request f => f.metadata.length < 2 ^ 24
    | .payload f => f.metadata.length < 2 ^ 24
    | _ => True := by
  cases f with
  | request f =>
    simp only [AnyFrame.size, RequestPayload.size, bodySize] at hb hs ⊢
    by_cases h1 : hasInitialN f.frameType <;> by_cases h2 : UInt32.ofNat f.metadata.length > 0 <;>
      simp [h1, h2, UInt32.toNat_add, UInt32.toNat_ofNat'] at hs <;> omega
  | payload f =>
    simp only [AnyFrame.size, Payload.size, bodySize] at hb hs ⊢
    by_cases h2 : UInt32.ofNat f.metadata.length > 0 <;>
      simp [h2, UInt32.toNat_add, UInt32.toNat_ofNat'] at hs <;> omega
  | _ => trivial

theorem parse_of_recv {α : Type} {decode : Header → Bytes → Go α} {w : Bytes} {h : Header} {x : α}
    (hr : recv decode w = .ok (h, x)) : parseHeader w = .ok h ∧ ∃ b, sliceFrom w 6 = .ok b ∧ decode h b = .ok x := by
  unfold recv at hr
  obtain ⟨h1, e1, hr⟩ := Handler.ok_of_bind hr
  obtain ⟨b, e2, hr⟩ := Handler.ok_of_bind hr
  obtain ⟨y, e3, hr⟩ := Handler.ok_of_bind hr
  cases hr
  exact ⟨e1, b, e2, e3⟩

theorem mustNew_ok {v : UInt32} (h : v.toNat < 2 ^ 24) :
    ∃ n, U24.mustNew v = .ok n ∧ U24.bytes n = be24 v := by
  obtain ⟨-, h2, h3, -⟩ := C11_u24_roundtrip v h
  exact ⟨_, h2, by rw [h3, Spec.be24_eq]⟩

/-- What is written for a frame of less than 2^24 bytes, and how it is read. -/
theorem pack_parse {f : AnyFrame} (ho : Ordinary f) (hid : f.streamID.toNat < 2 ^ 31)
    (hb : bodySize f + 13 < 2 ^ 32) (hs : f.size.toNat < 2 ^ 24) :
    TcpConn.pack f = .ok (framed (frameWire f)) ∧ TcpConn.parse (frameWire f) = .ok (frameSeen f) ∧
      6 ≤ (frameWire f).length ∧ (frameWire f).length < 2 ^ 24 := by
  obtain ⟨hl, h6⟩ := wire_size ho hb hs
  have hm := wire_metadata hb hs
  have key : f.encode (List.replicate f.size.toNat 0) = .ok (frameWire f) ∧
      TcpConn.parse (frameWire f) = .ok (frameSeen f) := by
    cases f with
    | setup f => exact ho.elim
    | request f =>
      obtain ⟨e1, h, e2, e3⟩ := C03_request_roundtrip_partial f (List.replicate f.size.toNat 0) ho.1 hid hm
        hb ho.2.1 List.length_replicate
      refine ⟨e1, ?_⟩
      obtain ⟨p1, b, p2, p3⟩ := parse_of_recv e2
      have h1 : h.type ≠ typeSetup := by rw [e3]; rcases ho.1 with h | h | h | h <;> rw [h] <;> decide
      have h2 : h.type = typeRequestResponse ∨ h.type = typeRequestFNF ∨
          h.type = typeRequestStream ∨ h.type = typeRequestChannel := by rw [e3]; exact ho.1
      simp only [TcpConn.parse, frameWire, p1, p2, Go.bind_ok, if_neg h1, if_pos h2, p3, frameSeen]
    | requestN f =>
      obtain ⟨e1, h, e2, e3⟩ := C04_requestN_roundtrip f (List.replicate f.size.toNat 0) hid List.length_replicate
      refine ⟨e1, ?_⟩
      obtain ⟨p1, b, p2, p3⟩ := parse_of_recv e2
      simp only [TcpConn.parse, frameWire, p1, p2, Go.bind_ok, e3]
      simp [typeSetup, typeRequestResponse, typeRequestFNF, typeRequestStream, typeRequestChannel, typeRequestN, p3,
        frameSeen]
    | cancel f =>
      obtain ⟨e1, h, e2, e3⟩ := C04_cancel_roundtrip f (List.replicate f.size.toNat 0) hid List.length_replicate
      refine ⟨e1, ?_⟩
      obtain ⟨p1, b, p2, p3⟩ := parse_of_recv e2
      simp only [TcpConn.parse, frameWire, p1, p2, Go.bind_ok, e3]
      simp [typeSetup, typeRequestResponse, typeRequestFNF, typeRequestStream, typeRequestChannel, typeRequestN,
        typeCancel, p3, frameSeen]
    | payload f =>
      simp only [bodySize] at hb
      obtain ⟨e1, h, e2, e3⟩ := C02_payload_roundtrip f (List.replicate f.size.toNat 0) hid hm (by omega)
        List.length_replicate
      refine ⟨e1, ?_⟩
      obtain ⟨p1, b, p2, p3⟩ := parse_of_recv e2
      simp only [TcpConn.parse, frameWire, p1, p2, Go.bind_ok, e3]
      simp [typeSetup, typeRequestResponse, typeRequestFNF, typeRequestStream, typeRequestChannel, typeRequestN,
        typeCancel, typePayload, p3, frameSeen]
    | error f =>
      simp only [bodySize] at hb
      obtain ⟨e1, h, e2, e3⟩ := C04_error_roundtrip f (List.replicate f.size.toNat 0) hid (by omega)
        List.length_replicate
      refine ⟨e1, ?_⟩
      obtain ⟨p1, b, p2, p3⟩ := parse_of_recv e2
      simp only [TcpConn.parse, frameWire, p1, p2, Go.bind_ok, e3]
      simp [typeSetup, typeRequestResponse, typeRequestFNF, typeRequestStream, typeRequestChannel, typeRequestN,
        typeCancel, typePayload, typeError, p3, frameSeen]
  refine ⟨?_, key.2, by omega, by omega⟩
  obtain ⟨n, e1, e2⟩ := mustNew_ok hs
  unfold TcpConn.pack framed
  rw [e1]
  simp only [Go.bind_ok, key.1, e2]
  rw [← hl, UInt32.ofNat_toNat]

/-- `Size` is the number of bytes, unless it is too large for its type. -/
theorem size_eq_length {f : AnyFrame} (ho : Ordinary f) (hb : bodySize f + 13 < 2 ^ 32) :
    f.size.toNat = (frameWire f).length := by
  cases f with
  | setup f => exact ho.elim
  | request f =>
    simp only [bodySize] at hb
    have hp := UInt32.ofNat_pos_iff (n := f.metadata.length) (by omega)
    have h0 : 0 < f.metadata.length ↔ f.metadata ≠ [] := List.length_pos_iff
    simp only [frameWire, Spec.requestWire, Spec.header, List.length_append, Spec.bigEndian_length,
      Spec.metadataBlock_length, AnyFrame.size]
    unfold RequestPayload.size
    simp only [hp, h0, hasInitialN_iff]
    by_cases hm : f.metadata = [] <;> by_cases hn : f.frameType = 6 ∨ f.frameType = 7 <;>
      simp [hm, hn, UInt32.toNat_add, UInt32.toNat_ofNat'] at hb ⊢ <;> omega
  | requestN f => exact (wire_size (f := .requestN f) trivial hb (by show (10 : UInt32).toNat < _; decide)).1
  | cancel f => exact (wire_size (f := .cancel f) trivial hb (by show (6 : UInt32).toNat < _; decide)).1
  | payload f =>
    simp only [bodySize] at hb
    have hp := UInt32.ofNat_pos_iff (n := f.metadata.length) (by omega)
    have h0 : 0 < f.metadata.length ↔ f.metadata ≠ [] := List.length_pos_iff
    simp only [frameWire, Spec.payloadWire, Spec.header, List.length_append, Spec.bigEndian_length,
      Spec.metadataBlock_length, AnyFrame.size]
    unfold Payload.size
    simp only [hp, h0]
    by_cases hm : f.metadata = [] <;>
      simp [hm, UInt32.toNat_add, UInt32.toNat_ofNat'] at hb ⊢ <;> omega
  | error f =>
    simp only [bodySize] at hb
    have : f.size.toNat = 6 + 4 + f.data.length := by
      rw [Error.size, UInt32.toNat_ofNat_lt (by omega)]
    show f.size.toNat = _
    rw [this]
    simp [frameWire, Spec.errorWire, Spec.header]
    omega

/-- A larger frame makes the writer panic. -/
theorem pack_large {f : AnyFrame} (h : 2 ^ 24 ≤ f.size.toNat) : TcpConn.pack f = .panic := by
  unfold TcpConn.pack
  rw [(C11_u24_overflow f.size h).2.1]
  rfl

theorem pack_small {f : AnyFrame} {b : Bytes} (h : TcpConn.pack f = .ok b) : f.size.toNat < 2 ^ 24 := by
  refine Nat.lt_of_not_le fun hc => ?_
  rw [pack_large hc] at h
  cases h

end Verif.Props
