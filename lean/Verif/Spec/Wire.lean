import Verif.Model.Frames
/-
Specification of the RSocket wire format used by the frame properties, written from
https://rsocket.io/about/protocol and independent of the encoder/decoder model: only the
record types of the model are used.
-/
namespace Verif.Spec
open Verif

/-- `n` as `k` bytes, most significant first. -/
def bigEndian : Nat → Nat → Bytes
  | 0, _ => []
  | k + 1, n => UInt8.ofNat (n / 256 ^ k) :: bigEndian k n

/-- Frame header: 31-bit stream id, 6-bit type, 10-bit flags. -/
def header (streamID type flags : Nat) : Bytes :=
  bigEndian 4 streamID ++ bigEndian 2 (type * 1024 + flags)

/-- `bit b n` is `n` if `b` holds, else 0. -/
def bit (b : Bool) (n : Nat) : Nat := if b then n else 0

/-- Metadata block: absent when empty, else a 24-bit length and the bytes. -/
def metadataBlock (md : Bytes) : Bytes :=
  if md = [] then [] else bigEndian 3 md.length ++ md

/-- The metadata-present flag (0x100). -/
def mdFlag (md : Bytes) : Nat := if md = [] then 0 else 0x100

/-- PAYLOAD (0x0A): flags metadata 0x100, follows 0x80, complete 0x40, next 0x20. -/
def payloadWire (f : Frames.Payload) : Bytes :=
  header f.streamID.toNat 0x0A
    (mdFlag f.metadata + bit f.follows 0x80 + bit f.complete 0x40 + bit f.next 0x20) ++
  metadataBlock f.metadata ++ f.data

/-- REQUEST_RESPONSE 0x04, REQUEST_FNF 0x05, REQUEST_STREAM 0x06, REQUEST_CHANNEL 0x07:
flags metadata 0x100, follows 0x80, complete 0x40 (channel only); stream and channel requests
carry a 32-bit initial N. -/
def requestWire (f : Frames.RequestPayload) : Bytes :=
  header f.streamID.toNat f.frameType.toNat
    (mdFlag f.metadata + bit f.follows 0x80 + bit (f.frameType == 7 && f.complete) 0x40) ++
  (if f.frameType = 6 ∨ f.frameType = 7 then bigEndian 4 f.initialN.toNat else []) ++
  metadataBlock f.metadata ++ f.data

/-- REQUEST_N (0x08). -/
def requestNWire (f : Frames.RequestN) : Bytes :=
  header f.streamID.toNat 0x08 0 ++ bigEndian 4 f.n.toNat

/-- CANCEL (0x09). -/
def cancelWire (f : Frames.Cancel) : Bytes := header f.streamID.toNat 0x09 0

/-- ERROR (0x0B). -/
def errorWire (f : Frames.Error) : Bytes :=
  header f.streamID.toNat 0x0B 0 ++ bigEndian 4 f.code.toNat ++ f.data

/-- One length-prefixed mime type. -/
def mimeBlock (m : Bytes) : Bytes := bigEndian 1 m.length ++ m

/-- Resume token block: absent when empty. -/
def tokenBlock (t : Bytes) : Bytes := if t = [] then [] else bigEndian 2 t.length ++ t

/-- SETUP (0x01): flags metadata 0x100, resume 0x80, lease 0x40; versions, keepalive interval
and lifetime in milliseconds, token, metadata mime type, data mime type, metadata, data. -/
def setupWire (f : Frames.Setup) : Bytes :=
  header 0 0x01 (mdFlag f.metadata + bit (f.token ≠ []) 0x80 + bit f.lease 0x40) ++
  bigEndian 2 f.majorVersion.toNat ++ bigEndian 2 f.minorVersion.toNat ++
  bigEndian 4 (f.timeBetweenKeepalive.toInt / 1000000).toNat ++
  bigEndian 4 (f.maxLifetime.toInt / 1000000).toNat ++
  tokenBlock f.token ++ mimeBlock f.mimeMetadata ++ mimeBlock f.mimeData ++
  metadataBlock f.metadata ++ f.data

end Verif.Spec
