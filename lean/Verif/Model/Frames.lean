import Verif.Base.Go
/-
Model of `internal/frames`: header, flags and the frame types.
-/
namespace Verif.Frames
open Verif

/-! ## Flags and types (types.go) -/

/-- types.go 11-28: frame type numbers. -/
def typeSetup : UInt8 := 0x01
def typeRequestResponse : UInt8 := 0x04
def typeRequestFNF : UInt8 := 0x05
def typeRequestStream : UInt8 := 0x06
def typeRequestChannel : UInt8 := 0x07
def typeRequestN : UInt8 := 0x08
def typeCancel : UInt8 := 0x09
def typePayload : UInt8 := 0x0A
def typeError : UInt8 := 0x0B

/-- types.go 94-104: `FlagNext FrameFlag = 1 << (5 + iota)` and its successors. -/
def flagNext : UInt16 := (1 : UInt16) <<< (5 : UInt16)
def flagComplete : UInt16 := (1 : UInt16) <<< (6 : UInt16)
def flagFollow : UInt16 := (1 : UInt16) <<< (7 : UInt16)
def flagMetadata : UInt16 := (1 : UInt16) <<< (8 : UInt16)
def flagIgnore : UInt16 := (1 : UInt16) <<< (9 : UInt16)
def flagResume : UInt16 := flagFollow
def flagLease : UInt16 := flagComplete

/-- types.go 107-109: `Check`. -/
def check (f flag : UInt16) : Bool := flag &&& f == flag

/-! ## Header (frame_header.go) -/

/-- frame_header.go 18: `type FrameHeader [6]byte`. -/
structure Header where
  b0 : UInt8
  b1 : UInt8
  b2 : UInt8
  b3 : UInt8
  b4 : UInt8
  b5 : UInt8
  deriving Repr, DecidableEq

/-- frame_header.go 71-73: `Bytes`. -/
def Header.bytes (h : Header) : Bytes := [h.b0, h.b1, h.b2, h.b3, h.b4, h.b5]

/-- frame_header.go 75-77: `n`. -/
def Header.n (h : Header) : UInt16 := UInt16.ofNat (beNat [h.b4, h.b5])

/-- frame_header.go 56-58: `StreamID`. -/
def Header.streamID (h : Header) : UInt32 :=
  UInt32.ofNat (beNat [h.b0, h.b1, h.b2, h.b3]) &&& 0x7FFFFFFF

/-- frame_header.go 61-63: `Type`. -/
def Header.type (h : Header) : UInt8 := ((h.n &&& 0xFC00) >>> 10).toUInt8

/-- frame_header.go 66-68: `Flag`. -/
def Header.flag (h : Header) : UInt16 := h.n &&& 0x03FF

/-- The word `uint16(frameType)<<10|uint16(fg)` (frame_header.go 83, 98). -/
def headerWord (t : UInt8) (fg : UInt16) : UInt16 := (t.toUInt16 <<< 10) ||| fg

/-- The six bytes written by `NewFrameHeader`/`ResetFrameHeader` (frame_header.go 80-85, 96-99). -/
def headerBytes (id : UInt32) (t : UInt8) (fg : UInt16) : Bytes := be32 id ++ be16 (headerWord t fg)

/-- frame_header.go 102-107: `ParseFrameHeader`; indexing `bs[5]` panics on short input. -/
def parseHeader : Bytes → Go Header
  | b0 :: b1 :: b2 :: b3 :: b4 :: b5 :: _ => .ok ⟨b0, b1, b2, b3, b4, b5⟩
  | _ => .panic

/-- frame_header.go 96-99 `ResetFrameHeader(payload, ..)` followed by `payload = payload[6:]`. -/
def putHeader (c : Cur) (id : UInt32) (t : UInt8) (fg : UInt16) : Go Cur :=
  c.put (headerBytes id t fg)

/-- The metadata block all frames share (payload.go 75-82, request_payload.go 91-98,
setup.go 128-135): 24-bit length, then the bytes, only if the length (as uint32) is not 0. -/
def putMetadata (c : Cur) (md : Bytes) : Go Cur :=
  let metadataLen : UInt32 := UInt32.ofNat md.length
  if metadataLen > 0 then do
    let c ← c.put (be24 metadataLen)
    (c.copy md).skip metadataLen.toNat
  else .ok c

/-- The reverse (payload.go 34-41, request_payload.go 49-56, setup.go 61-68): returns the
metadata and the remaining bytes. -/
def getMetadata (hasMetadata : Bool) (payload : Bytes) : Go (Bytes × Bytes) :=
  if hasMetadata then do
    let l3 ← slice payload 0 3
    let mdLength ← getU32 (0 :: l3)
    let payload ← sliceFrom payload 3
    let md ← sliceTo payload mdLength.toNat
    let payload ← sliceFrom payload mdLength.toNat
    .ok (md, payload)
  else .ok ([], payload)

/-! ## Payload frame (payload.go) -/

/-- payload.go 9-16. -/
structure Payload where
  streamID : UInt32
  metadata : Bytes
  data : Bytes
  follows : Bool
  complete : Bool
  next : Bool
  deriving Repr, DecidableEq

/-- payload.go 58-70: the flags. -/
def Payload.flags (f : Payload) : UInt16 :=
  (if f.follows then flagFollow else 0) ||| (if f.complete then flagComplete else 0) |||
  (if f.next then flagNext else 0) |||
  (if UInt32.ofNat f.metadata.length > 0 then flagMetadata else 0)

/-- payload.go 55-85 `Encode(buf)`: new contents of `buf`. -/
def Payload.encode (f : Payload) (buf : Bytes) : Go Bytes := do
  let c ← putHeader ⟨[], buf⟩ f.streamID typePayload f.flags
  let c ← putMetadata c f.metadata
  .ok (c.copy f.data).all

/-- payload.go 26-53 `Decode`. -/
def Payload.decode (h : Header) (payload : Bytes) : Go Payload := do
  let flags := h.flag
  let (metadata, payload) ← getMetadata (check flags flagMetadata) payload
  .ok { streamID := h.streamID, metadata, data := payload,
        follows := check flags flagFollow, complete := check flags flagComplete,
        next := check flags flagNext }

/-- payload.go 87-96 `Size`. -/
def Payload.size (f : Payload) : UInt32 :=
  6 + UInt32.ofNat (f.metadata.length + f.data.length) +
    (if UInt32.ofNat f.metadata.length > 0 then 3 else 0)

/-! ## Request frames (request_payload.go) -/

/-- request_payload.go 14-22. -/
structure RequestPayload where
  frameType : UInt8
  streamID : UInt32
  metadata : Bytes
  data : Bytes
  follows : Bool
  complete : Bool
  initialN : UInt32
  deriving Repr, DecidableEq

/-- request_payload.go 40, 86, 105, 129: stream and channel requests carry an initial N. -/
def hasInitialN (t : UInt8) : Bool := t == typeRequestStream || t == typeRequestChannel

/-- request_payload.go 74-81: the flags (`Follows` is not encoded). -/
def RequestPayload.flags (f : RequestPayload) : UInt16 :=
  (if f.frameType == typeRequestChannel && f.complete then flagComplete else 0) |||
  (if UInt32.ofNat f.metadata.length > 0 then flagMetadata else 0)

/-- request_payload.go 71-101 `Encode(buf)`. -/
def RequestPayload.encode (f : RequestPayload) (buf : Bytes) : Go Bytes := do
  let c ← putHeader ⟨[], buf⟩ f.streamID f.frameType f.flags
  let c ← if hasInitialN f.frameType then c.put (be32 f.initialN) else .ok c
  let c ← putMetadata c f.metadata
  .ok (c.copy f.data).all

/-- request_payload.go 32-69 `Decode`. -/
def RequestPayload.decode (h : Header) (payload : Bytes) : Go RequestPayload := do
  let frameType := h.type
  let flags := h.flag
  let (initialN, payload) ←
    if hasInitialN frameType then do
      let n ← getU32 payload
      let p ← sliceFrom payload 4
      pure (n, p)
    else pure (1, payload)
  let complete := if frameType == typeRequestChannel then check flags flagComplete else true
  let (metadata, payload) ← getMetadata (check flags flagMetadata) payload
  .ok { frameType, streamID := h.streamID, metadata, data := payload,
        follows := check flags flagFollow, complete, initialN }

/-- request_payload.go 103-115 `Size`. -/
def RequestPayload.size (f : RequestPayload) : UInt32 :=
  6 + (if hasInitialN f.frameType then 4 else 0) +
    UInt32.ofNat (f.metadata.length + f.data.length) +
    (if UInt32.ofNat f.metadata.length > 0 then 3 else 0)

/-! ## RequestN, Cancel, Error -/

/-- request_n.go 9-12. -/
structure RequestN where
  streamID : UInt32
  n : UInt32
  deriving Repr, DecidableEq

/-- request_n.go 33-38 `Encode(buf)`. -/
def RequestN.encode (f : RequestN) (buf : Bytes) : Go Bytes := do
  let c ← putHeader ⟨[], buf⟩ f.streamID typeRequestN 0
  let c ← c.put (be32 f.n)
  .ok c.all

/-- request_n.go 22-31 `Decode`. -/
def RequestN.decode (h : Header) (payload : Bytes) : Go RequestN := do
  let n ← getU32 payload
  .ok { streamID := h.streamID, n }

/-- request_n.go 40-42 `Size`. -/
def RequestN.size (_ : RequestN) : UInt32 := 6 + 4

/-- cancel.go 5-7. -/
structure Cancel where
  streamID : UInt32
  deriving Repr, DecidableEq

/-- cancel.go 25-27 `Encode(buf)`. -/
def Cancel.encode (f : Cancel) (buf : Bytes) : Go Bytes := do
  let c ← putHeader ⟨[], buf⟩ f.streamID typeCancel 0
  .ok c.all

/-- cancel.go 17-23 `Decode`. -/
def Cancel.decode (h : Header) (_payload : Bytes) : Go Cancel := .ok { streamID := h.streamID }

/-- cancel.go 29-31 `Size`. -/
def Cancel.size (_ : Cancel) : UInt32 := 6

/-- error.go 9-13. -/
structure Error where
  streamID : UInt32
  code : UInt32
  data : Bytes
  deriving Repr, DecidableEq

/-- error.go 36-43 `Encode(buf)`. -/
def Error.encode (f : Error) (buf : Bytes) : Go Bytes := do
  let c ← putHeader ⟨[], buf⟩ f.streamID typeError 0
  let c ← c.put (be32 f.code)
  .ok (c.copy f.data).all

/-- error.go 23-34 `Decode`. -/
def Error.decode (h : Header) (payload : Bytes) : Go Error := do
  let code ← getU32 payload
  let data ← sliceFrom payload 4
  .ok { streamID := h.streamID, code, data }

/-- error.go 45-47 `Size`. -/
def Error.size (f : Error) : UInt32 := UInt32.ofNat (6 + 4 + f.data.length)

/-! ## Setup (setup.go) -/

/-- setup.go 10-21; durations are Go `time.Duration`s, i.e. int64 nanoseconds. -/
structure Setup where
  majorVersion : UInt16
  minorVersion : UInt16
  timeBetweenKeepalive : Int64
  maxLifetime : Int64
  token : Bytes
  mimeMetadata : Bytes
  mimeData : Bytes
  metadata : Bytes
  data : Bytes
  lease : Bool
  deriving Repr, DecidableEq

/-- `time.Millisecond` in nanoseconds. -/
def millisecond : Nat := 1000000

/-- setup.go 106-107: `uint32(d)/uint32(time.Millisecond)` (truncates to 32 bits first). -/
def durToWire (d : Int64) : UInt32 := d.toUInt64.toUInt32 / UInt32.ofNat millisecond

/-- setup.go 40-41: `time.Millisecond * time.Duration(u32)`. -/
def durFromWire (w : UInt32) : Int64 := Int64.ofNat millisecond * Int64.ofNat w.toNat

/-- setup.go 90-99: the flags; the token test is on the length truncated to 16 bits. -/
def Setup.flags (f : Setup) : UInt16 :=
  (if f.lease then flagLease else 0) |||
  (if UInt16.ofNat f.token.length > 0 then flagResume else 0) |||
  (if UInt32.ofNat f.metadata.length > 0 then flagMetadata else 0)

/-- setup.go 111-116: the token block. -/
def putToken (c : Cur) (token : Bytes) : Go Cur :=
  let tokenLen : UInt16 := UInt16.ofNat token.length
  if tokenLen > 0 then do
    let c ← c.put (be16 tokenLen)
    (c.copy token).skip tokenLen.toNat
  else .ok c

/-- setup.go 118-126: one length-prefixed mime type; the length byte is truncated to 8 bits. -/
def putMime (c : Cur) (m : Bytes) : Go Cur := do
  let c ← c.put [UInt8.ofNat m.length]
  (c.copy m).skip m.length

/-- setup.go 86-138 `Encode(buf)`. -/
def Setup.encode (f : Setup) (buf : Bytes) : Go Bytes := do
  let c ← putHeader ⟨[], buf⟩ 0 typeSetup f.flags
  let c ← c.put (be16 f.majorVersion)
  let c ← c.put (be16 f.minorVersion)
  let c ← c.put (be32 (durToWire f.timeBetweenKeepalive))
  let c ← c.put (be32 (durToWire f.maxLifetime))
  let c ← putToken c f.token
  let c ← putMime c f.mimeMetadata
  let c ← putMime c f.mimeData
  let c ← putMetadata c f.metadata
  .ok (c.copy f.data).all

/-- setup.go 46-50: the token block; `2+tokenLength` is 16-bit arithmetic. -/
def getToken (resume : Bool) (data : Bytes) : Go (Bytes × Bytes) :=
  if resume then do
    let tokenLength ← getU16 data
    let token ← slice data 2 (2 + tokenLength).toNat
    let data ← sliceFrom data (2 + tokenLength).toNat
    .ok (token, data)
  else .ok ([], data)

/-- setup.go 52-54 (and 56-58): one mime type; `1+metadataMimeLength` is 8-bit arithmetic. -/
def getMime (data : Bytes) : Go (Bytes × Bytes) := do
  let l ← index data 0
  let m ← slice data 1 (1 + l).toNat
  let data ← sliceFrom data (1 + l).toNat
  .ok (m, data)

/-- setup.go 31-84 `Decode`. -/
def Setup.decode (h : Header) (payload : Bytes) : Go Setup := do
  let flags := h.flag
  let majorVersion ← getU16 payload
  let p2 ← sliceFrom payload 2
  let minorVersion ← getU16 p2
  let p4 ← sliceFrom payload 4
  let keepalive ← getU32 p4
  let p8 ← sliceFrom payload 8
  let lifetime ← getU32 p8
  let data ← sliceFrom payload 12
  let (token, data) ← getToken (check flags flagResume) data
  let (mimeMetadata, data) ← getMime data
  let (mimeData, data) ← getMime data
  let (metadata, data) ← getMetadata (check flags flagMetadata) data
  .ok { majorVersion, minorVersion, timeBetweenKeepalive := durFromWire keepalive,
        maxLifetime := durFromWire lifetime, token, mimeMetadata, mimeData, metadata, data,
        lease := check flags flagLease }

/-- setup.go 140-153 `Size` (the token length is counted twice). -/
def Setup.size (f : Setup) : UInt32 :=
  6 + 14 + (UInt32.ofNat f.metadata.length + UInt32.ofNat f.token.length +
    UInt32.ofNat (f.data.length + f.token.length + f.mimeMetadata.length + f.mimeData.length)) +
  (if UInt32.ofNat f.token.length > 0 then 2 else 0) +
  (if UInt32.ofNat f.metadata.length > 0 then 3 else 0)

/-- How a receiver decodes the bytes of one frame (transport/wasmrs/host/instance.go 223-224 and
244, 311, 328, 388; guest.go likewise): parse the header, cut it off, decode the rest. -/
def recv {α : Type} (decode : Header → Bytes → Go α) (data : Bytes) : Go (Header × α) := do
  let h ← parseHeader data
  let body ← sliceFrom data 6
  let f ← decode h body
  .ok (h, f)

end Verif.Frames
