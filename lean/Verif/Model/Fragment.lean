import Verif.Model.Frames
/-
Model of frame fragmentation: `internal/frames/util.go` `splitPayloads`, `payload.go` and
`request_payload.go` `Fragment`.
-/
namespace Verif.Frames
open Verif

/-- One iteration of the loop of util.go 17-61 on the remaining metadata and data: `none` is the
`break`, otherwise the emitted frame and what remains. All lengths are `uint32`, so `space`
underflows when `maxFrameSize < nonDataSize`. -/
def splitStep (streamID : UInt32) (next complete : Bool) (maxFrameSize : UInt32)
    (data metadata : Bytes) : Go (Option (Payload × Bytes × Bytes)) :=
  let lenMd := UInt32.ofNat metadata.length
  let lenData := UInt32.ofNat data.length
  if lenMd + lenData = 0 then .ok none
  else
    let nonDataSize : UInt32 := if lenMd > 0 then 9 else 6
    let space := maxFrameSize - nonDataSize
    let follows : Bool := nonDataSize + lenMd + lenData > maxFrameSize
    let frame (md d : Bytes) : Payload :=
      { streamID, metadata := md, data := d, follows, complete := !follows && complete,
        next := !follows && next }
    if lenMd > space then do
      let dataFrag ← sliceTo data 0
      let metadataFrag ← sliceTo metadata space.toNat
      let metadata' ← sliceFrom metadata space.toNat
      .ok (some (frame metadataFrag dataFrag, data, metadata'))
    else do
      let metadata' ← slice metadata lenMd.toNat lenMd.toNat
      if lenData > space - lenMd then do
        let dataSpace := if space - lenMd < lenData then space - lenMd else lenData
        let dataFrag ← sliceTo data dataSpace.toNat
        let data' ← sliceFrom data dataSpace.toNat
        .ok (some (frame metadata dataFrag, data', metadata'))
      else do
        let data' ← slice data lenData.toNat lenData.toNat
        .ok (some (frame metadata data, data', metadata'))

/-- util.go 17-61 `splitPayloads` (the frames appended by it), with an iteration budget: `none`
means the loop has not ended after `fuel` iterations. -/
def splitPayloads (streamID : UInt32) (next complete : Bool) (maxFrameSize : UInt32) :
    (fuel : Nat) → (data metadata : Bytes) → Option (Go (List Payload))
  | 0, _, _ => none
  | fuel + 1, data, metadata =>
    match splitStep streamID next complete maxFrameSize data metadata with
    | .panic => some .panic
    | .err e => some (.err e)
    | .ok none => some (.ok [])
    | .ok (some (p, data', metadata')) =>
      (splitPayloads streamID next complete maxFrameSize fuel data' metadata').map
        (fun r => (fun ps => p :: ps) <$> r)

/-- payload.go 98-105 `Fragment`; the empty list stands for `nil` ("no fragmentation needed"). -/
def Payload.fragment (f : Payload) (maxFrameSize : UInt32) (fuel : Nat) :
    Option (Go (List Payload)) :=
  if f.size ≤ maxFrameSize then some (.ok [])
  else splitPayloads f.streamID f.next f.complete maxFrameSize fuel f.data f.metadata

/-- Result of fragmenting a request: the first frame and its continuations. -/
abbrev RequestFragments := RequestPayload × List Payload

/-- request_payload.go 117-163 `Fragment`; `some (.ok none)` stands for `nil`. -/
def RequestPayload.fragment (f : RequestPayload) (maxFrameSize : UInt32) (fuel : Nat) :
    Option (Go (Option RequestFragments)) :=
  let size := f.size
  if size ≤ maxFrameSize then some (.ok none)
  else
    let nonDataSize : UInt32 := 6 + (if hasInitialN f.frameType then 4 else 0)
    let maxMDSize := maxFrameSize - nonDataSize - 3
    let lenMd := UInt32.ofNat f.metadata.length
    let first (md d : Bytes) : RequestPayload :=
      { frameType := f.frameType, streamID := f.streamID, metadata := md, data := d,
        follows := true, complete := false, initialN := f.initialN }
    let split (fr : RequestPayload) (data md : Bytes) : Option (Go (Option RequestFragments)) :=
      (splitPayloads f.streamID true f.complete maxFrameSize fuel data md).map
        (fun r => (fun ps => some (fr, ps)) <$> r)
    if lenMd ≥ maxMDSize then
      match sliceTo f.metadata maxMDSize.toNat, sliceFrom f.metadata maxMDSize.toNat with
      | .ok metadataFrag, .ok metadata => split (first metadataFrag []) f.data metadata
      | _, _ => some .panic
    else
      let diff := size - maxFrameSize
      let dataOff := UInt32.ofNat f.data.length - diff
      match sliceTo f.data dataOff.toNat, sliceFrom f.data dataOff.toNat with
      | .ok dataFrag, .ok data => split (first f.metadata dataFrag) data f.metadata
      | _, _ => some .panic

end Verif.Frames
