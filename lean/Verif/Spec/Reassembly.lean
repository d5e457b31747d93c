import Verif.Model.Frames
/-
The RSocket rule for fragmented frames, as a receiver applies it.
-/
namespace Verif.Spec
open Verif Frames

/-- Continue a frame whose metadata and data so far are `md`, `d`: while the last frame had the
follows flag, the next payload frame continues it. Returns the whole metadata and data, the
completion flag of the last fragment and the unconsumed frames; `none` if fragments are missing. -/
def continueFrame (follows complete : Bool) (md d : Bytes) :
    List Payload → Option (Bytes × Bytes × Bool × List Payload)
  | [] => if follows then none else some (md, d, complete, [])
  | p :: rest =>
    if follows then continueFrame p.follows p.complete (md ++ p.metadata) (d ++ p.data) rest
    else some (md, d, complete, p :: rest)

/-- What a request and its continuation frames mean. -/
def reassembleRequest (r : RequestPayload) (ps : List Payload) :
    Option (Bytes × Bytes × Bool × List Payload) :=
  continueFrame r.follows r.complete r.metadata r.data ps

/-- Bytes of a payload frame on the wire. -/
def payloadLength (p : Payload) : Nat :=
  6 + (if p.metadata = [] then 0 else 3) + p.metadata.length + p.data.length

/-- The frames of a fragmented payload: all but the last have the follows flag and no other
flag, the last has the original flags. -/
structure Fragments (f : Payload) (maxFrameSize : Nat) (frames : List Payload) : Prop where
  nonempty : frames ≠ []
  stream : ∀ p ∈ frames, p.streamID = f.streamID
  bounded : ∀ p ∈ frames, (payloadLength p) ≤ maxFrameSize
  metadata : (frames.map (·.metadata)).flatten = f.metadata
  data : (frames.map (·.data)).flatten = f.data
  init : ∀ p ∈ frames.dropLast, p.follows = true ∧ p.complete = false ∧ p.next = false
  last : ∀ p, frames.getLast? = some p →
    p.follows = false ∧ p.complete = f.complete ∧ p.next = f.next

end Verif.Spec
