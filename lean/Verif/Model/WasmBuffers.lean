import Verif.Model.AnyFrame
/-
Model of the shared buffers between host and guest: writing a frame (host: `sendLoop`, guest:
`doSendFrame`) and splitting what the other side wrote (guest: `GuestSend`, host: `hostSend`).

Handling the frames is not part of this model (it is assumed to return normally); a frame counts as
delivered when it reaches the `switch` of `GuestSend` or the channel `recvCh`.
-/
set_option autoImplicit false
namespace Verif.Wasm
open Verif Frames

/-- host/instance.go 176-187, one round of `sendLoop`: the new contents of the guest's buffer and
the number passed to `__wasmrs_send`. (`mem.Read` of the buffer succeeds.) -/
def hostWrite (buf : Bytes) (f : AnyFrame) : Go (Bytes × UInt32) := do
  let c ← (Cur.copy ⟨[], buf⟩ (be24 f.size)).skip 3
  let body ← f.encode c.rest
  .ok (c.done ++ body, 3 + f.size)

/-- guest/guest.go 526-533 `doSendFrame`: the new contents of the host's buffer and the number
passed to `__host_send`. -/
def guestWrite (buf : Bytes) (f : AnyFrame) : Go (Bytes × UInt32) :=
  if buf.length < 3 then .panic
  else do
    let body ← f.encode (buf.drop 3)
    .ok (be24 f.size ++ body, f.size + 3)

/-- guest/guest.go 76-86: the loop of `GuestSend` on the remaining buffer, positions `curPos` and
`endPos`: the frames that reach the `switch`, and whether the loop panicked. (Only `buf[3:]` panics
when fewer than 3 bytes are left, which is after the incomplete length was copied, but before
anything else is done with it.) -/
def guestSend (buf : Bytes) (curPos endPos : UInt32) : List Bytes × Bool :=
  if curPos < endPos then
    if buf.length < 3 then ([], true)
    else if _h : buf.length < 3 + beNat (buf.take 3) then ([], true)
    else match parseHeader ((buf.drop 3).take (beNat (buf.take 3))) with
      | .ok _ =>
        ((buf.drop 3).take (beNat (buf.take 3)) ::
            (guestSend (buf.drop (3 + beNat (buf.take 3)))
              (curPos + (3 + UInt32.ofNat (beNat (buf.take 3)))) endPos).1,
          (guestSend (buf.drop (3 + beNat (buf.take 3)))
            (curPos + (3 + UInt32.ofNat (beNat (buf.take 3)))) endPos).2)
      | _ => ([], true)
  else ([], false)
termination_by buf.length
decreasing_by all_goals (simp only [List.length_drop]; omega)

/-- host/instance.go 203-212: the loop of `hostSend`: the frames put into `recvCh` (which
`recvLoop` empties), and whether the loop panicked. A frame that is longer than what is left is
padded with zeros, delivered, and then `buffer[frameLength:]` panics. -/
def hostSplit (buffer : Bytes) : List Bytes × Bool :=
  if buffer.length = 0 then ([], false)
  else if buffer.length < 3 then ([], true)
  else if _h : buffer.length < 3 + beNat (buffer.take 3) then
    ([buffer.drop 3 ++ List.replicate (3 + beNat (buffer.take 3) - buffer.length) 0], true)
  else
    ((buffer.drop 3).take (beNat (buffer.take 3)) ::
        (hostSplit (buffer.drop (3 + beNat (buffer.take 3)))).1,
      (hostSplit (buffer.drop (3 + beNat (buffer.take 3)))).2)
termination_by buffer.length
decreasing_by all_goals (simp only [List.length_drop]; omega)

/-- `api.Memory.Read(ptr, n)` (wazero): a view of the memory, nothing if out of range. -/
def memRead (mem : Bytes) (ptr n : Nat) : Bytes :=
  if ptr + n ≤ mem.length then (mem.drop ptr).take n else []

/-- host/instance.go 200-213 `hostSend`. -/
def hostSend (mem : Bytes) (recvPtr : Nat) (recvPos : UInt32) : List Bytes × Bool :=
  hostSplit (memRead mem recvPtr recvPos.toNat)

/-- The host sends `f` to a guest whose buffer is `buf`: what the guest gets to handle. -/
def toGuest (buf : Bytes) (f : AnyFrame) : Go (List Bytes × Bool) := do
  let (buf, endPos) ← hostWrite buf f
  .ok (guestSend buf 0 endPos)

/-- The guest, whose memory is `before ++ buf ++ after` with `buf` the host's buffer, sends `f`:
what the host gets to handle. -/
def toHost (before buf after : Bytes) (f : AnyFrame) : Go (List Bytes × Bool) := do
  let (buf, recvPos) ← guestWrite buf f
  .ok (hostSend (before ++ buf ++ after) before.length recvPos)

end Verif.Wasm
