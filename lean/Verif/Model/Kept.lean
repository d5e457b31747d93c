import Verif.Model.Scanner
import Verif.Model.TcpConn
import Verif.Model.Decoder
/-
Which memory the texts and byte arrays occupy that an application has decoded from a frame received by TCP.

`ReadString` makes a string out of a slice of the message without copying it (unsafe.go 15-18), `ReadByteArray` returns the slice
itself; the message is the `Data` of the frame, a slice of the frame; and the frame is a slice of the buffer of the `bufio.Scanner`
(Model/Scanner.lean). Elsewhere in the model a value that was read is a copy.
-/
set_option autoImplicit false
namespace Verif.Kept
open Verif Msgpack Scanner Frames

/-- A slice of a message: where it begins and how long it is. -/
structure Part where
  off : Nat
  len : Nat
  deriving Repr, DecidableEq

/-- What a part of a message shows. -/
def Part.of (p : Part) (message : Bytes) : Bytes := (message.drop p.off).take p.len

/-- data_reader.go 23-30 `GetBytes`: the slice instead of its bytes. -/
def getPart (n : UInt32) : Rd Part := do
  check n
  Rd.of fun d =>
    if d.off.toNat ≤ (d.off + n).toNat ∧ (d.off + n).toNat ≤ d.buf.length then
      .ok ⟨d.off.toNat, (d.off + n).toNat - d.off.toNat⟩ { d with off := d.off + n }
    else .panic

/-- decoder.go 455-458, 499-508, unsafe.go 15-18: the string has the memory of the slice. -/
def readStringPart : Rd Part := do
  let n ← readStringLength
  getPart n

/-- decoder.go 510-520: the byte array is the slice. -/
def readByteArrayPart : Rd Part := do
  let n ← readBinLength
  getPart n

/-- The message of a frame (payload.go 12, request_payload.go 18), which the handler gives to the application as it is (handler.go
143-167, 225, 257, 294, 316, 364; payload/payload.go 13-22). -/
def message : AnyFrame → Option Bytes
  | .payload f => some f.data
  | .request f => some f.data
  | _ => none

/-- Where a part of the message is: the message is the end of the frame `raw` (payload.go 34-46, request_payload.go 40-62), the frame is the
slice `v` of a buffer of the scanner. -/
def place (v : View) (raw message : Bytes) (p : Part) : View :=
  ⟨v.gen, v.off + (raw.length - message.length) + p.off, p.len⟩

end Verif.Kept
