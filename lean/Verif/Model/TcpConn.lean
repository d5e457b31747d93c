import Verif.Model.AnyFrame
import Verif.Model.Small
/-
Model of transport/rsocket/tcp_conn.go: how frames become bytes of the stream and bytes become frames. What
is in between is modelled in Model/Transport.lean (the writer) and Model/Scanner.lean (the reader).
-/
set_option autoImplicit false
namespace Verif.TcpConn
open Verif Frames

/-- tcp_conn.go 96-98. -/
def unknownFrame (t : UInt8) : String := "unknown frame " ++ toString t.toNat

/-- tcp_conn.go 49-98 `Read`: the bytes `raw` of one frame, as returned by the length decoder, are decoded
according to the type in the header. -/
def parse (raw : Bytes) : Go AnyFrame := do
  let header ← parseHeader raw
  let buffer ← sliceFrom raw 6
  if header.type = typeSetup then do
    let f ← Setup.decode header buffer
    .ok (.setup f)
  else if header.type = typeRequestResponse ∨ header.type = typeRequestFNF ∨
      header.type = typeRequestStream ∨ header.type = typeRequestChannel then do
    let f ← RequestPayload.decode header buffer
    .ok (.request f)
  else if header.type = typeRequestN then do
    let f ← RequestN.decode header buffer
    .ok (.requestN f)
  else if header.type = typeCancel then do
    let f ← Cancel.decode header buffer
    .ok (.cancel f)
  else if header.type = typePayload then do
    let f ← Payload.decode header buffer
    .ok (.payload f)
  else if header.type = typeError then do
    let f ← Error.decode header buffer
    .ok (.error f)
  else .err (unknownFrame header.type)

/-- tcp_conn.go 102-124 `Write`: the bytes given to the writer, the 24-bit length (`MustNewUint24` panics if the
size does not fit) and the frame, encoded into a new buffer of `Size()` bytes. -/
def pack (f : AnyFrame) : Go Bytes := do
  let size ← U24.mustNew f.size
  let b ← f.encode (List.replicate f.size.toNat 0)
  .ok (U24.bytes size ++ b)

end Verif.TcpConn
