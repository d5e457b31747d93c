import Verif.Model.Frames
/-
Model of the `Frame` interface of `internal/frames`.
-/
set_option autoImplicit false
namespace Verif.Frames
open Verif

/-- frame.go 3-9 `Frame`: one of the frame types. -/
inductive AnyFrame where
  | setup (f : Setup)
  | request (f : RequestPayload)
  | requestN (f : RequestN)
  | cancel (f : Cancel)
  | payload (f : Payload)
  | error (f : Error)
  deriving Repr, DecidableEq

/-- `Size()`: payload.go 87-96, request_payload.go 103-115, request_n.go 40-42, cancel.go 29-31,
error.go 45-47, setup.go 140-153. -/
def AnyFrame.size : AnyFrame → UInt32
  | .setup f => f.size
  | .request f => f.size
  | .requestN f => f.size
  | .cancel f => f.size
  | .payload f => f.size
  | .error f => f.size

/-- `Encode(buf)`: payload.go 55-85, request_payload.go 71-101, request_n.go 33-38, cancel.go
25-27, error.go 36-43, setup.go 86-138. -/
def AnyFrame.encode (f : AnyFrame) (buf : Bytes) : Go Bytes :=
  match f with
  | .setup f => f.encode buf
  | .request f => f.encode buf
  | .requestN f => f.encode buf
  | .cancel f => f.encode buf
  | .payload f => f.encode buf
  | .error f => f.encode buf

/-- `GetStreamID()`: payload.go 18-20, request_payload.go 24-26, request_n.go 14-16, cancel.go 9-11,
error.go 15-17, setup.go 23-25. -/
def AnyFrame.streamID : AnyFrame → UInt32
  | .setup _ => 0
  | .request f => f.streamID
  | .requestN f => f.streamID
  | .cancel f => f.streamID
  | .payload f => f.streamID
  | .error f => f.streamID

/-- `Type()`: payload.go 22-24, request_payload.go 28-30, request_n.go 18-20, cancel.go 13-15,
error.go 19-21, setup.go 27-29. -/
def AnyFrame.type : AnyFrame → UInt8
  | .setup _ => typeSetup
  | .request f => f.frameType
  | .requestN _ => typeRequestN
  | .cancel _ => typeCancel
  | .payload _ => typePayload
  | .error _ => typeError

end Verif.Frames
