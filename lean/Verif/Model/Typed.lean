import Verif.Model.Records
import Verif.Model.Handler
/-
Model of the generated clients and handlers of operations that take a record and give a string or a stream of
strings: example/greeter/greeter.go, transport/wasmrs/example/greeting.go, transport/wasmrs/example/counter.go,
transport/wasmrs/example/uppercase.go, transport/wasmrs/mesh/modules/greeting, transport/wasmrs/mesh/modules/concat.
-/
set_option autoImplicit false
namespace Verif.Typed
open Verif Msgpack Handler

/-- A `mono.Mono[string]` of the service: made with `Create` (its source acts later), `Just` or `Error`. Other
implementations of the interface are not modelled. -/
inductive StrMono
  | created
  | just (s : Bytes)
  | failed (e : Mono.Err)

/-- A `flux.Flux[string]` of the service: `Create` or `Error`. -/
inductive StrFlux
  | created
  | failed (e : Mono.Err)

/-- transform.go 27-34 `String.Encode`, as a transformation of the handler model, in which sources give payloads: a
string is taken as the data of one. A panic (which needs a string of 4 GiB) is taken for an error. -/
def encodeString (p : Pay) : Except String Pay :=
  match Transform.string.encode p.data with
  | .ok b => .ok ⟨b, []⟩
  | .err e => .error e
  | .panic => .error "panic"

/-- transform.go 22-26 `String.Decode`. A panic (which needs a payload that declares a string of almost 4 GiB, C41, as `String.Encode` never makes) is
taken for an error. -/
def decodeString (p : Pay) : Except String Bytes :=
  match Transform.string.decode p.data with
  | .ok s _ => .ok s
  | .fail e _ => .error e
  | .panic => .error "panic"

/-- mono.go 199-230: `mono.Map(s, transform.String.Encode)`. Subscribing to a mapped `Just` calls OnSuccess with
the result of the transformation, or OnError with its error, and nothing else, like `Just` and `Error` of it; a mapped `Error`
calls OnError with the error. -/
def StrMono.encoded : StrMono → MonoSrc
  | .created => .mapped encodeString
  | .just s => match encodeString ⟨s, []⟩ with
    | .ok p => .just p
    | .error e => .failed (some e)
  | .failed e => .failed e

/-- flux.go 216-256: `flux.Map(r, transform.String.Encode)`. -/
def StrFlux.encoded : StrFlux → Src
  | .created => .mapped encodeString
  | .failed e => .failed e

/-- What the handlers of every operation do first: decode the request (e.g. example/greeter/greeter.go 71-75); `field`
and `zero` are those of the record. The first argument bounds the recursion of `Skip`; `none`: not enough, or a panic. -/
def decodeRequest {ρ : Type} (fuel : Nat) (field : Bytes → Option (ρ → Rd ρ)) (zero : ρ) (data : Bytes) :
    Option (Except String ρ) :=
  match decodeRecord fuel field zero (DR.new data) with
  | some (.ok r _) => some (.ok r)
  | some (.fail e _) => some (.error e)
  | _ => none

/-- example/greeter/greeter.go 69-80 `sayHelloWrapper`: the mono returned for a request with this data, if the service
returns `svc r` for the record `r`. The same in transport/wasmrs/example/greeting.go 104-115,
transport/wasmrs/mesh/modules/greeting/export.go 19-30 and transport/wasmrs/mesh/modules/concat/export.go 19-30, and, with the service given a pointer to the record,
transport/wasmrs/mesh/modules/customer/export.go 19-30. -/
def answerRequest {ρ : Type} (fuel : Nat) (field : Bytes → Option (ρ → Rd ρ)) (zero : ρ) (svc : ρ → StrMono) (data : Bytes) :
    Option MonoSrc :=
  match decodeRequest fuel field zero data with
  | none => none
  | some (.error e) => some (.failed (some e))
  | some (.ok r) => some (svc r).encoded

/-- transport/wasmrs/example/counter.go 90-101 `counterWrapper`. -/
def streamRequest {ρ : Type} (fuel : Nat) (field : Bytes → Option (ρ → Rd ρ)) (zero : ρ) (svc : ρ → StrFlux) (data : Bytes) :
    Option Src :=
  match decodeRequest fuel field zero data with
  | none => none
  | some (.error e) => some (.failed (some e))
  | some (.ok r) => some (svc r).encoded

/-- example/greeter/greeter.go 95-105: the payload `SayHello` calls the operation `op` with; `calls` are those of the
`Encode` method of the record (`msgpack.ToBytes`). The same in transport/wasmrs/example/greeting.go 28-38,
transport/wasmrs/example/counter.go 27-36, transport/wasmrs/mesh/modules/greeting/import.go 26-35 and
transport/wasmrs/mesh/modules/concat/import.go 26-36. -/
def requestPay (calls : List Call) (op : UInt32) : Go Pay := do
  let data ← toBytes calls
  .ok ⟨data, be32 op ++ [0, 0, 0, 0]⟩

/-- transport/wasmrs/example/uppercase.go 40-45 `uppercaseWrapper`: the flux returned, if the service returns `m`. The
payload of the request is not looked at; what the service sees of the input is `decodedFlux`. -/
def answerChannel (m : StrFlux) : Src := m.encoded

/-- transport/wasmrs/example/uppercase.go 26-28: the payload `Uppercase` calls the operation `op` with. -/
def channelPay (op : UInt32) : Pay := ⟨[], be32 op ++ [0, 0, 0, 0]⟩

/-- transport/wasmrs/example/greeting.go 44 (payload.go 13-22): the payload of `Greeting.Uppercase`, without metadata. -/
def uppercasePay : Pay := ⟨[], []⟩

/-- transport/wasmrs/example/uppercase.go 29, transport/wasmrs/example/greeting.go 45: the input of that call, `flux.Map(in, transform.String.Encode)`. -/
def channelInput (m : StrFlux) : Src := m.encoded

/-- example/greeter/greeter.go 106-107: the subscriber of `mono.Map(m, transform.String.Decode)` sees this when
the callbacks of `m` are `es`. -/
def decodedMono (inst : Mono.Installed) (es : List (Mono.Ev Pay)) : List (Mono.Ev Bytes) :=
  es.flatMap (Mono.mapEv decodeString inst)

/-- transport/wasmrs/example/counter.go 38-39: `flux.Map(f, transform.String.Decode)`. The same for the
input given to the service in transport/wasmrs/example/uppercase.go 42. -/
def decodedFlux (inst : Flux.Installed) (es : List (Flux.Ev Pay)) : List (Flux.Ev Bytes) :=
  es.flatMap (Flux.mapEv decodeString inst)

end Verif.Typed
