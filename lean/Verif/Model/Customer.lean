import Verif.Model.Typed
/-
Model of the `NewCustomer` service of the mesh example, transport/wasmrs/mesh/modules/customer/cmd/main.go: a flow
(rx/flow/flow.go) of two calls of other modules.
-/
set_option autoImplicit false
namespace Verif.Customer
open Verif Msgpack Handler Typed

/-- The two calls: main.go 30 (`concat.Concat`) and 34 (`greeting.SayHello`). -/
inductive Which
  | concat | greeting
  deriving Repr, DecidableEq

/-- The step functions, main.go 29-32, 32-36 and 36-39. -/
inductive Step
  | concat | greet | reply
  deriving Repr, DecidableEq

/-- What comes back for a call: proxy/mono.go 42-44 `OnNext` or 50-52 `OnError` (whose error is never nil). -/
inductive Answer
  | value (p : Pay)
  | error (e : String)

/-- What others see: a call was sent with this payload (proxy/mono.go 66-72), and the subscriber of the mono that `NewCustomer`
returned got a value or an error. -/
inductive Ev
  | called (w : Which) (p : Pay)
  | success (s : Bytes)
  | error (e : String)
  deriving DecidableEq

/-- flow.go 11-20 and the variables of main.go 24-27. `name` and `message` are `nameMono` and `messageMono`:
`none` is nil, `some none` is a call that has been subscribed to without callbacks (proxy/mono.go 54-60) and not been answered, `some (some a)` one that
was answered. `size` is the length of `awaitables`; `ended` is never set, as `NewCustomer` does not call `End`. -/
structure St where
  steps : List Step
  completed : Nat
  size : Nat
  name : Option (Option Answer)
  message : Option (Option Answer)
  trace : List Ev

/-- What a call takes: the names of the customer and the numbers `Initialize` got for the imported operations
(modules/concat/import.go 20-23, modules/greeting/import.go 20-23). -/
structure Env where
  first : Bytes
  last : Bytes
  opConcat : UInt32
  opHello : UInt32

/-- rx/mono/mono.go 240-247 and 137-142 (`Get` of the mapped call), with the error dropped (main.go 33, 37): the zero value if there
was one. Panics for a nil mono and before the call was answered. -/
def get : Option (Option Answer) → Go Bytes
  | some (some (.value p)) => match decodeString p with
    | .ok s => .ok s
    | .error _ => .ok []
  | some (some (.error _)) => .ok []
  | _ => .panic

/-- flow.go 87-115 `next`. `none` is a recursion that never ends: a client function that fails to encode its record
returns a finished mono, whose `Notify` calls `check` and so `next` at once, before the step is dropped (C31). A call is not answered
before `next` has returned. -/
def next (env : Env) (s : St) : Option (Go St) :=
  match s.steps with
  | [] => some (.ok s)
  | .concat :: rest =>
    match requestPay (Strings.encode (some ⟨env.first, env.last⟩)) env.opConcat with
    | .ok p => some (.ok ⟨rest, 0, 1, some none, s.message, s.trace ++ [.called .concat p]⟩)
    | .err _ => none
    | .panic => some .panic
  | .greet :: rest =>
    match get s.name with
    | .ok n =>
      match requestPay (NameRequest.encode (some ⟨n⟩)) env.opHello with
      | .ok p => some (.ok ⟨rest, 0, 1, s.name, some none, s.trace ++ [.called .greeting p]⟩)
      | .err _ => none
      | .panic => some .panic
    | .err e => some (.err e)
    | .panic => some .panic
  | .reply :: rest =>
    match get s.message with
    | .ok m => some (.ok ⟨rest, 0, 0, s.name, s.message, s.trace ++ [.success m]⟩)
    | .err e => some (.err e)
    | .panic => some .panic

/-- flow.go 117-122 `check`. -/
def check (env : Env) (s : St) : Option (Go St) :=
  let s := { s with completed := s.completed + 1 }
  if s.completed ≥ s.size then next env s else some (.ok s)

/-- rx/mono/mono.go 157-189: the first answer to a call closes its subscriber and calls `check`; there is no subscriber before
the call is made, and later answers change nothing. -/
def answer (env : Env) (w : Which) (a : Answer) (s : St) : Option (Go St) :=
  match w with
  | .concat => match s.name with
    | some none => check env { s with name := some (some a) }
    | _ => some (.ok s)
  | .greeting => match s.message with
    | some none => check env { s with message := some (some a) }
    | _ => some (.ok s)

def answers (env : Env) : List (Which × Answer) → St → Option (Go St)
  | [], s => some (.ok s)
  | (w, a) :: as, s =>
    match answer env w a s with
    | some (.ok s) => answers env as s
    | r => r

/-- main.go 22-40: `NewCustomer` is called, the mono it returns is subscribed to (flow.go 73-78), and the calls it makes are
answered in the given order. -/
def run (env : Env) (as : List (Which × Answer)) : Option (Go St) :=
  match next env ⟨[.concat, .greet, .reply], 0, 0, none, none, []⟩ with
  | some (.ok s) => answers env as s
  | r => r

/-- transport/wasmrs/mesh/modules/concat/cmd/main.go 16-18 `Concat`; the generated handler (modules/concat/export.go 19-30) passes it the fields of
the record. -/
def concat (r : Strings) : StrMono := .just (r.left ++ ascii " " ++ r.right)

/-- transport/wasmrs/mesh/modules/greeting/cmd/main.go 16-18 `SayHello`. -/
def sayHello (r : NameRequest) : StrMono := .just (ascii "Hello, " ++ r.name)

end Verif.Customer
