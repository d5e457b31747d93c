import Verif.Model.Flux
/-
Model of the counter of the example host: transport/wasmrs/cmd/host/main.go 63-82 `CountToN`.
-/
set_option autoImplicit false
namespace Verif.Counter
open Verif
open Verif.Flux (SinkCall)

/-- main.go 68-74: the loop of the request function. `k` is the number still to be sent, `i` the counter shared by all requests
(65); the result is the counter afterwards and the calls on the sink. A message is a time stamp followed by the number
(69-70); only the number is kept. -/
def loop (to : UInt64) : Nat → UInt64 → UInt64 × List (SinkCall UInt64)
  | 0, i => (i, [])
  | k + 1, i =>
    if i ≤ to then
      let r := loop to k (i + 1)
      (r.1, .next i :: r.2)
    else (i, [])

/-- main.go 67-79: the request function. A request for a negative number sends nothing. On the host a subscriber's requests are
served one at a time, under its lock (rx/flux/flux_host.go 20-26). -/
def request (to i : UInt64) (n : Int) : UInt64 × List (SinkCall UInt64) :=
  let r := loop to n.toNat i
  (r.1, r.2 ++ if to < r.1 then [.complete] else [])

/-- main.go 64-66: the counter starts at 1 and then serves these requests, one by one. -/
def serveFrom (to : UInt64) : UInt64 → List Int → List (SinkCall UInt64)
  | _, [] => []
  | i, n :: ns => (request to i n).2 ++ serveFrom to (request to i n).1 ns

def serve (to : UInt64) (ns : List Int) : List (SinkCall UInt64) := serveFrom to 1 ns

end Verif.Counter
