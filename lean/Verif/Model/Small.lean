import Verif.Base.Go
/-
Models of `internal/u24` and `internal/socket/stream_id.go`.
-/
namespace Verif

namespace U24

/-- u24.go 13: the message of `errExceedMaxUint24`. -/
def errExceed : String := "uint24 exceed max value: 16777215"

/-- u24.go 56-64 `NewUint24`: the three bytes (always filled in) and the error, if any. -/
def new (v : UInt32) : (UInt8 × UInt8 × UInt8) × Option String :=
  (((v >>> 16).toUInt8, (v >>> 8).toUInt8, v.toUInt8),
    if v > 16777215 then some errExceed else none)

/-- u24.go 47-53 `MustNewUint24`. -/
def mustNew (v : UInt32) : Go (UInt8 × UInt8 × UInt8) :=
  match new v with
  | (_, some _) => .panic
  | (n, none) => .ok n

/-- u24.go 31-33 `Bytes`. -/
def bytes (p : UInt8 × UInt8 × UInt8) : Bytes := [p.1, p.2.1, p.2.2]

/-- u24.go 42-44 `AsInt` (Go `int` is 64 bit, no overflow possible). -/
def asInt (p : UInt8 × UInt8 × UInt8) : Nat :=
  (p.1.toNat <<< 16) + (p.2.1.toNat <<< 8) + p.2.2.toNat

/-- u24.go 67-70 `NewUint24Bytes`: panics on fewer than three bytes. -/
def ofBytes : Bytes → Go (UInt8 × UInt8 × UInt8)
  | a :: b :: c :: _ => .ok (a, b, c)
  | _ => .panic

/-- u24.go 83-86 `ReadUint24ToInt`. -/
def readToInt : Bytes → Go Nat
  | a :: b :: c :: _ => .ok ((a.toNat <<< 16) + (b.toNat <<< 8) + c.toNat)
  | _ => .panic

/-- u24.go 73-80 `WriteUint24` to a writer that never fails: bytes written, or the error. -/
def write (v : UInt32) : Go Bytes :=
  match new v with
  | (_, some e) => .err e
  | (n, none) => .ok (bytes n)

end U24

namespace StreamIds

/-- stream_id.go 8-9. -/
def maskStreamID : UInt64 := 0x7FFFFFFF
def halfSeed : UInt64 := 0x40000000

/-- stream_id.go 20-28: one attempt of `ServerStreamIDs.Next`. The counter is advanced atomically;
`none` means `v == 0`, upon which the same goroutine tries again. -/
def serverStep (p : UInt64) : UInt64 × Option (UInt32 × Bool) :=
  let seed := p + 1
  let v := 2 * seed
  (seed, if v ≠ 0 then some ((maskStreamID &&& v).toUInt32, decide (seed ≤ halfSeed)) else none)

/-- stream_id.go 32-40: one attempt of `ClientStreamIDs.Next`. -/
def clientStep (p : UInt64) : UInt64 × Option (UInt32 × Bool) :=
  let seed := p + 1
  let v := 2 * (seed - 1) + 1
  (seed, if v ≠ 0 then some ((maskStreamID &&& v).toUInt32, decide (seed ≤ halfSeed)) else none)

/-- An execution of any number of goroutines that share one allocator: the schedule says which
goroutine performs the next atomic add; the result lists what each attempt returned. The rest of
`Next` works on goroutine-local values only, so this covers every interleaving. -/
def run (step : UInt64 → UInt64 × Option (UInt32 × Bool)) :
    UInt64 → List Nat → List (Nat × Option (UInt32 × Bool))
  | _, [] => []
  | p, g :: sched => (g, (step p).2) :: run step (step p).1 sched

end StreamIds
end Verif
