import Verif.Base.Go

set_option autoImplicit false

/-
UUIDs: /repo/types/uuid (uuid.go, marshal.go, time.go, util.go, version4.go).

A UUID is a `[16]byte`, here a byte list of length 16. Texts are byte lists. Mutexes only serialise the calls;
an execution is a sequence of calls. Error messages are shortened.
-/
namespace Verif.Uuid

/-- util.go 19-36. -/
def xvalues : List UInt8 := [
  255, 255, 255, 255, 255, 255, 255, 255, 255, 255, 255, 255, 255, 255, 255, 255,
  255, 255, 255, 255, 255, 255, 255, 255, 255, 255, 255, 255, 255, 255, 255, 255,
  255, 255, 255, 255, 255, 255, 255, 255, 255, 255, 255, 255, 255, 255, 255, 255,
  0, 1, 2, 3, 4, 5, 6, 7, 8, 9, 255, 255, 255, 255, 255, 255,
  255, 10, 11, 12, 13, 14, 15, 255, 255, 255, 255, 255, 255, 255, 255, 255,
  255, 255, 255, 255, 255, 255, 255, 255, 255, 255, 255, 255, 255, 255, 255, 255,
  255, 10, 11, 12, 13, 14, 15, 255, 255, 255, 255, 255, 255, 255, 255, 255,
  255, 255, 255, 255, 255, 255, 255, 255, 255, 255, 255, 255, 255, 255, 255, 255,
  255, 255, 255, 255, 255, 255, 255, 255, 255, 255, 255, 255, 255, 255, 255, 255,
  255, 255, 255, 255, 255, 255, 255, 255, 255, 255, 255, 255, 255, 255, 255, 255,
  255, 255, 255, 255, 255, 255, 255, 255, 255, 255, 255, 255, 255, 255, 255, 255,
  255, 255, 255, 255, 255, 255, 255, 255, 255, 255, 255, 255, 255, 255, 255, 255,
  255, 255, 255, 255, 255, 255, 255, 255, 255, 255, 255, 255, 255, 255, 255, 255,
  255, 255, 255, 255, 255, 255, 255, 255, 255, 255, 255, 255, 255, 255, 255, 255,
  255, 255, 255, 255, 255, 255, 255, 255, 255, 255, 255, 255, 255, 255, 255, 255,
  255, 255, 255, 255, 255, 255, 255, 255, 255, 255, 255, 255, 255, 255, 255, 255]

/-- util.go 38-43. The index is a byte and the array has 256 elements, so it is always in range. -/
def xtob (x1 x2 : UInt8) : UInt8 × Bool :=
  let b1 := xvalues.getD x1.toNat 0
  let b2 := xvalues.getD x2.toNat 0
  ((b1 <<< 4) ||| b2, b1 != 255 && b2 != 255)

/-- One step of the loops at uuid.go 85-90, 104-110, 129-134 and 148-154. -/
def digitPair (s : Bytes) (x : Nat) : Go UInt8 := do
  let a ← index s x
  let b ← index s (x + 1)
  if (xtob a b).2 then .ok (xtob a b).1 else .err "invalid UUID format"

/-- The loops at uuid.go 85-90, 104-110, 129-134 and 148-154: fill successive bytes from the digit pairs at the
given offsets. -/
def digitPairs (s : Bytes) : List Nat → Go Bytes
  | [] => .ok []
  | x :: xs => do
    let b ← digitPair s x
    let bs ← digitPairs s xs
    .ok (b :: bs)

/-- `-` -/
def dash : UInt8 := 0x2d

/-- The offsets at uuid.go 99-103. -/
def offsets : List Nat := [0, 2, 4, 6, 9, 11, 14, 16, 19, 21, 24, 26, 28, 30, 32, 34]

/-- The offsets `i*2` at uuid.go 85-86. -/
def rawOffsets : List Nat := (List.range 16).map (· * 2)

/-- uuid.go 94-112, once `s` is at least 36 bytes long. -/
def parseDashed (s : Bytes) : Go Bytes := do
  let a ← index s 8
  let b ← index s 13
  let c ← index s 18
  let d ← index s 23
  if a != dash || b != dash || c != dash || d != dash then .err "invalid UUID format"
  else digitPairs s offsets

/-- `urn:uuid:` -/
def urnPrefix : Bytes := [0x75, 0x72, 0x6e, 0x3a, 0x75, 0x75, 0x69, 0x64, 0x3a]

/-- `strings.ToLower` / `bytes.ToLower` on ASCII. Both also map some other characters, but no non-ASCII character
takes one byte, so nine bytes whose lower-case form is the nine ASCII bytes `urn:uuid:` are ASCII. -/
def toLower (c : UInt8) : UInt8 := if 0x41 ≤ c ∧ c ≤ 0x5a then c + 0x20 else c

/-- uuid.go 64-112 (`Parse`). -/
def parse (s : Bytes) : Go Bytes :=
  if s.length = 36 then parseDashed s
  else if s.length = 36 + 9 then do
    let p ← sliceTo s 9
    if p.map toLower != urnPrefix then .err "invalid urn prefix"
    else do
      let s' ← sliceFrom s 9
      parseDashed s'
  else if s.length = 36 + 2 then do
    let s' ← sliceFrom s 1
    parseDashed s'
  else if s.length = 32 then digitPairs s rawOffsets
  else .err "invalid UUID length"

/-- The offsets of the loop at uuid.go 129: `for i := 0; i < 32; i += 2`. -/
def byTwos (i : Nat) : Nat → List Nat
  | 0 => []
  | n + 1 => i :: byTwos (i + 2) n

/-- uuid.go 115-156 (`ParseBytes`). -/
def parseBytes (b : Bytes) : Go Bytes :=
  if b.length = 36 then parseDashed b
  else if b.length = 36 + 9 then do
    let p ← sliceTo b 9
    if p.map toLower != urnPrefix then .err "invalid urn prefix"
    else do
      let b' ← sliceFrom b 9
      parseDashed b'
  else if b.length = 36 + 2 then do
    let b' ← sliceFrom b 1
    parseDashed b'
  else if b.length = 32 then digitPairs b (byTwos 0 16)
  else .err "invalid UUID length"

/-- uuid.go 160-166 (`MustParse`). -/
def mustParse (s : Bytes) : Go Bytes :=
  match parse s with
  | .err _ => .panic
  | r => r

/-- marshal.go 35-41 (`UnmarshalBinary`) and uuid.go 170-173 (`FromBytes`). -/
def unmarshalBinary (data : Bytes) : Go Bytes :=
  if data.length ≠ 16 then .err "invalid UUID" else .ok data

/-- marshal.go 30-32. -/
def marshalBinary (u : Bytes) : Bytes := u

/-- `hextable` of encoding/hex: `0123456789abcdef`. -/
def hextable : List UInt8 :=
  [0x30, 0x31, 0x32, 0x33, 0x34, 0x35, 0x36, 0x37, 0x38, 0x39, 0x61, 0x62, 0x63, 0x64, 0x65, 0x66]

/-- The characters `hex.Encode` (standard library) writes. -/
def hexEncode : Bytes → Bytes
  | [] => []
  | v :: vs => hextable.getD (v >>> 4).toNat 0 :: hextable.getD (v &&& 0x0f).toNat 0 :: hexEncode vs

/-- `hex.Encode(dst[lo:hi], src)`: panics if the slice or a write is out of range. -/
def hexInto (dst : Bytes) (lo hi : Nat) (src : Bytes) : Go Bytes :=
  if lo ≤ hi ∧ hi ≤ dst.length ∧ 2 * src.length ≤ hi - lo then
    .ok (dst.take lo ++ hexEncode src ++ dst.drop (lo + 2 * src.length))
  else .panic

/-- `dst[i] = c`. -/
def setAt (dst : Bytes) (i : Nat) (c : UInt8) : Go Bytes :=
  if i < dst.length then .ok (dst.set i c) else .panic

/-- uuid.go 200-210. -/
def encodeHex (dst u : Bytes) : Go Bytes := do
  let d ← hexInto dst 0 dst.length (u.take 4)
  let d ← setAt d 8 dash
  let d ← hexInto d 9 13 ((u.take 6).drop 4)
  let d ← setAt d 13 dash
  let d ← hexInto d 14 18 ((u.take 8).drop 6)
  let d ← setAt d 18 dash
  let d ← hexInto d 19 23 ((u.take 10).drop 8)
  let d ← setAt d 23 dash
  hexInto d 24 d.length (u.drop 10)

/-- uuid.go 185-189 (`String`). -/
def string (u : Bytes) : Go Bytes := encodeHex (List.replicate 36 0) u

/-- uuid.go 193-198 (`URN`). -/
def urn (u : Bytes) : Go Bytes := do
  let buf := urnPrefix ++ List.replicate 36 0
  let s ← encodeHex (buf.drop 9) u
  .ok (buf.take 9 ++ s)

/-- marshal.go 13-17 (`MarshalText`). -/
def marshalText (u : Bytes) : Go Bytes := encodeHex (List.replicate 36 0) u

/-- marshal.go 20-27 (`UnmarshalText`): the new value of the receiver and whether an error was returned. -/
def unmarshalText (old data : Bytes) : Go (Bytes × Bool) :=
  match parseBytes data with
  | .ok id => .ok (id, false)
  | .err _ => .ok (old, true)
  | .panic => .panic

/-- uuid.go 28-35. -/
inductive Variant where
  | invalid | rfc4122 | reserved | microsoft | future
  deriving Repr, DecidableEq

/-- uuid.go 213-224. -/
def variant (u : Bytes) : Variant :=
  let b := u.getD 8 0
  if b &&& 0xc0 == 0x80 then .rfc4122
  else if b &&& 0xe0 == 0xc0 then .microsoft
  else if b &&& 0xe0 == 0xe0 then .future
  else .reserved

/-- uuid.go 227-229. -/
def version (u : Bytes) : UInt8 := u.getD 6 0 >>> 4

/-! ### version4.go -/

/-- version4.go 53-54 and 73-74. -/
def stamp (u : Bytes) : Bytes :=
  let u := u.set 6 ((u.getD 6 0 &&& 0x0f) ||| 0x40)
  u.set 8 ((u.getD 8 0 &&& 0x3f) ||| 0x80)

/-- uuid.go 37-45. -/
def randPoolSize : Nat := 16 * 16

/-- The package variables at uuid.go 39-45. `src` is what `rander` has yet to deliver; `read` counts the bytes already
delivered (a ghost, not in the code). -/
structure Rand where
  src : Bytes
  read : Nat
  enabled : Bool
  pos : Nat
  pool : Bytes
  deriving Repr, DecidableEq

/-- The initial values at uuid.go 39-45. -/
def Rand.init (src : Bytes) : Rand := ⟨src, 0, false, randPoolSize, List.replicate randPoolSize 0⟩

/-- `io.ReadFull(rander, buf)` for a buffer of `n` bytes: a source that ends early is used up and gives an
error. -/
def readFull (s : Rand) (n : Nat) : Rand × Option Bytes :=
  if n ≤ s.src.length then ({ s with src := s.src.drop n, read := s.read + n }, some (s.src.take n))
  else ({ s with src := [], read := s.read + s.src.length }, none)

/-- version4.go 47-56. -/
def newRandomFromReader (s : Rand) : Rand × Option Bytes :=
  match readFull s 16 with
  | (s', some b) => (s', some (stamp b))
  | (s', none) => (s', none)

/-- version4.go 61-68: refill the pool. `none`: the source failed; the pool may then be partly overwritten, but
`poolPos` stays `randPoolSize`, so it is never read (the model keeps the old contents). -/
def refill (s : Rand) : Rand × Bool :=
  if s.pos = randPoolSize then
    match readFull s randPoolSize with
    | (s', some b) => ({ s' with pool := b, pos := 0 }, true)
    | (s', none) => (s', false)
  else (s, true)

/-- version4.go 58-76. The slice `pool[poolPos:(poolPos+16)]` is in range because `poolPos` is a multiple of 16
below 256 here (proved as part of C72). -/
def newRandomFromPool (s : Rand) : Rand × Option Bytes :=
  match refill s with
  | (s', true) => ({ s' with pos := s'.pos + 16 }, some (stamp ((s'.pool.drop s'.pos).take 16)))
  | (s', false) => (s', none)

/-- Calls of the package. -/
inductive RandOp where
  | newRandom
  | enablePool
  | disablePool
  deriving Repr, DecidableEq

/-- version4.go 39-44 and uuid.go 279-294. -/
def randStep (s : Rand) : RandOp → Rand × Option Bytes
  | .newRandom => if !s.enabled then newRandomFromReader s else newRandomFromPool s
  | .enablePool => ({ s with enabled := true }, none)
  | .disablePool => ({ s with enabled := false, pos := randPoolSize }, none)

/-- The UUIDs returned by a sequence of calls. -/
def randRun (s : Rand) : List RandOp → Rand × List Bytes
  | [] => (s, [])
  | o :: os =>
    let r := randStep s o
    let q := randRun r.1 os
    (q.1, r.2.toList ++ q.2)

/-! ### time.go -/

/-- time.go 17-23. -/
def g1582ns100 : UInt64 := (2440587 - 2299160) * 86400 * 10000000

/-- time.go 25-31. -/
structure Clock where
  lasttime : UInt64
  clockSeq : UInt16
  deriving Repr, DecidableEq

def Clock.init : Clock := ⟨0, 0⟩

/-- time.go 103-107, once `seq` is known (lines 98-102 replaces -1 by two random bytes). `int` is taken as
64 bits; the mask is applied to the same bits read as unsigned. -/
def setSeq (c : Clock) (seq : Int64) : Clock :=
  let new := (seq.toUInt64 &&& 0x3fff).toUInt16 ||| 0x8000
  if c.clockSeq ≠ new then ⟨0, new⟩ else ⟨c.lasttime, new⟩

/-- time.go 98-102: two random bytes. -/
def randomSeq (b0 b1 : UInt8) : Int64 := (b0.toUInt64 <<< 8 ||| b1.toUInt64).toInt64

/-- time.go 97-108 (`setClockSequence`). -/
def setClockSequence (c : Clock) (seq : Int64) (b0 b1 : UInt8) : Clock :=
  if seq = -1 then setSeq c (randomSeq b0 b1) else setSeq c seq

/-- time.go 54-57 and 83-85. -/
def ensureSeq (c : Clock) (b0 b1 : UInt8) : Clock :=
  if c.clockSeq = 0 then setClockSequence c (-1) b0 b1 else c

/-- time.go 58: the reading `nano` of the clock in nanoseconds since 1970. -/
def nowOf (nano : Int64) : UInt64 := (nano / 100).toUInt64 + g1582ns100

/-- time.go 51-67 (`getTime`): the new state, the time and the clock sequence. `b0`, `b1` are the next random bytes (a
failing random source panics; not modelled). -/
def getTime (c : Clock) (nano : Int64) (b0 b1 : UInt8) : Clock × UInt64 × UInt16 :=
  let c := ensureSeq c b0 b1
  let now := nowOf nano
  let seq := if now ≤ c.lasttime then ((c.clockSeq + 1) &&& 0x3fff) ||| 0x8000 else c.clockSeq
  (⟨now, seq⟩, now, seq)

/-- time.go 76-87 (`ClockSequence`). -/
def clockSequence (c : Clock) (b0 b1 : UInt8) : Clock × UInt16 :=
  let c := ensureSeq c b0 b1
  (c, c.clockSeq &&& 0x3fff)

/-- Calls of the package. -/
inductive ClockOp where
  | getTime (nano : Int64) (b0 b1 : UInt8)
  | clockSequence (b0 b1 : UInt8)
  | setClockSequence (seq : Int64) (b0 b1 : UInt8)
  deriving Repr, DecidableEq

def clockStep (c : Clock) : ClockOp → Clock × Option (UInt64 × UInt16)
  | .getTime n b0 b1 => let r := getTime c n b0 b1; (r.1, some r.2)
  | .clockSequence b0 b1 => ((clockSequence c b0 b1).1, none)
  | .setClockSequence q b0 b1 => (setClockSequence c q b0 b1, none)

/-- The pairs handed out by a sequence of calls. -/
def clockRun (c : Clock) : List ClockOp → Clock × List (UInt64 × UInt16)
  | [] => (c, [])
  | o :: os =>
    let r := clockStep c o
    let q := clockRun r.1 os
    (q.1, r.2.toList ++ q.2)

/-- time.go 35-40 (`Time.UnixTime`). Go's `/` and `%` on int64 truncate, as Lean's on `Int64` do. -/
def unixTime (t : Int64) : Int64 × Int64 :=
  let sec := t - g1582ns100.toInt64
  (sec / 10000000, sec % 10000000 * 100)

/-- time.go 112-117 (`UUID.Time`). -/
def timeOf (u : Bytes) : Go UInt64 := do
  let a ← getU32 (u.take 4)
  let b ← getU16 ((u.take 6).drop 4)
  let c ← getU16 ((u.take 8).drop 6)
  .ok (a.toUInt64 ||| b.toUInt64 <<< 32 ||| (c &&& 0xfff).toUInt64 <<< 48)

/-- time.go 121-123 (`UUID.ClockSequence`). -/
def seqOf (u : Bytes) : Go UInt16 := do
  let a ← getU16 ((u.take 10).drop 8)
  .ok (a &&& 0x3fff)

end Verif.Uuid
