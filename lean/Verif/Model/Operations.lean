import Verif.Base.Go
/-
Model of `operations/operatons.go`.
-/
set_option autoImplicit false
namespace Verif.Operations
open Verif

/-- operatons.go 10-16; names are byte strings, `RequestType` and `Direction` are bytes. -/
structure Operation where
  index : UInt32
  type : UInt8
  direction : UInt8
  ns : Bytes
  operation : Bytes
  deriving Repr, DecidableEq

/-- operatons.go 22-27, 46-49. -/
def requestResponse : UInt8 := 1
def fireAndForget : UInt8 := 2
def requestStream : UInt8 := 3
def requestChannel : UInt8 := 4
def exportDir : UInt8 := 1
def importDir : UInt8 := 2

/-- operatons.go 18. -/
abbrev Table := List Operation

/-- operatons.go 63. -/
def magic : Bytes := [0x00, 0x77, 0x72, 0x73]

/-- operatons.go 64. -/
def errInvalidMagic : String := "invalid magic number"

/-- operatons.go 75 (the `%d` is literally in the message). -/
def errVersion (v : UInt16) : String := "Unknown operation table version %d" ++ toString v.toNat

/-- operatons.go 82-101: one entry; returns it and the remaining bytes. `2+reservedLen` is 16-bit
arithmetic. -/
def readEntry (buf : Bytes) : Go (Operation × Bytes) := do
  let opType ← index buf 0
  let dir ← index buf 1
  let idB ← slice buf 2 6
  let id ← getU32 idB
  let nsB ← slice buf 6 8
  let nsLen ← getU16 nsB
  let buf ← sliceFrom buf 8
  let ns ← sliceTo buf nsLen.toNat
  let buf ← sliceFrom buf nsLen.toNat
  let opB ← slice buf 0 2
  let opLen ← getU16 opB
  let buf ← sliceFrom buf 2
  let op ← sliceTo buf opLen.toNat
  let buf ← sliceFrom buf opLen.toNat
  let reservedLen ← getU16 buf
  let buf ← sliceFrom buf (2 + reservedLen).toNat
  .ok ({ index := id, type := opType, direction := dir, ns := ns, operation := op }, buf)

/-- operatons.go 81-102: the loop. -/
def readEntries : Nat → Bytes → Go Table
  | 0, _ => .ok []
  | n + 1, buf => do
    let (o, buf) ← readEntry buf
    let os ← readEntries n buf
    .ok (o :: os)

/-- operatons.go 66-105 `FromBytes`. Not modelled: the memory for `make(Table, numOps)` (up to
2^32 entries announced by the input) always suffices. -/
def fromBytes (buf : Bytes) : Go Table := do
  let m ← slice buf 0 4
  if m ≠ magic then .err errInvalidMagic
  else do
    let buf ← sliceFrom buf 4
    let version ← getU16 buf
    if version ≠ 1 then .err (errVersion version)
    else do
      let buf ← sliceFrom buf 2
      let numOps ← getU32 buf
      let buf ← sliceFrom buf 4
      readEntries numOps.toNat buf

/-- operatons.go 108-111: the size computation in `uint32`. -/
def tableSize (t : Table) : UInt32 :=
  t.foldl (fun size op => size + UInt32.ofNat (12 + op.ns.length + op.operation.length)) 10

/-- operatons.go 122-147: one entry. -/
def writeEntry (c : Cur) (o : Operation) : Go Cur := do
  let c ← c.put [o.type, o.direction]
  let c ← c.put (be32 o.index)
  let nsLen := UInt16.ofNat o.ns.length
  let c ← c.put (be16 nsLen)
  let c ← (c.copy o.ns).skip nsLen.toNat
  let opLen := UInt16.ofNat o.operation.length
  let c ← c.put (be16 opLen)
  let c ← (c.copy o.operation).skip opLen.toNat
  c.put (be16 0)

/-- operatons.go 107-150 `ToBytes`. -/
def toBytes (t : Table) : Go Bytes := do
  let c : Cur := ⟨[], List.replicate (tableSize t).toNat 0⟩
  let c ← (c.copy magic).skip 4
  let c ← c.put (be16 1)
  let c ← c.put (be32 (UInt32.ofNat t.length))
  let c ← t.foldlM writeEntry c
  .ok c.all

end Verif.Operations
