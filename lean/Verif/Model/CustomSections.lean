import Verif.Base.Go

set_option autoImplicit false

/-
Custom sections of a wasm binary: /repo/transport/wasmrs/customsections/customsections.go.

The reader (`bytes.Reader`) is the bytes not read yet. `utf8.Valid` is a parameter: every theorem holds whatever it
accepts. Memory is unlimited (the code allocates whatever size the input announces before reading).
-/
namespace Verif.CustomSections

/-- `binary.Magic` (wabin). -/
def magic : Bytes := [0x00, 0x61, 0x73, 0x6d]

/-- customsections.go 14-16. -/
def version : Bytes := [0x01, 0x00, 0x00, 0x00]

/-- `leb128.DecodeUint32` of the wabin library, after the WebAssembly specification: at most 5 bytes (`k` are left), the
unused bits of the fifth zero. Value, number of bytes, rest. -/
def leb : Nat → Bytes → Option (Nat × Nat × Bytes)
  | 0, _ => none
  | _ + 1, [] => none
  | k + 1, b :: r =>
    if b.toNat < 128 then
      if k = 0 ∧ 16 ≤ b.toNat then none else some (b.toNat, 1, r)
    else
      match leb k r with
      | some (v, n, r') => some (b.toNat % 128 + 128 * v, n + 1, r')
      | none => none

/-- customsections.go 23-32: `io.ReadFull` of four bytes that must equal `want`. -/
def expect (r want : Bytes) (e : String) : Go Bytes :=
  if 4 ≤ r.length ∧ r.take 4 = want then .ok (r.drop 4) else .err e

/-- customsections.go 103-119 (`decodeUTF8`): the name, the number of bytes read as a uint32, the rest. -/
def decodeUTF8 (valid : Bytes → Bool) (r : Bytes) : Go (Bytes × UInt32 × Bytes) :=
  match leb 5 r with
  | none => .err "failed to read name size"
  | some (size, sizeOfSize, r1) =>
    if r1.length < size then .err "failed to read name"
    else if !valid (r1.take size) then .err "name is not valid UTF-8"
    else .ok (r1.take size, UInt32.ofNat size + UInt32.ofNat sizeOfSize, r1.drop size)

/-- customsections.go 124-134 (`decodeCustomSection`): one `Read` of `limit` bytes. `bytes.Reader.Read` fails at the
end of the input, even for an empty buffer; near the end it fills the buffer only partly. -/
def decodeCustomSection (r : Bytes) (limit : Nat) : Go (Bytes × Bytes) :=
  if r = [] then .err "EOF"
  else .ok (r.take limit ++ List.replicate (limit - r.length) 0, r.drop limit)

/-- `io.CopyN(io.Discard, r, n)`. -/
def discard (r : Bytes) (n : Nat) : Go Bytes :=
  if n ≤ r.length then .ok (r.drop n) else .err "failed to skip section"

/-- Result map, newest binding first. -/
abbrev Sections := List (Bytes × Bytes)

/-- customsections.go 57-79 (`case wasm.SectionIDCustom`). -/
def customSection (valid : Bytes → Bool) (wanted : List Bytes) (m : Sections) (sectionSize : Nat) (r : Bytes) :
    Go (Sections × Bytes) := do
  let (name, nameSize, r1) ← decodeUTF8 valid r
  if UInt32.ofNat sectionSize < nameSize then .err "malformed custom section"
  else if wanted.contains name then do
    let (data, r2) ← decodeCustomSection r1 (UInt32.ofNat sectionSize - nameSize).toNat
    .ok ((name, data) :: m, r2)
  else do
    let r2 ← discard r1 (UInt32.ofNat sectionSize - nameSize).toNat
    .ok (m, r2)

/-- customsections.go 81-85 (the `default` case) or the custom case. -/
def sectionBody (valid : Bytes → Bool) (wanted : List Bytes) (m : Sections) (id : UInt8) (sectionSize : Nat)
    (r : Bytes) : Go (Sections × Bytes) :=
  if id = 0 then customSection valid wanted m sectionSize r
  else do
    let r2 ← discard r sectionSize
    .ok (m, r2)

/-- customsections.go 50-95: a section whose id has been read. Lines 88-91 compare the number of bytes read. -/
def oneSection (valid : Bytes → Bool) (wanted : List Bytes) (m : Sections) (id : UInt8) (r : Bytes) :
    Go (Sections × Bytes) :=
  match leb 5 r with
  | none => .err "get size of section"
  | some (sectionSize, _, r1) => do
    let (m', r2) ← sectionBody valid wanted m id sectionSize r1
    if sectionSize ≠ r1.length - r2.length then .err "invalid section length" else .ok (m', r2)

/-- customsections.go 40-96: the loop. Every round reads at least one byte, so the length of the input bounds the number
of rounds; the last equation is never used with `fuel` at least the length. -/
def loop (valid : Bytes → Bool) (wanted : List Bytes) : Nat → Sections → Bytes → Go Sections
  | _, m, [] => .ok m
  | fuel + 1, m, id :: r => do
    let (m', r') ← oneSection valid wanted m id r
    loop valid wanted fuel m' r'
  | 0, _, _ :: _ => .panic

/-- customsections.go 20-99 (`Read`). -/
def read (valid : Bytes → Bool) (data : Bytes) (names : List Bytes) : Go Sections := do
  let r ← expect data magic "invalid magic number"
  let r ← expect r version "invalid version"
  loop valid names r.length [] r

end Verif.CustomSections
