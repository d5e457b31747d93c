import Verif.Base.Go
/-
What the command `wasmrs invoke` passes to the operation (transport/wasmrs/cmd/wasmrs/commands/invoke.go 42-56): the JSON on
standard input, parsed by `encoding/json` and written by `github.com/vmihailenco/msgpack/v5`. Both libraries are taken by their
documentation: into an `interface{}`, JSON numbers are parsed as `float64`; the writer uses the shortest header for strings, arrays and maps,
and writes a `float64` as such (compact floats are off).
-/
set_option autoImplicit false
namespace Verif.InvokeCmd
open Verif

/-- What `json.Unmarshal` puts in an `interface{}` (invoke.go 46-49): nil, bool, float64 (by its bits), string, []interface{},
map[string]interface{} (its entries in the order in which the writer visits them). -/
inductive Json where
  | null
  | bool (b : Bool)
  | num (bits : UInt64)
  | str (s : Bytes)
  | arr (l : List Json)
  | obj (m : List (Bytes × Json))

/-- The header of a string. -/
def strHeader (n : Nat) : Bytes :=
  if n < 32 then [UInt8.ofNat (0xa0 + n)]
  else if n < 256 then [0xd9, UInt8.ofNat n]
  else if n ≤ 65535 then 0xda :: be16 (UInt16.ofNat n)
  else 0xdb :: be32 (UInt32.ofNat n)

/-- The header of an array. -/
def arrHeader (n : Nat) : Bytes :=
  if n < 16 then [UInt8.ofNat (0x90 + n)]
  else if n ≤ 65535 then 0xdc :: be16 (UInt16.ofNat n)
  else 0xdd :: be32 (UInt32.ofNat n)

/-- The header of a map. -/
def mapHeader (n : Nat) : Bytes :=
  if n < 16 then [UInt8.ofNat (0x80 + n)]
  else if n ≤ 65535 then 0xde :: be16 (UInt16.ofNat n)
  else 0xdf :: be32 (UInt32.ofNat n)

mutual
/-- `msgpack.Marshal` (invoke.go 50-53): the data of the payload (55-56). -/
def marshal : Json → Bytes
  | .null => [0xc0]
  | .bool b => if b then [0xc3] else [0xc2]
  | .num bits => 0xcb :: be64 bits
  | .str s => strHeader s.length ++ s
  | .arr l => arrHeader l.length ++ marshalList l
  | .obj m => mapHeader m.length ++ marshalFields m

/-- The elements of an array. -/
def marshalList : List Json → Bytes
  | [] => []
  | j :: l => marshal j ++ marshalList l

/-- The entries of a map. -/
def marshalFields : List (Bytes × Json) → Bytes
  | [] => []
  | (k, j) :: m => strHeader k.length ++ k ++ (marshal j ++ marshalFields m)
end

end Verif.InvokeCmd
