import Verif.Spec.Wire
import Verif.Model.Operations
/-
Specification of the operation table format (transport/wasmrs README / operations package): magic
"\0wrs", 16-bit version 1, 32-bit number of entries, then the entries.
-/
set_option autoImplicit false
namespace Verif.Spec
open Verif Operations

/-- One entry with its block of reserved bytes: kind, direction, 32-bit index, length-prefixed
namespace, length-prefixed operation name, length-prefixed reserved bytes. -/
def entryWire (o : Operation) (reserved : Bytes) : Bytes :=
  [o.type, o.direction] ++ bigEndian 4 o.index.toNat ++
  bigEndian 2 o.ns.length ++ o.ns ++ bigEndian 2 o.operation.length ++ o.operation ++
  bigEndian 2 reserved.length ++ reserved

/-- A table whose entries carry reserved bytes. -/
def tableWire (t : List (Operation × Bytes)) : Bytes :=
  [0, 0x77, 0x72, 0x73] ++ bigEndian 2 1 ++ bigEndian 4 t.length ++
  (t.map (fun e => entryWire e.1 e.2)).flatten

end Verif.Spec
