import Verif.Model.Mesh
import Verif.Model.Invoke
/-
Model of how the modules of a mesh start: what a guest has registered (invoke/handlers.go) is reported to the host of its
module, and the mesh links it (transport/wasmrs/mesh/mesh.go).
-/
set_option autoImplicit false
namespace Verif.MeshStart
open Verif Operations Invoke

section
variable {H : Type}

/-- transport/wasmrs/guest/guest.go 61-67 `OperationList` and transport/wasmrs/host/instance.go 194-198 `opList`: the table
of operations of a guest with this registry, as its host knows it. An error of the parser is ignored, and the table is
empty then. That the host reads from the memory of the guest what the guest has written there is assumed. -/
def reported (r : Registry H) : Go Table := do
  let w ← toBytes (getOperationsTable r)
  match fromBytes w with
  | .ok t => .ok t
  | .err _ => .ok []
  | .panic => .panic

/-- The tables of modules, each a file and what its guest registers before it is asked for its table
(invoke/handlers.go 112-202; the registrations are made by `init` and `main` of the guest). -/
def tables : List (Bytes × List (Call H)) → Go (List (Bytes × Table))
  | [] => .ok []
  | (f, calls) :: ms => do
    let t ← reported (run Registry.init calls)
    let ts ← tables ms
    .ok ((f, t) :: ts)

/-- mesh.go 128-136: a mesh that has loaded these modules, one after the other. -/
def start (ms : List (Bytes × List (Call H))) : Go Mesh.St := do
  let ts ← tables ms
  Mesh.load ts

end
end Verif.MeshStart
