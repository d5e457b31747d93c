import Verif.Model.Invoke
import Verif.Spec.Wire
import Verif.Lemmas.Frames
/-
Properties C18, C19, C20: registries, port messages, live instances.
-/
set_option autoImplicit false
namespace Verif.Props
open Verif Operations Invoke

/-! ## C18 -/

section C18
variable {H : Type}

/-- The exports of kind `k` made by a sequence of calls, in order. -/
def exportsOf (k : Kind) (calls : List (Call H)) : List (Bytes × Bytes × H) :=
  calls.filterMap fun
    | .exp k' ns op h => if k' = k then some (ns, op, h) else none
    | .imp .. => none

/-- The names imported with kind `k`, repetitions included. -/
def importsOf (k : Kind) (calls : List (Call H)) : List (Bytes × Bytes) :=
  calls.filterMap fun
    | .exp .. => none
    | .imp k' ns op => if k' = k then some (ns, op) else none

/-- Fewer than 2^32 registrations of each kind. -/
def fewCalls (calls : List (Call H)) : Prop := calls.length < 2^32

/-- The published table: exports of the four kinds, then imports, each numbered from 0 within its
kind and direction; a repeated import is listed once. -/
def publishedTable (calls : List (Call H)) : Table :=
  ([Kind.rr, .fnf, .rs, .rc].flatMap fun k => (exportsOf k calls).zipIdx.map fun (e, i) =>
    ⟨UInt32.ofNat i, k.type, 1, e.1, e.2.1⟩) ++
  ([Kind.rr, .fnf, .rs, .rc].flatMap fun k => (importsOf k calls).eraseDups.zipIdx.map fun (e, i) =>
    ⟨UInt32.ofNat i, k.type, 2, e.1, e.2⟩)

theorem run_snoc (r : Registry H) (cs : List (Call H)) (c : Call H) :
    run r (cs ++ [c]) = step (run r cs) c := by simp [run]

theorem snoc_induction {α : Type} {P : List α → Prop} (nil : P [])
    (snoc : ∀ l a, P l → P (l ++ [a])) (l : List α) : P l := by
  have h : ∀ r : List α, P r.reverse := by
    intro r; induction r with
    | nil => exact nil
    | cons a r ih => rw [List.reverse_cons]; exact snoc _ _ ih
  simpa using h l.reverse

theorem findImport_spec (ns op : Bytes) : ∀ (l : List HandlerInfo) (i j : Nat),
    findImport ns op i l = some j →
      ∃ k, j = i + k ∧ l[k]? = some ⟨ns, op⟩ ∧ ∀ m, m < k → l[m]? ≠ some ⟨ns, op⟩ := by
  intro l
  induction l with
  | nil => intro i j h; cases h
  | cons x xs ih =>
    intro i j h
    simp only [findImport] at h
    by_cases hx : x.ns = ns ∧ x.operation = op
    · rw [if_pos hx] at h
      cases h
      refine ⟨0, by simp, ?_, fun m hm => by omega⟩
      cases x; simp_all
    · rw [if_neg hx] at h
      obtain ⟨k, rfl, h1, h2⟩ := ih _ _ h
      refine ⟨k + 1, by omega, by simpa using h1, ?_⟩
      intro m hm
      cases m with
      | zero => simp; intro h; subst h; simp at hx
      | succ m => simpa using h2 m (by omega)

theorem findImport_none (ns op : Bytes) : ∀ (l : List HandlerInfo) (i : Nat),
    findImport ns op i l = none ↔ (⟨ns, op⟩ : HandlerInfo) ∉ l := by
  intro l
  induction l with
  | nil => intro i; simp [findImport]
  | cons x xs ih =>
    intro i
    simp only [findImport]
    by_cases hx : x.ns = ns ∧ x.operation = op
    · rw [if_pos hx]
      simp only [List.mem_cons, not_or]
      constructor
      · intro h; cases h
      · intro h; exact absurd (by cases x; simp_all) h.1
    · rw [if_neg hx, ih]
      simp only [List.mem_cons, not_or]
      constructor
      · exact fun h => ⟨by intro e; subst e; simp at hx, h⟩
      · exact fun h => h.2

theorem eraseDups_one {α : Type} [BEq α] (a : α) : [a].eraseDups = [a] := by
  rw [List.eraseDups_cons]; simp

def infoOf (e : Bytes × Bytes) : HandlerInfo := ⟨e.1, e.2⟩

/-- What the variables contain after any calls. -/
theorem run_state (calls : List (Call H)) (k : Kind) :
    (run Registry.init calls k).handlers = (exportsOf k calls).map (·.2.2) ∧
    (run Registry.init calls k).handlerInfo = (exportsOf k calls).map (fun e => ⟨e.1, e.2.1⟩) ∧
    (run Registry.init calls k).imports = (importsOf k calls).eraseDups.map infoOf := by
  induction calls using snoc_induction with
  | nil => simp [run, Registry.init, exportsOf, importsOf]
  | snoc cs c ih =>
    obtain ⟨h1, h2, h3⟩ := ih
    rw [run_snoc]
    cases c with
    | exp k' ns op h =>
      by_cases hk : k = k'
      · subst hk
        simp [step, doExport, Registry.set, h1, h2, h3, exportsOf, importsOf]
      · have hk' : ¬ k' = k := fun e => hk e.symm
        simp [step, doExport, Registry.set, hk, hk', h1, h2, h3, exportsOf, importsOf]
    | imp k' ns op =>
      by_cases hk : k = k'
      · subst hk
        have hmem : (⟨ns, op⟩ : HandlerInfo) ∈ (run Registry.init cs k).imports ↔
            (ns, op) ∈ importsOf k cs := by
          rw [h3]
          simp only [List.mem_map, List.mem_eraseDups]
          constructor
          · rintro ⟨e, he, heq⟩; cases e; cases heq; exact he
          · intro h; exact ⟨_, h, rfl⟩
        have himp : importsOf k (cs ++ [Call.imp k ns op]) = importsOf k cs ++ [(ns, op)] := by
          simp [importsOf]
        have hexp : exportsOf k (cs ++ [Call.imp k ns op]) = exportsOf k cs := by
          simp [exportsOf]
        rw [himp, hexp, List.eraseDups_append]
        simp only [step, doImport]
        cases hf : findImport ns op 0 (run Registry.init cs k).imports with
        | some i =>
          have hin : (ns, op) ∈ importsOf k cs := by
            rw [← hmem]
            refine Decidable.byContradiction fun hn => ?_
            rw [(findImport_none _ _ _ 0).mpr hn] at hf; cases hf
          refine ⟨h1, h2, ?_⟩
          rw [h3]
          have : ([(ns, op)] : List (Bytes × Bytes)).removeAll (importsOf k cs) = [] := by
            simp [List.removeAll, hin]
          rw [this]; simp
        | none =>
          have hin : (ns, op) ∉ importsOf k cs := by
            rw [← hmem]; exact (findImport_none _ _ _ 0).mp hf
          have : ([(ns, op)] : List (Bytes × Bytes)).removeAll (importsOf k cs) = [(ns, op)] := by
            simp [List.removeAll, hin]
          rw [this]
          simp [Registry.set, h1, h2, h3, infoOf, eraseDups_one]
      · have hk' : ¬ k' = k := fun e => hk e.symm
        simp only [step, doImport]
        split <;> simp [Registry.set, hk, hk', h1, h2, h3, exportsOf, importsOf]

theorem filterMap_length_le {α β : Type} (f : α → Option β) (l : List α) :
    (l.filterMap f).length ≤ l.length := List.length_filterMap_le f l

theorem exportsOf_length (k : Kind) (calls : List (Call H)) :
    (exportsOf k calls).length ≤ calls.length := List.length_filterMap_le _ _

/-- C18: `Get*Handler` finds exactly the exported handlers: id `i` is the `i`-th export of that
kind. -/
theorem C18_handler_lookup (calls : List (Call H)) (hc : fewCalls calls) (k : Kind) (id : UInt32) :
    getHandler (run Registry.init calls) k id = (exportsOf k calls)[id.toNat]?.map (·.2.2) := by
  have hl := exportsOf_length k calls
  unfold fewCalls at hc
  unfold getHandler
  have e : (UInt32.ofNat (exportsOf k calls).length).toNat = (exportsOf k calls).length :=
    UInt32.toNat_ofNat_of_lt' (by rw [show UInt32.size = 2^32 from rfl]; omega)
  rw [(run_state calls k).1, List.length_map]
  split <;> rename_i hle <;> rw [UInt32.le_iff_toNat_le, e] at hle
  · rw [List.getElem?_eq_none (by omega)]; rfl
  · rw [List.getElem?_map]

/-- C18: what an exported id refers to never changes, whatever is registered afterwards. -/
theorem C18_export_stable (calls later : List (Call H)) (hc : fewCalls (calls ++ later))
    (k : Kind) (id : UInt32) (h : H)
    (hg : getHandler (run Registry.init calls) k id = some h) :
    getHandler (run Registry.init (calls ++ later)) k id = some h := by
  have hc1 : fewCalls calls := by unfold fewCalls at *; simp at hc; omega
  rw [C18_handler_lookup _ hc1] at hg
  rw [C18_handler_lookup _ hc]
  have : exportsOf k (calls ++ later) = exportsOf k calls ++ exportsOf k later := by
    simp [exportsOf]
  rw [this]
  cases he : (exportsOf k calls)[id.toNat]? with
  | none => rw [he] at hg; cases hg
  | some e =>
    have hlt := (List.getElem?_eq_some_iff.mp he).1
    rw [List.getElem?_append_left hlt, he]
    rw [he] at hg; exact hg

theorem eraseDups_nodup {α : Type} [BEq α] [LawfulBEq α] (l : List α) : l.eraseDups.Nodup := by
  induction l using snoc_induction with
  | nil => simp
  | snoc l a ih =>
    rw [List.eraseDups_append]
    by_cases h : a ∈ l
    · simpa [List.removeAll, h] using ih
    · have : ([a] : List α).removeAll l = [a] := by simp [List.removeAll, h]
      rw [this, eraseDups_one]
      rw [List.nodup_append]
      refine ⟨ih, by simp, ?_⟩
      intro x hx b hb
      simp at hb; subst hb
      intro e; subst e
      exact h (by simpa using hx)

theorem nodup_getElem?_inj {α : Type} {l : List α} (hn : l.Nodup) {i j : Nat} {a : α}
    (hi : l[i]? = some a) (hj : l[j]? = some a) : i = j := by
  obtain ⟨hi', ei⟩ := List.getElem?_eq_some_iff.mp hi
  obtain ⟨hj', ej⟩ := List.getElem?_eq_some_iff.mp hj
  exact (List.getElem_inj hn).mp (ei.trans ej.symm)

theorem eraseDups_prefix {α : Type} [BEq α] [LawfulBEq α] (a b : List α) :
    ∃ t, (a ++ b).eraseDups = a.eraseDups ++ t := ⟨_, List.eraseDups_append⟩

theorem importsOf_eraseDups_length (k : Kind) (calls : List (Call H)) :
    (importsOf k calls).eraseDups.length ≤ calls.length := by
  have h1 : ∀ l : List (Bytes × Bytes), l.eraseDups.length ≤ l.length := by
    intro l
    induction l using snoc_induction with
    | nil => simp
    | snoc l a ih =>
      rw [List.eraseDups_append]
      by_cases h : a ∈ l
      · simp [List.removeAll, h]; omega
      · have : ([a] : List (Bytes × Bytes)).removeAll l = [a] := by simp [List.removeAll, h]
        rw [this, eraseDups_one]; simp; omega
  have h2 : (importsOf k calls).length ≤ calls.length := List.length_filterMap_le _ _
  exact Nat.le_trans (h1 _) h2

/-- The id returned by an import is the position of the name among the distinct names imported
so far. -/
theorem import_id (calls : List (Call H)) (k : Kind) (ns op : Bytes) :
    ∃ i, (doImport (run Registry.init calls) k ns op).1 = UInt32.ofNat i ∧
      i ≤ (importsOf k calls).eraseDups.length ∧
      (importsOf k (calls ++ [.imp k ns op])).eraseDups[i]? = some (ns, op) := by
  have h3 := (run_state calls k).2.2
  have himp : importsOf k (calls ++ [Call.imp k ns op]) = importsOf k calls ++ [(ns, op)] := by
    simp [importsOf]
  rw [himp]
  simp only [doImport]
  cases hf : findImport ns op 0 (run Registry.init calls k).imports with
  | some j =>
    obtain ⟨i, rfl, h1, -⟩ := findImport_spec _ _ _ _ _ hf
    rw [h3, List.getElem?_map] at h1
    cases he : (importsOf k calls).eraseDups[i]? with
    | none => rw [he] at h1; cases h1
    | some e =>
      rw [he] at h1
      have hlt := (List.getElem?_eq_some_iff.mp he).1
      refine ⟨i, by simp, by omega, ?_⟩
      rw [List.eraseDups_append, List.getElem?_append_left hlt, he]
      cases e; simp only [infoOf, Option.map_some, Option.some.injEq, HandlerInfo.mk.injEq] at h1
      rw [h1.1, h1.2]
  | none =>
    have hn := (findImport_none _ _ _ 0).mp hf
    have hin : (ns, op) ∉ importsOf k calls := by
      intro hm
      apply hn; rw [h3]
      exact List.mem_map.mpr ⟨_, by simpa using hm, rfl⟩
    refine ⟨(importsOf k calls).eraseDups.length, by rw [h3]; simp, Nat.le_refl _, ?_⟩
    have : ([(ns, op)] : List (Bytes × Bytes)).removeAll (importsOf k calls) = [(ns, op)] := by
      simp [List.removeAll, hin]
    rw [List.eraseDups_append, this, eraseDups_one]
    simp

/-- C18: importing the same operation again returns the same id, and importing another one of
the same kind returns a different id, whatever happened in between. -/
theorem C18_import_stable (calls later : List (Call H)) (k : Kind) (ns op ns' op' : Bytes)
    (hc : fewCalls (calls ++ [.imp k ns op] ++ later)) :
    (doImport (run Registry.init (calls ++ [.imp k ns op] ++ later)) k ns' op').1 =
      (doImport (run Registry.init calls) k ns op).1 ↔ (ns', op') = (ns, op) := by
  obtain ⟨i, hi, hile, hi'⟩ := import_id calls k ns op
  obtain ⟨j, hj, hjle, hj'⟩ := import_id (calls ++ [.imp k ns op] ++ later) k ns' op'
  have h1 := importsOf_eraseDups_length k calls
  have h2 := importsOf_eraseDups_length k (calls ++ [Call.imp k ns op] ++ later)
  unfold fewCalls at hc
  have hlen : calls.length ≤ (calls ++ [Call.imp k ns op] ++ later).length := by simp
  have hi'' : (importsOf k (calls ++ [Call.imp k ns op] ++ later ++ [Call.imp k ns' op'])).eraseDups[i]?
      = some (ns, op) := by
    have e : importsOf k (calls ++ [Call.imp k ns op] ++ later ++ [Call.imp k ns' op']) =
        importsOf k (calls ++ [Call.imp k ns op]) ++ importsOf k (later ++ [Call.imp k ns' op']) := by
      simp [importsOf]
    obtain ⟨t, ht⟩ := eraseDups_prefix (importsOf k (calls ++ [Call.imp k ns op]))
      (importsOf k (later ++ [Call.imp k ns' op']))
    rw [e, ht, List.getElem?_append_left (List.getElem?_eq_some_iff.mp hi').1, hi']
  rw [hi, hj]
  have hinj : UInt32.ofNat j = UInt32.ofNat i ↔ j = i := by
    rw [← UInt32.toNat_inj, UInt32.toNat_ofNat_of_lt' (by rw [show UInt32.size = 2^32 from rfl]; omega),
      UInt32.toNat_ofNat_of_lt' (by rw [show UInt32.size = 2^32 from rfl]; omega)]
  rw [hinj]
  constructor
  · intro e; subst e
    rw [hi''] at hj'
    exact (Option.some.inj hj').symm
  · intro e
    rw [e] at hj'
    exact nodup_getElem?_inj (eraseDups_nodup _) hj' hi''

/-- C18: the published table lists exactly what was exported and imported, under the ids that
`Get*Handler` and `Import*` use. -/
theorem C18_table (calls : List (Call H)) :
    getOperationsTable (run Registry.init calls) = publishedTable calls := by
  have conv : ∀ (l : List (Bytes × Bytes)) (a b : UInt8),
      convertOperations (l.map infoOf) a b =
      l.zipIdx.map fun (e, i) => ⟨UInt32.ofNat i, a, b, e.1, e.2⟩ := by
    intro l a b
    simp [convertOperations, List.zipIdx_map, infoOf, Function.comp_def]
  have conv2 : ∀ (l : List (Bytes × Bytes × H)) (a b : UInt8),
      convertOperations (l.map (fun e => ⟨e.1, e.2.1⟩)) a b =
      l.zipIdx.map fun (e, i) => ⟨UInt32.ofNat i, a, b, e.1, e.2.1⟩ := by
    intro l a b
    simp [convertOperations, List.zipIdx_map, Function.comp_def]
  unfold getOperationsTable publishedTable
  simp only [(run_state calls _).2.1, (run_state calls _).2.2, conv, conv2]
  simp [Kind.type, exportDir, importDir]

/-- C18: the id an import returns is the one under which the table lists it, now and later. -/
theorem C18_import_in_table (calls later : List (Call H)) (k : Kind) (ns op : Bytes) :
    (⟨(doImport (run Registry.init calls) k ns op).1, k.type, 2, ns, op⟩ : Operation) ∈
      getOperationsTable (run Registry.init (calls ++ [.imp k ns op] ++ later)) := by
  obtain ⟨i, hi, -, hi'⟩ := import_id calls k ns op
  have e : importsOf k (calls ++ [Call.imp k ns op] ++ later) =
      importsOf k (calls ++ [Call.imp k ns op]) ++ importsOf k later := by simp [importsOf]
  obtain ⟨t, ht⟩ := eraseDups_prefix (importsOf k (calls ++ [Call.imp k ns op]))
    (importsOf k later)
  have hi'' : (importsOf k (calls ++ [Call.imp k ns op] ++ later)).eraseDups[i]? = some (ns, op) := by
    rw [e, ht, List.getElem?_append_left (List.getElem?_eq_some_iff.mp hi').1, hi']
  rw [C18_table, hi, publishedTable]
  apply List.mem_append_right
  rw [List.mem_flatMap]
  refine ⟨k, by cases k <;> simp, List.mem_map.mpr ⟨((ns, op), i), ?_, rfl⟩⟩
  rw [List.mem_zipIdx_iff_getElem?]
  exact hi''

/-- A history meeting the hypotheses: two exports, an import repeated after another one. -/
example :
    let calls : List (Call Nat) := [.exp .rr [1] [2] 10, .imp .rr [1] [2], .imp .rr [3] [4],
      .exp .rr [5] [6] 11, .imp .rr [1] [2]]
    fewCalls calls ∧ getHandler (run Registry.init calls) .rr 1 = some 11 ∧
    (doImport (run Registry.init calls) .rr [3] [4]).1 = 1 ∧
    (getOperationsTable (run Registry.init calls)).length = 4 := by
  refine ⟨by simp [fewCalls], rfl, rfl, rfl⟩

end C18

/-! ## C19 -/

/-- C19 as stated in English. -/
def C19_statement : Prop :=
  ∀ f : PortIO, f.port.length < 2^16 → ∃ w, f.encode = .ok w ∧ PortIO.decode w = .ok f

/-- The bytes of a port message as the code writes them. -/
def portWire (f : PortIO) : Bytes :=
  [if f.next || f.complete then 1 else 0] ++ Spec.bigEndian 2 f.port.length ++ f.port ++ f.data

theorem port_encode (f : PortIO) (h : f.port.length < 2^16) : f.encode = .ok (portWire f) := by
  unfold PortIO.encode
  simp only
  rw [Cur.put_ok (by simp; omega)]
  simp only [Go.bind_ok]
  rw [Cur.put_ok (by simp; omega)]
  simp only [Go.bind_ok]
  rw [Cur.copySkip_ok rfl (by simp; omega)]
  simp only [Go.bind_ok, Cur.copy, Cur.all, portWire, ← Spec.be16_ofNat h]
  have : (if f.next = true then (if f.complete = true then (0 : UInt8) ||| flagComplete else 0) |||
      flagNext else if f.complete = true then 0 ||| flagComplete else 0) =
      (if (f.next || f.complete) = true then 1 else 0) := by
    cases f.next <;> cases f.complete <;> decide
  rw [this]
  simp
  have e1 : 3 + f.port.length + f.data.length - 1 - 2 - f.port.length = f.data.length := by omega
  rw [e1, List.take_length]; simp

theorem port_decode (f : PortIO) (h : f.port.length < 2^16) :
    PortIO.decode (portWire f) =
      .ok { f with next := f.next || f.complete, complete := f.next || f.complete } := by
  unfold PortIO.decode portWire
  rw [← Spec.be16_ofNat h]
  simp only [List.cons_append, List.nil_append, List.append_assoc, index,
    List.getElem?_cons_zero, Go.bind_ok]
  rw [show sliceFrom ((if (f.next || f.complete) = true then (1 : UInt8) else 0) ::
      (be16 (UInt16.ofNat f.port.length) ++ (f.port ++ f.data))) 1 =
      .ok (be16 (UInt16.ofNat f.port.length) ++ (f.port ++ f.data)) by simp [sliceFrom]]
  simp only [Go.bind_ok, getU16_be16]
  rw [sliceFrom_append' _ _ _ (by simp)]
  simp only [Go.bind_ok, UInt16.toNat_ofNat_lt h]
  rw [sliceTo_append, sliceFrom_append]
  simp only [Go.bind_ok]
  cases f.next <;> cases f.complete <;> rfl

/-- C19 fails: `next` and `complete` share one bit. -/
theorem C19_port_roundtrip_violated : ¬ C19_statement := by
  intro h
  obtain ⟨w, h1, h2⟩ := h ⟨[], [], true, false⟩ (by decide)
  rw [port_encode _ (by decide)] at h1
  cases h1
  rw [port_decode _ (by decide)] at h2
  revert h2; decide

/-- C19 for messages whose flags agree; and in general both flags arrive as `next || complete`,
with name and data intact. Missing: the two mixed flag combinations, which the code confuses. -/
theorem C19_port_roundtrip_partial (f : PortIO) (h : f.port.length < 2^16) :
    ∃ w, f.encode = .ok w ∧ w = portWire f ∧
      PortIO.decode w = .ok { f with next := f.next || f.complete, complete := f.next || f.complete } ∧
      (f.next = f.complete → PortIO.decode w = .ok f) := by
  refine ⟨_, port_encode f h, rfl, port_decode f h, ?_⟩
  intro he
  rw [port_decode f h, he]
  cases f; simp at he; subst he; simp

example : ∃ f : PortIO, f.port.length < 2^16 ∧ f.port ≠ [] ∧ f.next = f.complete ∧ f.next = true :=
  ⟨⟨[112], [1, 2], true, true⟩, by decide⟩

/-! ## C20 -/

section C20
variable {T : Type}

/-- What a handle refers to after a history (given newest first): the instance of the latest
`Put` that returned it, unless it was removed later. -/
def refersTo (id : UInt64) : List (LiveOp T) → Option T
  | [] => none
  | .put i a :: older => if a = id then some i else refersTo id older
  | .get _ :: older => refersTo id older
  | .remove a :: older => if a = id then none else refersTo id older

/-- The initial state: no instances, arbitrary memory. -/
def liveInit (mem : UInt64 → T) : Live T := ⟨[], mem⟩

theorem live_run_snoc (l : Live T) (ops : List (LiveOp T)) (op : LiveOp T) :
    l.run (ops ++ [op]) = (l.run ops).step op := by simp [Live.run]

theorem live_get (mem : UInt64 → T) (ops : List (LiveOp T)) (id : UInt64) :
    ((liveInit mem).run ops).get id = refersTo id ops.reverse := by
  induction ops using snoc_induction with
  | nil => simp [Live.run, liveInit, Live.get, refersTo]
  | snoc ops op ih =>
    rw [live_run_snoc, List.reverse_append]
    simp only [List.reverse_cons, List.reverse_nil, List.nil_append, List.singleton_append]
    cases op with
    | put i a =>
      simp only [Live.step, Live.put, Live.get, refersTo, List.mem_cons]
      by_cases ha : a = id
      · subst ha; simp
      · have ha' : ¬ id = a := fun e => ha e.symm
        simp only [ha, ha', false_or, if_false]
        rw [← ih]; rfl
    | get a => simp only [Live.step, refersTo]; exact ih
    | remove a =>
      simp only [Live.step, refersTo]
      by_cases ha : a = id
      · subst ha
        simp only [if_true, Live.remove]
        by_cases hm : a ∈ ((liveInit mem).run ops).instances
        · simp [hm, Live.get]
        · simp [hm, Live.get]
      · have ha' : ¬ id = a := fun e => ha e.symm
        simp only [ha, if_false, ← ih, Live.remove]
        by_cases hm : a ∈ ((liveInit mem).run ops).instances
        · simp [hm, Live.get, ha']
        · simp [hm]

/-- C20: `Get` returns exactly the instance put under the handle and not removed since. -/
theorem C20_get (mem : UInt64 → T) (ops : List (LiveOp T)) (id : UInt64) :
    ((liveInit mem).run ops).get id = refersTo id ops.reverse := live_get mem ops id

/-- C20: `Remove` returns that instance; afterwards both `Get` and `Remove` report "not found"
until the handle is handed out again, and every other handle is unaffected. -/
theorem C20_remove (mem : UInt64 → T) (ops : List (LiveOp T)) (id : UInt64) :
    let r := (((liveInit mem).run ops).remove id).1
    let l' := (((liveInit mem).run ops).remove id).2
    r = refersTo id ops.reverse ∧ l'.get id = none ∧ (l'.remove id).1 = none ∧
    ∀ other, other ≠ id → l'.get other = refersTo other ops.reverse := by
  have hget := live_get mem ops
  have hafter := live_get mem (ops ++ [.remove id])
  simp only [live_run_snoc, List.reverse_append, List.reverse_cons, List.reverse_nil,
    List.nil_append, List.singleton_append, refersTo, Live.step] at hafter
  have h0 : ∀ (l : Live T) x, (l.remove x).1 = l.get x := by
    intro l x; unfold Live.remove Live.get; split <;> rfl
  refine ⟨(h0 _ _).trans (hget id), by simpa using hafter id, ?_, ?_⟩
  · rw [h0]; simpa using hafter id
  · intro other ho
    have := hafter other
    rwa [if_neg (fun e => ho e.symm)] at this

/-- C20: `Put` returns a handle that at once refers to the new instance, is different from the
handle of every live instance, and leaves those alone. -/
theorem C20_put (mem : UInt64 → T) (ops : List (LiveOp T)) (inst : T) (addr : UInt64)
    (hv : (liveInit mem).validFrom (ops ++ [.put inst addr])) :
    let (h, l') := ((liveInit mem).run ops).put inst addr
    l'.get h = some inst ∧
    ∀ id x, refersTo id ops.reverse = some x → id ≠ h ∧ l'.get id = some x := by
  have hfresh : addr ∉ ((liveInit mem).run ops).instances := by
    have : ∀ (ops : List (LiveOp T)) (l : Live T), l.validFrom (ops ++ [.put inst addr]) →
        addr ∉ (l.run ops).instances := by
      intro ops
      induction ops with
      | nil => intro l h; exact h.1
      | cons op ops ih => intro l h; exact ih _ h.2
    exact this _ _ hv
  refine ⟨by simp [Live.put, Live.get], ?_⟩
  intro id x hx
  have hg := live_get mem ops id
  rw [hx] at hg
  have hin : id ∈ ((liveInit mem).run ops).instances := by
    refine Decidable.byContradiction fun hn => ?_
    simp [Live.get, hn] at hg
  have hne : id ≠ addr := fun e => hfresh (e ▸ hin)
  refine ⟨hne, ?_⟩
  rw [← hg]
  simp [Live.put, Live.get, hne]

/-- A history in which an address is reused after removal. -/
example : (liveInit (fun _ => 0) : Live Nat).validFrom
    [.put 5 100, .put 6 200, .remove 100, .get 100, .put 7 100] ∧
    refersTo 100 ([.put 5 100, .put 6 200, .remove 100, .get 100, .put 7 100] : List (LiveOp Nat)).reverse
      = some 7 := by
  refine ⟨?_, by decide⟩
  simp [liveInit, Live.validFrom, Live.step, Live.put, Live.remove]

end C20

end Verif.Props
