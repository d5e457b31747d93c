import Verif.Model.MeshStart
import Verif.Props.MeshStreams
import Verif.Props.Operations
/-
Property C126: calls through a mesh reach the handler that was registered under the name that was imported.
-/
set_option autoImplicit false
namespace Verif.Props
open Verif Frames Handler
open Verif.Invoke (Kind Registry getHandler doImport)
open Verif.Operations (Operation Table)
open Verif.System (Sys Move)
open Verif.WasmRecv (Side)
open Verif.MeshSystem (MSys Link MMove)

section
variable {H : Type}

/-! ## Specification

The modules are files with what their guests register, `.exp kind namespace name handler` and `.imp kind namespace name`,
in the order in which they are loaded. `MeshStart.start` loads them. -/

/-- The module registers handler `h` under this name. -/
def offers (mods : List (Bytes × List (Invoke.Call H))) (j : Nat) (k : Kind) (ns op : Bytes) (h : H) : Prop :=
  ∃ f calls, mods[j]? = some (f, calls) ∧ .exp k ns op h ∈ calls

/-- The module imports this name. -/
def wants (mods : List (Bytes × List (Invoke.Call H))) (i : Nat) (k : Kind) (ns op : Bytes) : Prop :=
  ∃ f calls, mods[i]? = some (f, calls) ∧ .imp k ns op ∈ calls

/-- Names shorter than 2^16 bytes, fewer than 2^32 registrations, and a table of less than 4 GiB. -/
structure registrable (calls : List (Invoke.Call H)) : Prop where
  few : fewCalls calls
  names : ∀ c ∈ calls, match c with
    | .exp _ ns op _ | .imp _ ns op => ns.length < 2^16 ∧ op.length < 2^16
  size : tableLength (publishedTable calls) < 2^32

/-- Modules that can be loaded, and every name has one kind of request. -/
structure loadable (mods : List (Bytes × List (Invoke.Call H))) : Prop where
  each : ∀ m ∈ mods, registrable m.2
  exports : ∀ i j k k' ns op h h', offers mods i k ns op h → offers mods j k' ns op h' → k = k'
  imports : ∀ i j k k' ns op h, wants mods i k ns op → offers mods j k' ns op h → k = k'

/-- What the guest of module `k` registers. -/
def registrationsOf (mods : List (Bytes × List (Invoke.Call H))) (k : Nat) : List (Invoke.Call H) :=
  match mods[k]? with
  | some (_, calls) => calls
  | none => []

/-- The id a guest gets for an import, if it is the first one to ask for it or not. -/
def importId (before : List (Invoke.Call H)) (k : Kind) (ns op : Bytes) : UInt32 :=
  (doImport (Invoke.run Registry.init before) k ns op).1

/-! ## The table of a module -/

theorem mem_published (calls : List (Invoke.Call H)) (o : Operation) : o ∈ publishedTable calls ↔
    (∃ (k : Kind) (i : Nat) (e : Bytes × Bytes × H), (exportsOf k calls)[i]? = some e ∧ o = ⟨UInt32.ofNat i, k.type, 1, e.1, e.2.1⟩) ∨
    (∃ (k : Kind) (i : Nat) (e : Bytes × Bytes), (importsOf k calls).eraseDups[i]? = some e ∧ o = ⟨UInt32.ofNat i, k.type, 2, e.1, e.2⟩) := by
  unfold publishedTable
  rw [List.mem_append, List.mem_flatMap, List.mem_flatMap]
  have hk : ∀ k : Kind, k ∈ [Kind.rr, .fnf, .rs, .rc] := by intro k; cases k <;> simp
  constructor
  · rintro (⟨k, -, h⟩ | ⟨k, -, h⟩)
    · obtain ⟨⟨e, i⟩, h1, rfl⟩ := List.mem_map.mp h
      exact .inl ⟨k, i, e, List.mem_zipIdx_iff_getElem?.mp h1, rfl⟩
    · obtain ⟨⟨e, i⟩, h1, rfl⟩ := List.mem_map.mp h
      exact .inr ⟨k, i, e, List.mem_zipIdx_iff_getElem?.mp h1, rfl⟩
  · rintro (⟨k, i, e, h, rfl⟩ | ⟨k, i, e, h, rfl⟩)
    · exact .inl ⟨k, hk k, List.mem_map.mpr ⟨(e, i), List.mem_zipIdx_iff_getElem?.mpr h, rfl⟩⟩
    · exact .inr ⟨k, hk k, List.mem_map.mpr ⟨(e, i), List.mem_zipIdx_iff_getElem?.mpr h, rfl⟩⟩

theorem mem_exportsOf {k : Kind} {calls : List (Invoke.Call H)} {e : Bytes × Bytes × H} :
    e ∈ exportsOf k calls ↔ .exp k e.1 e.2.1 e.2.2 ∈ calls := by
  unfold exportsOf
  rw [List.mem_filterMap]
  constructor
  · rintro ⟨c, h1, h2⟩
    cases c with
    | exp k' ns op h =>
      simp only at h2
      split at h2
      · rename_i hk; cases h2; subst hk; exact h1
      · cases h2
    | imp => cases h2
  · intro h
    exact ⟨_, h, by simp⟩

theorem mem_importsOf {k : Kind} {calls : List (Invoke.Call H)} {e : Bytes × Bytes} :
    e ∈ importsOf k calls ↔ .imp k e.1 e.2 ∈ calls := by
  unfold importsOf
  rw [List.mem_filterMap]
  constructor
  · rintro ⟨c, h1, h2⟩
    cases c with
    | imp k' ns op =>
      simp only at h2
      split at h2
      · rename_i hk; cases h2; subst hk; exact h1
      · cases h2
    | exp => cases h2
  · intro h
    exact ⟨_, h, by simp⟩

theorem type_number (k : Kind) : k.type = kindNumber k := by cases k <;> rfl

theorem type_inj {k k' : Kind} (h : k.type = k'.type) : k = k' := by
  cases k <;> cases k' <;> first | rfl | (exact absurd h (by decide))

theorem reported_ok {calls : List (Invoke.Call H)} (h : registrable calls) :
    MeshStart.reported (Invoke.run Registry.init calls) = .ok (publishedTable calls) := by
  have hok : ∀ o ∈ publishedTable calls, opOk o := by
    intro o ho
    rcases (mem_published _ _).mp ho with ⟨k, i, e, h1, rfl⟩ | ⟨k, i, e, h1, rfl⟩
    · exact h.names _ (mem_exportsOf.mp (List.mem_of_getElem? h1))
    · exact h.names _ (mem_importsOf.mp (List.mem_eraseDups.mp (List.mem_of_getElem? h1)))
  obtain ⟨h1, h2⟩ := C15_table_roundtrip (publishedTable calls) hok h.size
  simp only [MeshStart.reported, C18_table, h1, Go.bind_ok, h2]

/-- The tables of all modules. -/
def tablesOf (mods : List (Bytes × List (Invoke.Call H))) : List (Bytes × Table) :=
  mods.map fun m => (m.1, publishedTable m.2)

theorem tables_ok : ∀ (mods : List (Bytes × List (Invoke.Call H))), (∀ m ∈ mods, registrable m.2) →
    MeshStart.tables mods = .ok (tablesOf mods) := by
  intro mods
  induction mods with
  | nil => intro _; rfl
  | cons m mods ih =>
    intro h
    obtain ⟨f, calls⟩ := m
    simp only [MeshStart.tables, reported_ok (h _ (.head _)), Go.bind_ok, ih fun m hm => h m (.tail _ hm)]
    rfl

theorem has_published {mods : List (Bytes × List (Invoke.Call H))} {i : Nat} {o : Operation} :
    Has (tablesOf mods) i o ↔ ∃ f calls, mods[i]? = some (f, calls) ∧ o ∈ publishedTable calls := by
  unfold Has tablesOf
  simp only [List.getElem?_map, Option.map_eq_some_iff]
  constructor
  · rintro ⟨f, t, ⟨m, h1, h2⟩, h3⟩
    cases h2
    exact ⟨m.1, m.2, h1, h3⟩
  · rintro ⟨f, calls, h1, h2⟩
    exact ⟨f, _, ⟨_, h1, rfl⟩, h2⟩

/-- The exports of a module, by number. -/
theorem exports_published {mods : List (Bytes × List (Invoke.Call H))} {i : Nat} {o : Operation} :
    Exports (tablesOf mods) i o ↔ ∃ f calls k n e, mods[i]? = some (f, calls) ∧ (exportsOf k calls)[n]? = some e ∧
      o = ⟨UInt32.ofNat n, k.type, 1, e.1, e.2.1⟩ := by
  unfold Exports
  rw [has_published]
  constructor
  · rintro ⟨⟨f, calls, h1, h2⟩, h3⟩
    rcases (mem_published _ _).mp h2 with ⟨k, n, e, q1, rfl⟩ | ⟨k, n, e, q1, rfl⟩
    · exact ⟨f, calls, k, n, e, h1, q1, rfl⟩
    · cases h3
  · rintro ⟨f, calls, k, n, e, h1, h2, rfl⟩
    exact ⟨⟨f, calls, h1, (mem_published _ _).mpr (.inl ⟨k, n, e, h2, rfl⟩)⟩, rfl⟩

theorem imports_published {mods : List (Bytes × List (Invoke.Call H))} {i : Nat} {o : Operation} :
    Imports (tablesOf mods) i o ↔ ∃ f calls k n e, mods[i]? = some (f, calls) ∧
      (importsOf k calls).eraseDups[n]? = some e ∧ o = ⟨UInt32.ofNat n, k.type, 2, e.1, e.2⟩ := by
  unfold Imports
  rw [has_published]
  constructor
  · rintro ⟨⟨f, calls, h1, h2⟩, h3⟩
    rcases (mem_published _ _).mp h2 with ⟨k, n, e, q1, rfl⟩ | ⟨k, n, e, q1, rfl⟩
    · cases h3
    · exact ⟨f, calls, k, n, e, h1, q1, rfl⟩
  · rintro ⟨f, calls, k, n, e, h1, h2, rfl⟩
    exact ⟨⟨f, calls, h1, (mem_published _ _).mpr (.inr ⟨k, n, e, h2, rfl⟩)⟩, rfl⟩

theorem ofNat_small {n m : Nat} (h : n < m) (hm : m < 2^32) : (UInt32.ofNat n).toNat = n :=
  UInt32.toNat_ofNat_of_lt' (by rw [show UInt32.size = 2^32 from rfl]; omega)

theorem imports_few {calls : List (Invoke.Call H)} (h : fewCalls calls) (k : Kind) :
    (importsOf k calls).eraseDups.length < 2^32 := by
  have := importsOf_eraseDups_length k calls
  unfold fewCalls at h
  omega

theorem exports_few {calls : List (Invoke.Call H)} (h : fewCalls calls) (k : Kind) : (exportsOf k calls).length < 2^32 := by
  have := exportsOf_length k calls
  unfold fewCalls at h
  omega

theorem published_wellFormed {mods : List (Bytes × List (Invoke.Call H))} (h : ∀ m ∈ mods, registrable m.2) :
    WellFormed (tablesOf mods) := by
  refine ⟨?_, ?_, ?_⟩
  · intro i o hi
    obtain ⟨f, calls, k, n, e, -, -, rfl⟩ := imports_published.mp hi
    exact ⟨k, type_number k⟩
  · intro i o hi hx
    obtain ⟨f, calls, k, n, e, h1, h2, rfl⟩ := imports_published.mp hi
    have hl : (importsOf k calls).eraseDups.length < 2^32 := imports_few (h _ (List.mem_of_getElem? h1)).few k
    have hn := (List.getElem?_eq_some_iff.mp h2).1
    have : (UInt32.ofNat n).toNat = 0xFFFFFFFF := by rw [show UInt32.ofNat n = 0xFFFFFFFF from hx]; rfl
    rw [ofNat_small hn hl] at this
    omega
  · intro i o o' hi hi' ht hx
    obtain ⟨f, calls, k, n, e, h1, h2, rfl⟩ := imports_published.mp hi
    obtain ⟨f', calls', k', n', e', h1', h2', rfl⟩ := imports_published.mp hi'
    rw [h1] at h1'
    cases h1'
    have := type_inj ht
    subst this
    have hl := imports_few (h _ (List.mem_of_getElem? h1)).few k
    have hx : (UInt32.ofNat n).toNat = (UInt32.ofNat n').toNat := congrArg UInt32.toNat hx
    rw [ofNat_small (List.getElem?_eq_some_iff.mp h2).1 hl, ofNat_small (List.getElem?_eq_some_iff.mp h2').1 hl] at hx
    subst hx
    rw [h2] at h2'
    cases h2'
    exact ⟨rfl, rfl⟩

/-! ## C126 -/

/-- A destination of the mesh is handler `h` of module `d.inst`, registered under this name. -/
structure names (mods : List (Bytes × List (Invoke.Call H))) (d : Mesh.Dest) (k : Kind) (ns op : Bytes) (h : H) : Prop where
  offered : offers mods d.inst k ns op h
  found : getHandler (Invoke.run Registry.init (registrationsOf mods d.inst)) k d.index = some h

theorem export_names {mods : List (Bytes × List (Invoke.Call H))} (hm : ∀ m ∈ mods, registrable m.2) {d : Mesh.Dest}
    {f : Bytes} {calls : List (Invoke.Call H)} {k : Kind} {n : Nat} {e : Bytes × Bytes × H} (h1 : mods[d.inst]? = some (f, calls))
    (h2 : (exportsOf k calls)[n]? = some e) (h3 : UInt32.ofNat n = d.index) : names mods d k e.1 e.2.1 e.2.2 := by
  have hf := (hm _ (List.mem_of_getElem? h1)).few
  refine ⟨⟨f, calls, h1, mem_exportsOf.mp (List.mem_of_getElem? h2)⟩, ?_⟩
  have : registrationsOf mods d.inst = calls := by unfold registrationsOf; rw [h1]
  rw [this, C18_handler_lookup calls hf, ← h3, ofNat_small (List.getElem?_eq_some_iff.mp h2).1 (exports_few hf k), h2]
  rfl

/-- C126: once the modules are loaded, the id a guest got for an import is linked to a handler that was registered under
the name it imported, if there is one, and to nothing otherwise. -/
theorem C126_import (mods : List (Bytes × List (Invoke.Call H))) (hm : loadable mods) :
    ∃ st, MeshStart.start mods = .ok st ∧
      ∀ i f before k ns op later, mods[i]? = some (f, before ++ .imp k ns op :: later) →
        (∀ d, Mesh.callImport st i k (importId before k ns op) = some d → ∃ h, names mods d k ns op h) ∧
        ((∃ j h, offers mods j k ns op h) → (Mesh.callImport st i k (importId before k ns op)).isSome = true) := by
  have hw := published_wellFormed hm.each
  obtain ⟨st, h1, h2, h3, -⟩ := C66_names_partial (tablesOf mods) hw
  refine ⟨st, ?_, ?_⟩
  · simp only [MeshStart.start, tables_ok mods hm.each, Go.bind_ok, h1]
  intro i f before k ns op later hi
  have hin : Imports (tablesOf mods) i ⟨importId before k ns op, k.type, 2, ns, op⟩ := by
    refine ⟨has_published.mpr ⟨f, _, hi, ?_⟩, rfl⟩
    have := C18_import_in_table before later k ns op
    rw [C18_table] at this
    simpa [importId] using this
  have hwant : wants mods i k ns op := ⟨f, _, hi, by simp⟩
  refine ⟨fun d hd => ?_, fun ⟨j, h, hj⟩ => ?_⟩
  · obtain ⟨o, e, q1, q2, q3, q4, q5, q6⟩ := h3 _ _ _ _ hd
    have hn := hw.own _ _ _ hin q1 (by rw [q2]; exact type_number k) q3.symm
    obtain ⟨f', calls', k', n, e', w1, w2, rfl⟩ := exports_published.mp q4
    have N := export_names hm.each w1 w2 q6
    have e1 : ns = e'.1 := hn.1.trans q5.1
    have e2 : op = e'.2.1 := hn.2.trans q5.2
    rw [← e1, ← e2] at N
    have := hm.imports _ _ _ _ _ _ _ hwant N.offered
    subst this
    exact ⟨_, N⟩
  · obtain ⟨f', calls', w1, w2⟩ := hj
    obtain ⟨n, hn⟩ := List.getElem?_of_mem (mem_exportsOf (e := (ns, op, h)) |>.mpr w2)
    obtain ⟨j', e', -, -, q⟩ := h2 i _ k hin (type_number k) ⟨j, ⟨UInt32.ofNat n, k.type, 1, ns, op⟩,
      exports_published.mpr ⟨f', calls', k, n, _, w1, hn, rfl⟩, rfl, rfl⟩
    rw [show Mesh.callImport st i k (importId before k ns op) = _ from q]
    rfl

theorem registrable_of {mods : List (Bytes × List (Invoke.Call H))} (hm : ∀ m ∈ mods, registrable m.2) (k : Nat) :
    fewCalls (registrationsOf mods k) := by
  unfold registrationsOf
  split
  · rename_i f calls h
    exact (hm _ (List.mem_of_getElem? h)).few
  · show 0 < 2 ^ 32
    omega

theorem verdict_names {mods : List (Bytes × List (Invoke.Call H))} (hm : ∀ m ∈ mods, registrable m.2) {d : Mesh.Dest} {k : Kind}
    {ns op : Bytes} {h : H} (hn : names mods d k ns op h) {more : Bytes} (hl : 4 ≤ more.length) (y : UInt32) (data : Bytes) :
    wasmVerdict .guest (registrationsOf mods d.inst) k y data (be32 d.index ++ more) =
      .invoked k h y ⟨data, if k = .rr ∨ k = .fnf then more.drop 4 else be32 d.index ++ more⟩ := by
  have h1 := hn.found
  rw [C18_handler_lookup _ (registrable_of hm _)] at h1
  have hlen : ¬ (be32 d.index ++ more).length < 8 := by
    rw [List.length_append, show (be32 d.index).length = 4 from rfl]; omega
  have hid : opIdOf (be32 d.index ++ more) = d.index.toNat := by
    obtain ⟨x, q1, q2⟩ := getU32_take (be32 d.index ++ more) (by omega)
    rw [getU32_be32] at q1
    cases q1
    exact q2.symm
  unfold wasmVerdict
  rw [if_neg hlen, hid]
  cases hx : (exportsOf k (registrationsOf mods d.inst))[d.index.toNat]? with
  | none => rw [hx] at h1; cases h1
  | some e =>
    rw [hx] at h1
    obtain ⟨a, b, c⟩ := e
    cases h1
    simp only [true_and]
    congr 2

/-- Where a call with the id of an import goes. -/
theorem import_goes {mods : List (Bytes × List (Invoke.Call H))} (hm : loadable mods) {st : Mesh.St}
    (hst : MeshStart.start mods = .ok st) {dest : H → Option Mesh.Dest} {host : Nat → Registry H} (hh : handlersOf dest host st)
    {i : Nat} {f : Bytes} {before later : List (Invoke.Call H)} {k : Kind} {ns op : Bytes}
    (hi : mods[i]? = some (f, before ++ .imp k ns op :: later)) (ho : ∃ j h, offers mods j k ns op h) {more : Bytes}
    (hl : 4 ≤ more.length) :
    ∃ d h, names mods d k ns op h ∧ goesTo dest (host i) k (be32 (importId before k ns op) ++ more) d := by
  obtain ⟨st', e, h1⟩ := C126_import mods hm
  rw [hst] at e
  cases e
  obtain ⟨h2, h3⟩ := h1 i f before k ns op later hi
  cases hd : Mesh.callImport st i k (importId before k ns op) with
  | none => have := h3 ho; rw [hd] at this; cases this
  | some d =>
    obtain ⟨h, hn⟩ := h2 d hd
    refine ⟨d, h, hn, ?_⟩
    have hlen : ¬ (be32 (importId before k ns op) ++ more).length < 8 := by
      rw [List.length_append, show (be32 (importId before k ns op)).length = 4 from rfl]; omega
    have hid : namedOp (be32 (importId before k ns op) ++ more) = importId before k ns op := by rw [namedOp, getU32_be32]
    rw [goesTo, exported, if_neg hlen, hid, hh, hd]

theorem drop_be32 (x : UInt32) (more : Bytes) : (be32 x ++ more).drop 4 = more := rfl

section
variable {mods : List (Bytes × List (Invoke.Call H))} {st : Mesh.St} {dest : H → Option Mesh.Dest} {host : Nat → Registry H}
    {i : Nat} {f : Bytes} {before later : List (Invoke.Call H)} {ns op : Bytes} {data more : Bytes} {pre mid post : List MMove}
    {s0 s : MSys H} {src : Src}

/-- C126: a request/response call with the id of an import. One handler `h` that was registered under the name is invoked,
once and with the caller's data, wherever the call is passed on to; and the caller sees nothing, or what that module has
answered. Once nothing of it is under way, it was passed on and `h` was invoked, and the caller has seen the answer as soon
as there is one. -/
theorem C126_call (hm : loadable mods) (hst : MeshStart.start mods = .ok st) (hh : handlersOf dest host st)
    (hi : mods[i]? = some (f, before ++ .imp .rr ns op :: later)) (ho : ∃ j h, offers mods j .rr ns op h) (hl : 4 ≤ more.length)
    {inst : Mono.Installed}
    (h : meshCall dest host (fun k => Invoke.run Registry.init (registrationsOf mods k)) i pre s0
      ⟨data, be32 (importId before .rr ns op) ++ more⟩ src mid inst post s) (ht : ∀ k, Tidy (s.inst k)) :
    ∃ d h, names mods d .rr ns op h ∧
      (∀ k y, passedAs s i (callId (s0.inst i).b) k y → k = d.inst ∧
        let done := (verdicts (s.inst k).trB).filter fun v => decide (v.id = y)
        let due := Verdict.invoked .rr h y ⟨data, more.drop 4⟩
        (done = [] ∨ done = [due]) ∧ (settled (s.inst k) y → done = [due])) ∧
      (monoEvs (s0.inst i).b.objs.length (s.inst i).trB = [] ∨
        ∃ y sig, passedAs s i (callId (s0.inst i).b) d.inst y ∧
          HandledOn .guest (Invoke.run Registry.init (registrationsOf mods d.inst)) y ⟨data, be32 d.index ++ more⟩
            (s.inst d.inst).histB (some sig) ∧
          monoEvs (s0.inst i).b.objs.length (s.inst i).trB = outcome 0 inst [overWire sig]) ∧
      (askedAll (s.inst i) (callId (s0.inst i).b) → ∃ y, passedAs s i (callId (s0.inst i).b) d.inst y ∧
        (settled (s.inst d.inst) y →
          ∃ r, HandledOn .guest (Invoke.run Registry.init (registrationsOf mods d.inst)) y ⟨data, be32 d.index ++ more⟩
              (s.inst d.inst).histB r ∧
            monoEvs (s0.inst i).b.objs.length (s.inst i).trB = outcome 0 inst (r.map overWire).toList)) := by
  obtain ⟨d, hd, hn, hg⟩ := import_goes hm hst hh hi ho hl
  refine ⟨d, hd, hn, fun k y hy => ?_, ?_, fun hq => ?_⟩
  · obtain ⟨rfl, q⟩ := C121_invoked dest host _ (registrable_of hm.each) i pre mid post s0 s _ src inst d h hg ht k y hy
    refine ⟨rfl, ?_⟩
    simp only [drop_be32, verdict_names hm.each hn hl, true_or, if_true] at q
    exact q
  · have := C121_answer dest host _ i pre mid post s0 s _ src inst d h hg ht
    simpa only [drop_be32] using this
  · have := C121_completes dest host _ i pre mid post s0 s _ src inst d h hg ht hq
    simpa only [drop_be32] using this

/-- C126: a stream with the id of an import. One handler `h` that was registered under the name is invoked, once and with
the caller's payload, wherever the call is passed on to; and the subscriber sees the beginning of what that module has
answered. -/
theorem C126_stream (hm : loadable mods) (hst : MeshStart.start mods = .ok st) (hh : handlersOf dest host st)
    (hi : mods[i]? = some (f, before ++ .imp .rs ns op :: later)) (ho : ∃ j h, offers mods j .rs ns op h) (hl : 4 ≤ more.length)
    {inst : Flux.Installed} {start : List Flux.Call}
    (h : meshStream dest host (fun k => Invoke.run Registry.init (registrationsOf mods k)) i pre s0
      ⟨data, be32 (importId before .rs ns op) ++ more⟩ src mid inst start post s) (ht : ∀ k, Tidy (s.inst k)) :
    ∃ d h, names mods d .rs ns op h ∧
      (∀ k y, passedAs s i (callId (s0.inst i).b) k y → k = d.inst ∧
        let done := (verdicts (s.inst k).trB).filter fun v => decide (v.id = y)
        let due := Verdict.invoked .rs h y ⟨data, be32 d.index ++ more⟩
        (done = [] ∨ done = [due]) ∧ (settled (s.inst k) y → requestSent (s.inst k) y → done = [due])) ∧
      (fluxSignals (fluxEvs (s0.inst i).b.objs.length (s.inst i).trB) = [] ∨
        ∃ y r, passedAs s i (callId (s0.inst i).b) d.inst y ∧
          StreamedOn .guest (Invoke.run Registry.init (registrationsOf mods d.inst)) .rs y ⟨data, be32 d.index ++ more⟩
            (s.inst d.inst).histB r ∧
          ∃ seen, seen <+: cutAtEnd r ∧ fluxSignals (fluxEvs (s0.inst i).b.objs.length (s.inst i).trB) =
            (seen.map sigOverWire).flatMap (sigCalls inst)) := by
  obtain ⟨d, hd, hn, hg⟩ := import_goes hm hst hh hi ho hl
  refine ⟨d, hd, hn, fun k y hy => ?_, ?_⟩
  · obtain ⟨rfl, q⟩ := C123_invoked dest host _ (registrable_of hm.each) i pre mid post s0 s _ src inst start d h hg ht k y hy
    refine ⟨rfl, ?_⟩
    simp only [drop_be32, verdict_names hm.each hn hl] at q
    exact q
  · have := C123_stream dest host _ i pre mid post s0 s _ src inst start d h hg ht
    simpa only [drop_be32] using this

/-- C126: a fire-and-forget request with the id of an import. One handler `h` that was registered under the name is invoked,
once and with the caller's data, wherever the request is passed on to; and it is passed on once nothing of it is under way. -/
theorem C126_fnf (hm : loadable mods) (hst : MeshStart.start mods = .ok st) {imports : Nat → List (Invoke.Call H)}
    (hc : ∀ k, fewCalls (imports k)) (hh : handlersOf dest (fun k => Invoke.run Registry.init (imports k)) st)
    (hi : mods[i]? = some (f, before ++ .imp .fnf ns op :: later)) (ho : ∃ j h, offers mods j .fnf ns op h)
    (hl : 4 ≤ more.length)
    (h : meshFnf dest (fun k => Invoke.run Registry.init (imports k))
      (fun k => Invoke.run Registry.init (registrationsOf mods k)) i pre s0
      ⟨data, be32 (importId before .fnf ns op) ++ more⟩ src post s) (ht : ∀ k, Tidy (s.inst k)) :
    ∃ d h, names mods d .fnf ns op h ∧
      (∀ k y, passedAs s i (callId (s0.inst i).b) k y → k = d.inst ∧
        let done := (verdicts (s.inst k).trB).filter fun v => decide (v.id = y)
        let due := Verdict.invoked .fnf h y ⟨data, more.drop 4⟩
        (done = [] ∨ done = [due]) ∧ (settled (s.inst k) y → done = [due])) ∧
      (askedAll (s.inst i) (callId (s0.inst i).b) → ∃ y, passedAs s i (callId (s0.inst i).b) d.inst y) := by
  obtain ⟨d, hd, hn, hg⟩ := import_goes hm hst hh hi ho hl
  obtain ⟨h1, h2⟩ := C121_fnf dest imports _ (registrable_of hm.each) hc i pre post s0 s _ src d h hg ht
  refine ⟨d, hd, hn, fun k y hy => ?_, h2⟩
  obtain ⟨rfl, q⟩ := h1 k y hy
  refine ⟨rfl, ?_⟩
  simp only [drop_be32, verdict_names hm.each hn hl, or_true, if_true] at q
  exact q

end

/-! ## Calls by name -/

theorem last_split {α : Type} {p : α → Bool} {l : List α} {x : α} (h : (l.filter p).getLast? = some x) :
    ∃ a b, l = a ++ x :: b ∧ p x = true ∧ ∀ y ∈ b, p y = false := by
  rw [List.getLast?_eq_head?_reverse, ← List.filter_reverse, List.head?_filter, List.find?_eq_some_iff_append] at h
  obtain ⟨h1, a, b, h2, h3⟩ := h
  refine ⟨b.reverse, a.reverse, ?_, h1, fun y hy => ?_⟩
  · have := congrArg List.reverse h2
    simpa using this
  · have := h3 y (List.mem_reverse.mp hy)
    simpa using this

/-- What a call by name finds in the table of a module. -/
theorem last_published {calls : List (Invoke.Call H)} {k : Kind} {ns op : Bytes}
    (hk : ∀ k' h, .exp k' ns op h ∈ calls → k' = k) {o : Operation} (h : lastExport (ns, op) (publishedTable calls) = some o) :
    ∃ a e b, exportsOf k calls = a ++ e :: b ∧ e.1 = ns ∧ e.2.1 = op ∧ o.index = UInt32.ofNat a.length ∧
      ∀ e' ∈ b, ¬ (e'.1 = ns ∧ e'.2.1 = op) := by
  have other : ∀ k', k' ≠ k → ((exportsOf k' calls).zipIdx.map fun (e, i) =>
      (⟨UInt32.ofNat i, k'.type, 1, e.1, e.2.1⟩ : Operation)).filter
        (fun op' => op'.direction == 1 && (op'.ns, op'.operation) == (ns, op)) = [] := by
    intro k' hne
    rw [List.filter_eq_nil_iff]
    intro o ho hp
    obtain ⟨⟨e, n⟩, h1, rfl⟩ := List.mem_map.mp ho
    simp only [beq_self_eq_true, Bool.true_and, beq_iff_eq, Prod.mk.injEq] at hp
    have := mem_exportsOf.mp (List.mem_of_getElem? (List.mem_zipIdx_iff_getElem?.mp h1))
    rw [hp.1, hp.2] at this
    exact hne (hk _ _ this)
  have imps : ([Kind.rr, .fnf, .rs, .rc].flatMap fun k => (importsOf k calls).eraseDups.zipIdx.map fun (e, i) =>
      (⟨UInt32.ofNat i, k.type, 2, e.1, e.2⟩ : Operation)).filter
        (fun op' => op'.direction == 1 && (op'.ns, op'.operation) == (ns, op)) = [] := by
    rw [List.filter_eq_nil_iff]
    intro o ho hp
    obtain ⟨k', -, ho⟩ := List.mem_flatMap.mp ho
    obtain ⟨⟨e, n⟩, h1, rfl⟩ := List.mem_map.mp ho
    simp at hp
  have key : (publishedTable calls).filter (fun op' => op'.direction == 1 && (op'.ns, op'.operation) == (ns, op)) =
      ((exportsOf k calls).zipIdx.map fun (e, i) => (⟨UInt32.ofNat i, k.type, 1, e.1, e.2.1⟩ : Operation)).filter
        (fun op' => op'.direction == 1 && (op'.ns, op'.operation) == (ns, op)) := by
    unfold publishedTable
    rw [List.filter_append, imps, List.append_nil]
    simp only [List.flatMap_cons, List.flatMap_nil, List.filter_append, List.append_nil]
    cases k
    · rw [other .fnf (by decide), other .rs (by decide), other .rc (by decide)]; simp
    · rw [other .rr (by decide), other .rs (by decide), other .rc (by decide)]; simp
    · rw [other .rr (by decide), other .fnf (by decide), other .rc (by decide)]; simp
    · rw [other .rr (by decide), other .fnf (by decide), other .rs (by decide)]; simp
  unfold lastExport at h
  rw [key] at h
  obtain ⟨a, b, h1, h2, h3⟩ := last_split h
  obtain ⟨a', b', g1, rfl, g3⟩ := List.map_eq_append_iff.mp h1
  obtain ⟨⟨e, n⟩, b'', rfl, rfl, rfl⟩ := List.map_eq_cons_iff.mp g3
  simp only [beq_self_eq_true, Bool.true_and, beq_iff_eq, Prod.mk.injEq] at h2
  have hn : (exportsOf k calls).zipIdx[a'.length]? = some (e, n) := by rw [g1]; simp
  rw [List.getElem?_zipIdx] at hn
  obtain ⟨e', h4, h5⟩ := Option.map_eq_some_iff.mp hn
  cases h5
  have hs : exportsOf k calls = (exportsOf k calls).zipIdx.map Prod.fst := by simp
  rw [g1, List.map_append, List.map_cons] at hs
  refine ⟨a'.map Prod.fst, e, b''.map Prod.fst, hs, h2.1, h2.2, by simp, fun e'' he => ?_⟩
  obtain ⟨⟨x, m⟩, w1, rfl⟩ := List.mem_map.mp he
  have := h3 _ (List.mem_map.mpr ⟨_, w1, rfl⟩)
  simpa using this

theorem last_none {calls : List (Invoke.Call H)} {ns op : Bytes} (h : lastExport (ns, op) (publishedTable calls) = none)
    (k : Kind) (x : H) : .exp k ns op x ∉ calls := by
  intro hm
  obtain ⟨n, hn⟩ := List.getElem?_of_mem (mem_exportsOf (e := (ns, op, x)) |>.mpr hm)
  have := List.filter_eq_nil_iff.mp (List.getLast?_eq_none_iff.mp h) _ ((mem_published _ _).mpr (.inl ⟨k, n, _, hn, rfl⟩))
  simp at this

/-- C126: a call by name on the mesh goes to the module loaded last of those that registered a handler under that name, and
to the last one it registered; it goes nowhere if there is none. -/
theorem C126_by_name (mods : List (Bytes × List (Invoke.Call H))) (hm : loadable mods) :
    ∃ st, MeshStart.start mods = .ok st ∧ ∀ ns op,
      (∀ d, Mesh.callByName st (ns, op) = some d → ∃ k h f before later,
        mods[d.inst]? = some (f, before ++ .exp k ns op h :: later) ∧ (∀ k' h', .exp k' ns op h' ∉ later) ∧
        getHandler (Invoke.run Registry.init (registrationsOf mods d.inst)) k d.index = some h ∧
        ∀ j k' h', d.inst < j → ¬ offers mods j k' ns op h') ∧
      (Mesh.callByName st (ns, op) = none → ∀ j k h, ¬ offers mods j k ns op h) := by
  induction mods using snoc_induction with
  | nil =>
    refine ⟨.init, rfl, fun ns op => ⟨fun d hd => (by cases hd), fun _ j k h ho => ?_⟩⟩
    obtain ⟨f, calls, h1, -⟩ := ho
    cases h1
  | snoc mods m ih =>
    obtain ⟨f, calls⟩ := m
    have inc : ∀ {i : Nat} {x : Bytes × List (Invoke.Call H)}, mods[i]? = some x → (mods ++ [(f, calls)])[i]? = some x := by
      intro i x h
      rw [List.getElem?_append_left (List.getElem?_eq_some_iff.mp h).1, h]
    have hm0 : loadable mods := by
      refine ⟨fun m hx => hm.each m (List.mem_append_left _ hx), ?_, ?_⟩
      · rintro i j k k' ns op h h' ⟨f1, c1, q1, q2⟩ ⟨f2, c2, q3, q4⟩
        exact hm.exports i j k k' ns op h h' ⟨f1, c1, inc q1, q2⟩ ⟨f2, c2, inc q3, q4⟩
      · rintro i j k k' ns op h ⟨f1, c1, q1, q2⟩ ⟨f2, c2, q3, q4⟩
        exact hm.imports i j k k' ns op h ⟨f1, c1, inc q1, q2⟩ ⟨f2, c2, inc q3, q4⟩
    obtain ⟨st0, e0, ih⟩ := ih hm0
    obtain ⟨st, e, -⟩ := C126_import _ hm
    refine ⟨st, e, fun ns op => ?_⟩
    simp only [MeshStart.start, tables_ok _ hm0.each, Go.bind_ok] at e0
    simp only [MeshStart.start, tables_ok _ hm.each, Go.bind_ok] at e
    have hp : tablesOf (mods ++ [(f, calls)]) = tablesOf mods ++ [(f, publishedTable calls)] := by simp [tablesOf]
    rw [hp] at e
    obtain ⟨h1, h2⟩ := C67_by_name_partial (tablesOf mods) f (publishedTable calls) st0 st e0 e (ns, op)
    have hlen : (tablesOf mods).length = mods.length := by simp [tablesOf]
    have hlast : (mods ++ [(f, calls)])[mods.length]? = some (f, calls) := by simp
    have hsplit : ∀ j k' h', offers (mods ++ [(f, calls)]) j k' ns op h' →
        offers mods j k' ns op h' ∨ (j = mods.length ∧ .exp k' ns op h' ∈ calls) := by
      rintro j k' h' ⟨f1, c1, q1, q2⟩
      by_cases hj : j < mods.length
      · rw [List.getElem?_append_left hj] at q1
        exact .inl ⟨f1, c1, q1, q2⟩
      · have := (List.getElem?_eq_some_iff.mp q1).1
        have : j = mods.length := by simp at this; omega
        subst this
        rw [hlast] at q1
        cases q1
        exact .inr ⟨rfl, q2⟩
    cases hx : lastExport (ns, op) (publishedTable calls) with
    | some o =>
      have hd := h1 o hx
      refine ⟨fun d h => ?_, fun h => by rw [hd] at h; cases h⟩
      rw [hd] at h
      cases h
      have hmem : o ∈ publishedTable calls := by
        unfold lastExport at hx
        exact (List.mem_filter.mp (List.mem_of_getLast? hx)).1
      have hp := (List.mem_filter.mp (List.mem_of_getLast? hx)).2
      obtain ⟨k, hk⟩ : ∃ k, ∀ k' h, .exp k' ns op h ∈ calls → k' = k := by
        rcases (mem_published _ _).mp hmem with ⟨k, n, e1, w1, rfl⟩ | ⟨k, n, e1, w1, rfl⟩
        · simp only [beq_self_eq_true, Bool.true_and, beq_iff_eq, Prod.mk.injEq] at hp
          have w2 := mem_exportsOf.mp (List.mem_of_getElem? w1)
          rw [hp.1, hp.2] at w2
          exact ⟨k, fun k' h' hin => hm.exports _ _ _ _ _ _ _ _ ⟨f, calls, hlast, hin⟩ ⟨f, calls, hlast, w2⟩⟩
        · simp at hp
      obtain ⟨a, e1, b, w1, w2, w3, w4, w5⟩ := last_published hk hx
      unfold exportsOf at w1
      obtain ⟨l1, l2, rfl, v1, v2⟩ := List.filterMap_eq_append_iff.mp w1
      obtain ⟨l3, c, l4, rfl, v3, v4, v5⟩ := List.filterMap_eq_cons_iff.mp v2
      have hc : c = .exp k ns op e1.2.2 := by
        cases c with
        | imp => cases v4
        | exp k1 ns1 op1 x1 =>
          simp only at v4
          split at v4
          · rename_i hkk
            cases v4
            simp only at w2 w3
            subst w2 w3 hkk
            rfl
          · cases v4
      subst hc
      rw [hlen]
      refine ⟨k, e1.2.2, f, l1 ++ l3, l4, by rw [hlast]; simp, fun k' h' hin => ?_, ?_, fun j k' h' hj ho => ?_⟩
      · have := hk k' h' (by simp [hin])
        subst this
        have : (ns, op, h') ∈ b := by
          rw [← v5]
          exact List.mem_filterMap.mpr ⟨_, hin, by simp⟩
        exact w5 _ this ⟨rfl, rfl⟩
      · have hf : fewCalls (l1 ++ (l3 ++ .exp k ns op e1.2.2 :: l4)) := (hm.each _ (List.mem_append_right _ (List.mem_singleton_self _))).few
        have : registrationsOf (mods ++ [(f, l1 ++ (l3 ++ .exp k ns op e1.2.2 :: l4))]) mods.length =
            l1 ++ (l3 ++ .exp k ns op e1.2.2 :: l4) := by
          unfold registrationsOf; rw [hlast]
        rw [this, C18_handler_lookup _ hf]
        have hx1 : exportsOf k (l1 ++ (l3 ++ .exp k ns op e1.2.2 :: l4)) = a ++ e1 :: b := w1
        have hl1 := exports_few hf k
        rw [hx1] at hl1 ⊢
        show ((a ++ e1 :: b)[o.index.toNat]?.map _) = _
        rw [w4, show (UInt32.ofNat a.length).toNat = a.length from ofNat_small (m := (a ++ e1 :: b).length) (by simp) hl1]
        simp
      · rcases hsplit _ _ _ ho with ⟨f1, c1, q1, -⟩ | ⟨q, -⟩
        · have := (List.getElem?_eq_some_iff.mp q1).1
          simp only at hj
          omega
        · simp only at hj
          omega
    | none =>
      have hd := h2 hx
      rw [hd]
      obtain ⟨i1, i2⟩ := ih ns op
      refine ⟨fun d h => ?_, fun h j k x ho => ?_⟩
      · obtain ⟨k, x, f1, before, later, q1, q2, q3, q4⟩ := i1 d h
        have hr : registrationsOf (mods ++ [(f, calls)]) d.inst = registrationsOf mods d.inst := by
          unfold registrationsOf; rw [inc q1, q1]
        refine ⟨k, x, f1, before, later, inc q1, q2, by rw [hr]; exact q3, fun j k' h' hj ho => ?_⟩
        rcases hsplit _ _ _ ho with ho | ⟨-, ho⟩
        · exact q4 j k' h' hj ho
        · exact last_none hx _ _ ho
      · rcases hsplit _ _ _ ho with ho | ⟨-, ho⟩
        · exact i2 h j k x ho
        · exact last_none hx _ _ ho

/-! ## Examples -/

/-- Module 0 registers handlers under four names; module 1 imports three of them. -/
def mods126 : List (Bytes × List (Invoke.Call (Option Mesh.Dest))) :=
  [([7], [.exp .rr [1] [9] none, .exp .rr [1] [2] (some ⟨9, 9⟩), .exp .fnf [1] [3] none, .exp .rs [1] [4] none]),
   ([8], [.imp .fnf [1] [3], .imp .rr [1] [2], .imp .rs [1] [4]])]

def kind126 (op : Bytes) : Kind := if op = [3] then .fnf else if op = [4] then .rs else .rr

theorem offers126 {j : Nat} {k : Kind} {ns op : Bytes} {h : Option Mesh.Dest} (ho : offers mods126 j k ns op h) :
    k = kind126 op := by
  obtain ⟨f, calls, h1, h2⟩ := ho
  match j, h1 with
  | 0, h1 =>
    cases h1
    simp only [List.mem_cons, List.not_mem_nil, or_false, Invoke.Call.exp.injEq] at h2
    rcases h2 with h | h | h | h <;> (obtain ⟨rfl, rfl, rfl, rfl⟩ := h; rfl)
  | 1, h1 =>
    cases h1
    simp at h2

theorem wants126 {i : Nat} {k : Kind} {ns op : Bytes} (hw : wants mods126 i k ns op) : k = kind126 op := by
  obtain ⟨f, calls, h1, h2⟩ := hw
  match i, h1 with
  | 0, h1 =>
    cases h1
    simp at h2
  | 1, h1 =>
    cases h1
    simp only [List.mem_cons, List.not_mem_nil, or_false, Invoke.Call.imp.injEq] at h2
    rcases h2 with h | h | h <;> (obtain ⟨rfl, rfl, rfl⟩ := h; rfl)

theorem loadable126 : loadable mods126 := by
  refine ⟨fun m hm => ?_, fun i j k k' ns op h h' h1 h2 => (offers126 h1).trans (offers126 h2).symm,
    fun i j k k' ns op h h1 h2 => (wants126 h1).trans (offers126 h2).symm⟩
  simp only [mods126, List.mem_cons, List.not_mem_nil, or_false] at hm
  rcases hm with rfl | rfl
  · refine ⟨by show 4 < 2 ^ 32; omega, fun c hc => ?_, by decide⟩
    simp only [List.mem_cons, List.not_mem_nil, or_false] at hc
    rcases hc with rfl | rfl | rfl | rfl <;> simp
  · refine ⟨by show 3 < 2 ^ 32; omega, fun c hc => ?_, by decide⟩
    simp only [List.mem_cons, List.not_mem_nil, or_false] at hc
    rcases hc with rfl | rfl | rfl <;> simp

def loaded126 : Mesh.St := match MeshStart.start mods126 with | .ok s => s | _ => .init

def imports126 : Nat → List (Invoke.Call (Option Mesh.Dest))
  | 1 => [.exp .fnf [1] [3] (some ⟨0, 0⟩), .exp .rr [1] [2] (some ⟨0, 1⟩), .exp .rs [1] [4] (some ⟨0, 0⟩)]
  | _ => []

def hosts126 (k : Nat) : Registry (Option Mesh.Dest) := Invoke.run Registry.init (imports126 k)
def guests126 (k : Nat) : Registry (Option Mesh.Dest) := Invoke.run Registry.init (registrationsOf mods126 k)

/-- The mesh has linked the imports of module 1, and finds the handlers by name. -/
theorem linked126 : MeshStart.start mods126 = .ok loaded126 ∧ handlersOf id hosts126 loaded126 ∧
    Mesh.callByName loaded126 ([1], [2]) = some ⟨0, 1⟩ ∧ Mesh.callByName loaded126 ([1], [5]) = none := by
  refine ⟨rfl, handlersOf_tables ?_, rfl, rfl⟩
  intro i k
  match i with
  | 0 => cases k <;> rfl
  | 1 => cases k <;> rfl
  | i + 2 => cases k <;> rfl

def end126 : MSys (Option Mesh.Dest) :=
  meshAfter (MeshSystem.run id hosts126 guests126 ([] ++ .other 1 (.atB (.call .rr
    ⟨[5], be32 (importId (H := Option Mesh.Dest) [.imp .fnf [1] [3]] .rr [1] [2]) ++ [0, 0, 0, 0, 6]⟩ .created)) :: [] ++
    .other 1 (.atB (.subscribeMono 0 ⟨true, true, true⟩)) :: post121))

/-- The hypotheses of `C126_call` are met: the second handler of module 0 is invoked. -/
example : meshCall id hosts126 guests126 1 [] (.init hosts126 guests126)
      ⟨[5], be32 (importId (H := Option Mesh.Dest) [.imp .fnf [1] [3]] .rr [1] [2]) ++ [0, 0, 0, 0, 6]⟩ .created [] ⟨true, true, true⟩ post121 end126 ∧
    mods126[1]? = some ([8], [.imp .fnf [1] [3]] ++ .imp .rr [1] [2] :: [.imp .rs [1] [4]]) ∧
    offers mods126 0 .rr [1] [2] (some ⟨9, 9⟩) ∧ (∀ k, Tidy (end126.inst k)) ∧
    askedAll (end126.inst 1) 1 ∧ passedAs end126 1 1 0 2 ∧
    verdicts (end126.inst 0).trB = [.invoked .rr (some ⟨9, 9⟩) 2 ⟨[5], [6]⟩] := by
  refine ⟨⟨rfl, rfl⟩, rfl, ⟨_, _, rfl, by simp⟩, ?_, ?_, ⟨⟨1, 1, 0, 0, 2, some 0⟩, .head _, rfl, rfl, rfl, rfl⟩, rfl⟩
  · intro k
    match k with
    | 0 => exact tidy_few (by decide +kernel) (by decide +kernel) (by decide +kernel) (by decide +kernel)
    | 1 => exact tidy_few (by decide +kernel) (by decide +kernel) (by decide +kernel) (by decide +kernel)
    | k + 2 =>
      have h1 : (end126.inst (k + 2)).histA = [] := rfl
      have h2 : (end126.inst (k + 2)).histB = [] := rfl
      exact tidy_few (by rw [h1]; decide) (by rw [h2]; decide) (by rw [h1]; decide) (by rw [h2]; decide)
  · refine ⟨rfl, rfl, fun k data md n h => ?_⟩
    have : (end126.inst 1).a.tasks = [] := rfl
    rw [this] at h; cases h

def endFnf126 : MSys (Option Mesh.Dest) :=
  meshAfter (MeshSystem.run id hosts126 guests126 ([] ++ .other 1 (.atB (.call .fnf
    ⟨[5], be32 (importId (H := Option Mesh.Dest) [] .fnf [1] [3]) ++ [0, 0, 0, 0, 6]⟩ .created)) :: postFnf121))

/-- The hypotheses of `C126_fnf` are met. -/
example : meshFnf id hosts126 guests126 1 [] (.init hosts126 guests126)
      ⟨[5], be32 (importId (H := Option Mesh.Dest) [] .fnf [1] [3]) ++ [0, 0, 0, 0, 6]⟩ .created postFnf121 endFnf126 ∧
    mods126[1]? = some ([8], [] ++ .imp .fnf [1] [3] :: [.imp .rr [1] [2], .imp .rs [1] [4]]) ∧
    offers mods126 0 .fnf [1] [3] none ∧ (∀ k, Tidy (endFnf126.inst k)) ∧ (∀ k, fewCalls (imports126 k)) ∧
    passedAs endFnf126 1 1 0 2 ∧ verdicts (endFnf126.inst 0).trB = [.invoked .fnf none 2 ⟨[5], [6]⟩] := by
  refine ⟨⟨rfl, rfl⟩, rfl, ⟨_, _, rfl, by simp⟩, ?_, ?_, ⟨⟨1, 1, 0, 0, 2, none⟩, .head _, rfl, rfl, rfl, rfl⟩, rfl⟩
  · intro k
    match k with
    | 0 => exact tidy_few (by decide +kernel) (by decide +kernel) (by decide +kernel) (by decide +kernel)
    | 1 => exact tidy_few (by decide +kernel) (by decide +kernel) (by decide +kernel) (by decide +kernel)
    | k + 2 =>
      have h1 : (endFnf126.inst (k + 2)).histA = [] := rfl
      have h2 : (endFnf126.inst (k + 2)).histB = [] := rfl
      exact tidy_few (by rw [h1]; decide) (by rw [h2]; decide) (by rw [h1]; decide) (by rw [h2]; decide)
  · intro k
    match k with
    | 0 => show 0 < 2 ^ 32; omega
    | 1 => show 3 < 2 ^ 32; omega
    | k + 2 => show 0 < 2 ^ 32; omega

def endStream126 : MSys (Option Mesh.Dest) :=
  meshAfter (MeshSystem.run id hosts126 guests126 ([] ++ .other 1 (.atB (.call .rs
    ⟨[5], be32 (importId (H := Option Mesh.Dest) [.imp .fnf [1] [3], .imp .rr [1] [2]] .rs [1] [4]) ++ [0, 0, 0, 0, 6]⟩ .created)) ::
    [] ++ .other 1 (.atB (.subscribeFlux 0 ⟨true, true, true, true, true, false⟩ [.request 3])) :: post123))

/-- The hypotheses of `C126_stream` are met. -/
example : meshStream id hosts126 guests126 1 [] (.init hosts126 guests126)
      ⟨[5], be32 (importId (H := Option Mesh.Dest) [.imp .fnf [1] [3], .imp .rr [1] [2]] .rs [1] [4]) ++ [0, 0, 0, 0, 6]⟩ .created []
      ⟨true, true, true, true, true, false⟩ [.request 3] post123 endStream126 ∧
    mods126[1]? = some ([8], [.imp .fnf [1] [3], .imp .rr [1] [2]] ++ .imp .rs [1] [4] :: []) ∧
    offers mods126 0 .rs [1] [4] none ∧ (∀ k, Tidy (endStream126.inst k)) ∧
    passedAs endStream126 1 1 0 2 ∧
    fluxCallbacks (fluxEvs 0 (endStream126.inst 1).trB) = [.next ⟨[7], [8]⟩, .next ⟨[6], []⟩, .complete, .fin .complete] ∧
    verdicts (endStream126.inst 0).trB = [.invoked .rs none 2 ⟨[5], eightZeros ++ [6]⟩] := by
  refine ⟨⟨rfl, by simp, rfl⟩, rfl, ⟨_, _, rfl, by simp⟩, ?_, ⟨⟨1, 1, 0, 0, 2, some 0⟩, .head _, rfl, rfl, rfl, rfl⟩, rfl, rfl⟩
  intro k
  match k with
  | 0 => exact tidy_few (by decide +kernel) (by decide +kernel) (by decide +kernel) (by decide +kernel)
  | 1 => exact tidy_few (by decide +kernel) (by decide +kernel) (by decide +kernel) (by decide +kernel)
  | k + 2 =>
    have h1 : (endStream126.inst (k + 2)).histA = [] := rfl
    have h2 : (endStream126.inst (k + 2)).histB = [] := rfl
    exact tidy_few (by rw [h1]; decide) (by rw [h2]; decide) (by rw [h1]; decide) (by rw [h2]; decide)

end
end Verif.Props
