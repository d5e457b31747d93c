import Verif.Model.Startup
import Verif.Props.Operations
import Verif.Props.WasmBuffers
/-
Properties C137 (starting a guest gives a working instance or an error) and C138 (one host, several modules).
-/
set_option autoImplicit false
namespace Verif.Props
open Verif
open Verif.Startup (HostCall Run Guest Inst Result)

/-! ## The claims -/

/-- The buffers the guest has announced last. -/
def lastBuffers : List HostCall → Option (UInt32 × UInt32)
  | [] => none
  | .initBuffers s r :: cs => (lastBuffers cs).or (some (s, r))
  | _ :: cs => lastBuffers cs

/-- The bytes of the operation table the guest has announced last (none at all if they are not in its memory). -/
def lastTable : List HostCall → Option Bytes
  | [] => none
  | .opList mem p n :: cs =>
    (lastTable cs).or (some (if p.toNat + n.toNat ≤ mem.length then (mem.drop p.toNat).take n.toNat else []))
  | _ :: cs => lastTable cs

/-- The frames the guest has sent; `ptr` is its send buffer at first. -/
def framesSent (ptr : UInt32) : List HostCall → List Bytes
  | [] => []
  | .initBuffers _ r :: cs => framesSent r cs
  | .opList _ _ _ :: cs => framesSent ptr cs
  | .send mem pos :: cs => (Wasm.hostSend mem ptr.toNat pos).1 ++ framesSent ptr cs

/-- C137 in full: instantiating a module on a new host never crashes the host and never hangs; if it does not report an error, then the
module has all functions, has said that its initialisation succeeded, and the instance has the buffers and the operations
the module has announced. -/
def C137_statement : Prop :=
  ∀ g : Guest, (Startup.instantiate ⟨false⟩ g).2 ≠ .crash ∧ (Startup.instantiate ⟨false⟩ g).2 ≠ .hang ∧
    ∀ i, (Startup.instantiate ⟨false⟩ g).2 = .done i → ∃ init opl, g.init = some init ∧ init.result = true ∧
      g.opListRequest = some opl ∧ lastBuffers (init.calls ++ opl.calls) = some (i.sendPtr, i.recvPtr) ∧
      ∃ b, lastTable (init.calls ++ opl.calls) = some b ∧ Operations.fromBytes b = .ok i.operations

/-- C138 in full: each of several modules on one host does what it does on a host of its own (if none crashes or hangs). -/
def C138_statement : Prop :=
  ∀ gs : List Guest, (∀ g ∈ gs, (Startup.instantiate ⟨false⟩ g).2 ≠ .crash ∧ (Startup.instantiate ⟨false⟩ g).2 ≠ .hang) →
    Startup.instantiateAll ⟨false⟩ gs = gs.map fun g => (Startup.instantiate ⟨false⟩ g).2

/-! ## Calls of the host -/

/-- No call makes the host panic: every table is complete (C17), whether it is a table or not, and what is sent are whole frames. -/
def harmless (ptr : UInt32) : List HostCall → Prop
  | [] => True
  | .initBuffers _ r :: cs => harmless r cs
  | .opList mem p n :: cs => tableComplete (Wasm.memRead mem p.toNat n.toNat) ∧ harmless ptr cs
  | .send mem pos :: cs => (Wasm.hostSend mem ptr.toNat pos).2 = false ∧ harmless ptr cs

/-- The table the host has after the calls: none if the one announced last is not valid. -/
def tableGot (old : Operations.Table) (cs : List HostCall) : Operations.Table :=
  match lastTable cs with
  | none => old
  | some b => match Operations.fromBytes b with
    | .ok t => t
    | _ => []

theorem tableGot_or (o : Operations.Table) (c : HostCall) (cs : List HostCall) :
    tableGot o (c :: cs) = tableGot (tableGot o [c]) cs := by
  cases c <;> simp only [tableGot, lastTable]
  case opList mem p n =>
    cases lastTable cs <;> simp

theorem hostCalls_done (cs : List HostCall) : ∀ (i i' : Inst), i.recvCh.length ≤ 100 →
    (Startup.hostCalls i cs = .done i' ↔ harmless i.recvPtr cs ∧ i.recvCh.length + (framesSent i.recvPtr cs).length ≤ 100 ∧
      i' = ⟨((lastBuffers cs).getD (i.sendPtr, i.recvPtr)).1, ((lastBuffers cs).getD (i.sendPtr, i.recvPtr)).2,
        tableGot i.operations cs, i.recvCh ++ framesSent i.recvPtr cs⟩) := by
  induction cs with
  | nil =>
    intro i i' hi
    simp only [Startup.hostCalls, harmless, framesSent, lastBuffers, tableGot, lastTable, Result.done.injEq, List.length_nil,
      Nat.add_zero, hi, true_and, List.append_nil, Option.getD_none]
    exact ⟨fun h => h ▸ rfl, fun h => h ▸ rfl⟩
  | cons c cs ih =>
    intro i i' hi
    cases c with
    | initBuffers s r =>
      simp only [Startup.hostCalls, Startup.hostCall]
      rw [ih ⟨s, r, i.operations, i.recvCh⟩ i' hi, tableGot_or]
      simp only [harmless, framesSent, lastBuffers, tableGot, lastTable]
      cases lastBuffers cs <;> simp
    | opList mem p n =>
      have hp := C17_exact_partial (Wasm.memRead mem p.toNat n.toNat)
      simp only [Startup.hostCalls, Startup.hostCall, harmless, framesSent, lastBuffers]
      rw [tableGot_or, ← hp]
      have ht : lastTable [HostCall.opList mem p n] = some (Wasm.memRead mem p.toNat n.toNat) := rfl
      have hg : tableGot i.operations [HostCall.opList mem p n] =
          (match Operations.fromBytes (Wasm.memRead mem p.toNat n.toNat) with | .ok t => t | _ => []) := by
        unfold tableGot; rw [ht]
      rw [hg]
      cases hf : Operations.fromBytes (Wasm.memRead mem p.toNat n.toNat) with
      | ok t =>
        dsimp only
        rw [ih ⟨i.sendPtr, i.recvPtr, t, i.recvCh⟩ i' hi]
        simp
      | err m =>
        dsimp only
        rw [ih ⟨i.sendPtr, i.recvPtr, [], i.recvCh⟩ i' hi]
        simp
      | panic => simp
    | send mem pos =>
      simp only [Startup.hostCalls, Startup.hostCall, harmless, framesSent, lastBuffers]
      rw [tableGot_or]
      have hg : tableGot i.operations [HostCall.send mem pos] = i.operations := rfl
      rw [hg]
      generalize Wasm.hostSend mem i.recvPtr.toNat pos = r
      obtain ⟨fs, bad⟩ := r
      dsimp only
      by_cases hl : i.recvCh.length + fs.length > 100
      · rw [if_pos hl]
        simp only [List.length_append]
        constructor
        · intro h; cases h
        · rintro ⟨-, h, -⟩; omega
      · rw [if_neg hl]
        cases bad with
        | true => simp
        | false =>
          rw [if_neg (by simp)]
          dsimp only
          rw [ih ⟨i.sendPtr, i.recvPtr, i.operations, i.recvCh ++ fs⟩ i' (by simp; omega)]
          simp [List.append_assoc, Nat.add_assoc]

theorem hostCalls_append (a b : List HostCall) : ∀ i : Inst, Startup.hostCalls i (a ++ b) =
    match Startup.hostCalls i a with | .done i => Startup.hostCalls i b | r => r := by
  induction a with
  | nil => intro i; rfl
  | cons c a ih =>
    intro i
    simp only [List.cons_append, Startup.hostCalls]
    cases Startup.hostCall i c with
    | done j => exact ih j
    | _ => rfl

/-- A call of the host does not crash it, and hangs only with more than 100 frames. -/
theorem hostCalls_other (cs : List HostCall) : ∀ i : Inst, Startup.hostCalls i cs ≠ .crash ∧
    (Startup.hostCalls i cs = .hang → i.recvCh.length + (framesSent i.recvPtr cs).length > 100) := by
  induction cs with
  | nil => intro i; exact ⟨fun h => (by cases h), fun h => (by cases h)⟩
  | cons c cs ih =>
    intro i
    cases c with
    | initBuffers s r => exact ih ⟨s, r, i.operations, i.recvCh⟩
    | opList mem p n =>
      simp only [Startup.hostCalls, Startup.hostCall, framesSent]
      cases Operations.fromBytes (Wasm.memRead mem p.toNat n.toNat) with
      | ok t => exact ih ⟨i.sendPtr, i.recvPtr, t, i.recvCh⟩
      | err m => exact ih ⟨i.sendPtr, i.recvPtr, [], i.recvCh⟩
      | panic => exact ⟨fun h => (by cases h), fun h => (by cases h)⟩
    | send mem pos =>
      simp only [Startup.hostCalls, Startup.hostCall, framesSent]
      generalize Wasm.hostSend mem i.recvPtr.toNat pos = r
      obtain ⟨fs, bad⟩ := r
      dsimp only
      by_cases hl : i.recvCh.length + fs.length > 100
      · rw [if_pos hl]
        exact ⟨fun h => (by cases h), fun _ => by simp only [List.length_append]; omega⟩
      · rw [if_neg hl]
        cases bad with
        | true => exact ⟨fun h => (by cases h), fun h => (by cases h)⟩
        | false =>
          have := ih ⟨i.sendPtr, i.recvPtr, i.operations, i.recvCh ++ fs⟩
          refine ⟨this.1, fun h => ?_⟩
          have := this.2 h
          simp only [List.length_append] at this ⊢
          omega

/-! ## Starting -/

/-- The start functions of the module do nothing the host is asked for, and return. -/
def quietStart (g : Guest) : Prop := g.start.calls = [] ∧ g.start.fails = false

theorem instantiate_quiet (g : Guest) : (Startup.instantiate ⟨false⟩ g).2 =
    if g.start.calls ≠ [] then .error Startup.recovered else if g.start.fails then .error "the guest failed"
    else Startup.newInstance g := by
  unfold Startup.instantiate
  simp only [Bool.false_eq_true, if_false]
  split
  · rfl
  · split <;> rfl

theorem instantiate_cases {g : Guest} {r : Result Inst} (h : (Startup.instantiate ⟨false⟩ g).2 = r) (hr : ∀ m, r ≠ .error m) :
    quietStart g ∧ Startup.newInstance g = r := by
  rw [instantiate_quiet] at h
  split at h
  · exact absurd h.symm (hr _)
  · rename_i h1
    split at h
    · exact absurd h.symm (hr _)
    · rename_i h2
      exact ⟨⟨by simpa using h1, by simpa using h2⟩, h⟩

theorem call_done_iff (i i' : Inst) (r : Run) :
    Startup.call i r = .done i' ↔ Startup.hostCalls i r.calls = .done i' ∧ r.fails = false := by
  unfold Startup.call
  cases Startup.hostCalls i r.calls with
  | done j => cases r.fails <;> simp
  | _ => simp

/-- C137, partial: exactly which modules are started, and what their instances have: those with the three functions whose start functions ask
the host for nothing, whose runs return and make only calls that the host can handle, and that send at most 100 frames before
they are started. The instance then has the buffers announced last, the table announced last, and the frames sent, in order. Missing: modules
that announce no buffers, no table or one that is not valid, or say that their initialisation failed, are started, too
(`C137_not_initialised_violated`, `C137_no_table_violated`), and some others crash the host or make it hang (`C137_crash_violated`,
`C137_hang_violated`). -/
theorem C137_partial (g : Guest) (i : Inst) :
    (Startup.instantiate ⟨false⟩ g).2 = .done i ↔
      quietStart g ∧ ∃ init opl, g.init = some init ∧ g.send = true ∧ g.opListRequest = some opl ∧
        init.fails = false ∧ opl.fails = false ∧ harmless 0 (init.calls ++ opl.calls) ∧
        (framesSent 0 (init.calls ++ opl.calls)).length ≤ 100 ∧
        i = ⟨((lastBuffers (init.calls ++ opl.calls)).getD (0, 0)).1, ((lastBuffers (init.calls ++ opl.calls)).getD (0, 0)).2,
          tableGot [] (init.calls ++ opl.calls), framesSent 0 (init.calls ++ opl.calls)⟩ := by
  have key : ∀ cs, Startup.hostCalls .new cs = .done i ↔ harmless 0 cs ∧ (framesSent 0 cs).length ≤ 100 ∧
      i = ⟨((lastBuffers cs).getD (0, 0)).1, ((lastBuffers cs).getD (0, 0)).2, tableGot [] cs, framesSent 0 cs⟩ := by
    intro cs
    have := hostCalls_done cs .new i (Nat.zero_le _)
    simpa [Inst.new] using this
  constructor
  · intro h
    obtain ⟨hq, h⟩ := instantiate_cases h (fun m hm => by cases hm)
    refine ⟨hq, ?_⟩
    unfold Startup.newInstance at h
    cases hi : g.init with
    | none => rw [hi] at h; cases h
    | some init =>
      rw [hi] at h
      dsimp only at h
      split at h
      · cases h
      rename_i hs
      split at h
      · rename_i j hj
        cases ho : g.opListRequest with
        | none => rw [ho] at h; cases h
        | some opl =>
          rw [ho] at h
          obtain ⟨h1, h2⟩ := (call_done_iff _ _ _).1 hj
          obtain ⟨h3, h4⟩ := (call_done_iff _ _ _).1 h
          have h5 : Startup.hostCalls .new (init.calls ++ opl.calls) = .done i := by rw [hostCalls_append, h1]; exact h3
          exact ⟨init, opl, rfl, by simpa using hs, rfl, h2, h4, (key _).1 h5⟩
      · rename_i hn
        exact absurd h (hn i)
  · rintro ⟨hq, init, opl, h1, h2, h3, h4, h5, h6⟩
    have h7 := (key _).2 h6
    rw [hostCalls_append] at h7
    rw [instantiate_quiet, if_neg (by simp [hq.1]), if_neg (by simp [hq.2])]
    unfold Startup.newInstance
    rw [h1]
    dsimp only
    rw [if_neg (by simp [h2])]
    cases h8 : Startup.hostCalls Inst.new init.calls with
    | done j =>
      rw [h8] at h7
      have h9 : Startup.call .new init = .done j := (call_done_iff _ _ _).2 ⟨h8, h4⟩
      rw [h9, h3]
      exact (call_done_iff _ _ _).2 ⟨h7, h5⟩
    | _ => rw [h8] at h7; cases h7

/-- C137, partial, guests that use this library: `__wasmrs_init` announces the buffers, `__wasmrs_op_list_request` the table of the exported
and imported operations, wherever in memory it is. The instance has exactly these. -/
theorem C137_guest_partial (g : Guest) (hq : quietStart g) (hs : g.send = true) (sp rp : UInt32) (res res' : Bool)
    (t : Operations.Table) (hok : ∀ o ∈ t, opOk o) (hsz : tableLength t < 2^32) (b before after : Bytes)
    (hb : Operations.toBytes t = .ok b) (hl : b.length < 2^32) (hp : before.length < 2^32)
    (hi : g.init = some ⟨[.initBuffers sp rp], false, res⟩)
    (ho : g.opListRequest = some ⟨[.opList (before ++ b ++ after) (UInt32.ofNat before.length) (UInt32.ofNat b.length)], false, res'⟩) :
    (Startup.instantiate ⟨false⟩ g).2 = .done ⟨sp, rp, t, []⟩ := by
  obtain ⟨h1, h2⟩ := C15_table_roundtrip t hok hsz
  rw [h1] at hb
  cases hb
  generalize Spec.tableWire (t.map fun o => (o, [])) = b at h2 hl ho
  have hm : Wasm.memRead (before ++ b ++ after) (UInt32.ofNat before.length).toNat (UInt32.ofNat b.length).toNat = b := by
    rw [UInt32.toNat_ofNat_lt hl, UInt32.toNat_ofNat_lt hp, Wasm.memRead, if_pos (by simp only [List.length_append]; omega),
      List.append_assoc, List.drop_left, List.take_left]
  rw [instantiate_quiet, if_neg (by simp [hq.1]), if_neg (by simp [hq.2])]
  simp only [Startup.newInstance, hi, ho, hs, Startup.call, Startup.hostCalls, Startup.hostCall, hm, h2, Inst.new]
  rfl

/-- C137 fails: a module that is complete but for `__wasmrs_op_list_request` crashes the host, and only such a module does. -/
theorem C137_crash_violated (g : Guest) :
    (Startup.instantiate ⟨false⟩ g).2 = .crash ↔ quietStart g ∧ g.send = true ∧ g.opListRequest = none ∧
      ∃ init, g.init = some init ∧ init.fails = false ∧ harmless 0 init.calls ∧ (framesSent 0 init.calls).length ≤ 100 := by
  have nocrash : ∀ i r, Startup.call i r ≠ .crash := by
    intro i r h
    unfold Startup.call at h
    have := (hostCalls_other r.calls i).1
    cases hc : Startup.hostCalls i r.calls with
    | done j => rw [hc] at h; dsimp only at h; split at h <;> cases h
    | error m => rw [hc] at h; cases h
    | hang => rw [hc] at h; cases h
    | crash => exact this hc
  constructor
  · intro h
    obtain ⟨hq, h⟩ := instantiate_cases h (fun m hm => by cases hm)
    refine ⟨hq, ?_⟩
    unfold Startup.newInstance at h
    cases hi : g.init with
    | none => rw [hi] at h; cases h
    | some init =>
      rw [hi] at h
      dsimp only at h
      split at h
      · cases h
      rename_i hs
      split at h
      · rename_i j hj
        cases ho : g.opListRequest with
        | none =>
          obtain ⟨h1, h2⟩ := (call_done_iff _ _ _).1 hj
          have h3 := (hostCalls_done init.calls .new j (Nat.zero_le _)).1 h1
          exact ⟨by simpa using hs, rfl, init, rfl, h2, h3.1, by simpa [Inst.new] using h3.2.1⟩
        | some opl =>
          rw [ho] at h
          exact absurd h (nocrash _ _)
      · exact absurd h (nocrash _ _)
  · rintro ⟨hq, h1, h2, init, h3, h4, h5, h6⟩
    rw [instantiate_quiet, if_neg (by simp [hq.1]), if_neg (by simp [hq.2])]
    have h7 := (hostCalls_done init.calls .new _ (Nat.zero_le _)).2 ⟨h5, by simpa [Inst.new] using h6, rfl⟩
    have h8 := (call_done_iff _ _ _).2 ⟨h7, h4⟩
    unfold Startup.newInstance
    rw [h3]
    dsimp only
    rw [if_neg (by simp [h1]), h8, h2]

/-- C137 fails: a module whose initialisation sends more than 100 frames makes the host hang. -/
theorem C137_hang_violated (g : Guest) (hq : quietStart g) (hs : g.send = true) (sp rp pos : UInt32) (mem : Bytes) (more : List HostCall)
    (fails res : Bool) (hi : g.init = some ⟨.initBuffers sp rp :: .send mem pos :: more, fails, res⟩)
    (hn : (Wasm.hostSend mem rp.toNat pos).1.length > 100) : (Startup.instantiate ⟨false⟩ g).2 = .hang := by
  rw [instantiate_quiet, if_neg (by simp [hq.1]), if_neg (by simp [hq.2])]
  have h1 : Startup.call .new ⟨.initBuffers sp rp :: .send mem pos :: more, fails, res⟩ = .hang := by
    simp only [Startup.call, Startup.hostCalls, Startup.hostCall, Inst.new, List.length_nil, Nat.zero_add]
    rw [if_pos hn]
  unfold Startup.newInstance
  rw [hi]
  dsimp only
  rw [if_neg (by simp [hs]), h1]

/-- 101 empty frames at the beginning of memory. -/
example : (Wasm.hostSend ([] ++ (List.replicate 101 []).flatMap framed ++ []) ([] : Bytes).length
    (UInt32.ofNat ((List.replicate 101 []).flatMap framed).length)).1.length = 101 := by
  have hl : ((List.replicate 101 ([] : Bytes)).flatMap framed).length < 2^32 := by decide +kernel
  rw [C51_host_splits (List.replicate 101 []) [] [] (fun f hf => by rw [List.eq_of_mem_replicate hf]; decide) hl]
  rfl

/-- C137 fails: what `__wasmrs_init` returns makes no difference. -/
theorem C137_not_initialised_violated (g : Guest) (init : Run) (hi : g.init = some init) (b : Bool) :
    Startup.instantiate ⟨false⟩ { g with init := some { init with result := b } } = Startup.instantiate ⟨false⟩ g := by
  unfold Startup.instantiate Startup.newInstance
  rw [hi]
  rfl

/-- C137 fails: a module that announces a table with another magic number or version is started, without operations. -/
theorem C137_no_table_violated (g : Guest) (hq : quietStart g) (hs : g.send = true) (sp rp p n : UInt32) (mem : Bytes) (res res' : Bool)
    (hi : g.init = some ⟨[.initBuffers sp rp], false, res⟩) (ho : g.opListRequest = some ⟨[.opList mem p n], false, res'⟩)
    (h10 : 10 ≤ (Wasm.memRead mem p.toNat n.toNat).length)
    (hbad : (Wasm.memRead mem p.toNat n.toNat).take 4 ≠ [0x00, 0x77, 0x72, 0x73] ∨
      beNat (((Wasm.memRead mem p.toNat n.toNat).drop 4).take 2) ≠ 1) :
    (Startup.instantiate ⟨false⟩ g).2 = .done ⟨sp, rp, [], []⟩ := by
  obtain ⟨h1, h2⟩ := C16_table_rejects _ h10
  have he : ∃ m, Operations.fromBytes (Wasm.memRead mem p.toNat n.toNat) = .err m := by
    by_cases hm : (Wasm.memRead mem p.toNat n.toNat).take 4 = [0x00, 0x77, 0x72, 0x73]
    · rcases hbad with h | h
      · exact absurd hm h
      · obtain ⟨m, h3, -⟩ := h2.2 ⟨hm, h⟩
        exact ⟨m, h3⟩
    · exact ⟨_, h1.2 hm⟩
  obtain ⟨m, he⟩ := he
  rw [instantiate_quiet, if_neg (by simp [hq.1]), if_neg (by simp [hq.2])]
  simp only [Startup.newInstance, hi, ho, hs, Startup.call, Startup.hostCalls, Startup.hostCall, he, Inst.new]
  rfl

/-- C137, a module whose start functions call the host (`main` of a Go guest that makes a call, say) is refused. -/
theorem C137_start_refused (g : Guest) (h : g.start.calls ≠ []) :
    ∃ m, Startup.instantiate ⟨false⟩ g = (⟨false⟩, .error m) := by
  refine ⟨Startup.recovered, ?_⟩
  unfold Startup.instantiate
  rw [if_neg (by simp), if_pos h]

/-- A run that does nothing. -/
def noRun : Run := ⟨[], false, true⟩

/-- C137 fails: a module with `__wasmrs_init` and `__wasmrs_send` only. -/
theorem C137_violated : ¬ C137_statement := by
  intro h
  exact (h ⟨noRun, some noRun, true, none⟩).1 (by decide)

/-- A guest with one exported operation. -/
def oneOpGuest : Guest :=
  ⟨noRun, some ⟨[.initBuffers 16 32], false, true⟩, true,
   some ⟨[.opList ([9, 9] ++ [0, 0x77, 0x72, 0x73, 0, 1, 0, 0, 0, 1, 1, 1, 0, 0, 0, 0, 0, 1, 97, 0, 1, 98, 0, 0]) 2 24], false, true⟩⟩

example : (Startup.instantiate ⟨false⟩ oneOpGuest).2 = .done ⟨16, 32, [⟨0, 1, 1, [97], [98]⟩], []⟩ := by decide +kernel

example : quietStart oneOpGuest ∧ Operations.toBytes [⟨0, 1, 1, [97], [98]⟩] =
    .ok [0, 0x77, 0x72, 0x73, 0, 1, 0, 0, 0, 1, 1, 1, 0, 0, 0, 0, 0, 1, 97, 0, 1, 98, 0, 0] := ⟨⟨rfl, rfl⟩, by decide +kernel⟩

/-! ## Several modules -/

theorem taken_refuses (gs : List Guest) :
    Startup.instantiateAll ⟨true⟩ gs = gs.map fun _ => .error "module[test] has already been instantiated" := by
  induction gs with
  | nil => rfl
  | cons g gs ih =>
    simp only [Startup.instantiateAll, Startup.instantiate, if_true, ih, List.map_cons]

/-- C138, partial: modules whose start functions fail do no harm, and the first whose start functions succeed does what it does on a host of
its own. Missing: all later ones, which are refused, whether the first one could be used or not. -/
theorem C138_partial (failing : List Guest) (g : Guest) (later : List Guest)
    (hf : ∀ x ∈ failing, ¬ quietStart x) (hq : quietStart g)
    (hc : (Startup.instantiate ⟨false⟩ g).2 ≠ .crash ∧ (Startup.instantiate ⟨false⟩ g).2 ≠ .hang) :
    Startup.instantiateAll ⟨false⟩ (failing ++ g :: later) =
      failing.map (fun x => (Startup.instantiate ⟨false⟩ x).2) ++ (Startup.instantiate ⟨false⟩ g).2 ::
        later.map fun _ => .error "module[test] has already been instantiated" := by
  induction failing with
  | nil =>
    have h1 : Startup.instantiate ⟨false⟩ g = (⟨true⟩, (Startup.instantiate ⟨false⟩ g).2) := by
      unfold Startup.instantiate
      rw [if_neg (by simp), if_neg (by simp [hq.1]), if_neg (by simp [hq.2])]
    simp only [List.nil_append, Startup.instantiateAll, List.map_nil]
    generalize (Startup.instantiate ⟨false⟩ g).2 = r at hc h1
    rw [h1]
    cases r with
    | crash => exact absurd rfl hc.1
    | hang => exact absurd rfl hc.2
    | _ => simp only [taken_refuses]
  | cons x failing ih =>
    have ih := ih fun y hy => hf y (List.mem_cons_of_mem _ hy)
    have hx := hf x List.mem_cons_self
    have h1 : ∃ m, Startup.instantiate ⟨false⟩ x = (⟨false⟩, .error m) := by
      by_cases h : x.start.calls = []
      · have h2 : x.start.fails = true := by
          cases h3 : x.start.fails with
          | true => rfl
          | false => exact absurd ⟨h, h3⟩ hx
        refine ⟨"the guest failed", ?_⟩
        unfold Startup.instantiate
        rw [if_neg (by simp), if_neg (by simp [h]), if_pos h2]
      · exact C137_start_refused x h
    obtain ⟨m, h1⟩ := h1
    simp only [List.cons_append, Startup.instantiateAll, h1, ih, List.map_cons]

/-- C138 fails: a second module is refused, whatever the first, after its start, came to. -/
theorem C138_violated : ¬ C138_statement := by
  intro h
  have := h [oneOpGuest, oneOpGuest] (by decide +kernel)
  exact absurd this (by decide +kernel)

end Verif.Props
