import Verif.Props.Slices
import Verif.Model.Counter
/-
Property C130: the counter of the example host.
-/
set_option autoImplicit false
namespace Verif.Props
open Verif
open Verif.Flux (SinkCall)

/-! ## Specification -/

/-- The numbers from 1 to `to`. -/
def oneTo (to : UInt64) : List UInt64 := (List.range' 1 to.toNat).map UInt64.ofNat

/-- What the subscriber of a counter to `to` is to see after these requests: as many numbers as it requested, from 1 on, and
completion once `to` has been sent and a request was served. -/
def countExpected (to : UInt64) (ns : List Int) : List (Flux.Ev UInt64) :=
  ((oneTo to).take (totalRequested ns)).map .next ++
    if ns ≠ [] ∧ to.toNat ≤ totalRequested ns then [.complete] else []

/-- C130 as stated in English. -/
def C130_statement : Prop :=
  ∀ (to : UInt64) (ns : List Int) (inst : Flux.Installed) (cbs : List Nat), inst.onNext = true → inst.onComplete = true →
    fluxSignals (Flux.run inst cbs ((Counter.serve to ns).map sinkOp)).2 = countExpected to ns

/-! ## The counter is the stream of a slice -/

/-- The numbers from `i` to `to`. -/
def leftOf (to i : UInt64) : List UInt64 := (List.range' i.toNat (to.toNat + 1 - i.toNat)).map UInt64.ofNat

theorem count_loop (to : UInt64) (ht : to.toNat < 2^64 - 1) (k : Nat) (i : UInt64) :
    Flux.fromSliceLoop k (leftOf to i) = (leftOf to (Counter.loop to k i).1, (Counter.loop to k i).2) := by
  induction k generalizing i with
  | zero =>
    unfold Counter.loop
    cases leftOf to i <;> rfl
  | succ k ih =>
    unfold Counter.loop
    by_cases h : i ≤ to
    · rw [if_pos h]
      rw [UInt64.le_iff_toNat_le] at h
      have hi : (i + 1).toNat = i.toNat + 1 := by
        rw [UInt64.toNat_add]
        exact Nat.mod_eq_of_lt (by show i.toNat + 1 < 2^64; omega)
      have hl : leftOf to i = i :: leftOf to (i + 1) := by
        unfold leftOf
        rw [hi, show to.toNat + 1 - i.toNat = (to.toNat + 1 - (i.toNat + 1)) + 1 by omega, List.range'_succ, List.map_cons,
          UInt64.ofNat_toNat]
      rw [hl]
      show (let r := Flux.fromSliceLoop k (leftOf to (i + 1)); (r.1, SinkCall.next i :: r.2)) = _
      rw [ih]
    · rw [if_neg h]
      rw [UInt64.le_iff_toNat_le] at h
      have hl : leftOf to i = [] := by
        unfold leftOf
        rw [show to.toNat + 1 - i.toNat = 0 by omega]
        rfl
      rw [hl]
      rfl

theorem count_request (to i : UInt64) (ht : to.toNat < 2^64 - 1) (n : Int) :
    Flux.fromSlice (leftOf to i) n = (leftOf to (Counter.request to i n).1, (Counter.request to i n).2) := by
  unfold Flux.fromSlice Counter.request
  dsimp only
  rw [count_loop to ht]
  dsimp only
  congr 2
  have hl : (leftOf to (Counter.loop to n.toNat i).1).length = to.toNat + 1 - (Counter.loop to n.toNat i).1.toNat := by
    unfold leftOf
    rw [List.length_map, List.length_range']
  rw [hl]
  by_cases h : to < (Counter.loop to n.toNat i).1
  · rw [if_pos h]
    rw [UInt64.lt_iff_toNat_lt] at h
    rw [if_pos (by omega)]
  · rw [if_neg h]
    rw [UInt64.lt_iff_toNat_lt] at h
    rw [if_neg (by omega)]

theorem count_serve (to i : UInt64) (ht : to.toNat < 2^64 - 1) (ns : List Int) :
    Counter.serveFrom to i ns = serveFromSlice (leftOf to i) ns := by
  induction ns generalizing i with
  | nil => rfl
  | cons n ns ih =>
    unfold Counter.serveFrom serveFromSlice
    rw [count_request to i ht, ih]

/-! ## C130 -/

/-- C130, partial: the counter counts to every number but the greatest. Missing: 2^64 - 1 (`C130_violated`). -/
theorem C130_partial (to : UInt64) (ht : to.toNat < 2^64 - 1) (ns : List Int) (inst : Flux.Installed) (cbs : List Nat)
    (hn : inst.onNext = true) (hc : inst.onComplete = true) :
    fluxSignals (Flux.run inst cbs ((Counter.serve to ns).map sinkOp)).2 = countExpected to ns := by
  have hl : leftOf to 1 = oneTo to := by
    unfold leftOf oneTo
    rw [show (1 : UInt64).toNat = 1 from rfl, show to.toNat + 1 - 1 = to.toNat by omega]
  unfold Counter.serve
  rw [count_serve to 1 ht, C29_from_slice _ ns inst cbs hn hc, hl]
  unfold sliceExpected countExpected
  have : (oneTo to).length = to.toNat := by unfold oneTo; rw [List.length_map, List.length_range']
  rw [this]

/-! ## Counting to 2^64 - 1 -/

/-- Nothing is greater than 2^64 - 1, so that the counter never completes. -/
theorem count_greatest_never (i : UInt64) (ns : List Int) : ∀ c ∈ Counter.serveFrom (-1) i ns, c ≠ SinkCall.complete := by
  have hloop : ∀ (k : Nat) (i : UInt64), ∀ c ∈ (Counter.loop (-1) k i).2, c ≠ SinkCall.complete := by
    intro k
    induction k with
    | zero => intro i c h; cases h
    | succ k ih =>
      intro i c h
      unfold Counter.loop at h
      split at h
      · rcases List.mem_cons.1 h with rfl | h
        · intro e; cases e
        · exact ih _ c h
      · cases h
  induction ns generalizing i with
  | nil => intro c h; cases h
  | cons n ns ih =>
    intro c h
    unfold Counter.serveFrom at h
    rcases List.mem_append.1 h with h | h
    · unfold Counter.request at h
      dsimp only at h
      have hm : ¬ ((-1 : UInt64) < (Counter.loop (-1) n.toNat i).1) := by
        rw [UInt64.lt_iff_toNat_lt]
        have := (Counter.loop (-1) n.toNat i).1.toNat_lt
        have e : (-1 : UInt64).toNat = 2^64 - 1 := rfl
        omega
      rw [if_neg hm, List.append_nil] at h
      exact hloop _ _ c h
    · exact ih _ c h

/-- After 2^64 - 1 the counter goes on with 0. -/
example : Counter.request (-1) (-1) 2 = (1, [.next (-1), .next 0]) := by decide

/-- C130 fails for 2^64 - 1: when all numbers have been requested and sent the stream does not complete. -/
theorem C130_violated : ¬ C130_statement := by
  intro h
  have h1 := h (-1) [2^63 - 1, 2^63 - 1, 1] ⟨true, true, true, false, false, false⟩ [] rfl rfl
  rw [adapter_signals] at h1
  · have hm : Flux.Ev.complete ∈ countExpected (-1) [2^63 - 1, 2^63 - 1, 1] := by
      unfold countExpected
      rw [if_pos ⟨by simp, by decide⟩]
      simp
    rw [← h1, List.mem_flatMap] at hm
    obtain ⟨op, ho, he⟩ := hm
    have hsub : ∀ l : List (Flux.Op UInt64), ∀ op ∈ untilEnd l, op ∈ l := by
      intro l
      induction l with
      | nil => intro op h; exact h
      | cons a l ih =>
        intro op h
        unfold untilEnd at h
        split at h
        · rw [List.mem_singleton.1 h]; exact List.mem_cons_self
        · rcases List.mem_cons.1 h with rfl | h
          · exact List.mem_cons_self
          · exact List.mem_cons_of_mem _ (ih op h)
    have := hsub _ op ho
    rw [List.mem_map] at this
    obtain ⟨c, hc, rfl⟩ := this
    have := count_greatest_never 1 _ c hc
    cases c with
    | next v => simp [sinkOp, fluxExpected] at he
    | complete => exact this rfl
  · intro op hop
    simp only [List.mem_map] at hop
    obtain ⟨c, -, rfl⟩ := hop
    cases c <;> simp [sinkOp]

/-! ## Cases -/

/-- Counting to 5 with requests for 2, 0, -1 and 4. -/
example : countExpected 5 [2, 0, -1, 4] = [.next 1, .next 2, .next 3, .next 4, .next 5, .complete] ∧
    (5 : UInt64).toNat < 2^64 - 1 := by decide

example : fluxSignals (Flux.run ⟨true, true, true, false, false, false⟩ [] ((Counter.serve 3 [1, 1]).map sinkOp)).2 =
    [.next 1, .next 2] := by
  rw [C130_partial 3 (by decide) _ _ _ rfl rfl]; decide

end Verif.Props
