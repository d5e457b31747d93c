import Verif.Props.Slices
import Verif.Props.Scanner
/-
Further parts of C26, C27 (streams made with `Error`), C28 (mapped streams whose subscriber takes no
elements), C29 (the demand of subscribers that do not ask) and C49 (how a broken connection ends).
-/
set_option autoImplicit false
namespace Verif.Props
open Verif
open Verif.Mono (Err Signal Transform)
open Verif.Flux (Op SinkCall)

section
variable {T : Type}

/-! ## C26, C27: `flux.Error` -/

/-- C26: the subscriber of `flux.Error(e)` sees what the subscriber of a stream sees whose source fails
at once with `e`. -/
theorem C26_error_flux (e : Err) (inst : Flux.Installed) :
    fluxSignals (Flux.errorSubscribe (T := T) e inst) =
      fluxSignals (Flux.run (T := T) inst [] [.error e []]).2 := by
  rw [adapter_signals _ _ _ (by simp)]
  cases h : inst.onError <;> simp [Flux.errorSubscribe, fluxSignals, untilEnd, isTerminal, fluxExpected, h]

example : fluxSignals (Flux.errorSubscribe (T := Nat) (some "no") ⟨true, true, true, false, true, false⟩) =
    [.error (some "no")] := by decide

/-- C27 fails for `flux.Error`: it never calls Finally. -/
theorem C27_error_flux_violated (e : Err) (inst : Flux.Installed) :
    finCount (Flux.errorSubscribe (T := T) e inst) = 0 ∧
    (inst.fin = true → finCount (Flux.run (T := T) inst [] [.error e []]).2 = 1) := by
  refine ⟨?_, fun hf => ?_⟩
  · unfold Flux.errorSubscribe; split <;> rfl
  · cases h : inst.onError <;>
      simp [Flux.run, Flux.runFrom, Flux.step, Flux.error, Flux.State.init, Flux.calls, Flux.doFinally,
        finCount, hf, h]

example : (⟨true, true, true, false, true, false⟩ : Flux.Installed).fin = true := rfl

/-! ## C28 -/

/-- C28: a transform that fails is reported whether or not the subscriber takes elements. -/
theorem C28_failure_reported {D : Type} (f : Transform T D) (inst : Flux.Installed) (cbs : List Nat)
    (ops : List (Op T)) (v : T) (a b : List Flux.Call) (e : String)
    (hopen : ¬ fluxOver { inst with onNext := true } cbs ops) (hf : f v = .error e) :
    (inst.onError = true → .error (some e) ∈ mappedTrace f inst cbs (ops ++ [.next v a b])) ∧
    (inst.fin = true → .fin .error ∈ mappedTrace f inst cbs (ops ++ [.next v a b])) := by
  have hm : (.next v : Flux.Ev T) ∈ (Flux.run { inst with onNext := true } cbs (ops ++ [.next v a b])).2 := by
    have h := C26_flux_signals_step { inst with onNext := true } cbs ops (.next v a b)
    rw [if_neg hopen] at h
    have : (.next v : Flux.Ev T) ∈
        fluxSignals (Flux.run { inst with onNext := true } cbs (ops ++ [.next v a b])).2 := by
      rw [h]; simp [fluxExpected]
    exact (List.mem_filter.mp this).1
  refine ⟨fun h => ?_, fun h => ?_⟩
  · exact List.mem_flatMap.mpr ⟨_, hm, by simp [Flux.mapEv, hf, h]⟩
  · exact List.mem_flatMap.mpr ⟨_, hm, by simp [Flux.mapEv, hf, h]⟩

/-- A subscriber without OnNext. -/
example : .error (some "small") ∈ mappedTrace (fun n : Nat => if n < 5 then .error "small" else .ok n)
    ⟨false, true, true, false, true, false⟩ [] [.next 7 [] [], .next 3 [] []] :=
  (C28_failure_reported _ _ [] [.next 7 [] []] 3 [] [] "small"
    (by rintro (⟨op, h, h'⟩ | h)
        · simp only [List.mem_singleton] at h; subst h; cases h'
        · revert h; decide) rfl).1 rfl

/-! ## C29 -/

/-- What the source is asked for. -/
def demandsOf (t : List (Flux.Ev T)) : List Int :=
  t.filterMap fun | .upRequest n => some n | _ => none

/-- C29: a subscriber that leaves the demand to the library (no OnRequest, NoRequest not set) gets all
elements of a slice of fewer than 2^31 elements, and the completion. -/
theorem C29_unasked (vs : List T) (hv : vs.length < 2 ^ 31) (inst : Flux.Installed) (cbs : List Nat)
    (c : Bool) (hn : inst.onNext = true) (hc : inst.onComplete = true) (hr : inst.onRequest = false)
    (hq : inst.noRequest = false) :
    let asked := demandsOf (Flux.run (T := T) inst cbs [.onSubscribe c, .start []]).2
    asked = [2 ^ 31 - 1] ∧
    fluxSignals (Flux.run inst cbs ([.onSubscribe c, .start []] ++ (serveFromSlice vs asked).map sinkOp)).2 =
      vs.map .next ++ [.complete] := by
  have h1 : demandsOf (Flux.run (T := T) inst cbs [.onSubscribe c, .start []]).2 = [2 ^ 31 - 1] := by
    simp [Flux.run, Flux.runFrom, Flux.step, Flux.State.init, Flux.handleOnSubscribe, Flux.call, hr, hq,
      demandsOf, Flux.requestMax]
  refine ⟨h1, ?_⟩
  rw [h1, adapter_signals]
  · have h2 : (untilEnd ([.onSubscribe c, .start []] ++
        (serveFromSlice vs [2 ^ 31 - 1]).map sinkOp)).flatMap (fluxExpected inst) =
        (untilEnd ((serveFromSlice vs [2 ^ 31 - 1]).map sinkOp)).flatMap (fluxExpected inst) := by
      simp [untilEnd, isTerminal, fluxExpected]
    rw [h2, serve_untilEnd vs _ inst hn hc]
    have h3 : totalRequested [2 ^ 31 - 1] = 2 ^ 31 - 1 := by simp [totalRequested]
    unfold sliceExpected
    rw [h3, List.take_of_length_le (by omega), if_pos ⟨by simp, by omega⟩]
  · intro op hop
    rcases List.mem_append.mp hop with h | h
    · simp only [List.mem_cons, List.not_mem_nil, or_false] at h
      rcases h with rfl | rfl <;> simp
    · obtain ⟨c, -, rfl⟩ := List.mem_map.mp h
      cases c <;> simp [sinkOp]

example : fluxSignals (Flux.run ⟨true, true, true, false, true, false⟩ []
    ([.onSubscribe true, .start []] ++ (serveFromSlice [4, 5]
      (demandsOf (Flux.run (T := Nat) ⟨true, true, true, false, true, false⟩ []
        [.onSubscribe true, .start []]).2)).map sinkOp)).2 = [.next 4, .next 5, .complete] :=
  (C29_unasked [4, 5] (by decide) _ [] true rfl rfl rfl rfl).2

end

/-! ## C49 -/

/-- The text by which a connection closed at this end is recognised. -/
def closedText : String := "use of closed network connection"

/-- C49: if the connection breaks with the error text `e` after the frames, the receiver has got the
frames, and then its own closing (a text that contains `closedText`) counts as a regular end and everything
else is reported as it is. (Partial as `C49_partial`.) -/
theorem C49_broken_partial (fs : List Bytes) (part : Bytes) (segs : List Bytes) (e : String)
    (hf : ∀ f ∈ fs, 6 ≤ f.length ∧ f.length < 2^24) (hp : Incomplete part) (hs : ∀ b ∈ segs, b ≠ [])
    (h : segs.flatten = fs.flatMap framed ++ part) :
    ((∃ a b : String, e = a ++ closedText ++ b) →
      Receives (segs.map .data ++ [.fail e]) fs .eof) ∧
    ((¬ ∃ a b : String, e = a ++ closedText ++ b) → e ≠ "EOF" →
      Receives (segs.map .data ++ [.fail e]) fs (.err e)) := by
  have key : Scanner.isClosedErr e = true ↔ ∃ a b : String, e = a ++ closedText ++ b := by
    unfold Scanner.isClosedErr
    rw [decide_eq_true_iff]
    constructor
    · rintro ⟨a, b, hab⟩
      refine ⟨String.ofList a, String.ofList b, ?_⟩
      apply String.toList_inj.mp
      simp [closedText, ← hab]
    · rintro ⟨a, b, rfl⟩
      exact ⟨a.toList, b.toList, by simp [closedText]⟩
  refine ⟨fun hc => ?_, fun hc he => ?_⟩
  · exact C49_partial fs part segs hf hp hs h _ _ (.closed e (key.mpr hc))
  · exact C49_partial fs part segs hf hp hs h _ _
      (.fail e (by cases hx : Scanner.isClosedErr e with
        | false => rfl
        | true => exact absurd (key.mp hx) hc) he)

/-- One frame, then this end closes the connection. -/
example : Receives [.data (framed [1, 2, 3, 4, 5, 6]),
    .fail "read tcp 127.0.0.1:7878: use of closed network connection"] [[1, 2, 3, 4, 5, 6]] .eof :=
  (C49_broken_partial [[1, 2, 3, 4, 5, 6]] [] [framed [1, 2, 3, 4, 5, 6]] _ (by simp)
    ⟨[0], by decide, by decide, by decide, by decide⟩ (by simp [framed, be24]) (by simp)).1
    ⟨"read tcp 127.0.0.1:7878: ", "", by decide⟩

end Verif.Props
