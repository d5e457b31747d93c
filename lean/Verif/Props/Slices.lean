import Verif.Props.Flux
/-
Properties C29, C30: streams backed by slices.
-/
set_option autoImplicit false
namespace Verif.Props
open Verif
open Verif.Flux (Op SinkCall Sync.St Sync.Sub)

section
variable {T : Type}

/-! ## C29 -/

/-- The sink calls as signals to the stream's subscriber. -/
def sinkOp : SinkCall T → Op T
  | .next v => .next v [] []
  | .complete => .complete []

/-- Everything `FromSlice(vs)` calls on its sink while it serves these requests, one by one. -/
def serveFromSlice : List T → List Int → List (SinkCall T)
  | _, [] => []
  | vs, n :: ns => (Flux.fromSlice vs n).2 ++ serveFromSlice (Flux.fromSlice vs n).1 ns

/-- The same for `SliceResponse(sink, vs)`. -/
def serveSliceResponse : List T → List Int → Go (List (SinkCall T))
  | _, [] => .ok []
  | vs, n :: ns => do
    let r ← Flux.sliceResponse vs n
    let rest ← serveSliceResponse r.1 ns
    .ok (r.2 ++ rest)

/-- The number of elements requested. -/
def totalRequested (ns : List Int) : Nat := (ns.map Int.toNat).sum

/-- What the subscriber is to see: as many elements as it requested, in order, and completion once
all were emitted and a request was served. -/
def sliceExpected (vs : List T) (ns : List Int) : List (Flux.Ev T) :=
  (vs.take (totalRequested ns)).map .next ++
    if ns ≠ [] ∧ vs.length ≤ totalRequested ns then [.complete] else []

theorem fromSliceLoop_eq (i : Nat) (vs : List T) :
    Flux.fromSliceLoop i vs = (vs.drop i, (vs.take i).map .next) := by
  induction i generalizing vs with
  | zero => simp [Flux.fromSliceLoop]
  | succ i ih => cases vs with
    | nil => simp [Flux.fromSliceLoop]
    | cons v vs => simp [Flux.fromSliceLoop, ih]

theorem fromSlice_eq (vs : List T) (n : Int) :
    Flux.fromSlice vs n = (vs.drop n.toNat, (vs.take n.toNat).map .next ++
      if vs.length ≤ n.toNat then [.complete] else []) := by
  simp only [Flux.fromSlice, fromSliceLoop_eq, List.length_drop]
  congr 2
  by_cases h : vs.length ≤ n.toNat
  · rw [if_pos h, if_pos (by omega)]
  · rw [if_neg h, if_neg (by omega)]

theorem sliceResponse_eq (vs : List T) (n : Int) (hn : 0 ≤ n) :
    Flux.sliceResponse vs n = .ok (Flux.fromSlice vs n) := by
  rw [fromSlice_eq]
  unfold Flux.sliceResponse
  simp only
  by_cases h : n < vs.length
  · rw [if_pos h, if_neg (by omega)]
    simp only [List.length_drop]
    congr 3
    rw [if_neg (by omega), if_neg (by omega)]
  · rw [if_neg h, if_neg (by omega)]
    simp only [Int.toNat_natCast, List.take_length, List.drop_length]
    rw [if_pos List.length_nil, if_pos (by omega), List.take_of_length_le (by omega),
      List.drop_of_length_le (by omega)]

theorem untilEnd_nexts (vs : List T) (r : List (Op T)) :
    untilEnd ((vs.map SinkCall.next).map sinkOp ++ r) =
      (vs.map SinkCall.next).map sinkOp ++ untilEnd r := by
  induction vs with
  | nil => rfl
  | cons v vs ih => simp [untilEnd, sinkOp, isTerminal] at ih ⊢; exact ih

theorem serve_untilEnd (vs : List T) (ns : List Int) (inst : Flux.Installed)
    (hn : inst.onNext = true) (hc : inst.onComplete = true) :
    (untilEnd ((serveFromSlice vs ns).map sinkOp)).flatMap (fluxExpected inst) =
      sliceExpected vs ns := by
  have nexts : ∀ l : List T, ((l.map SinkCall.next).map sinkOp).flatMap (fluxExpected inst) =
      l.map .next := by
    intro l; induction l with
    | nil => rfl
    | cons v l ih => simp [sinkOp, fluxExpected, hn] at ih ⊢; exact ih
  induction ns generalizing vs with
  | nil => simp [serveFromSlice, untilEnd, sliceExpected, totalRequested]
  | cons n ns ih =>
    simp only [serveFromSlice, fromSlice_eq, List.map_append]
    have ht : totalRequested (n :: ns) = n.toNat + totalRequested ns := by simp [totalRequested]
    rw [List.append_assoc, untilEnd_nexts, List.flatMap_append, nexts]
    unfold sliceExpected
    rw [ht]
    by_cases h : vs.length ≤ n.toNat
    · rw [if_pos h, if_pos ⟨by simp, by omega⟩, List.take_of_length_le h,
        List.take_of_length_le (by omega)]
      simp [untilEnd, sinkOp, isTerminal, fluxExpected, hc]
    · rw [if_neg h, List.map_nil, List.nil_append, ih]
      unfold sliceExpected
      rw [← List.append_assoc, List.take_add, List.map_append]
      congr 1
      by_cases h2 : vs.length ≤ n.toNat + totalRequested ns
      · rw [if_pos (c := n :: ns ≠ [] ∧ _) ⟨by simp, h2⟩, if_pos]
        refine ⟨?_, by simp; omega⟩
        rintro rfl
        simp [totalRequested] at h2; omega
      · rw [if_neg (c := n :: ns ≠ [] ∧ _) (fun x => h2 x.2), if_neg]
        rintro ⟨-, x⟩; simp at x; omega

/-- C29 for `FromSlice`, for any requests (a negative one counts as nothing). Since it holds for
every list of requests, it holds at every moment. -/
theorem C29_from_slice (vs : List T) (ns : List Int) (inst : Flux.Installed) (cbs : List Nat)
    (hn : inst.onNext = true) (hc : inst.onComplete = true) :
    fluxSignals (Flux.run inst cbs ((serveFromSlice vs ns).map sinkOp)).2 = sliceExpected vs ns := by
  rw [adapter_signals, serve_untilEnd vs ns inst hn hc]
  intro op hop
  simp only [List.mem_map] at hop
  obtain ⟨c, -, rfl⟩ := hop
  cases c <;> simp [sinkOp]

/-- C29 for `SliceResponse`: no crash, and the same elements. -/
theorem C29_slice_response (vs : List T) (ns : List Int) (hns : ∀ n ∈ ns, 0 ≤ n)
    (inst : Flux.Installed) (cbs : List Nat)
    (hn : inst.onNext = true) (hc : inst.onComplete = true) :
    ∃ calls, serveSliceResponse vs ns = .ok calls ∧
      fluxSignals (Flux.run inst cbs (calls.map sinkOp)).2 = sliceExpected vs ns := by
  refine ⟨serveFromSlice vs ns, ?_, C29_from_slice vs ns inst cbs hn hc⟩
  induction ns generalizing vs with
  | nil => rfl
  | cons n ns ih =>
    have hr : ∀ m ∈ ns, 0 ≤ m := fun m h => hns m (by simp [h])
    simp only [serveSliceResponse, sliceResponse_eq vs n (hns n (by simp))]
    show (do let rest ← serveSliceResponse (Flux.fromSlice vs n).1 ns; _) = _
    rw [ih _ hr]
    rfl

example : sliceExpected [10, 11, 12] [1, 0, 5] = [.next 10, .next 11, .next 12, .complete] ∧
    sliceExpected [10, 11, 12] [1, 1] = [.next 10, .next 11] ∧
    (∀ n ∈ ([1, 0, 5] : List Int), 0 ≤ n) := by decide

/-! ## C30 -/

/-- What the subscriber is to see, served synchronously. -/
def syncExpected (vs : List T) : List (Flux.Ev T) := vs.map .next ++ [.complete]

/-- C30 as stated in English, for both kinds of slice streams, whatever the subscriber requests
from inside OnNext, if it requests at least one element in OnRequest. -/
def C30_statement (T : Type) : Prop :=
  ∀ (sub : Sync.Sub) (vs : List T), (∀ k, 0 < sub.inRequest k) →
    (∃ fuel s, Flux.Sync.fromSlice sub fuel vs = some s ∧ s.trace = syncExpected vs) ∧
    (∃ fuel s, Flux.Sync.sliceResponse sub fuel vs = some (.ok s) ∧ s.trace = syncExpected vs)

open Flux.Sync in
/-- C30 fails for `SliceResponse`: requested one by one, it emits the first element for ever. -/
theorem C30_slice_response_violated :
    (∀ (fuel asked : Nat) (t : List (Flux.Ev Nat)),
      respHandle ⟨fun _ => 0, fun _ => 1⟩ fuel ⟨false, 0, [10, 11], asked, t⟩ = none) ∧
    ¬ C30_statement Nat := by
  have main : ∀ (fuel asked : Nat) (t : List (Flux.Ev Nat)),
      respHandle ⟨fun _ => 0, fun _ => 1⟩ fuel ⟨false, 0, [10, 11], asked, t⟩ = none := by
    intro fuel
    induction fuel using Nat.strongRecOn with
    | ind fuel ih =>
      intro asked t
      match fuel with
      | 0 => simp [respHandle]
      | 1 => simp [respHandle, respRequest]
      | 2 => simp [respHandle, respRequest, respLoop]
      | 3 => simp [respHandle, respRequest, respLoop, respNext]
      | f + 4 =>
        have := ih f (by omega) (asked + 1) (t ++ [.next 10])
        simp [respHandle, respRequest, respLoop, respNext, this]
  refine ⟨main, ?_⟩
  intro h
  obtain ⟨fuel, s, hs, -⟩ := (h ⟨fun _ => 0, fun _ => 1⟩ [10, 11] (by simp)).2
  rw [Flux.Sync.sliceResponse, main] at hs
  cases hs

open Flux.Sync in
/-- More fuel changes nothing. -/
theorem sync_mono (sub : Sync.Sub) (f : Nat) :
    (∀ i (s s' : St T), loop sub f i s = some s' → loop sub (f + 1) i s = some s') ∧
    (∀ v (s s' : St T), next sub f v s = some s' → next sub (f + 1) v s = some s') ∧
    (∀ (s s' : St T), handle sub f s = some s' → handle sub (f + 1) s = some s') ∧
    (∀ k (s s' : St T), request sub f k s = some s' → request sub (f + 1) k s = some s') := by
  induction f with
  | zero => refine ⟨?_, ?_, ?_, ?_⟩ <;> intros <;> simp_all [loop, next, handle, request]
  | succ f ih =>
    obtain ⟨hl, hn, hh, hr⟩ := ih
    refine ⟨?_, ?_, ?_, ?_⟩
    · intro i s s' h
      cases i with
      | zero => simpa [loop] using h
      | succ i =>
        rw [loop] at h ⊢
        cases hv : s.values with
        | nil => rw [hv] at h; exact h
        | cons v vs =>
          rw [hv] at h
          simp only [Option.bind_eq_bind, Option.bind_eq_some_iff] at h ⊢
          obtain ⟨a, ha, hb⟩ := h
          exact ⟨a, hn _ _ _ ha, hl _ _ _ hb⟩
    · intro v s s' h
      rw [next] at h ⊢
      split at h
      · rename_i hc; rw [if_pos hc]; exact h
      · rename_i hc
        rw [if_neg hc]
        simp only [Option.bind_eq_bind, Option.bind_eq_some_iff] at h ⊢
        obtain ⟨a, ha, hb⟩ := h
        refine ⟨a, ?_, ?_⟩
        · split at ha
          · rename_i hk; rw [if_pos hk]; exact ha
          · rename_i hk; rw [if_neg hk]; exact hr _ _ _ ha
        · split at hb
          · rename_i hk; rw [if_pos hk]; exact hh _ _ hb
          · rename_i hk; rw [if_neg hk]; exact hb
    · intro s s' h
      rw [handle] at h ⊢
      exact hr _ _ _ h
    · intro k s s' h
      rw [request] at h ⊢
      exact hl _ _ _ h

open Flux.Sync in
theorem loop_more (sub : Sync.Sub) {f g i : Nat} {s s' : St T} (h : loop sub f i s = some s')
    (hg : f ≤ g) : loop sub g i s = some s' := by
  obtain ⟨d, rfl⟩ := Nat.exists_eq_add_of_le hg
  induction d with
  | zero => exact h
  | succ d ih => exact (sync_mono sub (f + d)).1 _ _ _ (ih (by omega))

open Flux.Sync in
theorem next_more (sub : Sync.Sub) {f g : Nat} {v : T} {s s' : St T} (h : next sub f v s = some s')
    (hg : f ≤ g) : next sub g v s = some s' := by
  obtain ⟨d, rfl⟩ := Nat.exists_eq_add_of_le hg
  induction d with
  | zero => exact h
  | succ d ih => exact (sync_mono sub (f + d)).2.1 _ _ _ (ih (by omega))

/-- The stream is over and everything was emitted. -/
def syncDone (all : List T) (s : Sync.St T) : Prop :=
  s.closed = true ∧ s.values = [] ∧ s.trace = syncExpected all

/-- The stream goes on: what was emitted and what remains make up the whole. -/
def syncOpen (all : List T) (s : Sync.St T) : Prop :=
  s.closed = false ∧ ∃ emitted, all = emitted ++ s.values ∧ s.trace = emitted.map .next

open Flux.Sync in
theorem complete_open (all : List T) (s : St T) (h : syncOpen all s) (hv : s.values = []) :
    syncDone all (complete s) := by
  obtain ⟨hc, e, he, ht⟩ := h
  rw [hv, List.append_nil] at he
  subst he
  unfold complete
  rw [if_neg (by simp [hc])]
  exact ⟨rfl, hv, by simp [syncExpected, ht]⟩

open Flux.Sync in
theorem loop_done (sub : Sync.Sub) (all : List T) (f i : Nat) (s : St T) (h : syncDone all s) :
    ∃ s', loop sub (f + 1) i s = some s' ∧ syncDone all s' := by
  have hc : complete s = s := by unfold complete; rw [if_pos h.1]
  cases i with
  | zero => exact ⟨s, by simp [loop, h.2.1, hc], h⟩
  | succ i => exact ⟨s, by simp [loop, h.2.1, hc], h⟩

open Flux.Sync in
theorem loop_open (sub : Sync.Sub) (hsub : ∀ k, 0 < sub.inRequest k) (all : List T) (L : Nat) :
    ∀ (i rest : Nat) (s : St T), s.values.length = L → syncOpen all s →
      s.n = (i + rest : Nat) → 0 < i + rest →
      ∃ f s', loop sub f i s = some s' ∧
        (syncDone all s' ∨ (syncOpen all s' ∧ s'.n = (rest : Nat) ∧ 0 < rest ∧
          s'.values.length ≤ L)) := by
  induction L using Nat.strongRecOn with
  | ind L ih =>
    intro i
    induction i with
    | zero =>
      intro rest s hL ho hn hpos
      by_cases hv : s.values.length = 0
      · refine ⟨1, complete s, by simp [loop, hv], Or.inl ?_⟩
        exact complete_open all s ho (List.length_eq_zero_iff.mp hv)
      · refine ⟨1, s, by simp [loop, hv], Or.inr ⟨ho, by simpa using hn, by omega, by omega⟩⟩
    | succ i ihi =>
      intro rest s hL ho hn hpos
      cases hv : s.values with
      | nil => exact ⟨1, complete s, by simp [loop, hv], Or.inl (complete_open all s ho hv)⟩
      | cons v vs =>
        have hlen : vs.length < L := by rw [← hL, hv]; simp
        -- Next
        have hnext : ∃ f s1, next sub f v { s with values := vs } = some s1 ∧
            (syncDone all s1 ∨ (syncOpen all s1 ∧ s1.n = (i + rest : Nat) ∧ 0 < i + rest ∧
              s1.values.length < L)) := by
          obtain ⟨hc, e, he, ht⟩ := ho
          let s0 : St T := { s with values := vs, n := s.n - 1, trace := s.trace ++ [.next v] }
          have ho0 : syncOpen all s0 := ⟨hc, e ++ [v], by simp [s0, he, hv], by simp [s0, ht]⟩
          have hn0 : s0.n = (i + rest : Nat) := by simp only [s0, hn]; omega
          -- serving more demand when everything was used up
          have hask : ∀ s2 : St T, s2.values.length < L → syncOpen all s2 → s2.n = 0 →
              ∃ f s3, handle sub f s2 = some s3 ∧ syncDone all s3 := by
            intro s2 h2 ho2 hz
            have hb := hsub s2.asked
            obtain ⟨f, s3, h3, h4⟩ := ih s2.values.length h2 (sub.inRequest s2.asked) 0
              { s2 with asked := s2.asked + 1, n := s2.n + sub.inRequest s2.asked } rfl ho2
              (by simp only [hz]; omega) (by omega)
            refine ⟨f + 2, s3, ?_, ?_⟩
            · rw [handle, request]; exact h3
            · rcases h4 with h4 | ⟨-, -, h5, -⟩
              · exact h4
              · omega
          have hdone : ∀ s2 : St T, syncDone all s2 →
              ∃ f s3, handle sub f s2 = some s3 ∧ syncDone all s3 := by
            intro s2 h2
            obtain ⟨s3, h3, h4⟩ := loop_done sub all 0 (sub.inRequest s2.asked)
              { s2 with asked := s2.asked + 1, n := s2.n + sub.inRequest s2.asked } h2
            exact ⟨3, s3, by rw [handle, request]; exact h3, h4⟩
          -- OnNext
          have hon : ∃ f s2, (if sub.inNext (seen s.trace) = 0 then some s0
                else request sub f (sub.inNext (seen s.trace)) s0) = some s2 ∧
              (syncDone all s2 ∨ (syncOpen all s2 ∧ s2.n = (i + rest : Nat) ∧
                s2.values.length < L)) := by
            by_cases hk : sub.inNext (seen s.trace) = 0
            · exact ⟨0, s0, by rw [if_pos hk], Or.inr ⟨ho0, hn0, hlen⟩⟩
            · obtain ⟨f, s2, h2, h3⟩ := ih vs.length hlen (sub.inNext (seen s.trace)) (i + rest)
                { s0 with n := s0.n + sub.inNext (seen s.trace) } rfl ho0
                (by simp only [hn0]; omega) (by omega)
              refine ⟨f + 1, s2, ?_, ?_⟩
              · rw [if_neg hk, request]; exact h2
              · rcases h3 with h3 | ⟨a, b, c, d⟩
                · exact Or.inl h3
                · exact Or.inr ⟨a, b, by omega⟩
          obtain ⟨f1, s2, h2, h2'⟩ := hon
          -- and the check for exhausted demand
          have hfin : ∃ f s3, (if s2.n = 0 then handle sub f s2 else some s2) = some s3 ∧
              (syncDone all s3 ∨ (syncOpen all s3 ∧ s3.n = (i + rest : Nat) ∧ 0 < i + rest ∧
                s3.values.length < L)) := by
            by_cases hz : s2.n = 0
            · rcases h2' with h2' | ⟨a, b, c⟩
              · obtain ⟨f, s3, h3, h4⟩ := hdone s2 h2'
                exact ⟨f, s3, by rw [if_pos hz]; exact h3, Or.inl h4⟩
              · obtain ⟨f, s3, h3, h4⟩ := hask s2 c a hz
                exact ⟨f, s3, by rw [if_pos hz]; exact h3, Or.inl h4⟩
            · refine ⟨0, s2, by rw [if_neg hz], ?_⟩
              rcases h2' with h2' | ⟨a, b, c⟩
              · exact Or.inl h2'
              · exact Or.inr ⟨a, b, by omega, c⟩
          obtain ⟨f2, s3, h3, h3'⟩ := hfin
          refine ⟨max f1 f2 + 1, s3, ?_, h3'⟩
          rw [next, if_neg (by simp [hc])]
          simp only [Option.bind_eq_bind, Option.bind_eq_some_iff]
          refine ⟨s2, ?_, ?_⟩
          · split at h2
            · rename_i hk; rw [if_pos hk]; exact h2
            · rename_i hk; rw [if_neg hk]
              cases f1 with
              | zero => simp [request] at h2
              | succ f1 =>
                rw [request] at h2
                obtain ⟨g, hg⟩ : ∃ g, max (f1 + 1) f2 = g + 1 := ⟨max (f1 + 1) f2 - 1, by omega⟩
                rw [hg, request]
                exact loop_more sub h2 (by omega)
          · split at h3
            · rename_i hz; rw [if_pos hz]
              match f2, h3 with
              | 0, h3 => simp [handle] at h3
              | 1, h3 => simp [handle, request] at h3
              | f2 + 2, h3 =>
                rw [handle, request] at h3
                obtain ⟨g, hg⟩ : ∃ g, max f1 (f2 + 2) = g + 2 := ⟨max f1 (f2 + 2) - 2, by omega⟩
                rw [hg, handle, request]
                exact loop_more sub h3 (by omega)
            · rename_i hz; rw [if_neg hz]; exact h3
        obtain ⟨f1, s1, h1, h1'⟩ := hnext
        rcases h1' with h1' | ⟨a, b, c, d⟩
        · obtain ⟨s', hs, hd⟩ := loop_done sub all 0 i s1 h1'
          refine ⟨max f1 1 + 1, s', ?_, Or.inl hd⟩
          rw [loop, hv]
          simp only [Option.bind_eq_bind, Option.bind_eq_some_iff]
          exact ⟨s1, next_more sub h1 (by omega), loop_more sub hs (by omega)⟩
        · obtain ⟨f2, s', hs, hd⟩ := ih s1.values.length d i rest s1 rfl a b c
          refine ⟨max f1 f2 + 1, s', ?_, ?_⟩
          · rw [loop, hv]
            simp only [Option.bind_eq_bind, Option.bind_eq_some_iff]
            exact ⟨s1, next_more sub h1 (by omega), loop_more sub hs (by omega)⟩
          · rcases hd with hd | ⟨p, q, r, t⟩
            · exact Or.inl hd
            · exact Or.inr ⟨p, q, r, by omega⟩

open Flux.Sync in
theorem respLoop_plain (sub : Sync.Sub) (hk : ∀ k, sub.inNext k = 0) (d : Nat) :
    ∀ (i : Nat) (s : St T), d + i = s.values.length → s.closed = false →
      (d : Int) < s.n → s.trace = (s.values.take i).map .next →
      ∃ s', respLoop sub (d + 2) i s.values.length s = some (.ok s') ∧
        s'.trace = syncExpected s.values := by
  induction d with
  | zero =>
    intro i s h hc hn ht
    refine ⟨complete { s with values := s.values.drop s.values.length }, ?_, ?_⟩
    · rw [respLoop, if_neg (by omega), if_neg (by omega)]
      simp
    · unfold complete
      rw [if_neg (by simp [hc])]
      simp only [ht, syncExpected]
      rw [List.take_of_length_le (by omega)]
  | succ d ih =>
    intro i s h hc hn ht
    have hi : i < s.values.length := by omega
    obtain ⟨s', h1, h2⟩ := ih (i + 1)
      { s with n := s.n - 1, trace := s.trace ++ [.next s.values[i]] } (by simp only; omega) hc
      (by simp only; omega) (by
        simp only [ht]
        rw [List.take_succ_eq_append_getElem hi, List.map_append]; rfl)
    refine ⟨s', ?_, h2⟩
    rw [respLoop, if_pos hi, List.getElem?_eq_getElem hi]
    simp only [respNext, hc, hk, Bool.false_eq_true, if_false, if_true]
    rw [if_neg (by omega)]
    simp only [hc] at h1
    exact h1

open Flux.Sync in
/-- C30 for `FromSlice`, whatever the subscriber requests from inside its callbacks, and for
`SliceResponse` if the first request exceeds the length of the slice. Missing: re-entrant requests
to `SliceResponse`, which re-emits elements. -/
theorem C30_reentrant_partial (sub : Sync.Sub) (vs : List T) (hsub : ∀ k, 0 < sub.inRequest k) :
    (∃ fuel s, Flux.Sync.fromSlice sub fuel vs = some s ∧ s.trace = syncExpected vs) ∧
    ((∀ k, sub.inNext k = 0) → vs.length < sub.inRequest 0 →
      ∃ fuel s, Flux.Sync.sliceResponse sub fuel vs = some (.ok s) ∧ s.trace = syncExpected vs) := by
  constructor
  · have hb := hsub 0
    obtain ⟨f, s, h, h'⟩ := loop_open sub hsub vs vs.length (sub.inRequest 0) 0
      ⟨false, (0 : Int) + sub.inRequest 0, vs, 1, []⟩ rfl ⟨rfl, [], rfl, rfl⟩
      (by simp only; omega) (by omega)
    refine ⟨f + 2, s, ?_, ?_⟩
    · rw [Flux.Sync.fromSlice, handle, request]; exact h
    · rcases h' with h' | ⟨-, -, h', -⟩
      · exact h'.2.2
      · omega
  · intro hk hlt
    obtain ⟨s', h1, h2⟩ := respLoop_plain sub hk vs.length 0
      (⟨false, (0 : Int) + sub.inRequest 0, vs, 1, []⟩ : St T) rfl rfl (by simp only; omega) rfl
    refine ⟨vs.length + 4, s', ?_, h2⟩
    rw [Flux.Sync.sliceResponse, respHandle, respRequest]
    simp only
    rw [Nat.min_eq_left (by omega)]
    exact h1

/-- One element requested at a time, plus two more from inside OnNext of the second element. -/
example : (∀ k, 0 < (⟨fun k => if k = 1 then 2 else 0, fun _ => 1⟩ : Sync.Sub).inRequest k) ∧
    (Flux.Sync.fromSlice ⟨fun k => if k = 1 then 2 else 0, fun _ => 1⟩ 40 [1, 2, 3, 4, 5]).map
      (·.trace) = some (syncExpected [1, 2, 3, 4, 5]) := by
  exact ⟨fun _ => Nat.one_pos, by decide +kernel⟩

end

end Verif.Props
