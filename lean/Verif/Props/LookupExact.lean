import Verif.Props.Lookup
/-
Property C21, exactly: what the stream lookup table does, for every history.
-/
set_option autoImplicit false
namespace Verif.Props
open Verif Lookup

section
variable {S : Type}

/-! ## Specification -/

/-- What the table is like: the entries, oldest first; how many of the oldest ones can no longer be removed; and the
size it reports. -/
structure StickyTable (S : Type) where
  entries : List (UInt32 × S)
  stuck : Nat
  count : Int

/-- Adding appends. Removing takes the oldest entry with this id; if it is one of those that cannot be removed, it stays,
and the one after it cannot be removed any more either. The oldest entry can never be removed. -/
def stickyStep (t : StickyTable S) : Op S → StickyTable S
  | .add id s => ⟨t.entries ++ [(id, s)], max t.stuck 1, t.count + 1⟩
  | .remove id =>
    match t.entries.findIdx? (·.1 = id) with
    | none => t
    | some j =>
      if j < t.stuck then ⟨t.entries, max t.stuck (min (j + 2) t.entries.length), t.count - 1⟩
      else ⟨t.entries.eraseIdx j, t.stuck, t.count - 1⟩

/-- The table after a history. -/
def sticky (ops : List (Op S)) : StickyTable S := ops.foldl stickyStep ⟨[], 0, 0⟩

/-! ## Proof -/

theorem remove_heap {l : State S} {id : UInt32} {d : Nat} {n : Node S} (hf : find l id = some d) (hn : l.heap[d]? = some n) :
    (∀ p : Nat, (remove l id).heap[p]? = (l.heap[p]?).map fun x =>
      { x with next := if n.prev = some p then n.next else x.next, prev := if n.next = some p then n.prev else x.prev }) ∧
    (remove l id).count = l.count - 1 := by
  refine ⟨fun p => ?_, by simp [remove, hf, hn]⟩
  cases hp : n.prev with
  | none =>
    cases hx : n.next with
    | none => simp [remove, hf, hn, hp, hx]
    | some r =>
      simp only [remove, hf, hn, hp, hx, getElem?_modify', Option.some.injEq]
      by_cases h2 : r = p <;> simp [h2]
  | some q =>
    cases hx : n.next with
    | none =>
      simp only [remove, hf, hn, hp, hx, getElem?_modify', Option.some.injEq]
      by_cases h1 : q = p <;> simp [h1]
    | some r =>
      simp only [remove, hf, hn, hp, hx, getElem?_modify', Option.some.injEq]
      by_cases h1 : q = p <;> by_cases h2 : r = p <;> simp [h1, h2] <;> cases l.heap[p]? <;> simp

/-- The entries of the table are those of `t`; those without a predecessor are the first `t.stuck`. -/
structure StickyInv (l : State S) (chain : List Nat) (t : StickyTable S) : Prop where
  base : LInv false l chain t.entries
  prev : ∀ (i p : Nat) (n : Node S), chain[i]? = some p → l.heap[p]? = some n → (n.prev = none ↔ i < t.stuck)
  some : t.entries ≠ [] → 1 ≤ t.stuck
  le : t.stuck ≤ t.entries.length
  count : l.count = t.count

theorem sticky_add {l : State S} {chain : List Nat} {t : StickyTable S} (h : StickyInv l chain t) (id : UInt32) (s : S) :
    ∃ chain', StickyInv (add l id s) chain' (stickyStep t (.add id s)) := by
  have hb := inv_add h.base id s
  refine ⟨_, hb, ?_, ?_, ?_, ?_⟩
  · intro i p n hi hn
    have hrl := h.base.regLen
    have hle := h.le
    have hlt : ∀ (i p : Nat), chain[i]? = Option.some p → p < l.heap.length := by
      intro i p hc
      obtain ⟨n, hn, -⟩ := h.base.node i p hc
      exact (List.getElem?_eq_some_iff.mp hn).1
    show n.prev = none ↔ i < max t.stuck 1
    cases hh : l.head with
    | none =>
      have hch : chain = [] := by
        have := h.base.head; rw [hh] at this
        exact List.length_eq_zero_iff.mp (by have := List.getElem?_eq_none_iff.mp this.symm; omega)
      subst hch
      cases i with
      | zero =>
        simp at hi; subst hi
        simp [add, hh] at hn
        subst hn
        simp only [true_iff]; omega
      | succ i => simp at hi
    | some hd =>
      have h0 : chain[0]? = Option.some hd := by rw [← h.base.head, hh]
      have hpos := (List.getElem?_eq_some_iff.mp h0).1
      have h1 : 1 ≤ t.stuck := h.some (by intro e; rw [e] at hrl; simp at hrl; omega)
      rw [Nat.max_eq_left h1]
      by_cases hlast : i < chain.length
      · rw [List.getElem?_append_left hlast] at hi
        simp only [add, hh] at hn
        rw [List.getElem?_append_left (by simp; exact hlt i p hi), getElem?_modify'] at hn
        obtain ⟨n0, hn0, -⟩ := h.base.node i p hi
        rw [hn0] at hn
        have := h.prev i p n0 hi hn0
        split at hn
        · simp at hn; subst hn; exact this
        · cases hn; exact this
      · have : i = chain.length := by
          have := (List.getElem?_eq_some_iff.mp hi).1; simp at this; omega
        subst this
        simp at hi; subst hi
        simp only [add, hh] at hn
        rw [List.getElem?_append_right (by simp)] at hn
        simp at hn
        subst hn
        simp; omega
  · intro _
    show 1 ≤ max t.stuck 1
    omega
  · show max t.stuck 1 ≤ (t.entries ++ [(id, s)]).length
    have := h.le
    rw [List.length_append, List.length_singleton]; omega
  · show (add l id s).count = t.count + 1
    rw [← h.count]
    unfold add; cases l.head <;> rfl

theorem sticky_remove {l : State S} {chain : List Nat} {t : StickyTable S} (h : StickyInv l chain t) (id : UInt32) :
    ∃ chain', StickyInv (remove l id) chain' (stickyStep t (.remove id)) := by
  have hrl := h.base.regLen
  have hfind := find_spec h.base id
  cases hf : find l id with
  | none =>
    rw [hf] at hfind
    have hnone : t.entries.findIdx? (fun x => decide (x.1 = id)) = none := by
      rw [List.findIdx?_eq_none_iff]
      intro x hx
      obtain ⟨k, hk, rfl⟩ := List.mem_iff_getElem.mp hx
      have := hfind k
      rw [List.getElem?_eq_getElem hk] at this
      simpa using this
    refine ⟨chain, ?_⟩
    simp only [stickyStep, hnone]
    rw [show remove l id = l by simp [remove, hf]]
    exact h
  | some d =>
    rw [hf] at hfind
    obtain ⟨j, n, hcj, hn, hid, hregj, hfirst⟩ := hfind
    have hjl := (List.getElem?_eq_some_iff.mp hcj).1
    have hidx : t.entries.findIdx? (fun x => decide (x.1 = id)) = Option.some j := by
      rw [List.findIdx?_eq_some_iff_getElem]
      obtain ⟨hj, ej⟩ := List.getElem?_eq_some_iff.mp hregj
      refine ⟨hj, by rw [ej]; simp [hid], fun k hk => ?_⟩
      have := hfirst k hk
      rw [List.getElem?_eq_getElem (by omega)] at this
      simpa using this
    obtain ⟨hheap, hcount⟩ := remove_heap hf hn
    obtain ⟨n', hn', hnext, hprev, -⟩ := h.base.node j d hcj
    rw [hn] at hn'; cases hn'
    have hst := h.prev j d n hcj hn
    have hle := h.le
    simp only [stickyStep, hidx]
    have hcases : ∃ j' : Nat, j' = j ∧ ((0 < j' ∧ LInv false (remove l id) (chain.eraseIdx j') (t.entries.eraseIdx j')) ∨
        LInv false (remove l id) chain t.entries) := by
      rcases inv_remove h.base id with ⟨hno, -⟩ | ⟨j', e1, e2, -, hor⟩
      · exact absurd (by rw [hregj]; simp [hid]) (hno j)
      · refine ⟨j', ?_, hor.imp (fun x => x) (fun x => x.2)⟩
        have a : ¬ j < j' := fun hlt => e2 j hlt (by rw [hregj]; simp [hid])
        have b : ¬ j' < j := fun hlt => hfirst j' hlt e1
        omega
    obtain ⟨j', ej, hcases⟩ := hcases
    rw [ej] at hcases
    by_cases hj : j < t.stuck
    · rw [if_pos hj]
      have hp := hst.mpr hj
      have hsame : LInv false (remove l id) chain t.entries := by
        rcases hcases with ⟨hpos, hl⟩ | hl
        · exfalso
          obtain ⟨i, rfl⟩ : ∃ i, j = i + 1 := ⟨j - 1, by omega⟩
          obtain ⟨p, hpi⟩ : ∃ p, chain[i]? = Option.some p := ⟨_, List.getElem?_eq_getElem (by omega)⟩
          obtain ⟨m, hm, hmn, -⟩ := h.base.node i p hpi
          obtain ⟨m', hm', hmn', -⟩ := hl.node i p (by rw [List.getElem?_eraseIdx, if_pos (by omega)]; exact hpi)
          rw [hheap, hm, hp] at hm'
          simp at hm'
          subst hm'
          simp only at hmn'
          rw [List.getElem?_eraseIdx, if_neg (by omega), hmn, hcj] at hmn'
          have := h.base.inj _ _ _ hcj hmn'.symm
          omega
        · exact hl
      refine ⟨chain, hsame, ?_, ?_, ?_, ?_⟩
      · intro i p m hi hm
        show m.prev = none ↔ i < max t.stuck (min (j + 2) t.entries.length)
        obtain ⟨m0, hm0, -⟩ := h.base.node i p hi
        have h0 := h.prev i p m0 hi hm0
        have hil := (List.getElem?_eq_some_iff.mp hi).1
        rw [hheap, hm0] at hm
        simp only [hp, Option.map_some, Option.some.injEq] at hm
        subst hm
        by_cases hnp : n.next = Option.some p
        · have : j + 1 = i := h.base.inj _ _ _ (by rw [← hnext, hnp]) hi
          simp only [hnp, if_true, true_iff]; omega
        · have : i ≠ j + 1 := by
            rintro rfl
            rw [← hnext] at hi; exact hnp hi
          simp only [hnp, if_false, h0]; omega
      · intro hne
        have := h.some hne
        show 1 ≤ max t.stuck _
        omega
      · show max t.stuck (min (j + 2) t.entries.length) ≤ t.entries.length
        omega
      · rw [hcount, h.count]
    · rw [if_neg hj]
      have hp : n.prev ≠ none := fun e => hj (hst.mp e)
      have hq : n.prev = prevOf chain j := by
        rcases hprev with e | e
        · exact e
        · exact absurd e.2 hp
      obtain ⟨i, rfl⟩ : ∃ i, j = i + 1 := by
        cases j with
        | zero => exact absurd hq hp
        | succ i => exact ⟨i, rfl⟩
      simp only [prevOf] at hq
      have hgone : LInv false (remove l id) (chain.eraseIdx (i + 1)) (t.entries.eraseIdx (i + 1)) := by
        rcases hcases with ⟨-, hl⟩ | hl
        · exact hl
        · exfalso
          obtain ⟨q, hqi⟩ : ∃ q, chain[i]? = Option.some q := ⟨_, List.getElem?_eq_getElem (by omega)⟩
          obtain ⟨m, hm, hmn, -⟩ := h.base.node i q hqi
          obtain ⟨m', hm', hmn', -⟩ := hl.node i q hqi
          rw [hheap, hm] at hm'
          simp only [hq, hqi, if_true, Option.map_some, Option.some.injEq] at hm'
          subst hm'
          simp only at hmn'
          rw [hnext, hcj] at hmn'
          have := h.base.inj _ _ _ hmn' hcj
          omega
      refine ⟨_, hgone, ?_, ?_, ?_, ?_⟩
      · intro k p m hk hm
        show m.prev = none ↔ k < t.stuck
        rw [List.getElem?_eraseIdx] at hk
        have key : ∀ k' : Nat, chain[k']? = Option.some p → (k' < i + 1 ∧ k = k' ∨ k' > i + 1 ∧ k + 1 = k') → (m.prev = none ↔ k < t.stuck) := by
          intro k' hk' hc
          obtain ⟨m0, hm0, -⟩ := h.base.node k' p hk'
          have h0 := h.prev k' p m0 hk' hm0
          rw [hheap, hm0] at hm
          simp only [Option.map_some, Option.some.injEq] at hm
          subst hm
          by_cases hnp : n.next = Option.some p
          · have : i + 1 + 1 = k' := h.base.inj _ _ _ (by rw [← hnext, hnp]) hk'
            simp only [hnp, if_true]
            constructor
            · intro e; exact absurd e hp
            · intro e; omega
          · simp only [hnp, if_false, h0]
            have : k' ≠ i + 1 + 1 := by
              rintro rfl
              rw [← hnext] at hk'; exact hnp hk'
            omega
        split at hk
        · exact key k hk (.inl ⟨by omega, rfl⟩)
        · exact key (k + 1) hk (.inr ⟨by omega, rfl⟩)
      · intro hne
        exact h.some (by intro e; rw [e] at hregj; simp at hregj)
      · show t.stuck ≤ (t.entries.eraseIdx (i + 1)).length
        rw [List.length_eraseIdx]
        split <;> omega
      · rw [hcount, h.count]

theorem stickyTable_run (ops : List (Op S)) : ∃ chain, StickyInv (run State.init ops) chain (sticky ops) := by
  induction ops using lookup_snoc_induction with
  | nil =>
    exact ⟨[], linv_init false, fun i p n h => by simp at h, fun h => absurd rfl h, Nat.le_refl _, rfl⟩
  | snoc ops op ih =>
    obtain ⟨chain, h⟩ := ih
    rw [lookup_run_snoc, show sticky (ops ++ [op]) = stickyStep (sticky ops) op by simp [sticky]]
    cases op with
    | add id s => exact sticky_add h id s
    | remove id => exact sticky_remove h id

/-- C21, exactly: for every history whatsoever, what is found and the size are those of the table described above. -/
theorem C21_exact_partial (ops : List (Op S)) :
    (∀ id, get (run State.init ops) id = streamOf (sticky ops).entries id) ∧
    size (run State.init ops) = (sticky ops).count := by
  obtain ⟨chain, h⟩ := stickyTable_run ops
  exact ⟨get_spec h.base, h.count⟩

/-- A history with ids used again, removals of unknown ids and of the oldest stream. -/
example : (sticky [.add 1 10, .add 3 30, .remove 1, .remove 3, .add 5 50, .add 5 51, .remove 5, .remove 9, .add 1 11]).entries =
    [(1, 10), (3, 30), (5, 51), (1, 11)] ∧
    (sticky [.add 1 10, .add 3 30, .remove 1, .remove 3, .add 5 50, .add 5 51, .remove 5, .remove 9, .add 1 11]).stuck = 2 := by decide

/-- C21 fails for every table: a stream that was once the oldest is found for ever. -/
theorem C21_oldest_violated (ops : List (Op S)) (id : UInt32) (s : S) :
    get (run State.init (.add id s :: ops)) id = some s := by
  rw [(C21_exact_partial (.add id s :: ops)).1 id]
  have : ∃ r, (sticky (.add id s :: ops)).entries = (id, s) :: r ∧ 1 ≤ (sticky (.add id s :: ops)).stuck := by
    induction ops using lookup_snoc_induction with
    | nil => exact ⟨[], rfl, Nat.le_refl _⟩
    | snoc ops op ih =>
      obtain ⟨r, h1, h2⟩ := ih
      rw [← List.cons_append, show sticky ((.add id s :: ops) ++ [op]) = stickyStep (sticky (.add id s :: ops)) op by simp [sticky]]
      cases op with
      | add id' s' => exact ⟨r ++ [(id', s')], by simp [stickyStep, h1], by simp only [stickyStep]; omega⟩
      | remove id' =>
        simp only [stickyStep]
        cases hi : (sticky (.add id s :: ops)).entries.findIdx? (fun x => decide (x.1 = id')) with
        | none => exact ⟨r, h1, h2⟩
        | some j =>
          dsimp only
          split
          · exact ⟨r, h1, by show 1 ≤ max _ _; omega⟩
          · rename_i hj
            obtain ⟨i, rfl⟩ : ∃ i, j = i + 1 := ⟨j - 1, by omega⟩
            exact ⟨r.eraseIdx i, by simp [h1], h2⟩
  obtain ⟨r, h, -⟩ := this
  rw [h]
  simp [streamOf]

end
end Verif.Props
