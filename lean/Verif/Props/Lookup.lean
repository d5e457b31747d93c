import Verif.Model.Lookup
/-
Property C21: the stream lookup table.
-/
set_option autoImplicit false
namespace Verif.Props
open Verif Lookup

section
variable {S : Type}

/-- The registered streams after a history, oldest first: adding appends, removing deletes. -/
def registered : List (Op S) → List (UInt32 × S)
  | ops => ops.foldl (fun reg op => match op with
      | .add id s => reg ++ [(id, s)]
      | .remove id => reg.filter (·.1 ≠ id)) []

/-- The stream registered under `id`. -/
def streamOf (reg : List (UInt32 × S)) (id : UInt32) : Option S :=
  (reg.find? (·.1 = id)).map (·.2)

/-- Only ids that are not registered at that moment are added. -/
def freshAdds (ops : List (Op S)) : Prop :=
  ∀ before after id s, ops = before ++ .add id s :: after → streamOf (registered before) id = none

/-- C21 as stated in English. -/
def C21_statement (S : Type) : Prop :=
  ∀ ops : List (Op S), freshAdds ops →
    (∀ id, get (run State.init ops) id = streamOf (registered ops) id) ∧
    size (run State.init ops) = (registered ops).length

/-- C21 fails: a removed stream is still found when it was the first one added. (The witness has
a second stream, which can then not be removed either.) -/
theorem C21_lookup_violated : ¬ C21_statement Nat := by
  intro h
  have := (h [.add 1 10, .add 3 30, .remove 1, .remove 3] (by
    intro before after id s e
    match before, e with
    | [], e => rfl
    | [_], e =>
      simp only [List.cons_append, List.nil_append, List.cons.injEq] at e
      obtain ⟨rfl, h2, -⟩ := e
      cases h2; rfl
    | [_, _], e => simp at e
    | [_, _, _], e => simp at e
    | _ :: _ :: _ :: _ :: _, e => simp at e)).1 3
  revert this
  decide

/-! ### Invariant -/

def prevOf (chain : List Nat) : Nat → Option Nat
  | 0 => none
  | i + 1 => chain[i]?

/-- The nodes reachable from `head` are `chain`, and hold the entries `reg`; `prev` pointers are
right, or (when not `strict`) nil. -/
structure LInv (strict : Bool) (l : State S) (chain : List Nat) (reg : List (UInt32 × S)) : Prop where
  head : l.head = chain[0]?
  inj : ∀ (i j p : Nat), chain[i]? = some p → chain[j]? = some p → i = j
  len : chain.length ≤ l.heap.length
  regLen : reg.length = chain.length
  node : ∀ (i p : Nat), chain[i]? = some p → ∃ n, l.heap[p]? = some n ∧ n.next = chain[i+1]? ∧
    (n.prev = prevOf chain i ∨ (strict = false ∧ n.prev = none)) ∧ reg[i]? = some (n.id, n.stream)

theorem linv_init (strict : Bool) : LInv strict (State.init : State S) [] [] :=
  ⟨rfl, by simp, by simp, rfl, by simp⟩

theorem findFrom_spec {strict : Bool} {l : State S} {chain : List Nat} {reg : List (UInt32 × S)}
    (h : LInv strict l chain reg) (id : UInt32) : ∀ (fuel i : Nat), chain.length < fuel + i →
    match findFrom l.heap id fuel chain[i]? with
    | some p => ∃ (j : Nat) (n : Node S), i ≤ j ∧ chain[j]? = some p ∧ l.heap[p]? = some n ∧ n.id = id ∧
        reg[j]? = some (n.id, n.stream) ∧ ∀ k, i ≤ k → k < j → (reg[k]?).map (·.1) ≠ some id
    | none => ∀ k, i ≤ k → (reg[k]?).map (·.1) ≠ some id := by
  intro fuel
  induction fuel with
  | zero =>
    intro i hi
    simp only [findFrom]
    intro k hk
    rw [List.getElem?_eq_none (by have := h.regLen; omega)]; simp
  | succ fuel ih =>
    intro i hi
    cases hc : chain[i]? with
    | none =>
      simp only [findFrom]
      intro k hk
      have := List.getElem?_eq_none_iff.mp hc
      rw [List.getElem?_eq_none (by have := h.regLen; omega)]; simp
    | some p =>
      obtain ⟨n, hn, hnext, -, hreg⟩ := h.node i p hc
      simp only [findFrom, hn]
      by_cases hid : n.id = id
      · simp only [hid, if_true]
        exact ⟨i, n, Nat.le_refl _, hc, hn, hid, by rw [hreg, hid], fun k h1 h2 => by omega⟩
      · simp only [hid, if_false, hnext]
        have := ih (i + 1) (by omega)
        cases hf : findFrom l.heap id fuel chain[i + 1]? with
        | some q =>
          rw [hf] at this
          obtain ⟨j, n', hj, h1, h2, h3, h4, h5⟩ := this
          refine ⟨j, n', by omega, h1, h2, h3, h4, ?_⟩
          intro k hk1 hk2
          rcases Nat.eq_or_lt_of_le hk1 with e | e
          · subst e; rw [hreg]; simpa using hid
          · exact h5 k e hk2
        | none =>
          rw [hf] at this
          intro k hk1
          rcases Nat.eq_or_lt_of_le hk1 with e | e
          · subst e; rw [hreg]; simpa using hid
          · exact this k e

theorem find_spec {strict : Bool} {l : State S} {chain : List Nat} {reg : List (UInt32 × S)}
    (h : LInv strict l chain reg) (id : UInt32) :
    match find l id with
    | some p => ∃ (j : Nat) (n : Node S), chain[j]? = some p ∧ l.heap[p]? = some n ∧ n.id = id ∧
        reg[j]? = some (n.id, n.stream) ∧ ∀ k : Nat, k < j → (reg[k]?).map (·.1) ≠ some id
    | none => ∀ k : Nat, (reg[k]?).map (·.1) ≠ some id := by
  have := findFrom_spec h id (l.heap.length + 1) 0 (by have := h.len; omega)
  unfold find
  rw [h.head]
  cases hf : findFrom l.heap id (l.heap.length + 1) chain[0]? with
  | some p =>
    rw [hf] at this
    obtain ⟨j, n, -, h1, h2, h3, h4, h5⟩ := this
    exact ⟨j, n, h1, h2, h3, h4, fun k hk => h5 k (Nat.zero_le _) hk⟩
  | none =>
    rw [hf] at this
    exact fun k => this k (Nat.zero_le _)

theorem get_spec {strict : Bool} {l : State S} {chain : List Nat} {reg : List (UInt32 × S)}
    (h : LInv strict l chain reg) (id : UInt32) : get l id = streamOf reg id := by
  have := find_spec h id
  unfold Lookup.get streamOf
  cases hf : find l id with
  | some p =>
    rw [hf] at this
    obtain ⟨j, n, h1, h2, h3, h4, h5⟩ := this
    simp only [h2, Option.map_some]
    have : reg.find? (fun x => decide (x.1 = id)) = some (n.id, n.stream) := by
      rw [List.find?_eq_some_iff_getElem]
      obtain ⟨hj, ej⟩ := List.getElem?_eq_some_iff.mp h4
      refine ⟨by simp [h3], j, hj, ej, ?_⟩
      intro k hk
      have := h5 k hk
      rw [List.getElem?_eq_getElem (by omega)] at this
      simpa using this
    rw [this]; rfl
  | none =>
    rw [hf] at this
    have : reg.find? (fun x => decide (x.1 = id)) = none := by
      rw [List.find?_eq_none]
      intro x hx
      obtain ⟨k, hk, rfl⟩ := List.mem_iff_getElem.mp hx
      have := this k
      rw [List.getElem?_eq_getElem hk] at this
      simpa using this
    rw [this]; rfl

theorem lastFrom_spec {strict : Bool} {l : State S} {chain : List Nat} {reg : List (UInt32 × S)}
    (h : LInv strict l chain reg) : ∀ (fuel i p : Nat), chain[i]? = some p →
    chain.length ≤ fuel + i + 1 → chain[chain.length - 1]? = some (lastFrom l.heap fuel p) := by
  intro fuel
  induction fuel with
  | zero =>
    intro i p hc hf
    have := (List.getElem?_eq_some_iff.mp hc).1
    rw [show chain.length - 1 = i by omega]; exact hc
  | succ fuel ih =>
    intro i p hc hf
    obtain ⟨⟨pr, nx, nid, ns⟩, hn, hnext, -, -⟩ := h.node i p hc
    simp only at hnext
    simp only [lastFrom, hn]
    cases nx with
    | some q =>
      simp only
      exact ih (i + 1) q hnext.symm (by omega)
    | none =>
      simp only
      have h1 := List.getElem?_eq_none_iff.mp hnext.symm
      have h2 := (List.getElem?_eq_some_iff.mp hc).1
      rw [show chain.length - 1 = i by omega]; exact hc

theorem getElem?_modify' {α : Type} (f : α → α) (i : Nat) (l : List α) (j : Nat) :
    (l.modify i f)[j]? = if i = j then l[j]?.map f else l[j]? := by
  rw [List.getElem?_modify]
  split <;> simp

theorem inv_add {strict : Bool} {l : State S} {chain : List Nat} {reg : List (UInt32 × S)}
    (h : LInv strict l chain reg) (id : UInt32) (s : S) :
    LInv strict (add l id s) (chain ++ [l.heap.length]) (reg ++ [(id, s)]) := by
  have hlt : ∀ (i p : Nat), chain[i]? = some p → p < l.heap.length := by
    intro i p hc
    obtain ⟨n, hn, -⟩ := h.node i p hc
    exact (List.getElem?_eq_some_iff.mp hn).1
  have hinj : ∀ (i j p : Nat), (chain ++ [l.heap.length])[i]? = some p →
      (chain ++ [l.heap.length])[j]? = some p → i = j := by
    intro i j p hi hj
    rw [List.getElem?_append] at hi hj
    by_cases h1 : i < chain.length <;> by_cases h2 : j < chain.length
    · rw [if_pos h1] at hi; rw [if_pos h2] at hj; exact h.inj i j p hi hj
    · rw [if_pos h1] at hi; rw [if_neg h2] at hj
      have a := hlt i p hi
      have b := List.mem_of_getElem? hj; simp at b; omega
    · rw [if_neg h1] at hi; rw [if_pos h2] at hj
      have a := hlt j p hj
      have b := List.mem_of_getElem? hi; simp at b; omega
    · rw [if_neg h1] at hi; rw [if_neg h2] at hj
      have a := (List.getElem?_eq_some_iff.mp hi).1
      have b := (List.getElem?_eq_some_iff.mp hj).1
      simp at a b; omega
  have hrl := h.regLen
  cases hh : l.head with
  | none =>
    have hch : chain = [] := by
      have := h.head; rw [hh] at this
      exact List.length_eq_zero_iff.mp (by have := List.getElem?_eq_none_iff.mp this.symm; omega)
    subst hch
    have hreg : reg = [] := List.length_eq_zero_iff.mp h.regLen
    subst hreg
    simp only [add, hh]
    refine ⟨rfl, hinj, by simp, by simp, ?_⟩
    intro i p hc
    cases i with
    | zero =>
      simp at hc; subst hc
      exact ⟨⟨none, none, id, s⟩, by simp, by simp, Or.inl rfl, by simp⟩
    | succ i => simp at hc
  | some hd =>
    have h0 : chain[0]? = some hd := by rw [← h.head, hh]
    have hpos := (List.getElem?_eq_some_iff.mp h0).1
    have hlast := lastFrom_spec h l.heap.length 0 hd h0 (by have := h.len; omega)
    simp only [add, hh]
    obtain ⟨cur, hcur⟩ : ∃ c, c = lastFrom l.heap l.heap.length hd := ⟨_, rfl⟩
    rw [← hcur] at hlast ⊢
    refine ⟨?_, hinj, by simp; exact h.len, by simp [h.regLen], ?_⟩
    · rw [List.getElem?_append_left hpos]; exact h0.symm
    intro i p hc
    rw [List.getElem?_append] at hc
    by_cases hi : i < chain.length
    · rw [if_pos hi] at hc
      obtain ⟨n, hn, hnext, hprev, hreg⟩ := h.node i p hc
      have hpl := hlt i p hc
      have hprev' : ∀ (x : Option Nat), x = prevOf chain i → x = prevOf (chain ++ [l.heap.length]) i := by
        intro x hx; rw [hx]
        cases i with
        | zero => rfl
        | succ i => simp only [prevOf]; rw [List.getElem?_append_left (by omega)]
      have hreg' : (reg ++ [(id, s)])[i]? = reg[i]? :=
        List.getElem?_append_left (by omega)
      rw [hreg']
      rw [List.getElem?_append_left (by simp; omega), getElem?_modify']
      by_cases hpc : cur = p
      · subst hpc
        have hil := h.inj _ _ _ hc hlast
        rw [if_pos rfl, hn]
        refine ⟨{ n with next := some l.heap.length }, by simp, ?_, ?_, hreg⟩
        · rw [List.getElem?_append_right (by omega)]
          rw [show i + 1 - chain.length = 0 by omega]; rfl
        · rcases hprev with hp | hp
          · exact Or.inl (hprev' _ hp)
          · exact Or.inr hp
      · rw [if_neg hpc]
        refine ⟨n, hn, ?_, ?_, hreg⟩
        · have hne : i ≠ chain.length - 1 := by
            intro e; subst e; rw [hlast] at hc; exact hpc (Option.some.inj hc)
          rw [List.getElem?_append_left (by omega), hnext]
        · rcases hprev with hp | hp
          · exact Or.inl (hprev' _ hp)
          · exact Or.inr hp
    · rw [if_neg hi] at hc
      have hi' : i = chain.length := by
        have := (List.getElem?_eq_some_iff.mp hc).1; simp at this; omega
      subst hi'
      simp at hc; subst hc
      refine ⟨⟨some cur, none, id, s⟩, ?_, ?_, Or.inl ?_, ?_⟩
      · rw [List.getElem?_append_right (by simp)]; simp
      · simp
      · obtain ⟨m, hm⟩ : ∃ m, chain.length = m + 1 := ⟨chain.length - 1, by omega⟩
        rw [hm] at hlast ⊢
        simp only [prevOf, Nat.add_sub_cancel] at hlast ⊢
        rw [List.getElem?_append_left (by omega), hlast]
      · rw [List.getElem?_append_right (by omega)]; simp [h.regLen]

/-- Removing an entry that is found: either it is unlinked, or (its `prev` is nil) the list stays
as it was. In strict states only the first entry has a nil `prev`. -/
theorem inv_remove {strict : Bool} {l : State S} {chain : List Nat} {reg : List (UInt32 × S)}
    (h : LInv strict l chain reg) (id : UInt32) :
    ((∀ k : Nat, (reg[k]?).map (·.1) ≠ some id) ∧ remove l id = l) ∨
    (∃ j : Nat, (reg[j]?).map (·.1) = some id ∧ (∀ k, k < j → (reg[k]?).map (·.1) ≠ some id) ∧
      (remove l id).count = l.count - 1 ∧
      ((0 < j ∧ LInv strict (remove l id) (chain.eraseIdx j) (reg.eraseIdx j)) ∨
       ((strict = false ∨ j = 0) ∧ LInv false (remove l id) chain reg))) := by
  have hfind := find_spec h id
  cases hf : find l id with
  | none =>
    rw [hf] at hfind
    exact Or.inl ⟨hfind, by simp [remove, hf]⟩
  | some d =>
    rw [hf] at hfind
    obtain ⟨j, n, hcj, hn, hid, hregj, hfirst⟩ := hfind
    obtain ⟨n', hn', hnext, hprev, -⟩ := h.node j d hcj
    have hnn : n' = n := by rw [hn] at hn'; exact (Option.some.inj hn').symm
    rw [hnn] at hnext hprev
    have hjl := (List.getElem?_eq_some_iff.mp hcj).1
    refine Or.inr ⟨j, by rw [hregj]; simp [hid], hfirst, by simp [remove, hf, hn], ?_⟩
    have hlt : ∀ (i p : Nat), chain[i]? = some p → p < l.heap.length := by
      intro i p hc
      obtain ⟨n, hn, -⟩ := h.node i p hc
      exact (List.getElem?_eq_some_iff.mp hn).1
    cases hp : n.prev with
    | none =>
      have hs : strict = false ∨ j = 0 := by
        rcases hprev with e | e
        · right
          cases j with
          | zero => rfl
          | succ j =>
            rw [hp] at e; simp only [prevOf] at e
            have := List.getElem?_eq_none_iff.mp e.symm; omega
        · exact Or.inl e.1
      refine Or.inr ⟨hs, ?_⟩
      cases hnx : n.next with
      | none =>
        have : (remove l id) = { l with count := l.count - 1 } := by
          simp [remove, hf, hn, hp, hnx]
        rw [this]
        refine ⟨h.head, h.inj, h.len, h.regLen, ?_⟩
        intro i p hc
        obtain ⟨m, h1, h2, h3, h4⟩ := h.node i p hc
        refine ⟨m, h1, h2, ?_, h4⟩
        rcases h3 with h3 | h3
        · exact Or.inl h3
        · exact Or.inr ⟨rfl, h3.2⟩
      | some q =>
        have : (remove l id) = { l with
            heap := l.heap.modify q fun x => { x with prev := none }, count := l.count - 1 } := by
          simp [remove, hf, hn, hp, hnx]
        rw [this]
        refine ⟨h.head, h.inj, by simpa using h.len, h.regLen, ?_⟩
        intro i p hc
        obtain ⟨m, h1, h2, h3, h4⟩ := h.node i p hc
        simp only [getElem?_modify', h1]
        by_cases hq : q = p
        · rw [if_pos hq]
          exact ⟨{ m with prev := none }, by simp, h2, Or.inr ⟨trivial, rfl⟩, h4⟩
        · rw [if_neg hq]
          refine ⟨m, rfl, h2, ?_, h4⟩
          rcases h3 with h3 | h3
          · exact Or.inl h3
          · exact Or.inr ⟨trivial, h3.2⟩
    | some q =>
      have hq : prevOf chain j = some q := by
        rcases hprev with e | e
        · rw [← e, hp]
        · rw [hp] at e; cases e.2
      obtain ⟨j', rfl⟩ : ∃ j', j = j' + 1 := by
        cases j with
        | zero => simp [prevOf] at hq
        | succ j => exact ⟨j, rfl⟩
      simp only [prevOf] at hq
      refine Or.inl ⟨by omega, ?_⟩
      have hrl := h.regLen
      -- the new heap, cell by cell
      have hheap : ∀ (p : Nat), (remove l id).heap[p]? =
          (l.heap[p]?).map (fun x =>
            { x with next := if q = p then n.next else x.next,
                     prev := if n.next = some p then some q else x.prev }) := by
        intro p
        cases hnx : n.next with
        | none =>
          simp only [remove, hf, hn, hp, hnx, getElem?_modify']
          by_cases h1 : q = p <;> simp [h1]
        | some r =>
          simp only [remove, hf, hn, hp, hnx, getElem?_modify', Option.some.injEq]
          by_cases h1 : q = p <;> by_cases h2 : r = p <;> simp [h1, h2] <;>
            cases l.heap[p]? <;> simp
      have hhead : (remove l id).head = l.head := by simp [remove, hf, hn]
      have hlenh : (remove l id).heap.length = l.heap.length := by
        simp only [remove, hf, hn, hp]
        cases n.next <;> simp
      refine ⟨?_, ?_, ?_, ?_, ?_⟩
      · rw [hhead, h.head, List.getElem?_eraseIdx]; simp
      · intro i k p hi hk
        rw [List.getElem?_eraseIdx] at hi hk
        split at hi <;> split at hk <;> have := h.inj _ _ _ hi hk <;> omega
      · rw [hlenh]
        have := h.len
        rw [List.length_eraseIdx]; split <;> omega
      · rw [List.length_eraseIdx, List.length_eraseIdx, hrl]
      · intro i p hc
        rw [List.getElem?_eraseIdx] at hc
        have key : ∀ (i' : Nat), chain[i']? = some p → i' ≠ j' + 1 →
            (i' < j' + 1 ∧ i = i' ∨ i' > j' + 1 ∧ i + 1 = i') →
            ∃ m, (remove l id).heap[p]? = some m ∧ m.next = (chain.eraseIdx (j' + 1))[i + 1]? ∧
              (m.prev = prevOf (chain.eraseIdx (j' + 1)) i ∨ (strict = false ∧ m.prev = none)) ∧
              (reg.eraseIdx (j' + 1))[i]? = some (m.id, m.stream) := by
          intro i' hi' hne hcase
          obtain ⟨m, h1, h2, h3, h4⟩ := h.node i' p hi'
          rw [hheap, h1]
          refine ⟨_, rfl, ?_, ?_, ?_⟩
          · simp only
            rw [List.getElem?_eraseIdx]
            by_cases hqp : q = p
            · have : j' = i' := h.inj _ _ _ (by rw [hq, hqp]) hi'
              rw [if_pos hqp, hnext, if_neg (by omega)]
              rcases hcase with ⟨a, b⟩ | ⟨a, b⟩
              · subst b; subst this; rfl
              · omega
            · have : j' ≠ i' := by
                intro e; subst e; rw [hq] at hi'; exact hqp (Option.some.inj hi')
              rw [if_neg hqp, h2]
              rcases hcase with ⟨a, b⟩ | ⟨a, b⟩
              · subst b; rw [if_pos (by omega)]
              · subst b; rw [if_neg (by omega)]
          · simp only
            by_cases hnp : n.next = some p
            · have hidx : j' + 1 + 1 = i' := h.inj _ _ _ (by rw [← hnext, hnp]) hi'
              rw [if_pos hnp]
              left
              have hi2 : i = j' + 1 := by omega
              subst hi2
              simp only [prevOf]
              rw [List.getElem?_eraseIdx, if_pos (by omega), hq]
            · have hidx : j' + 1 + 1 ≠ i' := by
                intro e; subst e; rw [← hnext] at hi'; exact hnp hi'
              rw [if_neg hnp]
              rcases h3 with h3 | h3
              · left
                rw [h3]
                rcases hcase with ⟨a, b⟩ | ⟨a, b⟩
                · subst b
                  cases i with
                  | zero => rfl
                  | succ i =>
                    simp only [prevOf]; rw [List.getElem?_eraseIdx, if_pos (by omega)]
                · subst b
                  cases i with
                  | zero => omega
                  | succ i =>
                    simp only [prevOf]; rw [List.getElem?_eraseIdx, if_neg (by omega)]
              · exact Or.inr h3
          · rw [List.getElem?_eraseIdx]
            rcases hcase with ⟨a, b⟩ | ⟨a, b⟩
            · subst b; rw [if_pos (by omega)]; exact h4
            · subst b; rw [if_neg (by omega)]; exact h4
        split at hc
        · exact key i hc (by omega) (Or.inl ⟨by omega, rfl⟩)
        · exact key (i + 1) hc (by omega) (Or.inr ⟨by omega, rfl⟩)

theorem registered_snoc (ops : List (Op S)) (op : Op S) :
    registered (ops ++ [op]) = match op with
      | .add id s => registered ops ++ [(id, s)]
      | .remove id => (registered ops).filter (·.1 ≠ id) := by
  simp [registered]

theorem lookup_run_snoc (l : State S) (ops : List (Op S)) (op : Op S) :
    run l (ops ++ [op]) = step (run l ops) op := by simp [run]

theorem freshAdds_prefix {ops : List (Op S)} {op : Op S} (h : freshAdds (ops ++ [op])) :
    freshAdds ops := by
  intro before after id s e
  exact h before (after ++ [op]) id s (by rw [e]; simp)

theorem lookup_snoc_induction {α : Type} {P : List α → Prop} (nil : P [])
    (snoc : ∀ l a, P l → P (l ++ [a])) (l : List α) : P l := by
  have h : ∀ r : List α, P r.reverse := by
    intro r; induction r with
    | nil => exact nil
    | cons a r ih => rw [List.reverse_cons]; exact snoc _ _ ih
  simpa using h l.reverse

/-- Distinct ids: removing the first match is removing all matches. -/
theorem eraseIdx_eq_filter {reg : List (UInt32 × S)} (hn : (reg.map (·.1)).Nodup) {j : Nat}
    {id : UInt32} (hj : (reg[j]?).map (·.1) = some id) :
    reg.eraseIdx j = reg.filter (·.1 ≠ id) := by
  induction reg generalizing j with
  | nil => simp at hj
  | cons x xs ih =>
    simp only [List.map_cons, List.nodup_cons] at hn
    cases j with
    | zero =>
      simp at hj
      simp only [List.eraseIdx_cons_zero, List.filter_cons, hj, ne_eq, not_true_eq_false,
        decide_false]
      symm
      simp only [Bool.false_eq_true, if_false]
      rw [List.filter_eq_self]
      intro y hy
      have : y.1 ∈ xs.map (·.1) := List.mem_map.mpr ⟨y, hy, rfl⟩
      simp only [decide_eq_true_eq]
      intro e
      rw [e, ← hj] at this
      exact hn.1 this
    | succ j =>
      simp only [List.getElem?_cons_succ] at hj
      have hmem : id ∈ xs.map (·.1) := by
        cases hx : xs[j]? with
        | none => rw [hx] at hj; cases hj
        | some y =>
          rw [hx] at hj
          exact List.mem_map.mpr ⟨y, List.mem_of_getElem? hx, by simpa using hj⟩
      have hne : x.1 ≠ id := fun e => hn.1 (e ▸ hmem)
      simp [List.filter_cons, hne, ih hn.2 hj]

theorem streamOf_none {reg : List (UInt32 × S)} {id : UInt32} (h : streamOf reg id = none) :
    id ∉ reg.map (·.1) := by
  intro hm
  obtain ⟨x, hx, hxe⟩ := List.mem_map.mp hm
  unfold streamOf at h
  rw [Option.map_eq_none_iff, List.find?_eq_none] at h
  exact h x hx (by simpa using hxe)

theorem registered_nodup {ops : List (Op S)} (h : freshAdds ops) :
    ((registered ops).map (·.1)).Nodup := by
  induction ops using lookup_snoc_induction with
  | nil => simp [registered]
  | snoc ops op ih =>
    have ih := ih (freshAdds_prefix h)
    rw [registered_snoc]
    cases op with
    | add id s =>
      simp only [List.map_append, List.map_cons, List.map_nil]
      rw [List.nodup_append]
      refine ⟨ih, by simp, ?_⟩
      intro a ha b hb
      simp at hb; subst hb
      intro e; subst e
      exact streamOf_none (h ops [] _ s (by simp)) ha
    | remove id =>
      simp only
      exact List.Nodup.sublist (List.Sublist.map _ List.filter_sublist) ih

/-- C21 for histories in which the first stream ever added is never removed. Missing: histories
that remove it, for which the code breaks the table (see `C21_lookup_violated`). -/
theorem C21_lookup_partial (first : UInt32) (s : S) (ops : List (Op S))
    (hf : freshAdds (.add first s :: ops)) (hr : Op.remove first ∉ ops) :
    (∀ id, get (run State.init (.add first s :: ops)) id =
      streamOf (registered (.add first s :: ops)) id) ∧
    size (run State.init (.add first s :: ops)) = (registered (.add first s :: ops)).length := by
  have main : ∃ chain, LInv true (run State.init (.add first s :: ops)) chain
      (registered (.add first s :: ops)) ∧
      (run State.init (.add first s :: ops)).count = (registered (.add first s :: ops)).length ∧
      (registered (.add first s :: ops))[0]? = some (first, s) := by
    induction ops using lookup_snoc_induction with
    | nil => exact ⟨_, inv_add (linv_init true) first s, by simp [run, step, add, State.init, registered],
        by simp [registered]⟩
    | snoc ops op ih =>
      rw [← List.cons_append] at hf ⊢
      obtain ⟨chain, hinv, hcount, h0⟩ := ih (freshAdds_prefix hf) (fun h => hr (by simp [h]))
      rw [lookup_run_snoc, registered_snoc]
      cases op with
      | add id s' =>
        refine ⟨_, inv_add hinv id s', ?_, ?_⟩
        · simp only [step, List.length_append, List.length_cons, List.length_nil]
          have : ∀ (l : State S), (add l id s').count = l.count + 1 := by
            intro l; unfold add; cases l.head <;> rfl
          rw [this, hcount]; simp
        · simp only
          rw [List.getElem?_append_left (List.getElem?_eq_some_iff.mp h0).1, h0]
      | remove id =>
        have hne : first ≠ id := by
          intro e; subst e; exact hr (by simp)
        simp only [step]
        have hnd := registered_nodup (freshAdds_prefix hf)
        rcases inv_remove hinv id with ⟨hno, hsame⟩ | ⟨j, hj, -, hc, hor⟩
        · rw [hsame]
          have : (registered (.add first s :: ops)).filter (fun x => decide (x.1 ≠ id)) =
              registered (.add first s :: ops) := by
            rw [List.filter_eq_self]
            intro y hy
            obtain ⟨k, hk, rfl⟩ := List.mem_iff_getElem.mp hy
            have := hno k
            rw [List.getElem?_eq_getElem hk] at this
            simpa using this
          rw [this]
          exact ⟨chain, hinv, hcount, h0⟩
        · rcases hor with ⟨hpos, hi⟩ | ⟨hs, -⟩
          · rw [← eraseIdx_eq_filter hnd hj]
            refine ⟨_, hi, ?_, ?_⟩
            · rw [hc, hcount, List.length_eraseIdx]
              have : j < (registered (.add first s :: ops)).length := by
                cases hx : (registered (.add first s :: ops))[j]? with
                | none => rw [hx] at hj; cases hj
                | some y => exact (List.getElem?_eq_some_iff.mp hx).1
              rw [if_pos this]; omega
            · rw [List.getElem?_eraseIdx, if_pos hpos, h0]
          · rcases hs with hs | hs
            · cases hs
            · subst hs
              rw [h0] at hj
              simp at hj
              exact absurd hj hne
  obtain ⟨chain, hinv, hcount, -⟩ := main
  exact ⟨get_spec hinv, hcount⟩

example : freshAdds ([.add 1 10, .add 3 30, .add 5 50, .remove 3, .add 3 31] : List (Op Nat)) ∧
    Op.remove 1 ∉ ([.add 3 30, .add 5 50, .remove 3, .add 3 31] : List (Op Nat)) := by
  refine ⟨?_, by decide⟩
  intro before after id s e
  match before, e with
  | [], e => rfl
  | [_], e =>
    simp only [List.cons_append, List.nil_append, List.cons.injEq] at e
    obtain ⟨rfl, h2, -⟩ := e; cases h2; rfl
  | [_, _], e =>
    simp only [List.cons_append, List.nil_append, List.cons.injEq] at e
    obtain ⟨rfl, rfl, h2, -⟩ := e; cases h2; rfl
  | [_, _, _], e =>
    simp only [List.cons_append, List.nil_append, List.cons.injEq] at e
    obtain ⟨rfl, rfl, rfl, h2, -⟩ := e; cases h2
  | [_, _, _, _], e =>
    simp only [List.cons_append, List.nil_append, List.cons.injEq] at e
    obtain ⟨rfl, rfl, rfl, rfl, h2, -⟩ := e; cases h2; rfl
  | _ :: _ :: _ :: _ :: _ :: _, e => simp at e

/-- The ids added by a history. -/
def addedIds (ops : List (Op S)) : List UInt32 :=
  ops.filterMap fun | .add id _ => some id | .remove _ => none

theorem live_found_aux (ops : List (Op S)) (hu : (addedIds ops).Nodup) :
    ∃ chain reg, LInv false (run State.init ops) chain reg ∧
      (reg.map (·.1)).Nodup ∧ (∀ x ∈ reg, x.1 ∈ addedIds ops) ∧
      ∀ x ∈ registered ops, x ∈ reg := by
  induction ops using lookup_snoc_induction with
  | nil => exact ⟨_, _, linv_init false, by simp, by simp, by simp [registered]⟩
  | snoc ops op ih =>
    have hu' : (addedIds ops).Nodup := by
      unfold addedIds at hu ⊢
      rw [List.filterMap_append] at hu
      exact (List.nodup_append.mp hu).1
    obtain ⟨chain, reg, hinv, hnd, hids, hsub⟩ := ih hu'
    rw [lookup_run_snoc, registered_snoc]
    cases op with
    | add id s =>
      have hadd : addedIds (ops ++ [Op.add id s]) = addedIds ops ++ [id] := by simp [addedIds]
      rw [hadd] at hu ⊢
      refine ⟨_, _, inv_add hinv id s, ?_, ?_, ?_⟩
      · simp only [List.map_append, List.map_cons, List.map_nil]
        rw [List.nodup_append]
        refine ⟨hnd, by simp, ?_⟩
        intro a ha b hb
        simp at hb; subst hb
        obtain ⟨x, hx, rfl⟩ := List.mem_map.mp ha
        exact (List.nodup_append.mp hu).2.2 x.1 (hids x hx) _ (by simp)
      · intro x hx
        rcases List.mem_append.mp hx with h | h
        · exact List.mem_append_left _ (hids x h)
        · simp at h; subst h; simp
      · intro x hx
        rcases List.mem_append.mp hx with h | h
        · exact List.mem_append_left _ (hsub x h)
        · exact List.mem_append_right _ h
    | remove id =>
      have hadd : addedIds (ops ++ [(Op.remove id : Op S)]) = addedIds ops := by simp [addedIds]
      rw [hadd]
      simp only [step]
      rcases inv_remove hinv id with ⟨-, hsame⟩ | ⟨j, hj, -, -, hor⟩
      · rw [hsame]
        exact ⟨chain, reg, hinv, hnd, hids, fun x hx => hsub x ((List.mem_filter.mp hx).1)⟩
      · rcases hor with ⟨-, hi⟩ | ⟨-, hi⟩
        · refine ⟨_, _, hi, ?_, ?_, ?_⟩
          · exact List.Nodup.sublist (List.Sublist.map _ (List.eraseIdx_sublist reg j)) hnd
          · intro x hx; exact hids x ((List.eraseIdx_sublist reg j).subset hx)
          · intro x hx
            rw [eraseIdx_eq_filter hnd hj]
            have := List.mem_filter.mp hx
            exact List.mem_filter.mpr ⟨hsub x this.1, this.2⟩
        · exact ⟨chain, reg, hi, hnd, hids, fun x hx => hsub x ((List.mem_filter.mp hx).1)⟩

/-- C21, one direction, for every history that never reuses an id (whatever is removed): a stream
that was added and not removed is found. Missing: that removed streams are not found. -/
theorem C21_live_found_partial (ops : List (Op S)) (hu : (addedIds ops).Nodup) (id : UInt32) (s : S)
    (h : (id, s) ∈ registered ops) : get (run State.init ops) id = some s := by
  obtain ⟨chain, reg, hinv, hnd, -, hsub⟩ := live_found_aux ops hu
  rw [get_spec hinv]
  have hm := hsub _ h
  unfold streamOf
  clear hinv hsub
  induction reg with
  | nil => cases hm
  | cons x xs ih =>
    simp only [List.map_cons, List.nodup_cons] at hnd
    rcases List.mem_cons.mp hm with e | e
    · subst e; simp
    · have : x.1 ≠ id := by
        intro he; apply hnd.1; rw [he]; exact List.mem_map.mpr ⟨_, e, rfl⟩
      rw [List.find?_cons_of_neg (by simpa using this)]
      exact ih hnd.2 e

example : (addedIds ([.add 1 10, .add 3 30, .remove 1, .add 5 50] : List (Op Nat))).Nodup ∧
    (5, 50) ∈ registered ([.add 1 10, .add 3 30, .remove 1, .add 5 50] : List (Op Nat)) := by decide

end

end Verif.Props
