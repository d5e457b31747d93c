import Verif.Model.Mesh
import Verif.Props.WasmRecv
/-
Properties C66, C67 and C68: linking modules in a mesh and forwarding calls.
-/
set_option autoImplicit false
namespace Verif.Props
open Verif
open Verif.Invoke (Kind)
open Verif.Operations (Operation Table)

/-! ### C66 -/

/-- Module number `i` of those loaded has this operation in its table. -/
def Has (ms : List (Bytes × Table)) (i : Nat) (op : Operation) : Prop :=
  ∃ f t, ms[i]? = some (f, t) ∧ op ∈ t

/-- Module `i` exports this operation (direction 1). -/
def Exports (ms : List (Bytes × Table)) (i : Nat) (op : Operation) : Prop := Has ms i op ∧ op.direction = 1

/-- Module `i` imports this operation (direction 2). -/
def Imports (ms : List (Bytes × Table)) (i : Nat) (op : Operation) : Prop := Has ms i op ∧ op.direction = 2

/-- The same operation: namespace, name and request type. -/
def SameOp (a b : Operation) : Prop := a.ns = b.ns ∧ a.operation = b.operation ∧ a.type = b.type

instance (a b : Operation) : Decidable (SameOp a b) := inferInstanceAs (Decidable (_ ∧ _))

/-- The request kinds by type number. -/
def kindNumber : Kind → UInt8
  | .rr => 1
  | .fnf => 2
  | .rs => 3
  | .rc => 4

/-- Tables as the code builds them: request types 1 to 4, indices below 2^32-1, and the imports of one module
and type have indices of their own. -/
structure WellFormed (ms : List (Bytes × Table)) : Prop where
  types : ∀ i op, Imports ms i op → ∃ k, op.type = kindNumber k
  small : ∀ i op, Imports ms i op → op.index ≠ 0xFFFFFFFF
  own : ∀ i op op', Imports ms i op → Imports ms i op' → op.type = op'.type → op.index = op'.index →
    op.ns = op'.ns ∧ op.operation = op'.operation

/-- C66 as stated in English: after loading the modules, a call through an import goes to an export of the same
operation if there is one, and the unsatisfied imports are the others. -/
def C66_statement : Prop :=
  ∀ ms : List (Bytes × Table), WellFormed ms → ∃ s, Mesh.load ms = .ok s ∧
    (∀ i op k, Imports ms i op → op.type = kindNumber k → (∃ j e, Exports ms j e ∧ SameOp op e) →
      ∃ j e, Exports ms j e ∧ SameOp op e ∧ Mesh.callImport s i k op.index = some ⟨j, e.index⟩) ∧
    (∀ u, u ∈ s.unsatisfied ↔ Imports ms u.inst u.oper ∧ ¬ ∃ j e, Exports ms j e ∧ SameOp u.oper e)

/-! The invariant, over the operations processed so far -/

/-- An operation of an instance. -/
abbrev InstOp := Nat × Operation

/-- Some processed operation exports the key from instance `d.inst` under `d.index`. -/
def Offers (P : List InstOp) (key : Mesh.Key) (d : Mesh.Dest) : Prop :=
  ∃ op, (d.inst, op) ∈ P ∧ op.direction = 1 ∧ Mesh.keyOf op = key ∧ op.index = d.index

def Offered (P : List InstOp) (key : Mesh.Key) : Prop := ∃ d, Offers P key d

theorem Offers.mono {P Q : List InstOp} {key : Mesh.Key} {d : Mesh.Dest} (h : Offers P key d)
    (hs : ∀ x ∈ P, x ∈ Q) : Offers Q key d := by
  obtain ⟨op, h1, h2⟩ := h
  exact ⟨op, hs _ h1, h2⟩

theorem Offered.mono {P Q : List InstOp} {key : Mesh.Key} (h : Offered P key)
    (hs : ∀ x ∈ P, x ∈ Q) : Offered Q key := by
  obtain ⟨d, h⟩ := h
  exact ⟨d, h.mono hs⟩

/-- The imports among processed operations. -/
def meshImports (P : List InstOp) : List Mesh.Pending :=
  (P.filter fun x => x.2.direction == 2).map fun x => ⟨x.1, x.2⟩

theorem meshImports_append (P Q : List InstOp) : meshImports (P ++ Q) = meshImports P ++ meshImports Q := by
  simp [meshImports]

theorem mem_meshImports (P : List InstOp) (u : Mesh.Pending) :
    u ∈ meshImports P ↔ (u.inst, u.oper) ∈ P ∧ u.oper.direction = 2 := by
  obtain ⟨i, op⟩ := u
  simp [meshImports]

/-- Calls through the import go to an export of its name. -/
def Linked (P : List InstOp) (s : Mesh.St) (u : Mesh.Pending) : Prop :=
  ∀ k, Mesh.kindOf u.oper.type = some k →
    ∃ d, Mesh.callImport s u.inst k u.oper.index = some d ∧ Offers P (Mesh.keyOf u.oper) d

/-- The processed operations are as in `WellFormed`. -/
structure WF (P : List InstOp) : Prop where
  small : ∀ i op, (i, op) ∈ P → op.direction = 2 → op.index ≠ 0xFFFFFFFF
  own : ∀ i op op', (i, op) ∈ P → (i, op') ∈ P → op.direction = 2 → op'.direction = 2 → op.type = op'.type →
    op.index = op'.index → Mesh.keyOf op = Mesh.keyOf op'

theorem kindOf_iff (t : UInt8) (k : Kind) : Mesh.kindOf t = some k ↔ t = kindNumber k := by
  unfold Mesh.kindOf
  simp only [Operations.requestResponse, Operations.fireAndForget, Operations.requestStream,
    Operations.requestChannel]
  by_cases h1 : t = 1
  · subst h1; cases k <;> simp [kindNumber]
  by_cases h2 : t = 2
  · subst h2; cases k <;> simp [kindNumber]
  by_cases h3 : t = 3
  · subst h3; cases k <;> simp [kindNumber]
  by_cases h4 : t = 4
  · subst h4; cases k <;> simp [kindNumber]
  · cases k <;> simp [h1, h2, h3, h4, kindNumber]

theorem kindOf_inj {a b : UInt8} {k : Kind} (ha : Mesh.kindOf a = some k) (hb : Mesh.kindOf b = some k) : a = b := by
  rw [kindOf_iff] at ha hb
  rw [ha, hb]

/-- Invariant while operations are processed: `P` those processed, `all` every operation there will ever be. -/
structure MeshInv (all P : List InstOp) (s : Mesh.St) : Prop where
  sub : ∀ x ∈ P, x ∈ all
  exp_some : ∀ key d, s.exports.lookup key = some d → Offers P key d
  exp_none : ∀ key, s.exports.lookup key = none → ¬ Offered P key
  lens : ∀ i k, (s.tables i k).length < 2^32
  sound : ∀ i k index d, Mesh.callImport s i k index = some d →
    ∃ op, (i, op) ∈ P ∧ op.direction = 2 ∧ Mesh.kindOf op.type = some k ∧ op.index = index ∧
      Offers P (Mesh.keyOf op) d
  done : ∀ u ∈ meshImports P, u ∈ s.unsatisfied ∨ Linked P s u
  uns : ∀ u ∈ s.unsatisfied, u ∈ meshImports P
  same : ∀ q : Mesh.Key → Bool, (∀ key, Offered P key → q key = false) →
    s.unsatisfied.filter (fun u => q (Mesh.keyOf u.oper)) =
      (meshImports P).filter (fun u => q (Mesh.keyOf u.oper))

/-- Setting the handler of an import to an offered destination. -/
theorem link_ok {all P : List InstOp} (hw : WF all) {s : Mesh.St} (I : MeshInv all P s) (i : Nat) (op : Operation)
    (hin : (i, op) ∈ all) (himp : op.direction = 2) :
    (∃ s', Mesh.linkOperation s i op = .ok (some s') ∧ s'.exports = s.exports ∧ s'.unsatisfied = s.unsatisfied ∧
      (∃ d, Offers P (Mesh.keyOf op) d) ∧
      (∀ a k b, (s'.tables a k).length < 2^32 ∧
        (Mesh.callImport s' a k b = Mesh.callImport s a k b ∨
          (a = i ∧ Mesh.kindOf op.type = some k ∧ b = op.index ∧
            ∃ d, Mesh.callImport s' a k b = some d ∧ Offers P (Mesh.keyOf op) d))) ∧
      (∀ k, Mesh.kindOf op.type = some k →
        ∃ d, Mesh.callImport s' i k op.index = some d ∧ Offers P (Mesh.keyOf op) d)) ∨
    (Mesh.linkOperation s i op = .ok none ∧ ¬ Offered P (Mesh.keyOf op)) := by
  unfold Mesh.linkOperation
  cases hl : s.exports.lookup (Mesh.keyOf op) with
  | none => exact Or.inr ⟨rfl, I.exp_none _ hl⟩
  | some d =>
    left
    have hof := I.exp_some _ _ hl
    cases hk : Mesh.kindOf op.type with
    | none =>
      exact ⟨s, rfl, rfl, rfl, ⟨d, hof⟩, fun a k b => ⟨I.lens a k, Or.inl rfl⟩, fun k hk' => by cases hk'⟩
    | some k =>
      obtain ⟨l, e, hlen, hget⟩ := setHandler_ok (s.tables i k) op.index d (hw.small i op hin himp) (I.lens i k)
      refine ⟨{ s with tables := fun a k' => if a = i ∧ k' = k then l else s.tables a k' }, ?_, rfl, rfl, ⟨d, hof⟩, ?_, ?_⟩
      · simp [Mesh.setTable, e]
      · intro a k' b
        by_cases ha : a = i ∧ k' = k
        · obtain ⟨rfl, rfl⟩ := ha
          refine ⟨by simpa using hlen, ?_⟩
          by_cases hb : op.index = b
          · right
            refine ⟨rfl, rfl, hb.symm, d, ?_, hof⟩
            simp [Mesh.callImport, hget, hb]
          · left
            simp [Mesh.callImport, hget, hb]
        · refine ⟨by simpa [ha] using I.lens a k', Or.inl ?_⟩
          simp [Mesh.callImport, ha]
      · intro k' hk'
        cases hk'
        refine ⟨d, ?_, hof⟩
        simp [Mesh.callImport, hget]

/-- What a call through a table finds after one link. -/
theorem linked_keeps {all P Q : List InstOp} (hw : WF all) {s s' : Mesh.St} (hs : ∀ x ∈ P, x ∈ Q)
    (i : Nat) (op : Operation) (hin : (i, op) ∈ all) (himp : op.direction = 2)
    (ht : ∀ a k b, (s'.tables a k).length < 2^32 ∧
        (Mesh.callImport s' a k b = Mesh.callImport s a k b ∨
          (a = i ∧ Mesh.kindOf op.type = some k ∧ b = op.index ∧
            ∃ d, Mesh.callImport s' a k b = some d ∧ Offers P (Mesh.keyOf op) d)))
    (u : Mesh.Pending) (hu : (u.inst, u.oper) ∈ all) (hud : u.oper.direction = 2) (h : Linked P s u) :
    Linked Q s' u := by
  intro k hk
  obtain ⟨d, h1, h2⟩ := h k hk
  rcases (ht u.inst k u.oper.index).2 with h3 | ⟨h3, h4, h5, d', h6, h7⟩
  · exact ⟨d, by rw [h3, h1], h2.mono hs⟩
  · refine ⟨d', h6, ?_⟩
    have : Mesh.keyOf u.oper = Mesh.keyOf op :=
      hw.own i u.oper op (h3 ▸ hu) hin hud himp (kindOf_inj hk h4) h5
    rw [this]
    exact h7.mono hs

theorem linkOne_inv {all P : List InstOp} (hw : WF all) {s : Mesh.St} (I : MeshInv all P s) (n i : Nat) (op : Operation)
    (hin : (i, op) ∈ all) (hn : n = 0 → ∀ u ∈ s.unsatisfied, ¬ Offered P (Mesh.keyOf u.oper)) :
    ∃ s' n', Mesh.linkOne s n i op = .ok (s', n') ∧ MeshInv all (P ++ [(i, op)]) s' ∧
      (n' = 0 → ∀ u ∈ s'.unsatisfied, ¬ Offered (P ++ [(i, op)]) (Mesh.keyOf u.oper)) := by
  have hsub : ∀ x ∈ P, x ∈ P ++ [(i, op)] := fun x hx => List.mem_append_left _ hx
  have hsub' : ∀ x ∈ P ++ [(i, op)], x ∈ all := by
    intro x hx
    rcases List.mem_append.mp hx with hx | hx
    · exact I.sub x hx
    · rw [List.mem_singleton] at hx; rw [hx]; exact hin
  unfold Mesh.linkOne
  by_cases h1 : op.direction = 1
  · -- an export
    have hne2 : ¬ op.direction = 2 := by rw [h1]; decide
    have himp : meshImports (P ++ [(i, op)]) = meshImports P := by
      rw [meshImports_append]; simp [meshImports, hne2]
    rw [if_pos (by rw [h1]; rfl)]
    refine ⟨_, _, rfl, ?_, fun h => by omega⟩
    constructor
    · exact hsub'
    · intro key d hl
      simp only [List.lookup_cons] at hl
      split at hl
      · rename_i hk
        cases hl
        exact ⟨op, by simp, h1, (beq_iff_eq.mp hk).symm, rfl⟩
      · exact (I.exp_some key d hl).mono hsub
    · intro key hl
      simp only [List.lookup_cons] at hl
      split at hl
      · cases hl
      · rename_i hk
        rintro ⟨d, op', hm, hd, hk', hx⟩
        rcases List.mem_append.mp hm with hm | hm
        · exact I.exp_none key hl ⟨d, op', hm, hd, hk', hx⟩
        · rw [List.mem_singleton] at hm
          cases hm
          rw [hk'] at hk
          simp at hk
    · exact I.lens
    · intro a k b d hc
      obtain ⟨op', h2, h3, h4, h5, h6⟩ := I.sound a k b d hc
      exact ⟨op', hsub _ h2, h3, h4, h5, h6.mono hsub⟩
    · intro u hu
      rw [himp] at hu
      rcases I.done u hu with h | h
      · exact Or.inl h
      · right
        intro k hk
        obtain ⟨d, h2, h3⟩ := h k hk
        exact ⟨d, h2, h3.mono hsub⟩
    · intro u hu
      rw [himp]
      exact I.uns u hu
    · intro q hq
      rw [himp]
      exact I.same q (fun key hk => hq key (hk.mono hsub))
  · have hoff : ∀ key, Offered (P ++ [(i, op)]) key → Offered P key := by
      rintro key ⟨d, op', hm, hd, hk', hx⟩
      rcases List.mem_append.mp hm with hm | hm
      · exact ⟨d, op', hm, hd, hk', hx⟩
      · rw [List.mem_singleton] at hm
        cases hm
        exact absurd hd h1
    rw [if_neg (by intro h; exact h1 h)]
    by_cases h2 : op.direction = 2
    · -- an import
      rw [if_pos (by rw [h2]; rfl)]
      have himp : meshImports (P ++ [(i, op)]) = meshImports P ++ [⟨i, op⟩] := by
        rw [meshImports_append]; simp [meshImports, h2]
      rcases link_ok hw I i op hin h2 with ⟨s', e, e1, e2, ⟨d0, hd0⟩, ht, hl⟩ | ⟨e, hno⟩
      · refine ⟨s', n, by simp [e], ?_, ?_⟩
        · constructor
          · exact hsub'
          · intro key d h
            rw [e1] at h
            exact (I.exp_some key d h).mono hsub
          · intro key h
            rw [e1] at h
            exact fun ho => I.exp_none key h (hoff key ho)
          · exact fun a k => (ht a k 0).1
          · intro a k b d hc
            rcases (ht a k b).2 with h3 | ⟨h3, h4, h5, d', h6, h7⟩
            · rw [h3] at hc
              obtain ⟨op', g2, g3, g4, g5, g6⟩ := I.sound a k b d hc
              exact ⟨op', hsub _ g2, g3, g4, g5, g6.mono hsub⟩
            · rw [hc] at h6
              cases h6
              exact ⟨op, by simp [h3], h2, h4, h5.symm, h7.mono hsub⟩
          · intro u hu
            rw [himp] at hu
            rcases List.mem_append.mp hu with hu | hu
            · rcases I.done u hu with h | h
              · exact Or.inl (by rw [e2]; exact h)
              · right
                have hm := (mem_meshImports P u).mp hu
                exact linked_keeps hw hsub i op hin h2 ht u (I.sub _ hm.1) hm.2 h
            · right
              rw [List.mem_singleton] at hu
              subst hu
              intro k hk
              obtain ⟨d, g1, g2⟩ := hl k hk
              exact ⟨d, g1, g2.mono hsub⟩
          · intro u hu
            rw [e2] at hu
            rw [himp]
            exact List.mem_append_left _ (I.uns u hu)
          · intro q hq
            rw [himp, e2, List.filter_append, I.same q (fun key hk => hq key (hk.mono hsub))]
            have : q (Mesh.keyOf op) = false := hq _ ⟨d0, hd0.mono hsub⟩
            simp [this]
        · intro h0 u hu
          rw [e2] at hu
          exact fun ho => hn h0 u hu (hoff _ ho)
      · refine ⟨{ s with unsatisfied := s.unsatisfied ++ [⟨i, op⟩] }, n, by simp [e], ?_, ?_⟩
        · constructor
          · exact hsub'
          · exact fun key d h => (I.exp_some key d h).mono hsub
          · exact fun key h ho => I.exp_none key h (hoff key ho)
          · exact I.lens
          · intro a k b d hc
            obtain ⟨op', g2, g3, g4, g5, g6⟩ := I.sound a k b d hc
            exact ⟨op', hsub _ g2, g3, g4, g5, g6.mono hsub⟩
          · intro u hu
            rw [himp] at hu
            rcases List.mem_append.mp hu with hu | hu
            · rcases I.done u hu with h | h
              · exact Or.inl (List.mem_append_left _ h)
              · right
                intro k hk
                obtain ⟨d, g1, g2⟩ := h k hk
                exact ⟨d, g1, g2.mono hsub⟩
            · exact Or.inl (List.mem_append_right _ hu)
          · intro u hu
            rw [himp]
            rcases List.mem_append.mp hu with hu | hu
            · exact List.mem_append_left _ (I.uns u hu)
            · exact List.mem_append_right _ hu
          · intro q hq
            rw [himp, List.filter_append, List.filter_append,
              I.same q (fun key hk => hq key (hk.mono hsub))]
        · intro h0 u hu
          rcases List.mem_append.mp hu with hu | hu
          · exact fun ho => hn h0 u hu (hoff _ ho)
          · rw [List.mem_singleton] at hu
            subst hu
            exact fun ho => hno (hoff _ ho)
    · -- anything else
      rw [if_neg (by intro h; exact h2 h)]
      have himp : meshImports (P ++ [(i, op)]) = meshImports P := by
        rw [meshImports_append]; simp [meshImports, h2]
      refine ⟨s, n, rfl, ?_, fun h0 u hu ho => hn h0 u hu (hoff _ ho)⟩
      constructor
      · exact hsub'
      · exact fun key d h => (I.exp_some key d h).mono hsub
      · exact fun key h ho => I.exp_none key h (hoff key ho)
      · exact I.lens
      · intro a k b d hc
        obtain ⟨op', g2, g3, g4, g5, g6⟩ := I.sound a k b d hc
        exact ⟨op', hsub _ g2, g3, g4, g5, g6.mono hsub⟩
      · intro u hu
        rw [himp] at hu
        rcases I.done u hu with h | h
        · exact Or.inl h
        · right
          intro k hk
          obtain ⟨d, g1, g2⟩ := h k hk
          exact ⟨d, g1, g2.mono hsub⟩
      · intro u hu
        rw [himp]
        exact I.uns u hu
      · intro q hq
        rw [himp]
        exact I.same q (fun key hk => hq key (hk.mono hsub))

theorem linkAll_inv {all : List InstOp} (hw : WF all) (i : Nat) (ops : List Operation) :
    ∀ (P : List InstOp) (s : Mesh.St) (n : Nat), MeshInv all P s → (∀ op ∈ ops, (i, op) ∈ all) →
    (n = 0 → ∀ u ∈ s.unsatisfied, ¬ Offered P (Mesh.keyOf u.oper)) →
    ∃ s' n', Mesh.linkAll s n i ops = .ok (s', n') ∧ MeshInv all (P ++ ops.map (fun op => (i, op))) s' ∧
      (n' = 0 → ∀ u ∈ s'.unsatisfied, ¬ Offered (P ++ ops.map (fun op => (i, op))) (Mesh.keyOf u.oper)) := by
  induction ops with
  | nil => intro P s n I _ hn; exact ⟨s, n, rfl, by simpa using I, by simpa using hn⟩
  | cons op ops ih =>
    intro P s n I hin hn
    obtain ⟨s1, n1, e1, I1, hn1⟩ := linkOne_inv hw I n i op (hin op List.mem_cons_self) hn
    obtain ⟨s2, n2, e2, I2, hn2⟩ := ih _ s1 n1 I1 (fun o ho => hin o (List.mem_cons_of_mem _ ho)) hn1
    refine ⟨s2, n2, by simp [Mesh.linkAll, e1, e2], ?_, ?_⟩
    · simpa using I2
    · simpa using hn2

/-- Trying the unsatisfied imports again: the rest of them, `us`, and what stays, `kept`. -/
theorem retry_inv {all P : List InstOp} (hw : WF all) (us : List Mesh.Pending) :
    ∀ (s : Mesh.St), MeshInv all P s → (∀ u ∈ us, u ∈ meshImports P) →
    ∃ s' l, Mesh.retry s us = .ok (s', l) ∧ MeshInv all P s' ∧ s'.unsatisfied = s.unsatisfied ∧
      (∀ u ∈ us, u ∈ l ∨ Linked P s' u) ∧ (∀ u ∈ meshImports P, Linked P s u → Linked P s' u) ∧
      ∀ q : Mesh.Key → Bool, (∀ key, q key = true ↔ ¬ Offered P key) →
        l = us.filter (fun u => q (Mesh.keyOf u.oper)) := by
  induction us with
  | nil => intro s I _; exact ⟨s, [], rfl, I, rfl, by simp, fun u _ h => h, by simp⟩
  | cons u us ih =>
    intro s I hin
    obtain ⟨hu1, hu2⟩ := (mem_meshImports P u).mp (hin u List.mem_cons_self)
    have hin' : ∀ v ∈ us, v ∈ meshImports P := fun v hv => hin v (List.mem_cons_of_mem _ hv)
    rcases link_ok hw I u.inst u.oper (I.sub _ hu1) hu2 with ⟨s1, e, e1, e2, ⟨d0, hd0⟩, ht, hl⟩ | ⟨e, hno⟩
    · have keeps : ∀ v ∈ meshImports P, Linked P s v → Linked P s1 v := by
        intro v hv h
        have hm := (mem_meshImports P v).mp hv
        exact linked_keeps hw (fun x hx => hx) u.inst u.oper (I.sub _ hu1) hu2 ht v (I.sub _ hm.1) hm.2 h
      have I1 : MeshInv all P s1 := by
        constructor
        · exact I.sub
        · rw [e1]; exact I.exp_some
        · rw [e1]; exact I.exp_none
        · exact fun a k => (ht a k 0).1
        · intro a k b d hc
          rcases (ht a k b).2 with h3 | ⟨h3, h4, h5, d', h6, h7⟩
          · rw [h3] at hc
            exact I.sound a k b d hc
          · rw [hc] at h6
            cases h6
            exact ⟨u.oper, by rw [h3]; exact hu1, hu2, h4, h5.symm, h7⟩
        · intro v hv
          rcases I.done v hv with h | h
          · exact Or.inl (by rw [e2]; exact h)
          · exact Or.inr (keeps v hv h)
        · rw [e2]; exact I.uns
        · rw [e2]; exact I.same
      obtain ⟨s2, l, f1, f2, f3, f4, f5, f6⟩ := ih s1 I1 hin'
      refine ⟨s2, l, by simp [Mesh.retry, e, f1], f2, by rw [f3, e2], ?_, fun v hv h => f5 v hv (keeps v hv h), ?_⟩
      · intro v hv
        rcases List.mem_cons.mp hv with rfl | hv
        · exact Or.inr (f5 v (hin v List.mem_cons_self) hl)
        · exact f4 v hv
      · intro q hq
        have : q (Mesh.keyOf u.oper) = false := by
          rw [Bool.eq_false_iff]
          intro h
          exact (hq _).mp h ⟨d0, hd0⟩
        rw [f6 q hq]
        simp [this]
    · obtain ⟨s2, l, f1, f2, f3, f4, f5, f6⟩ := ih s I hin'
      refine ⟨s2, u :: l, by simp [Mesh.retry, e, f1], f2, f3, ?_, f5, ?_⟩
      · intro v hv
        rcases List.mem_cons.mp hv with rfl | hv
        · exact Or.inl List.mem_cons_self
        · rcases f4 v hv with h | h
          · exact Or.inl (List.mem_cons_of_mem _ h)
          · exact Or.inr h
      · intro q hq
        rw [f6 q hq]
        simp [(hq _).mpr hno]

/-- Between loads: the unsatisfied imports are exactly those not offered. -/
structure MDone (all P : List InstOp) (s : Mesh.St) : Prop where
  inv : MeshInv all P s
  rest : ∀ u ∈ s.unsatisfied, ¬ Offered P (Mesh.keyOf u.oper)

theorem linkOperations_inv {all P : List InstOp} (hw : WF all) {s : Mesh.St} (D : MDone all P s) (i : Nat) (t : Table)
    (hin : ∀ op ∈ t, (i, op) ∈ all) :
    ∃ s', Mesh.linkOperations s i t = .ok s' ∧ MDone all (P ++ t.map (fun op => (i, op))) s' := by
  obtain ⟨s1, n, e1, I1, hn⟩ := linkAll_inv hw i t P s 0 D.inv hin (fun _ => D.rest)
  unfold Mesh.linkOperations
  rw [e1]
  simp only [Go.bind_ok]
  by_cases hc : n > 0 ∧ s1.unsatisfied.length > 0
  · rw [if_pos hc]
    obtain ⟨s2, l, f1, f2, f3, f4, f5, f6⟩ := retry_inv hw s1.unsatisfied s1 I1 I1.uns
    classical
    have hl := f6 (fun key => decide (¬ Offered (P ++ t.map (fun op => (i, op))) key)) (fun key => by simp)
    refine ⟨{ s2 with unsatisfied := l }, by simp [f1], ?_, ?_⟩
    · constructor
      · exact f2.sub
      · exact f2.exp_some
      · exact f2.exp_none
      · exact f2.lens
      · exact f2.sound
      · intro u hu
        rcases I1.done u hu with h | h
        · exact f4 u h
        · exact Or.inr (f5 u hu h)
      · intro u hu
        have hu : u ∈ l := hu
        rw [hl] at hu
        exact I1.uns u (List.mem_filter.mp hu).1
      · intro q hq
        rw [← I1.same q hq]
        show l.filter _ = _
        rw [hl, List.filter_filter]
        apply List.filter_congr
        intro u _
        by_cases ho : Offered (P ++ t.map (fun op => (i, op))) (Mesh.keyOf u.oper)
        · simp [hq _ ho]
        · simp [ho]
    · intro u hu
      have hu : u ∈ l := hu
      rw [hl] at hu
      have := (List.mem_filter.mp hu).2
      simpa using this
  · rw [if_neg hc]
    refine ⟨s1, rfl, I1, ?_⟩
    by_cases h0 : n = 0
    · exact hn h0
    · intro u hu
      have : s1.unsatisfied.length > 0 := List.length_pos_of_mem hu
      exact absurd ⟨by omega, this⟩ hc

/-- All operations of the modules, the first of which is instance `n`. -/
def allOps : Nat → List (Bytes × Table) → List InstOp
  | _, [] => []
  | n, (_, t) :: ms => t.map (fun op => (n, op)) ++ allOps (n + 1) ms

theorem mem_allOps (ms : List (Bytes × Table)) : ∀ (n i : Nat) (op : Operation),
    (i, op) ∈ allOps n ms ↔ n ≤ i ∧ Has ms (i - n) op := by
  induction ms with
  | nil => intro n i op; simp [allOps, Has]
  | cons m ms ih =>
    intro n i op
    obtain ⟨f, t⟩ := m
    simp only [allOps, List.mem_append, List.mem_map, Prod.mk.injEq, ih]
    by_cases h : n = i
    · subst h
      simp only [Has, true_and, Nat.sub_self, List.getElem?_cons_zero, Nat.le_refl, Option.some.injEq, Prod.mk.injEq]
      constructor
      · rintro (⟨a, h1, rfl⟩ | ⟨h1, _⟩)
        · exact ⟨f, t, ⟨rfl, rfl⟩, h1⟩
        · omega
      · rintro ⟨_, _, ⟨rfl, rfl⟩, h1⟩
        exact Or.inl ⟨op, h1, rfl⟩
    · by_cases h2 : n ≤ i
      · have e : i - n = (i - (n + 1)) + 1 := by omega
        have h3 : n + 1 ≤ i := by omega
        have h4 : n ≤ i := by omega
        rw [e]
        simp [Has, h, h3, h4]
      · have h3 : ¬ n + 1 ≤ i := by omega
        simp [h, h2, h3]

theorem mdone_instances {all P : List InstOp} {s : Mesh.St} (D : MDone all P s) (l : List (Bytes × Nat)) :
    MDone all P { s with instances := l } :=
  ⟨⟨D.inv.sub, D.inv.exp_some, D.inv.exp_none, D.inv.lens, D.inv.sound, D.inv.done, D.inv.uns, D.inv.same⟩, D.rest⟩

theorem loadAll_inv {all : List InstOp} (hw : WF all) (ms : List (Bytes × Table)) :
    ∀ (n : Nat) (P : List InstOp) (s : Mesh.St), MDone all P s → (∀ x ∈ allOps n ms, x ∈ all) →
    ∃ s', Mesh.loadAll s n ms = .ok s' ∧ MDone all (P ++ allOps n ms) s' := by
  induction ms with
  | nil => intro n P s D _; exact ⟨s, rfl, by simpa [allOps] using D⟩
  | cons m ms ih =>
    intro n P s D hin
    obtain ⟨f, t⟩ := m
    obtain ⟨s1, e1, D1⟩ := linkOperations_inv hw (mdone_instances D ((f, n) :: s.instances)) n t (by
      intro op hop
      apply hin
      exact List.mem_append_left _ (List.mem_map.mpr ⟨op, hop, rfl⟩))
    obtain ⟨s2, e2, D2⟩ := ih (n + 1) _ s1 D1 (fun x hx => hin x (List.mem_append_right _ hx))
    refine ⟨s2, by simp [Mesh.loadAll, Mesh.loadModule, e1, e2], ?_⟩
    simpa [allOps] using D2

theorem mdone_init (all : List InstOp) : MDone all [] .init := by
  refine ⟨⟨by simp, by simp [Mesh.St.init], ?_, by simp [Mesh.St.init], ?_, by simp [meshImports], by simp [Mesh.St.init],
    by simp [Mesh.St.init, meshImports]⟩, by simp [Mesh.St.init]⟩
  · rintro key _ ⟨d, op, h, _⟩
    cases h
  · intro i k index d h
    simp [Mesh.callImport, Mesh.St.init, WasmRecv.getHandler] at h

theorem wellFormed_wf {ms : List (Bytes × Table)} (h : WellFormed ms) : WF (allOps 0 ms) := by
  constructor
  · intro i op hm hd
    have := (mem_allOps ms 0 i op).mp hm
    exact h.small i op ⟨by simpa using this.2, hd⟩
  · intro i op op' hm hm' hd hd' ht hx
    have h1 := (mem_allOps ms 0 i op).mp hm
    have h2 := (mem_allOps ms 0 i op').mp hm'
    have := h.own i op op' ⟨by simpa using h1.2, hd⟩ ⟨by simpa using h2.2, hd'⟩ ht hx
    simp [Mesh.keyOf, this]

theorem has_allOps (ms : List (Bytes × Table)) (i : Nat) (op : Operation) : (i, op) ∈ allOps 0 ms ↔ Has ms i op := by
  rw [mem_allOps]; simp

/-- The same name, whatever the request type: what the code compares. -/
def SameName (a b : Operation) : Prop := a.ns = b.ns ∧ a.operation = b.operation

instance (a b : Operation) : Decidable (SameName a b) := inferInstanceAs (Decidable (_ ∧ _))

theorem offered_iff (ms : List (Bytes × Table)) (op : Operation) :
    Offered (allOps 0 ms) (Mesh.keyOf op) ↔ ∃ j e, Exports ms j e ∧ SameName op e := by
  constructor
  · rintro ⟨d, e, h1, h2, h3, _⟩
    refine ⟨d.inst, e, ⟨(has_allOps ms _ _).mp h1, h2⟩, ?_⟩
    simp only [Mesh.keyOf, Prod.mk.injEq] at h3
    exact ⟨h3.1.symm, h3.2.symm⟩
  · rintro ⟨j, e, ⟨h1, h2⟩, h3⟩
    exact ⟨⟨j, e.index⟩, e, (has_allOps ms _ _).mpr h1, h2, by simp [Mesh.keyOf, h3.1, h3.2], rfl⟩

/-- C66 as far as names go: for all modules in all orders, loading succeeds; a call through an import goes to an
export of the same name if any module loaded so far has one - whether it was loaded before or after the importer; a
call through anything else goes nowhere; and the unsatisfied imports are the others, in order, each
once. -/
theorem C66_names_partial (ms : List (Bytes × Table)) (hw : WellFormed ms) :
    ∃ s, Mesh.load ms = .ok s ∧
      (∀ i op k, Imports ms i op → op.type = kindNumber k → (∃ j e, Exports ms j e ∧ SameName op e) →
        ∃ j e, Exports ms j e ∧ SameName op e ∧ Mesh.callImport s i k op.index = some ⟨j, e.index⟩) ∧
      (∀ i k index d, Mesh.callImport s i k index = some d →
        ∃ op e, Imports ms i op ∧ op.type = kindNumber k ∧ op.index = index ∧ Exports ms d.inst e ∧
          SameName op e ∧ e.index = d.index) ∧
      (∀ u, u ∈ s.unsatisfied ↔ Imports ms u.inst u.oper ∧ ¬ ∃ j e, Exports ms j e ∧ SameName u.oper e) ∧
      (∀ q : Bytes × Bytes → Bool, (∀ op, q (op.ns, op.operation) = true ↔ ¬ ∃ j e, Exports ms j e ∧ SameName op e) →
        s.unsatisfied = (meshImports (allOps 0 ms)).filter (fun u => q (u.oper.ns, u.oper.operation))) := by
  obtain ⟨s, e, D⟩ := loadAll_inv (wellFormed_wf hw) ms 0 [] .init (mdone_init _) (fun x hx => hx)
  simp only [List.nil_append] at D
  have himp : ∀ i op, (⟨i, op⟩ : Mesh.Pending) ∈ meshImports (allOps 0 ms) ↔ Imports ms i op := by
    intro i op
    rw [mem_meshImports, has_allOps]
    rfl
  have hq : ∀ q : Bytes × Bytes → Bool,
      (∀ op : Operation, q (op.ns, op.operation) = true ↔ ¬ ∃ j e, Exports ms j e ∧ SameName op e) →
        s.unsatisfied = (meshImports (allOps 0 ms)).filter (fun u => q (u.oper.ns, u.oper.operation)) := by
    intro q hq
    have hsame := D.inv.same q
    simp only [Mesh.keyOf] at hsame
    rw [← hsame]
    · symm
      apply List.filter_eq_self.mpr
      intro u hu
      have := D.rest u hu
      rw [offered_iff] at this
      exact (hq u.oper).mpr this
    · intro key ho
      obtain ⟨ns, name⟩ := key
      have h1 := offered_iff ms ⟨0, 0, 0, ns, name⟩
      have h2 := hq ⟨0, 0, 0, ns, name⟩
      rw [Bool.eq_false_iff]
      intro h
      exact h2.mp h (h1.mp ho)
  refine ⟨s, e, ?_, ?_, ?_, hq⟩
  · intro i op k hi hk hx
    have hk' := (kindOf_iff op.type k).mpr hk
    rcases D.inv.done ⟨i, op⟩ ((himp i op).mpr hi) with h | h
    · exact absurd ((offered_iff ms op).mpr hx) (D.rest _ h)
    · obtain ⟨d, h1, o, h2, h3, h4, h5⟩ := h k hk'
      simp only [Mesh.keyOf, Prod.mk.injEq] at h4
      exact ⟨d.inst, o, ⟨(has_allOps ms _ _).mp h2, h3⟩, ⟨h4.1.symm, h4.2.symm⟩, by rw [h1, h5]⟩
  · intro i k index d hc
    obtain ⟨op, h1, h2, h3, h4, o, h5, h6, h7, h8⟩ := D.inv.sound i k index d hc
    simp only [Mesh.keyOf, Prod.mk.injEq] at h7
    exact ⟨op, o, ⟨(has_allOps ms _ _).mp h1, h2⟩, (kindOf_iff _ _).mp h3, h4, ⟨(has_allOps ms _ _).mp h5, h6⟩,
      ⟨h7.1.symm, h7.2.symm⟩, h8⟩
  · intro u
    constructor
    · intro hu
      refine ⟨(himp u.inst u.oper).mp (D.inv.uns u hu), ?_⟩
      have := D.rest u hu
      rwa [offered_iff] at this
    · rintro ⟨h1, h2⟩
      classical
      rw [hq (fun key => decide (¬ ∃ j e, Exports ms j e ∧ SameName ⟨0, 0, 0, key.1, key.2⟩ e))
        (fun op => by simp [SameName])]
      refine List.mem_filter.mpr ⟨(himp u.inst u.oper).mpr h1, ?_⟩
      simpa [SameName] using h2

/-- C66, the part that holds: if operations of one name have one request type throughout the modules. Missing:
modules that disagree on the type of an operation. -/
theorem C66_link_partial (ms : List (Bytes × Table)) (hw : WellFormed ms)
    (hty : ∀ i op j e, Imports ms i op → Exports ms j e → SameName op e → op.type = e.type) :
    ∃ s, Mesh.load ms = .ok s ∧
    (∀ i op k, Imports ms i op → op.type = kindNumber k → (∃ j e, Exports ms j e ∧ SameOp op e) →
      ∃ j e, Exports ms j e ∧ SameOp op e ∧ Mesh.callImport s i k op.index = some ⟨j, e.index⟩) ∧
    (∀ u, u ∈ s.unsatisfied ↔ Imports ms u.inst u.oper ∧ ¬ ∃ j e, Exports ms j e ∧ SameOp u.oper e) := by
  obtain ⟨s, h1, h2, _, h3, _⟩ := C66_names_partial ms hw
  refine ⟨s, h1, ?_, ?_⟩
  · rintro i op k hi hk ⟨j, e, he, ha, hb, _⟩
    obtain ⟨j', e', he', hs', hc⟩ := h2 i op k hi hk ⟨j, e, he, ha, hb⟩
    exact ⟨j', e', he', ⟨hs'.1, hs'.2, hty i op j' e' hi he' hs'⟩, hc⟩
  · intro u
    rw [h3]
    constructor
    · rintro ⟨hi, hn⟩
      exact ⟨hi, fun ⟨j, e, he, ha, hb, _⟩ => hn ⟨j, e, he, ha, hb⟩⟩
    · rintro ⟨hi, hn⟩
      exact ⟨hi, fun ⟨j, e, he, hs⟩ => hn ⟨j, e, he, hs.1, hs.2, hty u.inst u.oper j e hi he hs⟩⟩

/-- An operation with one-letter names. -/
def oper (dir type : UInt8) (name : UInt8) (index : UInt32) : Operation := ⟨index, type, dir, [0x6e], [name]⟩

/-- Module 0 exports f as request/response (index 5), module 1 as a stream (index 9), module 2 imports the former. -/
def twoTypes : List (Bytes × Table) :=
  [([0], [oper 1 1 0x66 5]), ([1], [oper 1 3 0x66 9]), ([2], [oper 2 1 0x66 0])]

/-- Where a call through an import goes after loading. -/
def linkAfter (ms : List (Bytes × Table)) (i : Nat) (k : Kind) (index : UInt32) : Option Mesh.Dest :=
  match Mesh.load ms with
  | .ok s => Mesh.callImport s i k index
  | _ => none

theorem imports_iff (ms : List (Bytes × Table)) (i : Nat) (op : Operation) :
    Imports ms i op ↔ (⟨i, op⟩ : Mesh.Pending) ∈ meshImports (allOps 0 ms) := by
  rw [mem_meshImports, has_allOps]
  rfl

theorem twoTypes_wf : WellFormed twoTypes := by
  have h : ∀ i op, Imports twoTypes i op → i = 2 ∧ op = oper 2 1 0x66 0 := by
    intro i op hi
    rw [imports_iff] at hi
    have e : meshImports (allOps 0 twoTypes) = [⟨2, oper 2 1 0x66 0⟩] := by decide
    rw [e, List.mem_singleton] at hi
    cases hi
    exact ⟨rfl, rfl⟩
  constructor
  · intro i op hi
    obtain ⟨_, rfl⟩ := h i op hi
    exact ⟨.rr, by decide⟩
  · intro i op hi
    obtain ⟨_, rfl⟩ := h i op hi
    decide
  · intro i op op' hi hi' _ _
    obtain ⟨_, rfl⟩ := h i op hi
    obtain ⟨_, rfl⟩ := h i op' hi'
    exact ⟨rfl, rfl⟩

/-- C66 fails: exports are found by name alone, so the request/response import is linked to the stream and a call
goes to request/response operation 9 of module 1, whatever that is. -/
theorem C66_type_violated : ¬ C66_statement := by
  intro h
  obtain ⟨s, hs, h1, _⟩ := h twoTypes twoTypes_wf
  obtain ⟨j, e, ⟨⟨f, t, hj, hm⟩, hd⟩, ⟨_, _, ht⟩, hc⟩ := h1 2 (oper 2 1 0x66 0) .rr ⟨⟨[2], _, rfl, by simp⟩, rfl⟩ rfl
    ⟨0, oper 1 1 0x66 5, ⟨⟨[0], _, rfl, by simp⟩, rfl⟩, by decide⟩
  have hl : linkAfter twoTypes 2 .rr 0 = some ⟨1, 9⟩ := by decide
  unfold linkAfter at hl
  rw [hs] at hl
  simp only [] at hl
  rw [show (oper 2 1 0x66 0).index = 0 from rfl, hl] at hc
  simp only [Option.some.injEq, Mesh.Dest.mk.injEq] at hc
  obtain ⟨rfl, _⟩ := hc
  simp only [twoTypes, List.getElem?_cons_succ, List.getElem?_cons_zero, Option.some.injEq, Prod.mk.injEq] at hj
  obtain ⟨_, rfl⟩ := hj
  rw [List.mem_singleton] at hm
  subst hm
  exact absurd ht (by decide)

/-- Importer first, then the exporter, which also imports an operation nobody has. -/
def lateExport : List (Bytes × Table) :=
  [([0], [oper 2 1 0x66 0]), ([1], [oper 2 3 0x67 0, oper 1 1 0x66 4])]

theorem lateExport_imports (i : Nat) (op : Operation) :
    Imports lateExport i op ↔ (i = 0 ∧ op = oper 2 1 0x66 0) ∨ (i = 1 ∧ op = oper 2 3 0x67 0) := by
  rw [imports_iff]
  have e : meshImports (allOps 0 lateExport) = [⟨0, oper 2 1 0x66 0⟩, ⟨1, oper 2 3 0x67 0⟩] := by decide
  rw [e]
  simp

/-- The hypotheses of `C66_link_partial` are met, with a link made late and an import left over. -/
example : WellFormed lateExport ∧
    (∀ i op j e, Imports lateExport i op → Exports lateExport j e → SameName op e → op.type = e.type) ∧
    linkAfter lateExport 0 .rr 0 = some ⟨1, 4⟩ ∧ linkAfter lateExport 1 .rs 0 = none := by
  refine ⟨⟨?_, ?_, ?_⟩, ?_, by decide, by decide⟩
  · intro i op h
    rcases (lateExport_imports i op).mp h with ⟨_, rfl⟩ | ⟨_, rfl⟩
    · exact ⟨.rr, rfl⟩
    · exact ⟨.rs, rfl⟩
  · intro i op h
    rcases (lateExport_imports i op).mp h with ⟨_, rfl⟩ | ⟨_, rfl⟩ <;> decide
  · intro i op op' h h'
    rcases (lateExport_imports i op).mp h with ⟨h1, rfl⟩ | ⟨h1, rfl⟩ <;>
      rcases (lateExport_imports i op').mp h' with ⟨h2, rfl⟩ | ⟨h2, rfl⟩ <;> simp [oper] <;> omega
  · rintro i op j e h ⟨⟨f, t, hj, hm⟩, hd⟩
    have he : e = oper 1 1 0x66 4 := by
      match j with
      | 0 => simp only [lateExport, List.getElem?_cons_zero, Option.some.injEq, Prod.mk.injEq] at hj
             obtain ⟨_, rfl⟩ := hj
             rw [List.mem_singleton] at hm; subst hm; exact absurd hd (by decide)
      | 1 => simp only [lateExport, List.getElem?_cons_succ, List.getElem?_cons_zero, Option.some.injEq,
               Prod.mk.injEq] at hj
             obtain ⟨_, rfl⟩ := hj
             rcases List.mem_cons.mp hm with rfl | hm
             · exact absurd hd (by decide)
             · rwa [List.mem_singleton] at hm
      | n + 2 => simp [lateExport] at hj
    subst he
    rcases (lateExport_imports i op).mp h with ⟨_, rfl⟩ | ⟨_, rfl⟩ <;> decide

/-! ### C67 -/

/-- C67 as stated in English: a file is loaded again, exporting an operation some module imports; calls of that
module then go to the new instance (the last one, number `ms.length`). -/
def C67_statement : Prop :=
  ∀ (ms : List (Bytes × Table)) (f : Bytes) (t : Table) (s : Mesh.St) (j i : Nat) (op e : Operation) (k : Kind),
    WellFormed (ms ++ [(f, t)]) → ms[j]? = some (f, t) → e ∈ t → e.direction = 1 → Imports ms i op → SameOp op e →
    op.type = kindNumber k → Mesh.load (ms ++ [(f, t)]) = .ok s →
    ∃ d, Mesh.callImport s i k op.index = some d ∧ d.inst = ms.length

/-- An exporter and an importer. -/
def pair : List (Bytes × Table) := [([0], [oper 1 1 0x66 4]), ([1], [oper 2 1 0x66 0])]

/-- C67 fails: after the exporter is loaded again (as instance 2) calls still go to instance 0, which is closed
after five seconds. -/
theorem C67_stale_violated : linkAfter pair 1 .rr 0 = some ⟨0, 4⟩ ∧
    linkAfter (pair ++ [([0], [oper 1 1 0x66 4])]) 1 .rr 0 = some ⟨0, 4⟩ := by decide

/-- Nothing unsatisfied concerns this slot of this instance. -/
def SlotFree (s : Mesh.St) (i : Nat) (k : Kind) (index : UInt32) : Prop :=
  ∀ u ∈ s.unsatisfied, u.inst = i → Mesh.kindOf u.oper.type = some k → u.oper.index ≠ index

theorem link_other {s s' : Mesh.St} {a : Nat} {op : Operation} (h : Mesh.linkOperation s a op = .ok (some s'))
    (i : Nat) (k : Kind) (index : UInt32) (hl : ∀ i k, (s.tables i k).length < 2^32)
    (hne : a = i → Mesh.kindOf op.type = some k → op.index ≠ index) :
    Mesh.callImport s' i k index = Mesh.callImport s i k index ∧ s'.unsatisfied = s.unsatisfied ∧
      (∀ i k, (s'.tables i k).length < 2^32) := by
  unfold Mesh.linkOperation at h
  split at h
  · cases h
  · rename_i d _
    split at h
    · cases h; exact ⟨rfl, rfl, hl⟩
    · rename_i k' hk'
      obtain ⟨s1, h1, h⟩ := bind_ok_inv h
      cases h
      unfold Mesh.setTable at h1
      obtain ⟨l, h2, h1⟩ := bind_ok_inv h1
      cases h1
      by_cases hx : op.index = 0xFFFFFFFF
      · exfalso
        have hp : (WasmRecv.pad (s.tables a k') op.index).length = (s.tables a k').length := by
          rw [hx]; simp [WasmRecv.pad]
        unfold WasmRecv.setHandler at h2
        rw [if_neg] at h2
        · cases h2
        · rw [hp, hx]
          have := hl a k'
          show ¬ 4294967295 < _
          omega
      · obtain ⟨l', e, hlen, hget⟩ := setHandler_ok (s.tables a k') op.index d hx (hl a k')
        rw [e] at h2
        cases h2
        refine ⟨?_, rfl, ?_⟩
        · by_cases hai : i = a ∧ k = k'
          · obtain ⟨rfl, rfl⟩ := hai
            simp [Mesh.callImport, hget, hne rfl hk']
          · simp [Mesh.callImport, hai]
        · intro b c
          by_cases hbc : b = a ∧ c = k'
          · simp [hbc, hlen]
          · simp [hbc, hl b c]

theorem linkOne_other {s s' : Mesh.St} {n n' a : Nat} {op : Operation} (h : Mesh.linkOne s n a op = .ok (s', n'))
    {i : Nat} {k : Kind} {index : UInt32} (hl : ∀ i k, (s.tables i k).length < 2^32) (hai : a ≠ i)
    (hf : SlotFree s i k index) :
    Mesh.callImport s' i k index = Mesh.callImport s i k index ∧ SlotFree s' i k index ∧
      (∀ i k, (s'.tables i k).length < 2^32) := by
  unfold Mesh.linkOne at h
  split at h
  · cases h; exact ⟨rfl, hf, hl⟩
  split at h
  · obtain ⟨o, h1, h⟩ := bind_ok_inv h
    cases o with
    | some s1 =>
      cases h
      obtain ⟨g1, g2, g3⟩ := link_other h1 i k index hl (fun e => absurd e hai)
      refine ⟨g1, ?_, g3⟩
      unfold SlotFree
      rw [g2]
      exact hf
    | none =>
      cases h
      refine ⟨rfl, ?_, hl⟩
      intro u hu
      rcases List.mem_append.mp hu with hu | hu
      · exact hf u hu
      · rw [List.mem_singleton] at hu
        subst hu
        exact fun e => absurd e hai
  · cases h; exact ⟨rfl, hf, hl⟩

theorem linkAll_other {a i : Nat} {k : Kind} {index : UInt32} (hai : a ≠ i) (ops : List Operation) :
    ∀ (s s' : Mesh.St) (n n' : Nat), Mesh.linkAll s n a ops = .ok (s', n') →
    (∀ i k, (s.tables i k).length < 2^32) → SlotFree s i k index →
    Mesh.callImport s' i k index = Mesh.callImport s i k index ∧ SlotFree s' i k index ∧
      (∀ i k, (s'.tables i k).length < 2^32) := by
  induction ops with
  | nil => intro s s' n n' h hl hf; cases h; exact ⟨rfl, hf, hl⟩
  | cons op ops ih =>
    intro s s' n n' h hl hf
    simp only [Mesh.linkAll] at h
    obtain ⟨⟨s1, n1⟩, h1, h⟩ := bind_ok_inv h
    obtain ⟨g1, g2, g3⟩ := linkOne_other h1 hl hai hf
    obtain ⟨f1, f2, f3⟩ := ih s1 s' n1 n' h g3 g2
    exact ⟨by rw [f1, g1], f2, f3⟩

theorem retry_other {i : Nat} {k : Kind} {index : UInt32} (us : List Mesh.Pending) :
    ∀ (s s' : Mesh.St) (l : List Mesh.Pending), Mesh.retry s us = .ok (s', l) →
    (∀ i k, (s.tables i k).length < 2^32) →
    (∀ u ∈ us, u.inst = i → Mesh.kindOf u.oper.type = some k → u.oper.index ≠ index) →
    Mesh.callImport s' i k index = Mesh.callImport s i k index ∧ (∀ u ∈ l, u ∈ us) ∧
      (∀ i k, (s'.tables i k).length < 2^32) := by
  induction us with
  | nil => intro s s' l h hl hf; cases h; exact ⟨rfl, fun u hu => hu, hl⟩
  | cons u us ih =>
    intro s s' l h hl hf
    simp only [Mesh.retry] at h
    obtain ⟨o, h1, h⟩ := bind_ok_inv h
    have hf' : ∀ v ∈ us, v.inst = i → Mesh.kindOf v.oper.type = some k → v.oper.index ≠ index :=
      fun v hv => hf v (List.mem_cons_of_mem _ hv)
    cases o with
    | some s1 =>
      obtain ⟨g1, g2, g3⟩ := link_other h1 i k index hl (hf u List.mem_cons_self)
      obtain ⟨f1, f2, f3⟩ := ih s1 s' l h g3 hf'
      exact ⟨by rw [f1, g1], fun v hv => List.mem_cons_of_mem _ (f2 v hv), f3⟩
    | none =>
      obtain ⟨⟨s2, l2⟩, h2, h⟩ := bind_ok_inv h
      cases h
      obtain ⟨f1, f2, f3⟩ := ih s s2 l2 h2 hl hf'
      refine ⟨f1, ?_, f3⟩
      intro v hv
      rcases List.mem_cons.mp hv with rfl | hv
      · exact List.mem_cons_self
      · exact List.mem_cons_of_mem _ (f2 v hv)

theorem linkOperations_other {s s' : Mesh.St} {a : Nat} {t : Table} (h : Mesh.linkOperations s a t = .ok s')
    {i : Nat} {k : Kind} {index : UInt32} (hl : ∀ i k, (s.tables i k).length < 2^32) (hai : a ≠ i)
    (hf : SlotFree s i k index) :
    Mesh.callImport s' i k index = Mesh.callImport s i k index ∧ SlotFree s' i k index ∧
      (∀ i k, (s'.tables i k).length < 2^32) := by
  unfold Mesh.linkOperations at h
  obtain ⟨⟨s1, n⟩, h1, h⟩ := bind_ok_inv h
  obtain ⟨g1, g2, g3⟩ := linkAll_other hai t s s1 0 n h1 hl hf
  dsimp only at h
  split at h
  · obtain ⟨⟨s2, l⟩, h2, h⟩ := bind_ok_inv h
    cases h
    obtain ⟨f1, f2, f3⟩ := retry_other s1.unsatisfied s1 s2 l h2 g3 g2
    refine ⟨?_, fun u hu => g2 u (f2 u hu), f3⟩
    rw [← g1, ← f1]
    rfl
  · cases h
    exact ⟨g1, g2, g3⟩

theorem loadAll_other (more : List (Bytes × Table)) : ∀ (n : Nat) (s s' : Mesh.St), Mesh.loadAll s n more = .ok s' →
    ∀ {i : Nat} {k : Kind} {index : UInt32}, (∀ i k, (s.tables i k).length < 2^32) → i < n →
    SlotFree s i k index → Mesh.callImport s' i k index = Mesh.callImport s i k index := by
  induction more with
  | nil => intro n s s' h i k index _ _ _; cases h; rfl
  | cons m more ih =>
    intro n s s' h i k index hl hi hf
    obtain ⟨f, t⟩ := m
    simp only [Mesh.loadAll, Mesh.loadModule] at h
    obtain ⟨s1, h1, h⟩ := bind_ok_inv h
    obtain ⟨g1, g2, g3⟩ := linkOperations_other h1 (i := i) (k := k) (index := index) hl (by omega) hf
    rw [ih (n + 1) s1 s' h g3 (by omega) g2, g1]
    rfl

theorem loadAll_append (ms more : List (Bytes × Table)) : ∀ (n : Nat) (s : Mesh.St),
    Mesh.loadAll s n (ms ++ more) = (Mesh.loadAll s n ms >>= fun s' => Mesh.loadAll s' (n + ms.length) more) := by
  induction ms with
  | nil => intro n s; simp [Mesh.loadAll]
  | cons m ms ih =>
    intro n s
    obtain ⟨f, t⟩ := m
    simp only [List.cons_append, Mesh.loadAll, List.length_cons]
    cases h : Mesh.loadModule s n f t with
    | ok s1 =>
      simp only [Go.bind_ok]
      rw [ih]
      congr 1
      funext s2
      congr 1
      omega
    | err e => simp [Bind.bind, Go.bind]
    | panic => simp

/-- C67 fails in general: once a module is linked its calls keep going to the same instance, whatever is loaded
later. -/
theorem C67_links_never_change (ms more : List (Bytes × Table)) (hw : WellFormed ms) (s s' : Mesh.St)
    (h : Mesh.load ms = .ok s) (h' : Mesh.load (ms ++ more) = .ok s') (i : Nat) (k : Kind) (index : UInt32)
    (d : Mesh.Dest) (hi : i < ms.length) (hc : Mesh.callImport s i k index = some d) :
    Mesh.callImport s' i k index = some d := by
  obtain ⟨s1, e, D⟩ := loadAll_inv (wellFormed_wf hw) ms 0 [] .init (mdone_init _) (fun x hx => hx)
  simp only [List.nil_append] at D
  unfold Mesh.load at h h'
  rw [e] at h
  cases h
  rw [loadAll_append, e] at h'
  simp only [Go.bind_ok, Nat.zero_add] at h'
  rw [loadAll_other more ms.length s s' h' D.inv.lens hi ?_, hc]
  intro u hu hui huk hux
  obtain ⟨op, g1, g2, g3, g4, g5⟩ := D.inv.sound i k index d hc
  obtain ⟨u1, u2⟩ := (mem_meshImports _ _).mp (D.inv.uns u hu)
  have : Mesh.keyOf u.oper = Mesh.keyOf op :=
    (wellFormed_wf hw).own i u.oper op (hui ▸ u1) g1 u2 g2 (kindOf_inj huk g3) (by rw [hux, g4])
  exact D.rest u hu (this ▸ ⟨d, g5⟩)

theorem pair_wf (more : List (Bytes × Table)) (hm : ∀ m ∈ more, ∀ op ∈ m.2, op.direction ≠ 2) :
    WellFormed (pair ++ more) := by
  have h : ∀ i op, Imports (pair ++ more) i op → i = 1 ∧ op = oper 2 1 0x66 0 := by
    rintro i op ⟨⟨f, t, ht, hop⟩, hd⟩
    match i with
    | 0 =>
      simp only [pair, List.cons_append, List.getElem?_cons_zero, Option.some.injEq, Prod.mk.injEq] at ht
      obtain ⟨_, rfl⟩ := ht
      rw [List.mem_singleton] at hop; subst hop; exact absurd hd (by decide)
    | 1 =>
      simp only [pair, List.cons_append, List.getElem?_cons_succ, List.getElem?_cons_zero, Option.some.injEq,
        Prod.mk.injEq] at ht
      obtain ⟨_, rfl⟩ := ht
      rw [List.mem_singleton] at hop
      exact ⟨rfl, hop⟩
    | n + 2 =>
      simp only [pair, List.cons_append, List.getElem?_cons_succ, List.nil_append] at ht
      exact absurd hd (hm _ (List.mem_of_getElem? ht) op hop)
  constructor
  · intro i op hi
    obtain ⟨_, rfl⟩ := h i op hi
    exact ⟨.rr, by decide⟩
  · intro i op hi
    obtain ⟨_, rfl⟩ := h i op hi
    decide
  · intro i op op' hi hi' _ _
    obtain ⟨_, rfl⟩ := h i op hi
    obtain ⟨_, rfl⟩ := h i op' hi'
    exact ⟨rfl, rfl⟩

theorem C67_violated : ¬ C67_statement := by
  intro h
  have hwf := pair_wf [([0], [oper 1 1 0x66 4])] (by
    intro m hm op hop
    rw [List.mem_singleton] at hm
    subst hm
    rw [List.mem_singleton] at hop
    subst hop
    decide)
  obtain ⟨s, hs, _⟩ := C66_names_partial _ hwf
  obtain ⟨d, hd, hi⟩ := h pair [0] [oper 1 1 0x66 4] s 0 1 (oper 2 1 0x66 0) (oper 1 1 0x66 4) .rr hwf rfl
    List.mem_cons_self rfl ⟨⟨[1], _, rfl, List.mem_cons_self⟩, rfl⟩ (by decide) rfl hs
  have hl := C67_stale_violated.2
  unfold linkAfter at hl
  rw [hs] at hl
  simp only [] at hl
  rw [show (oper 2 1 0x66 0).index = 0 from rfl, hl] at hd
  cases hd
  exact absurd hi (by decide)

/-- The export of a name that comes last in a table. -/
def lastExport (key : Bytes × Bytes) (t : Table) : Option Operation :=
  (t.filter fun op => op.direction == 1 && (op.ns, op.operation) == key).getLast?

theorem linkOperation_exports {s s' : Mesh.St} {i : Nat} {op : Operation}
    (h : Mesh.linkOperation s i op = .ok (some s')) : s'.exports = s.exports := by
  unfold Mesh.linkOperation at h
  split at h
  · cases h
  · split at h
    · cases h; rfl
    · obtain ⟨s1, h1, h⟩ := bind_ok_inv h
      cases h
      unfold Mesh.setTable at h1
      obtain ⟨l, _, h1⟩ := bind_ok_inv h1
      cases h1
      rfl

theorem retry_exports (us : List Mesh.Pending) : ∀ (s s' : Mesh.St) (l : List Mesh.Pending),
    Mesh.retry s us = .ok (s', l) → s'.exports = s.exports := by
  induction us with
  | nil => intro s s' l h; cases h; rfl
  | cons u us ih =>
    intro s s' l h
    simp only [Mesh.retry] at h
    obtain ⟨o, h1, h⟩ := bind_ok_inv h
    cases o with
    | some s1 => rw [ih s1 s' l h, linkOperation_exports h1]
    | none =>
      obtain ⟨⟨s2, l2⟩, h2, h⟩ := bind_ok_inv h
      cases h
      exact ih s s2 l2 h2

theorem linkAll_exports (i : Nat) (key : Bytes × Bytes) (ops : List Operation) : ∀ (s s' : Mesh.St) (n n' : Nat),
    Mesh.linkAll s n i ops = .ok (s', n') →
    s'.exports.lookup key = ((lastExport key ops).map fun op => ⟨i, op.index⟩).or (s.exports.lookup key) := by
  induction ops with
  | nil => intro s s' n n' h; cases h; simp [lastExport]
  | cons op ops ih =>
    intro s s' n n' h
    simp only [Mesh.linkAll] at h
    obtain ⟨⟨s1, n1⟩, h1, h⟩ := bind_ok_inv h
    rw [ih s1 s' n1 n' h]
    unfold Mesh.linkOne at h1
    by_cases hd : op.direction = 1
    · rw [if_pos (by rw [hd]; rfl)] at h1
      cases h1
      simp only [List.lookup_cons, Mesh.keyOf, lastExport, List.filter_cons, hd, beq_self_eq_true, Bool.true_and]
      by_cases hk : (op.ns, op.operation) = key
      · subst hk
        simp only [beq_self_eq_true, if_true, List.getLast?_cons]
        cases (List.filter (fun op' => op'.direction == 1 && (op'.ns, op'.operation) == (op.ns, op.operation)) ops).getLast? <;>
          simp
      · have hk1 : ((op.ns, op.operation) == key) = false := by simpa using hk
        have hk2 : (key == (op.ns, op.operation)) = false := by
          rw [Bool.eq_false_iff]; intro h; exact hk (beq_iff_eq.mp h).symm
        simp [hk1, hk2]
    · have hf : lastExport key (op :: ops) = lastExport key ops := by
        simp [lastExport, hd]
      rw [hf]
      have he : s1.exports = s.exports := by
        rw [if_neg (by intro h; exact hd h)] at h1
        split at h1
        · obtain ⟨o, h2, h1⟩ := bind_ok_inv h1
          cases o with
          | some s2 => cases h1; exact linkOperation_exports h2
          | none => cases h1; rfl
        · cases h1; rfl
      rw [he]

/-- C67, the part that holds: calls made by name on the mesh itself reach the module loaded last among those
exporting the operation; in particular, after a reload, the new instance. Missing: calls of modules linked
before the reload. -/
theorem C67_by_name_partial (ms : List (Bytes × Table)) (f : Bytes) (t : Table) (s s' : Mesh.St)
    (h : Mesh.load ms = .ok s) (h' : Mesh.load (ms ++ [(f, t)]) = .ok s') (key : Bytes × Bytes) :
    (∀ e, lastExport key t = some e → Mesh.callByName s' key = some ⟨ms.length, e.index⟩) ∧
    (lastExport key t = none → Mesh.callByName s' key = Mesh.callByName s key) := by
  unfold Mesh.load at h h'
  rw [loadAll_append, h] at h'
  simp only [Go.bind_ok, Nat.zero_add, Mesh.loadAll, Mesh.loadModule] at h'
  obtain ⟨s1, h1, h'⟩ := bind_ok_inv h'
  cases h'
  have key' : s'.exports.lookup key =
      ((lastExport key t).map fun op => ⟨ms.length, op.index⟩).or (s.exports.lookup key) := by
    unfold Mesh.linkOperations at h1
    obtain ⟨⟨s2, n⟩, h2, h1⟩ := bind_ok_inv h1
    have g := linkAll_exports ms.length key t _ s2 0 n h2
    simp only at g
    rw [← g]
    dsimp only at h1
    split at h1
    · obtain ⟨⟨s3, l⟩, h3, h1⟩ := bind_ok_inv h1
      cases h1
      show s3.exports.lookup key = _
      rw [retry_exports _ _ _ _ h3]
    · cases h1
      rfl
  refine ⟨fun e he => ?_, fun he => ?_⟩
  · simp [Mesh.callByName, key', he]
  · simp [Mesh.callByName, key', he]

example : ∃ s s', Mesh.load pair = .ok s ∧ Mesh.load (pair ++ [([0], [oper 1 1 0x66 4])]) = .ok s' ∧
    lastExport ([0x6e], [0x66]) [oper 1 1 0x66 4] = some (oper 1 1 0x66 4) ∧
    Mesh.callByName s' ([0x6e], [0x66]) = some ⟨2, 4⟩ := by
  exact ⟨_, _, rfl, rfl, by decide, by decide⟩

/-! ### C68 -/

/-- What a target must receive of a forwarded call. -/
def forwardSpec (d : Mesh.Dest) (k : Kind) (md data : Bytes) : Mesh.Sent :=
  ⟨d.inst, k, some (Spec.bigEndian 4 d.index.toNat ++ md.drop 4), data⟩

/-- C68 as stated in English: when a forwarded call is sent - fire-and-forget at once, the others when they are
subscribed to, after whatever other calls - the target receives the caller's metadata with the target's
operation id in the first four bytes, and the caller's data. -/
def C68_statement : Prop :=
  ∀ (s s2 : Mesh.CallSt) (d : Mesh.Dest) (k : Kind) (p : Mesh.PayRef) (md : Bytes) (mid : List Mesh.CallAct),
    s.cells[p.cell]? = some (some md) → 4 ≤ md.length →
    (k = .fnf → Mesh.callRun s [.call d k p] = .ok s2 → s2.sent = s.sent ++ [forwardSpec d k md p.data]) ∧
    (k ≠ .fnf → Mesh.callRun s (.call d k p :: mid ++ [.subscribe s.pending.length]) = .ok s2 →
      s2.sent.getLast? = some (forwardSpec d k md p.data))

/-- One payload whose metadata is 8 zero bytes. -/
def oneCell : Mesh.CallSt := ⟨[some [0, 0, 0, 0, 0, 0, 0, 0]], [], []⟩

/-- C68 fails: the metadata is overwritten in place, so a payload passed to operation 5 and then to operation 6 before
the first call is subscribed to goes to operation 6 twice. -/
theorem C68_shared_violated : ¬ C68_statement := by
  intro h
  have := (h oneCell ⟨[some [0, 0, 0, 6, 0, 0, 0, 0]], [⟨0, .rr, ⟨0, []⟩⟩, ⟨1, .rr, ⟨0, []⟩⟩],
      [⟨0, .rr, some [0, 0, 0, 6, 0, 0, 0, 0], []⟩]⟩ ⟨0, 5⟩ .rr ⟨0, []⟩ [0, 0, 0, 0, 0, 0, 0, 0]
    [.call ⟨1, 6⟩ .rr ⟨0, []⟩] rfl (by decide)).2 (by decide) rfl
  exact absurd this (by decide)

/-- Shorter metadata crashes the mesh (outside the statement, which asks for four bytes). -/
example : Mesh.callRun ⟨[some [1, 2, 3]], [], []⟩ [.call ⟨0, 5⟩ .rr ⟨0, []⟩] = .panic := rfl

/-- No call with this payload's metadata. -/
def leaves (cell : Nat) (a : Mesh.CallAct) : Prop :=
  match a with
  | .call _ _ p => p.cell ≠ cell
  | .subscribe _ => True

theorem callStep_keeps {s s' : Mesh.CallSt} {a : Mesh.CallAct} {cell : Nat} (h : Mesh.callStep s a = .ok s')
    (ha : leaves cell a) : s'.cells[cell]? = s.cells[cell]? ∧ ∃ more, s'.pending = s.pending ++ more := by
  cases a with
  | call d k p =>
    simp only [Mesh.callStep] at h
    obtain ⟨md, _, h⟩ := bind_ok_inv h
    have : ∀ s1 : Mesh.CallSt, s1.cells = s.cells.set p.cell md → s1.cells[cell]? = s.cells[cell]? := by
      intro s1 e
      rw [e, List.getElem?_set_ne ha]
    cases k <;> simp only [Go.ok.injEq] at h <;> subst h <;> first
      | exact ⟨this _ rfl, [_], rfl⟩
      | exact ⟨this _ rfl, [], by simp⟩
  | subscribe j =>
    simp only [Mesh.callStep] at h
    split at h <;> cases h <;> exact ⟨rfl, [], by simp⟩

theorem callRun_keeps (cell : Nat) (as : List Mesh.CallAct) : ∀ (s s' : Mesh.CallSt), Mesh.callRun s as = .ok s' →
    (∀ a ∈ as, leaves cell a) → s'.cells[cell]? = s.cells[cell]? ∧ ∃ more, s'.pending = s.pending ++ more := by
  induction as with
  | nil => intro s s' h _; cases h; exact ⟨rfl, [], by simp⟩
  | cons a as ih =>
    intro s s' h ha
    simp only [Mesh.callRun] at h
    obtain ⟨s1, h1, h⟩ := bind_ok_inv h
    obtain ⟨g1, m1, g2⟩ := callStep_keeps h1 (ha a List.mem_cons_self)
    obtain ⟨f1, m2, f2⟩ := ih s1 s' h (fun b hb => ha b (List.mem_cons_of_mem _ hb))
    exact ⟨by rw [f1, g1], m1 ++ m2, by rw [f2, g2, List.append_assoc]⟩

theorem callRun_append (as bs : List Mesh.CallAct) : ∀ s : Mesh.CallSt,
    Mesh.callRun s (as ++ bs) = (Mesh.callRun s as >>= fun s' => Mesh.callRun s' bs) := by
  induction as with
  | nil => intro s; simp [Mesh.callRun]
  | cons a as ih =>
    intro s
    simp only [List.cons_append, Mesh.callRun]
    cases h : Mesh.callStep s a with
    | ok s1 => simp [ih]
    | err e => simp [Bind.bind, Go.bind]
    | panic => simp

/-- C68, the part that holds: fire-and-forget calls, and other calls as long as the payload is not passed to
the mesh again before the call is subscribed to. Missing: payloads used twice. -/
theorem C68_forward_partial (s s2 : Mesh.CallSt) (d : Mesh.Dest) (k : Kind) (p : Mesh.PayRef) (md : Bytes)
    (mid : List Mesh.CallAct) (hc : s.cells[p.cell]? = some (some md)) (h4 : 4 ≤ md.length)
    (hm : ∀ a ∈ mid, leaves p.cell a) :
    (k = .fnf → Mesh.callRun s [.call d k p] = .ok s2 → s2.sent = s.sent ++ [forwardSpec d k md p.data]) ∧
    (k ≠ .fnf → Mesh.callRun s (.call d k p :: mid ++ [.subscribe s.pending.length]) = .ok s2 →
      s2.sent.getLast? = some (forwardSpec d k md p.data)) := by
  have hlen : p.cell < s.cells.length := by
    obtain ⟨h, _⟩ := List.getElem?_eq_some_iff.mp hc
    exact h
  have hput : Mesh.putIndex d.index (some md) = .ok (some (be32 d.index ++ md.drop 4)) := by
    simp [Mesh.putIndex, Nat.not_lt.mpr h4]
  constructor
  · rintro rfl h
    simp only [Mesh.callRun, Mesh.callStep, hc, Option.join_some, hput, Go.bind_ok] at h
    cases h
    simp [Mesh.sendNow, forwardSpec, hlen, Spec.be32_eq]
  · intro hk h
    have e1 : Mesh.callStep s (.call d k p) =
        .ok { s with cells := s.cells.set p.cell (some (be32 d.index ++ md.drop 4)),
                     pending := s.pending ++ [⟨d.inst, k, p⟩] } := by
      simp only [Mesh.callStep, hc, Option.join_some, hput, Go.bind_ok]
    rw [List.cons_append, Mesh.callRun, e1] at h
    simp only [Go.bind_ok] at h
    rw [callRun_append] at h
    obtain ⟨s1, h1, h⟩ := bind_ok_inv h
    obtain ⟨g1, more, g2⟩ := callRun_keeps p.cell mid _ s1 h1 hm
    have hp : s1.pending[s.pending.length]? = some ⟨d.inst, k, p⟩ := by
      rw [g2]; simp
    simp only [Mesh.callRun, Mesh.callStep, hp, Go.bind_ok] at h
    cases h
    have hcell : s1.cells[p.cell]? = some (some (be32 d.index ++ md.drop 4)) := by
      rw [g1]; simp [hlen]
    simp [Mesh.sendNow, hcell, forwardSpec, Spec.be32_eq]

example : ∃ s2, Mesh.callRun ⟨[some [0, 0, 0, 9, 0, 0, 0, 0, 7], some [0, 0, 0, 0, 0, 0, 0, 0]], [], []⟩
      [.call ⟨3, 5⟩ .rs ⟨0, [1]⟩, .call ⟨1, 6⟩ .rr ⟨1, []⟩, .subscribe 0] = .ok s2 ∧
    s2.sent.getLast? = some (forwardSpec ⟨3, 5⟩ .rs [0, 0, 0, 9, 0, 0, 0, 0, 7] [1]) := ⟨_, rfl, by decide⟩

end Verif.Props
