import Verif.Model.MeshClose
import Verif.Props.HostClose
import Verif.Props.Invoke
/-
Property C128: closing a mesh.
-/
set_option autoImplicit false
namespace Verif.Props
open Verif
open Verif.Invoke (Kind)

/-! ## Specification -/

/-- `Close` of the mesh has returned: there is no further instance to close. -/
def meshClosed (s : MeshClose.St) : Prop := s.cur = some s.insts.length

/-- The instance is closed: both channels are. -/
def instClosed (x : HostClose.St) : Prop := x.sendClosed = true ∧ x.recvClosed = true

/-- C128 as stated in English. `Close` closes every instance before it returns; if nothing is left to do in any instance, it
returns; and nothing crashes. -/
def C128_statement : Prop :=
  ∀ (n : Nat) (as : List MeshClose.Act), MeshClose.run n as ≠ .panic ∧ ∀ s, MeshClose.run n as = .ok s →
    (meshClosed s → ∀ x ∈ s.insts, instClosed x) ∧
    (s.cur ≠ none → (∀ x ∈ s.insts, allDone x) →
      ∃ m s', MeshClose.runFrom s (List.replicate m .close) = .ok s' ∧ meshClosed s')

/-- What somebody else than `Close` of the mesh does at instance `i`. -/
def ownAct (i : Nat) : MeshClose.Act → Option HostClose.Act
  | .inst j a => if j = i then some a else none
  | _ => none

/-! ## Instances on their own -/

theorem hostClose_run_append (as bs : List HostClose.Act) : ∀ (s x : HostClose.St), HostClose.runFrom s as = .ok x →
    HostClose.runFrom s (as ++ bs) = HostClose.runFrom x bs := by
  induction as with
  | nil => intro s x h; cases h; rfl
  | cons a as ih =>
    intro s x h
    simp only [HostClose.runFrom, List.cons_append] at h ⊢
    split at h
    · rename_i t ht
      exact ih t x h
    · rename_i hne
      cases hs : HostClose.step s a with
      | ok t => exact absurd hs (hne t)
      | err e => rw [hs] at h; cases h
      | panic => rw [hs] at h; cases h

theorem hostClose_run_snoc {as : List HostClose.Act} {a : HostClose.Act} {x y : HostClose.St} (h : HostClose.run as = .ok x)
    (hs : HostClose.step x a = .ok y) : HostClose.run (as ++ [a]) = .ok y := by
  unfold HostClose.run at h ⊢
  rw [hostClose_run_append _ _ _ _ h]
  simp only [HostClose.runFrom, hs]

/-- What is closed stays closed. -/
theorem done_stays {x y : HostClose.St} {a : HostClose.Act} (h : HostClose.step x a = .ok y) (hd : x.closer = .done) :
    y.closer = .done := by
  rcases step_cases x y a h with rfl | ⟨r, -, -, rfl⟩ | ⟨r, q, -, -, rfl⟩ | ⟨i, p, q, d, c, -, -, rfl, -, -⟩ | ⟨-, h⟩
  · exact hd
  · exact hd
  · exact hd
  · exact hd
  · simp only [HostClose.closeStep, hd] at h
    cases h; exact hd

/-! ## Runs of the mesh -/

theorem meshClose_bind_inv {α β : Type} {x : Go α} {f : α → Go β} {b : β} (h : x.bind f = .ok b) :
    ∃ a, x = .ok a ∧ f a = .ok b := by
  cases x with
  | ok a => exact ⟨a, rfl, h⟩
  | err e => cases h
  | panic => cases h

theorem meshClose_append (as bs : List MeshClose.Act) : ∀ (s : MeshClose.St),
    MeshClose.runFrom s (as ++ bs) = (MeshClose.runFrom s as).bind fun t => MeshClose.runFrom t bs := by
  induction as with
  | nil => intro s; rfl
  | cons a as ih =>
    intro s
    simp only [MeshClose.runFrom, List.cons_append]
    show (MeshClose.step s a).bind _ = ((MeshClose.step s a).bind _).bind _
    cases MeshClose.step s a with
    | ok t => exact ih t
    | err e => rfl
    | panic => rfl

theorem meshClose_snoc_inv {n : Nat} {as : List MeshClose.Act} {a : MeshClose.Act} {s : MeshClose.St}
    (h : MeshClose.run n (as ++ [a]) = .ok s) :
    ∃ t, MeshClose.run n as = .ok t ∧ MeshClose.step t a = .ok s := by
  unfold MeshClose.run at h ⊢
  rw [meshClose_append] at h
  obtain ⟨t, h1, h2⟩ := meshClose_bind_inv h
  refine ⟨t, h1, ?_⟩
  obtain ⟨u, h3, h4⟩ := meshClose_bind_inv (x := MeshClose.step t a) h2
  cases h4
  exact h3

/-- What is known after a run. -/
structure MCloseInv (n : Nat) (as : List MeshClose.Act) (s : MeshClose.St) : Prop where
  len : s.insts.length = n
  le : ∀ k, s.cur = some k → k ≤ n
  past : ∀ k, s.cur = some k → ∀ i, i < k → ∀ x, s.insts[i]? = some x → x.closer = .done
  own : ∀ i x, s.insts[i]? = some x → ∃ bs, HostClose.run bs = .ok x ∧ (∀ b ∈ bs, b = .close ∨ .inst i b ∈ as) ∧
    ((∀ k, s.cur = some k → k < i) → bs = as.filterMap (ownAct i))

theorem mcinv_step {n : Nat} {as : List MeshClose.Act} {s t : MeshClose.St} (a : MeshClose.Act) (hi : MCloseInv n as s)
    (h : MeshClose.step s a = .ok t) : MCloseInv n (as ++ [a]) t := by
  have keep : (∀ i, ownAct i a = none) → ∀ i x, s.insts[i]? = some x → ∃ bs, HostClose.run bs = .ok x ∧
      (∀ b ∈ bs, b = .close ∨ .inst i b ∈ as ++ [a]) ∧
      ((∀ k, s.cur = some k → k < i) → bs = (as ++ [a]).filterMap (ownAct i)) := by
    intro hn i x hx
    obtain ⟨bs, h1, h2, h3⟩ := hi.own i x hx
    refine ⟨bs, h1, fun b hb => (h2 b hb).imp_right fun h => List.mem_append_left _ h, fun hc => ?_⟩
    rw [List.filterMap_append, h3 hc]
    simp [hn i]
  cases a with
  | inst i b =>
    simp only [MeshClose.step] at h
    split at h
    · rename_i hnone
      cases h
      refine ⟨hi.len, hi.le, hi.past, fun j x hx => ?_⟩
      obtain ⟨bs, h1, h2, h3⟩ := hi.own j x hx
      refine ⟨bs, h1, fun b hb => (h2 b hb).imp_right fun h => List.mem_append_left _ h, fun hc => ?_⟩
      have hij : i ≠ j := fun e => by rw [e, hx] at hnone; cases hnone
      rw [List.filterMap_append, h3 hc]
      simp [ownAct, hij]
    · rename_i x0 hx0
      obtain ⟨y, h1, h⟩ := meshClose_bind_inv h
      cases h
      have hl : i < s.insts.length := (List.getElem?_eq_some_iff.1 hx0).1
      refine ⟨by simp [hi.len], hi.le, fun k hk j hj x hx => ?_, fun j x hx => ?_⟩
      · by_cases hij : i = j
        · subst hij
          rw [List.getElem?_set_self hl] at hx
          cases hx
          exact done_stays h1 (hi.past k hk i hj x0 hx0)
        · rw [List.getElem?_set_ne hij] at hx
          exact hi.past k hk j hj x hx
      · by_cases hij : i = j
        · subst hij
          rw [List.getElem?_set_self hl] at hx
          cases hx
          obtain ⟨bs, g1, g2, g3⟩ := hi.own i x0 hx0
          refine ⟨bs ++ [b], hostClose_run_snoc g1 h1, fun c hc => ?_, fun hc => ?_⟩
          · rcases List.mem_append.1 hc with hc | hc
            · exact (g2 c hc).imp_right fun h => List.mem_append_left _ h
            · rw [List.mem_singleton.1 hc]; exact .inr (by simp)
          · rw [List.filterMap_append, g3 hc]
            simp [ownAct]
        · rw [List.getElem?_set_ne hij] at hx
          obtain ⟨bs, g1, g2, g3⟩ := hi.own j x hx
          refine ⟨bs, g1, fun c hc => (g2 c hc).imp_right fun h => List.mem_append_left _ h, fun hc => ?_⟩
          rw [List.filterMap_append, g3 hc]
          simp [ownAct, hij]
  | call i =>
    have hs : t = s := by
      simp only [MeshClose.step] at h
      split at h
      · cases h; rfl
      · split at h
        · cases h
        · cases h; rfl
    subst hs
    exact ⟨hi.len, hi.le, hi.past, keep fun _ => rfl⟩
  | close =>
    simp only [MeshClose.step] at h
    split at h
    · rename_i hcur
      cases h
      refine ⟨hi.len, fun k hk => (by cases hk; exact Nat.zero_le _), fun k hk j hj => (by cases hk; exact absurd hj (Nat.not_lt_zero j)), fun i x hx => ?_⟩
      obtain ⟨bs, h1, h2, h3⟩ := keep (fun _ => rfl) i x hx
      exact ⟨bs, h1, h2, fun hc => h3 fun k hk => by rw [hcur] at hk; cases hk⟩
    · rename_i k hcur
      split at h
      · cases h
        exact ⟨hi.len, hi.le, hi.past, keep fun _ => rfl⟩
      · rename_i x0 hx0
        obtain ⟨y, h1, h⟩ := meshClose_bind_inv h
        cases h
        have hl : k < s.insts.length := (List.getElem?_eq_some_iff.1 hx0).1
        refine ⟨by simp [hi.len], fun m hm => ?_, fun m hm j hj x hx => ?_, fun j x hx => ?_⟩
        · have := hi.len
          dsimp only at hm
          split at hm <;> cases hm <;> omega
        · by_cases hkj : k = j
          · subst hkj
            rw [List.getElem?_set_self hl] at hx
            cases hx
            dsimp only at hm
            split at hm
            · assumption
            · cases hm; omega
          · rw [List.getElem?_set_ne hkj] at hx
            refine hi.past k hcur j ?_ x hx
            dsimp only at hm
            split at hm <;> cases hm <;> omega
        · by_cases hkj : k = j
          · subst hkj
            rw [List.getElem?_set_self hl] at hx
            cases hx
            obtain ⟨bs, g1, g2, -⟩ := hi.own k x0 hx0
            refine ⟨bs ++ [.close], hostClose_run_snoc g1 h1, fun c hc => ?_, fun hc => ?_⟩
            · rcases List.mem_append.1 hc with hc | hc
              · exact (g2 c hc).imp_right fun h => List.mem_append_left _ h
              · rw [List.mem_singleton.1 hc]; exact .inl rfl
            · have := hc _ rfl
              split at this <;> omega
          · rw [List.getElem?_set_ne hkj] at hx
            obtain ⟨bs, g1, g2, g3⟩ := keep (fun _ => rfl) j x hx
            refine ⟨bs, g1, g2, fun hc => g3 fun m hm => ?_⟩
            rw [hcur] at hm
            cases hm
            have := hc _ rfl
            split at this <;> omega

theorem mcinv_run {n : Nat} (as : List MeshClose.Act) : ∀ {s : MeshClose.St}, MeshClose.run n as = .ok s → MCloseInv n as s := by
  induction as using snoc_induction with
  | nil =>
    intro s h
    cases h
    refine ⟨by simp [MeshClose.St.init], fun k hk => (by cases hk), fun k hk => (by cases hk), fun i x hx => ?_⟩
    simp only [MeshClose.St.init, List.getElem?_replicate] at hx
    split at hx
    · cases hx; exact ⟨[], rfl, fun _ h => (by cases h), fun _ => rfl⟩
    · cases hx
  | snoc as a ih =>
    intro s h
    obtain ⟨t, h1, h2⟩ := meshClose_snoc_inv h
    exact mcinv_step a (ih h1) h2

/-! ## C128 -/

/-- C128: when `Close` of the mesh has returned, every instance is closed. -/
theorem C128_closed (n : Nat) (as : List MeshClose.Act) (s : MeshClose.St) (h : MeshClose.run n as = .ok s)
    (hc : meshClosed s) : ∀ x ∈ s.insts, instClosed x := by
  intro x hx
  have hi := mcinv_run as h
  obtain ⟨i, hl, rfl⟩ := List.getElem_of_mem hx
  have hx' : s.insts[i]? = some s.insts[i] := List.getElem?_eq_getElem hl
  have hd := hi.past _ hc i hl _ hx'
  obtain ⟨bs, h1, -, -⟩ := hi.own i _ hx'
  have hv := cinv_runFrom bs _ _ cinv_init h1
  exact ⟨hv.sendC.2 (.inr hd), hv.recvC.2 hd⟩

/-- C128: as long as `Close` of the mesh is busy with an earlier instance and nobody else closes it, an instance is what its own
requests have made of it, and frames can be sent to its guest. -/
theorem C128_in_turn (n : Nat) (as : List MeshClose.Act) (s : MeshClose.St) (h : MeshClose.run n as = .ok s) (i : Nat)
    (hn : .inst i .close ∉ as) (hc : ∀ k, s.cur = some k → k < i) (x : HostClose.St) (hx : s.insts[i]? = some x) :
    HostClose.run (as.filterMap (ownAct i)) = .ok x ∧ x.closer = .idle ∧ x.sendClosed = false ∧ x.recvClosed = false ∧
      MeshClose.step s (.call i) = .ok s := by
  obtain ⟨bs, h1, h2, h3⟩ := (mcinv_run as h).own i x hx
  have he := h3 hc
  subst he
  have hcl : ∀ b ∈ as.filterMap (ownAct i), b ≠ .close := by
    intro b hb e
    subst e
    obtain ⟨a, ha, hb⟩ := List.mem_filterMap.1 hb
    cases a with
    | inst j b =>
      simp only [ownAct] at hb
      split at hb
      · rename_i hj
        cases hb
        subst hj
        exact hn ha
      · cases hb
    | call j => cases hb
    | close => cases hb
  have hidle : ∀ (bs : List HostClose.Act), (∀ b ∈ bs, b ≠ .close) → ∀ s x : HostClose.St, s.closer = .idle →
      HostClose.runFrom s bs = .ok x → x.closer = .idle := by
    intro bs
    induction bs with
    | nil => intro _ s x hs h; cases h; exact hs
    | cons b bs ih =>
      intro hb s x hs h
      simp only [HostClose.runFrom] at h
      split at h
      · rename_i t ht
        refine ih (fun c hc => hb c (List.mem_cons_of_mem _ hc)) t x ?_ h
        rcases step_cases s t b ht with rfl | ⟨r, -, -, rfl⟩ | ⟨r, q, -, -, rfl⟩ | ⟨i, p, q, d, c, -, -, rfl, -, -⟩ | ⟨e, -⟩
        · exact hs
        · exact hs
        · exact hs
        · exact hs
        · exact absurd e (hb b List.mem_cons_self)
      · rename_i hne
        exact absurd h (hne _)
  have hi := hidle _ hcl _ _ rfl h1
  have hv := cinv_runFrom _ _ _ cinv_init h1
  have hsc : x.sendClosed = false := by
    cases hx : x.sendClosed with
    | false => rfl
    | true => have := hv.sendC.1 hx; rw [hi] at this; simp at this
  refine ⟨h1, hi, hsc, ?_, ?_⟩
  · cases hx : x.recvClosed with
    | false => rfl
    | true => have := hv.recvC.1 hx; rw [hi] at this; cases this
  · simp only [MeshClose.step, hx, hsc, Bool.false_eq_true, if_false]

/-- An instance in which nothing is left to do, all of whose requests are given back. -/
def Restful (x : HostClose.St) : Prop :=
  (∃ bs, HostClose.run bs = .ok x) ∧ allDone x ∧ ∀ p ∈ x.procs, givenBack p.req

def closeRank : HostClose.Closer → Nat
  | .idle => 5
  | .stored => 4
  | .waiting => 3
  | .closeSend => 2
  | .closeRecv => 1
  | .done => 0

theorem closeRank_le (c : HostClose.Closer) : closeRank c ≤ 5 := by cases c <;> decide

theorem restful_close {x : HostClose.St} (h : Restful x) :
    ∃ y, HostClose.step x .close = .ok y ∧ Restful y ∧ (y.closer = .done ∨ closeRank y.closer < closeRank x.closer) := by
  obtain ⟨⟨bs, hb⟩, hd, hg⟩ := h
  have hv := cinv_runFrom bs _ _ cinv_init hb
  have fin : ∀ y, HostClose.step x .close = .ok y → y.procs = x.procs → y.queue = x.queue →
      (y.closer = .done ∨ closeRank y.closer < closeRank x.closer) →
      ∃ y, HostClose.step x .close = .ok y ∧ Restful y ∧ (y.closer = .done ∨ closeRank y.closer < closeRank x.closer) := by
    intro y h1 h2 h3 h4
    refine ⟨y, h1, ⟨⟨bs ++ [.close], hostClose_run_snoc hb h1⟩, ?_, by rw [h2]; exact hg⟩, h4⟩
    unfold allDone at hd ⊢
    rw [h2, h3]
    exact hd
  cases hc : x.closer with
  | idle =>
    have hst : HostClose.step x .close = .ok { x with closing := true, closer := .stored } := by
      simp only [HostClose.step, HostClose.closeStep, hc]
    rw [← hc]
    exact fin _ hst rfl rfl (.inr (by rw [hc]; dsimp only; decide))
  | stored =>
    have hst : HostClose.step x .close = .ok { x with closer := if x.active > 0 then .waiting else .closeSend } := by
      simp only [HostClose.step, HostClose.closeStep, hc]
    rw [← hc]
    refine fin _ hst rfl rfl (.inr ?_)
    rw [hc]
    dsimp only
    split <;> decide
  | waiting =>
    have hcc := C63_no_hang_partial bs x hb hg hd hc
    have hst : HostClose.step x .close = .ok { x with closer := .closeSend } := by
      simp only [HostClose.step, HostClose.closeStep, hc, hcc, if_true]
    rw [← hc]
    exact fin _ hst rfl rfl (.inr (by rw [hc]; dsimp only; decide))
  | closeSend =>
    have hsc : x.sendClosed = false := by
      cases hx : x.sendClosed with
      | false => rfl
      | true => have := hv.sendC.1 hx; rw [hc] at this; simp at this
    have hst : HostClose.step x .close = .ok { x with sendClosed := true, closer := .closeRecv } := by
      simp only [HostClose.step, HostClose.closeStep, hc, hsc, Bool.false_eq_true, if_false]
    rw [← hc]
    exact fin _ hst rfl rfl (.inr (by rw [hc]; dsimp only; decide))
  | closeRecv =>
    have hrc : x.recvClosed = false := by
      cases hx : x.recvClosed with
      | false => rfl
      | true => have := hv.recvC.1 hx; rw [hc] at this; cases this
    have hst : HostClose.step x .close = .ok { x with recvClosed := true, closer := .done } := by
      simp only [HostClose.step, HostClose.closeStep, hc, hrc, Bool.false_eq_true, if_false]
    rw [← hc]
    exact fin _ hst rfl rfl (.inl rfl)
  | done =>
    have hst : HostClose.step x .close = .ok x := by simp only [HostClose.step, HostClose.closeStep, hc]
    obtain ⟨y, h1, h2, h3⟩ := fin x hst rfl rfl (.inl hc)
    exact ⟨y, h1, h2, hc ▸ h3⟩

theorem restful_returns (m : Nat) : ∀ (s : MeshClose.St) (k : Nat), s.cur = some k → k ≤ s.insts.length →
    (∀ x ∈ s.insts, Restful x) →
    7 * (s.insts.length - k) + (match s.insts[k]? with | some x => closeRank x.closer | none => 0) ≤ m →
    ∃ j s', MeshClose.runFrom s (List.replicate j .close) = .ok s' ∧ meshClosed s' := by
  induction m with
  | zero =>
    intro s k hk hle _ hm
    exact ⟨0, s, rfl, by unfold meshClosed; rw [hk]; congr 1; omega⟩
  | succ m ih =>
    intro s k hk hle hr hm
    by_cases hlt : k < s.insts.length
    · have hx : s.insts[k]? = some s.insts[k] := List.getElem?_eq_getElem hlt
      obtain ⟨y, h1, h2, h3⟩ := restful_close (hr _ (List.getElem_mem hlt))
      have hstep : MeshClose.step s .close =
          .ok ⟨s.insts.set k y, some (if y.closer = .done then k + 1 else k)⟩ := by
        simp only [MeshClose.step, hk, hx]
        show (HostClose.step s.insts[k] .close).bind _ = _
        rw [h1]
        rfl
      have hr' : ∀ x ∈ s.insts.set k y, Restful x := fun x hx => by
        rcases mem_set_of hx with rfl | hx
        · exact h2
        · exact hr x hx
      rw [hx] at hm
      dsimp only at hm
      have hnext : ∃ j s', MeshClose.runFrom ⟨s.insts.set k y, some (if y.closer = .done then k + 1 else k)⟩
          (List.replicate j .close) = .ok s' ∧ meshClosed s' := by
        split
        · refine ih _ (k + 1) rfl (by simp; omega) hr' ?_
          simp only [List.length_set]
          have : (match (s.insts.set k y)[k + 1]? with | some x => closeRank x.closer | none => 0) ≤ 5 := by
            split
            · exact closeRank_le _
            · omega
          omega
        · rename_i hnd
          rcases h3 with h3 | h3
          · exact absurd h3 hnd
          · refine ih _ k rfl (by simp; omega) hr' ?_
            simp only [List.length_set, List.getElem?_set_self hlt]
            omega
      obtain ⟨j, s', h4, h5⟩ := hnext
      refine ⟨j + 1, s', ?_, h5⟩
      rw [List.replicate_succ]
      show (MeshClose.step s .close).bind _ = _
      rw [hstep]
      exact h4
    · exact ⟨0, s, rfl, by unfold meshClosed; rw [hk]; congr 1; omega⟩

/-- C128, partial: if nothing is left to do in any instance, `Close` of the mesh returns. Missing: instances that were sent a request
which is rejected because of its metadata, or a stream request that is rejected (C63). -/
theorem C128_returns_partial (n : Nat) (as : List MeshClose.Act) (s : MeshClose.St) (h : MeshClose.run n as = .ok s)
    (hc : s.cur ≠ none) (hd : ∀ x ∈ s.insts, allDone x) (hg : ∀ x ∈ s.insts, ∀ p ∈ x.procs, givenBack p.req) :
    ∃ m s', MeshClose.runFrom s (List.replicate m .close) = .ok s' ∧ meshClosed s' := by
  have hi := mcinv_run as h
  cases hcur : s.cur with
  | none => exact absurd hcur hc
  | some k =>
    refine restful_returns _ s k hcur (by rw [hi.len]; exact hi.le k hcur) (fun x hx => ?_) (Nat.le_refl _)
    obtain ⟨i, hl, rfl⟩ := List.getElem_of_mem hx
    obtain ⟨bs, h1, -, -⟩ := hi.own i _ (List.getElem?_eq_getElem hl)
    exact ⟨⟨bs, h1⟩, hd _ hx, hg _ hx⟩

/-- What may happen while or after an orderly `Close` of the mesh: nothing arrives, channel inputs are left alone, and no frames are
sent to guests by callers. -/
def orderlyMesh : MeshClose.Act → Bool
  | .inst _ a => orderly a
  | .call _ => false
  | .close => true

/-- C128, partial: an orderly `Close` of the mesh does not crash, whatever the interleaving. At some moment any number of requests
are being handled in every instance, but none of their goroutines is between two steps and no frame is queued; no channel handler
has cancelled its input; from then on things are orderly. -/
theorem C128_no_crash_partial (n : Nat) (before after : List MeshClose.Act) (s : MeshClose.St)
    (h : MeshClose.run n before = .ok s) (hb : ∀ i a, .inst i a ∈ before → isCancelIn a = false)
    (hq : ∀ x ∈ s.insts, x.closer = .idle ∧ x.queue = [] ∧ ∀ p ∈ x.procs, p.todo = [] ∧ p.inp = [])
    (ha : ∀ a ∈ after, orderlyMesh a = true) : MeshClose.runFrom s after ≠ .panic := by
  have hi := mcinv_run before h
  have h0 : ∀ x ∈ s.insts, QInv x := by
    intro x hx
    obtain ⟨q1, q2, q3⟩ := hq x hx
    obtain ⟨i, hl, rfl⟩ := List.getElem_of_mem hx
    obtain ⟨bs, h1, h2, -⟩ := hi.own i _ (List.getElem?_eq_getElem hl)
    refine qinv_quiet bs _ (fun b hb' => ?_) h1 q1 q2 q3
    rcases h2 b hb' with rfl | h3
    · rfl
    · exact hb i b h3
  have one : ∀ (s : MeshClose.St) (i : Nat) (x : HostClose.St) (a : HostClose.Act), (∀ x ∈ s.insts, QInv x) →
      s.insts[i]? = some x → orderly a = true → ∃ y, HostClose.step x a = .ok y ∧ ∀ z ∈ s.insts.set i y, QInv z := by
    intro s i x a hs hx ho
    have hqx := hs x (List.mem_of_getElem? hx)
    cases hst : HostClose.step x a with
    | ok y =>
      refine ⟨y, rfl, fun z hz => ?_⟩
      rcases mem_set_of hz with rfl | hz
      · exact qinv_step x z a hqx hst ho
      · exact hs z hz
    | err e => exact absurd hst (close_no_err x a e)
    | panic => exact absurd hst (qinv_no_panic x a hqx ho)
  have key : ∀ (after : List MeshClose.Act), (∀ a ∈ after, orderlyMesh a = true) → ∀ s : MeshClose.St, (∀ x ∈ s.insts, QInv x) →
      MeshClose.runFrom s after ≠ .panic := by
    intro after
    induction after with
    | nil => intro _ s _ h; cases h
    | cons a after ih =>
      intro ha s hs
      have hstep : ∃ t, MeshClose.step s a = .ok t ∧ ∀ x ∈ t.insts, QInv x := by
        cases a with
        | inst i b =>
          simp only [MeshClose.step]
          split
          · exact ⟨s, rfl, hs⟩
          · rename_i x hx
            obtain ⟨y, h1, h2⟩ := one s i x b hs hx (ha _ List.mem_cons_self)
            rw [h1]
            exact ⟨_, rfl, h2⟩
        | call i => exact absurd (ha _ List.mem_cons_self) (by simp [orderlyMesh])
        | close =>
          simp only [MeshClose.step]
          split
          · exact ⟨_, rfl, hs⟩
          · split
            · exact ⟨s, rfl, hs⟩
            · rename_i x hx
              obtain ⟨y, h1, h2⟩ := one s _ x .close hs hx rfl
              rw [h1]
              exact ⟨_, rfl, h2⟩
      obtain ⟨t, h1, h2⟩ := hstep
      show (MeshClose.step s a).bind _ ≠ .panic
      rw [h1]
      exact ih (fun b hb => ha b (List.mem_cons_of_mem _ hb)) t h2
  exact key after ha s h0

/-! ## Witnesses -/

def meshAt (n : Nat) (as : List MeshClose.Act) : MeshClose.St :=
  match MeshClose.run n as with | .ok s => s | _ => .init n

/-- Two instances. The guest of the first has sent a stream request that was rejected; nothing is left to do. `Close` of the mesh
waits for the first. -/
def stuck128 : List MeshClose.Act :=
  [.inst 0 (.arrive ⟨.rs, true, false⟩), .inst 0 .recv, .inst 0 (.thread 0 .out), .close, .close, .close]

/-- C128 fails: it waits for ever, and the second instance, which has nothing to do with it, is never closed. -/
theorem C128_stuck_violated : MeshClose.run 2 stuck128 = .ok (meshAt 2 stuck128) ∧
    (∀ x ∈ (meshAt 2 stuck128).insts, allDone x) ∧
    ∀ m, MeshClose.runFrom (meshAt 2 stuck128) (List.replicate m .close) = .ok (meshAt 2 stuck128) ∧
      ¬ meshClosed (meshAt 2 stuck128) ∧ (meshAt 2 stuck128).insts.map (·.closer) = [.waiting, .idle] := by
  have hd : ∀ x ∈ (meshAt 2 stuck128).insts, x.queue = [] ∧ ∀ p ∈ x.procs, p.running = false ∧ p.todo = [] ∧ p.inp = [] := by
    decide +kernel
  have hs : MeshClose.step (meshAt 2 stuck128) .close = .ok (meshAt 2 stuck128) := by decide +kernel
  refine ⟨by decide +kernel, hd, fun m => ⟨?_, by unfold meshClosed; decide +kernel, by decide +kernel⟩⟩
  induction m with
  | zero => rfl
  | succ m ih =>
    rw [List.replicate_succ]
    simp only [MeshClose.runFrom]
    rw [hs]
    exact ih

/-- C128 fails: the first instance is closed already when the guest of the second calls an operation of the first (or when the
application does); the process crashes. -/
theorem C128_crash_violated : MeshClose.run 2 [.close, .close, .close, .close, .close,
    .inst 1 (.arrive ⟨.rr, true, true⟩), .inst 1 .recv, .call 0] = .panic := by decide +kernel

theorem C128_violated : ¬ C128_statement := fun h => (h _ _).1 C128_crash_violated

/-! ## Cases -/

/-- Two instances serve one request each when the mesh is closed. The request of the second is answered while `Close` waits for the
first; then that of the first is. -/
def before128 : List MeshClose.Act :=
  [.inst 0 (.arrive ⟨.rr, true, true⟩), .inst 0 .recv, .inst 1 (.arrive ⟨.rs, true, true⟩), .inst 1 .recv]

def after128 : List MeshClose.Act :=
  [.close, .close, .close, .inst 1 (.answer 0), .inst 1 (.thread 0 .out), .inst 1 (.thread 0 .out), .inst 1 (.thread 0 .out),
   .inst 0 (.answer 0), .inst 0 (.thread 0 .out), .inst 0 (.thread 0 .out), .inst 0 (.thread 0 .out)]

/-- The hypotheses of `C128_no_crash_partial` are met. -/
example : MeshClose.run 2 before128 = .ok (meshAt 2 before128) ∧
    (∀ a ∈ before128, (match a with | .inst _ a => isCancelIn a | _ => false) = false) ∧
    (∀ x ∈ (meshAt 2 before128).insts, x.closer = .idle ∧ x.queue = [] ∧ ∀ p ∈ x.procs, p.todo = [] ∧ p.inp = []) ∧
    (∀ a ∈ after128, orderlyMesh a = true) := by
  decide +kernel

/-- Those of `C128_in_turn` for the second instance. -/
example : (meshAt 2 (before128 ++ after128)).cur = some 0 ∧
    MeshClose.run 2 (before128 ++ after128) = .ok (meshAt 2 (before128 ++ after128)) ∧
    (before128 ++ after128).filterMap (ownAct 1) =
      [.arrive ⟨.rs, true, true⟩, .recv, .answer 0, .thread 0 .out, .thread 0 .out, .thread 0 .out] := by
  decide +kernel

/-- Those of `C128_returns_partial`. -/
example : (∀ x ∈ (meshAt 2 (before128 ++ after128)).insts, x.queue = [] ∧
      ∀ p ∈ x.procs, p.running = false ∧ p.todo = [] ∧ p.inp = []) ∧
    (∀ x ∈ (meshAt 2 (before128 ++ after128)).insts, ∀ p ∈ x.procs, givenBack p.req) := by
  refine ⟨by decide +kernel, ?_⟩
  unfold givenBack
  decide +kernel

/-- Those of `C128_closed`. -/
example : meshClosed (meshAt 2 (before128 ++ after128 ++ List.replicate 7 .close)) ∧
    MeshClose.run 2 (before128 ++ after128 ++ List.replicate 7 .close) =
      .ok (meshAt 2 (before128 ++ after128 ++ List.replicate 7 .close)) := by
  unfold meshClosed
  decide +kernel

end Verif.Props
