import Verif.Props.Slices
/-
Property C30 for `SliceResponse`: exactly when it works.
-/
set_option autoImplicit false
namespace Verif.Props
open Verif
open Verif.Flux (Sync.St Sync.Sub)
open Verif.Flux.Sync

section
variable {T : Type}

theorem complete_values (s : Sync.St T) : (complete s).values = s.values := by
  unfold complete; split <;> rfl

/-- One run of the request function, given what shorter runs come to. -/
theorem resp_loop_ok (sub : Sync.Sub) (hz : ∀ k, sub.inNext k = 0) (vs : List T) (F a : Nat)
    (ih : ∀ g, g < F → ∀ s : Sync.St T, s.closed = false → s.n = 0 → s.values = vs → ∀ s',
      respHandle sub g s = some (.ok s') → s'.values = [] ∧ vs.length < sub.inRequest s.asked) :
    ∀ f, f < F → ∀ (i : Nat) (s s' : Sync.St T), s.closed = false → s.n = (a : Int) - i → i < a →
      i ≤ min vs.length a → s.values = vs → respLoop sub f i (min vs.length a) s = some (.ok s') →
      s'.values = [] ∧ vs.length < a := by
  intro f
  induction f with
  | zero => intro _ i s s' _ _ _ _ _ h; simp [respLoop] at h
  | succ f ihf =>
    intro hF i s s' hc hn hi hm hv h
    rw [respLoop] at h
    by_cases hlt : i < min vs.length a
    · rw [if_pos hlt] at h
      have hget : s.values[i]? = some (vs[i]'(by omega)) := by rw [hv]; exact List.getElem?_eq_getElem _
      rw [hget] at h
      dsimp only at h
      cases f with
      | zero => simp [respNext] at h
      | succ g =>
        rw [respNext] at h
        simp only [hc, hz, Bool.false_eq_true, if_false, if_true] at h
        by_cases h0 : s.n - 1 = 0
        · rw [if_pos h0] at h
          have ha : i + 1 = a := by omega
          have hmin : min vs.length a = a := by omega
          split at h
          · rename_i s2 hs2
            have hv2 := (ih g (by omega) _ rfl (by exact h0) (by exact hv) s2 hs2).1
            rw [respLoop, hmin, ha, if_neg (Nat.lt_irrefl a), if_pos (by rw [hv2]; simp; omega)] at h
            cases h
          · rename_i hx
            exact absurd h (hx s')
        · rw [if_neg h0] at h
          dsimp only at h
          refine ihf (by omega) (i + 1) _ s' ?_ ?_ (by omega) (by omega) ?_ h
          · rfl
          · show s.n - 1 = _; omega
          · exact hv
    · rw [if_neg hlt, hv, if_neg (by omega)] at h
      injection h with h
      injection h with h
      have hl : vs.length < a := by omega
      have hd : vs.drop (min vs.length a) = [] := List.drop_of_length_le (by omega)
      refine ⟨?_, hl⟩
      rw [← h, hd]
      rw [if_pos (by simp), complete_values]

theorem resp_handle_ok (sub : Sync.Sub) (hsub : ∀ k, 0 < sub.inRequest k) (hz : ∀ k, sub.inNext k = 0)
    (vs : List T) : ∀ F, ∀ s : Sync.St T, s.closed = false → s.n = 0 → s.values = vs → ∀ s',
      respHandle sub F s = some (.ok s') → s'.values = [] ∧ vs.length < sub.inRequest s.asked := by
  intro F
  induction F using Nat.strongRecOn with
  | ind F ih =>
    intro s hc hn hv s' h
    match F, ih, h with
    | 0, _, h => simp [respHandle] at h
    | 1, _, h => simp [respHandle, respRequest] at h
    | f + 2, ih, h =>
      rw [respHandle, respRequest] at h
      dsimp only at h
      rw [hv] at h
      refine resp_loop_ok sub hz vs (f + 2) (sub.inRequest s.asked) ih f (by omega) 0
        ⟨s.closed, s.n + sub.inRequest s.asked, vs, s.asked + 1, s.trace⟩ s' hc ?_ (hsub _)
        (Nat.zero_le _) rfl h
      show s.n + _ = _; omega

/-- C30 for `SliceResponse`, exactly: with a subscriber that asks from inside OnRequest only, it gives the
elements and completes if the first request exceeds the length of the slice; otherwise it never returns
regularly (it crashes or goes on for ever), whatever is requested later. Missing: requests from inside
OnNext. -/
theorem C30_slice_response_iff_partial (sub : Sync.Sub) (vs : List T) (hsub : ∀ k, 0 < sub.inRequest k)
    (hz : ∀ k, sub.inNext k = 0) :
    ((∃ fuel s, Flux.Sync.sliceResponse sub fuel vs = some (.ok s) ∧ s.trace = syncExpected vs) ↔
      vs.length < sub.inRequest 0) ∧
    (sub.inRequest 0 ≤ vs.length →
      ∀ fuel s, Flux.Sync.sliceResponse sub fuel vs ≠ some (.ok s)) := by
  have key : ∀ fuel s, Flux.Sync.sliceResponse sub fuel vs = some (.ok s) → vs.length < sub.inRequest 0 :=
    fun fuel s h => (resp_handle_ok sub hsub hz vs fuel ⟨false, 0, vs, 0, []⟩ rfl rfl rfl s h).2
  refine ⟨⟨?_, (C30_reentrant_partial sub vs hsub).2 hz⟩, ?_⟩
  · rintro ⟨fuel, s, h, -⟩
    exact key fuel s h
  · intro hle fuel s h
    have := key fuel s h
    omega

/-- Three elements requested two at a time, and in requests of two and then nine. -/
example : (∀ fuel s, Flux.Sync.sliceResponse ⟨fun _ => 0, fun _ => 2⟩ fuel [1, 2, 3] ≠ some (.ok s)) ∧
    (∀ fuel s, Flux.Sync.sliceResponse ⟨fun _ => 0, fun k => if k = 0 then 2 else 9⟩ fuel [1, 2, 3] ≠
      some (.ok s)) :=
  ⟨(C30_slice_response_iff_partial ⟨fun _ => 0, fun _ => 2⟩ [1, 2, 3] (by simp) (by simp)).2 (by decide),
    (C30_slice_response_iff_partial ⟨fun _ => 0, fun k => if k = 0 then 2 else 9⟩ [1, 2, 3]
      (by intro k; dsimp only; split <;> omega) (by simp)).2 (by decide)⟩

/-- The second one crashes. -/
example : Flux.Sync.sliceResponse ⟨fun _ => 0, fun k => if k = 0 then 2 else 9⟩ 30 [1, 2, 3] =
    some .panic := by decide

end
end Verif.Props
