import Verif.Model.Fragment
import Verif.Spec.Reassembly
import Verif.Lemmas.Frames
namespace Verif
open Frames Spec

theorem splitStep_empty (id : UInt32) (nx co : Bool) (max : UInt32) :
    splitStep id nx co max [] [] = .ok none := by
  simp [splitStep]

/-- What one iteration achieves when it makes progress. -/
structure StepOk (id : UInt32) (nx co : Bool) (max : Nat) (data md : Bytes)
    (p : Payload) (d' m' : Bytes) : Prop where
  id : p.streamID = id
  hmd : md = p.metadata ++ m'
  hdata : data = p.data ++ d'
  size : payloadLength p ≤ max
  follows : p.follows = decide (¬ (m' = [] ∧ d' = []))
  flags : p.complete = (!p.follows && co) ∧ p.next = (!p.follows && nx)
  less : m'.length + d'.length < md.length + data.length
  order : m' ≠ [] → p.data = []

theorem splitStep_ok (id : UInt32) (nx co : Bool) (max : UInt32) (data md : Bytes)
    (hlen : md.length + data.length + 9 < 2^32)
    (hmax : 10 ≤ max.toNat ∨ (md = [] ∧ 7 ≤ max.toNat))
    (hne : ¬ (md = [] ∧ data = [])) :
    ∃ p d' m', splitStep id nx co max data md = .ok (some (p, d', m')) ∧
      StepOk id nx co max.toNat data md p d' m' := by
  have hm32 := max.toNat_lt
  have hlm : (UInt32.ofNat md.length).toNat = md.length := UInt32.toNat_ofNat_lt (by omega)
  have hld : (UInt32.ofNat data.length).toNat = data.length := UInt32.toNat_ofNat_lt (by omega)
  have hmp := UInt32.ofNat_pos_iff (n := md.length) (by omega)
  have hm0 : 0 < md.length ↔ md ≠ [] := List.length_pos_iff
  have hd0 : 0 < data.length ↔ data ≠ [] := List.length_pos_iff
  have hz : ¬ (UInt32.ofNat md.length + UInt32.ofNat data.length = 0) := by
    intro h
    have := congrArg UInt32.toNat h
    rw [UInt32.toNat_add, hlm, hld] at this
    simp at this
    have h1 : ¬ 0 < md.length := by omega
    have h2 : ¬ 0 < data.length := by omega
    rw [hm0] at h1; rw [hd0] at h2
    exact hne ⟨by simpa using h1, by simpa using h2⟩
  unfold splitStep
  simp only [hz, if_false, hmp, hm0]
  -- name the header size and the space
  generalize hnd : (if md ≠ [] then (9 : UInt32) else 6) = nd
  have hndn : nd.toNat = 6 + (if md = [] then 0 else 3) := by
    rw [← hnd]; by_cases h : md = [] <;> simp [h]
  have hnd9 : nd.toNat < max.toNat := by
    rw [hndn]; rcases hmax with h | ⟨h, h'⟩
    · split <;> omega
    · simp [h]; omega
  have hsp : (max - nd).toNat = max.toNat - nd.toNat := by
    rw [UInt32.toNat_sub_of_le]; rw [UInt32.le_iff_toNat_le]; omega
  have hnd9' : nd.toNat ≤ 9 := by rw [hndn]; split <;> omega
  have hfol : (nd + UInt32.ofNat md.length + UInt32.ofNat data.length > max) ↔
      max.toNat < nd.toNat + md.length + data.length := by
    rw [gt_iff_lt, UInt32.lt_iff_toNat_lt, UInt32.toNat_add, UInt32.toNat_add, hlm, hld]
    rw [Nat.mod_eq_of_lt (by omega : nd.toNat + md.length < 2^32), Nat.mod_eq_of_lt (by omega)]
  have hgt : (UInt32.ofNat md.length > max - nd) ↔ max.toNat - nd.toNat < md.length := by
    rw [gt_iff_lt, UInt32.lt_iff_toNat_lt, hlm, hsp]
  by_cases hA : max.toNat - nd.toNat < md.length
  · -- metadata does not fit
    simp only [hgt, hA, if_true]
    have hmne : md ≠ [] := by intro h; subst h; simp at hA
    simp only [sliceTo, sliceFrom, hsp, Nat.zero_le, if_true, Go.bind_ok]
    simp only [show max.toNat - nd.toNat ≤ md.length by omega, if_true, Go.bind_ok]
    refine ⟨_, _, _, rfl, ?_⟩
    have hfT : max.toNat < nd.toNat + md.length + data.length := by omega
    have hmd' : ¬ md.drop (max.toNat - nd.toNat) = [] := by
      rw [List.drop_eq_nil_iff]; omega
    refine ⟨rfl, by simp, by simp, ?_, ?_, ?_, ?_, ?_⟩
    · simp only [payloadLength]
      rw [hndn] at *
      simp only [hmne, if_false] at *
      have : (List.take (max.toNat - (6 + 3)) md).length ≤ max.toNat - (6 + 3) := by
        rw [List.length_take]; omega
      simp only [List.take_zero, List.length_nil]
      split <;> omega
    · simp [hfol, hfT, hmd']
    · simp
    · simp; omega
    · intro _; simp
  · have hge : ¬ (UInt32.ofNat md.length > max - nd) := by rw [hgt]; exact hA
    simp only [hge, if_false]
    have hs1 : slice md (UInt32.ofNat md.length).toNat (UInt32.ofNat md.length).toNat = .ok [] := by
      simp [slice, hlm]
    simp only [hs1, Go.bind_ok]
    have hsub : (max - nd - UInt32.ofNat md.length).toNat = max.toNat - nd.toNat - md.length := by
      rw [UInt32.toNat_sub_of_le, hsp, hlm]
      rw [UInt32.le_iff_toNat_le, hlm, hsp]; omega
    have hgt2 : (UInt32.ofNat data.length > max - nd - UInt32.ofNat md.length) ↔
        max.toNat - nd.toNat - md.length < data.length := by
      rw [gt_iff_lt, UInt32.lt_iff_toNat_lt, hld, hsub]
    by_cases hB : max.toNat - nd.toNat - md.length < data.length
    · simp only [hgt2, hB, if_true, sliceTo, sliceFrom, hsub,
        show max.toNat - nd.toNat - md.length ≤ data.length by omega, Go.bind_ok]
      refine ⟨_, _, _, rfl, ?_⟩
      have hfT : max.toNat < nd.toNat + md.length + data.length := by omega
      have hd' : ¬ data.drop (max.toNat - nd.toNat - md.length) = [] := by
        rw [List.drop_eq_nil_iff]; omega
      refine ⟨rfl, by simp, by simp, ?_, ?_, ?_, ?_, by simp⟩
      · simp only [payloadLength, List.length_take]
        omega
      · simp [hfol, hfT, hd']
      · simp
      · simp
        by_cases hme : md = []
        · subst hme; simp; simp at hndn; omega
        · have := hm0.mpr hme; omega
    · have hge2 : ¬ (UInt32.ofNat data.length > max - nd - UInt32.ofNat md.length) := by
        rw [hgt2]; exact hB
      simp only [hge2, if_false]
      have hs2 : slice data (UInt32.ofNat data.length).toNat (UInt32.ofNat data.length).toNat =
          .ok [] := by simp [slice, hld]
      simp only [hs2, Go.bind_ok]
      refine ⟨_, _, _, rfl, ?_⟩
      have hfF : ¬ max.toNat < nd.toNat + md.length + data.length := by omega
      refine ⟨rfl, by simp, by simp, ?_, ?_, by simp, ?_, by simp⟩
      · simp only [payloadLength]; omega
      · simp [hfol]; omega
      · simp
        rcases Nat.eq_zero_or_pos md.length with h | h
        · rcases Nat.eq_zero_or_pos data.length with h' | h'
          · exact absurd ⟨List.length_eq_zero_iff.mp h, List.length_eq_zero_iff.mp h'⟩ hne
          · omega
        · omega

/-- The continuation frames reassemble to the remaining bytes. -/
structure SplitOk (id : UInt32) (nx co : Bool) (max : Nat) (data md : Bytes)
    (ps : List Payload) : Prop where
  stream : ∀ p ∈ ps, p.streamID = id
  bounded : ∀ p ∈ ps, payloadLength p ≤ max
  hmd : (ps.map (·.metadata)).flatten = md
  hdata : (ps.map (·.data)).flatten = data
  init : ∀ p ∈ ps.dropLast, p.follows = true ∧ p.complete = false ∧ p.next = false
  last : ∀ p, ps.getLast? = some p → p.follows = false ∧ p.complete = co ∧ p.next = nx
  empty : ps = [] ↔ (md = [] ∧ data = [])

theorem splitPayloads_ok (id : UInt32) (nx co : Bool) (max : UInt32) :
    ∀ (n : Nat) (data md : Bytes), md.length + data.length ≤ n →
    md.length + data.length + 9 < 2^32 →
    (10 ≤ max.toNat ∨ (md = [] ∧ 7 ≤ max.toNat)) →
    ∃ ps, (∀ fuel, n < fuel → splitPayloads id nx co max fuel data md = some (.ok ps)) ∧
      SplitOk id nx co max.toNat data md ps := by
  intro n
  induction n with
  | zero =>
    intro data md h0 _ _
    have hm : md = [] := List.length_eq_zero_iff.mp (by omega)
    have hd : data = [] := List.length_eq_zero_iff.mp (by omega)
    subst hm; subst hd
    refine ⟨[], ?_, ⟨by simp, by simp, by simp, by simp, by simp, by simp, by simp⟩⟩
    intro fuel hf
    obtain ⟨k, rfl⟩ : ∃ k, fuel = k + 1 := ⟨fuel - 1, by omega⟩
    simp [splitPayloads, splitStep_empty]
  | succ n ih =>
    intro data md hn hlen hmax
    by_cases hne : md = [] ∧ data = []
    · obtain ⟨hm, hd⟩ := hne
      subst hm; subst hd
      refine ⟨[], ?_, ⟨by simp, by simp, by simp, by simp, by simp, by simp, by simp⟩⟩
      intro fuel hf
      obtain ⟨k, rfl⟩ : ∃ k, fuel = k + 1 := ⟨fuel - 1, by omega⟩
      simp [splitPayloads, splitStep_empty]
    · obtain ⟨p, d', m', hst, hok⟩ := splitStep_ok id nx co max data md hlen hmax hne
      have hless := hok.less
      have hmax' : 10 ≤ max.toNat ∨ (m' = [] ∧ 7 ≤ max.toNat) := by
        rcases hmax with h | ⟨h, h'⟩
        · exact Or.inl h
        · refine Or.inr ⟨?_, h'⟩
          have := hok.hmd; rw [h] at this
          exact (List.append_eq_nil_iff.mp this.symm).2
      obtain ⟨ps, hps, hsp⟩ := ih d' m' (by omega) (by omega) hmax'
      refine ⟨p :: ps, ?_, ?_⟩
      · intro fuel hf
        obtain ⟨k, rfl⟩ : ∃ k, fuel = k + 1 := ⟨fuel - 1, by omega⟩
        simp [splitPayloads, hst, hps k (by omega)]
      · have hfl := hok.follows
        have hem := hsp.empty
        refine ⟨?_, ?_, ?_, ?_, ?_, ?_, ?_⟩
        · intro q hq
          rcases List.mem_cons.mp hq with h | h
          · rw [h]; exact hok.id
          · exact hsp.stream q h
        · intro q hq
          rcases List.mem_cons.mp hq with h | h
          · rw [h]; exact hok.size
          · exact hsp.bounded q h
        · simp [hsp.hmd, ← hok.hmd]
        · simp [hsp.hdata, ← hok.hdata]
        · intro q hq
          by_cases hpe : ps = []
          · subst hpe; simp at hq
          · rw [List.dropLast_cons_of_ne_nil hpe] at hq
            rcases List.mem_cons.mp hq with h | h
            · have : p.follows = true := by
                rw [hfl]; exact decide_eq_true (mt hem.mpr hpe)
              have hfg := hok.flags
              rw [h]
              simp [this] at hfg ⊢; exact hfg
            · exact hsp.init q h
        · intro q hq
          by_cases hpe : ps = []
          · have : p.follows = false := by rw [hfl]; simpa using hem.mp hpe
            subst hpe
            simp at hq; subst hq
            have hfg := hok.flags
            simp [this] at hfg ⊢; exact hfg
          · rw [List.getLast?_cons_of_ne_nil hpe] at hq
            exact hsp.last q hq
        · simp; intro h; exact fun hd => hne ⟨h, hd⟩

/-- A step that leaves the state unchanged is repeated for ever. -/
theorem splitPayloads_diverges (id : UInt32) (nx co : Bool) (max : UInt32) (data md : Bytes)
    (p : Payload) (h : splitStep id nx co max data md = .ok (some (p, data, md))) (fuel : Nat) :
    splitPayloads id nx co max fuel data md = none := by
  induction fuel with
  | zero => rfl
  | succ k ih => simp [splitPayloads, h, ih]

/-- When `space` underflows, everything goes into a single (oversize) frame. -/
theorem splitStep_underflow (id : UInt32) (nx co : Bool) (max : UInt32) (data md : Bytes)
    (hlen : md.length + data.length + 9 < 2^31) (hne : ¬ (md = [] ∧ data = []))
    (hmax : max.toNat < 6 ∨ (md ≠ [] ∧ max.toNat < 9)) :
    ∃ p, splitStep id nx co max data md = .ok (some (p, [], [])) := by
  have hlm : (UInt32.ofNat md.length).toNat = md.length := UInt32.toNat_ofNat_lt (by omega)
  have hld : (UInt32.ofNat data.length).toNat = data.length := UInt32.toNat_ofNat_lt (by omega)
  have hmp := UInt32.ofNat_pos_iff (n := md.length) (by omega)
  have hm0 : 0 < md.length ↔ md ≠ [] := List.length_pos_iff
  have hd0 : 0 < data.length ↔ data ≠ [] := List.length_pos_iff
  have hz : ¬ (UInt32.ofNat md.length + UInt32.ofNat data.length = 0) := by
    intro h
    have := congrArg UInt32.toNat h
    rw [UInt32.toNat_add, hlm, hld] at this
    simp at this
    have h1 : ¬ 0 < md.length := by omega
    have h2 : ¬ 0 < data.length := by omega
    rw [hm0] at h1; rw [hd0] at h2
    exact hne ⟨by simpa using h1, by simpa using h2⟩
  unfold splitStep
  simp only [hz, if_false, hmp, hm0]
  generalize hnd : (if md ≠ [] then (9 : UInt32) else 6) = nd
  have hndn : nd.toNat = 6 + (if md = [] then 0 else 3) := by
    rw [← hnd]; by_cases h : md = [] <;> simp [h]
  have hlt : max.toNat < nd.toNat ∧ nd.toNat ≤ 9 := by
    rw [hndn]
    rcases hmax with h | ⟨h, h'⟩
    · split <;> omega
    · simp [h]; omega
  have hsp : (max - nd).toNat = 2^32 + max.toNat - nd.toNat := by
    rw [UInt32.toNat_sub]
    have := nd.toNat_lt
    omega
  have hge : ¬ (UInt32.ofNat md.length > max - nd) := by
    rw [gt_iff_lt, UInt32.lt_iff_toNat_lt, hlm, hsp]; omega
  simp only [hge, if_false]
  have hs1 : slice md (UInt32.ofNat md.length).toNat (UInt32.ofNat md.length).toNat = .ok [] := by
    simp [slice, hlm]
  have hs2 : slice data (UInt32.ofNat data.length).toNat (UInt32.ofNat data.length).toNat =
      .ok [] := by simp [slice, hld]
  have hsub : (max - nd - UInt32.ofNat md.length).toNat =
      2^32 + max.toNat - nd.toNat - md.length := by
    rw [UInt32.toNat_sub_of_le, hsp, hlm]
    rw [UInt32.le_iff_toNat_le, hlm, hsp]; omega
  have hge2 : ¬ (UInt32.ofNat data.length > max - nd - UInt32.ofNat md.length) := by
    rw [gt_iff_lt, UInt32.lt_iff_toNat_lt, hld, hsub]; omega
  simp only [hs1, Go.bind_ok, hge2, if_false, hs2]
  exact ⟨_, rfl⟩

/-- When `space` is zero no progress is made. -/
theorem splitStep_stuck (id : UInt32) (nx co : Bool) (max : UInt32) (data md : Bytes)
    (hlen : md.length + data.length + 9 < 2^32) (hne : ¬ (md = [] ∧ data = []))
    (hmax : (md = [] ∧ max = 6) ∨ (md ≠ [] ∧ max = 9)) :
    ∃ p, splitStep id nx co max data md = .ok (some (p, data, md)) := by
  have hlm : (UInt32.ofNat md.length).toNat = md.length := UInt32.toNat_ofNat_lt (by omega)
  have hld : (UInt32.ofNat data.length).toNat = data.length := UInt32.toNat_ofNat_lt (by omega)
  have hmp := UInt32.ofNat_pos_iff (n := md.length) (by omega)
  have hdp := UInt32.ofNat_pos_iff (n := data.length) (by omega)
  have hm0 : 0 < md.length ↔ md ≠ [] := List.length_pos_iff
  have hd0 : 0 < data.length ↔ data ≠ [] := List.length_pos_iff
  have hz : ¬ (UInt32.ofNat md.length + UInt32.ofNat data.length = 0) := by
    intro h
    have := congrArg UInt32.toNat h
    rw [UInt32.toNat_add, hlm, hld] at this
    simp at this
    have h1 : ¬ 0 < md.length := by omega
    have h2 : ¬ 0 < data.length := by omega
    rw [hm0] at h1; rw [hd0] at h2
    exact hne ⟨by simpa using h1, by simpa using h2⟩
  unfold splitStep
  simp only [hz, if_false, hmp, hm0]
  rcases hmax with ⟨hm, hx⟩ | ⟨hm, hx⟩
  · subst hm; subst hx
    have hd : data ≠ [] := fun h => hne ⟨rfl, h⟩
    simp [slice, hdp, hd0, hd, sliceTo, sliceFrom]
  · subst hx
    simp [hm, hmp, hm0, sliceTo, sliceFrom]

/-- Frames that follow the fragmentation rule reassemble. -/
theorem continueFrame_ok (co : Bool) (nx : Bool) :
    ∀ (ps : List Payload) (c : Bool) (md d : Bytes), ps ≠ [] →
    (∀ p ∈ ps.dropLast, p.follows = true ∧ p.complete = false ∧ p.next = false) →
    (∀ p, ps.getLast? = some p → p.follows = false ∧ p.complete = co ∧ p.next = nx) →
    continueFrame true c md d ps =
      some (md ++ (ps.map (·.metadata)).flatten, d ++ (ps.map (·.data)).flatten, co, []) := by
  intro ps
  induction ps with
  | nil => intro _ _ _ h; exact absurd rfl h
  | cons p ps ih =>
    intro c md d _ hinit hlast
    simp only [continueFrame, if_true]
    by_cases hpe : ps = []
    · subst hpe
      obtain ⟨h1, h2, _⟩ := hlast p (by simp)
      simp [continueFrame, h1, h2]
    · have hp := hinit p (by rw [List.dropLast_cons_of_ne_nil hpe]; simp)
      rw [hp.1, ih _ _ _ hpe ?_ ?_]
      · simp
      · intro q hq
        exact hinit q (by rw [List.dropLast_cons_of_ne_nil hpe]; simp [hq])
      · intro q hq
        exact hlast q (by rw [List.getLast?_cons_of_ne_nil hpe]; exact hq)

end Verif
