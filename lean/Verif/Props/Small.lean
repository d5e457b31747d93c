import Verif.Model.Small
import Verif.Lemmas.Frames
/-
Properties C11 and C12.
-/
namespace Verif.Props
open Verif

/-! ## C11 -/

theorem u24_new_nat (v : UInt32) : (U24.new v).1.1.toNat = v.toNat / 65536 % 256 ∧
    (U24.new v).1.2.1.toNat = v.toNat / 256 % 256 ∧ (U24.new v).1.2.2.toNat = v.toNat % 256 := by
  simp [U24.new, UInt32.toNat_shiftRight, Nat.shiftRight_eq_div_pow]

theorem u24_exceeds (v : UInt32) : v > 16777215 ↔ 2^24 ≤ v.toNat := by
  rw [gt_iff_lt, UInt32.lt_iff_toNat_lt]; simp; omega

/-- C11: for n < 2^24, the field is n big-endian in three bytes, reads back as n with every
reader, and no error is reported. -/
theorem C11_u24_roundtrip (v : UInt32) (h : v.toNat < 2^24) :
    (U24.new v).2 = none ∧ U24.mustNew v = .ok (U24.new v).1 ∧
    U24.bytes (U24.new v).1 = Spec.bigEndian 3 v.toNat ∧
    U24.asInt (U24.new v).1 = v.toNat ∧
    (∀ rest, U24.readToInt (U24.bytes (U24.new v).1 ++ rest) = .ok v.toNat) ∧
    (∀ rest, U24.ofBytes (U24.bytes (U24.new v).1 ++ rest) = .ok (U24.new v).1) ∧
    U24.write v = .ok (Spec.bigEndian 3 v.toNat) := by
  obtain ⟨h1, h2, h3⟩ := u24_new_nat v
  have hex : ¬ v > 16777215 := by rw [u24_exceeds]; omega
  have he : (U24.new v).2 = none := by simp [U24.new, hex]
  have hb : U24.bytes (U24.new v).1 = Spec.bigEndian 3 v.toNat := by
    simp only [U24.bytes, Spec.bigEndian]
    congr 1
    · apply UInt8.toNat_inj.mp; rw [h1]; simp [UInt8.toNat_ofNat']
    · congr 1
      · apply UInt8.toNat_inj.mp; rw [h2]; simp [UInt8.toNat_ofNat']
      · congr 1
        apply UInt8.toNat_inj.mp; rw [h3]; simp [UInt8.toNat_ofNat']
  have ha : U24.asInt (U24.new v).1 = v.toNat := by
    simp only [U24.asInt, h1, h2, h3, Nat.shiftLeft_eq]; omega
  refine ⟨he, ?_, hb, ha, ?_, ?_, ?_⟩
  · unfold U24.mustNew
    generalize hg : U24.new v = r at *
    obtain ⟨n, e⟩ := r
    simp only at he; subst he; rfl
  · intro rest
    simp only [U24.bytes, List.cons_append, U24.readToInt]
    simp only [U24.asInt] at ha; rw [ha]
  · intro rest; simp [U24.bytes, U24.ofBytes]
  · unfold U24.write
    generalize hg : U24.new v = r at *
    obtain ⟨n, e⟩ := r
    simp only at he; subst he
    simp only [hb]

/-- C11: for n ≥ 2^24 an error is reported and the Must form crashes; nothing is written. -/
theorem C11_u24_overflow (v : UInt32) (h : 2^24 ≤ v.toNat) :
    (U24.new v).2 = some U24.errExceed ∧ U24.mustNew v = .panic ∧
    U24.write v = .err U24.errExceed := by
  have hex : v > 16777215 := by rw [u24_exceeds]; omega
  simp [U24.new, U24.mustNew, U24.write, hex]

/-- C11: reading any three bytes gives their big-endian value, below 2^24. -/
theorem C11_u24_read (a b c : UInt8) (rest : Bytes) :
    U24.readToInt (a :: b :: c :: rest) = .ok (beNat [a, b, c]) ∧ beNat [a, b, c] < 2^24 := by
  have := a.toNat_lt; have := b.toNat_lt; have := c.toNat_lt
  simp [U24.readToInt, beNat, Nat.shiftLeft_eq]
  omega

example : (0xFEDCBA : UInt32).toNat < 2^24 ∧ U24.bytes (U24.new 0xFEDCBA).1 = [0xFE, 0xDC, 0xBA] ∧
    2^24 ≤ (0x1000000 : UInt32).toNat := by decide

/-! ## C12 -/

open StreamIds

theorem run_length (step) (p : UInt64) (sched : List Nat) : (run step p sched).length =
    sched.length := by
  induction sched generalizing p with
  | nil => rfl
  | cons g s ih => simp [run, ih]

/-- The i-th atomic add of an execution sees the counter value i + 1, whichever goroutine does
it. -/
theorem run_get (step) (hstep : ∀ p, (step p).1 = p + 1) (p : UInt64) (sched : List Nat) (i : Nat)
    (r) (h : (run step p sched)[i]? = some r) :
    sched[i]? = some r.1 ∧ r.2 = (step (p + UInt64.ofNat i)).2 := by
  induction sched generalizing p i with
  | nil => simp [run] at h
  | cons g s ih =>
    cases i with
    | zero => simp [run] at h; subst h; simp
    | succ i =>
      simp only [run, List.getElem?_cons_succ] at h
      have := ih _ _ h
      rw [hstep] at this
      refine ⟨by simpa using this.1, ?_⟩
      rw [this.2]
      congr 2
      rw [UInt64.add_assoc]
      congr 1
      rw [Nat.add_comm i 1, UInt64.ofNat_add]; rfl

theorem clientStep_eq (i : Nat) (h : i < 2^64 - 1) :
    (clientStep (UInt64.ofNat i)).2 =
      some (UInt32.ofNat ((2 * i + 1) % 2^31), decide (i < 2^30)) := by
  have hs : (UInt64.ofNat i + 1).toNat = i + 1 := by
    rw [UInt64.toNat_add, UInt64.toNat_ofNat']; simp; omega
  have hm1 : UInt64.ofNat i + 1 - 1 = UInt64.ofNat i := UInt64.add_sub_cancel _ _
  have hv : (2 * (UInt64.ofNat i + 1 - 1) + 1).toNat = (2 * i + 1) % 2^64 := by
    rw [hm1, UInt64.toNat_add, UInt64.toNat_mul, UInt64.toNat_ofNat']; simp
  have hne : (2 * (UInt64.ofNat i + 1 - 1) + 1) ≠ 0 := by
    intro h0
    have := congrArg UInt64.toNat h0
    rw [hv] at this
    simp at this; omega
  have hand := Nat.and_two_pow_sub_one_eq_mod ((2 * i + 1) % 2^64) 31
  simp only [clientStep]
  rw [if_pos hne]
  congr 2
  · apply UInt32.toNat_inj.mp
    rw [UInt64.toNat_toUInt32, UInt64.toNat_and, hv, UInt32.toNat_ofNat', Nat.and_comm]
    rw [show maskStreamID.toNat = 2^31 - 1 from rfl, hand]; omega
  · rw [decide_eq_decide, UInt64.le_iff_toNat_le, hs]
    rw [show halfSeed.toNat = 2^30 from rfl]; omega

theorem serverStep_eq (i : Nat) (h : i < 2^63 - 1) :
    (serverStep (UInt64.ofNat i)).2 =
      some (UInt32.ofNat ((2 * (i + 1)) % 2^31), decide (i < 2^30)) := by
  have hs : (UInt64.ofNat i + 1).toNat = i + 1 := by
    rw [UInt64.toNat_add, UInt64.toNat_ofNat']; simp; omega
  have hv : (2 * (UInt64.ofNat i + 1)).toNat = 2 * (i + 1) := by
    rw [UInt64.toNat_mul, hs]; simp; omega
  have hne : (2 * (UInt64.ofNat i + 1)) ≠ 0 := by
    intro h0
    have := congrArg UInt64.toNat h0
    rw [hv] at this
    simp at this
  have hand := Nat.and_two_pow_sub_one_eq_mod (2 * (i + 1)) 31
  simp only [serverStep]
  rw [if_pos hne]
  congr 2
  · apply UInt32.toNat_inj.mp
    rw [UInt64.toNat_toUInt32, UInt64.toNat_and, hv, UInt32.toNat_ofNat', Nat.and_comm]
    rw [show maskStreamID.toNat = 2^31 - 1 from rfl, hand]
  · rw [decide_eq_decide, UInt64.le_iff_toNat_le, hs]
    rw [show halfSeed.toNat = 2^30 from rfl]; omega

/-- Requirements on the ids a side hands out in one execution; `odd` selects the client side. -/
structure IdsOk (odd : Bool) (results : List (Nat × Option (UInt32 × Bool))) : Prop where
  /-- every attempt returns an id: non-zero, below 2^31, of the right parity -/
  valid : ∀ (i g : Nat) (r : Option (UInt32 × Bool)), results[i]? = some (g, r) → ∃ (id : UInt32) (fl : Bool), r = some (id, fl) ∧
    id ≠ 0 ∧ id.toNat < 2^31 ∧ (id.toNat % 2 = 1 ↔ odd = true)
  /-- no two attempts that report "first loop" return the same id -/
  unique : ∀ (i j gi gj : Nat) (idi idj : UInt32), results[i]? = some (gi, some (idi, true)) →
    results[j]? = some (gj, some (idj, true)) → i ≠ j → idi ≠ idj

/-- C12 as stated in English. -/
def C12_statement : Prop :=
  ∀ sched : List Nat, sched.length < 2^63 →
    IdsOk true (run clientStep 0 sched) ∧ IdsOk false (run serverStep 0 sched)

/-- C12, client side: holds in full. -/
theorem C12_client_ids (sched : List Nat) (h : sched.length < 2^64) :
    IdsOk true (run clientStep 0 sched) := by
  have hget : ∀ i g r, (run clientStep 0 sched)[i]? = some (g, r) →
      r = some (UInt32.ofNat ((2 * i + 1) % 2^31), decide (i < 2^30)) := by
    intro i g r hi
    have hlt : i < sched.length := by
      have := (List.getElem?_eq_some_iff.mp hi).1; rwa [run_length] at this
    have := (run_get clientStep (fun _ => rfl) 0 sched i _ hi).2
    simp only [UInt64.zero_add] at this
    rw [this, clientStep_eq i (by omega)]
  constructor
  · intro i g r hi
    refine ⟨_, _, hget i g r hi, ?_, ?_, ?_⟩
    · intro h0
      have := congrArg UInt32.toNat h0
      rw [UInt32.toNat_ofNat_lt (by omega)] at this
      simp at this; omega
    · rw [UInt32.toNat_ofNat_lt (by omega)]; omega
    · rw [UInt32.toNat_ofNat_lt (by omega)]; simp
  · intro i j gi gj idi idj hi hj hne heq
    have h1 := hget _ _ _ hi
    have h2 := hget _ _ _ hj
    obtain ⟨e1, f1⟩ := Prod.mk.inj (Option.some.inj h1)
    obtain ⟨e2, f2⟩ := Prod.mk.inj (Option.some.inj h2)
    have f1' : i < 2^30 := of_decide_eq_true f1.symm
    have f2' : j < 2^30 := of_decide_eq_true f2.symm
    rw [e1, e2] at heq
    have := congrArg UInt32.toNat heq
    rw [UInt32.toNat_ofNat_lt (by omega), UInt32.toNat_ofNat_lt (by omega)] at this
    omega

theorem run_get' (step) (p : UInt64) (sched : List Nat) (i : Nat) (h : i < sched.length) :
    ∃ r, (run step p sched)[i]? = some r :=
  ⟨_, List.getElem?_eq_getElem (by rw [run_length]; exact h)⟩

/-- C12 fails on the server side: the 2^30-th id is 0, still reported as "first loop". -/
theorem C12_server_ids_violated : ¬ C12_statement := by
  intro hst
  have h := (hst (List.replicate (2^30) 0) (by rw [List.length_replicate]; omega)).2
  obtain ⟨⟨g, r⟩, hr⟩ := run_get' serverStep 0 (List.replicate (2^30) 0) (2^30 - 1)
    (by rw [List.length_replicate]; omega)
  obtain ⟨id, fl, hr', hne, _⟩ := h.valid _ _ _ hr
  have := (run_get serverStep (fun _ => rfl) 0 _ _ _ hr).2
  simp only [UInt64.zero_add] at this
  rw [serverStep_eq _ (by omega), hr'] at this
  have := (Prod.mk.inj (Option.some.inj this)).1
  exact hne (by rw [this]; decide)

/-- C12, server side: holds for the first 2^30 - 1 allocations. Missing: later ones (the next
one really returns id 0). -/
theorem C12_server_ids_partial (sched : List Nat) (h : sched.length < 2^30) :
    IdsOk false (run serverStep 0 sched) := by
  have hget : ∀ i g r, (run serverStep 0 sched)[i]? = some (g, r) → i < 2^30 - 1 ∧
      r = some (UInt32.ofNat ((2 * (i + 1)) % 2^31), decide (i < 2^30)) := by
    intro i g r hi
    have hlt : i < sched.length := by
      have := (List.getElem?_eq_some_iff.mp hi).1; rwa [run_length] at this
    have := (run_get serverStep (fun _ => rfl) 0 sched i _ hi).2
    simp only [UInt64.zero_add] at this
    rw [this, serverStep_eq i (by omega)]
    exact ⟨by omega, rfl⟩
  constructor
  · intro i g r hi
    obtain ⟨hb, he⟩ := hget i g r hi
    refine ⟨_, _, he, ?_, ?_, ?_⟩
    · intro h0
      have := congrArg UInt32.toNat h0
      rw [UInt32.toNat_ofNat_lt (by omega)] at this
      simp at this; omega
    · rw [UInt32.toNat_ofNat_lt (by omega)]; omega
    · rw [UInt32.toNat_ofNat_lt (by omega)]; simp
  · intro i j gi gj idi idj hi hj hne heq
    obtain ⟨b1, h1⟩ := hget _ _ _ hi
    obtain ⟨b2, h2⟩ := hget _ _ _ hj
    obtain ⟨e1, _⟩ := Prod.mk.inj (Option.some.inj h1)
    obtain ⟨e2, _⟩ := Prod.mk.inj (Option.some.inj h2)
    rw [e1, e2] at heq
    have := congrArg UInt32.toNat heq
    rw [UInt32.toNat_ofNat_lt (by omega), UInt32.toNat_ofNat_lt (by omega)] at this
    omega

/-- C12: ids of the two sides never collide, whatever the two schedules. -/
theorem C12_sides_disjoint (s1 s2 : List Nat) (h1 : s1.length < 2^63 - 1) (h2 : s2.length < 2^63 - 1)
    (i j : Nat) (gi gj : Nat) (idi idj : UInt32) (fi fj : Bool)
    (hi : (run clientStep 0 s1)[i]? = some (gi, some (idi, fi)))
    (hj : (run serverStep 0 s2)[j]? = some (gj, some (idj, fj))) : idi ≠ idj := by
  have hjl : j < s2.length := by
    have := (List.getElem?_eq_some_iff.mp hj).1; rwa [run_length] at this
  obtain ⟨id, fl, he, _, _, hodd⟩ := (C12_client_ids s1 (by omega)).valid _ _ _ hi
  obtain ⟨rfl, _⟩ := Prod.mk.inj (Option.some.inj he)
  have := (run_get serverStep (fun _ => rfl) 0 _ _ _ hj).2
  simp only [UInt64.zero_add] at this
  rw [serverStep_eq _ (by omega)] at this
  obtain ⟨e2, _⟩ := Prod.mk.inj (Option.some.inj this)
  intro heq
  have h3 := hodd.mpr rfl
  rw [heq, e2, UInt32.toNat_ofNat_lt (by omega)] at h3
  omega

example : run clientStep 0 [7, 8, 7] =
    [(7, some (1, true)), (8, some (3, true)), (7, some (5, true))] ∧
    run serverStep 0 [7, 8] = [(7, some (2, true)), (8, some (4, true))] := by decide

end Verif.Props
