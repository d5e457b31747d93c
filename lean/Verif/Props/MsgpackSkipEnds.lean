import Verif.Props.MsgpackSkip
/-
Property C43: skipping ends.
-/
set_option autoImplicit false
namespace Verif.Props
open Verif Spec Msgpack

/-- C43 in full: `Skip` on every byte string with a 32-bit length finishes. -/
def C43_statement : Prop :=
  ∀ b : Bytes, b.length < 2^32 → ∃ f o, skip f (DR.new b) = some o

/-- C43 fails: an array of two elements whose first is a string that declares 2^32 - 6 bytes. The
offset wraps around to the beginning (data_reader.go 53, 243), and everything starts over. -/
theorem C43_violated : ¬ C43_statement := by
  intro h
  obtain ⟨f, o, h⟩ := h [0x92, 0xdb, 0xff, 0xff, 0xff, 0xfa] (by decide)
  have h0 : getSize (DR.new [0x92, 0xdb, 0xff, 0xff, 0xff, 0xfa]) =
      .ok 2 ⟨[0x92, 0xdb, 0xff, 0xff, 0xff, 0xfa], 1, none⟩ := by decide +kernel
  have h1 : getSize ⟨[0x92, 0xdb, 0xff, 0xff, 0xff, 0xfa], 1, none⟩ =
      .ok 0 (DR.new [0x92, 0xdb, 0xff, 0xff, 0xff, 0xfa]) := by decide +kernel
  have key : ∀ f, skip f (DR.new [0x92, 0xdb, 0xff, 0xff, 0xff, 0xfa]) = none := by
    intro f
    induction f using Nat.strongRecOn with
    | ind f ih =>
      match f with
      | 0 => rfl
      | 1 => simp only [skip, h0, skipN]
      | 2 => simp only [skip, h0]; rfl
      | 3 => simp only [skip, h0]; simp only [show (2 : UInt32).toNat = 2 from rfl, skipN, skip, h1]
      | f + 4 =>
        have h2 : skip (f + 2) ⟨[0x92, 0xdb, 0xff, 0xff, 0xff, 0xfa], 1, none⟩ =
            some (.ok () (DR.new [0x92, 0xdb, 0xff, 0xff, 0xff, 0xfa])) := by
          simp only [skip, h1]
          rfl
        simp only [skip, h0]
        simp only [show (2 : UInt32).toNat = 1 + 1 from rfl, skipN, h2]
        rw [ih (f + 1) (by omega)]
  rw [key] at h
  cases h

/-! ## What holds -/

/-- At position `i`, `b` has the header of a string or byte array with a 4-byte length `n`. -/
def Declares (b : Bytes) (i n : Nat) : Prop :=
  n < 2^32 ∧ ∃ p rest, (p = 0xdb ∨ p = 0xc6) ∧ b.drop i = p :: (bigEndian 4 n ++ rest)

/-- No 4-byte length anywhere leads beyond 2^32, and the buffer is not itself close to that. -/
def Tame (b : Bytes) : Prop :=
  b.length + 2^16 < 2^32 ∧ ∀ i n, Declares b i n → i + 5 + n < 2^32

def Wide (d : DR) : Prop := Inside d ∧ d.buf.length + 2^16 < 2^32

theorem Wide.roomy {d : DR} (h : Wide d) : Roomy d := ⟨h.1, by have := h.2; omega⟩

theorem kept_wide {d d' : DR} {k : Nat} (hd : Wide d)
    (h : d'.buf = d.buf ∧ d.off.toNat + k ≤ d'.off.toNat ∧ Inside d') : Wide d' :=
  ⟨h.2.2, by rw [h.1]; exact hd.2⟩

def SafeW {α : Type} (r : Rd α) (k : Nat) : Prop := ∀ d, Wide d → Kept k d (r d)

theorem kept_bind {α β : Type} {x : Rd α} {f : α → Rd β} {d : DR} {a b k : Nat}
    (hx : Kept a d (x d)) (hf : ∀ v d', x d = .ok v d' → Kept b d' (f v d')) (hk : k ≤ a + b) :
    Kept k d ((x >>= f) d) := by
  rw [rd_bind]
  cases ho : x d with
  | ok v d' =>
    have h2 := hf v d' ho
    rw [ho] at hx
    dsimp only
    generalize f v d' = o' at h2
    simp only [Kept] at hx
    cases o' with
    | ok w d'' =>
      simp only [Kept] at h2 ⊢
      exact ⟨h2.1.trans hx.1, by omega, h2.2.2⟩
    | fail e d'' =>
      simp only [Kept] at h2 ⊢
      exact ⟨h2.1.trans hx.1, by omega, h2.2.2⟩
    | panic => exact h2
  | fail e d' => rw [ho] at hx; exact hx
  | panic => rw [ho] at hx; exact hx

theorem SafeW.bind {α β : Type} {x : Rd α} {f : α → Rd β} {a b k : Nat} (hx : SafeW x a)
    (hf : ∀ v, SafeW (f v) b) (hk : k ≤ a + b) : SafeW (x >>= f) k := fun d hd =>
  kept_bind (hx d hd) (fun v d' ho => by
    have h1 := hx d hd
    rw [ho] at h1
    exact hf v d' (kept_wide hd h1)) hk

theorem Safe.wide {α : Type} {r : Rd α} {k : Nat} (h : Safe r k) : SafeW r k := fun d hd => h d hd.roomy

theorem discard_kept (n : UInt32) (d : DR) (hd : Wide d) (hn : d.off.toNat + n.toNat < 2^32) :
    Kept 0 d (discard n d) := by
  obtain ⟨hi, hl⟩ := hd
  have hd := hi
  unfold Inside at hd
  unfold Msgpack.discard
  rw [rd_bind]
  rcases check_cases n d (by omega) hn with ⟨h1, h2, h3⟩ | ⟨e, d', h1, h2, h3⟩
  · rw [h1]
    exact ⟨rfl, by show _ ≤ (d.off + n).toNat; omega, by show (d.off + n).toNat ≤ d.buf.length; omega⟩
  · rw [h1]
    refine ⟨h2, by rw [h3]; exact Nat.le_refl _, ?_⟩
    unfold Inside
    rw [h2, h3]
    exact hd

theorem safeW_discard (n : UInt32) (hn : n.toNat < 2^16) : SafeW (discard n) 0 := fun d hd =>
  discard_kept n d hd (by have h1 := hd.1; have h2 := hd.2; unfold Inside at h1; omega)

theorem safeW_discardQuiet (n : UInt32) (hn : n.toNat < 2^16) : SafeW (discardQuiet n) 0 := by
  intro d hd
  have h := safeW_discard n hn d hd
  unfold discardQuiet
  generalize discard n d = o at h
  cases o with
  | ok _ d' => exact h
  | fail _ d' => exact h
  | panic => exact h

theorem safeW_quiet {n : UInt32} (hn : n.toNat < 2^16) :
    SafeW (discardQuiet n >>= fun _ => Rd.pure (0 : UInt32)) 0 :=
  (safeW_discardQuiet n hn).bind (fun _ => (safe_pure _).wide) (by decide)

/-- What a successful read of a fixed number of bytes found. -/
theorem getWith_ok {α : Type} {n : UInt32} {f : Bytes → Go α} {d d' : DR} {a : α}
    (h : getWith n f d = .ok a d') :
    d' = { d with off := d.off + n } ∧ f (d.buf.drop d.off.toNat) = .ok a := by
  unfold getWith at h
  rw [rd_bind] at h
  cases hc : check n d with
  | fail e d1 => rw [hc] at h; cases h
  | panic => rw [hc] at h; cases h
  | ok u d1 =>
    have hd : d1 = d := by
      unfold check at hc
      cases he : d.err with
      | some e => rw [he] at hc; cases hc
      | none =>
        rw [he] at hc
        dsimp only at hc
        split at hc
        · cases hc
        · cases hc; rfl
    subst hd
    rw [hc] at h
    simp only [rd_of] at h
    unfold sliceFrom at h
    split at h
    · rename_i hb
      split at hb
      · rw [Go.bind_ok] at hb
        cases h
        exact ⟨rfl, hb⟩
      · cases hb
    · cases h

theorem getU32_inv {b : Bytes} {n : UInt32} (h : getU32 b = .ok n) :
    ∃ rest, b = bigEndian 4 n.toNat ++ rest := by
  match b, h with
  | x :: y :: z :: w :: l, h =>
    simp only [getU32, Go.ok.injEq] at h
    refine ⟨l, ?_⟩
    subst h
    have hx := x.toNat_lt
    have hy := y.toNat_lt
    have hz := z.toNat_lt
    have hw := w.toNat_lt
    have hv : beNat [x, y, z, w] = ((x.toNat * 256 + y.toNat) * 256 + z.toNat) * 256 + w.toNat := by
      simp [beNat]
    rw [UInt32.toNat_ofNat_lt (by rw [hv]; omega), hv]
    have e : ∀ (a : UInt8) (m : Nat), m % 256 = a.toNat → UInt8.ofNat m = a := fun a m h =>
      UInt8.toNat_inj.mp (by rw [UInt8.toNat_ofNat']; exact h)
    simp only [bigEndian, List.cons_append, List.nil_append]
    rw [e x _ (by simp; omega), e y _ (by simp; omega), e z _ (by simp; omega), e w _ (by simp)]

theorem kept_ite {α : Type} {c : Prop} [Decidable c] {a b : Rd α} {d : DR} {k : Nat}
    (ha : c → Kept k d (a d)) (hb : ¬ c → Kept k d (b d)) :
    Kept k d ((if c then a else b) d) := by
  split
  · exact ha (by assumption)
  · exact hb (by assumption)

/-- `getSize` on tame input consumes at least a byte or fails. -/
theorem getSize_kept (d : DR) (hd : Wide d) (ht : Tame d.buf) : Kept 1 d (getSize d) := by
  unfold getSize
  refine kept_bind (a := 1) (b := 0) (safe_uint8 d hd.roomy) (fun p d1 h1 => ?_) (by decide)
  have hk1 := safe_uint8 d hd.roomy
  rw [h1] at hk1
  have hd1 := kept_wide hd hk1
  have hp : (p &&& 0x1f).toUInt32.toNat < 2^16 := by
    have := (p &&& 0x1f).toNat_lt
    rw [UInt8.toNat_toUInt32]; omega
  have long : p = fmtString32 ∨ p = fmtBin32 → Kept 0 d1
      ((getUint32 >>= fun n => discard n >>= fun _ => Rd.pure (0 : UInt32)) d1) := by
    intro hp
    refine kept_bind (a := 0) (b := 0) ((safe_uint32.weaken (by decide)) d1 hd1.roomy)
      (fun n d2 h2 => ?_) (by decide)
    have hk2 := safe_uint32 d1 hd1.roomy
    rw [h2] at hk2
    have hd2 := kept_wide hd1 hk2
    obtain ⟨e1, g1⟩ := getWith_ok h1
    obtain ⟨e2, g2⟩ := getWith_ok h2
    obtain ⟨rest, hrest⟩ := getU32_inv g2
    simp only [Kept] at hk1 hk2
    have i1 := hk1.2.2
    have i2 := hk2.2.2
    have l1 := hd.2
    unfold Inside at i1 i2
    have o1 : d1.off.toNat = d.off.toNat + 1 := by
      have : d1.off.toNat = (d.off.toNat + 1) % 2^32 := by rw [e1]; exact UInt32.toNat_add ..
      rw [hk1.1] at i1
      have h0 := hd.1
      unfold Inside at h0
      omega
    have o2 : d2.off.toNat = d1.off.toNat + 4 := by
      have : d2.off.toNat = (d1.off.toNat + 4) % 2^32 := by rw [e2]; exact UInt32.toNat_add ..
      rw [hk1.1] at i1
      omega
    have hdrop : d.buf.drop d.off.toNat = p :: (bigEndian 4 n.toNat ++ rest) := by
      have hb : d1.buf = d.buf := hk1.1
      rw [o1, hb] at hrest
      rw [← hrest]
      cases hl : d.buf.drop d.off.toNat with
      | nil => rw [hl] at g1; cases g1
      | cons x l =>
        rw [hl] at g1
        cases g1
        rw [← List.drop_drop, hl]
        rfl
    have := ht.2 d.off.toNat n.toNat ⟨n.toNat_lt, p, rest, hp, hdrop⟩
    refine kept_bind (a := 0) (b := 0) (discard_kept n d2 hd2 (by omega))
      (fun _ d3 h3 => ?_) (by decide)
    have hk3 := discard_kept n d2 hd2 (by omega)
    rw [h3] at hk3
    exact safe_pure _ d3 (kept_wide hd2 hk3).roomy
  repeat' (refine kept_ite (fun _ => ?_) (fun _ => ?_))
  all_goals first
    | exact long (by assumption)
    | exact (safe_pure _).wide d1 hd1
    | exact (safe_fail _).wide d1 hd1
    | exact safeW_quiet (by decide) d1 hd1
    | exact safeW_quiet hp d1 hd1
    | exact SafeW.bind (a := 0) (b := 0) (safe_uint8.weaken (by decide)).wide (fun n =>
        (safeW_discard n.toUInt32 (by have := n.toNat_lt; rw [UInt8.toNat_toUInt32]; omega)).bind
          (b := 0) (k := 0) (fun _ => (safe_pure _).wide) (by decide)) (by decide) d1 hd1
    | exact SafeW.bind (a := 0) (b := 0) (safe_uint16.weaken (by decide)).wide (fun n =>
        (safeW_discard n.toUInt32 (by have := n.toNat_lt; rw [UInt16.toNat_toUInt32]; omega)).bind
          (b := 0) (k := 0) (fun _ => (safe_pure _).wide) (by decide)) (by decide) d1 hd1
    | exact SafeW.bind (a := 0) (b := 0) (safe_uint16.weaken (by decide)).wide
        (fun n => (safe_pure _).wide) (by decide) d1 hd1
    | exact SafeW.bind (a := 0) (b := 0) (safe_uint32.weaken (by decide)).wide
        (fun n => (safe_pure _).wide) (by decide) d1 hd1
    | exact (safe_uint32.weaken (j := 0) (by decide)).wide d1 hd1

/-- Bytes left. -/
def left (d : DR) : Nat := d.buf.length - d.off.toNat

theorem skip_ends (f : Nat) :
    (∀ d, Wide d → Tame d.buf → 2 * left d + 2 ≤ f → ∃ o, skip f d = some o ∧ Kept 1 d o) ∧
    (∀ n d, Wide d → Tame d.buf → 2 * left d + 3 ≤ f → ∃ o, skipN f n d = some o ∧ Kept 0 d o) := by
  induction f with
  | zero => exact ⟨fun d _ _ h => by omega, fun n d _ _ h => by omega⟩
  | succ f ih =>
    constructor
    · intro d hd ht hf
      have hk := getSize_kept d hd ht
      simp only [skip]
      generalize getSize d = o at hk
      cases o with
      | panic => exact hk.elim
      | fail e d' => exact ⟨_, rfl, hk⟩
      | ok n d' =>
        have hd' := kept_wide hd hk
        simp only [Kept] at hk
        have hi := hd'.1
        unfold Inside at hi
        obtain ⟨o, ho, hk'⟩ := ih.2 n.toNat d' hd' (by rw [hk.1]; exact ht) (by
          unfold left at hf ⊢; rw [hk.1] at hi ⊢; omega)
        refine ⟨o, ho, ?_⟩
        cases o with
        | panic => exact hk'
        | ok _ d'' => exact ⟨hk'.1.trans hk.1, by have := hk'.2.1; omega, hk'.2.2⟩
        | fail e d'' => exact ⟨hk'.1.trans hk.1, by have := hk'.2.1; omega, hk'.2.2⟩
    · intro n d hd ht hf
      cases n with
      | zero => exact ⟨_, rfl, rfl, Nat.le_refl _, hd.1⟩
      | succ n =>
        obtain ⟨o, ho, hk⟩ := ih.1 d hd ht (by omega)
        simp only [skipN, ho]
        cases o with
        | panic => exact hk.elim
        | fail e d' => exact ⟨_, rfl, hk⟩
        | ok u d' =>
          have hd' := kept_wide hd hk
          simp only [Kept] at hk
          have hi := hd'.1
          unfold Inside at hi
          obtain ⟨o, ho, hk'⟩ := ih.2 n d' hd' (by rw [hk.1]; exact ht) (by
            unfold left at hf ⊢; rw [hk.1] at hi ⊢; omega)
          refine ⟨o, ho, ?_⟩
          cases o with
          | panic => exact hk'
          | ok _ d'' => exact ⟨hk'.1.trans hk.1, by have := hk'.2.1; omega, hk'.2.2⟩
          | fail e d'' => exact ⟨hk'.1.trans hk.1, by have := hk'.2.1; omega, hk'.2.2⟩

/-- C43, partial: on every byte string (up to 2^32 - 2^16 bytes) in which no header of a string or
byte array with a 4-byte length leads beyond 2^32, `Skip` finishes, from every position, with or without
an error, without crashing and without leaving the buffer; if it succeeds it has consumed at least one
byte. The recursion depth is at most twice the number of bytes left plus two. Missing: inputs with
such a header, on which `Skip` may run forever (`C43_violated`). -/
theorem C43_partial (b : Bytes) (off : UInt32) (e : Option String) (hb : Tame b)
    (ho : off.toNat ≤ b.length) :
    ∃ o, skip (2 * (b.length - off.toNat) + 2) ⟨b, off, e⟩ = some o ∧ Kept 1 ⟨b, off, e⟩ o :=
  (skip_ends _).1 ⟨b, off, e⟩ ⟨ho, hb.1⟩ hb (Nat.le_refl _)

/-- An array that declares 2^32 - 1 elements, of which two are there. -/
example : Tame [0xdd, 0xff, 0xff, 0xff, 0xff, 0xc0, 0xc0] ∧
    ∃ e d, skip 16 (DR.new [0xdd, 0xff, 0xff, 0xff, 0xff, 0xc0, 0xc0]) = some (.fail e d) := by
  refine ⟨⟨by decide, ?_⟩, ?_⟩
  · rintro i n ⟨_, p, rest, hp, h⟩
    have hm : p ∈ ([0xdd, 0xff, 0xff, 0xff, 0xff, 0xc0, 0xc0] : Bytes) :=
      List.mem_of_mem_drop (i := i) (by rw [h]; exact List.mem_cons_self)
    rcases hp with rfl | rfl <;> exact absurd hm (by decide)
  · exact ⟨errRange, ⟨[0xdd, 0xff, 0xff, 0xff, 0xff, 0xc0, 0xc0], 7, some errRange⟩, by decide +kernel⟩

end Verif.Props
