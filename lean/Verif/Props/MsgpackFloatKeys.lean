import Verif.Props.MsgpackKeys
/-
Property C88 (the last value of a repeated key wins) for all keys, floats included.
-/
set_option autoImplicit false
namespace Verif.Props
open Verif Msgpack Spec

/-! ## Which keys are the same -/

/-- The size of the float whose bits but for the sign are `x` (`p` of them the fraction), in units of the smallest number above zero:
below exponent 1 the fraction itself, else the fraction with a leading 1, doubled for each further exponent. Infinity comes out
as more than all others. -/
def floatSize (p x : Nat) : Nat :=
  if x < 2 ^ p then x else (2 ^ p + x % 2 ^ p) * 2 ^ (x / 2 ^ p - 1)

/-- The number a float64 with these bits is, in these units; none for NaN: exponent 2047 and a fraction that is not 0. -/
def float64Num (a : UInt64) : Option Int :=
  let x := a.toNat % 2 ^ 63
  if x > 2047 * 2 ^ 52 then none
  else some (if a.toNat < 2 ^ 63 then (floatSize 52 x : Int) else - (floatSize 52 x : Int))

/-- The same for a float32. -/
def float32Num (a : UInt32) : Option Int :=
  let x := a.toNat % 2 ^ 31
  if x > 255 * 2 ^ 23 then none
  else some (if a.toNat < 2 ^ 31 then (floatSize 23 x : Int) else - (floatSize 23 x : Int))

/-- Two keys are the same for Go: floats of the same type that are the same number, or the same value of another type. -/
def sameGoKey : Dyn → Dyn → Bool
  | .float32 a, .float32 b => (float32Num a).isSome && decide (float32Num a = float32Num b)
  | .float64 a, .float64 b => (float64Num a).isSome && decide (float64Num a = float64Num b)
  | .nil, .nil => true
  | .bool a, .bool b => decide (a = b)
  | .str a, .str b => decide (a = b)
  | .int8 a, .int8 b => decide (a = b)
  | .int16 a, .int16 b => decide (a = b)
  | .int32 a, .int32 b => decide (a = b)
  | .int64 a, .int64 b => decide (a = b)
  | .uint8 a, .uint8 b => decide (a = b)
  | .uint16 a, .uint16 b => decide (a = b)
  | .uint32 a, .uint32 b => decide (a = b)
  | .uint64 a, .uint64 b => decide (a = b)
  | _, _ => false

/-- The value of the first entry with this key. -/
def goLookup (m : List (Dyn × Dyn)) (k : Dyn) : Option Dyn := (m.find? fun e => sameGoKey e.1 k).map (·.2)

theorem floatSize_succ (p x : Nat) : floatSize p x < floatSize p (x + 1) := by
  unfold floatSize
  have hP : 0 < 2 ^ p := Nat.two_pow_pos p
  generalize 2 ^ p = P at hP ⊢
  have hx := Nat.div_add_mod x P
  have hm := Nat.mod_lt x hP
  generalize he : x / P = e at hx ⊢
  generalize hmm : x % P = m at hx hm ⊢
  by_cases hc : m + 1 < P
  · have h1 : (x + 1) / P = e := by
      rw [← hx, Nat.add_assoc, Nat.mul_add_div hP, Nat.div_eq_of_lt hc, Nat.add_zero]
    have h2 : (x + 1) % P = m + 1 := by
      rw [← hx, Nat.add_assoc, Nat.mul_add_mod, Nat.mod_eq_of_lt hc]
    rw [h1, h2]
    by_cases h0 : x < P
    · rw [if_pos h0]
      split
      · omega
      · rename_i h3
        have : e = 0 := by rw [← he]; exact Nat.div_eq_of_lt h0
        subst this
        simp at hx
        omega
    · rw [if_neg h0, if_neg (by omega)]
      exact Nat.mul_lt_mul_of_pos_right (by omega) (Nat.two_pow_pos _)
  · have hm1 : m + 1 = P := by omega
    have hx1 : x + 1 = P * (e + 1) := by rw [Nat.mul_add, Nat.mul_one]; omega
    have h1 : (x + 1) / P = e + 1 := by rw [hx1, Nat.mul_div_cancel_left _ hP]
    have h2 : (x + 1) % P = 0 := by rw [hx1, Nat.mul_mod_right]
    rw [h1, h2]
    have h3 : ¬ x + 1 < P := by
      rw [hx1]
      have := Nat.le_mul_of_pos_right P (Nat.succ_pos e)
      exact Nat.not_lt.2 this
    rw [if_neg h3]
    by_cases h0 : x < P
    · have : e = 0 := by rw [← he]; exact Nat.div_eq_of_lt h0
      subst this
      rw [if_pos h0]
      simp
      exact h0
    · rw [if_neg h0]
      have he1 : 1 ≤ e := by
        rw [← he]; exact (Nat.le_div_iff_mul_le hP).2 (by omega)
      have : 2 ^ (e + 1 - 1) = 2 * 2 ^ (e - 1) := by
        obtain ⟨e', rfl⟩ : ∃ e', e = e' + 1 := ⟨e - 1, by omega⟩
        simp [Nat.pow_succ, Nat.mul_comm]
      rw [this, ← Nat.mul_assoc]
      exact Nat.mul_lt_mul_of_pos_right (by omega) (Nat.two_pow_pos _)

theorem floatSize_lt (p x y : Nat) (h : x < y) : floatSize p x < floatSize p y := by
  obtain ⟨k, rfl⟩ : ∃ k, y = x + 1 + k := ⟨y - (x + 1), by omega⟩
  clear h
  induction k with
  | zero => exact floatSize_succ p x
  | succ k ih => exact Nat.lt_trans ih (floatSize_succ p _)

theorem floatSize_inj (p x y : Nat) (h : floatSize p x = floatSize p y) : x = y := by
  rcases Nat.lt_trichotomy x y with h1 | h1 | h1
  · have := floatSize_lt p x y h1; omega
  · exact h1
  · have := floatSize_lt p y x h1; omega

theorem floatSize_zero (p x : Nat) : floatSize p x = 0 ↔ x = 0 := by
  have h0 : floatSize p 0 = 0 := by simp [floatSize, Nat.two_pow_pos]
  exact ⟨fun h => floatSize_inj p x 0 (by rw [h, h0]), fun h => by rw [h, h0]⟩

theorem f64Eq_iff (a b : UInt64) : f64Eq a b = ((float64Num a).isSome && decide (float64Num a = float64Num b)) := by
  have hx : ∀ x : UInt64, (x &&& 0x7fffffffffffffff).toNat = x.toNat % 2 ^ 63 := by
    intro x
    rw [UInt64.toNat_and]
    exact Nat.and_two_pow_sub_one_eq_mod x.toNat 63
  have hn : ∀ x : UInt64, ((x &&& 0x7fffffffffffffff) > 0x7ff0000000000000) ↔ x.toNat % 2 ^ 63 > 2047 * 2 ^ 52 := by
    intro x
    show (0x7ff0000000000000 : UInt64) < _ ↔ _
    rw [UInt64.lt_iff_toNat_lt, hx]
    exact Iff.rfl
  have hz : ∀ x : UInt64, ((x &&& 0x7fffffffffffffff) = 0) ↔ x.toNat % 2 ^ 63 = 0 := by
    intro x
    rw [← UInt64.toNat_inj, hx]
    rfl
  have ha := a.toNat_lt
  have hb := b.toNat_lt
  have hab : a = b ↔ a.toNat = b.toNat := UInt64.toNat_inj.symm
  rw [Bool.eq_iff_iff, Bool.and_eq_true (Option.isSome _), decide_eq_true_eq]
  simp only [f64Eq, float64Num, Bool.and_eq_true, Bool.not_eq_true', decide_eq_false_iff_not, decide_eq_true_eq, hn, Bool.or_eq_true,
    beq_iff_eq, hz, hab]
  generalize a.toNat = x at ha ⊢
  generalize b.toNat = y at hb ⊢
  by_cases h1 : x % 2 ^ 63 > 2047 * 2 ^ 52
  · simp [h1]
  by_cases h2 : y % 2 ^ 63 > 2047 * 2 ^ 52
  · simp [h1, h2]
  simp only [h1, h2, if_false, Option.isSome_some, not_false_eq_true, true_and, Option.some.injEq]
  have hi := floatSize_inj 52 (x % 2 ^ 63) (y % 2 ^ 63)
  have hzx := floatSize_zero 52 (x % 2 ^ 63)
  have hzy := floatSize_zero 52 (y % 2 ^ 63)
  constructor
  · rintro (rfl | ⟨h3, h4⟩)
    · rfl
    · have e1 := hzx.2 h3
      have e2 := hzy.2 h4
      rw [e1, e2]
      simp
  · intro h
    generalize floatSize 52 (x % 2 ^ 63) = s at *
    generalize floatSize 52 (y % 2 ^ 63) = t at *
    split at h <;> split at h <;> omega

theorem f32Eq_iff (a b : UInt32) : f32Eq a b = ((float32Num a).isSome && decide (float32Num a = float32Num b)) := by
  have hx : ∀ x : UInt32, (x &&& 0x7fffffff).toNat = x.toNat % 2 ^ 31 := by
    intro x
    rw [UInt32.toNat_and]
    exact Nat.and_two_pow_sub_one_eq_mod x.toNat 31
  have hn : ∀ x : UInt32, ((x &&& 0x7fffffff) > 0x7f800000) ↔ x.toNat % 2 ^ 31 > 255 * 2 ^ 23 := by
    intro x
    show (0x7f800000 : UInt32) < _ ↔ _
    rw [UInt32.lt_iff_toNat_lt, hx]
    exact Iff.rfl
  have hz : ∀ x : UInt32, ((x &&& 0x7fffffff) = 0) ↔ x.toNat % 2 ^ 31 = 0 := by
    intro x
    rw [← UInt32.toNat_inj, hx]
    rfl
  have ha := a.toNat_lt
  have hb := b.toNat_lt
  have hab : a = b ↔ a.toNat = b.toNat := UInt32.toNat_inj.symm
  rw [Bool.eq_iff_iff, Bool.and_eq_true (Option.isSome _), decide_eq_true_eq]
  simp only [f32Eq, float32Num, Bool.and_eq_true, Bool.not_eq_true', decide_eq_false_iff_not, decide_eq_true_eq, hn, Bool.or_eq_true,
    beq_iff_eq, hz, hab]
  generalize a.toNat = x at ha ⊢
  generalize b.toNat = y at hb ⊢
  by_cases h1 : x % 2 ^ 31 > 255 * 2 ^ 23
  · simp [h1]
  by_cases h2 : y % 2 ^ 31 > 255 * 2 ^ 23
  · simp [h1, h2]
  simp only [h1, h2, if_false, Option.isSome_some, not_false_eq_true, true_and, Option.some.injEq]
  have hi := floatSize_inj 23 (x % 2 ^ 31) (y % 2 ^ 31)
  have hzx := floatSize_zero 23 (x % 2 ^ 31)
  have hzy := floatSize_zero 23 (y % 2 ^ 31)
  constructor
  · rintro (rfl | ⟨h3, h4⟩)
    · rfl
    · have e1 := hzx.2 h3
      have e2 := hzy.2 h4
      rw [e1, e2]
      simp
  · intro h
    generalize floatSize 23 (x % 2 ^ 31) = s at *
    generalize floatSize 23 (y % 2 ^ 31) = t at *
    split at h <;> split at h <;> omega

/-- Go's `==` in the model of the map is the specified one. -/
theorem keyEq_same (a b : Dyn) : a.keyEq b = sameGoKey a b := by
  rw [Bool.eq_iff_iff]
  cases a <;> cases b <;> simp [Dyn.keyEq, sameGoKey, f32Eq_iff, f64Eq_iff]

theorem sameGoKey_iff (a b : Dyn) : sameGoKey a b = true ↔
    (∃ x y, a = .float32 x ∧ b = .float32 y ∧ float32Num x ≠ none ∧ float32Num x = float32Num y) ∨
    (∃ x y, a = .float64 x ∧ b = .float64 y ∧ float64Num x ≠ none ∧ float64Num x = float64Num y) ∨
    (exactKey a = true ∧ a = b) := by
  cases a <;> cases b <;> simp [sameGoKey, exactKey, Option.isSome_iff_ne_none]

theorem sameGoKey_symm {a b : Dyn} (h : sameGoKey a b = true) : sameGoKey b a = true := by
  rw [sameGoKey_iff] at h ⊢
  rcases h with ⟨x, y, rfl, rfl, h1, h2⟩ | ⟨x, y, rfl, rfl, h1, h2⟩ | ⟨h1, rfl⟩
  · exact .inl ⟨y, x, rfl, rfl, h2 ▸ h1, h2.symm⟩
  · exact .inr (.inl ⟨y, x, rfl, rfl, h2 ▸ h1, h2.symm⟩)
  · exact .inr (.inr ⟨h1, rfl⟩)

theorem sameGoKey_trans {a b c : Dyn} (h : sameGoKey a b = true) (h' : sameGoKey b c = true) : sameGoKey a c = true := by
  rw [sameGoKey_iff] at h h' ⊢
  rcases h with ⟨x, y, rfl, rfl, h1, h2⟩ | ⟨x, y, rfl, rfl, h1, h2⟩ | ⟨h1, rfl⟩
  · rcases h' with ⟨x', y', h3, rfl, h4, h5⟩ | ⟨x', y', h3, rfl, h4, h5⟩ | ⟨h3, rfl⟩
    · cases h3; exact .inl ⟨x, y', rfl, rfl, h1, h2.trans h5⟩
    · cases h3
    · cases h3
  · rcases h' with ⟨x', y', h3, rfl, h4, h5⟩ | ⟨x', y', h3, rfl, h4, h5⟩ | ⟨h3, rfl⟩
    · cases h3
    · cases h3; exact .inr (.inl ⟨x, y', rfl, rfl, h1, h2.trans h5⟩)
    · cases h3
  · exact h'

/-! ## Reading maps -/

theorem goLookup_cons (e : Dyn × Dyn) (m : List (Dyn × Dyn)) (k : Dyn) :
    goLookup (e :: m) k = if sameGoKey e.1 k = true then some e.2 else goLookup m k := by
  unfold goLookup
  rw [List.find?_cons]
  cases sameGoKey e.1 k <;> rfl

theorem goLookup_append (a b : List (Dyn × Dyn)) (k : Dyn) : goLookup (a ++ b) k = (goLookup a k).or (goLookup b k) := by
  induction a with
  | nil => rfl
  | cons e a ih =>
    rw [List.cons_append, goLookup_cons, goLookup_cons, ih]
    split <;> rfl

theorem goLookup_assign (k v : Dyn) (m : List (Dyn × Dyn)) (x : Dyn) :
    goLookup (mapAssign k v m) x = if sameGoKey k x = true then some v else goLookup m x := by
  induction m with
  | nil => rw [mapAssign, goLookup_cons]
  | cons e m ih =>
    obtain ⟨k', v'⟩ := e
    simp only [mapAssign, keyEq_same]
    by_cases h : sameGoKey k' k = true
    · rw [if_pos h, goLookup_cons, goLookup_cons]
      by_cases h1 : sameGoKey k x = true
      · rw [if_pos h1, if_pos h1]
      · rw [if_neg h1, if_neg h1, if_neg fun h2 => h1 (sameGoKey_trans (sameGoKey_symm h) h2)]
    · rw [if_neg h, goLookup_cons, goLookup_cons, ih]
      by_cases h1 : sameGoKey k' x = true
      · rw [if_pos h1, if_pos h1, if_neg fun h2 => h (sameGoKey_trans h1 (sameGoKey_symm h2))]
      · rw [if_neg h1, if_neg h1]

theorem mem_assign_key {k v : Dyn} {m : List (Dyn × Dyn)} {e : Dyn × Dyn} (h : e ∈ mapAssign k v m) : e = (k, v) ∨ e ∈ m := by
  induction m with
  | nil => simpa [mapAssign] using h
  | cons f m ih =>
    obtain ⟨k', v'⟩ := f
    simp only [mapAssign] at h
    split at h
    · rcases List.mem_cons.1 h with h | h
      · exact .inl h
      · exact .inr (List.mem_cons_of_mem _ h)
    · rcases List.mem_cons.1 h with h | h
      · exact .inr (h ▸ List.mem_cons_self)
      · exact (ih h).imp id (List.mem_cons_of_mem _)

/-- No two entries have the same key. -/
def keysOnce (m : List (Dyn × Dyn)) : Prop := m.Pairwise fun a b => sameGoKey a.1 b.1 = false

theorem keysOnce_assign (k v : Dyn) (m : List (Dyn × Dyn)) (h : keysOnce m) : keysOnce (mapAssign k v m) := by
  induction m with
  | nil => simp [keysOnce, mapAssign]
  | cons e m ih =>
    obtain ⟨k', v'⟩ := e
    obtain ⟨h1, h2⟩ := List.pairwise_cons.1 h
    simp only [mapAssign, keyEq_same]
    by_cases hk : sameGoKey k' k = true
    · rw [if_pos hk]
      refine List.pairwise_cons.2 ⟨fun f hf => ?_, h2⟩
      have := h1 f hf
      cases hx : sameGoKey k f.1 with
      | false => rfl
      | true => rw [sameGoKey_trans hk hx] at this; cases this
    · rw [if_neg hk]
      refine List.pairwise_cons.2 ⟨fun f hf => ?_, ih h2⟩
      rcases mem_assign_key hf with rfl | hf
      · simpa using hk
      · exact h1 f hf

/-- The keys that are not even the same as themselves: NaN. -/
def neverSame (e : Dyn × Dyn) : Bool := !sameGoKey e.1 e.1

theorem neverSame_assign (k v : Dyn) (m : List (Dyn × Dyn)) :
    (mapAssign k v m).filter neverSame = m.filter neverSame ++ [(k, v)].filter neverSame := by
  induction m with
  | nil => rfl
  | cons e m ih =>
    obtain ⟨k', v'⟩ := e
    simp only [mapAssign, keyEq_same]
    by_cases hk : sameGoKey k' k = true
    · have h1 : sameGoKey k' k' = true := sameGoKey_trans hk (sameGoKey_symm hk)
      have h2 : sameGoKey k k = true := sameGoKey_trans (sameGoKey_symm hk) hk
      rw [if_pos hk]
      simp [neverSame, h1, h2]
    · rw [if_neg hk, List.filter_cons, List.filter_cons, ih]
      split <;> simp

theorem all_entries_last (es : WireEntries Dyn Dyn) (hx : ∀ e ∈ es, e.2.1.hashable = true)
    (hk : ∀ e ∈ es, ReadsAny e.1 e.2.1) (hv : ∀ e ∈ es, ReadsAny e.2.2.1 e.2.2.2) :
    ∀ acc : List (Dyn × Dyn), keysOnce acc →
    ∃ m f, ReadsMap es.length acc es.bytes m f ∧ keysOnce m ∧
      (∀ k, goLookup m k = (goLookup es.entries.reverse k).or (goLookup acc k)) ∧
      m.filter neverSame = acc.filter neverSame ++ es.entries.filter neverSame := by
  induction es with
  | nil => intro acc ha; exact ⟨acc, 1, map_nil acc, ha, fun k => by simp [WireEntries.entries, goLookup],
      by simp [WireEntries.entries]⟩
  | cons e es ih =>
    intro acc ha
    have hxe := hx e List.mem_cons_self
    obtain ⟨m, f, h1, h2, h3, h4⟩ := ih (fun x h => hx x (List.mem_cons_of_mem _ h))
      (fun x hx => hk x (List.mem_cons_of_mem _ hx))
      (fun x hx => hv x (List.mem_cons_of_mem _ hx)) (mapAssign e.2.1 e.2.2.2 acc) (keysOnce_assign _ _ _ ha)
    obtain ⟨a, hka⟩ := hk e List.mem_cons_self
    obtain ⟨b, hvb⟩ := hv e List.mem_cons_self
    have ee : WireEntries.entries (e :: es) = (e.2.1, e.2.2.2) :: WireEntries.entries es := rfl
    refine ⟨m, max (max a b) f + 1, ?_, h2, fun k => ?_, ?_⟩
    · have eb : WireEntries.bytes (e :: es) = e.1 ++ (e.2.2.1 ++ WireEntries.bytes es) := by
        simp [WireEntries.bytes]
      rw [eb]
      exact map_cons hka hvb hxe h1
    · rw [h3, goLookup_assign, ee, List.reverse_cons, goLookup_append]
      cases goLookup (WireEntries.entries es).reverse k with
      | some v => simp
      | none =>
        rw [goLookup_cons]
        simp only [Option.none_or]
        split
        · rfl
        · rfl
    · rw [h4, neverSame_assign, ee, List.append_assoc, ← List.filter_append]
      rfl

/-- C88 for dynamic values with keys of every kind, floats included: `ReadAny` reads exactly these bytes and returns a map in which no two
entries have the same key and that has for every key the last value on the wire. An entry whose key is NaN is the same as no other: all
of them are there, in order, and no lookup finds them. -/
theorem C88_all_keys (es : WireEntries Dyn Dyn) (hl : es.length < 2^32) (hx : ∀ e ∈ es, e.2.1.hashable = true)
    (hk : ∀ e ∈ es, ReadsAny e.1 e.2.1) (hv : ∀ e ∈ es, ReadsAny e.2.2.1 e.2.2.2) :
    ∃ m, ReadsAny (mapHead es.length ++ es.bytes) (.map m) ∧ keysOnce m ∧
      (∀ k, goLookup m k = goLookup es.entries.reverse k) ∧ m.filter neverSame = es.entries.filter neverSame := by
  obtain ⟨m, f, h1, h2, h3, h4⟩ := all_entries_last es hx hk hv [] List.Pairwise.nil
  have hn : (UInt32.ofNat es.length).toNat = es.length := UInt32.toNat_ofNat_lt hl
  refine ⟨m, ⟨f + 1, ?_⟩, h2, fun k => by rw [h3]; simp [goLookup], by simpa using h4⟩
  have := any_mapHead (n := UInt32.ofNat es.length) (w := es.bytes) (l := m) (b := f) (by rw [hn]; exact h1)
  rw [hn] at this
  exact this

/-- 0 and -0 are the same key, NaN is not the same as itself, 1 of either type is another key. -/
example : sameGoKey (.float64 0) (.float64 0x8000000000000000) = true ∧
    sameGoKey (.float64 0x7ff8000000000000) (.float64 0x7ff8000000000000) = false ∧
    sameGoKey (.float64 0x3ff0000000000000) (.float64 0x3ff0000000000000) = true ∧
    sameGoKey (.float64 0x3ff0000000000000) (.float32 0x3f800000) = false ∧
    sameGoKey (.float32 0x3f800000) (.float32 0xbf800000) = false := by decide +kernel

/-- {0: 1, -0: 2, NaN: 3, NaN: 4, "a": 5} as float32 keys: three entries and "a" are left. -/
def floatKeyed : WireEntries Dyn Dyn :=
  [([0xca, 0, 0, 0, 0], .float32 0, [1], .int64 1), ([0xca, 0x80, 0, 0, 0], .float32 0x80000000, [2], .int64 2),
   ([0xca, 0x7f, 0xc0, 0, 0], .float32 0x7fc00000, [3], .int64 3), ([0xca, 0x7f, 0xc0, 0, 0], .float32 0x7fc00000, [4], .int64 4),
   ([0xa1, 97], .str [97], [5], .int64 5)]

example : (∀ e ∈ floatKeyed, e.2.1.hashable = true) ∧
    (match readAny 20 (DR.new (mapHead floatKeyed.length ++ floatKeyed.bytes)) with
     | some (.ok (.map m) _) => decide (m.length = 4) && decide ((goLookup m (.float32 0)).isSome = true) &&
        decide ((goLookup m (.float32 0x7fc00000)).isSome = false) && decide ((m.filter neverSame).length = 2)
     | _ => false) = true := by decide +kernel

end Verif.Props
