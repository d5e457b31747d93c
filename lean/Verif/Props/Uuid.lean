import Verif.Model.Uuid
import Verif.Props.WasmBuffers

set_option autoImplicit false
set_option maxRecDepth 4000

/-
C70 - C73: UUIDs.
-/
namespace Verif.Props

/-! ### Specification of the texts -/

/-- The value of a hexadecimal digit, either case. -/
def hexVal (c : UInt8) : Option Nat :=
  if 48 ≤ c.toNat ∧ c.toNat ≤ 57 then some (c.toNat - 48)
  else if 97 ≤ c.toNat ∧ c.toNat ≤ 102 then some (c.toNat - 87)
  else if 65 ≤ c.toNat ∧ c.toNat ≤ 70 then some (c.toNat - 55)
  else none

/-- The digits spell the bytes, two digits for a byte, the higher first. -/
def Spells : Bytes → Bytes → Prop
  | [], [] => True
  | h :: l :: t, b :: bs => (∃ x y, hexVal h = some x ∧ hexVal l = some y ∧ b.toNat = 16 * x + y) ∧ Spells t bs
  | _, _ => False

/-- `xxxxxxxx-xxxx-xxxx-xxxx-xxxxxxxxxxxx` -/
def Dashed (t u : Bytes) : Prop :=
  ∃ a b c d e, t = a ++ [0x2d] ++ b ++ [0x2d] ++ c ++ [0x2d] ++ d ++ [0x2d] ++ e ∧
    a.length = 8 ∧ b.length = 4 ∧ c.length = 4 ∧ d.length = 4 ∧ e.length = 12 ∧ Spells (a ++ b ++ c ++ d ++ e) u

/-- The letter in lower case. -/
def lowerCase (c : UInt8) : UInt8 := if 65 ≤ c.toNat ∧ c.toNat ≤ 90 then UInt8.ofNat (c.toNat + 32) else c

/-- The documented texts of a UUID: plain, URN, braced, and 32 digits. -/
def PlainText (t u : Bytes) : Prop := u.length = 16 ∧ Dashed t u
def UrnText (t u : Bytes) : Prop :=
  ∃ p r, t = p ++ r ∧ p.map lowerCase = "urn:uuid:".toUTF8.toList ∧ PlainText r u
def BracedText (t u : Bytes) : Prop := ∃ r, t = [0x7b] ++ r ++ [0x7d] ∧ PlainText r u
def RawText (t u : Bytes) : Prop := u.length = 16 ∧ Spells t u

def UuidText (t u : Bytes) : Prop := PlainText t u ∨ UrnText t u ∨ BracedText t u ∨ RawText t u

/-! ### Digits -/

theorem xvalue_spec (c : UInt8) : (hexVal c = none ∧ Uuid.xvalues.getD c.toNat 0 = 255) ∨
    ∃ x, x < 16 ∧ hexVal c = some x ∧ Uuid.xvalues.getD c.toNat 0 = UInt8.ofNat x := by
  have h : ∀ n : Fin 256, (hexVal (UInt8.ofNat n.1) = none ∧ Uuid.xvalues.getD n.1 0 = 255) ∨
      ∃ x : Fin 16, hexVal (UInt8.ofNat n.1) = some x.1 ∧ Uuid.xvalues.getD n.1 0 = UInt8.ofNat x.1 := by
    decide +kernel
  have := h ⟨c.toNat, c.toNat_lt⟩
  simp only [UInt8.ofNat_toNat] at this
  rcases this with h | ⟨x, h1, h2⟩
  · exact Or.inl h
  · exact Or.inr ⟨x.1, x.2, h1, h2⟩

theorem nibbles (x y : Nat) (hx : x < 16) (hy : y < 16) :
    (UInt8.ofNat x <<< 4) ||| UInt8.ofNat y = UInt8.ofNat (16 * x + y) ∧
    UInt8.ofNat x ≠ 255 := by
  have h : ∀ x y : Fin 16, (UInt8.ofNat x.1 <<< 4) ||| UInt8.ofNat y.1 = UInt8.ofNat (16 * x.1 + y.1) ∧
      UInt8.ofNat x.1 ≠ 255 := by decide +kernel
  exact h ⟨x, hx⟩ ⟨y, hy⟩

theorem hexVal_lt {c : UInt8} {x : Nat} (h : hexVal c = some x) : x < 16 := by
  unfold hexVal at h
  split at h
  · cases h; omega
  split at h
  · cases h; omega
  split at h
  · cases h; omega
  · cases h

theorem xtob_iff (a b v : UInt8) : ((Uuid.xtob a b).2 = true ∧ (Uuid.xtob a b).1 = v) ↔
    ∃ x y, hexVal a = some x ∧ hexVal b = some y ∧ v.toNat = 16 * x + y := by
  unfold Uuid.xtob
  rcases xvalue_spec a with ⟨h1, h2⟩ | ⟨x, hx, h1, h2⟩
  · simp only [h1, h2]; simp
  · rcases xvalue_spec b with ⟨g1, g2⟩ | ⟨y, hy, g1, g2⟩
    · simp only [g1, g2]; simp
    · obtain ⟨e, n1⟩ := nibbles x y hx hy
      have n2 := (nibbles y y hy hy).2
      simp only [h1, h2, g1, g2, e]
      constructor
      · rintro ⟨_, rfl⟩
        exact ⟨x, y, rfl, rfl, by simp; omega⟩
      · rintro ⟨x', y', hx', hy', hv⟩
        cases hx'; cases hy'
        refine ⟨by simp [n1, n2], ?_⟩
        apply UInt8.toNat_inj.mp
        rw [hv]
        simp
        omega

theorem index_eq {s : Bytes} {x : Nat} {a : UInt8} (h : s[x]? = some a) : index s x = .ok a := by
  simp [index, h]

theorem digitPair_ok (s : Bytes) (x : Nat) (a b v : UInt8) (ha : s[x]? = some a) (hb : s[x + 1]? = some b) :
    Uuid.digitPair s x = .ok v ↔ ∃ x y, hexVal a = some x ∧ hexVal b = some y ∧ v.toNat = 16 * x + y := by
  rw [← xtob_iff]
  unfold Uuid.digitPair
  rw [index_eq ha, index_eq hb]
  simp only [Go.bind_ok]
  split
  · next h => simp [h]
  · next h => simp [h]

/-- The characters at the given offsets. -/
def picked (s : Bytes) : List Nat → Bytes
  | [] => []
  | x :: xs => s.getD x 0 :: s.getD (x + 1) 0 :: picked s xs

theorem digitPairs_ok (s : Bytes) (xs : List Nat) (u : Bytes) (h : ∀ x ∈ xs, x + 1 < s.length) :
    Uuid.digitPairs s xs = .ok u ↔ Spells (picked s xs) u := by
  induction xs generalizing u with
  | nil =>
    simp only [Uuid.digitPairs, picked]
    cases u with
    | nil => simp [Spells]
    | cons b bs => simp [Spells]
  | cons x xs ih =>
    have hx := h x List.mem_cons_self
    have ha : s[x]? = some (s.getD x 0) := by
      rw [List.getD_eq_getElem?_getD, List.getElem?_eq_getElem (by omega)]; rfl
    have hb : s[x + 1]? = some (s.getD (x + 1) 0) := by
      rw [List.getD_eq_getElem?_getD, List.getElem?_eq_getElem (by omega)]; rfl
    have hp := fun v => digitPair_ok s x _ _ v ha hb
    have ih' := fun u => ih u (fun y hy => h y (List.mem_cons_of_mem _ hy))
    simp only [Uuid.digitPairs, picked]
    cases u with
    | nil =>
      simp only [Spells, iff_false]
      intro hc
      obtain ⟨b, _, hc⟩ := bind_ok_inv hc
      obtain ⟨bs, _, hc⟩ := bind_ok_inv hc
      cases hc
    | cons b bs =>
      simp only [Spells]
      rw [← hp, ← ih']
      constructor
      · intro hc
        obtain ⟨b', h1, hc⟩ := bind_ok_inv hc
        obtain ⟨bs', h2, hc⟩ := bind_ok_inv hc
        cases hc
        exact ⟨h1, h2⟩
      · rintro ⟨h1, h2⟩
        rw [h1, h2]
        rfl

theorem Spells_length : ∀ (t u : Bytes), Spells t u → t.length = 2 * u.length
  | [], [], _ => rfl
  | [], _ :: _, h => by simp [Spells] at h
  | [_], [], h => by simp [Spells] at h
  | [_], _ :: _, h => by simp [Spells] at h
  | _ :: _ :: _, [], h => by simp [Spells] at h
  | _ :: _ :: t, _ :: u, h => by
    have := Spells_length t u h.2
    simp only [List.length_cons]
    omega

/-- Every list of 36 bytes, element by element. -/
theorem list36 (s : Bytes) (h : s.length = 36) :
    s = (List.range 36).map (fun i => s.getD i 0) := by
  apply List.ext_getElem
  · simp [h]
  · intro i h1 h2
    simp [List.getElem?_eq_getElem h1]

theorem picked_dashed (a b c d e rest : Bytes) (ha : a.length = 8) (hb : b.length = 4) (hc : c.length = 4)
    (hd : d.length = 4) (he : e.length = 12) :
    picked (a ++ [0x2d] ++ b ++ [0x2d] ++ c ++ [0x2d] ++ d ++ [0x2d] ++ e ++ rest) Uuid.offsets =
      a ++ b ++ c ++ d ++ e := by
  match a, ha with
  | [a0, a1, a2, a3, a4, a5, a6, a7], _ =>
  match b, hb with
  | [b0, b1, b2, b3], _ =>
  match c, hc with
  | [c0, c1, c2, c3], _ =>
  match d, hd with
  | [d0, d1, d2, d3], _ =>
  match e, he with
  | [e0, e1, e2, e3, e4, e5, e6, e7, e8, e9, e10, e11], _ => rfl

theorem dashes_at (a b c d e : Bytes) (ha : a.length = 8) (hb : b.length = 4) (hc : c.length = 4)
    (hd : d.length = 4) :
    (a ++ [0x2d] ++ b ++ [0x2d] ++ c ++ [0x2d] ++ d ++ [0x2d] ++ e).getD 8 0 = 0x2d ∧
    (a ++ [0x2d] ++ b ++ [0x2d] ++ c ++ [0x2d] ++ d ++ [0x2d] ++ e).getD 13 0 = 0x2d ∧
    (a ++ [0x2d] ++ b ++ [0x2d] ++ c ++ [0x2d] ++ d ++ [0x2d] ++ e).getD 18 0 = 0x2d ∧
    (a ++ [0x2d] ++ b ++ [0x2d] ++ c ++ [0x2d] ++ d ++ [0x2d] ++ e).getD 23 0 = 0x2d := by
  match a, ha with
  | [a0, a1, a2, a3, a4, a5, a6, a7], _ =>
  match b, hb with
  | [b0, b1, b2, b3], _ =>
  match c, hc with
  | [c0, c1, c2, c3], _ =>
  match d, hd with
  | [d0, d1, d2, d3], _ => exact ⟨rfl, rfl, rfl, rfl⟩

/-- A text of at least 36 bytes with dashes in the right places falls into five groups. -/
theorem dashes_split (s : Bytes) (h : 36 ≤ s.length) (h8 : s[8]? = some 0x2d) (h13 : s[13]? = some 0x2d)
    (h18 : s[18]? = some 0x2d) (h23 : s[23]? = some 0x2d) :
    ∃ a b c d e, s = a ++ [0x2d] ++ b ++ [0x2d] ++ c ++ [0x2d] ++ d ++ [0x2d] ++ e ++ s.drop 36 ∧
      a.length = 8 ∧ b.length = 4 ∧ c.length = 4 ∧ d.length = 4 ∧ e.length = 12 := by
  refine ⟨s.take 8, (s.drop 9).take 4, (s.drop 14).take 4, (s.drop 19).take 4, (s.drop 24).take 12, ?_, ?_, ?_, ?_, ?_, ?_⟩
  · have cut : ∀ n m, n < s.length → s[n]? = some 0x2d → m = n + 1 → s.drop n = [0x2d] ++ s.drop m := by
      intro n m hn hg hm
      subst hm
      rw [List.drop_eq_getElem_cons hn]
      rw [List.getElem?_eq_getElem hn] at hg
      rw [Option.some.inj hg]
      rfl
    have tk : ∀ n k m, m = n + k → s.drop n = (s.drop n).take k ++ s.drop m := by
      intro n k m hm
      subst hm
      conv => lhs; rw [← List.take_append_drop k (s.drop n)]
      rw [List.drop_drop]
    have e0 : s = s.take 8 ++ s.drop 8 := (List.take_append_drop 8 s).symm
    have e1 := cut 8 9 (by omega) h8 rfl
    have e2 := tk 9 4 13 rfl
    have e3 := cut 13 14 (by omega) h13 rfl
    have e4 := tk 14 4 18 rfl
    have e5 := cut 18 19 (by omega) h18 rfl
    have e6 := tk 19 4 23 rfl
    have e7 := cut 23 24 (by omega) h23 rfl
    have e8 := tk 24 12 36 rfl
    simp only [List.append_assoc]
    conv => lhs; rw [e0, e1, e2, e3, e4, e5, e6, e7, e8]
  all_goals simp only [List.length_take, List.length_drop]; omega

theorem parseDashed_ok (s u : Bytes) (h : 36 ≤ s.length) :
    Uuid.parseDashed s = .ok u ↔ Dashed (s.take 36) u := by
  have g : ∀ i, i < 36 → s[i]? = some (s.getD i 0) := by
    intro i hi
    rw [List.getD_eq_getElem?_getD, List.getElem?_eq_getElem (by omega)]; rfl
  have hr : ∀ x ∈ Uuid.offsets, x + 1 < s.length := by
    intro x hx
    have : x ≤ 34 := by
      revert x
      decide
    omega
  unfold Uuid.parseDashed
  rw [index_eq (g 8 (by omega)), index_eq (g 13 (by omega)), index_eq (g 18 (by omega)), index_eq (g 23 (by omega))]
  simp only [Go.bind_ok]
  split
  · next hne =>
    constructor
    · intro h; cases h
    · rintro ⟨a, b, c, d, e, ht, ha, hb, hc, hd, he, _⟩
      exfalso
      have key : ∀ i, i < 36 →
          s.getD i 0 = (a ++ [0x2d] ++ b ++ [0x2d] ++ c ++ [0x2d] ++ d ++ [0x2d] ++ e).getD i 0 := by
        intro i hi
        rw [← ht]
        simp [hi]
      have k8 := key 8 (by omega)
      have k13 := key 13 (by omega)
      have k18 := key 18 (by omega)
      have k23 := key 23 (by omega)
      obtain ⟨g8, g13, g18, g23⟩ := dashes_at a b c d e ha hb hc hd
      rw [k8, k13, k18, k23, g8, g13, g18, g23] at hne
      exact absurd hne (by decide)
  · next hne =>
    simp only [Uuid.dash, Bool.or_eq_true, bne_iff_ne, ne_eq, not_or, Decidable.not_not] at hne
    obtain ⟨⟨⟨h8, h13⟩, h18⟩, h23⟩ := hne
    rw [digitPairs_ok s Uuid.offsets u hr]
    constructor
    · intro hs
      obtain ⟨a, b, c, d, e, hs', ha, hb, hc, hd, he⟩ := dashes_split s h (by rw [g 8 (by omega), h8])
        (by rw [g 13 (by omega), h13]) (by rw [g 18 (by omega), h18]) (by rw [g 23 (by omega), h23])
      refine ⟨a, b, c, d, e, ?_, ha, hb, hc, hd, he, ?_⟩
      · conv => lhs; rw [hs']
        rw [List.take_append_of_le_length (by simp; omega), List.take_of_length_le (by simp; omega)]
      · rw [hs', picked_dashed a b c d e _ ha hb hc hd he] at hs
        exact hs
    · rintro ⟨a, b, c, d, e, ht, ha, hb, hc, hd, he, hs⟩
      have hs' : s = a ++ [0x2d] ++ b ++ [0x2d] ++ c ++ [0x2d] ++ d ++ [0x2d] ++ e ++ s.drop 36 := by
        rw [← ht, List.take_append_drop]
      rw [hs', picked_dashed a b c d e _ ha hb hc hd he]
      exact hs

theorem Dashed_length {t u : Bytes} (h : Dashed t u) : t.length = 36 ∧ u.length = 16 := by
  obtain ⟨a, b, c, d, e, rfl, ha, hb, hc, hd, he, hs⟩ := h
  have := Spells_length _ _ hs
  simp only [List.length_append, List.length_cons, List.length_nil] at this ⊢
  omega

theorem lower_eq (c : UInt8) : Uuid.toLower c = lowerCase c := by
  have h : ∀ n : Fin 256, Uuid.toLower (UInt8.ofNat n.1) = lowerCase (UInt8.ofNat n.1) := by decide +kernel
  have := h ⟨c.toNat, c.toNat_lt⟩
  simpa using this

theorem urn_eq : "urn:uuid:".toUTF8.toList = Uuid.urnPrefix := by decide +kernel

theorem picked_raw (s : Bytes) (h : s.length = 32) : picked s Uuid.rawOffsets = s := by
  rw [show s = (List.range 32).map (fun i => s.getD i 0) from ?_]
  · rfl
  · apply List.ext_getElem
    · simp [h]
    · intro i h1 h2
      simp [List.getElem?_eq_getElem h1]

theorem raw_ok (s u : Bytes) (h : s.length = 32) : Uuid.digitPairs s Uuid.rawOffsets = .ok u ↔ RawText s u := by
  rw [digitPairs_ok, picked_raw s h]
  · constructor
    · intro hs
      exact ⟨by have := Spells_length _ _ hs; omega, hs⟩
    · exact fun hs => hs.2
  · intro x hx
    have : x ≤ 30 := by
      revert x
      decide
    omega

/-- What `Parse` really accepts: as documented, except that the braces may be any two bytes. -/
theorem parse_ok (t u : Bytes) : Uuid.parse t = .ok u ↔
    PlainText t u ∨ UrnText t u ∨ (∃ x y r, t = [x] ++ r ++ [y] ∧ PlainText r u) ∨ RawText t u := by
  have hp : ∀ r, PlainText r u ↔ Dashed r u :=
    fun r => ⟨fun h => h.2, fun h => ⟨(Dashed_length h).2, h⟩⟩
  have lp : PlainText t u → t.length = 36 := fun h => (Dashed_length h.2).1
  have lu : UrnText t u → t.length = 45 := by
    rintro ⟨p, r, rfl, h1, h2⟩
    have := (Dashed_length h2.2).1
    have := congrArg List.length h1
    rw [urn_eq] at this
    simp only [List.length_map, Uuid.urnPrefix, List.length_cons, List.length_nil] at this
    rw [List.length_append]
    omega
  have lb : (∃ x y r, t = [x] ++ r ++ [y] ∧ PlainText r u) → t.length = 38 := by
    rintro ⟨x, y, r, rfl, h⟩
    have := (Dashed_length h.2).1
    simp only [List.length_append, List.length_cons, List.length_nil]
    omega
  have lr : RawText t u → t.length = 32 := by
    rintro ⟨h1, h2⟩
    have := Spells_length _ _ h2
    omega
  unfold Uuid.parse
  by_cases c1 : t.length = 36
  · rw [if_pos c1, parseDashed_ok t u (by omega), List.take_of_length_le (by omega), ← hp]
    constructor
    · exact Or.inl
    · rintro (h | h | h | h)
      · exact h
      · have := lu h; omega
      · have := lb h; omega
      · have := lr h; omega
  rw [if_neg c1]
  by_cases c2 : t.length = 36 + 9
  · rw [if_pos c2]
    simp only [sliceTo, sliceFrom, if_pos (show 9 ≤ t.length by omega), Go.bind_ok]
    split
    · next hne =>
      constructor
      · intro h; cases h
      · rintro (h | h | h | h)
        · have := lp h; omega
        · exfalso
          obtain ⟨p, r, rfl, h1, h2⟩ := h
          have h3 := (Dashed_length h2.2).1
          rw [List.length_append] at c2
          rw [List.take_left' (by omega)] at hne
          rw [urn_eq] at h1
          rw [show p.map Uuid.toLower = p.map lowerCase from List.map_congr_left (fun c _ => lower_eq c), h1] at hne
          simp at hne
        · have := lb h; omega
        · have := lr h; omega
    · next heq =>
      simp only [bne_iff_ne, ne_eq, Decidable.not_not] at heq
      rw [show (t.take 9).map Uuid.toLower = (t.take 9).map lowerCase from
        List.map_congr_left (fun c _ => lower_eq c)] at heq
      rw [parseDashed_ok _ u (by rw [List.length_drop]; omega),
        List.take_of_length_le (by rw [List.length_drop]; omega), ← hp]
      constructor
      · intro h
        exact Or.inr (Or.inl ⟨t.take 9, t.drop 9, (List.take_append_drop 9 t).symm, by rw [heq, urn_eq], h⟩)
      · rintro (h | h | h | h)
        · have := lp h; omega
        · obtain ⟨p, r, rfl, h1, h2⟩ := h
          have h3 := (Dashed_length h2.2).1
          rw [List.length_append] at c2
          rw [List.drop_left' (by omega)]
          exact h2
        · have := lb h; omega
        · have := lr h; omega
  rw [if_neg c2]
  by_cases c3 : t.length = 36 + 2
  · rw [if_pos c3]
    simp only [sliceFrom, if_pos (show 1 ≤ t.length by omega), Go.bind_ok]
    rw [parseDashed_ok _ u (by rw [List.length_drop]; omega), ← hp]
    constructor
    · intro h
      refine Or.inr (Or.inr (Or.inl ?_))
      match t, c3 with
      | x :: t', c3 =>
        simp only [List.length_cons] at c3
        refine ⟨x, t'.getLast (by intro h; subst h; simp at c3), t'.take 36, ?_, by simpa using h⟩
        have hd : t'.dropLast = t'.take 36 := by
          rw [List.dropLast_eq_take]
          congr 1
          omega
        rw [← hd, List.append_assoc, List.dropLast_concat_getLast]
        rfl
    · rintro (h | h | h | h)
      · have := lp h; omega
      · have := lu h; omega
      · obtain ⟨x, y, r, rfl, h⟩ := h
        have h3 := (Dashed_length h.2).1
        simp only [List.cons_append, List.nil_append, List.drop_succ_cons, List.drop_zero]
        rw [List.take_left' h3]
        exact h
      · have := lr h; omega
  rw [if_neg c3]
  by_cases c4 : t.length = 32
  · rw [if_pos c4, raw_ok t u c4]
    constructor
    · exact fun h => Or.inr (Or.inr (Or.inr h))
    · rintro (h | h | h | h)
      · have := lp h; omega
      · have := lu h; omega
      · have := lb h; omega
      · exact h
  rw [if_neg c4]
  constructor
  · intro h; cases h
  · rintro (h | h | h | h)
    · have := lp h; omega
    · have := lu h; omega
    · have := lb h; omega
    · have := lr h; omega

theorem parseBytes_eq (t : Bytes) : Uuid.parseBytes t = Uuid.parse t := rfl

/-- `Parse` never crashes. -/
theorem digitPairs_safe (s : Bytes) (xs : List Nat) (h : ∀ x ∈ xs, x + 1 < s.length) :
    Uuid.digitPairs s xs ≠ .panic := by
  induction xs with
  | nil => intro hc; cases hc
  | cons x xs ih =>
    have hx := h x List.mem_cons_self
    unfold Uuid.digitPairs Uuid.digitPair
    rw [index_eq (List.getElem?_eq_getElem (show x < s.length by omega)), index_eq (List.getElem?_eq_getElem hx)]
    simp only [Go.bind_ok]
    split
    · simp only [Go.bind_ok]
      cases hr : Uuid.digitPairs s xs with
      | ok u => intro hc; cases hc
      | err e => intro hc; cases hc
      | panic => exact absurd hr (ih (fun y hy => h y (List.mem_cons_of_mem _ hy)))
    · intro hc; cases hc

theorem parseDashed_safe (s : Bytes) (h : 36 ≤ s.length) : Uuid.parseDashed s ≠ .panic := by
  unfold Uuid.parseDashed
  rw [index_eq (List.getElem?_eq_getElem (show 8 < s.length by omega)),
    index_eq (List.getElem?_eq_getElem (show 13 < s.length by omega)),
    index_eq (List.getElem?_eq_getElem (show 18 < s.length by omega)),
    index_eq (List.getElem?_eq_getElem (show 23 < s.length by omega))]
  simp only [Go.bind_ok]
  split
  · intro hc; cases hc
  · apply digitPairs_safe
    intro x hx
    have : x ≤ 34 := by
      revert x
      decide
    omega

theorem parse_safe (t : Bytes) : Uuid.parse t ≠ .panic := by
  unfold Uuid.parse
  split
  · exact parseDashed_safe t (by omega)
  split
  · simp only [sliceTo, sliceFrom, if_pos (show 9 ≤ t.length by omega), Go.bind_ok]
    split
    · intro hc; cases hc
    · exact parseDashed_safe _ (by rw [List.length_drop]; omega)
  split
  · simp only [sliceFrom, if_pos (show 1 ≤ t.length by omega), Go.bind_ok]
    exact parseDashed_safe _ (by rw [List.length_drop]; omega)
  split
  · apply digitPairs_safe
    intro x hx
    have : x ≤ 30 := by
      revert x
      decide
    omega
  · intro hc; cases hc

/-! ### Formatting -/

theorem hexEncode_spells : ∀ u : Bytes, Spells (Uuid.hexEncode u) u
  | [] => trivial
  | v :: vs => by
    refine ⟨?_, hexEncode_spells vs⟩
    have h : ∀ n : Fin 256,
        ∃ x y : Fin 16, hexVal (Uuid.hextable.getD (UInt8.ofNat n.1 >>> 4).toNat 0) = some x.1 ∧
          hexVal (Uuid.hextable.getD (UInt8.ofNat n.1 &&& 0x0f).toNat 0) = some y.1 ∧ n.1 = 16 * x.1 + y.1 := by
      decide +kernel
    obtain ⟨x, y, h1, h2, h3⟩ := h ⟨v.toNat, v.toNat_lt⟩
    simp only [UInt8.ofNat_toNat] at h1 h2
    exact ⟨x.1, y.1, h1, h2, h3⟩

/-- The digits are lower case. -/
theorem hexEncode_lower : ∀ u : Bytes, ∀ c ∈ Uuid.hexEncode u, lowerCase c = c
  | [] => by simp [Uuid.hexEncode]
  | v :: vs => by
    intro c hc
    have h : ∀ n : Fin 256, lowerCase (Uuid.hextable.getD n.1 0) = Uuid.hextable.getD n.1 0 := by decide +kernel
    simp only [Uuid.hexEncode, List.mem_cons] at hc
    rcases hc with rfl | rfl | hc
    · exact h ⟨(v >>> 4).toNat, UInt8.toNat_lt _⟩
    · exact h ⟨(v &&& 0x0f).toNat, UInt8.toNat_lt _⟩
    · exact hexEncode_lower vs c hc

/-- The text written by `String`. -/
def plainOf (u : Bytes) : Bytes :=
  Uuid.hexEncode (u.take 4) ++ [0x2d] ++ Uuid.hexEncode ((u.take 6).drop 4) ++ [0x2d] ++
    Uuid.hexEncode ((u.take 8).drop 6) ++ [0x2d] ++ Uuid.hexEncode ((u.take 10).drop 8) ++ [0x2d] ++
    Uuid.hexEncode (u.drop 10)

theorem string_eq (u : Bytes) (h : u.length = 16) : Uuid.string u = .ok (plainOf u) := by
  match u, h with
  | [a, b, c, d, e, f, g, h, i, j, k, l, m, n, o, p], _ =>
    simp [Uuid.string, Uuid.encodeHex, Uuid.hexInto, Uuid.setAt, Uuid.hexEncode, List.replicate, plainOf, Uuid.dash]

theorem plainOf_dashed (u : Bytes) (h : u.length = 16) : Dashed (plainOf u) u := by
  have := hexEncode_spells u
  match u, h with
  | [a, b, c, d, e, f, g, h, i, j, k, l, m, n, o, p], _ =>
    exact ⟨Uuid.hexEncode [a, b, c, d], Uuid.hexEncode [e, f], Uuid.hexEncode [g, h], Uuid.hexEncode [i, j],
      Uuid.hexEncode [k, l, m, n, o, p], rfl, rfl, rfl, rfl, rfl, rfl, this⟩

theorem plainOf_lower (u : Bytes) : (plainOf u).map lowerCase = plainOf u := by
  refine (List.map_congr_left ?_).trans (List.map_id _)
  intro c hc
  simp only [plainOf, List.mem_append, List.mem_singleton] at hc
  rcases hc with (((((((hc | rfl) | hc) | rfl) | hc) | rfl) | hc) | rfl) | hc
  any_goals exact hexEncode_lower _ c hc
  all_goals decide

/-! ### Letter case does not matter -/

theorem hexVal_lower (c : UInt8) : hexVal (lowerCase c) = hexVal c := by
  have h : ∀ n : Fin 256, hexVal (lowerCase (UInt8.ofNat n.1)) = hexVal (UInt8.ofNat n.1) := by decide +kernel
  have := h ⟨c.toNat, c.toNat_lt⟩
  simpa using this

theorem lower_dash (c : UInt8) (h : lowerCase c = 0x2d) : c = 0x2d := by
  have g : ∀ n : Fin 256, lowerCase (UInt8.ofNat n.1) = 0x2d → UInt8.ofNat n.1 = 0x2d := by decide +kernel
  have := g ⟨c.toNat, c.toNat_lt⟩
  simp only [UInt8.ofNat_toNat] at this
  exact this h

theorem Spells_case : ∀ (t t' u : Bytes), t.map lowerCase = t'.map lowerCase → Spells t u → Spells t' u
  | [], [], u, _, hs => hs
  | [], _ :: _, _, h, _ => by simp at h
  | _ :: _, [], _, h, _ => by simp at h
  | [_], _ :: _, [], _, hs => by simp [Spells] at hs
  | [_], _ :: _, _ :: _, _, hs => by simp [Spells] at hs
  | _ :: _ :: _, _ :: _, [], _, hs => by simp [Spells] at hs
  | _ :: _ :: _, [_], _ :: _, h, _ => by simp at h
  | a :: b :: t, a' :: b' :: t', v :: u, h, hs => by
    simp only [List.map_cons, List.cons.injEq] at h
    obtain ⟨h1, h2, h3⟩ := h
    obtain ⟨⟨x, y, e1, e2, e3⟩, hs⟩ := hs
    refine ⟨⟨x, y, ?_, ?_, e3⟩, Spells_case t t' u h3 hs⟩
    · rw [← hexVal_lower, ← h1, hexVal_lower, e1]
    · rw [← hexVal_lower, ← h2, hexVal_lower, e2]

theorem Dashed_case (t t' u : Bytes) (h : t.map lowerCase = t'.map lowerCase) (hd : Dashed t u) : Dashed t' u := by
  obtain ⟨a, b, c, d, e, rfl, ha, hb, hc, hd, he, hs⟩ := hd
  simp only [List.map_append, List.append_assoc] at h
  have h := h.symm
  obtain ⟨a', r, rfl, h1, h⟩ := List.map_eq_append_iff.mp h
  obtain ⟨x, r, rfl, h2, h⟩ := List.map_eq_append_iff.mp h
  obtain ⟨b', r, rfl, h3, h⟩ := List.map_eq_append_iff.mp h
  obtain ⟨y, r, rfl, h4, h⟩ := List.map_eq_append_iff.mp h
  obtain ⟨c', r, rfl, h5, h⟩ := List.map_eq_append_iff.mp h
  obtain ⟨z, r, rfl, h6, h⟩ := List.map_eq_append_iff.mp h
  obtain ⟨d', r, rfl, h7, h⟩ := List.map_eq_append_iff.mp h
  obtain ⟨w, e', rfl, h8, h9⟩ := List.map_eq_append_iff.mp h
  have one : ∀ q : Bytes, q.map lowerCase = [(0x2d : UInt8)].map lowerCase → q = [0x2d] := by
    intro q hq
    match q, hq with
    | [c], hq =>
      simp only [List.map_cons, List.map_nil, List.cons.injEq, and_true] at hq
      rw [lower_dash c hq]
    | [], hq => simp at hq
    | _ :: _ :: _, hq => simp at hq
  have len : ∀ q q' : Bytes, q.map lowerCase = q'.map lowerCase → q.length = q'.length := by
    intro q q' hq
    simpa using congrArg List.length hq
  rw [one x h2, one y h4, one z h6, one w h8]
  refine ⟨a', b', c', d', e', by simp, ?_, ?_, ?_, ?_, ?_, ?_⟩
  · rw [len _ _ h1, ha]
  · rw [len _ _ h3, hb]
  · rw [len _ _ h5, hc]
  · rw [len _ _ h7, hd]
  · rw [len _ _ h9, he]
  · refine Spells_case _ _ u ?_ hs
    simp [h1, h3, h5, h7, h9]

/-! ### C70 -/

theorem hexEncode_ne_dash : ∀ u : Bytes, ∀ c ∈ Uuid.hexEncode u, c ≠ 0x2d
  | [] => by simp [Uuid.hexEncode]
  | v :: vs => by
    intro c hc
    have h : ∀ n : Fin 256, Uuid.hextable.getD n.1 0 ≠ 0x2d := by decide +kernel
    simp only [Uuid.hexEncode, List.mem_cons] at hc
    rcases hc with rfl | rfl | hc
    · exact h ⟨(v >>> 4).toNat, UInt8.toNat_lt _⟩
    · exact h ⟨(v &&& 0x0f).toNat, UInt8.toNat_lt _⟩
    · exact hexEncode_ne_dash vs c hc

theorem hexEncode_append (a b : Bytes) : Uuid.hexEncode (a ++ b) = Uuid.hexEncode a ++ Uuid.hexEncode b := by
  induction a with
  | nil => rfl
  | cons v a ih => simp [Uuid.hexEncode, ih]

theorem plainOf_undashed (u : Bytes) (h : u.length = 16) : (plainOf u).filter (· ≠ 0x2d) = Uuid.hexEncode u := by
  have keep : ∀ v : Bytes, (Uuid.hexEncode v).filter (· ≠ 0x2d) = Uuid.hexEncode v := by
    intro v
    rw [List.filter_eq_self]
    intro c hc
    simpa using hexEncode_ne_dash v c hc
  simp only [plainOf, List.filter_append, keep]
  rw [show ([0x2d] : Bytes).filter (· ≠ 0x2d) = [] from rfl]
  simp only [List.append_nil, ← hexEncode_append]
  congr 1
  match u, h with
  | [a, b, c, d, e, f, g, h, i, j, k, l, m, n, o, p], _ => rfl

theorem urn_ok (u : Bytes) (h : u.length = 16) : Uuid.urn u = .ok (Uuid.urnPrefix ++ plainOf u) := by
  have : Uuid.urn u = (Uuid.string u >>= fun s => .ok (Uuid.urnPrefix ++ s)) := rfl
  rw [this, string_eq u h]
  rfl

theorem mustParse_ok {t u : Bytes} (h : Uuid.parse t = .ok u) : Uuid.mustParse t = .ok u := by
  simp [Uuid.mustParse, h]

theorem unmarshalText_ok {t u old : Bytes} (h : Uuid.parse t = .ok u) :
    Uuid.unmarshalText old t = .ok (u, false) := by
  simp [Uuid.unmarshalText, parseBytes_eq, h]

/-- C70. The four forms of the text of a UUID, with letters in either case, parse back to it. -/
theorem C70_round_trip (u : Bytes) (hu : u.length = 16) :
    ∃ s, PlainText s u ∧ Uuid.string u = .ok s ∧ Uuid.marshalText u = .ok s ∧
      Uuid.urn u = .ok ("urn:uuid:".toUTF8.toList ++ s) ∧
      ∀ t ∈ [s, "urn:uuid:".toUTF8.toList ++ s, "{".toUTF8.toList ++ s ++ "}".toUTF8.toList, s.filter (· ≠ 0x2d)],
        ∀ t', t'.map lowerCase = t.map lowerCase →
          Uuid.parse t' = .ok u ∧ Uuid.parseBytes t' = .ok u ∧ Uuid.mustParse t' = .ok u ∧
          ∀ old, Uuid.unmarshalText old t' = .ok (u, false) := by
  refine ⟨plainOf u, ⟨hu, plainOf_dashed u hu⟩, string_eq u hu, string_eq u hu, by rw [urn_eq]; exact urn_ok u hu, ?_⟩
  intro t ht t' hc
  have key : Uuid.parse t' = .ok u := by
    rw [parse_ok]
    simp only [List.mem_cons, List.not_mem_nil, or_false] at ht
    rcases ht with rfl | rfl | rfl | rfl
    · exact Or.inl ⟨hu, Dashed_case _ _ u hc.symm (plainOf_dashed u hu)⟩
    · refine Or.inr (Or.inl ?_)
      rw [List.map_append] at hc
      obtain ⟨p, r, rfl, h1, h2⟩ := List.map_eq_append_iff.mp hc
      refine ⟨p, r, rfl, ?_, hu, Dashed_case _ _ u h2.symm (plainOf_dashed u hu)⟩
      rw [h1, urn_eq]
      decide
    · refine Or.inr (Or.inr (Or.inl ?_))
      rw [List.map_append] at hc
      obtain ⟨q, y, rfl, hq, h3⟩ := List.map_eq_append_iff.mp hc
      rw [List.map_append] at hq
      obtain ⟨x, r, rfl, h1, h2⟩ := List.map_eq_append_iff.mp hq
      have one : ∀ (q : Bytes) (c : UInt8), q.map lowerCase = [c] → ∃ d, q = [d] := by
        intro q c hq
        match q, hq with
        | [d], _ => exact ⟨d, rfl⟩
      obtain ⟨x, rfl⟩ := one x 0x7b (by rw [h1]; decide +kernel)
      obtain ⟨y, rfl⟩ := one y 0x7d (by rw [h3]; decide +kernel)
      exact ⟨x, y, r, rfl, hu, Dashed_case _ _ u h2.symm (plainOf_dashed u hu)⟩
    · refine Or.inr (Or.inr (Or.inr ⟨hu, ?_⟩))
      rw [plainOf_undashed u hu] at hc
      exact Spells_case _ _ u hc.symm (hexEncode_spells u)
  exact ⟨key, by rw [parseBytes_eq]; exact key, mustParse_ok key, fun old => unmarshalText_ok key⟩

/-- C70, the binary form. -/
theorem C70_binary (u : Bytes) :
    (u.length = 16 → Uuid.unmarshalBinary (Uuid.marshalBinary u) = .ok u) ∧
    ∀ v, Uuid.unmarshalBinary u = .ok v → u.length = 16 ∧ v = u := by
  constructor
  · intro h
    simp [Uuid.unmarshalBinary, Uuid.marshalBinary, h]
  · intro v h
    unfold Uuid.unmarshalBinary at h
    split at h
    · cases h
    · next hn =>
      cases h
      exact ⟨Decidable.not_not.mp hn, rfl⟩

/-- `6ba7b810-9dad-11d1-80b4-00c04fd430c8` -/
def sampleUuid : Bytes := [0x6b, 0xa7, 0xb8, 0x10, 0x9d, 0xad, 0x11, 0xd1, 0x80, 0xb4, 0x00, 0xc0, 0x4f, 0xd4, 0x30, 0xc8]

example : Uuid.string sampleUuid = .ok "6ba7b810-9dad-11d1-80b4-00c04fd430c8".toUTF8.toList ∧
    Uuid.parse "{6BA7B810-9dad-11D1-80b4-00C04FD430c8}".toUTF8.toList = .ok sampleUuid ∧
    Uuid.parse "URN:Uuid:6ba7b810-9dad-11d1-80b4-00c04fd430c8".toUTF8.toList = .ok sampleUuid := by decide +kernel

/-! ### C71 -/

/-- C71 as stated in English: `Parse` accepts exactly the documented texts, and the result reformatted parses to the
same UUID. -/
def C71_statement : Prop :=
  (∀ t u, Uuid.parse t = .ok u → UuidText t u) ∧
  (∀ t u, Uuid.parse t = .ok u → ∃ s, Uuid.string u = .ok s ∧ Uuid.parse s = .ok u)

/-- C71 fails: brackets (or any other two bytes) are taken for braces. -/
theorem C71_braces_violated : ¬ C71_statement := by
  intro h
  have hp : Uuid.parse "[6ba7b810-9dad-11d1-80b4-00c04fd430c8]".toUTF8.toList = .ok sampleUuid := by decide +kernel
  have hl : "[6ba7b810-9dad-11d1-80b4-00c04fd430c8]".toUTF8.toList.length = 38 := by decide +kernel
  have hh : "[6ba7b810-9dad-11d1-80b4-00c04fd430c8]".toUTF8.toList[0]? = some 0x5b := by decide +kernel
  generalize "[6ba7b810-9dad-11d1-80b4-00c04fd430c8]".toUTF8.toList = t at hp hl hh
  rcases h.1 t sampleUuid hp with g | g | g | g
  · have := (Dashed_length g.2).1
    omega
  · obtain ⟨p, r, rfl, h1, h2⟩ := g
    have := (Dashed_length h2.2).1
    have := congrArg List.length h1
    rw [urn_eq] at this
    simp only [List.length_map, Uuid.urnPrefix, List.length_cons, List.length_nil] at this
    rw [List.length_append] at hl
    omega
  · obtain ⟨r, rfl, _⟩ := g
    simp at hh
  · have := Spells_length _ _ g.2
    have := g.1
    omega

/-- C71, the part that holds: `Parse` accepts exactly the documented texts, except that the braces may be any two bytes;
everything else is an error, never a crash; and what it accepts it gives back after formatting. Missing: the check
of the braces. -/
theorem C71_accepts_partial (t : Bytes) :
    (∀ u, Uuid.parse t = .ok u ↔
      PlainText t u ∨ UrnText t u ∨ (∃ x y r, t = [x] ++ r ++ [y] ∧ PlainText r u) ∨ RawText t u) ∧
    (∀ u, UuidText t u → Uuid.parse t = .ok u) ∧
    Uuid.parse t ≠ .panic ∧ Uuid.parseBytes t = Uuid.parse t ∧
    (∀ u, Uuid.parse t = .ok u → ∃ s, Uuid.string u = .ok s ∧ Uuid.parse s = .ok u) := by
  refine ⟨parse_ok t, ?_, parse_safe t, rfl, ?_⟩
  · intro u h
    rw [parse_ok]
    rcases h with h | h | ⟨r, h⟩ | h
    · exact Or.inl h
    · exact Or.inr (Or.inl h)
    · exact Or.inr (Or.inr (Or.inl ⟨_, _, r, h⟩))
    · exact Or.inr (Or.inr (Or.inr h))
  · intro u h
    have hu : u.length = 16 := by
      rcases (parse_ok t u).mp h with h | ⟨_, _, _, _, h⟩ | ⟨_, _, _, _, h⟩ | h <;> exact h.1
    exact ⟨plainOf u, string_eq u hu, (parse_ok _ u).mpr (Or.inl ⟨hu, plainOf_dashed u hu⟩)⟩

/-- A text determines the UUID, so two different UUIDs never share a text. -/
theorem C71_unambiguous (t u v : Bytes) (hu : UuidText t u) (hv : UuidText t v) : u = v := by
  have h1 := (C71_accepts_partial t).2.1 u hu
  have h2 := (C71_accepts_partial t).2.1 v hv
  rw [h1] at h2
  exact Go.ok.inj h2

example : Uuid.parse "6ba7b810-9dad-11d1-80b4-00c04fd430cg".toUTF8.toList = .err "invalid UUID format" ∧
    Uuid.parse "6ba7b810-9dad-11d1-80b4-00c04fd430c".toUTF8.toList = .err "invalid UUID length" := by decide +kernel

/-! ### C72 -/

/-- `u` is the 16 bytes `b` with version 4 and the RFC 4122 variant written over bits 48-51 and 64-65. -/
structure Stamped (u b : Bytes) : Prop where
  len : u.length = 16
  blen : b.length = 16
  version : (u.getD 6 0).toNat / 16 = 4
  variant : (u.getD 8 0).toNat / 64 = 2
  rest6 : (u.getD 6 0).toNat % 16 = (b.getD 6 0).toNat % 16
  rest8 : (u.getD 8 0).toNat % 64 = (b.getD 8 0).toNat % 64
  rest : ∀ i, i ≠ 6 → i ≠ 8 → u[i]? = b[i]?

theorem stamped_stamp (b : Bytes) (h : b.length = 16) : Stamped (Uuid.stamp b) b := by
  have h6 : ∀ c : UInt8, ((c &&& 0x0f) ||| 0x40).toNat / 16 = 4 ∧ ((c &&& 0x0f) ||| 0x40).toNat % 16 = c.toNat % 16 := by
    intro c
    have g : ∀ n : Fin 256, ((UInt8.ofNat n.1 &&& 0x0f) ||| 0x40).toNat / 16 = 4 ∧
      ((UInt8.ofNat n.1 &&& 0x0f) ||| 0x40).toNat % 16 = n.1 % 16 := by decide +kernel
    have := g ⟨c.toNat, c.toNat_lt⟩
    simpa only [UInt8.ofNat_toNat] using this
  have h8 : ∀ c : UInt8, ((c &&& 0x3f) ||| 0x80).toNat / 64 = 2 ∧ ((c &&& 0x3f) ||| 0x80).toNat % 64 = c.toNat % 64 := by
    intro c
    have g : ∀ n : Fin 256, ((UInt8.ofNat n.1 &&& 0x3f) ||| 0x80).toNat / 64 = 2 ∧
      ((UInt8.ofNat n.1 &&& 0x3f) ||| 0x80).toNat % 64 = n.1 % 64 := by decide +kernel
    have := g ⟨c.toNat, c.toNat_lt⟩
    simpa only [UInt8.ofNat_toNat] using this
  match b, h with
  | [b0, b1, b2, b3, b4, b5, b6, b7, b8, b9, b10, b11, b12, b13, b14, b15], h =>
    refine ⟨rfl, rfl, (h6 b6).1, (h8 b8).1, (h6 b6).2, (h8 b8).2, ?_⟩
    intro i hi6 hi8
    simp only [Uuid.stamp]
    rw [List.getElem?_set_ne (by omega), List.getElem?_set_ne (by omega)]

theorem stamped_reports {u b : Bytes} (h : Stamped u b) : Uuid.version u = 4 ∧ Uuid.variant u = .rfc4122 := by
  have g6 : ∀ n : Fin 256, n.1 / 16 = 4 → UInt8.ofNat n.1 >>> 4 = 4 := by decide +kernel
  have g8 : ∀ n : Fin 256, n.1 / 64 = 2 → UInt8.ofNat n.1 &&& 0xc0 = 0x80 := by decide +kernel
  have e6 := g6 ⟨(u.getD 6 0).toNat, UInt8.toNat_lt _⟩ h.version
  have e8 := g8 ⟨(u.getD 8 0).toNat, UInt8.toNat_lt _⟩ h.variant
  simp only [UInt8.ofNat_toNat] at e6 e8
  refine ⟨e6, ?_⟩
  unfold Uuid.variant
  simp only [e8]
  rfl

/-- Offset in the random stream of the next UUID's block. -/
def nextBlock (s : Uuid.Rand) : Nat := s.read + s.pos - 256

structure RandInv (src : Bytes) (s : Uuid.Rand) : Prop where
  from_ : s.src = src.drop s.read
  read : s.read ≤ src.length
  pos : s.pos ≤ 256
  step : 16 ∣ s.pos
  pool : s.pos < 256 → s.enabled = true ∧ 256 ≤ s.read ∧ s.pool = (src.drop (s.read - 256)).take 256

theorem randInv_init (src : Bytes) : RandInv src (.init src) := by
  constructor <;> simp [Uuid.Rand.init, Uuid.randPoolSize]

theorem readFull_spec {src : Bytes} {s : Uuid.Rand} (I : RandInv src s) (n : Nat) (hp : s.pos = 256) :
    RandInv src (Uuid.readFull s n).1 ∧ (Uuid.readFull s n).1.pos = 256 ∧
    (Uuid.readFull s n).1.enabled = s.enabled ∧
    ((Uuid.readFull s n).2 = none ∧ s.read ≤ (Uuid.readFull s n).1.read ∧ src.length < s.read + n ∨
     (Uuid.readFull s n).2 = some ((src.drop s.read).take n) ∧ (Uuid.readFull s n).1.read = s.read + n ∧
       s.read + n ≤ src.length) := by
  have hl : s.src.length = src.length - s.read := by rw [I.from_, List.length_drop]
  have hr := I.read
  unfold Uuid.readFull
  split
  · next h =>
    refine ⟨⟨?_, ?_, I.pos, I.step, fun h => ?_⟩, hp, rfl, Or.inr ⟨?_, rfl, by omega⟩⟩
    · show s.src.drop n = _
      rw [I.from_, List.drop_drop]
    · show s.read + n ≤ _
      omega
    · exact absurd h (by show ¬ s.pos < 256; omega)
    · show some (s.src.take n) = _
      rw [I.from_]
  · next h =>
    refine ⟨⟨?_, ?_, I.pos, I.step, fun h => ?_⟩, hp, rfl, Or.inl ⟨rfl, Nat.le_add_right _ _, by omega⟩⟩
    · show [] = src.drop (s.read + s.src.length)
      rw [List.drop_eq_nil_of_le (by omega)]
    · show s.read + s.src.length ≤ _
      omega
    · exact absurd h (by show ¬ s.pos < 256; omega)

theorem newRandom_spec {src : Bytes} {s : Uuid.Rand} (I : RandInv src s) :
    RandInv src (Uuid.randStep s .newRandom).1 ∧
    ((Uuid.randStep s .newRandom).2 = none ∧ nextBlock s ≤ nextBlock (Uuid.randStep s .newRandom).1 ∧
        s.pos = 256 ∧ src.length < s.read + 256 ∨
     (Uuid.randStep s .newRandom).2 = some (Uuid.stamp ((src.drop (nextBlock s)).take 16)) ∧
        nextBlock s + 16 ≤ src.length ∧ nextBlock (Uuid.randStep s .newRandom).1 = nextBlock s + 16 ∧
        (Uuid.randStep s .newRandom).1.read ≤ s.read + 256) := by
  have hpos := I.pos
  have hstep := I.step
  cases he : s.enabled with
  | false =>
    have hp : s.pos = 256 := by
      by_cases h : s.pos < 256
      · have := (I.pool h).1
        rw [he] at this
        cases this
      · omega
    have key : Uuid.randStep s .newRandom = Uuid.newRandomFromReader s := by simp [Uuid.randStep, he]
    rw [key]
    obtain ⟨I', hp', he', hr⟩ := readFull_spec I 16 hp
    unfold Uuid.newRandomFromReader
    rcases hx : Uuid.readFull s 16 with ⟨s', o⟩
    rw [hx] at I' hp' he' hr
    simp only at I' hp' he' hr
    rcases hr with ⟨rfl, h1, h2⟩ | ⟨rfl, h1, h2⟩
    · refine ⟨I', Or.inl ⟨rfl, ?_, hp, by omega⟩⟩
      simp only [nextBlock]
      omega
    · have hb : nextBlock s = s.read := by simp only [nextBlock]; omega
      refine ⟨I', Or.inr ⟨?_, by omega, ?_, ?_⟩⟩
      · rw [hb]
      · rw [hb]
        simp only [nextBlock]
        omega
      · show s'.read ≤ _
        omega
  | true =>
    have key : Uuid.randStep s .newRandom = Uuid.newRandomFromPool s := by simp [Uuid.randStep, he]
    rw [key]
    -- handing out the next block of a filled pool
    have hand : ∀ q : Uuid.Rand, RandInv src q → q.pos < 256 →
        RandInv src { q with pos := q.pos + 16 } ∧ nextBlock q + 16 ≤ src.length ∧
        (q.pool.drop q.pos).take 16 = (src.drop (nextBlock q)).take 16 ∧
        nextBlock { q with pos := q.pos + 16 } = nextBlock q + 16 := by
      intro q Q hq
      obtain ⟨g1, g2, g3⟩ := Q.pool hq
      have g4 := Q.step
      have g5 := Q.read
      refine ⟨⟨Q.from_, Q.read, ?_, ?_, fun _ => ⟨g1, g2, g3⟩⟩, ?_, ?_, ?_⟩
      · show q.pos + 16 ≤ 256
        omega
      · show 16 ∣ q.pos + 16
        omega
      · simp only [nextBlock]
        omega
      · rw [g3, List.drop_take, List.take_take, List.drop_drop]
        congr 1
        · omega
        · congr 1
          simp only [nextBlock]
          omega
      · simp only [nextBlock]
        omega
    unfold Uuid.newRandomFromPool Uuid.refill
    by_cases hp : s.pos = 256
    · rw [if_pos (show s.pos = Uuid.randPoolSize from hp)]
      obtain ⟨I', hp', he', hr⟩ := readFull_spec I Uuid.randPoolSize hp
      rcases hx : Uuid.readFull s Uuid.randPoolSize with ⟨s', o⟩
      rw [hx] at I' hp' he' hr
      simp only [Uuid.randPoolSize] at I' hp' he' hr
      rcases hr with ⟨rfl, h1, h2⟩ | ⟨rfl, h1, h2⟩
      · refine ⟨I', Or.inl ⟨rfl, ?_, hp, by omega⟩⟩
        simp only [nextBlock]
        omega
      · have Q : RandInv src { s' with pool := (src.drop s.read).take 256, pos := 0 } := by
          refine ⟨I'.from_, I'.read, Nat.zero_le _, ⟨0, rfl⟩, fun _ => ⟨by rw [← he]; exact he', ?_, ?_⟩⟩
          · show 256 ≤ s'.read
            omega
          · show List.take 256 (src.drop s.read) = List.take 256 (src.drop (s'.read - 256))
            rw [h1]
            congr 2
        obtain ⟨q1, q2, q3, q4⟩ := hand _ Q (by show 0 < 256; omega)
        have hb : nextBlock s = s.read := by simp only [nextBlock]; omega
        have hb' : nextBlock { s' with pool := (src.drop s.read).take 256, pos := 0 } = nextBlock s := by
          rw [hb]
          simp only [nextBlock]
          omega
        rw [hb'] at q2 q3 q4
        refine ⟨q1, Or.inr ⟨?_, q2, q4, ?_⟩⟩
        · show some (Uuid.stamp _) = _
          rw [← q3]
        · show s'.read ≤ _
          omega
    · rw [if_neg (show ¬ s.pos = Uuid.randPoolSize from hp)]
      obtain ⟨q1, q2, q3, q4⟩ := hand s I (by omega)
      refine ⟨q1, Or.inr ⟨?_, q2, q4, ?_⟩⟩
      · show some (Uuid.stamp _) = _
        rw [← q3]
      · show s.read ≤ _
        omega

theorem toggle_spec {src : Bytes} {s : Uuid.Rand} (I : RandInv src s) :
    (RandInv src (Uuid.randStep s .enablePool).1 ∧ (Uuid.randStep s .enablePool).2 = none ∧
      nextBlock (Uuid.randStep s .enablePool).1 = nextBlock s ∧ (Uuid.randStep s .enablePool).1.read = s.read) ∧
    (RandInv src (Uuid.randStep s .disablePool).1 ∧ (Uuid.randStep s .disablePool).2 = none ∧
      nextBlock s ≤ nextBlock (Uuid.randStep s .disablePool).1 ∧ (Uuid.randStep s .disablePool).1.read = s.read) := by
  have := I.pos
  refine ⟨⟨⟨I.from_, I.read, I.pos, I.step, fun h => ⟨rfl, (I.pool h).2⟩⟩, rfl, rfl, rfl⟩,
    ⟨I.from_, I.read, Nat.le_refl _, ⟨16, rfl⟩, fun h => absurd h (by show ¬ 256 < 256; omega)⟩, rfl, ?_, rfl⟩
  show s.read + s.pos - 256 ≤ s.read + 256 - 256
  omega

theorem randRun_blocks (src : Bytes) (ops : List Uuid.RandOp) : ∀ s, RandInv src s →
    ∃ offs : List Nat, (Uuid.randRun s ops).2 = offs.map (fun o => Uuid.stamp ((src.drop o).take 16)) ∧
      (∀ o ∈ offs, nextBlock s ≤ o ∧ o + 16 ≤ src.length) ∧ offs.Pairwise (fun a b => a + 16 ≤ b) := by
  induction ops with
  | nil => intro s _; exact ⟨[], rfl, by simp, List.Pairwise.nil⟩
  | cons op ops ih =>
    intro s I
    cases op with
    | newRandom =>
      obtain ⟨I', h⟩ := newRandom_spec I
      obtain ⟨offs, e1, e2, e3⟩ := ih _ I'
      rcases h with ⟨h1, h2, _⟩ | ⟨h1, h2, h3, _⟩
      · refine ⟨offs, ?_, fun o ho => ⟨by have := (e2 o ho).1; omega, (e2 o ho).2⟩, e3⟩
        simp only [Uuid.randRun, h1, e1, Option.toList_none, List.nil_append]
      · refine ⟨nextBlock s :: offs, ?_, ?_, List.Pairwise.cons ?_ e3⟩
        · simp only [Uuid.randRun, h1, e1, Option.toList_some, List.singleton_append, List.map_cons]
        · intro o ho
          rcases List.mem_cons.mp ho with rfl | ho
          · exact ⟨Nat.le_refl _, h2⟩
          · have := (e2 o ho).1
            exact ⟨by omega, (e2 o ho).2⟩
        · intro o ho
          have := (e2 o ho).1
          omega
    | enablePool =>
      obtain ⟨I', h1, h2, _⟩ := (toggle_spec I).1
      obtain ⟨offs, e1, e2, e3⟩ := ih _ I'
      refine ⟨offs, ?_, fun o ho => ⟨by have := (e2 o ho).1; omega, (e2 o ho).2⟩, e3⟩
      simp only [Uuid.randRun, h1, e1, Option.toList_none, List.nil_append]
    | disablePool =>
      obtain ⟨I', h1, h2, _⟩ := (toggle_spec I).2
      obtain ⟨offs, e1, e2, e3⟩ := ih _ I'
      refine ⟨offs, ?_, fun o ho => ⟨by have := (e2 o ho).1; omega, (e2 o ho).2⟩, e3⟩
      simp only [Uuid.randRun, h1, e1, Option.toList_none, List.nil_append]

/-- C72: whatever the random source delivers and however the pool is switched, every UUID handed out is a 16-byte block
of the random stream with version 4 and the RFC 4122 variant written in and all other bits kept, and no two UUIDs
share a byte of the stream; a later UUID's block lies after an earlier one's. -/
theorem C72_random (src : Bytes) (ops : List Uuid.RandOp) :
    ∃ offs : List Nat, offs.length = (Uuid.randRun (.init src) ops).2.length ∧
      offs.Pairwise (fun a b => a + 16 ≤ b) ∧
      ∀ (i : Nat) (u : Bytes) (o : Nat), (Uuid.randRun (.init src) ops).2[i]? = some u → offs[i]? = some o →
        o + 16 ≤ src.length ∧ Stamped u ((src.drop o).take 16) ∧ Uuid.version u = 4 ∧ Uuid.variant u = .rfc4122 := by
  obtain ⟨offs, e1, e2, e3⟩ := randRun_blocks src ops _ (randInv_init src)
  refine ⟨offs, by rw [e1, List.length_map], e3, ?_⟩
  intro i u o hu ho
  rw [e1, List.getElem?_map, ho] at hu
  simp only [Option.map_some, Option.some.injEq] at hu
  subst hu
  have hl := (e2 o (List.mem_of_getElem? ho)).2
  have hs := stamped_stamp ((src.drop o).take 16) (by simp; omega)
  exact ⟨hl, hs, stamped_reports hs⟩

theorem randRun_consecutive (src : Bytes) (ops : List Uuid.RandOp) (hd : ∀ op ∈ ops, op ≠ .disablePool) :
    ∀ s, RandInv src s → s.read + 256 * ops.count .newRandom ≤ src.length →
    (Uuid.randRun s ops).2 = (List.range (ops.count .newRandom)).map
      (fun i => Uuid.stamp ((src.drop (nextBlock s + 16 * i)).take 16)) := by
  induction ops with
  | nil => intro s _ _; rfl
  | cons op ops ih =>
    intro s I hl
    have hd' : ∀ op ∈ ops, op ≠ .disablePool := fun o ho => hd o (List.mem_cons_of_mem _ ho)
    cases op with
    | newRandom =>
      rw [List.count_cons_self] at hl ⊢
      obtain ⟨I', h⟩ := newRandom_spec I
      rcases h with ⟨_, _, _, h4⟩ | ⟨h1, h2, h3, h4⟩
      · omega
      · rw [List.range_succ_eq_map]
        simp only [Uuid.randRun, h1, Option.toList_some, List.singleton_append, List.map_cons, List.map_map,
          Nat.mul_zero, Nat.add_zero]
        rw [ih hd' _ I' (by omega)]
        congr 1
        apply List.map_congr_left
        intro i _
        simp only [Function.comp, h3]
        congr 3
        omega
    | enablePool =>
      rw [List.count_cons_of_ne (by decide)] at hl ⊢
      obtain ⟨I', h1, h2, h3⟩ := (toggle_spec I).1
      simp only [Uuid.randRun, h1, Option.toList_none, List.nil_append]
      rw [ih hd' _ I' (by rw [h3]; exact hl), h2]
    | disablePool => exact absurd rfl (hd _ List.mem_cons_self)

/-- C72: unless the pool is switched off in between, consecutive UUIDs come from consecutive blocks: the `i`-th from the
bytes `16 * i` to `16 * i + 15`. Every call succeeds if the source delivers enough. -/
theorem C72_consecutive (src : Bytes) (ops : List Uuid.RandOp) (hd : ∀ op ∈ ops, op ≠ .disablePool)
    (hl : 256 * ops.count .newRandom ≤ src.length) :
    (Uuid.randRun (.init src) ops).2.length = ops.count .newRandom ∧
    ∀ (i : Nat) (u : Bytes), (Uuid.randRun (.init src) ops).2[i]? = some u → Stamped u ((src.drop (16 * i)).take 16) := by
  have h := randRun_consecutive src ops hd _ (randInv_init src) (by simpa [Uuid.Rand.init] using hl)
  have hb : nextBlock (.init src) = 0 := rfl
  refine ⟨by rw [h]; simp, ?_⟩
  intro i u hu
  rw [h, hb] at hu
  simp only [Nat.zero_add, List.getElem?_map, Option.map_eq_some_iff] at hu
  obtain ⟨j, hj, rfl⟩ := hu
  rw [List.getElem?_eq_some_iff] at hj
  obtain ⟨hj1, hj2⟩ := hj
  simp only [List.getElem_range] at hj2
  subst hj2
  simp only [List.length_range] at hj1
  exact stamped_stamp _ (by simp; omega)

/-- C72, the other generator: a reader that is not the package's own. -/
theorem C72_reader (s : Uuid.Rand) (u : Bytes) (h : (Uuid.newRandomFromReader s).2 = some u) :
    Stamped u (s.src.take 16) ∧ Uuid.version u = 4 ∧ Uuid.variant u = .rfc4122 := by
  unfold Uuid.newRandomFromReader Uuid.readFull at h
  by_cases hl : 16 ≤ s.src.length
  · rw [if_pos hl] at h
    simp only [Option.some.injEq] at h
    subst h
    have hs := stamped_stamp (s.src.take 16) (by simp; omega)
    exact ⟨hs, stamped_reports hs⟩
  · rw [if_neg hl] at h
    cases h

example : (Uuid.randRun (.init (List.replicate 300 0xff)) [.newRandom, .enablePool, .newRandom, .newRandom]).2.length = 3 := by
  decide +kernel

/-! ### C73 -/

attribute [local irreducible] Uuid.nowOf

/-- The clock sequence in use is a 14-bit number with the top bit added. -/
def SeqIs (q : UInt16) (v : Nat) : Prop := v < 16384 ∧ q.toNat = 32768 + v

theorem seq_or (x : UInt16) (h : x.toNat < 16384) : (x ||| 0x8000).toNat = 32768 + x.toNat := by
  rw [UInt16.toNat_or, Nat.or_comm]
  have := Nat.two_pow_add_eq_or_of_lt (i := 15) (b := x.toNat) (by omega) 1
  simpa using this.symm

theorem seq_next (q : UInt16) (v : Nat) (h : SeqIs q v) :
    SeqIs (((q + 1) &&& 0x3fff) ||| 0x8000) ((v + 1) % 16384) := by
  obtain ⟨h1, h2⟩ := h
  have hm : ((q + 1) &&& 0x3fff).toNat = (v + 1) % 16384 := by
    rw [UInt16.toNat_and]
    show (q + 1).toNat &&& (2^14 - 1) = _
    rw [Nat.and_two_pow_sub_one_eq_mod, UInt16.toNat_add, h2]
    show (32768 + v + 1) % 65536 % 16384 = _
    omega
  refine ⟨Nat.mod_lt _ (by omega), ?_⟩
  rw [seq_or _ (by rw [hm]; exact Nat.mod_lt _ (by omega)), hm]

theorem setSeq_valid (c : Uuid.Clock) (n : Int64) : ∃ v, SeqIs (Uuid.setSeq c n).clockSeq v := by
  have hx : ((n.toUInt64 &&& 0x3fff).toUInt16).toNat < 16384 := by
    rw [UInt64.toNat_toUInt16, UInt64.toNat_and]
    show (n.toUInt64.toNat &&& (2^14 - 1)) % 65536 < _
    rw [Nat.and_two_pow_sub_one_eq_mod]
    omega
  refine ⟨_, hx, ?_⟩
  unfold Uuid.setSeq
  simp only
  split <;> exact seq_or _ hx

theorem setClockSequence_valid (c : Uuid.Clock) (n : Int64) (b0 b1 : UInt8) :
    ∃ v, SeqIs (Uuid.setClockSequence c n b0 b1).clockSeq v := by
  unfold Uuid.setClockSequence
  split <;> exact setSeq_valid _ _

/-- Either no clock sequence yet, or a valid one. -/
def ClockOk (c : Uuid.Clock) : Prop := c.clockSeq = 0 ∨ ∃ v, SeqIs c.clockSeq v

theorem ensureSeq_valid (c : Uuid.Clock) (b0 b1 : UInt8) (h : ClockOk c) :
    ∃ v, SeqIs (Uuid.ensureSeq c b0 b1).clockSeq v := by
  unfold Uuid.ensureSeq
  split
  · exact setClockSequence_valid _ _ _ _
  · next hn => exact h.resolve_left hn

theorem ensureSeq_id (c : Uuid.Clock) (b0 b1 : UInt8) (v : Nat) (h : SeqIs c.clockSeq v) :
    Uuid.ensureSeq c b0 b1 = c := by
  unfold Uuid.ensureSeq
  rw [if_neg]
  intro h0
  have := h.2
  rw [h0] at this
  simp at this
  omega

/-- `setClockSequence` is not called. -/
def NoSet (ops : List Uuid.ClockOp) : Prop := ∀ op ∈ ops, ∀ n b0 b1, op ≠ .setClockSequence n b0 b1

theorem clockRun_ahead (ops : List Uuid.ClockOp) : ∀ (c : Uuid.Clock) (v : Nat), NoSet ops → SeqIs c.clockSeq v →
    ∀ (k : Nat) (p : UInt64 × UInt16), (Uuid.clockRun c ops).2[k]? = some p →
      ∃ m, m ≤ k + 1 ∧ SeqIs p.2 ((v + m) % 16384) ∧ (m = 0 → c.lasttime < p.1) := by
  induction ops with
  | nil => intro c v _ _ k p h; simp [Uuid.clockRun] at h
  | cons op ops ih =>
    intro c v hn hv k p h
    have hn' : NoSet ops := fun o ho => hn o (List.mem_cons_of_mem _ ho)
    cases op with
    | setClockSequence n b0 b1 => exact absurd rfl (hn _ List.mem_cons_self n b0 b1)
    | clockSequence b0 b1 =>
      simp only [Uuid.clockRun, Uuid.clockStep, Uuid.clockSequence, Option.toList_none, List.nil_append,
        ensureSeq_id c b0 b1 v hv] at h
      exact ih c v hn' hv k p h
    | getTime n b0 b1 =>
      simp only [Uuid.clockRun, Uuid.clockStep, Uuid.getTime, Option.toList_some, List.singleton_append,
        ensureSeq_id c b0 b1 v hv] at h
      by_cases hle : Uuid.nowOf n ≤ c.lasttime
      · simp only [if_pos hle] at h
        have hv' := seq_next _ _ hv
        cases k with
        | zero =>
          simp only [List.getElem?_cons_zero, Option.some.injEq] at h
          subst h
          exact ⟨1, by omega, hv', by omega⟩
        | succ k =>
          simp only [List.getElem?_cons_succ] at h
          obtain ⟨m, h1, h2, _⟩ := ih ⟨_, _⟩ _ hn' hv' k p h
          refine ⟨m + 1, by omega, ?_, by omega⟩
          have e : ((v + 1) % 16384 + m) % 16384 = (v + (m + 1)) % 16384 := by omega
          rw [← e]
          exact h2
      · simp only [if_neg hle] at h
        cases k with
        | zero =>
          simp only [List.getElem?_cons_zero, Option.some.injEq] at h
          subst h
          refine ⟨0, by omega, ?_, fun _ => UInt64.not_le.mp hle⟩
          rw [Nat.add_zero, Nat.mod_eq_of_lt hv.1]
          exact hv
        | succ k =>
          simp only [List.getElem?_cons_succ] at h
          obtain ⟨m, h1, h2, h3⟩ := ih ⟨Uuid.nowOf n, c.clockSeq⟩ v hn' hv k p h
          refine ⟨m, by omega, h2, fun h0 => ?_⟩
          exact UInt64.lt_trans (UInt64.not_le.mp hle) (h3 h0)

theorem getTime_state (c : Uuid.Clock) (n : Int64) (b0 b1 : UInt8) :
    (Uuid.getTime c n b0 b1).1 = ⟨(Uuid.getTime c n b0 b1).2.1, (Uuid.getTime c n b0 b1).2.2⟩ := by
  unfold Uuid.getTime
  rfl

theorem clockRun_at (ops : List Uuid.ClockOp) : ∀ (c : Uuid.Clock), NoSet ops → ClockOk c →
    ∀ (i : Nat) (p : UInt64 × UInt16), (Uuid.clockRun c ops).2[i]? = some p →
      ∃ rest v, NoSet rest ∧ SeqIs p.2 v ∧
        ∀ k, (Uuid.clockRun c ops).2[i + 1 + k]? = (Uuid.clockRun ⟨p.1, p.2⟩ rest).2[k]? := by
  induction ops with
  | nil => intro c _ _ i p h; simp [Uuid.clockRun] at h
  | cons op ops ih =>
    intro c hn hc i p h
    have hn' : NoSet ops := fun o ho => hn o (List.mem_cons_of_mem _ ho)
    cases op with
    | setClockSequence n b0 b1 => exact absurd rfl (hn _ List.mem_cons_self n b0 b1)
    | clockSequence b0 b1 =>
      simp only [Uuid.clockRun, Uuid.clockStep, Uuid.clockSequence, Option.toList_none, List.nil_append] at h ⊢
      exact ih _ hn' (Or.inr (ensureSeq_valid c b0 b1 hc)) i p h
    | getTime n b0 b1 =>
      obtain ⟨v, hv⟩ := ensureSeq_valid c b0 b1 hc
      have hq : ∃ v', SeqIs (Uuid.getTime c n b0 b1).2.2 v' := by
        unfold Uuid.getTime
        simp only
        split
        · exact ⟨_, seq_next _ _ hv⟩
        · exact ⟨_, hv⟩
      have hs := getTime_state c n b0 b1
      simp only [Uuid.clockRun, Uuid.clockStep, Option.toList_some, List.singleton_append] at h ⊢
      cases i with
      | zero =>
        simp only [List.getElem?_cons_zero, Option.some.injEq] at h
        subst h
        obtain ⟨v', hv'⟩ := hq
        refine ⟨ops, v', hn', hv', ?_⟩
        intro k
        rw [show 0 + 1 + k = k + 1 by omega, List.getElem?_cons_succ, hs]
      | succ i =>
        simp only [List.getElem?_cons_succ] at h
        obtain ⟨rest, v', g1, g2, g3⟩ := ih _ hn' (Or.inr (by rw [hs]; exact hq)) i p h
        refine ⟨rest, v', g1, g2, ?_⟩
        intro k
        rw [show i + 1 + 1 + k = (i + 1 + k) + 1 by omega, List.getElem?_cons_succ, g3]

/-- C73: whatever the clock does - standing still, going back, jumping - each pair differs from the one before it; in
fact any 16384 consecutive pairs are pairwise different. -/
theorem C73_pairs_differ (ops : List Uuid.ClockOp) (hn : NoSet ops) (i j : Nat) (p q : UInt64 × UInt16)
    (hp : (Uuid.clockRun .init ops).2[i]? = some p) (hq : (Uuid.clockRun .init ops).2[j]? = some q)
    (hij : i < j) (hw : j < i + 16384) : p ≠ q := by
  obtain ⟨rest, v, g1, g2, g3⟩ := clockRun_at ops .init hn (Or.inl rfl) i p hp
  have hk := g3 (j - i - 1)
  rw [show i + 1 + (j - i - 1) = j by omega, hq] at hk
  obtain ⟨m, h1, h2, h3⟩ := clockRun_ahead rest ⟨p.1, p.2⟩ v g1 g2 (j - i - 1) q hk.symm
  intro e
  subst e
  by_cases h0 : m = 0
  · exact absurd (h3 h0) (UInt64.lt_irrefl _)
  · have a1 := g2.1
    have a2 := g2.2
    have a3 := h2.2
    omega

/-- C73: times are handed out as read. -/
theorem C73_time (c : Uuid.Clock) (n : Int64) (b0 b1 : UInt8) :
    (Uuid.getTime c n b0 b1).2.1 = (n / 100).toUInt64 + 122192928000000000 := by
  unfold Uuid.getTime Uuid.nowOf
  rw [show Uuid.g1582ns100 = 122192928000000000 from by decide +kernel]

/-- Three readings of a clock that stands still, then one of a clock that went back. -/
example : (Uuid.clockRun .init [.getTime 1000 0 7, .getTime 1000 0 0, .getTime 1000 0 0, .getTime 500 0 0]).2 =
    [(122192928000000010, 0x8007), (122192928000000010, 0x8008), (122192928000000010, 0x8009),
     (122192928000000005, 0x800a)] := by decide +kernel

/-- Outside C73, which is about the clock: setting the clock sequence twice brings a pair back. -/
example : (Uuid.clockRun .init [.getTime 1000 0 7, .setClockSequence 1 0 0, .setClockSequence 7 0 0, .getTime 1000 0 0]).2 =
    [(122192928000000010, 0x8007), (122192928000000010, 0x8007)] := by decide +kernel

end Verif.Props
