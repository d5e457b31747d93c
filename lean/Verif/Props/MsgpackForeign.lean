import Verif.Props.MsgpackExt
/-
Property C142: skipping values that other MessagePack programs write, in whatever form.
-/
set_option autoImplicit false
namespace Verif.Props
open Verif Spec Msgpack

/-- The values of the MessagePack specification that contain no others, each in every form there is
for it (a writer need not choose the shortest), except extension values (for those see C140). -/
inductive PlainForm : Bytes → Prop
  | fixInt (b : UInt8) : b.toNat < 0x80 ∨ 0xe0 ≤ b.toNat → PlainForm [b]
  | nil : PlainForm [0xc0]
  | false : PlainForm [0xc2]
  | true : PlainForm [0xc3]
  | float32 (w : Bytes) : w.length = 4 → PlainForm (0xca :: w)
  | float64 (w : Bytes) : w.length = 8 → PlainForm (0xcb :: w)
  | uint8 (w : Bytes) : w.length = 1 → PlainForm (0xcc :: w)
  | uint16 (w : Bytes) : w.length = 2 → PlainForm (0xcd :: w)
  | uint32 (w : Bytes) : w.length = 4 → PlainForm (0xce :: w)
  | uint64 (w : Bytes) : w.length = 8 → PlainForm (0xcf :: w)
  | int8 (w : Bytes) : w.length = 1 → PlainForm (0xd0 :: w)
  | int16 (w : Bytes) : w.length = 2 → PlainForm (0xd1 :: w)
  | int32 (w : Bytes) : w.length = 4 → PlainForm (0xd2 :: w)
  | int64 (w : Bytes) : w.length = 8 → PlainForm (0xd3 :: w)
  | fixStr (s : Bytes) : s.length < 32 → PlainForm (UInt8.ofNat (0xa0 + s.length) :: s)
  | str8 (s : Bytes) : s.length < 2^8 → PlainForm (0xd9 :: (bigEndian 1 s.length ++ s))
  | str16 (s : Bytes) : s.length < 2^16 → PlainForm (0xda :: (bigEndian 2 s.length ++ s))
  | str32 (s : Bytes) : s.length < 2^32 → PlainForm (0xdb :: (bigEndian 4 s.length ++ s))
  | bin8 (s : Bytes) : s.length < 2^8 → PlainForm (0xc4 :: (bigEndian 1 s.length ++ s))
  | bin16 (s : Bytes) : s.length < 2^16 → PlainForm (0xc5 :: (bigEndian 2 s.length ++ s))
  | bin32 (s : Bytes) : s.length < 2^32 → PlainForm (0xc6 :: (bigEndian 4 s.length ++ s))

/-- The heads of arrays and maps, in every form, with the number of values that follow. A map of
2^31 entries or more does not fit into a buffer of less than 2^32 bytes. -/
inductive HeadForm : Nat → Bytes → Prop
  | fixArr (k : Nat) : k < 16 → HeadForm k [UInt8.ofNat (0x90 + k)]
  | arr16 (k : Nat) : k < 2^16 → HeadForm k (0xdc :: bigEndian 2 k)
  | arr32 (k : Nat) : k < 2^32 → HeadForm k (0xdd :: bigEndian 4 k)
  | fixMap (k : Nat) : k < 16 → HeadForm (2 * k) [UInt8.ofNat (0x80 + k)]
  | map16 (k : Nat) : k < 2^16 → HeadForm (2 * k) (0xde :: bigEndian 2 k)
  | map32 (k : Nat) : k < 2^31 → HeadForm (2 * k) (0xdf :: bigEndian 4 k)

/-- `n` values in a row, nested to any depth. -/
inductive ValueForms : Nat → Bytes → Prop
  | nil : ValueForms 0 []
  | plain {n : Nat} {w rest : Bytes} : PlainForm w → ValueForms n rest → ValueForms (n + 1) (w ++ rest)
  | nested {n k : Nat} {head body rest : Bytes} : HeadForm k head → ValueForms k body →
      ValueForms n rest → ValueForms (n + 1) (head ++ body ++ rest)

theorem plain_size {w : Bytes} (h : PlainForm w) : Reads getSize w 0 := by
  cases h with
  | fixInt b hb =>
    apply Reads.one
    rw [if_pos (by rw [isFixedInt_iff, isNegativeFixedInt_iff]; simp; omega)]
    exact Reads.pure 0
  | nil => exact size_nil
  | false => exact size_bool Bool.false
  | true => exact size_bool Bool.true
  | fixStr s hs =>
    apply Reads.cons
    have hn : (UInt8.ofNat (0xa0 + s.length)).toNat = 0xa0 + s.length :=
      UInt8.toNat_ofNat_lt (by omega)
    rw [if_neg (by rw [isFixedInt_iff, isNegativeFixedInt_iff, hn]; simp; omega),
      if_pos (by rw [isFixedString_iff, hn]; simp; omega)]
    have := and_1f _ (show 0xa0 ≤ (UInt8.ofNat (0xa0 + s.length)).toNat ∧
      (UInt8.ofNat (0xa0 + s.length)).toNat < 0xc0 by omega)
    exact dq (by show _ = s.length; omega)
  | str8 s hs => prefix; exact tail8 hs
  | str16 s hs => prefix; exact tail16 hs
  | str32 s hs => prefix; exact tail32 hs
  | bin8 s hs => prefix; exact tail8 hs
  | bin16 s hs => prefix; exact tail16 hs
  | bin32 s hs => prefix; exact tail32 hs
  | float32 w hw => prefix; exact dq (by rw [hw]; rfl)
  | float64 w hw => prefix; exact dq (by rw [hw]; rfl)
  | uint8 w hw => prefix; exact dq (by rw [hw]; rfl)
  | uint16 w hw => prefix; exact dq (by rw [hw]; rfl)
  | uint32 w hw => prefix; exact dq (by rw [hw]; rfl)
  | uint64 w hw => prefix; exact dq (by rw [hw]; rfl)
  | int8 w hw => prefix; exact dq (by rw [hw]; rfl)
  | int16 w hw => prefix; exact dq (by rw [hw]; rfl)
  | int32 w hw => prefix; exact dq (by rw [hw]; rfl)
  | int64 w hw => prefix; exact dq (by rw [hw]; rfl)

theorem head_size {k : Nat} {w : Bytes} (h : HeadForm k w) :
    ∃ n : UInt32, n.toNat = k ∧ Reads getSize w n := by
  have of32 : ∀ k, k < 2^32 → (UInt32.ofNat k).toNat = k := fun k hk => UInt32.toNat_ofNat_lt hk
  have dbl : ∀ k, k < 2^31 → (2 * UInt32.ofNat k).toNat = 2 * k := fun k hk => by
    rw [UInt32.toNat_mul, of32 k (by omega)]
    show 2 * k % 2^32 = _
    omega
  cases h with
  | fixArr _ hk =>
    have := size_arr (UInt32.ofNat k)
    rw [of32 k (by omega), arrHead, if_pos (show k ≤ 15 by omega)] at this
    exact ⟨_, of32 k (by omega), this⟩
  | arr16 _ hk =>
    refine ⟨_, of32 k (by omega), ?_⟩
    prefix
    have := read16_reads (n := UInt32.ofNat k) (by rw [of32 k (by omega)]; exact hk)
    rwa [of32 k (by omega)] at this
  | arr32 _ hk =>
    refine ⟨_, of32 k hk, ?_⟩
    prefix
    have := read32_reads (UInt32.ofNat k)
    rwa [of32 k hk] at this
  | fixMap k hk =>
    have := size_map (UInt32.ofNat k)
    rw [of32 k (by omega), mapHead, if_pos (show k ≤ 15 by omega)] at this
    exact ⟨_, dbl k (by omega), this⟩
  | map16 k hk =>
    refine ⟨_, dbl k (by omega), ?_⟩
    prefix
    have h16 : (UInt16.ofNat k).toNat = k := UInt16.toNat_ofNat_lt hk
    have := Reads.map (g := fun v : UInt16 => 2 * v.toUInt32) (getUint16_reads (UInt16.ofNat k))
    rw [Spec.be16_eq, h16] at this
    rwa [show (UInt16.ofNat k).toUInt32 = UInt32.ofNat k from
      u32_ext (by rw [UInt16.toNat_toUInt32, h16, of32 k (by omega)])] at this
  | map32 k hk =>
    refine ⟨_, dbl k hk, ?_⟩
    prefix
    have := Reads.map (g := fun v : UInt32 => 2 * v) (getUint32_reads (UInt32.ofNat k))
    rwa [Spec.be32_eq, of32 k (by omega)] at this

theorem forms_skip {n : Nat} {w : Bytes} (h : ValueForms n w) : ∃ f, SkipsNWith n w f := by
  induction h with
  | nil => exact ⟨1, skipsN_nil⟩
  | plain hp _ ih =>
    obtain ⟨f, ih⟩ := ih
    exact ⟨_, skipsN_cons (skips_scalar (plain_size hp)) ih⟩
  | nested hh _ _ ih1 ih2 =>
    obtain ⟨f, ih1⟩ := ih1
    obtain ⟨g, ih2⟩ := ih2
    obtain ⟨m, hm, hs⟩ := head_size hh
    exact ⟨_, skipsN_cons (skips_of hs (by rw [hm]; exact ih1)) ih2⟩

/-- C142: `Skip` moves exactly behind every value without extension values, in whatever form each of
its parts is written, nested to any depth, whatever surrounds it. -/
theorem C142_plain (w : Bytes) (h : PlainForm w) : Skips w := ⟨2, skips_scalar (plain_size h)⟩

/-- The same for arrays and maps. -/
theorem C142_nested (k : Nat) (head body : Bytes) (hh : HeadForm k head) (hb : ValueForms k body) :
    Skips (head ++ body) := by
  obtain ⟨f, hf⟩ := forms_skip hb
  obtain ⟨m, hm, hs⟩ := head_size hh
  exact ⟨_, skips_of hs (by rw [hm]; exact hf)⟩

/-- A map with a 32-bit count of one entry: a string with a 16-bit length to an array with a 16-bit
count of two small numbers, one of them in eight bytes. -/
example : Skips ([0xdf, 0, 0, 0, 1] ++ ([0xda, 0, 1, 97] ++ ([0xdc, 0, 2] ++
    ([5] ++ ([0xcf, 0, 0, 0, 0, 0, 0, 0, 7] ++ [])) ++ []))) :=
  C142_nested 2 _ _ (.map32 1 (by decide)) (.plain (.str16 [97] (by decide))
    (.nested (.arr16 2 (by decide)) (.plain (.fixInt 5 (by decide))
      (.plain (.uint64 _ rfl) .nil)) .nil))

end Verif.Props
