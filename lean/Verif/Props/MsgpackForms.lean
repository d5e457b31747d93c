import Verif.Props.MsgpackAny
import Verif.Props.MsgpackKinds
/-
Property C143 for `ReadAny`: values in forms this library does not write.
-/
set_option autoImplicit false
namespace Verif.Props
open Verif Spec Msgpack

/-- C143 for strings and byte arrays read by `ReadAny`: whichever form they are written in, they come
back as the string or the bytes. -/
theorem C143_any (s : Bytes) :
    (s.length < 2^8 → ReadsAny (0xd9 :: (bigEndian 1 s.length ++ s)) (.str s) ∧
      ReadsAny (0xc4 :: (bigEndian 1 s.length ++ s)) (.bytes s)) ∧
    (s.length < 2^16 → ReadsAny (0xda :: (bigEndian 2 s.length ++ s)) (.str s) ∧
      ReadsAny (0xc5 :: (bigEndian 2 s.length ++ s)) (.bytes s)) ∧
    (s.length < 2^32 → ReadsAny (0xdb :: (bigEndian 4 s.length ++ s)) (.str s) ∧
      ReadsAny (0xc6 :: (bigEndian 4 s.length ++ s)) (.bytes s)) :=
  ⟨fun h => ⟨⟨1, any_scalar rfl (bytes8 .str h)⟩, ⟨1, any_scalar rfl (bytes8 .bytes h)⟩⟩,
   fun h => ⟨⟨1, any_scalar rfl (bytes16 .str h)⟩, ⟨1, any_scalar rfl (bytes16 .bytes h)⟩⟩,
   fun h => ⟨⟨1, any_scalar rfl (bytes32 .str h)⟩, ⟨1, any_scalar rfl (bytes32 .bytes h)⟩⟩⟩

/-- The values in a row that `ReadAny` returns one after the other. -/
inductive ReadsAll : List Dyn → Bytes → Prop
  | nil : ReadsAll [] []
  | cons {d : Dyn} {l : List Dyn} {w rest : Bytes} : ReadsAny w d → ReadsAll l rest →
      ReadsAll (d :: l) (w ++ rest)

theorem readsAll_arr {l : List Dyn} {w : Bytes} (h : ReadsAll l w) :
    ∃ b, ReadsArr l.length w l b := by
  induction h with
  | nil => exact ⟨1, arr_nil⟩
  | cons hd _ ih =>
    obtain ⟨a, ha⟩ := hd
    obtain ⟨b, hb⟩ := ih
    exact ⟨_, arr_cons ha hb⟩

/-- C143 for arrays read by `ReadAny`: an array in any form comes back as the list of its values,
whatever forms these are written in. -/
theorem C143_any_array (l : List Dyn) (w : Bytes) (h : ReadsAll l w) :
    (l.length < 16 → ReadsAny (UInt8.ofNat (0x90 + l.length) :: w) (.arr l)) ∧
    (l.length < 2^16 → ReadsAny (0xdc :: (bigEndian 2 l.length ++ w)) (.arr l)) ∧
    (l.length < 2^32 → ReadsAny (0xdd :: (bigEndian 4 l.length ++ w)) (.arr l)) := by
  obtain ⟨b, hb⟩ := readsAll_arr h
  refine ⟨fun hl => ?_, fun hl => ?_, fun hl => ?_⟩
  · have hn := count_toNat (k := l.length) (by omega)
    have := any_arrHead (n := UInt32.ofNat l.length) (w := w) (l := l) (b := b) (by rw [hn]; exact hb)
    rw [hn, arrHead, if_pos (by omega)] at this
    exact ⟨_, this⟩
  · have hn := count_toNat (k := l.length) (by omega)
    refine ⟨_, any_arr (w := bigEndian 2 l.length) (n := UInt32.ofNat l.length) rfl ?_ (by rw [hn]; exact hb)⟩
    have h16 : (UInt16.ofNat l.length).toNat = l.length := UInt16.toNat_ofNat_lt hl
    have := Reads.map (g := fun v : UInt16 => (false, v.toUInt32)) (getUint16_reads (UInt16.ofNat l.length))
    rw [Spec.be16_eq, h16] at this
    rwa [show (UInt16.ofNat l.length).toUInt32 = UInt32.ofNat l.length from
      u32_ext (by rw [UInt16.toNat_toUInt32, h16, hn])] at this
  · have hn := count_toNat hl
    refine ⟨_, any_arr (w := bigEndian 4 l.length) (n := UInt32.ofNat l.length) rfl ?_ (by rw [hn]; exact hb)⟩
    have := Reads.map (g := fun v : UInt32 => (false, v)) (getUint32_reads (UInt32.ofNat l.length))
    rwa [Spec.be32_eq, hn] at this

/-- An array with a 32-bit count of one string with a 16-bit length. -/
example : ReadsAny [0xdd, 0, 0, 0, 1, 0xda, 0, 1, 97] (.arr [.str [97]]) :=
  (C143_any_array [.str [97]] [0xda, 0, 1, 97]
    (.cons (w := [0xda, 0, 1, 97]) ((C143_any [97]).2.1 (by decide)).1 .nil)).2.2 (by decide)

end Verif.Props
