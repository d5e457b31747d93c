import Verif.Props.MsgpackScalars
/-
Properties C143 and C144: which forms of strings, byte arrays, arrays and maps are read, and as what.
-/
set_option autoImplicit false
namespace Verif.Props
open Verif Spec Msgpack

/-- Passes over the cases of a reader that do not match a literal code. -/
macro "literal_code" : tactic => `(tactic| (
  apply Reads.cons
  repeat (first | rw [if_pos (by decide)] | rw [if_neg (by decide)])))

theorem count_toNat {k : Nat} (h : k < 2^32) : (UInt32.ofNat k).toNat = k := UInt32.toNat_ofNat_lt h

theorem count8 {k : Nat} (h : k < 2^8) :
    Reads (getUint8 >>= fun v => Rd.pure v.toUInt32) (bigEndian 1 k) (UInt32.ofNat k) := by
  have := read8_reads (n := UInt32.ofNat k) (by rw [count_toNat (by omega)]; exact h)
  rwa [count_toNat (by omega)] at this

theorem count16 {k : Nat} (h : k < 2^16) :
    Reads (getUint16 >>= fun v => Rd.pure v.toUInt32) (bigEndian 2 k) (UInt32.ofNat k) := by
  have := read16_reads (n := UInt32.ofNat k) (by rw [count_toNat (by omega)]; exact h)
  rwa [count_toNat (by omega)] at this

theorem count32 {k : Nat} (h : k < 2^32) : Reads getUint32 (bigEndian 4 k) (UInt32.ofNat k) := by
  have := read32_reads (UInt32.ofNat k)
  rwa [count_toNat h] at this

theorem body_of {len : Rd UInt32} {head s : Bytes} (hs : s.length < 2^32)
    (h : Reads len head (UInt32.ofNat s.length)) :
    Reads (len >>= fun n => getBytes n) (head ++ s) s :=
  h.bind (getBytes_reads _ s (count_toNat hs))

/-- C143 for strings: whichever of its forms with room for it a string is written in, it is read
back and nothing else is consumed. -/
theorem C143_string (s : Bytes) :
    (s.length < 32 → Reads readString (UInt8.ofNat (0xa0 + s.length) :: s) s) ∧
    (s.length < 2^8 → Reads readString (0xd9 :: (bigEndian 1 s.length ++ s)) s) ∧
    (s.length < 2^16 → Reads readString (0xda :: (bigEndian 2 s.length ++ s)) s) ∧
    (s.length < 2^32 → Reads readString (0xdb :: (bigEndian 4 s.length ++ s)) s) := by
  refine ⟨fun h => ?_, fun h => ?_, fun h => ?_, fun h => ?_⟩
  · have := readString_reads s (by omega)
    rwa [str, strHead, if_pos (by omega)] at this
  · exact body_of (head := 0xd9 :: bigEndian 1 s.length) (by omega) (by literal_code; exact count8 h)
  · exact body_of (head := 0xda :: bigEndian 2 s.length) (by omega) (by literal_code; exact count16 h)
  · exact body_of (head := 0xdb :: bigEndian 4 s.length) (by omega) (by literal_code; exact count32 h)

/-- C143 for byte arrays. -/
theorem C143_bytes (s : Bytes) :
    (s.length < 2^8 → Reads readByteArray (0xc4 :: (bigEndian 1 s.length ++ s)) s) ∧
    (s.length < 2^16 → Reads readByteArray (0xc5 :: (bigEndian 2 s.length ++ s)) s) ∧
    (s.length < 2^32 → Reads readByteArray (0xc6 :: (bigEndian 4 s.length ++ s)) s) := by
  refine ⟨fun h => ?_, fun h => ?_, fun h => ?_⟩
  · exact body_of (head := 0xc4 :: bigEndian 1 s.length) (by omega) (by literal_code; exact count8 h)
  · exact body_of (head := 0xc5 :: bigEndian 2 s.length) (by omega) (by literal_code; exact count16 h)
  · exact body_of (head := 0xc6 :: bigEndian 4 s.length) (by omega) (by literal_code; exact count32 h)

/-- C143 for the sizes of arrays and maps. -/
theorem C143_sizes (k : Nat) :
    (k < 16 → Reads readArraySize [UInt8.ofNat (0x90 + k)] (UInt32.ofNat k) ∧
      Reads readMapSize [UInt8.ofNat (0x80 + k)] (UInt32.ofNat k)) ∧
    (k < 2^16 → Reads readArraySize (0xdc :: bigEndian 2 k) (UInt32.ofNat k) ∧
      Reads readMapSize (0xde :: bigEndian 2 k) (UInt32.ofNat k)) ∧
    (k < 2^32 → Reads readArraySize (0xdd :: bigEndian 4 k) (UInt32.ofNat k) ∧
      Reads readMapSize (0xdf :: bigEndian 4 k) (UInt32.ofNat k)) := by
  refine ⟨fun h => ⟨?_, ?_⟩, fun h => ⟨?_, ?_⟩, fun h => ⟨?_, ?_⟩⟩
  · have := readArraySize_reads (UInt32.ofNat k)
    rwa [count_toNat (by omega), arrHead, if_pos (by omega)] at this
  · have := readMapSize_reads (UInt32.ofNat k)
    rwa [count_toNat (by omega), mapHead, if_pos (by omega)] at this
  · literal_code; exact count16 h
  · literal_code; exact count16 h
  · literal_code; exact count32 h
  · literal_code; exact count32 h

/-- A string of one byte with a length of four bytes. -/
example : Reads readString [0xdb, 0, 0, 0, 1, 97] [97] := (C143_string [97]).2.2.2 (by decide)

/-- The first bytes of strings, byte arrays, arrays and maps in the MessagePack specification. -/
def strCode (p : UInt8) : Prop :=
  (0xa0 ≤ p.toNat ∧ p.toNat < 0xc0) ∨ p = 0xd9 ∨ p = 0xda ∨ p = 0xdb
def binCode (p : UInt8) : Prop := p = 0xc4 ∨ p = 0xc5 ∨ p = 0xc6
def arrCode (p : UInt8) : Prop := (0x90 ≤ p.toNat ∧ p.toNat < 0xa0) ∨ p = 0xdc ∨ p = 0xdd
def mapCode (p : UInt8) : Prop := (0x80 ≤ p.toNat ∧ p.toNat < 0x90) ∨ p = 0xde ∨ p = 0xdf

/-- C144 in full: a value of another kind is refused (nil counts as an empty byte array, array or
map). -/
def C144_statement : Prop := ∀ p : UInt8,
  (¬ strCode p → Refuses readString [p]) ∧
  (¬ binCode p → p ≠ 0xc0 → Refuses readByteArray [p]) ∧
  (¬ arrCode p → p ≠ 0xc0 → Refuses readArraySize [p]) ∧
  (¬ mapCode p → p ≠ 0xc0 → Refuses readMapSize [p])

theorem refuses_first {α : Type} {f : UInt8 → Rd α} {p : UInt8} {e : String} (h : f p = Rd.fail e) :
    Refuses (getUint8 >>= f) [p] :=
  Refuses.bind (w := []) (getUint8_reads p) (by rw [h]; exact Refuses.fail e)

/-- C144, partial: arrays and maps are never taken from a value of another kind, strings from no
other than arrays, byte arrays from no other than arrays of less than 16 values. Missing: exactly
these (`C144_string_violated`, `C144_bytes_violated`). -/
theorem C144_partial (p : UInt8) :
    (¬ strCode p → ¬ arrCode p → Refuses readString [p]) ∧
    (¬ binCode p → p ≠ 0xc0 → ¬ (0x90 ≤ p.toNat ∧ p.toNat < 0xa0) → Refuses readByteArray [p]) ∧
    (¬ arrCode p → p ≠ 0xc0 → Refuses readArraySize [p]) ∧
    (¬ mapCode p → p ≠ 0xc0 → Refuses readMapSize [p]) := by
  refine ⟨fun h h' => ?_, fun h hn h' => ?_, fun h hn => ?_, fun h hn => ?_⟩
  · simp only [strCode, arrCode, not_or] at h h'
    have h1 : ¬ isFixedString p = true := by rw [isFixedString_iff]; simp; omega
    have h2 : ¬ isFixedArray p = true := by rw [isFixedArray_iff]; simp; omega
    refine Refuses.bind_left (refuses_first (e := "bad prefix for string length") ?_)
    rw [if_neg h1, if_neg h2, if_neg (show ¬ p = fmtString8 from h.2.1),
      if_neg (show ¬ (p = fmtString16 ∨ p = fmtArray16) from not_or.mpr ⟨h.2.2.1, h'.2.1⟩),
      if_neg (show ¬ (p = fmtString32 ∨ p = fmtArray32) from not_or.mpr ⟨h.2.2.2, h'.2.2⟩)]
  · simp only [binCode, not_or] at h
    have h2 : ¬ isFixedArray p = true := by rw [isFixedArray_iff]; simp; omega
    refine Refuses.bind_left (refuses_first (e := "bad prefix for binary length") ?_)
    rw [if_neg h2, if_neg (show ¬ p = fmtNil from hn), if_neg (show ¬ p = fmtBin8 from h.1),
      if_neg (show ¬ p = fmtBin16 from h.2.1), if_neg (show ¬ p = fmtBin32 from h.2.2)]
  · simp only [arrCode, not_or] at h
    have h2 : ¬ isFixedArray p = true := by rw [isFixedArray_iff]; simp; omega
    refine refuses_first (e := "bad prefix for array length") ?_
    rw [if_neg h2, if_neg (show ¬ p = fmtArray16 from h.2.1), if_neg (show ¬ p = fmtArray32 from h.2.2),
      if_neg (show ¬ p = fmtNil from hn)]
  · simp only [mapCode, not_or] at h
    have h2 : ¬ isFixedMap p = true := by rw [isFixedMap_iff]; simp; omega
    refine refuses_first (e := "bad prefix for map length") ?_
    rw [if_neg h2, if_neg (show ¬ p = fmtMap16 from h.2.1), if_neg (show ¬ p = fmtMap32 from h.2.2),
      if_neg (show ¬ p = fmtNil from hn)]

theorem fixArr_size {r : Rd UInt32} {f : UInt8 → Rd UInt32} (hr : r = (getUint8 >>= f))
    (hf : ∀ p : UInt8, 0x90 ≤ p.toNat ∧ p.toNat < 0xa0 → f p = Rd.pure (p &&& 0x0f).toUInt32)
    {k : Nat} (hk : k < 16) : Reads r [UInt8.ofNat (0x90 + k)] (UInt32.ofNat k) := by
  subst hr
  have hn : (UInt8.ofNat (0x90 + k)).toNat = 0x90 + k := UInt8.toNat_ofNat_lt (by omega)
  apply Reads.one
  rw [hf _ (by omega)]
  have := and_0f_arr _ (show 0x90 ≤ (UInt8.ofNat (0x90 + k)).toNat ∧
    (UInt8.ofNat (0x90 + k)).toNat < 0xa0 by omega)
  rw [show ((UInt8.ofNat (0x90 + k)) &&& 0x0f).toUInt32 = UInt32.ofNat k from
    u32_ext (by rw [count_toNat (by omega)]; omega)]
  exact Reads.pure _

/-- C144 is violated by every array read as a string: the head of the array is taken for a length,
and as many bytes as the array has values are returned as the text (decoder.go 481-483, 488-493). -/
theorem C144_string_violated (s : Bytes) :
    (s.length < 16 → Reads readString (UInt8.ofNat (0x90 + s.length) :: s) s) ∧
    (s.length < 2^16 → Reads readString (0xdc :: (bigEndian 2 s.length ++ s)) s) ∧
    (s.length < 2^32 → Reads readString (0xdd :: (bigEndian 4 s.length ++ s)) s) := by
  refine ⟨fun h => ?_, fun h => ?_, fun h => ?_⟩
  · refine body_of (head := [UInt8.ofNat (0x90 + s.length)]) (by omega) ?_
    refine fixArr_size (r := readStringLength) rfl (fun p hp => ?_) h
    rw [if_neg (by rw [isFixedString_iff]; simp; omega), if_pos (by rw [isFixedArray_iff]; simp; omega)]
  · exact body_of (head := 0xdc :: bigEndian 2 s.length) (by omega) (by literal_code; exact count16 h)
  · exact body_of (head := 0xdd :: bigEndian 4 s.length) (by omega) (by literal_code; exact count32 h)

/-- C144 is violated by every array of less than 16 values read as a byte array (decoder.go
530-553). -/
theorem C144_bytes_violated (s : Bytes) (h : s.length < 16) :
    Reads readByteArray (UInt8.ofNat (0x90 + s.length) :: s) s := by
  refine body_of (head := [UInt8.ofNat (0x90 + s.length)]) (by omega) ?_
  refine fixArr_size (r := readBinLength) rfl (fun p hp => ?_) h
  rw [if_pos (by rw [isFixedArray_iff]; simp; omega)]

/-- So C144 does not hold in full: an array of the numbers 104 and 105 is read as the text "hi". -/
theorem C144_violated : ¬ C144_statement := fun h => by
  obtain ⟨e, h1⟩ := (h 0x92).1 (by unfold strCode; decide) [] [104, 105] (by decide)
  have h2 := (C144_string_violated [104, 105]).1 (by decide) [] [] (by decide)
  have h3 : ([] : Bytes) ++ (UInt8.ofNat (0x90 + [(104 : UInt8), 105].length) :: [104, 105] ++ []) =
    [0x92] ++ [104, 105] := by decide
  simp only [List.nil_append] at h1 h3 h2
  rw [h3] at h2
  rw [h1] at h2
  cases h2

/-- The first bytes of integers, of either sign. -/
def intCode (p : UInt8) : Prop := p.toNat < 0x80 ∨ 0xe0 ≤ p.toNat ∨
  p = 0xcc ∨ p = 0xcd ∨ p = 0xce ∨ p = 0xcf ∨ p = 0xd0 ∨ p = 0xd1 ∨ p = 0xd2 ∨ p = 0xd3

/-- C144 for truth values and numbers, in full: none of them is taken from a value of another kind.
The narrower integers are read through the 64-bit ones. -/
theorem C144_scalars (lib : Lib) (p : UInt8) :
    (p ≠ 0xc2 → p ≠ 0xc3 → Refuses readBool [p]) ∧
    (p ≠ 0xca → p ≠ 0xcb → Refuses (readFloat32 lib) [p] ∧ Refuses readFloat64 [p]) ∧
    (¬ intCode p → Refuses readInt64 [p] ∧ Refuses readInt32 [p] ∧ Refuses readInt16 [p] ∧
      Refuses readInt8 [p] ∧ Refuses readUint64 [p] ∧ Refuses readUint32 [p] ∧
      Refuses readUint16 [p] ∧ Refuses readUint8 [p]) := by
  refine ⟨fun h1 h2 => ?_, fun h1 h2 => ⟨?_, ?_⟩, fun h => ?_⟩
  · refine refuses_first (e := "bad value for bool") ?_
    rw [if_neg (show ¬ p = fmtTrue from h2), if_neg (show ¬ p = fmtFalse from h1)]
  · refine refuses_first (e := "bad prefix for float32") ?_
    rw [if_neg (show ¬ p = fmtFloat32 from h1), if_neg (show ¬ p = fmtFloat64 from h2)]
  · refine refuses_first (e := "bad prefix for float64") ?_
    rw [if_neg (show ¬ p = fmtFloat64 from h2)]
  · simp only [intCode, not_or] at h
    obtain ⟨a, b, u8, u16, u32, u64, i8, i16, i32, i64⟩ := h
    have f1 : isFixedInt p = false := by rw [isFixedInt_iff]; simp; omega
    have f2 : isNegativeFixedInt p = false := by rw [isNegativeFixedInt_iff]; simp; omega
    have hs : Refuses readInt64 [p] := by
      refine refuses_first (e := "bad prefix for int64") ?_
      rw [if_neg (by rw [f1, f2]; decide), if_neg (show ¬ p = fmtInt8 from i8),
        if_neg (show ¬ p = fmtInt16 from i16), if_neg (show ¬ p = fmtInt32 from i32),
        if_neg (show ¬ p = fmtInt64 from i64)]
    have hu : Refuses readUint64 [p] := by
      refine refuses_first (e := "bad prefix for uint") ?_
      rw [if_neg (by rw [f1]; decide), if_neg (by rw [f2]; decide),
        if_neg (show ¬ p = fmtUint8 from u8), if_neg (show ¬ p = fmtUint16 from u16),
        if_neg (show ¬ p = fmtUint32 from u32), if_neg (show ¬ p = fmtUint64 from u64),
        if_neg (show ¬ p = fmtInt8 from i8), if_neg (show ¬ p = fmtInt16 from i16),
        if_neg (show ¬ p = fmtInt32 from i32), if_neg (show ¬ p = fmtInt64 from i64)]
    exact ⟨hs, Refuses.bind_left hs, Refuses.bind_left hs, Refuses.bind_left hs, hu,
      Refuses.bind_left hu, Refuses.bind_left hu, Refuses.bind_left hu⟩

/-- A number read as a string and a map read as an array, and a string read as a number. -/
example : Refuses readString [5] ∧ Refuses readArraySize [0x82] ∧ Refuses readInt8 [0xa1] :=
  ⟨(C144_partial 5).1 (by unfold strCode; decide) (by unfold arrCode; decide),
    (C144_partial 0x82).2.2.1 (by unfold arrCode; decide) (by decide),
    ((C144_scalars ⟨fun _ => 0, fun _ => none⟩ 0xa1).2.2 (by unfold intCode; decide)).2.2.2.1⟩

end Verif.Props
