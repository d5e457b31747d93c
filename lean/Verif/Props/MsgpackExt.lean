import Verif.Props.MsgpackSkip
/-
Property C140: skipping the extension values that other MessagePack programs write.
-/
set_option autoImplicit false
namespace Verif.Props
open Verif Spec Msgpack

/-- The eight forms of an extension value in the MessagePack specification: a code, a length where
the code does not give it, a type byte, and the data. -/
inductive ExtForm (t : UInt8) : (data form : Bytes) → Prop
  | fixext1 (data : Bytes) : data.length = 1 → ExtForm t data (0xd4 :: t :: data)
  | fixext2 (data : Bytes) : data.length = 2 → ExtForm t data (0xd5 :: t :: data)
  | fixext4 (data : Bytes) : data.length = 4 → ExtForm t data (0xd6 :: t :: data)
  | fixext8 (data : Bytes) : data.length = 8 → ExtForm t data (0xd7 :: t :: data)
  | fixext16 (data : Bytes) : data.length = 16 → ExtForm t data (0xd8 :: t :: data)
  | ext8 (data : Bytes) : data.length < 2^8 →
      ExtForm t data (0xc7 :: (bigEndian 1 data.length ++ t :: data))
  | ext16 (data : Bytes) : data.length < 2^16 →
      ExtForm t data (0xc8 :: (bigEndian 2 data.length ++ t :: data))
  | ext32 (data : Bytes) : data.length < 2^32 →
      ExtForm t data (0xc9 :: (bigEndian 4 data.length ++ t :: data))

/-- C140 in full: `Skip` moves exactly behind every extension value. -/
def C140_statement : Prop := ∀ t data w, ExtForm t data w → w.length < 2^32 → Skips w

/-- C140, partial: `Skip` moves exactly behind every extension value with 2, 4, 8 or 16 bytes of
data in the form without a length, whatever its type and its data and whatever surrounds it.
Missing: the form for one byte (`C140_fixext1_violated`) and the forms that give a length
(`C140_ext_violated`). -/
theorem C140_partial (t : UInt8) (data : Bytes) :
    (data.length = 2 → Skips (0xd5 :: t :: data)) ∧
    (data.length = 4 → Skips (0xd6 :: t :: data)) ∧
    (data.length = 8 → Skips (0xd7 :: t :: data)) ∧
    (data.length = 16 → Skips (0xd8 :: t :: data)) := by
  refine ⟨fun h => ⟨2, skips_scalar ?_⟩, fun h => ⟨2, skips_scalar ?_⟩,
    fun h => ⟨2, skips_scalar ?_⟩, fun h => ⟨2, skips_scalar ?_⟩⟩ <;>
  · prefix; exact dq (by rw [List.length_cons, h]; rfl)

/-- C140 is violated by every extension value with one byte of data: `Skip` reports success but
stops in front of the data byte, so that the next read takes the data for a value (decoder.go
669-670 discards one byte, the type). -/
theorem C140_fixext1_violated (t b : UInt8) : Skips [0xd4, t] ∧ ¬ Skips [0xd4, t, b] := by
  have h : Skips [0xd4, t] := ⟨2, skips_scalar (by prefix; exact dq rfl)⟩
  refine ⟨h, fun h' => ?_⟩
  obtain ⟨f, h⟩ := h
  obtain ⟨g, h'⟩ := h'
  have h1 := h (max f g) (by omega) [] [b] (by simp)
  have h2 := h' (max f g) (by omega) [] [] (by simp)
  simp only [List.nil_append, List.append_nil, List.cons_append] at h1 h2
  rw [h1] at h2
  have := congrArg (fun o => match o with | some (.ok _ d) => (d : DR).off.toNat | _ => 0) h2
  simp [at_] at this

/-- C140 is violated by every value in the forms that give a length: `Skip` fails with an error and
stays behind the code, whatever follows. -/
theorem C140_ext_violated (c : UInt8) (hc : c = 0xc7 ∨ c = 0xc8 ∨ c = 0xc9) (pre rest : Bytes)
    (hl : (pre ++ c :: rest).length < 2^32) (f : Nat) :
    skip (f + 1) (at_ pre (c :: rest)) = some (.fail "bad prefix" (at_ (pre ++ [c]) rest)) := by
  have h1 := getUint8_reads c pre rest (by simpa using hl)
  have hs : getSize (at_ pre (c :: rest)) = .fail "bad prefix" (at_ (pre ++ [c]) rest) := by
    unfold getSize
    simp only [rd_bind]
    simp only [List.cons_append, List.nil_append] at h1
    rw [h1]
    rcases hc with rfl | rfl | rfl <;>
    · simp only
      repeat (first | rw [if_pos (by decide)] | rw [if_neg (by decide)])
      rfl
  simp only [skip, hs]

/-- So C140 does not hold in full. -/
theorem C140_violated : ¬ C140_statement := fun h =>
  (C140_fixext1_violated 5 7).2 (h 5 [7] _ (.fixext1 [7] rfl) (by decide))

/-- A four-byte extension of type 1 followed by another value, one of one byte (the 7 is left over)
and one with a length. -/
example : Skips [0xd6, 1, 9, 9, 9, 9] ∧
    skip 2 (at_ [] [0xd4, 5, 7, 0xc0]) = some (.ok () (at_ [0xd4, 5] [7, 0xc0])) ∧
    ExtForm 5 [1, 2, 3] [0xc7, 3, 5, 1, 2, 3] ∧
    skip 2 (at_ [] [0xc7, 3, 5, 1, 2, 3]) = some (.fail "bad prefix" (at_ [0xc7] [3, 5, 1, 2, 3])) :=
  ⟨(C140_partial 1 [9, 9, 9, 9]).2.1 rfl, by decide +kernel, .ext8 [1, 2, 3] (by decide),
    C140_ext_violated 0xc7 (.inl rfl) [] [3, 5, 1, 2, 3] (by decide) 1⟩

end Verif.Props
