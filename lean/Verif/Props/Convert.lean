import Verif.Model.Convert
import Verif.Props.MsgpackColl
/-
Properties C82 (converting optional values) and C83 (converting numbers).
-/
set_option autoImplicit false
namespace Verif.Props
open Verif
open Verif.Convert (Res)

/-- What a conversion of an optional value with `conv` should give: the error if there is one, nothing if
there is no value, and the converted value otherwise. -/
def wanted {α β : Type} (conv : α → Res β) : Res (Option α) → Res (Option β)
  | ⟨_, some e⟩ => ⟨none, some e⟩
  | ⟨none, none⟩ => ⟨none, none⟩
  | ⟨some v, none⟩ => if (conv v).err = none then ⟨some (conv v).val, none⟩ else ⟨none, (conv v).err⟩

/-- What a decoder method for optional values returns: with an error there is no value. -/
def Decoded {α : Type} (r : Res (Option α)) : Prop := r.err = none ∨ r.val = none

/-- C82 as stated in English, for conversions that cannot fail (strings, booleans, numbers). -/
def C82_statement : Prop :=
  ∀ (α β : Type) (conv : α → β) (r : Res (Option α)), Decoded r →
    Convert.nillable conv r = .ok (wanted (fun v => ⟨conv v, none⟩) r)

/-- C82 fails: an absent optional string crashes. -/
theorem C82_violated : ¬ C82_statement := by
  intro h
  have := h Bytes Bytes id ⟨none, none⟩ (.inl rfl)
  cases this

/-- C82: `NillableString`, `NillableBool` and `NillableNumeric` do what is wanted if there is a value, and
crash otherwise. Missing: absent values and errors. -/
theorem C82_partial {α β : Type} (conv : α → β) (r : Res (Option α)) (hr : Decoded r) :
    (r.val ≠ none → Convert.nillable conv r = .ok (wanted (fun v => ⟨conv v, none⟩) r)) ∧
    (r.val = none → Convert.nillable conv r = .panic) := by
  obtain ⟨v, e⟩ := r
  cases v with
  | none => exact ⟨fun h => absurd rfl h, fun _ => rfl⟩
  | some v =>
    refine ⟨fun _ => ?_, fun h => by cases h⟩
    rcases hr with h | h
    · dsimp only at h; subst h; rfl
    · cases h

/-- C82: whatever two results they are given (also an error beside a value), these three never lose an error
and never make one up. Missing: the crashes. -/
theorem C82_error_partial {α β : Type} (conv : α → β) (r : Res (Option α)) (x : Res (Option β))
    (h : Convert.nillable conv r = .ok x) : x.err = r.err ∧ x.val = r.val.map conv := by
  obtain ⟨v, e⟩ := r
  cases v with
  | none => cases h
  | some v => cases h; exact ⟨rfl, rfl⟩

/-- An error beside a value. -/
example : Convert.nillable (fun n : Nat => n + 1) ⟨some 3, some "bad"⟩ = .ok ⟨some 4, some "bad"⟩ := rfl

/-- C82: whatever the bytes, decoding an optional value and converting it crashes exactly if the decoder
finds nil or reports an error. `r` is any of the decoder's methods. -/
theorem C82_decode_partial {α β : Type} (conv : α → β) (r : Msgpack.Rd α) (d : Msgpack.DR) (x : Res (Option α))
    (hx : Convert.results (Msgpack.readNillable r d) = some x) :
    Convert.nillable conv x = .panic ↔ ¬ ∃ v d', Msgpack.readNillable r d = .ok (some v) d' := by
  cases ho : Msgpack.readNillable r d with
  | ok v d' =>
    rw [ho] at hx
    cases hx
    cases v <;> simp [Convert.nillable]
  | fail e d' =>
    rw [ho] at hx
    cases hx
    simp [Convert.nillable]
  | panic => rw [ho] at hx; cases hx

/-- nil followed by anything, and no bytes at all. -/
example : Convert.results (Msgpack.readNillable Msgpack.readString (.new [0xc0, 1])) = some ⟨none, none⟩ ∧
    Convert.results (Msgpack.readNillable Msgpack.readBool (.new [0xc3])) = some ⟨some true, none⟩ := by
  decide +kernel

/-- C82 for the conversions with a parser and for times: as wanted, for every pair of results of the
decoder (a time that does not parse comes back as an error, with a value beside it). -/
theorem C82_parse_partial {α β : Type} (fn : α → Res β) (r : Res (Option α)) :
    Convert.nillableParse fn r = wanted fn r := by
  obtain ⟨v, e⟩ := r
  cases e with
  | some e => rfl
  | none =>
    cases v with
    | none => rfl
    | some v =>
      simp only [Convert.nillableParse, wanted]
      cases h : (fn v).err <;> simp

theorem C82_time_partial {β : Type} (parseTime : Bytes → Res β) (r : Res (Option Bytes)) (hr : Decoded r) :
    (Convert.stringToTimePtr parseTime r).err = (wanted parseTime r).err ∧
    ((wanted parseTime r).err = none →
      (Convert.stringToTimePtr parseTime r).val = (wanted parseTime r).val) := by
  obtain ⟨v, e⟩ := r
  rcases hr with h | h <;> dsimp only at h <;> subst h
  · cases v with
    | none => exact ⟨rfl, fun _ => rfl⟩
    | some v =>
      simp only [Convert.stringToTimePtr, wanted]
      cases h : (parseTime v).err <;> simp
  · cases e <;> exact ⟨rfl, fun _ => rfl⟩

/-- C82 for values that are not optional: an error is passed on with the zero value, a value is parsed. -/
theorem C82_required_partial {α β : Type} (zero : β) (fn : α → Res β) (r : Res α) :
    (∀ e, r.err = some e → Convert.parse zero fn r = ⟨zero, some e⟩) ∧
    (r.err = none → Convert.parse zero fn r = fn r.val) := by
  obtain ⟨v, e⟩ := r
  cases e
  · exact ⟨fun e h => (by cases h), fun _ => rfl⟩
  · exact ⟨fun e h => (by cases h; rfl), fun h => (by cases h)⟩

/-! ## C83 -/

/-- The values of an integer type. -/
def inRange (t : Convert.IntType) (v : Int) : Prop :=
  if t.signed then -2 ^ (t.bits - 1) ≤ v ∧ v < 2 ^ (t.bits - 1) else 0 ≤ v ∧ v < 2 ^ t.bits

/-- C83 as stated in English: converting a number of one type to another keeps its value or reports an
error. -/
def C83_statement : Prop :=
  ∀ (t : Convert.IntType) (v : Int), 0 < t.bits → (Convert.numeric t ⟨v, none⟩).err = none →
    (Convert.numeric t ⟨v, none⟩).val = v

/-- C83 fails: 300 as an `int8` is 44. -/
theorem C83_violated : ¬ C83_statement := by
  intro h
  exact absurd (h ⟨true, 8⟩ 300 (by decide) rfl) (by decide)

/-- C83, what holds: the value is kept exactly if it is one of the new type, and the result always is a value
of the new type. Missing: there is no error otherwise. -/
theorem C83_partial (t : Convert.IntType) (v : Int) (ht : 0 < t.bits) (e : Option String) :
    ((Convert.numeric t ⟨v, e⟩).val = v ↔ inRange t v) ∧ inRange t (Convert.numeric t ⟨v, e⟩).val ∧
    (Convert.numeric t ⟨v, e⟩).err = e := by
  obtain ⟨sg, bits⟩ := t
  obtain ⟨b, rfl⟩ : ∃ b, bits = b + 1 := ⟨bits - 1, by dsimp only at ht; omega⟩
  have hp : (0 : Int) < 2 ^ b := Int.pow_pos (by decide)
  have hs : (2 : Int) ^ (b + 1) = 2 * 2 ^ b := by rw [Int.pow_succ]; omega
  have hm := Int.emod_nonneg (v + 2 ^ b) (b := 2 ^ (b + 1)) (by omega)
  have hm' := Int.emod_lt_of_pos (v + 2 ^ b) (b := 2 ^ (b + 1)) (by omega)
  have hu := Int.emod_nonneg v (b := 2 ^ (b + 1)) (by omega)
  have hu' := Int.emod_lt_of_pos v (b := 2 ^ (b + 1)) (by omega)
  cases sg with
  | true =>
    simp only [Convert.numeric, Convert.IntType.conv, inRange, if_true, Nat.add_sub_cancel]
    refine ⟨⟨fun h => ?_, fun h => ?_⟩, ?_, trivial⟩
    · omega
    · rw [Int.emod_eq_of_lt (by omega) (by omega)]; omega
    · omega
  | false =>
    simp only [Convert.numeric, Convert.IntType.conv, inRange, Bool.false_eq_true, if_false]
    refine ⟨⟨fun h => ?_, fun h => ?_⟩, ?_, trivial⟩
    · omega
    · exact Int.emod_eq_of_lt h.1 h.2
    · omega

example : inRange ⟨true, 8⟩ (-128) ∧ ¬ inRange ⟨false, 64⟩ (-1) ∧ inRange ⟨false, 64⟩ (2 ^ 64 - 1) := by
  unfold inRange; decide +kernel

end Verif.Props
