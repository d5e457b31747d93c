import Verif.Props.MsgpackAny
import Verif.Props.MsgpackColl
/-
Property C88: maps on the wire that repeat a key.
-/
set_option autoImplicit false
namespace Verif.Props
open Verif Spec Msgpack

/-- The value of a key in a list of entries that has every key at most once (a Go map). -/
def valueOf {κ ν : Type} [DecidableEq κ] (m : List (κ × ν)) (k : κ) : Option ν :=
  match m with
  | [] => none
  | (k', v) :: m => if k' = k then some v else valueOf m k

/-- The last value given for a key. -/
def lastValue {κ ν : Type} [DecidableEq κ] (m : List (κ × ν)) (k : κ) : Option ν := valueOf m.reverse k

theorem valueOf_append {κ ν : Type} [DecidableEq κ] (a b : List (κ × ν)) (k : κ) :
    valueOf (a ++ b) k = (valueOf a k).or (valueOf b k) := by
  induction a with
  | nil => simp [valueOf]
  | cons e a ih =>
    obtain ⟨k', v⟩ := e
    simp only [List.cons_append, valueOf]
    split
    · simp
    · exact ih

theorem lastValue_cons {κ ν : Type} [DecidableEq κ] (k' : κ) (v : ν) (m : List (κ × ν)) (k : κ) :
    lastValue ((k', v) :: m) k = (lastValue m k).or (if k' = k then some v else none) := by
  simp only [lastValue, List.reverse_cons, valueOf_append, valueOf]

theorem valueOf_assign {κ ν : Type} [DecidableEq κ] (k : κ) (v : ν) (m : List (κ × ν)) (x : κ) :
    valueOf (assign k v m) x = if k = x then some v else valueOf m x := by
  induction m with
  | nil => simp [assign, valueOf]
  | cons e m ih =>
    obtain ⟨k', v'⟩ := e
    simp only [assign]
    by_cases h : k' = k
    · subst h
      simp only [beq_self_eq_true, if_true, valueOf]
      split <;> rfl
    · rw [if_neg (by simpa using h)]
      simp only [valueOf, ih]
      by_cases h1 : k' = x
      · subst h1
        rw [if_pos rfl, if_neg (fun h2 => h h2.symm), if_pos rfl]
      · rw [if_neg h1, if_neg h1]

theorem keys_assign {κ ν : Type} [DecidableEq κ] (k : κ) (v : ν) (m : List (κ × ν)) (h : (m.map (·.1)).Nodup) :
    ((assign k v m).map (·.1)).Nodup ∧ ∀ x ∈ (assign k v m).map (·.1), x = k ∨ x ∈ m.map (·.1) := by
  induction m with
  | nil => simp [assign]
  | cons e m ih =>
    obtain ⟨k', v'⟩ := e
    rw [List.map_cons, List.nodup_cons] at h
    obtain ⟨h1, h2⟩ := ih h.2
    simp only [assign]
    by_cases hk : k' = k
    · subst hk
      simp only [beq_self_eq_true, if_true]
      refine ⟨by rw [List.map_cons, List.nodup_cons]; exact h, ?_⟩
      intro x hx
      rw [List.map_cons, List.mem_cons] at hx
      rcases hx with hx | hx
      · exact Or.inl hx
      · exact Or.inr (List.mem_cons_of_mem _ hx)
    · rw [if_neg (by simpa using hk)]
      refine ⟨?_, ?_⟩
      · rw [List.map_cons, List.nodup_cons]
        refine ⟨fun hx => ?_, h1⟩
        rcases h2 _ hx with e | hx
        · exact hk e
        · exact h.1 hx
      · intro x hx
        rw [List.map_cons, List.mem_cons] at hx
        rcases hx with hx | hx
        · exact Or.inr (by rw [hx]; exact List.mem_cons_self)
        · rcases h2 x hx with e | hx
          · exact Or.inl e
          · exact Or.inr (List.mem_cons_of_mem _ hx)

/-- The entries of a map on the wire: the bytes of the key, the key, the bytes of the value, the value. -/
abbrev WireEntries (κ ν : Type) := List (Bytes × κ × Bytes × ν)

def WireEntries.bytes {κ ν : Type} (es : WireEntries κ ν) : Bytes := es.flatMap fun e => e.1 ++ e.2.2.1
def WireEntries.entries {κ ν : Type} (es : WireEntries κ ν) : List (κ × ν) := es.map fun e => (e.2.1, e.2.2.2)

theorem entries_last {κ ν : Type} [DecidableEq κ] (kr : Rd κ) (vr : Rd ν) (es : WireEntries κ ν)
    (hk : ∀ e ∈ es, Reads kr e.1 e.2.1) (hv : ∀ e ∈ es, Reads vr e.2.2.1 e.2.2.2) :
    ∀ acc : List (κ × ν), (acc.map (·.1)).Nodup →
    ∃ m, Reads (readEntries kr vr es.length acc) es.bytes m ∧ (m.map (·.1)).Nodup ∧
      ∀ k, valueOf m k = (lastValue es.entries k).or (valueOf acc k) := by
  induction es with
  | nil => intro acc ha; exact ⟨acc, Reads.pure acc, ha, fun k => by simp [WireEntries.entries, lastValue, valueOf]⟩
  | cons e es ih =>
    intro acc ha
    obtain ⟨m, h1, h2, h3⟩ := ih (fun x hx => hk x (List.mem_cons_of_mem _ hx))
      (fun x hx => hv x (List.mem_cons_of_mem _ hx)) (assign e.2.1 e.2.2.2 acc) (keys_assign _ _ _ ha).1
    refine ⟨m, ?_, h2, fun k => ?_⟩
    · have eb : WireEntries.bytes (e :: es) = e.1 ++ (e.2.2.1 ++ WireEntries.bytes es) := by
        simp [WireEntries.bytes]
      rw [eb]
      refine (hk e List.mem_cons_self).bind ?_
      exact (hv e List.mem_cons_self).bind h1
    · rw [h3, valueOf_assign]
      have ee : WireEntries.entries (e :: es) = (e.2.1, e.2.2.2) :: WireEntries.entries es := rfl
      rw [ee, lastValue_cons]
      cases lastValue (WireEntries.entries es) k with
      | some v => simp
      | none =>
        simp only [Option.none_or]
        split <;> simp

/-- C88 for typed maps: whatever entries are on the wire, also with repeated keys, `ReadMap` reads exactly these
bytes and returns a map that has for every key the last value on the wire. (Key types whose `==` is equality,
that is all but floats.) -/
theorem C88_typed {κ ν : Type} [DecidableEq κ] (kr : Rd κ) (vr : Rd ν) (es : WireEntries κ ν)
    (hl : es.length < 2^32) (hk : ∀ e ∈ es, Reads kr e.1 e.2.1) (hv : ∀ e ∈ es, Reads vr e.2.2.1 e.2.2.2) :
    ∃ m, Reads (readMapOf kr vr) (mapHead es.length ++ es.bytes) m ∧ (m.map (·.1)).Nodup ∧
      ∀ k, valueOf m k = lastValue es.entries k := by
  obtain ⟨m, h1, h2, h3⟩ := entries_last kr vr es hk hv [] (by simp)
  have hn : (UInt32.ofNat es.length).toNat = es.length := UInt32.toNat_ofNat_lt hl
  refine ⟨m, ?_, h2, fun k => by rw [h3]; simp [valueOf]⟩
  have hr := readMapSize_reads (UInt32.ofNat es.length)
  rw [hn] at hr
  refine hr.bind ?_
  rw [hn]
  exact h1

/-- The keys for which Go's `==` is equality: all that may be keys but floats (and times). -/
def exactKey : Dyn → Bool
  | .nil | .int8 _ | .int16 _ | .int32 _ | .int64 _ | .uint8 _ | .uint16 _ | .uint32 _ | .uint64 _ | .bool _
  | .str _ => true
  | _ => false

theorem keyEq_iff (a b : Dyn) (h : exactKey a = true) : (a.keyEq b = true) ↔ a = b := by
  cases a <;> first | (cases h; done) | (cases b <;> simp [Dyn.keyEq])

theorem hashable_of_exact (a : Dyn) (h : exactKey a = true) : a.hashable = true := by
  cases a <;> first | rfl | cases h

/-- As `valueOf`, keys compared as Go does. -/
def dynValue (m : List (Dyn × Dyn)) (k : Dyn) : Option Dyn :=
  match m with
  | [] => none
  | (k', v) :: m => if k'.keyEq k then some v else dynValue m k

theorem dynValue_append (a b : List (Dyn × Dyn)) (k : Dyn) :
    dynValue (a ++ b) k = (dynValue a k).or (dynValue b k) := by
  induction a with
  | nil => simp [dynValue]
  | cons e a ih =>
    obtain ⟨k', v⟩ := e
    simp only [List.cons_append, dynValue]
    split
    · simp
    · exact ih

theorem dynValue_assign (k v : Dyn) (m : List (Dyn × Dyn)) (hk : exactKey k = true)
    (hm : ∀ e ∈ m, exactKey e.1 = true) (x : Dyn) :
    dynValue (mapAssign k v m) x = if k.keyEq x then some v else dynValue m x := by
  induction m with
  | nil => simp [mapAssign, dynValue]
  | cons e m ih =>
    obtain ⟨k', v'⟩ := e
    have hk' := hm _ List.mem_cons_self
    have ih := ih fun e he => hm e (List.mem_cons_of_mem _ he)
    simp only [mapAssign]
    by_cases h : k'.keyEq k = true
    · rw [if_pos h]
      have := (keyEq_iff k' k hk').mp h
      subst this
      simp only [dynValue]
      split <;> rfl
    · rw [if_neg h]
      simp only [dynValue, ih]
      by_cases h1 : k'.keyEq x = true
      · have e1 := (keyEq_iff k' x hk').mp h1
        subst e1
        rw [if_pos h1, if_neg (fun h2 => h ((keyEq_iff k' k hk').mpr ((keyEq_iff k k' hk).mp h2).symm)), if_pos h1]
      · rw [if_neg h1, if_neg h1]

theorem exact_assign (k v : Dyn) (m : List (Dyn × Dyn)) (hk : exactKey k = true)
    (hm : ∀ e ∈ m, exactKey e.1 = true) : ∀ e ∈ mapAssign k v m, exactKey e.1 = true := by
  induction m with
  | nil =>
    intro e he
    rw [mapAssign, List.mem_singleton] at he
    subst he; exact hk
  | cons e m ih =>
    obtain ⟨k', v'⟩ := e
    have ih := ih fun e he => hm e (List.mem_cons_of_mem _ he)
    simp only [mapAssign]
    split
    · intro e he
      rcases List.mem_cons.mp he with rfl | he
      · exact hk
      · exact hm e (List.mem_cons_of_mem _ he)
    · intro e he
      rcases List.mem_cons.mp he with rfl | he
      · exact hm _ List.mem_cons_self
      · exact ih e he

theorem dyn_entries_last (es : WireEntries Dyn Dyn) (hx : ∀ e ∈ es, exactKey e.2.1 = true)
    (hk : ∀ e ∈ es, ReadsAny e.1 e.2.1) (hv : ∀ e ∈ es, ReadsAny e.2.2.1 e.2.2.2) :
    ∀ acc : List (Dyn × Dyn), (∀ e ∈ acc, exactKey e.1 = true) →
    ∃ m f, ReadsMap es.length acc es.bytes m f ∧
      ∀ k, dynValue m k = (dynValue es.entries.reverse k).or (dynValue acc k) := by
  induction es with
  | nil => intro acc ha; exact ⟨acc, 1, map_nil acc, fun k => by simp [WireEntries.entries, dynValue]⟩
  | cons e es ih =>
    intro acc ha
    have hxe := hx e List.mem_cons_self
    obtain ⟨m, f, h1, h3⟩ := ih (fun x h => hx x (List.mem_cons_of_mem _ h))
      (fun x hx => hk x (List.mem_cons_of_mem _ hx))
      (fun x hx => hv x (List.mem_cons_of_mem _ hx)) (mapAssign e.2.1 e.2.2.2 acc) (exact_assign _ _ _ hxe ha)
    obtain ⟨a, hka⟩ := hk e List.mem_cons_self
    obtain ⟨b, hvb⟩ := hv e List.mem_cons_self
    refine ⟨m, max (max a b) f + 1, ?_, fun k => ?_⟩
    · have eb : WireEntries.bytes (e :: es) = e.1 ++ (e.2.2.1 ++ WireEntries.bytes es) := by
        simp [WireEntries.bytes]
      rw [eb]
      exact map_cons hka hvb (hashable_of_exact _ hxe) h1
    · rw [h3, dynValue_assign _ _ _ hxe ha]
      have ee : WireEntries.entries (e :: es) = (e.2.1, e.2.2.2) :: WireEntries.entries es := rfl
      rw [ee, List.reverse_cons, dynValue_append]
      cases dynValue (WireEntries.entries es).reverse k with
      | some v => simp
      | none =>
        simp only [Option.none_or, dynValue]
        split <;> simp

/-- C88 for dynamic values: the same for `ReadAny`, for every kind of key but floats. -/
theorem C88_dynamic (es : WireEntries Dyn Dyn) (hl : es.length < 2^32) (hx : ∀ e ∈ es, exactKey e.2.1 = true)
    (hk : ∀ e ∈ es, ReadsAny e.1 e.2.1) (hv : ∀ e ∈ es, ReadsAny e.2.2.1 e.2.2.2) :
    ∃ m, ReadsAny (mapHead es.length ++ es.bytes) (.map m) ∧
      ∀ k, dynValue m k = dynValue es.entries.reverse k := by
  obtain ⟨m, f, h1, h3⟩ := dyn_entries_last es hx hk hv [] (by simp)
  have hn : (UInt32.ofNat es.length).toNat = es.length := UInt32.toNat_ofNat_lt hl
  refine ⟨m, ⟨f + 1, ?_⟩, fun k => by rw [h3]; simp [dynValue]⟩
  have := any_mapHead (n := UInt32.ofNat es.length) (w := es.bytes) (l := m) (b := f) (by rw [hn]; exact h1)
  rw [hn] at this
  exact this

/-- Key 1 twice on the wire. -/
example : (readMapOf readUint8 readUint8 (DR.new [0x83, 1, 10, 2, 20, 1, 30])) =
      .ok [(1, 30), (2, 20)] ⟨[0x83, 1, 10, 2, 20, 1, 30], 7, none⟩ ∧
    valueOf [((1 : UInt8), (30 : UInt8)), (2, 20)] 1 = lastValue [(1, 10), (2, 20), (1, 30)] 1 := by decide

end Verif.Props
