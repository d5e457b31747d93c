import Verif.Model.CustomSections
import Verif.Props.WasmBuffers

set_option autoImplicit false

/-
C69: reading custom sections.
-/
namespace Verif.Props

/-! ### Specification: the binary format -/

/-- The number a LEB128 string stands for: seven bits a byte, the lowest first. -/
def lebNumber : Bytes → Nat
  | [] => 0
  | b :: bs => b.toNat % 128 + 128 * lebNumber bs

/-- `bs` is a LEB128 encoding of the 32-bit number `n`, not necessarily the shortest: at most five bytes, all but the
last with the top bit set. -/
def IsLeb (n : Nat) (bs : Bytes) : Prop :=
  n < 2^32 ∧ lebNumber bs = n ∧ bs.length ≤ 5 ∧
    ∃ init last, bs = init ++ [last] ∧ (∀ b ∈ init, 128 ≤ b.toNat) ∧ last.toNat < 128

/-- A section: its parts as they are written. -/
inductive Sec where
  | custom (size nameSize name payload : Bytes)
  | other (id : UInt8) (size content : Bytes)

namespace Sec

def bytes : Sec → Bytes
  | custom size nameSize name payload => [0] ++ size ++ nameSize ++ name ++ payload
  | other id size content => [id] ++ size ++ content

/-- The sizes are right, the name is valid. -/
def SecWellFormed (valid : Bytes → Bool) : Sec → Prop
  | custom size nameSize name payload =>
    IsLeb (nameSize.length + name.length + payload.length) size ∧ IsLeb name.length nameSize ∧ valid name = true
  | other id size content => id ≠ 0 ∧ IsLeb content.length size

/-- Payload, if this is a custom section with this name. -/
def payloadOf (name : Bytes) : Sec → Option Bytes
  | custom _ _ n payload => if n = name then some payload else none
  | other _ _ _ => none

end Sec

/-- A binary with these sections: `\0asm`, version 1, the sections. -/
def wasmBinary (secs : List Sec) : Bytes :=
  [0, 0x61, 0x73, 0x6d] ++ [1, 0, 0, 0] ++ secs.flatMap Sec.bytes

/-- Payload of the last custom section with this name. -/
def lastPayload (secs : List Sec) (name : Bytes) : Option Bytes := (secs.filterMap (Sec.payloadOf name)).getLast?

/-- C69 as stated in English. -/
def C69_statement : Prop :=
  ∀ (valid : Bytes → Bool) (names : List Bytes),
    (∀ secs : List Sec, (∀ s ∈ secs, s.SecWellFormed valid) →
      ∃ m, CustomSections.read valid (wasmBinary secs) names = .ok m ∧
        ∀ name, m.lookup name = if name ∈ names then lastPayload secs name else none) ∧
    (∀ data : Bytes, data.take 8 ≠ [0, 0x61, 0x73, 0x6d, 1, 0, 0, 0] →
      ∃ e, CustomSections.read valid data names = .err e)

/-- C69 fails: a wanted section with an empty payload at the end of the file is an error. -/
theorem C69_empty_violated : ¬ C69_statement := by
  intro h
  obtain ⟨m, hm, _⟩ := (h (fun _ => true) [[0x61]]).1 [.custom [2] [1] [0x61] []] (by
    intro s hs
    rw [List.mem_singleton] at hs
    subst hs
    exact ⟨⟨by decide, by decide, by decide, [], 2, rfl, by simp, by decide⟩,
      ⟨by decide, by decide, by decide, [], 1, rfl, by simp, by decide⟩, rfl⟩)
  have : CustomSections.read (fun _ => true) (wasmBinary [.custom [2] [1] [0x61] []]) [[0x61]] = .err "EOF" := by decide
  rw [this] at hm
  cases hm

/-! ### LEB128 -/

theorem leb_sound (k : Nat) : ∀ (r : Bytes) (v n : Nat) (r' : Bytes), CustomSections.leb k r = some (v, n, r') →
    ∃ init last, r = init ++ [last] ++ r' ∧ n = init.length + 1 ∧ n ≤ k ∧ (∀ b ∈ init, 128 ≤ b.toNat) ∧
      last.toNat < 128 ∧ lebNumber (init ++ [last]) = v ∧ v < 16 * 128^(k - 1) := by
  induction k with
  | zero => intro r v n r' h; simp [CustomSections.leb] at h
  | succ k ih =>
    intro r v n r' h
    cases r with
    | nil => simp [CustomSections.leb] at h
    | cons b r =>
      unfold CustomSections.leb at h
      split at h
      · next hb =>
        split at h
        · cases h
        · next hk =>
          simp only [Option.some.injEq, Prod.mk.injEq] at h
          obtain ⟨rfl, rfl, rfl⟩ := h
          refine ⟨[], b, rfl, rfl, by omega, by simp, hb, ?_, ?_⟩
          · simp only [List.nil_append, lebNumber]
            omega
          · show b.toNat < 16 * 128 ^ k
            by_cases h0 : k = 0
            · subst h0
              omega
            · have : 128 ≤ 128 ^ k := by
                calc 128 = 128 ^ 1 := rfl
                  _ ≤ 128 ^ k := Nat.pow_le_pow_right (by omega) (by omega)
              omega
      · next hb =>
        split at h
        · next v' n' r1 hx =>
          simp only [Option.some.injEq, Prod.mk.injEq] at h
          obtain ⟨rfl, rfl, rfl⟩ := h
          obtain ⟨init, last, e1, e2, e3, e4, e5, e6, e7⟩ := ih r _ _ _ hx
          refine ⟨b :: init, last, by rw [e1]; rfl, by simp [e2], by omega, ?_, e5, ?_, ?_⟩
          · intro c hc
            rcases List.mem_cons.mp hc with rfl | hc
            · omega
            · exact e4 c hc
          · simp only [List.cons_append, lebNumber, e6]
          · show _ < 16 * 128 ^ k
            have hk : k ≠ 0 := by
              rintro rfl
              simp [CustomSections.leb] at hx
            obtain ⟨j, rfl⟩ : ∃ j, k = j + 1 := ⟨k - 1, by omega⟩
            simp only [Nat.add_sub_cancel] at e7
            rw [Nat.pow_succ]
            omega
        · cases h

theorem leb_complete (init : Bytes) (last : UInt8) (hl : last.toNat < 128) :
    ∀ (k : Nat) (r' : Bytes), init.length + 1 ≤ k → (∀ b ∈ init, 128 ≤ b.toNat) →
      lebNumber (init ++ [last]) < 16 * 128^(k - 1) →
      CustomSections.leb k (init ++ [last] ++ r') = some (lebNumber (init ++ [last]), init.length + 1, r') := by
  induction init with
  | nil =>
    intro k r' hk _ hv
    obtain ⟨j, rfl⟩ : ∃ j, k = j + 1 := ⟨k - 1, by simp at hk; omega⟩
    simp only [List.nil_append, lebNumber, Nat.add_sub_cancel] at hv
    simp only [List.nil_append, List.singleton_append, CustomSections.leb, if_pos hl, lebNumber]
    rw [if_neg]
    · simp only [List.length_nil, Option.some.injEq, Prod.mk.injEq, and_true]
      omega
    · rintro ⟨rfl, h⟩
      omega
  | cons b init ih =>
    intro k r' hk hi hv
    obtain ⟨j, rfl⟩ : ∃ j, k = j + 1 := ⟨k - 1, by omega⟩
    have hj : init.length + 1 ≤ j := by
      simp only [List.length_cons] at hk
      omega
    obtain ⟨i, rfl⟩ : ∃ i, j = i + 1 := ⟨j - 1, by omega⟩
    have hb := hi b List.mem_cons_self
    have hv' : lebNumber (init ++ [last]) < 16 * 128 ^ (i + 1 - 1) := by
      simp only [List.cons_append, lebNumber, Nat.add_sub_cancel] at hv
      rw [Nat.pow_succ] at hv
      simp only [Nat.add_sub_cancel]
      omega
    have := ih (i + 1) r' hj (fun c hc => hi c (List.mem_cons_of_mem _ hc)) hv'
    simp only [List.cons_append]
    unfold CustomSections.leb
    rw [if_neg (by omega), this]
    simp only [lebNumber, List.length_cons]

/-- The decoder accepts exactly the encodings. -/
theorem leb_iff (r : Bytes) (v n : Nat) (r' : Bytes) : CustomSections.leb 5 r = some (v, n, r') ↔
    ∃ bs, r = bs ++ r' ∧ n = bs.length ∧ IsLeb v bs := by
  constructor
  · intro h
    obtain ⟨init, last, e1, e2, e3, e4, e5, e6, e7⟩ := leb_sound 5 r v n r' h
    exact ⟨init ++ [last], e1, by simp [e2], by omega, e6, by simp; omega, init, last, rfl, e4, e5⟩
  · rintro ⟨bs, rfl, rfl, h1, h2, h3, init, last, rfl, h4, h5⟩
    subst h2
    rw [leb_complete init last h5 5 r' (by simpa using h3) h4 (by omega)]
    simp

/-! ### One section -/

theorem decodeUTF8_iff (valid : Bytes → Bool) (r name : Bytes) (q : UInt32) (r' : Bytes) :
    CustomSections.decodeUTF8 valid r = .ok (name, q, r') ↔
    ∃ enc, r = enc ++ name ++ r' ∧ IsLeb name.length enc ∧ valid name = true ∧
      q = UInt32.ofNat name.length + UInt32.ofNat enc.length := by
  constructor
  · intro h
    unfold CustomSections.decodeUTF8 at h
    cases hx : CustomSections.leb 5 r with
    | none => rw [hx] at h; cases h
    | some x =>
      obtain ⟨size, n, r1⟩ := x
      rw [hx] at h
      simp only at h
      obtain ⟨bs, rfl, rfl, hl⟩ := (leb_iff _ _ _ _).mp hx
      split at h
      · cases h
      · next hlen =>
        split at h
        · cases h
        · next hv =>
          simp only [Go.ok.injEq, Prod.mk.injEq] at h
          obtain ⟨rfl, rfl, rfl⟩ := h
          have hn : (r1.take size).length = size := by simp; omega
          refine ⟨bs, ?_, by rw [hn]; exact hl, by simpa using hv, by rw [hn]⟩
          rw [List.append_assoc, List.take_append_drop]
  · rintro ⟨enc, rfl, h1, h2, rfl⟩
    have hx := (leb_iff (enc ++ name ++ r') name.length enc.length (name ++ r')).mpr
      ⟨enc, by rw [List.append_assoc], rfl, h1⟩
    unfold CustomSections.decodeUTF8
    rw [hx]
    simp only
    rw [if_neg (by simp), if_neg (by simp [h2])]
    simp

/-- Section `s` followed by `r` is read, unless it is the wanted section with empty payload at the end. -/
def Readable (names : List Bytes) (s : Sec) (r : Bytes) : Prop :=
  match s with
  | .custom _ _ name payload => name ∈ names → payload ++ r ≠ []
  | .other _ _ _ => True

/-- Effect of a section on the result. -/
def bind1 (names : List Bytes) (s : Sec) (m : CustomSections.Sections) : CustomSections.Sections :=
  match s with
  | .custom _ _ name payload => if name ∈ names then (name, payload) :: m else m
  | .other _ _ _ => m

theorem oneSection_complete (valid : Bytes → Bool) (names : List Bytes) (m : CustomSections.Sections) (s : Sec)
    (r : Bytes) (hw : s.SecWellFormed valid) (hr : Readable names s r) :
    ∃ id t, s.bytes ++ r = id :: t ∧
      CustomSections.oneSection valid names m id t = .ok (bind1 names s m, r) := by
  cases s with
  | other id size content =>
    obtain ⟨h1, h2⟩ := hw
    refine ⟨id, size ++ content ++ r, by simp [Sec.bytes], ?_⟩
    have hx := (leb_iff (size ++ content ++ r) content.length size.length (content ++ r)).mpr
      ⟨size, by rw [List.append_assoc], rfl, h2⟩
    unfold CustomSections.oneSection
    rw [hx]
    simp [CustomSections.sectionBody, h1, CustomSections.discard, bind1]
  | custom size nameSize name payload =>
    obtain ⟨h1, h2, h3⟩ := hw
    refine ⟨0, size ++ (nameSize ++ name ++ payload ++ r), by simp [Sec.bytes], ?_⟩
    have hx := (leb_iff (size ++ (nameSize ++ name ++ payload ++ r)) _ size.length _).mpr ⟨size, rfl, rfl, h1⟩
    have hd := (decodeUTF8_iff valid (nameSize ++ name ++ payload ++ r) name _ (payload ++ r)).mpr
      ⟨nameSize, by rw [List.append_assoc], h2, h3, rfl⟩
    have hb := h1.1
    have hn1 : (UInt32.ofNat name.length + UInt32.ofNat nameSize.length).toNat = nameSize.length + name.length := by
      rw [UInt32.toNat_add, UInt32.toNat_ofNat_of_lt' (show _ < 2^32 by omega),
        UInt32.toNat_ofNat_of_lt' (show _ < 2^32 by omega)]
      omega
    have hn2 : (UInt32.ofNat (nameSize.length + name.length + payload.length)).toNat =
        nameSize.length + name.length + payload.length := UInt32.toNat_ofNat_of_lt' hb
    have hle : ¬ UInt32.ofNat (nameSize.length + name.length + payload.length) <
        UInt32.ofNat name.length + UInt32.ofNat nameSize.length := by
      rw [UInt32.lt_iff_toNat_lt, hn1, hn2]
      omega
    have hsub : (UInt32.ofNat (nameSize.length + name.length + payload.length) -
        (UInt32.ofNat name.length + UInt32.ofNat nameSize.length)).toNat = payload.length := by
      rw [UInt32.toNat_sub_of_le _ _ (UInt32.not_lt.mp hle), hn1, hn2]
      omega
    unfold CustomSections.oneSection
    rw [hx]
    simp only [CustomSections.sectionBody, if_true, CustomSections.customSection, hd, Go.bind_ok, if_neg hle, hsub]
    by_cases hm : name ∈ names
    · have hc : names.contains name = true := by simpa using hm
      rw [if_pos hc]
      have hne := hr hm
      simp only [CustomSections.decodeCustomSection, if_neg hne, Go.bind_ok]
      simp [bind1, hm]
      omega
    · have hc : ¬ names.contains name = true := by simpa using hm
      rw [if_neg hc]
      simp only [CustomSections.discard]
      simp [bind1, hm]
      omega

theorem oneSection_sound (valid : Bytes → Bool) (names : List Bytes) (m m' : CustomSections.Sections) (id : UInt8)
    (t r : Bytes) (h : CustomSections.oneSection valid names m id t = .ok (m', r)) :
    ∃ s : Sec, s.SecWellFormed valid ∧ id :: t = s.bytes ++ r ∧ Readable names s r ∧ m' = bind1 names s m := by
  unfold CustomSections.oneSection at h
  cases hx : CustomSections.leb 5 t with
  | none => rw [hx] at h; cases h
  | some x =>
    obtain ⟨size, n, r1⟩ := x
    rw [hx] at h
    simp only at h
    obtain ⟨enc, rfl, rfl, hl⟩ := (leb_iff _ _ _ _).mp hx
    obtain ⟨⟨m1, r2⟩, h1, h⟩ := bind_ok_inv h
    simp only at h
    split at h
    · cases h
    next hsize =>
    simp only [Go.ok.injEq, Prod.mk.injEq] at h
    obtain ⟨rfl, rfl⟩ := h
    have hsize : size = r1.length - r2.length := Decidable.not_not.mp hsize
    unfold CustomSections.sectionBody at h1
    split at h1
    · next hid =>
      subst hid
      unfold CustomSections.customSection at h1
      obtain ⟨⟨name, q, r3⟩, h2, h1⟩ := bind_ok_inv h1
      simp only at h1
      obtain ⟨nenc, rfl, hn, hv, rfl⟩ := (decodeUTF8_iff _ _ _ _ _).mp h2
      split at h1
      · cases h1
      next hle =>
      have hb := hl.1
      have hnb := hn.1
      have hne := hn.2.2.1
      generalize hlim : (UInt32.ofNat size - (UInt32.ofNat name.length + UInt32.ofNat nenc.length)).toNat = limit at h1
      simp only [List.length_append] at hsize
      have hq : (UInt32.ofNat name.length + UInt32.ofNat nenc.length).toNat =
          (name.length + nenc.length) % 2^32 := by
        rw [UInt32.toNat_add, UInt32.toNat_ofNat', UInt32.toNat_ofNat']
        omega
      have hs : (UInt32.ofNat size).toNat = size := UInt32.toNat_ofNat_of_lt' hb
      have hlim' : limit + (name.length + nenc.length) % 2^32 = size := by
        rw [← hlim, UInt32.toNat_sub_of_le _ _ (UInt32.not_lt.mp hle), hq, hs]
        have := UInt32.not_lt.mp hle
        rw [UInt32.le_iff_toNat_le, hq, hs] at this
        omega
      split at h1
      · next hc =>
        obtain ⟨⟨data, r4⟩, h3, h1⟩ := bind_ok_inv h1
        simp only [Go.ok.injEq, Prod.mk.injEq] at h1
        obtain ⟨rfl, rfl⟩ := h1
        unfold CustomSections.decodeCustomSection at h3
        split at h3
        · cases h3
        next hr3 =>
        simp only [Go.ok.injEq, Prod.mk.injEq] at h3
        obtain ⟨rfl, rfl⟩ := h3
        rw [List.length_drop] at hsize
        have hfit : limit ≤ r3.length := by omega
        have hm : name ∈ names := by simpa using hc
        refine ⟨.custom enc nenc name (r3.take limit), ⟨?_, hn, hv⟩, ?_, ?_, ?_⟩
        · rw [List.length_take, Nat.min_eq_left hfit]
          have : nenc.length + name.length + limit = size := by omega
          rw [this]
          exact hl
        · simp [Sec.bytes]
        · intro _
          rw [List.take_append_drop]
          exact hr3
        · simp only [bind1, if_pos hm]
          rw [show limit - r3.length = 0 by omega]
          simp
      · next hc =>
        obtain ⟨r4, h3, h1⟩ := bind_ok_inv h1
        simp only [Go.ok.injEq, Prod.mk.injEq] at h1
        obtain ⟨rfl, rfl⟩ := h1
        unfold CustomSections.discard at h3
        split at h3
        · next hfit =>
          cases h3
          rw [List.length_drop] at hsize
          have hm : ¬ name ∈ names := by simpa using hc
          refine ⟨.custom enc nenc name (r3.take limit), ⟨?_, hn, hv⟩, ?_, ?_, ?_⟩
          · rw [List.length_take, Nat.min_eq_left hfit]
            have : nenc.length + name.length + limit = size := by omega
            rw [this]
            exact hl
          · simp [Sec.bytes]
          · intro hc
            exact absurd hc hm
          · simp only [bind1, if_neg hm]
        · cases h3
    · next hid =>
      obtain ⟨r4, h3, h1⟩ := bind_ok_inv h1
      simp only [Go.ok.injEq, Prod.mk.injEq] at h1
      obtain ⟨rfl, rfl⟩ := h1
      unfold CustomSections.discard at h3
      split at h3
      · next hfit =>
        cases h3
        refine ⟨.other id enc (r1.take size), ⟨hid, ?_⟩, ?_, trivial, rfl⟩
        · rw [List.length_take, Nat.min_eq_left hfit]
          exact hl
        · simp [Sec.bytes]
      · cases h3

/-! ### All sections -/

/-- The file does not end with a wanted custom section that has an empty payload. -/
def EndOk (names : List Bytes) (secs : List Sec) : Prop :=
  ∀ size nameSize name payload, secs.getLast? = some (.custom size nameSize name payload) → name ∈ names → payload ≠ []

theorem Sec.bytes_ne (s : Sec) : s.bytes ≠ [] := by cases s <;> simp [Sec.bytes]

theorem readable_of_endOk {names : List Bytes} {s : Sec} {secs : List Sec} (h : EndOk names (s :: secs)) :
    Readable names s (secs.flatMap Sec.bytes) := by
  cases s with
  | other _ _ _ => trivial
  | custom size nameSize name payload =>
    intro hm
    cases secs with
    | nil =>
      simp only [List.flatMap_nil, List.append_nil]
      exact h size nameSize name payload rfl hm
    | cons s' secs =>
      simp only [List.flatMap_cons, ne_eq, List.append_eq_nil_iff, not_and]
      intro _ hs
      exact absurd hs (Sec.bytes_ne s')

theorem endOk_tail {names : List Bytes} {s : Sec} {secs : List Sec} (h : EndOk names (s :: secs)) : EndOk names secs := by
  intro a b c d hl
  apply h a b c d
  rw [List.getLast?_cons, hl]
  rfl

def bindAll (names : List Bytes) (m : CustomSections.Sections) : List Sec → CustomSections.Sections
  | [] => m
  | s :: secs => bindAll names (bind1 names s m) secs

theorem loop_complete (valid : Bytes → Bool) (names : List Bytes) (secs : List Sec) :
    ∀ (fuel : Nat) (m : CustomSections.Sections), (∀ s ∈ secs, s.SecWellFormed valid) → EndOk names secs →
      (secs.flatMap Sec.bytes).length ≤ fuel →
      CustomSections.loop valid names fuel m (secs.flatMap Sec.bytes) = .ok (bindAll names m secs) := by
  induction secs with
  | nil => intro fuel m _ _ _; cases fuel <;> rfl
  | cons s secs ih =>
    intro fuel m hw he hf
    obtain ⟨id, t, e1, e2⟩ := oneSection_complete valid names m s (secs.flatMap Sec.bytes)
      (hw s List.mem_cons_self) (readable_of_endOk he)
    rw [List.flatMap_cons, List.length_append] at hf
    have hpos : 0 < s.bytes.length := List.length_pos_iff.mpr (Sec.bytes_ne s)
    obtain ⟨g, rfl⟩ : ∃ g, fuel = g + 1 := ⟨fuel - 1, by omega⟩
    rw [List.flatMap_cons, e1]
    simp only [CustomSections.loop, e2, Go.bind_ok]
    exact ih g _ (fun s' hs => hw s' (List.mem_cons_of_mem _ hs)) (endOk_tail he) (by omega)

theorem loop_sound (valid : Bytes → Bool) (names : List Bytes) : ∀ (fuel : Nat) (m m' : CustomSections.Sections)
    (r : Bytes), CustomSections.loop valid names fuel m r = .ok m' →
    ∃ secs : List Sec, (∀ s ∈ secs, s.SecWellFormed valid) ∧ r = secs.flatMap Sec.bytes ∧ EndOk names secs := by
  intro fuel
  induction fuel with
  | zero =>
    intro m m' r h
    cases r with
    | nil => exact ⟨[], by simp, rfl, by simp [EndOk]⟩
    | cons id t => cases h
  | succ fuel ih =>
    intro m m' r h
    cases r with
    | nil => exact ⟨[], by simp, rfl, by simp [EndOk]⟩
    | cons id t =>
      simp only [CustomSections.loop] at h
      obtain ⟨⟨m1, r1⟩, h1, h⟩ := bind_ok_inv h
      obtain ⟨s, w, e, hr, _⟩ := oneSection_sound valid names m m1 id t r1 h1
      obtain ⟨secs, w', e', he⟩ := ih m1 m' r1 h
      refine ⟨s :: secs, ?_, by rw [e, e', List.flatMap_cons], ?_⟩
      · intro s' hs
        rcases List.mem_cons.mp hs with rfl | hs
        · exact w
        · exact w' s' hs
      · intro a b c d hl hm
        cases secs with
        | nil =>
          simp only [List.getLast?_singleton, Option.some.injEq] at hl
          subst hl
          subst e'
          simpa using hr hm
        | cons s' secs =>
          rw [List.getLast?_cons_cons] at hl
          exact he a b c d hl hm

theorem bindAll_lookup (names : List Bytes) (name : Bytes) (secs : List Sec) : ∀ m : CustomSections.Sections,
    (bindAll names m secs).lookup name =
      if name ∈ names then (lastPayload secs name).or (m.lookup name) else m.lookup name := by
  induction secs with
  | nil => intro m; simp [bindAll, lastPayload]
  | cons s secs ih =>
    intro m
    rw [bindAll, ih]
    cases s with
    | other id size content =>
      simp [bind1, lastPayload, Sec.payloadOf]
    | custom size nameSize n payload =>
      by_cases hn : n = name
      · subst hn
        by_cases hm : n ∈ names
        · simp only [bind1, hm, if_true, List.lookup_cons, beq_self_eq_true, lastPayload, List.filterMap_cons,
            Sec.payloadOf, List.getLast?_cons]
          cases (List.filterMap (Sec.payloadOf n) secs).getLast? <;> simp
        · simp [bind1, hm]
      · have hb : (name == n) = false := by
          rw [Bool.eq_false_iff]
          intro h
          exact hn (beq_iff_eq.mp h).symm
        have hl : lastPayload (.custom size nameSize n payload :: secs) name = lastPayload secs name := by
          simp [lastPayload, Sec.payloadOf, hn]
        rw [hl]
        by_cases hm : n ∈ names
        · simp [bind1, hm, List.lookup_cons, hb]
        · simp [bind1, hm]

theorem header_iff (valid : Bytes → Bool) (names : List Bytes) (data : Bytes) :
    (∀ r, data = [0, 0x61, 0x73, 0x6d] ++ [1, 0, 0, 0] ++ r →
      CustomSections.read valid data names = CustomSections.loop valid names r.length [] r) ∧
    (data.take 8 ≠ [0, 0x61, 0x73, 0x6d, 1, 0, 0, 0] → ∃ e, CustomSections.read valid data names = .err e) := by
  constructor
  · rintro r rfl
    simp [CustomSections.read, CustomSections.expect, CustomSections.magic, CustomSections.version]
  · intro h
    unfold CustomSections.read CustomSections.expect
    by_cases h1 : 4 ≤ data.length ∧ data.take 4 = CustomSections.magic
    · rw [if_pos h1]
      simp only [Go.bind_ok]
      by_cases h2 : 4 ≤ (data.drop 4).length ∧ (data.drop 4).take 4 = CustomSections.version
      · exfalso
        apply h
        rw [show (8 : Nat) = 4 + 4 from rfl, List.take_add, h1.2, h2.2]
        rfl
      · rw [if_neg h2]
        exact ⟨_, rfl⟩
    · rw [if_neg h1]
      exact ⟨_, rfl⟩

/-- C69, the part that holds: all well-formed binaries that do not end with a wanted section whose payload is empty.
Missing: those. -/
theorem C69_read_partial (valid : Bytes → Bool) (names : List Bytes) :
    (∀ secs : List Sec, (∀ s ∈ secs, s.SecWellFormed valid) → EndOk names secs →
      ∃ m, CustomSections.read valid (wasmBinary secs) names = .ok m ∧
        ∀ name, m.lookup name = if name ∈ names then lastPayload secs name else none) ∧
    (∀ data : Bytes, data.take 8 ≠ [0, 0x61, 0x73, 0x6d, 1, 0, 0, 0] →
      ∃ e, CustomSections.read valid data names = .err e) := by
  refine ⟨?_, fun data => (header_iff valid names data).2⟩
  intro secs hw he
  refine ⟨bindAll names [] secs, ?_, ?_⟩
  · rw [(header_iff valid names (wasmBinary secs)).1 _ rfl]
    exact loop_complete valid names secs _ [] hw he (Nat.le_refl _)
  · intro name
    rw [bindAll_lookup]
    simp

theorem loop_safe (valid : Bytes → Bool) (names : List Bytes) : ∀ (fuel : Nat) (m : CustomSections.Sections) (r : Bytes),
    r.length ≤ fuel → CustomSections.loop valid names fuel m r ≠ .panic := by
  intro fuel
  induction fuel with
  | zero =>
    intro m r h
    cases r with
    | nil => intro hc; cases hc
    | cons id t => simp at h
  | succ fuel ih =>
    intro m r h
    cases r with
    | nil => intro hc; cases hc
    | cons id t =>
      simp only [CustomSections.loop]
      have hp : CustomSections.oneSection valid names m id t ≠ .panic := by
        unfold CustomSections.oneSection
        cases CustomSections.leb 5 t with
        | none => intro hc; cases hc
        | some x =>
          obtain ⟨size, n, r1⟩ := x
          simp only
          have hb : CustomSections.sectionBody valid names m id size r1 ≠ .panic := by
            unfold CustomSections.sectionBody
            split
            · unfold CustomSections.customSection
              have hd : CustomSections.decodeUTF8 valid r1 ≠ .panic := by
                unfold CustomSections.decodeUTF8
                cases CustomSections.leb 5 r1 with
                | none => intro hc; cases hc
                | some x =>
                  simp only
                  split
                  · intro hc; cases hc
                  · split <;> intro hc <;> cases hc
              cases hx : CustomSections.decodeUTF8 valid r1 with
              | panic => exact absurd hx hd
              | err e => intro hc; cases hc
              | ok y =>
                simp only [Go.bind_ok]
                split
                · intro hc; cases hc
                · split
                  · unfold CustomSections.decodeCustomSection
                    split <;> intro hc <;> cases hc
                  · unfold CustomSections.discard
                    split <;> intro hc <;> cases hc
            · unfold CustomSections.discard
              split <;> intro hc <;> cases hc
          cases hx : CustomSections.sectionBody valid names m id size r1 with
          | panic => exact absurd hx hb
          | err e => intro hc; cases hc
          | ok y =>
            simp only [Go.bind_ok]
            split <;> intro hc <;> cases hc
      cases hx : CustomSections.oneSection valid names m id t with
      | panic => exact absurd hx hp
      | err e => intro hc; cases hc
      | ok y =>
        obtain ⟨m1, r1⟩ := y
        simp only [Go.bind_ok]
        apply ih
        obtain ⟨s, _, e, _, _⟩ := oneSection_sound valid names m m1 id t r1 hx
        have hl := congrArg List.length e
        have hpos : 0 < s.bytes.length := List.length_pos_iff.mpr (Sec.bytes_ne s)
        simp only [List.length_cons, List.length_append] at hl h
        omega

/-- C69, beyond the English: only well-formed binaries are accepted, and no input crashes the reader. -/
theorem C69_rejects (valid : Bytes → Bool) (names : List Bytes) (data : Bytes) :
    CustomSections.read valid data names ≠ .panic ∧
    ∀ m, CustomSections.read valid data names = .ok m →
      ∃ secs : List Sec, data = wasmBinary secs ∧ ∀ s ∈ secs, s.SecWellFormed valid := by
  by_cases h : data.take 8 = [0, 0x61, 0x73, 0x6d, 1, 0, 0, 0]
  · have hd : data = [0, 0x61, 0x73, 0x6d] ++ [1, 0, 0, 0] ++ data.drop 8 := by
      rw [show ([0, 0x61, 0x73, 0x6d] ++ [1, 0, 0, 0] : Bytes) = data.take 8 from h.symm, List.take_append_drop]
    have hr := (header_iff valid names data).1 _ hd
    rw [hr]
    refine ⟨loop_safe _ _ _ _ _ (Nat.le_refl _), ?_⟩
    intro m hm
    obtain ⟨secs, w, e, _⟩ := loop_sound _ _ _ _ _ _ hm
    exact ⟨secs, by rw [hd, e]; rfl, w⟩
  · obtain ⟨e, he⟩ := (header_iff valid names data).2 h
    rw [he]
    exact ⟨(by intro hc; cases hc), (by intro m hm; cases hm)⟩

/-- Two sections named `a`, with a non-shortest size, and another section between them. -/
def sampleSecs : List Sec := [.custom [0x83, 0] [1] [0x61] [7], .other 1 [2] [8, 9], .custom [4] [1] [0x61] [5, 6]]

example : CustomSections.read (fun _ => true) (wasmBinary sampleSecs) [[0x61], [0x62]] =
    .ok [([0x61], [5, 6]), ([0x61], [7])] ∧ lastPayload sampleSecs [0x61] = some [5, 6] := by decide

example : (∀ s ∈ sampleSecs, s.SecWellFormed (fun _ => true)) ∧ EndOk [[0x61]] sampleSecs := by
  constructor
  · intro s hs
    simp only [sampleSecs, List.mem_cons, List.not_mem_nil, or_false] at hs
    rcases hs with rfl | rfl | rfl
    · exact ⟨⟨by decide, by decide, by decide, [0x83], 0, rfl, by decide, by decide⟩,
        ⟨by decide, by decide, by decide, [], 1, rfl, by simp, by decide⟩, rfl⟩
    · exact ⟨by decide, ⟨by decide, by decide, by decide, [], 2, rfl, by simp, by decide⟩⟩
    · exact ⟨⟨by decide, by decide, by decide, [], 4, rfl, by simp, by decide⟩,
        ⟨by decide, by decide, by decide, [], 1, rfl, by simp, by decide⟩, rfl⟩
  · intro a b c d h _
    simp only [sampleSecs, List.getLast?_cons_cons, List.getLast?_singleton, Option.some.injEq, Sec.custom.injEq] at h
    obtain ⟨_, _, _, rfl⟩ := h
    simp

end Verif.Props
