import Verif.Props.MsgpackSkip
/-
Property C44: dynamically typed values.
-/
set_option autoImplicit false
namespace Verif.Props
open Verif Spec Msgpack

/-- `ReadAny` on the bytes `w` finishes, returns `d` and moves exactly behind them, whatever
surrounds them. `f0` is a sufficient recursion depth. -/
def ReadsAnyWith (w : Bytes) (d : Dyn) (f0 : Nat) : Prop :=
  ∀ f, f0 ≤ f → ∀ pre rest : Bytes, (pre ++ w ++ rest).length < 2^32 →
    readAny f (at_ pre (w ++ rest)) = some (.ok d (at_ (pre ++ w) rest))

def ReadsAny (w : Bytes) (d : Dyn) : Prop := ∃ f0, ReadsAnyWith w d f0

/-- C44 in full: every dynamically typed value made of nil, booleans, integers, floats, strings, byte
arrays, lists and maps is read back as an equal value (as list of map entries in the order written). -/
def C44_statement : Prop :=
  ∀ (d : Dyn) (v : Val) (w : Bytes), Val.ofDyn d = some v → v.all Val.notTime → legal d →
    w.length < 2^32 → Writes (writeAny d) w →
    ∃ d' v', ReadsAny w d' ∧ Val.ofDyn d' = some v' ∧ v'.num = v.num

/-! ## Reading -/

theorem any_scalar {p : UInt8} {r : Rd Dyn} {w : Bytes} {d : Dyn} (h : readAnyScalar p = some r)
    (hr : Reads r w d) : ReadsAnyWith (p :: w) d 1 := by
  intro f hf pre rest hl
  obtain ⟨f, rfl⟩ : ∃ g, f = g + 1 := ⟨f - 1, by omega⟩
  have h1 := getUint8_reads p pre (w ++ rest) (by simpa using hl)
  have h2 := hr (pre ++ [p]) rest (by simpa using hl)
  simp only [readAny]
  rw [show p :: w ++ rest = [p] ++ (w ++ rest) from rfl, h1]
  simp only [h]
  rw [h2]
  simp

/-- The elements of an array. -/
def ReadsArr (n : Nat) (w : Bytes) (l : List Dyn) (f0 : Nat) : Prop :=
  ∀ f, f0 ≤ f → ∀ pre rest : Bytes, (pre ++ w ++ rest).length < 2^32 →
    readArray f n (at_ pre (w ++ rest)) = some (.ok l (at_ (pre ++ w) rest))

/-- The entries of a map, with those read so far. -/
def ReadsMap (n : Nat) (acc : List (Dyn × Dyn)) (w : Bytes) (l : List (Dyn × Dyn)) (f0 : Nat) : Prop :=
  ∀ f, f0 ≤ f → ∀ pre rest : Bytes, (pre ++ w ++ rest).length < 2^32 →
    readMap f n acc (at_ pre (w ++ rest)) = some (.ok l (at_ (pre ++ w) rest))

theorem arr_nil : ReadsArr 0 [] [] 1 := by
  intro f hf pre rest _
  obtain ⟨f, rfl⟩ : ∃ g, f = g + 1 := ⟨f - 1, by omega⟩
  simp [readArray]

theorem arr_cons {w w' : Bytes} {d : Dyn} {l : List Dyn} {n a b : Nat} (h : ReadsAnyWith w d a)
    (h' : ReadsArr n w' l b) : ReadsArr (n + 1) (w ++ w') (d :: l) (max a b + 1) := by
  intro f hf pre rest hl
  obtain ⟨f, rfl⟩ : ∃ g, f = g + 1 := ⟨f - 1, by omega⟩
  have h1 := h f (by omega) pre (w' ++ rest) (by simpa [Nat.add_assoc] using hl)
  have h2 := h' f (by omega) (pre ++ w) rest (by simpa [Nat.add_assoc] using hl)
  simp only [readArray]
  rw [List.append_assoc, h1]
  simp only
  rw [h2, List.append_assoc]

theorem map_nil (acc : List (Dyn × Dyn)) : ReadsMap 0 acc [] acc 1 := by
  intro f hf pre rest _
  obtain ⟨f, rfl⟩ : ∃ g, f = g + 1 := ⟨f - 1, by omega⟩
  simp [readMap]

theorem map_cons {wk wv w' : Bytes} {k v : Dyn} {acc l : List (Dyn × Dyn)} {n a b c : Nat}
    (hk : ReadsAnyWith wk k a) (hv : ReadsAnyWith wv v b) (hh : k.hashable = true)
    (h' : ReadsMap n (mapAssign k v acc) w' l c) :
    ReadsMap (n + 1) acc (wk ++ (wv ++ w')) l (max (max a b) c + 1) := by
  intro f hf pre rest hl
  obtain ⟨f, rfl⟩ : ∃ g, f = g + 1 := ⟨f - 1, by omega⟩
  have h1 := hk f (by omega) pre (wv ++ (w' ++ rest)) (by simpa [Nat.add_assoc] using hl)
  have h2 := hv f (by omega) (pre ++ wk) (w' ++ rest) (by simpa [Nat.add_assoc] using hl)
  have h3 := h' f (by omega) (pre ++ wk ++ wv) rest (by simpa [Nat.add_assoc] using hl)
  simp only [readMap]
  rw [List.append_assoc, List.append_assoc, h1]
  simp only
  rw [h2]
  simp only [hh, if_true]
  rw [h3]
  simp [List.append_assoc]

theorem any_arr {p : UInt8} {w w' : Bytes} {n : UInt32} {l : List Dyn} {b : Nat}
    (h : readAnyScalar p = none) (hr : Reads (readAnyHeader p) w (false, n))
    (h' : ReadsArr n.toNat w' l b) : ReadsAnyWith (p :: w ++ w') (.arr l) (b + 1) := by
  intro f hf pre rest hl
  obtain ⟨f, rfl⟩ : ∃ g, f = g + 1 := ⟨f - 1, by omega⟩
  have h1 := getUint8_reads p pre (w ++ (w' ++ rest)) (by simpa [Nat.add_assoc] using hl)
  have h2 := hr (pre ++ [p]) (w' ++ rest) (by simpa [Nat.add_assoc] using hl)
  have h3 := h' f (by omega) (pre ++ [p] ++ w) rest (by simpa [Nat.add_assoc] using hl)
  simp only [readAny]
  rw [show p :: w ++ w' ++ rest = [p] ++ (w ++ (w' ++ rest)) from by simp, h1]
  simp only [h]
  rw [h2]
  simp only
  rw [h3]
  simp

theorem any_map {p : UInt8} {w w' : Bytes} {n : UInt32} {l : List (Dyn × Dyn)} {b : Nat}
    (h : readAnyScalar p = none) (hr : Reads (readAnyHeader p) w (true, n))
    (h' : ReadsMap n.toNat [] w' l b) : ReadsAnyWith (p :: w ++ w') (.map l) (b + 1) := by
  intro f hf pre rest hl
  obtain ⟨f, rfl⟩ : ∃ g, f = g + 1 := ⟨f - 1, by omega⟩
  have h1 := getUint8_reads p pre (w ++ (w' ++ rest)) (by simpa [Nat.add_assoc] using hl)
  have h2 := hr (pre ++ [p]) (w' ++ rest) (by simpa [Nat.add_assoc] using hl)
  have h3 := h' f (by omega) (pre ++ [p] ++ w) rest (by simpa [Nat.add_assoc] using hl)
  simp only [readAny]
  rw [show p :: w ++ w' ++ rest = [p] ++ (w ++ (w' ++ rest)) from by simp, h1]
  simp only [h]
  rw [h2]
  simp only
  rw [h3]
  simp

/-- `ReadAny` returns a value that stands for `v`, up to the family of numbers. -/
def ReadsVal (w : Bytes) (v : Val) : Prop :=
  ∃ d' v', ReadsAny w d' ∧ Val.ofDyn d' = some v' ∧ v'.num = v.num

theorem readsVal_scalar {p : UInt8} {r : Rd Dyn} {w : Bytes} {d : Dyn} {v v' : Val}
    (h : readAnyScalar p = some r) (hr : Reads r w d) (hv : Val.ofDyn d = some v')
    (hn : v'.num = v.num) : ReadsVal (p :: w) v :=
  ⟨d, v', ⟨1, any_scalar h hr⟩, hv, hn⟩

theorem i8_ofInt {v : Int} (h1 : -2^7 ≤ v) (h2 : v < 2^7) : (Int8.ofInt v).toInt = v := by
  rw [Int8.toInt_ofInt, bmod_of_range] <;> simp only [Int8.size] <;> omega
theorem i16_ofInt {v : Int} (h1 : -2^15 ≤ v) (h2 : v < 2^15) : (Int16.ofInt v).toInt = v := by
  rw [Int16.toInt_ofInt, bmod_of_range] <;> simp only [Int16.size] <;> omega
theorem i32_ofInt {v : Int} (h1 : -2^31 ≤ v) (h2 : v < 2^31) : (Int32.ofInt v).toInt = v := by
  rw [Int32.toInt_ofInt, bmod_of_range] <;> simp only [Int32.size] <;> omega
theorem i64_ofInt {v : Int} (h1 : -2^63 ≤ v) (h2 : v < 2^63) : (Int64.ofInt v).toInt = v := by
  rw [Int64.toInt_ofInt, bmod_of_range] <;> simp only [Int64.size] <;> omega

theorem num_scalar {v : Val} {x : Int} (h : v = .int x) : v.num = (Val.int x).num := by rw [h]

theorem readsVal_int (v : Int) (h1 : -2^63 ≤ v) (h2 : v < 2^63) : ReadsVal (sint v) (.int v) := by
  unfold sint
  split
  · have hn : (UInt8.ofNat v.toNat).toNat = v.toNat := UInt8.toNat_ofNat_lt (by omega)
    refine readsVal_scalar (r := Rd.pure (.int64 (UInt8.ofNat v.toNat).toInt8.toInt64)) ?_
      (Reads.pure _) rfl (num_scalar ?_)
    · unfold readAnyScalar
      rw [if_pos (by rw [isFixedInt_iff, hn]; simp; omega)]
    · rw [Int8.toInt_toInt64, i8_toInt]
      simp only [UInt8.toUInt8_toInt8]
      rw [hn, if_pos (by omega)]
      congr 1
      omega
  split
  · have hn : (UInt8.ofNat (256 + v).toNat).toNat = (256 + v).toNat :=
      UInt8.toNat_ofNat_lt (by omega)
    refine readsVal_scalar (r := Rd.pure (.int64 (UInt8.ofNat (256 + v).toNat).toInt8.toInt64)) ?_
      (Reads.pure _) rfl (num_scalar ?_)
    · unfold readAnyScalar
      rw [if_pos (by rw [isNegativeFixedInt_iff, hn]; simp; omega)]
    · rw [Int8.toInt_toInt64, i8_toInt]
      simp only [UInt8.toUInt8_toInt8]
      rw [hn, if_neg (by omega)]
      congr 1
      omega
  split
  · rename_i h
    have e := i8_ofInt h.1 h.2
    have := Reads.map (g := Dyn.int8) (getInt8_reads (Int8.ofInt v))
    rw [be8_eq, u8_of_i8, e] at this
    exact readsVal_scalar rfl this rfl (num_scalar (by rw [e]))
  split
  · rename_i h
    have e := i16_ofInt h.1 h.2
    have := Reads.map (g := Dyn.int16) (getInt16_reads (Int16.ofInt v))
    rw [Spec.be16_eq, u16_of_i16, e] at this
    exact readsVal_scalar rfl this rfl (num_scalar (by rw [e]))
  split
  · rename_i h
    have e := i32_ofInt h.1 h.2
    have := Reads.map (g := Dyn.int32) (getInt32_reads (Int32.ofInt v))
    rw [Spec.be32_eq, u32_of_i32, e] at this
    exact readsVal_scalar rfl this rfl (num_scalar (by rw [e]))
  · have e := i64_ofInt h1 h2
    have := Reads.map (g := Dyn.int64) (getInt64_reads (Int64.ofInt v))
    rw [Spec.be64_eq, u64_of_i64, e] at this
    exact readsVal_scalar rfl this rfl (num_scalar (by rw [e]))

theorem readsVal_nat (n : Nat) (h : n < 2^64) : ReadsVal (uint n) (.nat n) := by
  unfold uint
  split
  · have hn : (UInt8.ofNat n).toNat = n := UInt8.toNat_ofNat_lt (by omega)
    refine readsVal_scalar (r := Rd.pure (.int64 (UInt8.ofNat n).toInt8.toInt64)) ?_
      (Reads.pure _) rfl (num_scalar ?_)
    · unfold readAnyScalar
      rw [if_pos (by rw [isFixedInt_iff, hn]; simp; omega)]
    · rw [Int8.toInt_toInt64, i8_toInt]
      simp only [UInt8.toUInt8_toInt8]
      rw [hn, if_pos (by omega)]
  split
  · rename_i h
    have e : (UInt8.ofNat n).toNat = n := UInt8.toNat_ofNat_lt h
    have := Reads.map (g := Dyn.uint8) (getUint8_reads (UInt8.ofNat n))
    rw [be8_eq, e] at this
    exact readsVal_scalar rfl this rfl (by rw [e])
  split
  · rename_i h
    have e : (UInt16.ofNat n).toNat = n := UInt16.toNat_ofNat_lt h
    have := Reads.map (g := Dyn.uint16) (getUint16_reads (UInt16.ofNat n))
    rw [Spec.be16_eq, e] at this
    exact readsVal_scalar rfl this rfl (by rw [e])
  split
  · rename_i h
    have e : (UInt32.ofNat n).toNat = n := UInt32.toNat_ofNat_lt h
    have := Reads.map (g := Dyn.uint32) (getUint32_reads (UInt32.ofNat n))
    rw [Spec.be32_eq, e] at this
    exact readsVal_scalar rfl this rfl (by rw [e])
  · have e : (UInt64.ofNat n).toNat = n := UInt64.toNat_ofNat_of_lt' h
    have := Reads.map (g := Dyn.uint64) (getUint64_reads (UInt64.ofNat n))
    rw [Spec.be64_eq, e] at this
    exact readsVal_scalar rfl this rfl (by rw [e])

theorem readsVal_float32 (n : Nat) (h : n < 2^32) : ReadsVal (float32 n) (.float32 n) := by
  have e : (UInt32.ofNat n).toNat = n := UInt32.toNat_ofNat_lt h
  have := Reads.map (g := Dyn.float32) (getUint32_reads (UInt32.ofNat n))
  rw [Spec.be32_eq, e] at this
  exact readsVal_scalar rfl this rfl (by rw [e])

theorem readsVal_float64 (n : Nat) (h : n < 2^64) : ReadsVal (float64 n) (.float64 n) := by
  have e : (UInt64.ofNat n).toNat = n := UInt64.toNat_ofNat_of_lt' h
  have := Reads.map (g := Dyn.float64) (getUint64_reads (UInt64.ofNat n))
  rw [Spec.be64_eq, e] at this
  exact readsVal_scalar rfl this rfl (by rw [e])

theorem readsVal_bool (b : Bool) : ReadsVal (bool b) (.bool b) := by
  cases b
  · exact readsVal_scalar (d := .bool false) rfl (Reads.pure _) rfl rfl
  · exact readsVal_scalar (d := .bool true) rfl (Reads.pure _) rfl rfl

theorem readsVal_nil : ReadsVal nil .nil :=
  readsVal_scalar (d := .nil) rfl (Reads.pure _) rfl rfl

theorem bytes8 {s : Bytes} (g : Bytes → Dyn) (h : s.length < 2^8) :
    Reads (getUint8 >>= fun n => getBytes n.toUInt32 >>= fun s => Rd.pure (g s))
      (bigEndian 1 s.length ++ s) (g s) := by
  have hn : (UInt8.ofNat s.length).toNat = s.length := UInt8.toNat_ofNat_lt h
  rw [← hn, ← be8_eq]
  exact (getUint8_reads _).bind (Reads.map (g := g) (getBytes_reads _ s (by rw [UInt8.toNat_toUInt32, hn])))

theorem bytes16 {s : Bytes} (g : Bytes → Dyn) (h : s.length < 2^16) :
    Reads (getUint16 >>= fun n => getBytes n.toUInt32 >>= fun s => Rd.pure (g s))
      (bigEndian 2 s.length ++ s) (g s) := by
  have hn : (UInt16.ofNat s.length).toNat = s.length := UInt16.toNat_ofNat_lt h
  rw [← hn, ← Spec.be16_eq]
  exact (getUint16_reads _).bind (Reads.map (g := g) (getBytes_reads _ s (by rw [UInt16.toNat_toUInt32, hn])))

theorem bytes32 {s : Bytes} (g : Bytes → Dyn) (h : s.length < 2^32) :
    Reads (getUint32 >>= fun n => getBytes n >>= fun s => Rd.pure (g s))
      (bigEndian 4 s.length ++ s) (g s) := by
  have hn : (UInt32.ofNat s.length).toNat = s.length := UInt32.toNat_ofNat_lt h
  rw [← hn, ← Spec.be32_eq]
  exact (getUint32_reads _).bind (Reads.map (g := g) (getBytes_reads _ s hn))

theorem readsVal_str (s : Bytes) (h : s.length < 2^32) : ReadsVal (str s) (.str s) := by
  unfold str strHead
  split
  · have hn : (UInt8.ofNat (0xa0 + s.length)).toNat = 0xa0 + s.length :=
      UInt8.toNat_ofNat_lt (by omega)
    have ha := and_1f _ (show 0xa0 ≤ (UInt8.ofNat (0xa0 + s.length)).toNat ∧
      (UInt8.ofNat (0xa0 + s.length)).toNat < 0xc0 by omega)
    refine readsVal_scalar (d := .str s) ?_ (Reads.map (g := Dyn.str) (getBytes_reads
      (UInt8.ofNat (0xa0 + s.length) &&& 0x1f).toUInt32 s (by omega))) rfl rfl
    unfold readAnyScalar
    rw [if_neg (by rw [isFixedInt_iff, isNegativeFixedInt_iff, hn]; simp; omega),
      if_pos (by rw [isFixedString_iff, hn]; simp; omega)]
  split
  · exact readsVal_scalar rfl (bytes8 .str (by assumption)) rfl rfl
  split
  · exact readsVal_scalar rfl (bytes16 .str (by assumption)) rfl rfl
  · exact readsVal_scalar rfl (bytes32 .str h) rfl rfl

theorem readsVal_bin (s : Bytes) (h : s.length < 2^32) : ReadsVal (bin s) (.bin s) := by
  unfold bin binHead
  split
  · exact readsVal_scalar rfl (bytes8 .bytes (by assumption)) rfl rfl
  split
  · exact readsVal_scalar rfl (bytes16 .bytes (by assumption)) rfl rfl
  · exact readsVal_scalar rfl (bytes32 .bytes h) rfl rfl

theorem any_arrHead {n : UInt32} {w : Bytes} {l : List Dyn} {b : Nat} (h : ReadsArr n.toNat w l b) :
    ReadsAnyWith (arrHead n.toNat ++ w) (.arr l) (b + 1) := by
  unfold arrHead
  split
  · have hn : (UInt8.ofNat (0x90 + n.toNat)).toNat = 0x90 + n.toNat :=
      UInt8.toNat_ofNat_lt (by omega)
    have ha := and_0f_arr _ (show 0x90 ≤ (UInt8.ofNat (0x90 + n.toNat)).toNat ∧
      (UInt8.ofNat (0x90 + n.toNat)).toNat < 0xa0 by omega)
    refine any_arr (w := []) (n := n) ?_ ?_ h
    · unfold readAnyScalar
      rw [if_neg (by rw [isFixedInt_iff, isNegativeFixedInt_iff, hn]; simp; omega),
        if_neg (by rw [isFixedString_iff, hn]; simp; omega),
        if_pos (by rw [isFixedArray_iff, hn]; simp; omega)]
    · unfold readAnyHeader
      rw [if_pos (by rw [isFixedArray_iff, hn]; simp; omega),
        show ((UInt8.ofNat (0x90 + n.toNat)) &&& 0x0f).toUInt32 = n from u32_ext (by omega)]
      exact Reads.pure _
  split
  · rename_i hn
    refine any_arr (n := n) rfl ?_ h
    have := Reads.map (g := fun v : UInt16 => (false, v.toUInt32)) (getUint16_reads n.toUInt16)
    rw [Spec.be16_eq, ← u16_of_u32 hn] at this
    rwa [u32_of_u16_of_u32 hn] at this
  · refine any_arr (n := n) rfl ?_ h
    exact Spec.be32_eq n ▸ Reads.map (g := fun v : UInt32 => (false, v)) (getUint32_reads n)

theorem any_mapHead {n : UInt32} {w : Bytes} {l : List (Dyn × Dyn)} {b : Nat}
    (h : ReadsMap n.toNat [] w l b) : ReadsAnyWith (mapHead n.toNat ++ w) (.map l) (b + 1) := by
  unfold mapHead
  split
  · have hn : (UInt8.ofNat (0x80 + n.toNat)).toNat = 0x80 + n.toNat :=
      UInt8.toNat_ofNat_lt (by omega)
    have ha := and_0f_map _ (show 0x80 ≤ (UInt8.ofNat (0x80 + n.toNat)).toNat ∧
      (UInt8.ofNat (0x80 + n.toNat)).toNat < 0x90 by omega)
    refine any_map (w := []) (n := n) ?_ ?_ h
    · unfold readAnyScalar
      rw [if_neg (by rw [isFixedInt_iff, isNegativeFixedInt_iff, hn]; simp; omega),
        if_neg (by rw [isFixedString_iff, hn]; simp; omega),
        if_neg (by rw [isFixedArray_iff, hn]; simp; omega),
        if_pos (by rw [isFixedMap_iff, hn]; simp; omega)]
    · unfold readAnyHeader
      rw [if_neg (by rw [isFixedArray_iff, hn]; simp; omega),
        if_pos (by rw [isFixedMap_iff, hn]; simp; omega),
        show ((UInt8.ofNat (0x80 + n.toNat)) &&& 0x0f).toUInt32 = n from u32_ext (by omega)]
      exact Reads.pure _
  split
  · rename_i hn
    refine any_map (n := n) rfl ?_ h
    have := Reads.map (g := fun v : UInt16 => (true, v.toUInt32)) (getUint16_reads n.toUInt16)
    rw [Spec.be16_eq, ← u16_of_u32 hn] at this
    rwa [u32_of_u16_of_u32 hn] at this
  · refine any_map (n := n) rfl ?_ h
    exact Spec.be32_eq n ▸ Reads.map (g := fun v : UInt32 => (true, v)) (getUint32_reads n)

/-! ## Keys -/

/-- `d` stands for `v`, up to the family of numbers. -/
def Rep (d : Dyn) (v : Val) : Prop := ∃ v', Val.ofDyn d = some v' ∧ v'.num = v.num

theorem rep_hashable {d : Dyn} {v : Val} (h : Rep d v) (hs : v.scalar) : d.hashable = true := by
  obtain ⟨v', h1, h2⟩ := h
  cases d <;> try rfl
  case bytes s => cases h1; cases v <;> first | exact hs.elim | cases h2
  case arr l =>
    simp only [Val.ofDyn, Option.map_eq_some_iff] at h1
    obtain ⟨vs, _, rfl⟩ := h1
    cases v <;> first | exact hs.elim | cases h2
  case map l =>
    simp only [Val.ofDyn, Option.map_eq_some_iff] at h1
    obtain ⟨vs, _, rfl⟩ := h1
    cases v <;> first | exact hs.elim | cases h2
  case times l => cases h1

theorem rep_keyEq {a b : Dyn} {v w : Val} (ha : Rep a v) (hb : Rep b w) (hs : v.scalar)
    (h : a.keyEq b = true) : v.sameKey w = true := by
  obtain ⟨v', a1, a2⟩ := ha
  obtain ⟨w', b1, b2⟩ := hb
  unfold Val.sameKey
  rw [← a2, ← b2]
  cases a <;> cases b <;> simp only [Dyn.keyEq, Bool.false_eq_true, beq_iff_eq] at h <;> cases a1 <;>
    cases b1 <;> simp only [Val.num]
  case nil.nil => cases v <;> first | exact hs.elim | cases a2
  case float32.float32 x y => simpa using h
  case float64.float64 x y => simpa using h
  all_goals simp [h]

theorem mapAssign_new {k v : Dyn} {acc : List (Dyn × Dyn)} (h : ∀ e ∈ acc, e.1.keyEq k = false) :
    mapAssign k v acc = acc ++ [(k, v)] := by
  induction acc with
  | nil => rfl
  | cons e acc ih =>
    obtain ⟨k', v'⟩ := e
    simp only [mapAssign]
    rw [if_neg (by rw [h (k', v') List.mem_cons_self]; decide), ih fun e he => h e (by simp [he])]
    rfl

mutual
theorem readsVal_val (v : Val) (hv : v.valid) (hr : v.all (fun v => v.notTime ∧ v.keysApart))
    (hl : v.enc.length < 2^32) : ReadsVal v.enc v := by
  match v with
  | .nil => exact readsVal_nil
  | .bool b => exact readsVal_bool b
  | .int v => exact readsVal_int v hv.1 hv.2
  | .nat n => exact readsVal_nat n hv
  | .float32 b => exact readsVal_float32 b hv
  | .float64 b => exact readsVal_float64 b hv
  | .str s =>
    simp only [Val.enc, str, List.length_append] at hl
    exact readsVal_str s (by omega)
  | .bin s =>
    simp only [Val.enc, bin, List.length_append] at hl
    exact readsVal_bin s (by omega)
  | .time s n => exact hr.1.elim
  | .arr l =>
    simp only [Val.enc, List.length_append] at hl
    have hll := encList_length l
    obtain ⟨b, ds, vs, h1, h2, h3⟩ := readsVal_list l hv hr.2 (by omega)
    have hn : (UInt32.ofNat l.length).toNat = l.length := UInt32.toNat_ofNat_lt (by omega)
    rw [← hn] at h1
    have := any_arrHead h1
    rw [hn] at this
    exact ⟨.arr ds, .arr vs, ⟨_, this⟩, by simp [Val.ofDyn, h2], by simp [Val.num, h3]⟩
  | .map m =>
    simp only [Val.enc, List.length_append] at hl
    have hll := encPairs_length m
    obtain ⟨b, ds, vs, h1, h2, h3⟩ := readsVal_pairs m hv hr.2 hr.1.2.1 hr.1.2.2 (by omega) []
      (fun e he => by cases he)
    have hn : (UInt32.ofNat m.length).toNat = m.length := UInt32.toNat_ofNat_lt (by omega)
    rw [← hn, List.nil_append] at h1
    have := any_mapHead h1
    rw [hn] at this
    exact ⟨.map ds, .map vs, ⟨_, this⟩, by simp [Val.ofDyn, h2], by simp [Val.num, h3]⟩

theorem readsVal_list (l : List Val) (hv : validList l)
    (hr : allList (fun v => v.notTime ∧ v.keysApart) l) (hl : (encList l).length < 2^32) :
    ∃ b ds vs, ReadsArr l.length (encList l) ds b ∧ listOfDyn ds = some vs ∧
      numList vs = numList l := by
  match l with
  | [] => exact ⟨1, [], [], arr_nil, rfl, rfl⟩
  | v :: l =>
    simp only [encList, List.length_append] at hl
    obtain ⟨d, v', ⟨a, h1⟩, h2, h3⟩ := readsVal_val v hv.1 hr.1 (by omega)
    obtain ⟨b, ds, vs, g1, g2, g3⟩ := readsVal_list l hv.2 hr.2 (by omega)
    exact ⟨_, d :: ds, v' :: vs, arr_cons h1 g1, by simp [listOfDyn, h2, g2], by simp [numList, h3, g3]⟩

theorem readsVal_pairs (m : List (Val × Val)) (hv : validPairs m)
    (hr : allPairs (fun v => v.notTime ∧ v.keysApart) m) (hsc : ∀ e ∈ m, e.1.scalar)
    (hap : m.Pairwise (fun a b => a.1.sameKey b.1 = false)) (hl : (encPairs m).length < 2^32)
    (acc : List (Dyn × Dyn))
    (hacc : ∀ e ∈ acc, ∀ f ∈ m, ∀ k, Rep k f.1 → e.1.keyEq k = false) :
    ∃ b ds vs, ReadsMap m.length acc (encPairs m) (acc ++ ds) b ∧ pairsOfDyn ds = some vs ∧
      numPairs vs = numPairs m := by
  match m with
  | [] => exact ⟨1, [], [], by simpa [encPairs] using map_nil acc, rfl, rfl⟩
  | (k, v) :: m =>
    simp only [encPairs, List.length_append] at hl
    obtain ⟨dk, vk, ⟨a, h1⟩, h2, h3⟩ := readsVal_val k hv.1 hr.1 (by omega)
    obtain ⟨d, v', ⟨a', k1⟩, k2, k3⟩ := readsVal_val v hv.2.1 hr.2.1 (by omega)
    have rk : Rep dk k := ⟨vk, h2, h3⟩
    have ks : k.scalar := hsc (k, v) List.mem_cons_self
    rw [List.pairwise_cons] at hap
    have hassign : mapAssign dk d acc = acc ++ [(dk, d)] :=
      mapAssign_new fun e he => hacc e he (k, v) List.mem_cons_self dk rk
    obtain ⟨b, ds, vs, g1, g2, g3⟩ := readsVal_pairs m hv.2.2 hr.2.2
      (fun e he => hsc e (by simp [he])) hap.2 (by omega) (acc ++ [(dk, d)]) (by
        intro e he f hf k' hk'
        rw [List.mem_append, List.mem_singleton] at he
        rcases he with he | rfl
        · exact hacc e he f (by simp [hf]) k' hk'
        · have h := hap.1 f hf
          cases hq : dk.keyEq k' with
          | false => rfl
          | true =>
            have := rep_keyEq rk hk' ks hq
            rw [this] at h
            cases h)
    rw [← hassign] at g1
    have := map_cons h1 k1 (rep_hashable rk ks) g1
    rw [hassign, List.append_assoc] at this
    exact ⟨_, (dk, d) :: ds, (vk, v') :: vs, this, by simp [pairsOfDyn, h2, k2, g2],
      by simp [numPairs, h3, k3, g3]⟩
end

mutual
theorem readable_of (v : Val) (h : v.solid) (hk : v.all Val.keysApart) :
    v.all (fun v => v.notTime ∧ v.keysApart) := by
  match v with
  | .nil => exact ⟨trivial, trivial⟩
  | .bool _ => exact ⟨trivial, trivial⟩
  | .int _ => exact ⟨trivial, trivial⟩
  | .nat _ => exact ⟨trivial, trivial⟩
  | .float32 _ => exact ⟨trivial, trivial⟩
  | .float64 _ => exact ⟨trivial, trivial⟩
  | .str _ => exact ⟨trivial, trivial⟩
  | .bin _ => exact ⟨trivial, trivial⟩
  | .time _ _ => exact h.elim
  | .arr l => exact ⟨⟨trivial, trivial⟩, readable_list l h hk.2⟩
  | .map m => exact ⟨⟨trivial, hk.1⟩, readable_pairs m h hk.2⟩

theorem readable_list (l : List Val) (h : solidList l) (hk : allList Val.keysApart l) :
    allList (fun v => v.notTime ∧ v.keysApart) l := by
  match l with
  | [] => trivial
  | v :: l => exact ⟨readable_of v h.1 hk.1, readable_list l h.2 hk.2⟩

theorem readable_pairs (m : List (Val × Val)) (h : solidPairs m) (hk : allPairs Val.keysApart m) :
    allPairs (fun v => v.notTime ∧ v.keysApart) m := by
  match m with
  | [] => trivial
  | (k, v) :: m =>
    exact ⟨readable_of k h.1 hk.1, readable_of v h.2.1 hk.2.1, readable_pairs m h.2.2 hk.2.2⟩
end

/-! ## C44 -/

theorem readsAny_unique {w : Bytes} {d d' : Dyn} {rest : Bytes} (h : ReadsAny (w ++ rest) d)
    (h' : ReadsAny w d') (hl : (w ++ rest).length < 2^32) : d = d' ∧ rest = [] := by
  obtain ⟨f, h⟩ := h
  obtain ⟨f', h'⟩ := h'
  have h := h (max f f') (by omega) [] [] (by simpa using hl)
  have h' := h' (max f f') (by omega) [] rest (by simpa using hl)
  rw [List.append_nil, h'] at h
  simp only [at_, List.nil_append, Option.some.injEq, Out.ok.injEq, DR.mk.injEq] at h
  refine ⟨h.1.symm, ?_⟩
  have ho := congrArg UInt32.toNat h.2.2.1
  rw [List.length_append] at hl
  rw [List.length_append, UInt32.toNat_ofNat_lt (by omega), UInt32.toNat_ofNat_lt (by omega)] at ho
  exact List.eq_nil_of_length_eq_zero (by omega)

theorem readsAny_nil : ReadsAnyWith [0xc0] .nil 1 := any_scalar rfl (Reads.pure _)

/-- C44 fails for a list that contains a nil: `WriteAny(nil)` writes two nils
(encoder.go 318-323), so the following element is lost. -/
theorem C44_violated_nil : ¬ C44_statement := by
  intro h
  have hw : Writes (writeAny (.arr [.nil, .int8 1])) ([0x92, 0xc0, 0xc0] ++ [1]) := by
    have a := writeArraySize_writes 2
    have b := ((setUint8_writes 0xc0).seq (setUint8_writes 0xc0)).seq
      ((sized_int8 1).1.seq writes_nil)
    exact a.seq b
  obtain ⟨d', v', h1, h2, h3⟩ := h _ _ _ rfl (by simp [Val.all, allList, Val.notTime])
    (by simp [legal, legalList]) (by decide) hw
  have hr : ReadsAny [0x92, 0xc0, 0xc0] (.arr [.nil, .nil]) :=
    ⟨_, any_arrHead (n := 2) (arr_cons readsAny_nil (arr_cons readsAny_nil arr_nil))⟩
  have := (readsAny_unique h1 hr (by decide)).2
  cases this

/-- C44 fails for a map whose keys are different for Go only by their integer type: both are written
alike, and the second entry replaces the first. -/
theorem C44_violated_keys : ¬ C44_statement := by
  intro h
  have hw : Writes (writeAny (.map [(.int8 5, .bool true), (.int16 5, .bool false)]))
      [0x82, 5, 0xc3, 5, 0xc2] := by
    have a := writeMapSize_writes 2
    have b := (sized_int8 5).1.seq ((writeBool_writes true).seq
      ((sized_int16 5).1.seq ((writeBool_writes false).seq writes_nil)))
    exact a.seq b
  obtain ⟨d', v', h1, h2, h3⟩ := h _ _ _ rfl (by simp [Val.all, allPairs, Val.notTime])
    (by simp [legal, legalPairs, Dyn.hashable, goEq, Dyn.keyEq]) (by decide) hw
  have r5 : ReadsAnyWith [5] (.int64 5) 1 := any_scalar (r := Rd.pure (.int64 5)) rfl (Reads.pure _)
  have rt : ReadsAnyWith [0xc3] (.bool true) 1 := any_scalar rfl (Reads.pure _)
  have rf : ReadsAnyWith [0xc2] (.bool false) 1 := any_scalar rfl (Reads.pure _)
  have hr : ReadsAny [0x82, 5, 0xc3, 5, 0xc2] (.map [(.int64 5, .bool false)]) :=
    ⟨_, any_mapHead (n := 2) (map_cons r5 rt rfl (map_cons r5 rf rfl (map_nil _)))⟩
  have := (readsAny_unique (rest := []) (w := [0x82, 5, 0xc3, 5, 0xc2]) (by simpa using h1)
    hr (by decide)).1
  subst this
  cases h2
  revert h3
  simp [Val.num, numPairs]

/-- C44, partial: every value without nil inside, in whose maps the keys are numbers, booleans or
strings that remain different when integer types are forgotten, is read back by `ReadAny` as an equal
value, numbers keeping their numeric value (strings, byte arrays and floats exactly; map entries in the
order written), and exactly the bytes written are consumed. A nil on its own is read back as nil, too.
If moreover no byte array has 255 bytes, `AnyToBytes` produces exactly these bytes. Missing: exactly
what `C44_violated_nil` and `C44_violated_keys` show. -/
theorem C44_partial :
    (∀ (d : Dyn) (v : Val), Val.ofDyn d = some v → v.solid → v.all Val.keysApart →
      v.enc.length < 2^32 →
      Writes (writeAny d) v.enc ∧
      (∃ d' v', ReadsAny v.enc d' ∧ Val.ofDyn d' = some v' ∧ v'.num = v.num) ∧
      (plainDyn d → anyToBytes d = .ok v.enc)) ∧
    (anyToBytes .nil = .ok (nil ++ nil) ∧ ReadsAny nil .nil) := by
  refine ⟨fun d v h hs hk hl => ?_, ?_, ⟨1, readsAny_nil⟩⟩
  · obtain ⟨he, hw, hv⟩ := emitDyn_enc d v h hs hl
    refine ⟨hw, readsVal_val v hv (readable_of v hs hk) hl, fun hp => ?_⟩
    have h1 := sized_calls [.any d] ⟨hp, trivial⟩ (by simpa [emitCalls, emitCall, he] using hl)
    have := (toBytes_of_sized h1 (by simpa [emitCalls, emitCall, he] using hl)).2.2
    simpa [emitCalls, emitCall, he, anyToBytes] using this
  · decide +kernel

/-- A map of a list and a negative number, with a following byte. -/
example : let d : Dyn := .map [(.str [97], .arr [.uint8 200, .bytes [1]]), (.int (-3), .float32 7)]
    let v : Val := .map [(.str [97], .arr [.nat 200, .bin [1]]), (.int (-3), .float32 7)]
    Val.ofDyn d = some v ∧ v.solid ∧ v.all Val.keysApart ∧
    anyToBytes d = .ok [0x82, 0xa1, 97, 0x92, 0xcc, 200, 0xc4, 1, 1, 0xfd, 0xca, 0, 0, 0, 7] ∧
    readAny 9 (DR.new [0x82, 0xa1, 97, 0x92, 0xcc, 200, 0xc4, 1, 1, 0xfd, 0xca, 0, 0, 0, 7, 9]) =
      some (.ok (.map [(.str [97], .arr [.uint8 200, .bytes [1]]), (.int64 (-3), .float32 7)])
        (at_ [0x82, 0xa1, 97, 0x92, 0xcc, 200, 0xc4, 1, 1, 0xfd, 0xca, 0, 0, 0, 7] [9])) := by
  refine ⟨rfl, ?_, ?_, ?_, ?_⟩
  · simp [Val.solid, solidPairs, solidList]
  · simp [Val.all, allPairs, allList, Val.keysApart, Val.scalar, Val.sameKey, Val.num]
  · decide +kernel
  · rfl

end Verif.Props
