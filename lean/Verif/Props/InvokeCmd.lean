import Verif.Model.InvokeCmd
import Verif.Props.Records
/-
Property C133 (what `wasmrs invoke` passes to the operation).
-/
set_option autoImplicit false
namespace Verif.Props
open Verif Spec InvokeCmd Msgpack

/-! ## The claim -/

/-- The object `es` has the fields `known`, in any order among other fields with any values. -/
def HasFields (known es : List (Bytes × Json)) : Prop :=
  (∀ e ∈ known, e ∈ es) ∧ ∀ e ∈ es, e ∈ known ∨ ∀ k ∈ known, k.1 ≠ e.1

/-- The decoder of the operation makes `r` of the object `es`. -/
def Arrives {ρ : Type} (field : Bytes → Option (ρ → Rd ρ)) (zero : ρ) (es : List (Bytes × Json)) (r : ρ) : Prop :=
  (marshal (.obj es)).length < 2^32 → es.length < 2^32 →
    ∃ f0, ∀ f, f0 ≤ f → ∃ d', decodeRecord f field zero (.new (marshal (.obj es))) = some (.ok r d')

/-- The records of the examples with texts only arrive. -/
def TextsArrive : Prop :=
  (∀ (r : Msgpack.GreetingRequest) es,
    HasFields [(ascii "firstName", .str r.firstName), (ascii "lastName", .str r.lastName)] es →
      Arrives Msgpack.GreetingRequest.field ⟨[], []⟩ es r) ∧
  (∀ (r : Msgpack.Strings) es, HasFields [(ascii "left", .str r.left), (ascii "right", .str r.right)] es →
      Arrives Msgpack.Strings.field ⟨[], []⟩ es r) ∧
  (∀ (r : Msgpack.NameRequest) es, HasFields [(ascii "name", .str r.name)] es →
      Arrives Msgpack.NameRequest.field ⟨[]⟩ es r)

/-- C133 in full, for the records of the examples: the fields of the JSON object arrive as the fields of the record. `number` is the
`float64` that stands for a whole number. -/
def C133_statement : Prop :=
  TextsArrive ∧ ∃ number : UInt64 → UInt64,
    (∀ (r : Msgpack.CounterRequest) es, HasFields [(ascii "to", .num (number r.to))] es →
      Arrives Msgpack.CounterRequest.field ⟨0⟩ es r) ∧
    (∀ (r : Msgpack.WordCount) es, HasFields [(ascii "word", .str r.word), (ascii "count", .num (number r.count))] es →
      Arrives Msgpack.WordCount.field ⟨[], 0⟩ es r)

/-! ## What is written is MessagePack -/

theorem be32_any (n : Nat) : be32 (UInt32.ofNat n) = bigEndian 4 n := by
  have h (a b : Nat) (h : a % 256 = b % 256) : UInt8.ofNat a = UInt8.ofNat b := by
    apply UInt8.toNat_inj.1
    rw [UInt8.toNat_ofNat', UInt8.toNat_ofNat']
    exact h
  simp only [be32, bigEndian, UInt32.toNat_ofNat', Nat.pow_succ, Nat.pow_zero, Nat.div_one, Nat.one_mul, Nat.reduceMul]
  rw [h (n % 4294967296 / 16777216) (n / 16777216) (by omega), h (n % 4294967296 / 65536) (n / 65536) (by omega),
    h (n % 4294967296 / 256) (n / 256) (by omega), h (n % 4294967296) n (by omega)]

theorem strHeader_eq (n : Nat) : strHeader n = strHead n := by
  unfold strHeader strHead
  by_cases h1 : n < 32
  · rw [if_pos h1, if_pos (show n ≤ 31 by omega)]
  · rw [if_neg h1, if_neg (show ¬ n ≤ 31 by omega)]
    by_cases h2 : n < 256
    · rw [if_pos h2, if_pos (show n < 2^8 by omega)]; simp [bigEndian]
    · rw [if_neg h2, if_neg (show ¬ n < 2^8 by omega)]
      by_cases h3 : n ≤ 65535
      · rw [if_pos h3, if_pos (show n < 2^16 by omega), be16_ofNat (by omega)]
      · rw [if_neg h3, if_neg (show ¬ n < 2^16 by omega), be32_any]

theorem arrHeader_eq (n : Nat) : arrHeader n = arrHead n := by
  unfold arrHeader arrHead
  by_cases h1 : n < 16
  · rw [if_pos h1, if_pos (show n ≤ 15 by omega)]
  · rw [if_neg h1, if_neg (show ¬ n ≤ 15 by omega)]
    by_cases h3 : n ≤ 65535
    · rw [if_pos h3, if_pos (show n < 2^16 by omega), be16_ofNat (by omega)]
    · rw [if_neg h3, if_neg (show ¬ n < 2^16 by omega), be32_any]

theorem mapHeader_eq (n : Nat) : mapHeader n = mapHead n := by
  unfold mapHeader mapHead
  by_cases h1 : n < 16
  · rw [if_pos h1, if_pos (show n ≤ 15 by omega)]
  · rw [if_neg h1, if_neg (show ¬ n ≤ 15 by omega)]
    by_cases h3 : n ≤ 65535
    · rw [if_pos h3, if_pos (show n < 2^16 by omega), be16_ofNat (by omega)]
    · rw [if_neg h3, if_neg (show ¬ n < 2^16 by omega), be32_any]

mutual
/-- The MessagePack value of a JSON value. -/
def jsonVal : Json → Val
  | .null => .nil
  | .bool b => .bool b
  | .num bits => .float64 bits.toNat
  | .str s => .str s
  | .arr l => .arr (jsonVals l)
  | .obj m => .map (jsonPairs m)

def jsonVals : List Json → List Val
  | [] => []
  | j :: l => jsonVal j :: jsonVals l

def jsonPairs : List (Bytes × Json) → List (Val × Val)
  | [] => []
  | (k, j) :: m => (.str k, jsonVal j) :: jsonPairs m
end

theorem jsonVals_length (l : List Json) : (jsonVals l).length = l.length := by
  induction l with
  | nil => rfl
  | cons j l ih => simp [jsonVals, ih]

theorem jsonPairs_length (m : List (Bytes × Json)) : (jsonPairs m).length = m.length := by
  induction m with
  | nil => rfl
  | cons e m ih => obtain ⟨k, j⟩ := e; simp [jsonPairs, ih]

mutual
theorem marshal_eq (j : Json) : marshal j = (jsonVal j).enc := by
  cases j with
  | null => rfl
  | bool b => rfl
  | num bits => simp only [marshal, jsonVal, Val.enc, Spec.float64, be64_eq]
  | str s => simp only [marshal, jsonVal, Val.enc, Spec.str, strHeader_eq]
  | arr l => simp only [marshal, jsonVal, Val.enc, arrHeader_eq, jsonVals_length, marshalList_eq l]
  | obj m => simp only [marshal, jsonVal, Val.enc, mapHeader_eq, jsonPairs_length, marshalFields_eq m]

theorem marshalList_eq (l : List Json) : marshalList l = encList (jsonVals l) := by
  cases l with
  | nil => rfl
  | cons j l => simp only [marshalList, jsonVals, encList, marshal_eq j, marshalList_eq l]

theorem marshalFields_eq (m : List (Bytes × Json)) : marshalFields m = encPairs (jsonPairs m) := by
  cases m with
  | nil => rfl
  | cons e m =>
    obtain ⟨k, j⟩ := e
    simp only [marshalFields, jsonPairs, encPairs, marshal_eq j, marshalFields_eq m, Val.enc, Spec.str, strHeader_eq]
end

mutual
theorem jsonVal_valid (j : Json) : (jsonVal j).valid := by
  cases j with
  | null => trivial
  | bool b => trivial
  | num bits => exact bits.toNat_lt
  | str s => trivial
  | arr l => exact jsonVals_valid l
  | obj m => exact jsonPairs_valid m

theorem jsonVals_valid (l : List Json) : validList (jsonVals l) := by
  cases l with
  | nil => trivial
  | cons j l => exact ⟨jsonVal_valid j, jsonVals_valid l⟩

theorem jsonPairs_valid (m : List (Bytes × Json)) : validPairs (jsonPairs m) := by
  cases m with
  | nil => trivial
  | cons e m => obtain ⟨k, j⟩ := e; exact ⟨trivial, jsonVal_valid j, jsonPairs_valid m⟩
end

mutual
theorem jsonVal_short (j : Json) : (jsonVal j).shortTimes := by
  cases j with
  | null => trivial
  | bool b => trivial
  | num bits => trivial
  | str s => trivial
  | arr l => exact jsonVals_short l
  | obj m => exact jsonPairs_short m

theorem jsonVals_short (l : List Json) : shortTimesList (jsonVals l) := by
  cases l with
  | nil => trivial
  | cons j l => exact ⟨jsonVal_short j, jsonVals_short l⟩

theorem jsonPairs_short (m : List (Bytes × Json)) : shortTimesPairs (jsonPairs m) := by
  cases m with
  | nil => trivial
  | cons e m => obtain ⟨k, j⟩ := e; exact ⟨trivial, jsonVal_short j, jsonPairs_short m⟩
end

/-- The fields of an object as MessagePack values. -/
def jsonFields (es : List (Bytes × Json)) : List (Bytes × Val) := es.map fun e => (e.1, jsonVal e.2)

theorem marshalFields_bytes (es : List (Bytes × Json)) : marshalFields es = fieldBytes (jsonFields es) := by
  induction es with
  | nil => rfl
  | cons e es ih =>
    obtain ⟨k, j⟩ := e
    simp only [marshalFields, ih, jsonFields, List.map_cons, fieldBytes, marshal_eq j, Spec.str, strHeader_eq]

theorem marshal_obj (es : List (Bytes × Json)) : marshal (.obj es) = fieldMap (jsonFields es) := by
  simp only [marshal, mapHeader_eq, marshalFields_bytes, fieldMap, jsonFields, List.length_map]

theorem hasFields_mixed {known es : List (Bytes × Json)} (h : HasFields known es) :
    Mixed (fun v => v.valid ∧ v.shortTimes) (jsonFields known) (jsonFields es) := by
  refine ⟨fun e he => ?_, fun e he => ?_⟩
  · obtain ⟨e', h1, rfl⟩ := List.mem_map.1 he
    exact List.mem_map.2 ⟨e', h.1 e' h1, rfl⟩
  · obtain ⟨e', h1, rfl⟩ := List.mem_map.1 he
    rcases h.2 e' h1 with h2 | h2
    · exact .inl (List.mem_map.2 ⟨e', h2, rfl⟩)
    · refine .inr ⟨fun k hk => ?_, jsonVal_valid _, jsonVal_short _⟩
      obtain ⟨k', h3, rfl⟩ := List.mem_map.1 hk
      exact h2 k' h3

theorem arrives_of {ρ : Type} {fields : ρ → List (Bytes × Val)} {encode : Option ρ → List Msgpack.Call}
    {field : Bytes → Option (ρ → Rd ρ)} {zero : ρ} (h : RecordOK fields encode field zero fun v => v.valid ∧ v.shortTimes)
    {r : ρ} {known es : List (Bytes × Json)} (hk : jsonFields known = fields r) (he : HasFields known es) :
    Arrives field zero es r := by
  intro h1 h2
  rw [marshal_obj] at h1 ⊢
  obtain ⟨f0, hf⟩ := h.2.1 r (jsonFields es) (hk ▸ hasFields_mixed he) h1 (by simpa [jsonFields] using h2)
  refine ⟨f0, fun f hf0 => ⟨at_ ([] ++ fieldMap (jsonFields es)) [], ?_⟩⟩
  have := (hf f hf0 [] [] (by simpa using h1)).1
  rw [List.append_nil] at this
  exact this

/-- C133, partial: texts arrive in their fields, whatever other fields there are. Missing: numbers in integer fields
(`C133_violated`). -/
theorem C133_partial : TextsArrive :=
  ⟨fun _ _ h => arrives_of C47_partial.1 rfl h, fun _ _ h => arrives_of C47_partial.2.1 rfl h,
    fun _ _ h => arrives_of C47_partial.2.2.2.2 rfl h⟩

/-- {"age": 41.5, "lastName": "B", "tags": [null, true], "firstName": "A"} -/
def greetingJson : List (Bytes × Json) :=
  [(ascii "age", .num 0x4044c00000000000), (ascii "lastName", .str (ascii "B")), (ascii "tags", .arr [.null, .bool true]),
    (ascii "firstName", .str (ascii "A"))]

theorem greetingJson_fields :
    HasFields [(ascii "firstName", .str (ascii "A")), (ascii "lastName", .str (ascii "B"))] greetingJson := by
  refine ⟨by simp [greetingJson], ?_⟩
  intro e he
  simp only [greetingJson, List.mem_cons, List.not_mem_nil, or_false] at he
  rcases he with rfl | rfl | rfl | rfl
  · exact .inr (by decide)
  · exact .inl (by simp)
  · exact .inr (by decide)
  · exact .inl (by simp)

/-- An object as in the hypotheses of `C133_partial`, and what becomes of it. -/
example : ∃ f0, ∀ f, f0 ≤ f → ∃ d', decodeRecord f GreetingRequest.field ⟨[], []⟩ (.new (marshal (.obj greetingJson))) =
    some (.ok ⟨ascii "A", ascii "B"⟩ d') :=
  C133_partial.1 ⟨ascii "A", ascii "B"⟩ greetingJson greetingJson_fields (by decide +kernel) (by decide)

theorem float_refused : Refuses readInt64 [0xcb] ∧ Refuses readUint64 [0xcb] := by
  refine ⟨?_, ?_⟩
  · refine Refuses.bind (w := []) (getUint8_reads _) ?_
    exact Refuses.fail _
  · refine Refuses.bind (w := []) (getUint8_reads _) ?_
    exact Refuses.fail _

/-- A number in the JSON is refused by every reader of integers, signed or unsigned, of whatever width, wherever it stands in the
data. -/
theorem C133_integers_refused (bits : UInt64) (pre rest : Bytes) (h : (pre ++ marshal (.num bits) ++ rest).length < 2^32) :
    let d := at_ pre (marshal (.num bits) ++ rest)
    (∃ e d', readInt8 d = .fail e d') ∧ (∃ e d', readInt16 d = .fail e d') ∧ (∃ e d', readInt32 d = .fail e d') ∧
      (∃ e d', readInt64 d = .fail e d') ∧ (∃ e d', readUint8 d = .fail e d') ∧ (∃ e d', readUint16 d = .fail e d') ∧
      (∃ e d', readUint32 d = .fail e d') ∧ (∃ e d', readUint64 d = .fail e d') := by
  have hr {α : Type} {r : Rd α} (hr : Refuses r [0xcb]) : ∃ e d', r (at_ pre (marshal (.num bits) ++ rest)) = .fail e d' := by
    obtain ⟨e, he⟩ := hr pre (be64 bits ++ rest) (by simpa [marshal, Nat.add_assoc] using h)
    exact ⟨e, _, he⟩
  obtain ⟨h1, h2⟩ := float_refused
  exact ⟨hr (Refuses.bind_left h1), hr (Refuses.bind_left h1), hr (Refuses.bind_left h1), hr h1, hr (Refuses.bind_left h2), hr (Refuses.bind_left h2), hr (Refuses.bind_left h2), hr h2⟩

/-- The number 5 after the string "x". -/
example : (at_ [0xa1, 0x78] (marshal (.num 0x4014000000000000) ++ [0xc0])).buf.length = 12 ∧
    ∃ e d', readUint64 (at_ [0xa1, 0x78] (marshal (.num 0x4014000000000000) ++ [0xc0])) = .fail e d' :=
  ⟨by decide +kernel, (C133_integers_refused _ _ _ (by decide +kernel)).2.2.2.2.2.2.2⟩

/-- A field whose value is refused makes the decoder fail, if those before it are unknown or can be read. -/
theorem fields_refused {ρ : Type} {field : Bytes → Option (ρ → Rd ρ)} {name : Bytes} {set : ρ → Rd ρ} (bits : UInt64)
    (hs : field name = some set) (hi : ∀ r, Refuses (set r) [0xcb]) (a c : List (Bytes × Json))
    (ha : ∀ e ∈ a, field e.1 = none ∨ ∃ g, field e.1 = some g ∧ ∀ r, ∃ r', Reads (g r) (marshal e.2) r') (m : Nat) :
    ∃ f0, ∀ f, f0 ≤ f → ∀ (r : ρ) (pre : Bytes), (pre ++ marshalFields (a ++ (name, .num bits) :: c)).length < 2^32 →
      ∃ e d', decodeFields f field (a.length + (m + 1)) r (at_ pre (marshalFields (a ++ (name, .num bits) :: c))) =
        some (.fail e d') := by
  induction a with
  | nil =>
    refine ⟨0, fun f _ r pre hl => ?_⟩
    simp only [List.nil_append, marshalFields, strHeader_eq, marshal, List.length_nil, Nat.zero_add] at hl ⊢
    rw [show strHead name.length ++ name = str name from rfl] at hl ⊢
    have hl' := hl
    simp only [str, List.length_append] at hl'
    have a1 := readString_reads name (by omega) pre (0xcb :: be64 bits ++ marshalFields c) (by
      simpa [Nat.add_assoc] using hl)
    obtain ⟨e, a2⟩ := hi r (pre ++ str name) (be64 bits ++ marshalFields c) (by simpa [Nat.add_assoc, Nat.add_comm] using hl)
    refine ⟨e, at_ (pre ++ str name ++ [0xcb]) (be64 bits ++ marshalFields c), ?_⟩
    rw [decodeFields, a1]
    simp only [hs]
    rw [show (0xcb :: be64 bits ++ marshalFields c : Bytes) = [0xcb] ++ (be64 bits ++ marshalFields c) from rfl, a2]
  | cons x a ih =>
    obtain ⟨k, j⟩ := x
    obtain ⟨f0, ih⟩ := ih (fun e he => ha e (List.mem_cons_of_mem _ he))
    generalize hb : marshalFields (a ++ (name, .num bits) :: c) = b at ih
    have hlt : (pre : Bytes) → (pre ++ (str k ++ (marshal j ++ b))).length < 2^32 → k.length < 2^32 ∧ (jsonVal j).enc.length < 2^32 := by
      intro pre hl
      simp only [str, List.length_append, marshal_eq j] at hl
      omega
    by_cases hbig : k.length < 2^32 ∧ (jsonVal j).enc.length < 2^32
    · obtain ⟨hk, hv⟩ := hbig
      obtain ⟨f1, hskip⟩ := skips_val (jsonVal j) (jsonVal_valid j) (jsonVal_short j) hv
      refine ⟨max f0 f1, fun f hf r pre hl => ?_⟩
      simp only [List.cons_append, marshalFields, strHeader_eq, hb, List.length_cons] at hl ⊢
      rw [show strHead k.length ++ k = str k from rfl] at hl ⊢
      have a1 := readString_reads k hk pre (marshal j ++ b) (by simpa [Nat.add_assoc] using hl)
      rw [show a.length + 1 + (m + 1) = (a.length + (m + 1)) + 1 by omega, decodeFields, a1]
      have hl2 : (pre ++ str k ++ marshal j ++ b).length < 2^32 := by simpa [Nat.add_assoc] using hl
      rcases ha (k, j) List.mem_cons_self with hn | ⟨g, hg, hr⟩
      · simp only [hn]
        have a2 := hskip f (by omega) (pre ++ str k) b (by rw [← marshal_eq]; exact hl2)
        rw [← marshal_eq] at a2
        rw [a2]
        exact ih f (by omega) r _ (by exact hl2)
      · simp only [hg]
        obtain ⟨r', h1⟩ := hr r
        rw [h1 (pre ++ str k) b hl2]
        exact ih f (by omega) r' _ (by exact hl2)
    · refine ⟨0, fun f _ r pre hl => ?_⟩
      simp only [List.cons_append, marshalFields, strHeader_eq, hb, List.append_assoc] at hl
      exact absurd (hlt pre (by simpa [str] using hl)) hbig

theorem record_refused {ρ : Type} {field : Bytes → Option (ρ → Rd ρ)} {name : Bytes} {set : ρ → Rd ρ} (bits : UInt64)
    (hs : field name = some set) (hi : ∀ r, Refuses (set r) [0xcb]) (a c : List (Bytes × Json))
    (ha : ∀ e ∈ a, field e.1 = none ∨ ∃ g, field e.1 = some g ∧ ∀ r, ∃ r', Reads (g r) (marshal e.2) r') (zero : ρ)
    (h : (marshal (.obj (a ++ (name, .num bits) :: c))).length < 2^32) (hl : (a ++ (name, .num bits) :: c).length < 2^32) :
    ∃ f0, ∀ f, f0 ≤ f → ∃ e d', decodeRecord f field zero (.new (marshal (.obj (a ++ (name, .num bits) :: c)))) =
      some (.fail e d') := by
  obtain ⟨f0, hf⟩ := fields_refused bits hs hi a c ha c.length
  refine ⟨f0, fun f hf0 => ?_⟩
  simp only [marshal, mapHeader_eq] at h ⊢
  generalize hn : (a ++ (name, .num bits) :: c).length = n at h hl ⊢
  generalize hb : marshalFields (a ++ (name, .num bits) :: c) = b at h hf ⊢
  have hm := readMapSize_reads (UInt32.ofNat n) [] b (by
    rw [UInt32.toNat_ofNat_lt hl]; simpa using h)
  rw [UInt32.toNat_ofNat_lt hl] at hm
  have hm : readMapSize (.new (mapHead n ++ b)) = _ := hm
  obtain ⟨e, d', he⟩ := hf f hf0 zero ([] ++ mapHead n) (by simpa using h)
  refine ⟨e, d', ?_⟩
  rw [decodeRecord, hm]
  simp only [UInt32.toNat_ofNat_lt hl]
  rw [show n = a.length + (c.length + 1) by rw [← hn, List.length_append, List.length_cons]] at he ⊢
  exact he

/-- The counter cannot be called: an object with a number in the field `to` is refused, whatever other fields are before and after
it. -/
theorem C133_counter_refused (bits : UInt64) (a c : List (Bytes × Json)) (ha : ∀ e ∈ a, e.1 ≠ ascii "to")
    (h : (marshal (.obj (a ++ (ascii "to", .num bits) :: c))).length < 2^32)
    (hl : (a ++ (ascii "to", .num bits) :: c).length < 2^32) :
    ∃ f0, ∀ f, f0 ≤ f → ∃ e d', decodeRecord f CounterRequest.field ⟨0⟩
      (.new (marshal (.obj (a ++ (ascii "to", .num bits) :: c)))) = some (.fail e d') :=
  record_refused bits (by rw [CounterRequest.field, if_pos rfl]) (fun _ => Refuses.bind_left float_refused.2) a c
    (fun e he => .inl (if_neg (ha e he))) _ h hl

/-- No word count can be passed: an object with a number in the field `count` is refused, whatever is before and after it (if
there is a `word` before it, that is a text). -/
theorem C133_word_count_refused (bits : UInt64) (a c : List (Bytes × Json))
    (ha : ∀ e ∈ a, e.1 ≠ ascii "count" ∧ (e.1 = ascii "word" → ∃ s : Bytes, e.2 = .str s ∧ s.length < 2^32))
    (h : (marshal (.obj (a ++ (ascii "count", .num bits) :: c))).length < 2^32)
    (hl : (a ++ (ascii "count", .num bits) :: c).length < 2^32) :
    ∃ f0, ∀ f, f0 ≤ f → ∃ e d', decodeRecord f WordCount.field ⟨[], 0⟩
      (.new (marshal (.obj (a ++ (ascii "count", .num bits) :: c)))) = some (.fail e d') := by
  refine record_refused bits (by rw [WordCount.field, if_neg (by decide), if_pos rfl])
    (fun _ => Refuses.bind_left float_refused.2) a c (fun e he => ?_) _ h hl
  obtain ⟨h1, h2⟩ := ha e he
  by_cases hw : e.1 = ascii "word"
  · obtain ⟨s, h3, h4⟩ := h2 hw
    refine .inr ⟨_, by rw [WordCount.field, if_pos hw], fun r => ⟨{ r with word := s }, ?_⟩⟩
    rw [h3, marshal_eq]
    have := (readString_reads s h4).bind (f := fun s => Rd.pure { r with word := s }) (Reads.pure _)
    rwa [List.append_nil] at this
  · exact .inl (by rw [WordCount.field, if_neg hw, if_neg h1])

/-- {"x": null, "to": 5} for the counter, {"word": "a", "count": 2, "y": true} as a word count. -/
example : (∃ f0, ∀ f, f0 ≤ f → ∃ e d', decodeRecord f CounterRequest.field ⟨0⟩
      (.new (marshal (.obj ([(ascii "x", .null)] ++ (ascii "to", .num 0x4014000000000000) :: [])))) = some (.fail e d')) ∧
    ∃ f0, ∀ f, f0 ≤ f → ∃ e d', decodeRecord f WordCount.field ⟨[], 0⟩
      (.new (marshal (.obj ([(ascii "word", .str (ascii "a"))] ++ (ascii "count", .num 0x4000000000000000) ::
        [(ascii "y", .bool true)])))) = some (.fail e d') :=
  ⟨C133_counter_refused _ _ _ (by decide) (by decide +kernel) (by decide),
    C133_word_count_refused _ _ _ (by
      intro e he
      rw [List.mem_singleton] at he
      subst he
      exact ⟨by decide, fun _ => ⟨_, rfl, by decide⟩⟩) (by decide +kernel) (by decide)⟩

/-- C133 fails: no `float64` that could stand for a whole number arrives in an integer field. -/
theorem C133_violated : ¬ C133_statement := by
  intro ⟨_, number, h, _⟩
  have hh : (marshal (.obj [(ascii "to", .num (number 1))])).length < 2^32 := by
    have : (marshal (.obj [(ascii "to", .num (number 1))])).length = 13 := by
      simp only [marshal, marshalFields, mapHeader, strHeader]; rfl
    omega
  obtain ⟨f0, h1⟩ := h ⟨1⟩ [(ascii "to", .num (number 1))] ⟨by simp, by simp⟩ hh (by simp)
  obtain ⟨f1, h2⟩ := C133_counter_refused (number 1) [] [] (by simp) hh (by simp)
  obtain ⟨d', h1⟩ := h1 (max f0 f1) (by omega)
  obtain ⟨e, d, h2⟩ := h2 (max f0 f1) (by omega)
  rw [List.nil_append, h1] at h2
  cases h2

end Verif.Props
