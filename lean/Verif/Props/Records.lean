import Verif.Props.MsgpackColl
/-
Property C47: the generated record codecs.
-/
set_option autoImplicit false
namespace Verif.Props
open Verif Spec Msgpack

/-! ## Specification -/

/-- Named fields on the wire. -/
def fieldBytes : List (Bytes × Val) → Bytes
  | [] => []
  | (n, v) :: es => str n ++ (v.enc ++ fieldBytes es)

/-- A map with these fields in this order. -/
def fieldMap (es : List (Bytes × Val)) : Bytes := mapHead es.length ++ fieldBytes es

/-- `es` consists of the fields `known`, in any order, and of fields with other names and any values
satisfying `ok`. -/
def Mixed (ok : Val → Prop) (known es : List (Bytes × Val)) : Prop :=
  (∀ e ∈ known, e ∈ es) ∧ ∀ e ∈ es, e ∈ known ∨ ((∀ k ∈ known, k.1 ≠ e.1) ∧ ok e.2)

/-- A record type with a codec: `fields r` are the fields of a record `r`. Writing it gives these
fields as a map (and this is what `CodecEncode` returns); any mix of them with other fields is decoded
to `r`, reading exactly the map, both by `Decode` and by `DecodeNillable`; a nil record is
written as nil and decoded as nil. -/
def RecordOK {ρ : Type} (fields : ρ → List (Bytes × Val)) (encode : Option ρ → List Call)
    (field : Bytes → Option (ρ → Rd ρ)) (zero : ρ) (ok : Val → Prop) : Prop :=
  (∀ r, (fieldMap (fields r)).length < 2^32 →
    Writes (writeCalls (encode (some r))) (fieldMap (fields r)) ∧
    toBytes (encode (some r)) = .ok (fieldMap (fields r))) ∧
  (∀ r es, Mixed ok (fields r) es → (fieldMap es).length < 2^32 → es.length < 2^32 →
    ∃ f0, ∀ f, f0 ≤ f → ∀ pre rest : Bytes, (pre ++ fieldMap es ++ rest).length < 2^32 →
      decodeRecord f field zero (at_ pre (fieldMap es ++ rest)) =
        some (.ok r (at_ (pre ++ fieldMap es) rest)) ∧
      decodeNillable f field zero (at_ pre (fieldMap es ++ rest)) =
        some (.ok (some r) (at_ (pre ++ fieldMap es) rest))) ∧
  Writes (writeCalls (encode none)) nil ∧
  ∀ f (pre rest : Bytes), (pre ++ nil ++ rest).length < 2^32 →
    decodeNillable f field zero (at_ pre (nil ++ rest)) = some (.ok none (at_ (pre ++ nil) rest))

def greetingFields (r : GreetingRequest) : List (Bytes × Val) :=
  [(ascii "firstName", .str r.firstName), (ascii "lastName", .str r.lastName)]
def stringsFields (r : Strings) : List (Bytes × Val) :=
  [(ascii "left", .str r.left), (ascii "right", .str r.right)]
def wordCountFields (r : WordCount) : List (Bytes × Val) :=
  [(ascii "word", .str r.word), (ascii "count", .nat r.count.toNat)]
def counterFields (r : CounterRequest) : List (Bytes × Val) := [(ascii "to", .nat r.to.toNat)]
def nameFields (r : NameRequest) : List (Bytes × Val) := [(ascii "name", .str r.name)]

/-- C47 in full, but for the unknown fields `ok`. -/
def RecordsOK (ok : Val → Prop) : Prop :=
  RecordOK greetingFields GreetingRequest.encode GreetingRequest.field ⟨[], []⟩ ok ∧
  RecordOK stringsFields Strings.encode Strings.field ⟨[], []⟩ ok ∧
  RecordOK wordCountFields WordCount.encode WordCount.field ⟨[], 0⟩ ok ∧
  RecordOK counterFields CounterRequest.encode CounterRequest.field ⟨0⟩ ok ∧
  RecordOK nameFields NameRequest.encode NameRequest.field ⟨[]⟩ ok

/-- C47 in full: unknown fields with any value the encoder can write. -/
def C47_statement : Prop := RecordsOK fun v => v.valid

/-! ## Proof -/

theorem fieldBytes_cons (n : Bytes) (v : Val) (es : List (Bytes × Val)) :
    fieldBytes ((n, v) :: es) = str n ++ (v.enc ++ fieldBytes es) := rfl

theorem fields_decode {ρ : Type} {field : Bytes → Option (ρ → Rd ρ)} (agree : Bytes → ρ → Prop)
    (known : List (Bytes × Val))
    (hk : ∀ e ∈ known, e.2.enc.length < 2^32 → ∃ set, field e.1 = some set ∧
      ∀ r, ∃ r', Reads (set r) e.2.enc r' ∧ agree e.1 r' ∧ ∀ n, agree n r → agree n r')
    (hu : ∀ n, (∀ k ∈ known, k.1 ≠ n) → field n = none) (es : List (Bytes × Val))
    (hes : ∀ e ∈ es, e ∈ known ∨ ((∀ k ∈ known, k.1 ≠ e.1) ∧ e.2.valid ∧ e.2.shortTimes))
    (hl : (fieldBytes es).length < 2^32) (r : ρ) :
    ∃ r' f0, (∀ f, f0 ≤ f → ∀ pre rest : Bytes, (pre ++ fieldBytes es ++ rest).length < 2^32 →
        decodeFields f field es.length r (at_ pre (fieldBytes es ++ rest)) =
          some (.ok r' (at_ (pre ++ fieldBytes es) rest))) ∧
      (∀ n, agree n r → agree n r') ∧ ∀ e ∈ es, e ∈ known → agree e.1 r' := by
  induction es generalizing r with
  | nil =>
    refine ⟨r, 0, fun f _ pre rest _ => ?_, fun n h => h, fun e he => by cases he⟩
    simp [decodeFields, fieldBytes]
  | cons e es ih =>
    obtain ⟨n, v⟩ := e
    rw [fieldBytes_cons] at hl ⊢
    have hl' := hl
    simp only [str, List.length_append] at hl'
    have hn := readString_reads n (by omega)
    have ih := ih (fun e he => hes e (by simp [he])) (by omega)
    by_cases hm : (n, v) ∈ known
    · obtain ⟨set, hf, hset⟩ := hk _ hm (by show v.enc.length < _; omega)
      obtain ⟨r1, h1, h2, h3⟩ := hset r
      obtain ⟨r', f0, g1, g2, g3⟩ := ih r1
      refine ⟨r', f0, fun f hf0 pre rest hlen => ?_, fun m hm => g2 m (h3 m hm), fun e he hek => ?_⟩
      · have a1 := hn pre (v.enc ++ fieldBytes es ++ rest) (by
          simpa [Nat.add_assoc] using hlen)
        have a2 := h1 (pre ++ str n) (fieldBytes es ++ rest) (by simpa [Nat.add_assoc] using hlen)
        have a3 := g1 f hf0 (pre ++ str n ++ v.enc) rest (by simpa [Nat.add_assoc] using hlen)
        simp only [List.append_assoc] at a1 a2 a3 ⊢
        simp only [List.length_cons, decodeFields]
        rw [a1]
        simp only [hf]
        rw [a2]
        exact a3
      · rcases List.mem_cons.1 he with rfl | he
        · exact g2 _ h2
        · exact g3 e he hek
    · obtain ⟨hne, hv, ht⟩ := (hes (n, v) List.mem_cons_self).resolve_left hm
      obtain ⟨f1, hs⟩ := skips_val v hv ht (by omega)
      obtain ⟨r', f0, g1, g2, g3⟩ := ih r
      refine ⟨r', max f0 f1, fun f hf0 pre rest hlen => ?_, g2, fun e he hek => ?_⟩
      · have a1 := hn pre (v.enc ++ fieldBytes es ++ rest) (by
          simpa [Nat.add_assoc] using hlen)
        have a2 := hs f (by omega) (pre ++ str n) (fieldBytes es ++ rest) (by
          simpa [Nat.add_assoc] using hlen)
        have a3 := g1 f (by omega) (pre ++ str n ++ v.enc) rest (by simpa [Nat.add_assoc] using hlen)
        simp only [List.append_assoc] at a1 a2 a3 ⊢
        simp only [List.length_cons, decodeFields]
        rw [a1]
        simp only [hu n hne]
        rw [a2]
        exact a3
      · rcases List.mem_cons.1 he with rfl | he
        · exact absurd hek hm
        · exact g3 e he hek

theorem mapHead_first (n : Nat) : ∃ b rest, mapHead n = b :: rest ∧ b ≠ 0xc0 := by
  unfold mapHead
  split
  · exact ⟨_, _, rfl, ofNat_ne_nil (by omega) (by omega)⟩
  repeat' split
  all_goals exact ⟨_, _, rfl, by decide⟩

theorem recordOK {ρ : Type} {fields : ρ → List (Bytes × Val)} {encode : Option ρ → List Call}
    {field : Bytes → Option (ρ → Rd ρ)} {zero : ρ} (agree : ρ → Bytes → ρ → Prop)
    (he : encode none = [.nil])
    (hw : ∀ r, emitCalls (encode (some r)) = fieldMap (fields r) ∧ plainCalls (encode (some r)))
    (hk : ∀ r, ∀ e ∈ fields r, e.2.enc.length < 2^32 → ∃ set, field e.1 = some set ∧
      ∀ x, ∃ x', Reads (set x) e.2.enc x' ∧ agree r e.1 x' ∧ ∀ n, agree r n x → agree r n x')
    (hu : ∀ r n, (∀ k ∈ fields r, k.1 ≠ n) → field n = none)
    (hd : ∀ r x, (∀ e ∈ fields r, agree r e.1 x) → x = r) :
    RecordOK fields encode field zero fun v => v.valid ∧ v.shortTimes := by
  refine ⟨fun r hl => ?_, fun r es hm hl hn => ?_, ?_, fun f pre rest hl => ?_⟩
  · obtain ⟨h1, h2⟩ := hw r
    have := C38_partial _ h2 (by rw [h1]; exact hl)
    rw [h1] at this
    exact ⟨this.1, (this.2 _ hl this.1).2.1⟩
  · have hl' := hl
    rw [fieldMap, List.length_append] at hl'
    obtain ⟨r', f0, h1, _, h3⟩ := fields_decode (agree r) (fields r) (hk r) (hu r) es hm.2 (by omega) zero
    have hr : r' = r := hd r r' fun e he => h3 e (hm.1 e he) he
    subst hr
    have hlen : (UInt32.ofNat es.length).toNat = es.length := UInt32.toNat_ofNat_lt hn
    have hread := readMapSize_reads (UInt32.ofNat es.length)
    rw [hlen] at hread
    refine ⟨f0, fun f hf pre rest hl => ?_⟩
    have hdec : decodeRecord f field zero (at_ pre (fieldMap es ++ rest)) =
        some (.ok r' (at_ (pre ++ fieldMap es) rest)) := by
      unfold fieldMap at hl ⊢
      have a1 := hread pre (fieldBytes es ++ rest) (by simpa [Nat.add_assoc] using hl)
      have a2 := h1 f hf (pre ++ mapHead es.length) rest (by simpa [Nat.add_assoc] using hl)
      unfold decodeRecord
      rw [List.append_assoc, a1]
      simp only [hlen]
      rw [a2]
      simp
    refine ⟨hdec, ?_⟩
    obtain ⟨b, tl, hb, hne⟩ := mapHead_first es.length
    have hnn := isNextNil_other pre (tl ++ (fieldBytes es ++ rest)) b hne (by
      simpa [fieldMap, hb, Nat.add_assoc] using hl)
    have hcat : fieldMap es ++ rest = b :: (tl ++ (fieldBytes es ++ rest)) := by simp [fieldMap, hb]
    unfold decodeNillable
    rw [hcat] at hdec ⊢
    rw [hnn]
    simp only [hdec]
  · rw [he]
    exact writes_one (setUint8_writes 0xc0)
  · unfold decodeNillable
    rw [isNextNil_nil pre rest hl]

theorem set_str {ρ : Type} {g : Bytes → ρ} {s : Bytes} (h : (Val.str s).enc.length < 2^32) :
    Reads (do let s ← readString; Rd.pure (g s)) (Val.str s).enc (g s) :=
  Reads.map (readString_reads s (by simp only [Val.enc, str, List.length_append] at h; omega))

theorem set_u64 {ρ : Type} {g : UInt64 → ρ} (v : UInt64) :
    Reads (do let n ← readUint64; Rd.pure (g n)) (Val.nat v.toNat).enc (g v) :=
  Reads.map (readUint64_reads v _ (uint_form v))

theorem greeting_names : ascii "lastName" ≠ ascii "firstName" := by decide
theorem strings_names : ascii "right" ≠ ascii "left" := by decide
theorem wordCount_names : ascii "count" ≠ ascii "word" := by decide

theorem greeting_ok : RecordOK greetingFields GreetingRequest.encode GreetingRequest.field ⟨[], []⟩
    fun v => v.valid ∧ v.shortTimes := by
  apply recordOK (fun r n x => (n = ascii "firstName" → x.firstName = r.firstName) ∧
    (n = ascii "lastName" → x.lastName = r.lastName)) rfl
  · intro r
    refine ⟨?_, by simp [plainCalls, plainCall, GreetingRequest.encode]⟩
    simp [emitCalls, emitCall, GreetingRequest.encode, fieldMap, fieldBytes, greetingFields, Val.enc]
  · intro r e he hl
    simp only [greetingFields, List.mem_cons, List.not_mem_nil, or_false] at he
    rcases he with rfl | rfl
    · refine ⟨_, if_pos rfl, fun x => ⟨_, set_str hl, ⟨fun _ => rfl, fun h => ?_⟩, fun n h => ?_⟩⟩
      · exact absurd h.symm greeting_names
      · exact ⟨fun _ => rfl, h.2⟩
    · refine ⟨_, (if_neg greeting_names).trans (if_pos rfl), fun x => ⟨_, set_str hl,
        ⟨fun h => ?_, fun _ => rfl⟩, fun n h => ?_⟩⟩
      · exact absurd h greeting_names
      · exact ⟨h.1, fun _ => rfl⟩
  · intro r n h
    have h1 := h _ (show _ ∈ greetingFields r from List.mem_cons_self)
    have h2 := h (ascii "lastName", .str r.lastName) (by simp [greetingFields])
    exact (if_neg (Ne.symm h1)).trans (if_neg (Ne.symm h2))
  · intro r x h
    have h1 := (h (ascii "firstName", .str r.firstName) (by simp [greetingFields])).1 rfl
    have h2 := (h (ascii "lastName", .str r.lastName) (by simp [greetingFields])).2 rfl
    obtain ⟨a, b⟩ := x
    simp only at h1 h2
    subst h1 h2
    rfl

theorem strings_ok : RecordOK stringsFields Strings.encode Strings.field ⟨[], []⟩
    fun v => v.valid ∧ v.shortTimes := by
  apply recordOK (fun r n x => (n = ascii "left" → x.left = r.left) ∧
    (n = ascii "right" → x.right = r.right)) rfl
  · intro r
    refine ⟨?_, by simp [plainCalls, plainCall, Strings.encode]⟩
    simp [emitCalls, emitCall, Strings.encode, fieldMap, fieldBytes, stringsFields, Val.enc]
  · intro r e he hl
    simp only [stringsFields, List.mem_cons, List.not_mem_nil, or_false] at he
    rcases he with rfl | rfl
    · refine ⟨_, if_pos rfl, fun x => ⟨_, set_str hl, ⟨fun _ => rfl, fun h => ?_⟩, fun n h => ?_⟩⟩
      · exact absurd h.symm strings_names
      · exact ⟨fun _ => rfl, h.2⟩
    · refine ⟨_, (if_neg strings_names).trans (if_pos rfl), fun x => ⟨_, set_str hl,
        ⟨fun h => ?_, fun _ => rfl⟩, fun n h => ?_⟩⟩
      · exact absurd h strings_names
      · exact ⟨h.1, fun _ => rfl⟩
  · intro r n h
    have h1 := h _ (show _ ∈ stringsFields r from List.mem_cons_self)
    have h2 := h (ascii "right", .str r.right) (by simp [stringsFields])
    exact (if_neg (Ne.symm h1)).trans (if_neg (Ne.symm h2))
  · intro r x h
    have h1 := (h (ascii "left", .str r.left) (by simp [stringsFields])).1 rfl
    have h2 := (h (ascii "right", .str r.right) (by simp [stringsFields])).2 rfl
    obtain ⟨a, b⟩ := x
    simp only at h1 h2
    subst h1 h2
    rfl

theorem wordCount_ok : RecordOK wordCountFields WordCount.encode WordCount.field ⟨[], 0⟩
    fun v => v.valid ∧ v.shortTimes := by
  apply recordOK (fun r n x => (n = ascii "word" → x.word = r.word) ∧
    (n = ascii "count" → x.count = r.count)) rfl
  · intro r
    refine ⟨?_, by simp [plainCalls, plainCall, WordCount.encode]⟩
    simp [emitCalls, emitCall, WordCount.encode, fieldMap, fieldBytes, wordCountFields, Val.enc]
  · intro r e he hl
    simp only [wordCountFields, List.mem_cons, List.not_mem_nil, or_false] at he
    rcases he with rfl | rfl
    · refine ⟨_, if_pos rfl, fun x => ⟨_, set_str hl, ⟨fun _ => rfl, fun h => ?_⟩, fun n h => ?_⟩⟩
      · exact absurd h.symm wordCount_names
      · exact ⟨fun _ => rfl, h.2⟩
    · refine ⟨_, (if_neg wordCount_names).trans (if_pos rfl), fun x => ⟨_, set_u64 _,
        ⟨fun h => ?_, fun _ => rfl⟩, fun n h => ?_⟩⟩
      · exact absurd h wordCount_names
      · exact ⟨h.1, fun _ => rfl⟩
  · intro r n h
    have h1 := h _ (show _ ∈ wordCountFields r from List.mem_cons_self)
    have h2 := h (ascii "count", .nat r.count.toNat) (by simp [wordCountFields])
    exact (if_neg (Ne.symm h1)).trans (if_neg (Ne.symm h2))
  · intro r x h
    have h1 := (h (ascii "word", .str r.word) (by simp [wordCountFields])).1 rfl
    have h2 := (h (ascii "count", .nat r.count.toNat) (by simp [wordCountFields])).2 rfl
    obtain ⟨a, b⟩ := x
    simp only at h1 h2
    subst h1 h2
    rfl

theorem counter_ok : RecordOK counterFields CounterRequest.encode CounterRequest.field ⟨0⟩
    fun v => v.valid ∧ v.shortTimes := by
  apply recordOK (fun r _ x => x = r) rfl
  · intro r
    refine ⟨?_, by simp [plainCalls, plainCall, CounterRequest.encode]⟩
    simp [emitCalls, emitCall, CounterRequest.encode, fieldMap, fieldBytes, counterFields, Val.enc]
  · intro r e he hl
    simp only [counterFields, List.mem_cons, List.not_mem_nil, or_false] at he
    subst he
    exact ⟨_, if_pos rfl, fun x => ⟨_, set_u64 _, rfl, fun n _ => rfl⟩⟩
  · intro r n h
    exact if_neg (Ne.symm (h _ (show _ ∈ counterFields r from List.mem_cons_self)))
  · intro r x h
    exact h _ (show _ ∈ counterFields r from List.mem_cons_self)

theorem name_ok : RecordOK nameFields NameRequest.encode NameRequest.field ⟨[]⟩
    fun v => v.valid ∧ v.shortTimes := by
  apply recordOK (fun r _ x => x = r) rfl
  · intro r
    refine ⟨?_, by simp [plainCalls, plainCall, NameRequest.encode]⟩
    simp [emitCalls, emitCall, NameRequest.encode, fieldMap, fieldBytes, nameFields, Val.enc]
  · intro r e he hl
    simp only [nameFields, List.mem_cons, List.not_mem_nil, or_false] at he
    subst he
    exact ⟨_, if_pos rfl, fun x => ⟨_, set_str hl, rfl, fun n _ => rfl⟩⟩
  · intro r n h
    exact if_neg (Ne.symm (h _ (show _ ∈ nameFields r from List.mem_cons_self)))
  · intro r x h
    exact h _ (show _ ∈ nameFields r from List.mem_cons_self)

/-- C47, partial: unknown fields may have any value in which no time needs the 12-byte form.
Missing: exactly these, which `Skip` refuses (`C47_violated`). -/
theorem C47_partial : RecordsOK fun v => v.valid ∧ v.shortTimes :=
  ⟨greeting_ok, strings_ok, wordCount_ok, counter_ok, name_ok⟩

/-- C47 fails if an unknown field holds a time of the year 2514: decoding fails. -/
theorem C47_violated : ¬ C47_statement := by
  intro h
  have hv : (Val.time (2^34) 0).valid := by simp only [Val.valid]; omega
  obtain ⟨f0, h⟩ := h.2.2.2.1.2.1 ⟨5⟩ [([120], .time (2^34) 0), (ascii "to", .nat 5)]
    ⟨by
      intro e he
      simp only [counterFields, List.mem_cons, List.not_mem_nil, or_false] at he
      subst he
      simp, by
      intro e he
      simp only [List.mem_cons, List.not_mem_nil, or_false] at he
      rcases he with rfl | rfl
      · refine .inr ⟨?_, hv⟩
        intro k hk
        simp only [counterFields, List.mem_cons, List.not_mem_nil, or_false] at hk
        subst hk
        decide
      · exact .inl List.mem_cons_self⟩ (by decide) (by decide)
  have h := (h (f0 + 1) (by omega) [] [] (by decide)).1
  have hs : getSize (at_ [0x82, 0xa1, 120] ((Val.time (2^34) 0).enc ++
      fieldBytes [(ascii "to", .nat 5)])) =
      .fail "bad prefix" (at_ [0x82, 0xa1, 120, 0xc7] (((Val.time (2^34) 0).enc ++
      fieldBytes [(ascii "to", .nat 5)]).drop 1)) := by decide +kernel
  have h1 : readMapSize (at_ [] (fieldMap [([120], .time (2^34) 0), (ascii "to", .nat 5)] ++ [])) =
    .ok 2 (at_ [0x82] (fieldBytes [([120], .time (2^34) 0), (ascii "to", .nat 5)])) := by decide +kernel
  have h2 : readString (at_ [0x82] (fieldBytes [([120], .time (2^34) 0), (ascii "to", .nat 5)])) =
    .ok [120] (at_ [0x82, 0xa1, 120] ((Val.time (2^34) 0).enc ++
      fieldBytes [(ascii "to", .nat 5)])) := by decide +kernel
  have h3 : CounterRequest.field [120] = none := rfl
  simp only [decodeRecord, h1] at h
  rw [show (2 : UInt32).toNat = 1 + 1 from rfl] at h
  simp only [decodeFields, h2, h3, skip, hs] at h
  cases h

/-- The fields in the other order with two unknown ones. -/
example : Mixed (fun v => v.valid ∧ v.shortTimes) (wordCountFields ⟨[104, 105], 300⟩)
      [([120], .arr [.nil, .str [1]]), (ascii "count", .nat 300), (ascii "word", .str [104, 105]),
        ([], .int (-1))] ∧
    decodeRecord 9 WordCount.field ⟨[], 0⟩ (DR.new (fieldMap
      [([120], .arr [.nil, .str [1]]), (ascii "count", .nat 300), (ascii "word", .str [104, 105]),
        ([], .int (-1))])) =
      some (.ok ⟨[104, 105], 300⟩ (at_ (fieldMap
      [([120], .arr [.nil, .str [1]]), (ascii "count", .nat 300), (ascii "word", .str [104, 105]),
        ([], .int (-1))]) [])) := by
  refine ⟨⟨?_, ?_⟩, by decide +kernel⟩
  · intro e he
    simp only [wordCountFields, List.mem_cons, List.not_mem_nil, or_false] at he
    rcases he with rfl | rfl <;> simp
  · intro e he
    simp only [List.mem_cons, List.not_mem_nil, or_false] at he
    rcases he with rfl | rfl | rfl | rfl
    · refine .inr ⟨?_, by simp [Val.valid, validList], by simp [Val.shortTimes, shortTimesList]⟩
      intro k hk
      simp only [wordCountFields, List.mem_cons, List.not_mem_nil, or_false] at hk
      rcases hk with rfl | rfl <;> decide
    · exact .inl (by simp [wordCountFields])
    · exact .inl (by simp [wordCountFields])
    · refine .inr ⟨?_, by simp [Val.valid], by simp [Val.shortTimes]⟩
      intro k hk
      simp only [wordCountFields, List.mem_cons, List.not_mem_nil, or_false] at hk
      rcases hk with rfl | rfl <;> decide

end Verif.Props
