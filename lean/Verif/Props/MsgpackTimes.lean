import Verif.Props.MsgpackExt
/-
Property C141: reading the times that other MessagePack programs write.
-/
set_option autoImplicit false
namespace Verif.Props
open Verif Spec Msgpack

/-- The three layouts of an instant in the MessagePack specification: 32 bits of seconds; 30 bits of
nanoseconds and 34 bits of seconds; 32 bits of nanoseconds and 64 bits of seconds, signed. A writer
may use any of them that has room for the instant. -/
inductive TimeData (t : Time) : Bytes → Prop
  | short : 0 ≤ t.sec.toInt → t.sec.toInt < 2^32 → t.nsec.toNat = 0 →
      TimeData t (bigEndian 4 t.sec.toInt.toNat)
  | medium : 0 ≤ t.sec.toInt → t.sec.toInt < 2^34 → t.nsec.toNat < 10^9 →
      TimeData t (bigEndian 8 (t.nsec.toNat * 2^34 + t.sec.toInt.toNat))
  | long : t.nsec.toNat < 10^9 →
      TimeData t (bigEndian 4 t.nsec.toNat ++ bigEndian 8 (t.sec.toInt % 2^64).toNat)

/-- C141 in full: an instant in any layout, in any form of an extension value, of the type for times
(-1) or the one NodeJS uses (13), is read back. -/
def C141_statement : Prop := ∀ (lib : Lib) (t : Time) (id : UInt8) (data w : Bytes),
  TimeData t data → id = 0xff ∨ id = 13 → ExtForm id data w → Reads (readTime lib) w t

theorem timeData_length {t : Time} {data : Bytes} (h : TimeData t data) :
    data.length = 4 ∨ data.length = 8 ∨ data.length = 12 := by
  cases h <;> simp [Spec.bigEndian_length]

theorem timeOfBytes_data {t : Time} {data : Bytes} (h : TimeData t data) :
    timeOfBytes data = .ok t := by
  have hs := u64_of_i64 t.sec
  have h1 := t.sec.le_toInt
  have h2 := t.sec.toInt_lt
  have hsec : ∀ x : UInt64, x.toNat = (t.sec.toInt % 2^64).toNat → x.toInt64 = t.sec := by
    intro x hx
    rw [show x = t.sec.toUInt64 from u64_ext (by rw [hx, hs])]
    rfl
  unfold timeOfBytes
  cases h with
  | short a b c =>
    rw [if_pos (by rw [Spec.bigEndian_length])]
    have hv : (UInt32.ofNat t.sec.toInt.toNat).toNat = t.sec.toInt.toNat :=
      UInt32.toNat_ofNat_lt (by omega)
    rw [← hv, ← Spec.be32_eq, ← List.append_nil (be32 _), getU32_be32]
    show Go.ok _ = _
    congr 1
    unfold unixTime
    congr 1
    · apply hsec
      rw [UInt64.toNat_add, UInt32.toNat_toUInt64, hv]
      show (t.sec.toInt.toNat + 0) % 2^64 = _
      omega
    · apply u32_ext
      rw [c]; rfl
  | medium a b hn =>
    rw [if_neg (by rw [Spec.bigEndian_length]; decide), if_pos (by rw [Spec.bigEndian_length])]
    have hv : (UInt64.ofNat (t.nsec.toNat * 2^34 + t.sec.toInt.toNat)).toNat =
        t.nsec.toNat * 2^34 + t.sec.toInt.toNat :=
      UInt64.toNat_ofNat_of_lt' (by show _ < 2^64; omega)
    rw [← hv, ← Spec.be64_eq, ← List.append_nil (be64 _), getU64_be64]
    show Go.ok _ = _
    congr 1
    unfold unixTime
    have hq : (UInt64.ofNat (t.nsec.toNat * 2^34 + t.sec.toInt.toNat) >>> 34).toNat = t.nsec.toNat := by
      rw [u64_shr34, hv]; omega
    congr 1
    · apply hsec
      rw [UInt64.toNat_add, UInt64.toNat_div, hq, u64_and34, hv]
      show (_ + t.nsec.toNat / 1000000000) % 2^64 = _
      omega
    · apply u32_ext
      rw [UInt64.toNat_toUInt32, UInt64.toNat_mod, hq]
      show t.nsec.toNat % 1000000000 % 2^32 = _
      omega
  | long hn =>
    have hl : (bigEndian 4 t.nsec.toNat ++ bigEndian 8 (t.sec.toInt % 2^64).toNat).length = 12 := by
      rw [List.length_append, Spec.bigEndian_length, Spec.bigEndian_length]
    rw [if_neg (by rw [hl]; decide), if_neg (by rw [hl]; decide), if_pos hl,
      ← Spec.be32_eq, ← hs, ← Spec.be64_eq, getU32_be32]
    show (sliceFrom (be32 t.nsec ++ be64 t.sec.toUInt64) 4 >>= fun b => getU64 b >>= fun s =>
      Go.ok (unixTime s t.nsec.toUInt64)) = _
    rw [sliceFrom_append' (be32 t.nsec) _ 4 rfl]
    show (getU64 (be64 t.sec.toUInt64) >>= fun s => Go.ok (unixTime s t.nsec.toUInt64)) = _
    rw [← List.append_nil (be64 _), getU64_be64]
    show Go.ok _ = _
    congr 1
    unfold unixTime
    congr 1
    · apply hsec
      rw [UInt64.toNat_add, UInt64.toNat_div, UInt32.toNat_toUInt64]
      show (_ + t.nsec.toNat / 1000000000) % 2^64 = _
      omega
    · apply u32_ext
      rw [UInt64.toNat_toUInt32, UInt64.toNat_mod, UInt32.toNat_toUInt64]
      show t.nsec.toNat % 1000000000 % 2^32 = _
      omega

/-- What `ReadTime` does behind the code of an extension value. -/
def timeTail (p : UInt8) : Rd Time := parseExtLen p >>= fun n =>
  getUint8 >>= fun id => if id.toInt8 ≠ -1 ∧ id.toInt8 ≠ 13 then
    Rd.fail "msgpack: invalid time ext id" else decodeTime n

theorem readTime_at (lib : Lib) (p : UInt8) (hp : isString p = false) (pre rest : Bytes)
    (hl : (pre ++ p :: rest).length < 2^32) :
    readTime lib (at_ pre (p :: rest)) = timeTail p (at_ (pre ++ [p]) rest) := by
  have h2 := discardQuiet_reads 1 [p] rfl pre rest (by simpa using hl)
  unfold readTime
  rw [rd_bind, peek_at pre _ p (by simpa using hl)]
  dsimp only
  rw [if_neg (by rw [hp]; decide)]
  rw [rd_bind]
  simp only [List.cons_append, List.nil_append] at h2
  rw [h2]
  rfl

theorem time_data_reads (lib : Lib) {t : Time} {data : Bytes} (h : TimeData t data) (id : UInt8)
    (hid : id = 0xff ∨ id = 13) (p : UInt8) (w : Bytes) (n : UInt32) (hp : isString p = false)
    (hr : Reads (parseExtLen p) w n) (hl : n.toNat = data.length) :
    Reads (readTime lib) (p :: (w ++ id :: data)) t := by
  have hd : Reads (decodeTime n) data t := by
    intro pre rest h'
    unfold decodeTime
    rw [rd_bind, getBytes_reads n _ hl pre rest h']
    simp only [rd_of, timeOfBytes_data h]
  have ht : Reads (timeTail p) (w ++ id :: data) t := by
    refine hr.bind (Reads.cons ?_)
    rw [if_neg (by rcases hid with rfl | rfl <;> decide)]
    exact hd
  intro pre rest hlen
  rw [List.cons_append, readTime_at lib p hp pre _ (by simpa using hlen),
    ht (pre ++ [p]) rest (by simpa using hlen)]
  simp

/-- C141, partial: an instant in any layout with room for it, in the form without a length or with
one byte of length, of either type, is read back exactly, whatever surrounds it. Missing: the forms
with longer lengths (`C141_long_length_violated`). -/
theorem C141_partial (lib : Lib) (t : Time) (id : UInt8) (data w : Bytes) (h : TimeData t data)
    (hid : id = 0xff ∨ id = 13) (hf : ExtForm id data w)
    (hc : w.head? ≠ some 0xc8 ∧ w.head? ≠ some 0xc9) : Reads (readTime lib) w t := by
  have hl := timeData_length h
  cases hf with
  | fixext1 hd => omega
  | fixext2 hd => omega
  | fixext4 hd => exact time_data_reads lib h id hid 0xd6 [] 4 (by decide) (Reads.pure 4) (by rw [hd]; rfl)
  | fixext8 hd => exact time_data_reads lib h id hid 0xd7 [] 8 (by decide) (Reads.pure 8) (by rw [hd]; rfl)
  | fixext16 hd => omega
  | ext8 hd =>
    have key : ∀ k : UInt8, k.toNat < 128 → data.length = k.toNat →
        Reads (readTime lib) (0xc7 :: (bigEndian 1 data.length ++ id :: data)) t := by
      intro k hk hkl
      have hb : bigEndian 1 data.length = [k] := by
        rw [hkl]; simp [bigEndian]
      rw [hb]
      refine time_data_reads lib h id hid 0xc7 [k] k.toUInt32 (by decide) ?_ (by rw [hkl]; simp)
      have := Reads.map (g := UInt8.toUInt32) (readUint8_reads k [UInt8.ofNat k.toNat]
        (.positiveFix k.toNat (by omega)))
      rwa [UInt8.ofNat_toNat] at this
    rcases hl with hl | hl | hl
    · exact key 4 (by decide) hl
    · exact key 8 (by decide) hl
    · exact key 12 (by decide) hl
  | ext16 hd => exact absurd rfl hc.1
  | ext32 hd => exact absurd rfl hc.2

/-- C141 is violated by every instant in a form with two or four bytes of length: it is refused with
an error. `parseExtLen` (decoder.go 879-903) reads the length as if it were itself a MessagePack
number, so that its first byte, zero, is taken for all of it. -/
theorem C141_long_length_violated (lib : Lib) (t : Time) (id : UInt8) (data : Bytes)
    (h : TimeData t data) (pre rest : Bytes) :
    ((pre ++ 0xc8 :: (bigEndian 2 data.length ++ id :: data) ++ rest).length < 2^32 → ∃ e d,
      readTime lib (at_ pre (0xc8 :: (bigEndian 2 data.length ++ id :: data) ++ rest)) = .fail e d) ∧
    ((pre ++ 0xc9 :: (bigEndian 4 data.length ++ id :: data) ++ rest).length < 2^32 → ∃ e d,
      readTime lib (at_ pre (0xc9 :: (bigEndian 4 data.length ++ id :: data) ++ rest)) = .fail e d) := by
  have hl := timeData_length h
  have key : ∀ (p k : UInt8) (tail : Bytes), isString p = false → Reads (parseExtLen p) [0] 0 →
      k.toInt8 ≠ -1 ∧ k.toInt8 ≠ 13 → (pre ++ p :: 0 :: k :: tail).length < 2^32 →
      ∃ e d, readTime lib (at_ pre (p :: 0 :: k :: tail)) = .fail e d := by
    intro p k tail hp hr hk hlen
    have h1 := hr (pre ++ [p]) (k :: tail) (by simpa using hlen)
    have h2 := getUint8_reads k (pre ++ [p] ++ [0]) tail (by simpa using hlen)
    simp only [List.cons_append, List.nil_append] at h1 h2
    refine ⟨"msgpack: invalid time ext id", at_ (pre ++ [p] ++ [0] ++ [k]) tail, ?_⟩
    · rw [readTime_at lib p hp pre _ hlen]
      unfold timeTail
      rw [rd_bind, h1]
      dsimp only
      rw [rd_bind, h2]
      dsimp only
      rw [if_pos hk]
      rfl
  have h16 : Reads (parseExtLen 0xc8) [0] 0 :=
    Reads.map (g := UInt16.toUInt32) (readUint16_reads 0 [0] (.positiveFix 0 (by decide)))
  have h32 : Reads (parseExtLen 0xc9) [0] 0 := readUint32_reads 0 [0] (.positiveFix 0 (by decide))
  refine ⟨fun hlen => ?_, fun hlen => ?_⟩
  · have hb : ∃ k : UInt8, bigEndian 2 data.length = [0, k] ∧ k.toInt8 ≠ -1 ∧ k.toInt8 ≠ 13 := by
      rcases hl with hl | hl | hl <;> rw [hl]
      · exact ⟨4, by decide, by decide⟩
      · exact ⟨8, by decide, by decide⟩
      · exact ⟨12, by decide, by decide⟩
    obtain ⟨k, hb, hk⟩ := hb
    rw [hb] at hlen ⊢
    exact key 0xc8 k _ (by decide) h16 hk (by simpa using hlen)
  · have hb : ∃ k : UInt8, bigEndian 4 data.length = [0, 0, 0, k] := by
      rcases hl with hl | hl | hl <;> rw [hl]
      · exact ⟨4, by decide⟩
      · exact ⟨8, by decide⟩
      · exact ⟨12, by decide⟩
    obtain ⟨k, hb⟩ := hb
    rw [hb] at hlen ⊢
    exact key 0xc9 0 _ (by decide) h32 (by decide) (by simpa using hlen)

/-- The first second of 1970, in the shortest layout. -/
theorem sample_short : TimeData ⟨1, 0⟩ [0, 0, 0, 1] := TimeData.short (t := ⟨1, 0⟩) (by decide) (by decide) rfl

/-- So C141 does not hold in full. -/
theorem C141_violated : ¬ C141_statement := fun h => by
  have h1 := h ⟨fun _ => 0, fun _ => none⟩ ⟨1, 0⟩ 0xff _ _ sample_short (.inl rfl) (.ext16 _ (by decide)) [] [] (by decide)
  obtain ⟨e, d, h2⟩ := (C141_long_length_violated ⟨fun _ => 0, fun _ => none⟩ ⟨1, 0⟩ 0xff _ sample_short [] []).1 (by decide)
  rw [h1] at h2
  cases h2

/-- The same second in the longest layout, of the type of NodeJS, with one byte of length. -/
example (lib : Lib) : Reads (readTime lib) [0xc7, 12, 13, 0, 0, 0, 0, 0, 0, 0, 0, 0, 0, 0, 1] ⟨1, 0⟩ :=
  C141_partial lib ⟨1, 0⟩ 13 _ _ (.long (by decide)) (.inr rfl) (.ext8 _ (by decide)) (by decide)

end Verif.Props
