import Verif.Spec.OpTable
import Verif.Lemmas.Frames
/-
Properties C15, C16, C17 and C74: the operation table.
-/
set_option autoImplicit false
namespace Verif.Props
open Verif Operations

/-- Names fit the 16-bit length fields. -/
def opOk (o : Operation) : Prop := o.ns.length < 2^16 ∧ o.operation.length < 2^16

instance (o : Operation) : Decidable (opOk o) := inferInstanceAs (Decidable (_ ∧ _))

/-- Bytes of a table on the wire (no reserved bytes). -/
def tableLength (t : Table) : Nat :=
  10 + (t.map (fun o => 12 + o.ns.length + o.operation.length)).sum

theorem foldl_size (t : Table) : ∀ (a : UInt32),
    a.toNat + (t.map (fun o => 12 + o.ns.length + o.operation.length)).sum < 2^32 →
    (t.foldl (fun size op => size + UInt32.ofNat (12 + op.ns.length + op.operation.length)) a).toNat
      = a.toNat + (t.map (fun o => 12 + o.ns.length + o.operation.length)).sum := by
  induction t with
  | nil => intro a _; simp
  | cons o t ih =>
    intro a h
    simp only [List.map_cons, List.sum_cons, List.foldl_cons] at h ⊢
    have ha : (a + UInt32.ofNat (12 + o.ns.length + o.operation.length)).toNat =
        a.toNat + (12 + o.ns.length + o.operation.length) := by
      rw [UInt32.toNat_add, UInt32.toNat_ofNat_lt (by omega)]; omega
    rw [ih _ (by rw [ha]; omega), ha]; omega

theorem entryWire_length (o : Operation) :
    (Spec.entryWire o []).length = 12 + o.ns.length + o.operation.length := by
  simp [Spec.entryWire]; omega

theorem writeEntry_ok (c : Cur) (o : Operation) (ho : opOk o)
    (h : 12 + o.ns.length + o.operation.length ≤ c.rest.length) :
    writeEntry c o = .ok ⟨c.done ++ Spec.entryWire o [],
      c.rest.drop (12 + o.ns.length + o.operation.length)⟩ := by
  obtain ⟨h1, h2⟩ := ho
  unfold writeEntry
  rw [Cur.put_ok (by simp; omega)]
  simp only [Go.bind_ok]
  rw [Cur.put_ok (by simp; omega)]
  simp only [Go.bind_ok]
  rw [Cur.put_ok (by simp; omega)]
  simp only [Go.bind_ok]
  rw [Cur.copySkip_ok (UInt16.toNat_ofNat_lt h1) (by simp; omega)]
  simp only [Go.bind_ok]
  rw [Cur.put_ok (by simp; omega)]
  simp only [Go.bind_ok]
  rw [Cur.copySkip_ok (UInt16.toNat_ofNat_lt h2) (by simp; omega)]
  simp only [Go.bind_ok]
  rw [Cur.put_ok (by simp; omega)]
  simp only [Spec.entryWire, Spec.be16_ofNat h1, Spec.be16_ofNat h2, Spec.be32_eq]
  congr 2
  · simp [Spec.be16_eq]
  · simp; congr 1; omega

theorem foldlM_write (t : Table) : ∀ (c : Cur), (∀ o ∈ t, opOk o) →
    (t.map (fun o => 12 + o.ns.length + o.operation.length)).sum ≤ c.rest.length →
    t.foldlM writeEntry c = .ok ⟨c.done ++ (t.map (fun o => Spec.entryWire o [])).flatten,
      c.rest.drop (t.map (fun o => 12 + o.ns.length + o.operation.length)).sum⟩ := by
  induction t with
  | nil => intro c _ _; simp
  | cons o t ih =>
    intro c hok h
    simp only [List.map_cons, List.sum_cons] at h
    simp only [List.foldlM_cons]
    rw [writeEntry_ok c o (hok o (by simp)) (by omega)]
    simp only [Go.bind_ok]
    rw [ih _ (fun o' h' => hok o' (by simp [h'])) (by simp; omega)]
    simp

theorem toBytes_ok (t : Table) (hok : ∀ o ∈ t, opOk o) (hsz : tableLength t < 2^32) :
    toBytes t = .ok (Spec.tableWire (t.map (fun o => (o, [])))) := by
  unfold tableLength at hsz
  have hs : (tableSize t).toNat = tableLength t := by
    unfold tableSize tableLength
    rw [foldl_size t 10 (by simpa using hsz)]; rfl
  have hlen : t.length < 2^32 := by
    have : ∀ t : Table, t.length ≤ (t.map (fun o => 12 + o.ns.length + o.operation.length)).sum := by
      intro t; induction t with
      | nil => simp
      | cons o t ih => simp; omega
    have := this t; omega
  unfold toBytes
  rw [hs, tableLength]
  simp only
  rw [Cur.copySkip_ok (show (4:Nat) = magic.length from rfl).symm.symm (by simp [magic]; omega)]
  simp only [Go.bind_ok]
  rw [Cur.put_ok (by simp [magic]; omega)]
  simp only [Go.bind_ok]
  rw [Cur.put_ok (by simp [magic]; omega)]
  simp only [Go.bind_ok]
  rw [foldlM_write t _ hok (by simp [magic]; omega)]
  simp only [Go.bind_ok, Cur.all, Spec.tableWire]
  rw [List.drop_eq_nil_of_le (by simp [magic]; omega)]
  simp [Spec.be16_eq, Spec.be32_eq, UInt32.toNat_ofNat_lt hlen, magic, List.map_map,
    Function.comp_def]

theorem readEntry_ok (o : Operation) (res rest : Bytes) (ho : opOk o) (hr : res.length < 65534) :
    readEntry (Spec.entryWire o res ++ rest) = .ok (o, rest) := by
  obtain ⟨h1, h2⟩ := ho
  have e1 : ∀ r : Bytes, slice ([o.type, o.direction] ++ (be32 o.index ++ r)) 2 6 =
      .ok (be32 o.index) := by intro r; simp [slice, be32]
  have e2 : ∀ r : Bytes, slice ([o.type, o.direction] ++ (be32 o.index ++
      (be16 (UInt16.ofNat o.ns.length) ++ r))) 6 8 = .ok (be16 (UInt16.ofNat o.ns.length)) := by
    intro r; simp [slice, be32, be16]
  have e3 : ∀ r : Bytes, sliceFrom ([o.type, o.direction] ++ (be32 o.index ++
      (be16 (UInt16.ofNat o.ns.length) ++ r))) 8 = .ok r := by
    intro r; simp [sliceFrom, be32, be16]
  have hskip : (2 + UInt16.ofNat res.length).toNat = 2 + res.length := by
    rw [UInt16.toNat_add, UInt16.toNat_ofNat_lt (by omega)]; simp; omega
  have g16 : ∀ v : UInt16, getU16 (be16 v) = .ok v := fun v => by
    simpa using getU16_be16 v []
  have g32 : ∀ v : UInt32, getU32 (be32 v) = .ok v := fun v => by
    simpa using getU32_be32 v []
  rw [show Spec.entryWire o res ++ rest = [o.type, o.direction] ++ (be32 o.index ++
      (be16 (UInt16.ofNat o.ns.length) ++ (o.ns ++ (be16 (UInt16.ofNat o.operation.length) ++
      (o.operation ++ (be16 (UInt16.ofNat res.length) ++ (res ++ rest))))))) by
    simp [Spec.entryWire, Spec.be16_ofNat h1, Spec.be16_ofNat h2,
      Spec.be16_ofNat (n := res.length) (by omega), Spec.be32_eq]]
  unfold readEntry
  rw [e1, e2, e3]
  simp only [List.cons_append, List.nil_append, index, List.getElem?_cons_zero,
    List.getElem?_cons_succ, Go.bind_ok, g16, g32]
  rw [UInt16.toNat_ofNat_lt h1, sliceTo_append, sliceFrom_append]
  simp only [Go.bind_ok]
  rw [slice_zero_append (by simp), sliceFrom_append' _ _ _ (by simp)]
  simp only [Go.bind_ok, g16]
  rw [UInt16.toNat_ofNat_lt h2, sliceTo_append, sliceFrom_append]
  simp only [Go.bind_ok, getU16_be16, hskip]
  rw [← List.append_assoc, sliceFrom_append' _ _ _ (by simp)]
  rfl

theorem readEntries_ok (t : List (Operation × Bytes)) (rest : Bytes)
    (hok : ∀ e ∈ t, opOk e.1 ∧ e.2.length < 65534) :
    readEntries t.length ((t.map (fun e => Spec.entryWire e.1 e.2)).flatten ++ rest) =
      .ok (t.map (·.1)) := by
  induction t with
  | nil => rfl
  | cons e t ih =>
    have he := hok e (by simp)
    simp only [List.length_cons, readEntries, List.map_cons, List.flatten_cons,
      List.append_assoc]
    rw [readEntry_ok _ _ _ he.1 he.2]
    simp only [Go.bind_ok]
    rw [ih (fun e' h' => hok e' (by simp [h']))]
    rfl

theorem fromBytes_ok (t : List (Operation × Bytes)) (rest : Bytes)
    (hok : ∀ e ∈ t, opOk e.1 ∧ e.2.length < 65534) (hlen : t.length < 2^32) :
    fromBytes (Spec.tableWire t ++ rest) = .ok (t.map (·.1)) := by
  have hw : Spec.tableWire t ++ rest = magic ++ (be16 1 ++ (be32 (UInt32.ofNat t.length) ++
      ((t.map (fun e => Spec.entryWire e.1 e.2)).flatten ++ rest))) := by
    simp [Spec.tableWire, Spec.be16_eq, Spec.be32_eq, UInt32.toNat_ofNat_lt hlen, magic]
  rw [hw]
  unfold fromBytes
  rw [slice_zero_append (by simp [magic]), sliceFrom_append' _ _ _ (by simp [magic])]
  simp only [Go.bind_ok, ne_eq, not_true_eq_false, if_false, getU16_be16]
  rw [sliceFrom_append' _ _ _ (by simp)]
  simp only [Go.bind_ok, getU32_be32]
  rw [sliceFrom_append' _ _ _ (by simp)]
  simp only [Go.bind_ok, UInt32.toNat_ofNat_lt hlen]
  exact readEntries_ok t rest hok

/-! ## C15 -/

/-- C15: a table serialises to the specified bytes and parses back to itself. -/
theorem C15_table_roundtrip (t : Table) (hok : ∀ o ∈ t, opOk o) (hsz : tableLength t < 2^32) :
    toBytes t = .ok (Spec.tableWire (t.map (fun o => (o, [])))) ∧
    fromBytes (Spec.tableWire (t.map (fun o => (o, [])))) = .ok t := by
  refine ⟨toBytes_ok t hok hsz, ?_⟩
  have hlen : t.length < 2^32 := by
    have : ∀ t : Table, t.length ≤ (t.map (fun o => 12 + o.ns.length + o.operation.length)).sum := by
      intro t; induction t with
      | nil => simp
      | cons o t ih => simp; omega
    have := this t
    unfold tableLength at hsz; omega
  have := fromBytes_ok (t.map (fun o => (o, []))) [] (by
    intro e he
    obtain ⟨o, ho, rfl⟩ := List.mem_map.mp he
    exact ⟨hok o ho, by simp⟩) (by simpa using hlen)
  simpa [List.map_map, Function.comp_def] using this

example : ∃ t : Table, t.length = 2 ∧ (∀ o ∈ t, opOk o) ∧ tableLength t < 2^32 :=
  ⟨[⟨0, 1, 1, [97, 98], [99]⟩, ⟨7, 3, 2, [], [120]⟩], by decide⟩

/-! ## C16 -/

theorem readEntry_ne_err (buf : Bytes) (m : String) : readEntry buf ≠ .err m := by
  have hi : ∀ (b : Bytes) i m, index b i ≠ .err m := by
    intro b i m h; unfold index at h; split at h <;> cases h
  have hs : ∀ (b : Bytes) i j m, slice b i j ≠ .err m := by
    intro b i j m h; unfold slice at h; split at h <;> cases h
  have hf : ∀ (b : Bytes) i m, sliceFrom b i ≠ .err m := by
    intro b i m h; unfold sliceFrom at h; split at h <;> cases h
  have ht : ∀ (b : Bytes) i m, sliceTo b i ≠ .err m := by
    intro b i m h; unfold sliceTo at h; split at h <;> cases h
  have h16 : ∀ (b : Bytes) m, getU16 b ≠ .err m := by
    intro b m h; unfold getU16 at h; split at h <;> cases h
  have h32 : ∀ (b : Bytes) m, getU32 b ≠ .err m := by
    intro b m h; unfold getU32 at h; split at h <;> cases h
  have hb : ∀ {α β : Type} (x : Go α) (f : α → Go β), (∀ m, x ≠ .err m) → (∀ a m, f a ≠ .err m) →
      ∀ m, (x >>= f) ≠ .err m := by
    intro α β x f hx hf m
    cases x with
    | ok a => exact hf a m
    | err e => exact absurd rfl (hx e)
    | panic => simp
  revert m
  unfold readEntry
  repeat' first
    | exact hi _ _ | exact hs _ _ _ | exact hf _ _ | exact ht _ _ | exact h16 _ | exact h32 _
    | (refine hb _ _ ?_ (fun _ => ?_)) | (intro m h; cases h)

theorem readEntries_ne_err (n : Nat) : ∀ (buf : Bytes) (m : String), readEntries n buf ≠ .err m := by
  induction n with
  | zero => intro buf m; simp [readEntries]
  | succ n ih =>
    intro buf m
    simp only [readEntries]
    cases h : readEntry buf with
    | ok r =>
      simp only [Go.bind_ok]
      cases h2 : readEntries n r.2 with
      | ok os => simp
      | err e => exact absurd h2 (ih _ _)
      | panic => simp
    | err e => exact absurd h (readEntry_ne_err _ _)
    | panic => simp

theorem toString_ne (v : UInt16) : errVersion v ≠ errInvalidMagic := by
  unfold errVersion errInvalidMagic
  intro h
  have := congrArg String.toList h
  rw [String.toList_append] at this
  have h2 := congrArg (List.take 1) this
  revert h2
  simp

/-- C16: on at least ten bytes the two rejections happen exactly when they should, and only
they are error returns; with the right magic and version there is no error return. -/
theorem C16_table_rejects (buf : Bytes) (h : 10 ≤ buf.length) :
    (fromBytes buf = .err errInvalidMagic ↔ buf.take 4 ≠ [0x00, 0x77, 0x72, 0x73]) ∧
    ((∃ m, fromBytes buf = .err m ∧ m ≠ errInvalidMagic) ↔
      buf.take 4 = [0x00, 0x77, 0x72, 0x73] ∧ beNat ((buf.drop 4).take 2) ≠ 1) := by
  match buf, h with
  | b0 :: b1 :: b2 :: b3 :: b4 :: b5 :: b6 :: b7 :: b8 :: b9 :: r, h =>
    have hm : slice (b0 :: b1 :: b2 :: b3 :: b4 :: b5 :: b6 :: b7 :: b8 :: b9 :: r) 0 4 =
        .ok [b0, b1, b2, b3] := by simp [slice]
    have hv : getU16 (b4 :: b5 :: b6 :: b7 :: b8 :: b9 :: r) =
        .ok (UInt16.ofNat (beNat [b4, b5])) := rfl
    have hlt : beNat [b4, b5] < 2^16 := by
      have := b4.toNat_lt; have := b5.toNat_lt; simp [beNat]; omega
    have hone : (UInt16.ofNat (beNat [b4, b5]) = 1) ↔ beNat [b4, b5] = 1 := by
      rw [← UInt16.toNat_inj, UInt16.toNat_ofNat_lt hlt]; rfl
    have hs4 : sliceFrom (b0 :: b1 :: b2 :: b3 :: b4 :: b5 :: b6 :: b7 :: b8 :: b9 :: r) 4 =
        .ok (b4 :: b5 :: b6 :: b7 :: b8 :: b9 :: r) := by simp [sliceFrom]
    unfold fromBytes
    simp only [hm, Go.bind_ok, List.take_succ_cons, List.take_zero, List.drop_succ_cons,
      List.drop_zero, hs4, hv, ne_eq]
    by_cases hmg : [b0, b1, b2, b3] = magic
    · have hmg' : [b0, b1, b2, b3] = [0x00, 0x77, 0x72, 0x73] := hmg
      have hmm : magic = [0x00, 0x77, 0x72, 0x73] := rfl
      simp only [hmg, not_true_eq_false, if_false]
      by_cases hv1 : beNat [b4, b5] = 1
      · have hno : ∀ m, (do
            let buf ← sliceFrom (b4 :: b5 :: b6 :: b7 :: b8 :: b9 :: r) 2
            let numOps ← getU32 buf
            let buf ← sliceFrom buf 4
            readEntries numOps.toNat buf) ≠ .err m := by
          intro m
          simp only [sliceFrom, List.length_cons, show 2 ≤ r.length + 1 + 1 + 1 + 1 + 1 + 1 by omega,
            if_true, List.drop_succ_cons, List.drop_zero, Go.bind_ok, getU32,
            show 4 ≤ r.length + 1 + 1 + 1 + 1 by omega]
          exact readEntries_ne_err _ _ _
        rw [if_neg (by rw [hone.mpr hv1]; simp)]
        exact ⟨⟨fun h => absurd h (hno _), fun h => absurd hmm h⟩,
          ⟨fun ⟨m, hm, _⟩ => absurd hm (hno m), fun h => absurd hv1 h.2⟩⟩
      · have hv1' : ¬ UInt16.ofNat (beNat [b4, b5]) = 1 := mt hone.mp hv1
        rw [if_pos hv1']
        exact ⟨⟨fun h => absurd (Go.err.inj h) (toString_ne _), fun h => absurd hmm h⟩,
          ⟨fun _ => ⟨hmm, hv1⟩, fun _ => ⟨_, rfl, toString_ne _⟩⟩⟩
    · have hmg' : ¬ [b0, b1, b2, b3] = [0x00, 0x77, 0x72, 0x73] := hmg
      simp only [hmg, hmg', not_false_eq_true, if_true, false_and, iff_true, iff_false]
      exact ⟨trivial, fun ⟨m, hm, hne⟩ => hne (Go.err.inj hm).symm⟩

/-- C16: a table is returned only for the right magic and version (whatever the length). -/
theorem C16_table_only_if_valid (buf : Bytes) (t : Table) (h : fromBytes buf = .ok t) :
    buf.take 4 = [0x00, 0x77, 0x72, 0x73] ∧ beNat ((buf.drop 4).take 2) = 1 := by
  by_cases h10 : 10 ≤ buf.length
  · have ⟨h1, h2⟩ := C16_table_rejects buf h10
    constructor
    · refine Decidable.byContradiction fun hne => ?_
      rw [h1.mpr hne] at h; cases h
    · refine Decidable.byContradiction fun hne => ?_
      by_cases hm : buf.take 4 = [0x00, 0x77, 0x72, 0x73]
      · obtain ⟨m, e, _⟩ := h2.mpr ⟨hm, hne⟩
        rw [e] at h; cases h
      · rw [h1.mpr hm] at h; cases h
  · exfalso
    revert h
    unfold fromBytes
    cases hs : slice buf 0 4 with
    | ok m =>
      simp only [Go.bind_ok]
      split
      · intro h; cases h
      · cases hs4 : sliceFrom buf 4 with
        | ok b1 =>
          simp only [Go.bind_ok]
          cases hg : getU16 b1 with
          | ok v =>
            simp only [Go.bind_ok]
            split
            · intro h; cases h
            · cases hs2 : sliceFrom b1 2 with
              | ok b2 =>
                simp only [Go.bind_ok]
                have hb2 : b2.length < 4 := by
                  unfold sliceFrom at hs4 hs2
                  split at hs4 <;> split at hs2 <;> cases hs4 <;> cases hs2
                  simp; omega
                have : getU32 b2 = .panic := by
                  match b2, hb2 with
                  | [], _ => rfl
                  | [_], _ => rfl
                  | [_, _], _ => rfl
                  | [_, _, _], _ => rfl
                rw [this]
                intro h; cases h
              | err e => intro h; cases h
              | panic => intro h; cases h
          | err e => intro h; cases h
          | panic => intro h; cases h
        | err e => intro h; cases h
        | panic => intro h; cases h
    | err e => intro h; cases h
    | panic => intro h; cases h

example : fromBytes [0, 0x77, 0x72, 0x73, 0, 2, 0, 0, 0, 0] = .err (errVersion 2) ∧
    fromBytes [0, 0x77, 0x72, 0x74, 0, 1, 0, 0, 0, 0] = .err errInvalidMagic ∧
    fromBytes [0, 0x77, 0x72, 0x73, 0, 1, 0, 0, 0, 0] = .ok [] := by decide

/-! ## C17 -/

/-- C17 fails: truncated tables crash the parser (here: shorter than the magic; and a table that
announces an entry it does not contain). -/
theorem C17_table_no_crash_violated :
    (¬ ∀ buf, fromBytes buf ≠ .panic) ∧
    fromBytes [0, 0x77, 0x72, 0x73, 0, 1, 0, 0, 0, 1] = .panic := by
  refine ⟨fun h => h [] (by decide), by decide⟩

/-- C17, the part that holds: no crash on complete tables, even with reserved bytes in the
entries and arbitrary trailing bytes; nor on anything with a wrong magic or version. -/
theorem C17_table_no_crash_partial (buf : Bytes) (h : 10 ≤ buf.length)
    (hc : buf.take 4 ≠ [0x00, 0x77, 0x72, 0x73] ∨ beNat ((buf.drop 4).take 2) ≠ 1 ∨
      ∃ t rest, (∀ e ∈ t, opOk e.1 ∧ e.2.length < 65534) ∧ t.length < 2^32 ∧
        buf = Spec.tableWire t ++ rest) :
    fromBytes buf ≠ .panic := by
  rcases hc with h1 | h2 | ⟨t, rest, hok, hlen, rfl⟩
  · rw [(C16_table_rejects buf h).1.mpr h1]; simp
  · by_cases h1 : buf.take 4 = [0x00, 0x77, 0x72, 0x73]
    · obtain ⟨m, e, _⟩ := (C16_table_rejects buf h).2.mpr ⟨h1, h2⟩
      rw [e]; simp
    · rw [(C16_table_rejects buf h).1.mpr h1]; simp
  · rw [fromBytes_ok t rest hok hlen]; simp

/-! ### C17, exactly -/

/-- The 16-bit number at an offset. -/
def num16At (b : Bytes) (i : Nat) : Nat := beNat ((b.drop i).take 2)

/-- How many bytes the entry at the start of `b` takes, when it is complete: type, direction, index (6 bytes), two
counted names and a counted reserved block. The block's count and its two count bytes are added up in 16 bits. -/
def entrySize (b : Bytes) : Option Nat :=
  let upToNames := 10 + num16At b 6 + num16At b (8 + num16At b 6)
  let all := upToNames + (2 + num16At b upToNames) % 65536
  if upToNames + 2 ≤ b.length ∧ all ≤ b.length then some all else none

/-- `b` starts with `n` complete entries. -/
def entriesFit : Nat → Bytes → Prop
  | 0, _ => True
  | n + 1, b => ∃ k, entrySize b = some k ∧ entriesFit n (b.drop k)

/-- Everything `buf` announces is there: the magic number; if it is the right one, the version; if that is 1, the number of
entries, and the entries. -/
def tableComplete (buf : Bytes) : Prop :=
  4 ≤ buf.length ∧ (buf.take 4 = [0x00, 0x77, 0x72, 0x73] → 6 ≤ buf.length ∧ (num16At buf 4 = 1 →
    10 ≤ buf.length ∧ entriesFit (beNat ((buf.drop 6).take 4)) (buf.drop 10)))

theorem getU16_eq (b : Bytes) : getU16 b = if 2 ≤ b.length then .ok (UInt16.ofNat (beNat (b.take 2))) else .panic := by
  match b with
  | [] => rfl
  | [_] => rfl
  | a :: c :: r => simp [getU16]

theorem getU32_eq (b : Bytes) : getU32 b = if 4 ≤ b.length then .ok (UInt32.ofNat (beNat (b.take 4))) else .panic := by
  match b with
  | [] => rfl
  | [_] => rfl
  | [_, _] => rfl
  | [_, _, _] => rfl
  | a :: c :: d :: e :: r => simp [getU32]

theorem beNat_two_lt (b : Bytes) : beNat (b.take 2) < 65536 := by
  match b with
  | [] => simp [beNat]
  | [a] => have := a.toNat_lt; simp [beNat]; omega
  | a :: c :: r => have := a.toNat_lt; have := c.toNat_lt; simp [beNat]; omega

theorem beNat_four_lt (b : Bytes) : beNat (b.take 4) < 2^32 := by
  match b with
  | [] => simp [beNat]
  | [a] => have := a.toNat_lt; simp [beNat]; omega
  | [a, c] => have := a.toNat_lt; have := c.toNat_lt; simp [beNat]; omega
  | [a, c, d] => have := a.toNat_lt; have := c.toNat_lt; have := d.toNat_lt; simp [beNat]; omega
  | a :: c :: d :: e :: r =>
    have := a.toNat_lt; have := c.toNat_lt; have := d.toNat_lt; have := e.toNat_lt; simp [beNat]; omega

theorem num16_toNat (b : Bytes) (i : Nat) : (UInt16.ofNat (beNat ((b.drop i).take 2))).toNat = num16At b i := by
  rw [UInt16.toNat_ofNat_lt (beNat_two_lt _)]; rfl

theorem readEntry_exact (b : Bytes) :
    (entrySize b = none ∧ readEntry b = .panic) ∨
    (∃ k o, entrySize b = some k ∧ readEntry b = .ok (o, b.drop k)) := by
  by_cases h8 : 8 ≤ b.length
  · have e0 : ∃ x, index b 0 = .ok x := ⟨b[0]'(by omega), by unfold index; rw [List.getElem?_eq_getElem (by omega)]⟩
    have e1 : ∃ x, index b 1 = .ok x := ⟨b[1]'(by omega), by unfold index; rw [List.getElem?_eq_getElem (by omega)]⟩
    obtain ⟨x0, e0⟩ := e0
    obtain ⟨x1, e1⟩ := e1
    have e2 : slice b 2 6 = .ok ((b.drop 2).take 4) := by
      unfold slice; rw [if_pos ⟨by omega, by omega⟩, List.drop_take]
    have e3 : ∃ x, getU32 ((b.drop 2).take 4) = .ok x := ⟨_, by rw [getU32_eq, if_pos (by simp; omega)]⟩
    obtain ⟨x3, e3⟩ := e3
    have e4 : slice b 6 8 = .ok ((b.drop 6).take 2) := by
      unfold slice; rw [if_pos ⟨by omega, by omega⟩, List.drop_take]
    have e5 : getU16 ((b.drop 6).take 2) = .ok (UInt16.ofNat (beNat ((b.drop 6).take 2))) := by
      rw [getU16_eq, if_pos (by simp; omega), List.take_take]; rfl
    have e6 : sliceFrom b 8 = .ok (b.drop 8) := by unfold sliceFrom; rw [if_pos h8]
    unfold readEntry
    simp only [e0, e1, e2, e3, e4, e5, e6, Go.bind_ok, num16_toNat]
    by_cases hn : 8 + num16At b 6 ≤ b.length
    · have f1 : sliceTo (b.drop 8) (num16At b 6) = .ok ((b.drop 8).take (num16At b 6)) := by
        unfold sliceTo; rw [if_pos (by simp; omega)]
      have f2 : sliceFrom (b.drop 8) (num16At b 6) = .ok (b.drop (8 + num16At b 6)) := by
        unfold sliceFrom; rw [if_pos (by simp; omega), List.drop_drop]
      simp only [f1, f2, Go.bind_ok]
      by_cases hn2 : 10 + num16At b 6 ≤ b.length
      · have f3 : slice (b.drop (8 + num16At b 6)) 0 2 = .ok ((b.drop (8 + num16At b 6)).take 2) := by
          unfold slice; rw [if_pos ⟨by omega, by simp; omega⟩, List.drop_zero]
        have f4 : getU16 ((b.drop (8 + num16At b 6)).take 2) = .ok (UInt16.ofNat (beNat ((b.drop (8 + num16At b 6)).take 2))) := by
          rw [getU16_eq, if_pos (by simp; omega), List.take_take]; rfl
        have f5 : sliceFrom (b.drop (8 + num16At b 6)) 2 = .ok (b.drop (10 + num16At b 6)) := by
          unfold sliceFrom; rw [if_pos (by simp; omega), List.drop_drop]; congr 2; omega
        simp only [f3, f4, f5, Go.bind_ok, num16_toNat]
        by_cases ho : 10 + num16At b 6 + num16At b (8 + num16At b 6) ≤ b.length
        · have f6 : ∃ x, sliceTo (b.drop (10 + num16At b 6)) (num16At b (8 + num16At b 6)) = .ok x :=
            ⟨_, by unfold sliceTo; rw [if_pos (by simp; omega)]⟩
          obtain ⟨x6, f6⟩ := f6
          have f7 : sliceFrom (b.drop (10 + num16At b 6)) (num16At b (8 + num16At b 6)) =
              .ok (b.drop (10 + num16At b 6 + num16At b (8 + num16At b 6))) := by
            unfold sliceFrom; rw [if_pos (by simp; omega), List.drop_drop]
          simp only [f6, f7, Go.bind_ok]
          by_cases ho2 : 10 + num16At b 6 + num16At b (8 + num16At b 6) + 2 ≤ b.length
          · have f8 : getU16 (b.drop (10 + num16At b 6 + num16At b (8 + num16At b 6))) =
                .ok (UInt16.ofNat (beNat ((b.drop (10 + num16At b 6 + num16At b (8 + num16At b 6))).take 2))) := by
              rw [getU16_eq, if_pos (by simp; omega)]
            have f9 : (2 + UInt16.ofNat (beNat ((b.drop (10 + num16At b 6 + num16At b (8 + num16At b 6))).take 2))).toNat =
                (2 + num16At b (10 + num16At b 6 + num16At b (8 + num16At b 6))) % 65536 := by
              rw [UInt16.toNat_add, num16_toNat]; rfl
            simp only [f8, Go.bind_ok, f9]
            by_cases hr : 10 + num16At b 6 + num16At b (8 + num16At b 6) +
                (2 + num16At b (10 + num16At b 6 + num16At b (8 + num16At b 6))) % 65536 ≤ b.length
            · right
              refine ⟨_, ⟨x3, x0, x1, (b.drop 8).take (num16At b 6), x6⟩, by unfold entrySize; simp only; rw [if_pos ⟨ho2, hr⟩], ?_⟩
              unfold sliceFrom
              rw [if_pos (by simp; omega), List.drop_drop]
              rfl
            · left
              refine ⟨by unfold entrySize; simp only; rw [if_neg (fun h => hr h.2)], ?_⟩
              unfold sliceFrom
              rw [if_neg (by simp; omega)]
              rfl
          · left
            refine ⟨by unfold entrySize; simp only; rw [if_neg (fun h => ho2 h.1)], ?_⟩
            rw [getU16_eq, if_neg (by simp; omega)]
            rfl
        · left
          refine ⟨by unfold entrySize; simp only; rw [if_neg (fun h => ho (by omega))], ?_⟩
          unfold sliceTo
          rw [if_neg (by simp; omega)]
          rfl
      · left
        refine ⟨by unfold entrySize; simp only; rw [if_neg (fun h => hn2 (by omega))], ?_⟩
        unfold slice
        rw [if_neg (by simp; omega)]
        rfl
    · left
      refine ⟨by unfold entrySize; simp only; rw [if_neg (fun h => hn (by omega))], ?_⟩
      unfold sliceTo
      rw [if_neg (by simp; omega)]
      rfl
  · left
    refine ⟨by unfold entrySize; simp only; rw [if_neg (fun h => h8 (by omega))], ?_⟩
    unfold readEntry
    have hp : ∀ {α β : Type} (x : Go α) (f : α → Go β), (∀ m, x ≠ .err m) → (∀ a, f a = .panic) → (x >>= f) = .panic := by
      intro α β x f hx hf
      cases x with
      | ok a => exact hf a
      | err e => exact absurd rfl (hx e)
      | panic => rfl
    refine hp _ _ (by intro m h; unfold index at h; split at h <;> cases h) (fun _ => ?_)
    refine hp _ _ (by intro m h; unfold index at h; split at h <;> cases h) (fun _ => ?_)
    refine hp _ _ (by intro m h; unfold slice at h; split at h <;> cases h) (fun _ => ?_)
    refine hp _ _ (by intro m h; unfold getU32 at h; split at h <;> cases h) (fun _ => ?_)
    have : slice b 6 8 = .panic := by unfold slice; rw [if_neg (fun h => h8 h.2)]
    rw [this]; rfl

theorem readEntries_exact (n : Nat) : ∀ b : Bytes, readEntries n b ≠ .panic ↔ entriesFit n b := by
  induction n with
  | zero => intro b; simp [readEntries, entriesFit]
  | succ n ih =>
    intro b
    simp only [readEntries, entriesFit]
    rcases readEntry_exact b with ⟨h1, h2⟩ | ⟨k, o, h1, h2⟩
    · simp [h1, h2]
    · simp only [h1, h2, Go.bind_ok, Option.some.injEq, exists_eq_left']
      rw [← ih]
      cases readEntries n (b.drop k) <;> simp

/-- C17, exactly: the parser crashes on precisely the inputs which end before what they announce. -/
theorem C17_exact_partial (buf : Bytes) : fromBytes buf ≠ .panic ↔ tableComplete buf := by
  unfold fromBytes tableComplete
  by_cases h4 : 4 ≤ buf.length
  · have e1 : slice buf 0 4 = .ok (buf.take 4) := by unfold slice; rw [if_pos ⟨by omega, h4⟩]; rfl
    simp only [e1, Go.bind_ok, h4, true_and]
    by_cases hm : buf.take 4 = magic
    · have hm' : buf.take 4 = [0x00, 0x77, 0x72, 0x73] := hm
      rw [if_neg (fun h => h hm)]
      have e2 : sliceFrom buf 4 = .ok (buf.drop 4) := by unfold sliceFrom; rw [if_pos h4]
      simp only [e2, Go.bind_ok, hm', true_implies]
      by_cases h6 : 6 ≤ buf.length
      · have e3 : getU16 (buf.drop 4) = .ok (UInt16.ofNat (beNat ((buf.drop 4).take 2))) := by
          rw [getU16_eq, if_pos (by simp; omega)]
        simp only [e3, Go.bind_ok, h6, true_and]
        have hone : (UInt16.ofNat (beNat ((buf.drop 4).take 2)) = 1) ↔ num16At buf 4 = 1 := by
          rw [← UInt16.toNat_inj, num16_toNat]; rfl
        by_cases hv : num16At buf 4 = 1
        · rw [if_neg (by rw [hone.mpr hv]; simp)]
          have e4 : sliceFrom (buf.drop 4) 2 = .ok (buf.drop 6) := by
            unfold sliceFrom; rw [if_pos (by simp; omega), List.drop_drop]
          simp only [e4, Go.bind_ok, hv, true_implies]
          by_cases h10 : 10 ≤ buf.length
          · have e5 : getU32 (buf.drop 6) = .ok (UInt32.ofNat (beNat ((buf.drop 6).take 4))) := by
              rw [getU32_eq, if_pos (by simp; omega)]
            have e6 : sliceFrom (buf.drop 6) 4 = .ok (buf.drop 10) := by
              unfold sliceFrom; rw [if_pos (by simp; omega), List.drop_drop]
            simp only [e5, e6, Go.bind_ok, h10, true_and, UInt32.toNat_ofNat_of_lt' (beNat_four_lt _)]
            exact readEntries_exact _ _
          · have e5 : getU32 (buf.drop 6) = .panic := by rw [getU32_eq, if_neg (by simp; omega)]
            simp [e5, h10]
        · rw [if_pos (fun h => hv (hone.mp h))]
          simp [hv]
      · have e3 : getU16 (buf.drop 4) = .panic := by rw [getU16_eq, if_neg (by simp; omega)]
        simp [e3, h6]
    · have hm' : buf.take 4 ≠ [0x00, 0x77, 0x72, 0x73] := hm
      rw [if_pos hm]
      simp [hm']
  · have : slice buf 0 4 = .panic := by unfold slice; rw [if_neg (fun h => h4 h.2)]
    simp [this, h4]

/-- A complete table of one entry with a reserved byte and a byte after it, and the same one cut short by two. -/
example : tableComplete [0, 0x77, 0x72, 0x73, 0, 1, 0, 0, 0, 1, 1, 1, 0, 0, 0, 7, 0, 1, 97, 0, 1, 98, 0, 1, 5, 9] ∧
    ¬ tableComplete [0, 0x77, 0x72, 0x73, 0, 1, 0, 0, 0, 1, 1, 1, 0, 0, 0, 7, 0, 1, 97, 0, 1, 98, 0, 1] := by
  refine ⟨(C17_exact_partial _).mp (by decide), fun h => (C17_exact_partial _).mpr h (by decide)⟩

/-! ## C74: reserved bytes -/

/-- C74 as stated in English: reserved blocks of any length (16 bit) and trailing bytes are
skipped. -/
def C74_statement : Prop :=
  ∀ (t : List (Operation × Bytes)) (rest : Bytes),
    (∀ e ∈ t, opOk e.1 ∧ e.2.length < 2^16) → t.length < 2^32 →
    fromBytes (Spec.tableWire t ++ rest) = .ok (t.map (·.1))

/-- C74 for reserved blocks shorter than 65534 bytes. Missing: 65534 and 65535 bytes (fail). -/
theorem C74_table_reserved_partial (t : List (Operation × Bytes)) (rest : Bytes)
    (hok : ∀ e ∈ t, opOk e.1 ∧ e.2.length < 65534) (hlen : t.length < 2^32) :
    fromBytes (Spec.tableWire t ++ rest) = .ok (t.map (·.1)) :=
  fromBytes_ok t rest hok hlen

example : ∃ t : List (Operation × Bytes), t.length = 2 ∧
    (∀ e ∈ t, opOk e.1 ∧ e.2.length < 65534) ∧ t.length < 2^32 :=
  ⟨[(⟨0, 1, 1, [97, 98], [99]⟩, [1, 2, 3]), (⟨7, 3, 2, [], [120]⟩, [])], by decide⟩

/-- C74 fails for a reserved block of 65534 bytes: its length is added to 2 in 16 bits, so the
block is not skipped; here the second entry is read from inside it. -/
theorem C74_table_reserved_violated : ¬ C74_statement := by
  intro hst
  have h := hst [(⟨0, 1, 1, [], []⟩, List.replicate 65534 0), (⟨7, 3, 2, [], []⟩, [])] []
    (by intro e he
        simp only [List.mem_cons, List.not_mem_nil, or_false] at he
        rcases he with rfl | rfl
        · refine ⟨by decide, ?_⟩
          show (List.replicate 65534 (0 : UInt8)).length < _
          rw [List.length_replicate]; omega
        · exact ⟨by decide, by decide⟩) (by show 2 < 2^32; omega)
  obtain ⟨z, hz⟩ : ∃ z, z = List.replicate 65520 (0 : UInt8) := ⟨_, rfl⟩
  have hr : List.replicate 65534 (0 : UInt8) = [0, 0, 0, 0, 0, 0, 0, 0, 0, 0, 0, 0, 0, 0] ++ z := by
    rw [hz, show ([0, 0, 0, 0, 0, 0, 0, 0, 0, 0, 0, 0, 0, 0] : Bytes) = List.replicate 14 0 from rfl,
      List.replicate_append_replicate]
  have hl : (List.replicate 65534 (0 : UInt8)).length = 65534 := by rw [List.length_replicate]
  have hw : Spec.tableWire [(⟨0, 1, 1, [], []⟩, List.replicate 65534 0), (⟨7, 3, 2, [], []⟩, [])] ++ [] =
      [0, 0x77, 0x72, 0x73, 0, 1, 0, 0, 0, 2] ++ ([1, 1, 0, 0, 0, 0, 0, 0, 0, 0, 0xFF, 0xFE] ++
        ([0, 0, 0, 0, 0, 0, 0, 0, 0, 0, 0, 0, 0, 0] ++ (z ++ Spec.entryWire ⟨7, 3, 2, [], []⟩ []))) := by
    simp only [Spec.tableWire, Spec.entryWire, List.map_cons, List.map_nil, hl]
    rw [hr]
    simp [Spec.bigEndian]
  rw [hw] at h
  generalize z ++ Spec.entryWire ⟨7, 3, 2, [], []⟩ [] = tail at h
  have e : fromBytes ([0, 0x77, 0x72, 0x73, 0, 1, 0, 0, 0, 2] ++
      ([1, 1, 0, 0, 0, 0, 0, 0, 0, 0, 0xFF, 0xFE] ++
        ([0, 0, 0, 0, 0, 0, 0, 0, 0, 0, 0, 0, 0, 0] ++ tail))) =
      .ok [⟨0, 1, 1, [], []⟩, ⟨0, 0xFF, 0xFE, [], []⟩] := by
    rfl
  rw [e] at h
  simp only [List.map_cons, List.map_nil, Go.ok.injEq, List.cons.injEq, Operation.mk.injEq] at h
  exact absurd h.2.1.2.1 (by decide)

end Verif.Props
