import Verif.Props.MsgpackColl
import Verif.Props.MsgpackOverflow
import Verif.Props.Invoke
import Verif.Model.Transforms
/-
Property C129: the transforms of slices, maps, values with a text form, and object references.
-/
set_option autoImplicit false
namespace Verif.Props
open Verif Spec Msgpack
open Verif.Invoke (Live LiveOp)

/-! ## Specification -/

/-- C129 as stated in English, for element writers and readers that round-trip on every element; the payload has less than 4 GiB.
The two orders in which a map is visited are any two. -/
def C129_statement : Prop :=
  (∀ (α : Type) (f : α → List Call) (r : Rd α) (l : List α), l.length < 2^32 → (∀ a ∈ l, RoundTrips f r a) →
    (∃ w, Writes (writeCalls (writeSlice f l)) w ∧ w.length < 2^32) →
    ∃ p d, sliceEncode f l = .ok p ∧ sliceDecode r p = .ok l d ∧ d.off.toNat = p.length) ∧
  (∀ (κ ν : Type) (_ : BEq κ) (kf : κ → List Call) (vf : ν → List Call) (kr : Rd κ) (vr : Rd ν) (m m' : List (κ × ν)),
    m.Perm m' → m.length < 2^32 → (m'.Pairwise fun a b => (a.1 == b.1) = false) →
    (∀ e ∈ m, RoundTrips kf kr e.1 ∧ RoundTrips vf vr e.2) →
    (∃ w, Writes (writeCalls (writeMap kf vf m')) w ∧ w.length < 2^32) →
    ∃ p d, mapEncode kf vf m m' = .ok p ∧ mapDecode kr vr p = .ok m' d ∧ d.off.toNat = p.length)

/-- The value `a` is written as `w` and read back from it, and the Sizer counts `k` bytes too many. -/
def Spends {α : Type} (f : α → List Call) (r : Rd α) (a : α) (w : Bytes) (k : Nat) : Prop :=
  Writes (writeCalls (f a)) w ∧ Reads r w a ∧ ∀ s, Sizer.writeCalls (f a) s = s + UInt32.ofNat (w.length + k)

/-! ## Sizes -/

theorem sizer_calls_append (a b : List Call) (s : UInt32) :
    Sizer.writeCalls (a ++ b) s = Sizer.writeCalls b (Sizer.writeCalls a s) := by
  induction a generalizing s with
  | nil => rfl
  | cons c a ih => exact ih _

theorem sizer_flat {α : Type} {f : α → List Call} {n : α → Nat} (l : List α)
    (h : ∀ a ∈ l, ∀ s, Sizer.writeCalls (f a) s = s + UInt32.ofNat (n a)) (s : UInt32) :
    Sizer.writeCalls (l.flatMap f) s = s + UInt32.ofNat (l.map n).sum := by
  induction l generalizing s with
  | nil => show s = s + UInt32.ofNat 0; simp
  | cons a l ih =>
    rw [List.flatMap_cons, sizer_calls_append, h a List.mem_cons_self, ih fun b hb => h b (List.mem_cons_of_mem _ hb),
      List.map_cons, List.sum_cons, UInt32.ofNat_add, UInt32.add_assoc]

theorem perm_sum {l l' : List Nat} (h : l.Perm l') : l.sum = l'.sum := by
  induction h with
  | nil => rfl
  | cons a _ ih => simp only [List.sum_cons, ih]
  | swap a b l => simp only [List.sum_cons]; omega
  | trans _ _ h1 h2 => exact h1.trans h2

theorem sum_split {α : Type} (l : List α) (w : α → Bytes) (k : α → Nat) :
    (l.map fun a => (w a).length + k a).sum = (l.flatMap w).length + (l.map k).sum := by
  induction l with
  | nil => rfl
  | cons a l ih => simp only [List.map_cons, List.sum_cons, List.flatMap_cons, List.length_append, ih]; omega

theorem writes_flat {α : Type} {f : α → List Call} {w : α → Bytes} (l : List α)
    (h : ∀ a ∈ l, Writes (writeCalls (f a)) (w a)) : Writes (writeCalls (l.flatMap f)) (l.flatMap w) := by
  induction l with
  | nil => exact writes_nil
  | cons a l ih =>
    rw [List.flatMap_cons, List.flatMap_cons, writeCalls_append]
    exact (h a List.mem_cons_self).seq (ih fun b hb => h b (List.mem_cons_of_mem _ hb))

theorem reads_flat {α : Type} {r : Rd α} {w : α → Bytes} (l : List α) (h : ∀ a ∈ l, Reads r (w a) a) :
    Reads (readElems r l.length) (l.flatMap w) l := by
  induction l with
  | nil => exact Reads.pure []
  | cons a l ih =>
    exact (h a List.mem_cons_self).bind
      (Reads.map (g := fun l => a :: l) (ih fun b hb => h b (List.mem_cons_of_mem _ hb)))

theorem reads_entries {κ ν : Type} [BEq κ] {kr : Rd κ} {vr : Rd ν} {kw : κ → Bytes} {vw : ν → Bytes} (m : List (κ × ν))
    (h : ∀ e ∈ m, Reads kr (kw e.1) e.1 ∧ Reads vr (vw e.2) e.2) (hd : m.Pairwise fun a b => (a.1 == b.1) = false)
    (acc : List (κ × ν)) (ha : ∀ e ∈ acc, ∀ f ∈ m, (e.1 == f.1) = false) :
    Reads (readEntries kr vr m.length acc) (m.flatMap fun e => kw e.1 ++ vw e.2) (acc ++ m) := by
  induction m generalizing acc with
  | nil => rw [List.append_nil]; exact Reads.pure acc
  | cons e m ih =>
    rw [List.pairwise_cons] at hd
    have c2 := ih (fun x hx => h x (by simp [hx])) hd.2 (acc ++ [e]) (by
      intro x hx f hf
      rw [List.mem_append, List.mem_singleton] at hx
      rcases hx with hx | rfl
      · exact ha x hx f (by simp [hf])
      · exact hd.1 f hf)
    rw [List.flatMap_cons, List.append_assoc]
    refine (h e List.mem_cons_self).1.bind ((h e List.mem_cons_self).2.bind ?_)
    rw [assign_new fun x hx => ha x hx e List.mem_cons_self]
    rw [List.append_assoc] at c2
    exact c2

/-- Writing into a buffer with `k` bytes too many, and reading from it. -/
theorem padded {cs : List Call} {w : Bytes} (k : Nat) (hw : Writes (writeCalls cs) w) (hl : w.length + k < 2^32) :
    writeCalls cs (DR.new (List.replicate (w.length + k) 0)) =
      .ok ⟨w ++ List.replicate k 0, UInt32.ofNat w.length, none⟩ := by
  have := hw [] (List.replicate w.length 0) (List.replicate k 0) List.length_replicate
    (by simp only [List.nil_append, List.length_append, List.length_replicate]; exact hl)
  rw [List.replicate_append_replicate] at this
  exact this

theorem padded_read {α : Type} {r : Rd α} {w : Bytes} {a : α} (k : Nat) (hr : Reads r w a) (hl : w.length + k < 2^32) :
    ∃ d, r (DR.new (w ++ List.replicate k 0)) = .ok a d ∧ d.off.toNat = w.length := by
  refine ⟨_, hr [] (List.replicate k 0) (by
    simp only [List.nil_append, List.length_append, List.length_replicate]; exact hl), ?_⟩
  show (UInt32.ofNat ([] ++ w).length).toNat = _
  rw [List.nil_append, UInt32.toNat_ofNat_lt (by omega)]

/-! ## C129 -/

/-- C129 for slices, exactly: `SliceEncode` and `SliceDecode` give the slice back; the payload is the encoding followed by one
zero byte for every byte that the Sizer counts too many. -/
theorem C129_slice_exact {α : Type} (f : α → List Call) (r : Rd α) (w : α → Bytes) (k : α → Nat) (l : List α)
    (hl : l.length < 2^32) (h : ∀ a ∈ l, Spends f r a (w a) (k a))
    (hb : (arrHead l.length ++ l.flatMap w).length + (l.map k).sum < 2^32) :
    let p := arrHead l.length ++ l.flatMap w ++ List.replicate (l.map k).sum 0
    sliceEncode f l = .ok p ∧ ∃ d, sliceDecode r p = .ok l d ∧ d.off.toNat + (l.map k).sum = p.length := by
  have hn : (UInt32.ofNat l.length).toNat = l.length := UInt32.toNat_ofNat_lt hl
  have hh := sized_arraySize (UInt32.ofNat l.length)
  rw [hn] at hh
  have hw : Writes (writeCalls (writeSlice f l)) (arrHead l.length ++ l.flatMap w) :=
    hh.1.seq (writes_flat l fun a ha => (h a ha).1)
  have hz : (Sizer.writeCalls (writeSlice f l) 0).toNat = (arrHead l.length ++ l.flatMap w).length + (l.map k).sum := by
    show (Sizer.writeCalls (l.flatMap f) (Sizer.writeArraySize (UInt32.ofNat l.length) 0)).toNat = _
    rw [sizer_flat (n := fun a => (w a).length + k a) l fun a ha => (h a ha).2.2, hh.2, UInt32.zero_add, ← UInt32.ofNat_add,
      sum_split]
    rw [List.length_append] at hb ⊢
    rw [UInt32.toNat_ofNat_lt (by omega)]
    omega
  have hr : Reads (readSlice r) (arrHead l.length ++ l.flatMap w) l := by
    have h1 := readArraySize_reads (UInt32.ofNat l.length)
    rw [hn] at h1
    refine h1.bind ?_
    rw [hn]
    exact reads_flat l fun a ha => (h a ha).2.1
  refine ⟨?_, ?_⟩
  · unfold sliceEncode toBytesChecked
    rw [hz, padded _ hw hb]
    rfl
  · obtain ⟨d, h1, h2⟩ := padded_read _ hr hb
    exact ⟨d, h1, by rw [h2, List.length_append (bs := List.replicate _ _), List.length_replicate]⟩

/-- C129 for maps, exactly: whatever the two orders in which the map is visited, `MapEncode` and `MapDecode` give it back. -/
theorem C129_map_exact {κ ν : Type} [BEq κ] (kf : κ → List Call) (vf : ν → List Call) (kr : Rd κ) (vr : Rd ν)
    (kw : κ → Bytes) (vw : ν → Bytes) (kk : κ → Nat) (vk : ν → Nat) (m m' : List (κ × ν)) (hp : m.Perm m')
    (hl : m.length < 2^32) (hd : m'.Pairwise fun a b => (a.1 == b.1) = false)
    (h : ∀ e ∈ m, Spends kf kr e.1 (kw e.1) (kk e.1) ∧ Spends vf vr e.2 (vw e.2) (vk e.2))
    (hb : (mapHead m.length ++ m'.flatMap fun e => kw e.1 ++ vw e.2).length + (m.map fun e => kk e.1 + vk e.2).sum < 2^32) :
    let p := (mapHead m.length ++ m'.flatMap fun e => kw e.1 ++ vw e.2) ++
      List.replicate (m.map fun e => kk e.1 + vk e.2).sum 0
    mapEncode kf vf m m' = .ok p ∧
      ∃ d, mapDecode kr vr p = .ok m' d ∧ d.off.toNat + (m.map fun e => kk e.1 + vk e.2).sum = p.length := by
  have hlen : m'.length = m.length := hp.length_eq.symm
  have hn : (UInt32.ofNat m.length).toNat = m.length := UInt32.toNat_ofNat_lt hl
  have h' : ∀ e ∈ m', Spends kf kr e.1 (kw e.1) (kk e.1) ∧ Spends vf vr e.2 (vw e.2) (vk e.2) :=
    fun e he => h e (hp.mem_iff.2 he)
  have hh := sized_mapSize (UInt32.ofNat m.length)
  rw [hn] at hh
  have hw : Writes (writeCalls (writeMap kf vf m')) (mapHead m.length ++ m'.flatMap fun e => kw e.1 ++ vw e.2) := by
    unfold writeMap
    rw [hlen]
    refine hh.1.seq (writes_flat m' fun e he => ?_)
    rw [writeCalls_append]
    exact (h' e he).1.1.seq (h' e he).2.1
  have hz : (Sizer.writeCalls (writeMap kf vf m) 0).toNat =
      (mapHead m.length ++ m'.flatMap fun e => kw e.1 ++ vw e.2).length + (m.map fun e => kk e.1 + vk e.2).sum := by
    show (Sizer.writeCalls (m.flatMap fun e => kf e.1 ++ vf e.2) (Sizer.writeMapSize (UInt32.ofNat m.length) 0)).toNat = _
    rw [sizer_flat (n := fun e => (kw e.1 ++ vw e.2).length + (kk e.1 + vk e.2)) m (fun e he s => by
        rw [sizer_calls_append, (h e he).2.2.2, (h e he).1.2.2, UInt32.add_assoc, ← UInt32.ofNat_add, List.length_append]
        congr 2; omega), hh.2, UInt32.zero_add, ← UInt32.ofNat_add, sum_split]
    have hf : (m.flatMap fun e => kw e.1 ++ vw e.2).length = (m'.flatMap fun e => kw e.1 ++ vw e.2).length := by
      rw [List.length_flatMap, List.length_flatMap]
      exact perm_sum (hp.map _)
    rw [hf]
    rw [List.length_append] at hb ⊢
    rw [UInt32.toNat_ofNat_lt (by omega)]
    omega
  have hr : Reads (readMapOf kr vr) (mapHead m.length ++ m'.flatMap fun e => kw e.1 ++ vw e.2) m' := by
    have h1 := readMapSize_reads (UInt32.ofNat m.length)
    rw [hn] at h1
    refine h1.bind ?_
    rw [hn, ← hlen]
    exact reads_entries m' (fun e he => ⟨(h' e he).1.2.1, (h' e he).2.2.1⟩) hd [] (fun e he => by cases he)
  refine ⟨?_, ?_⟩
  · unfold mapEncode
    rw [hz, padded _ hw hb]
    rfl
  · obtain ⟨d, h1, h2⟩ := padded_read _ hr hb
    exact ⟨d, h1, by rw [h2, List.length_append (bs := List.replicate _ _), List.length_replicate]⟩

/-- C129 for slices, partial: nothing is left over if the Sizer is right about every element. Missing: elements with byte arrays of
255 bytes (`C129_violated`; what happens then is `C129_slice_exact`). -/
theorem C129_slice_partial {α : Type} (f : α → List Call) (r : Rd α) (w : α → Bytes) (l : List α) (hl : l.length < 2^32)
    (h : ∀ a ∈ l, Spends f r a (w a) 0) (hb : (arrHead l.length ++ l.flatMap w).length < 2^32) :
    ∃ p d, sliceEncode f l = .ok p ∧ sliceDecode r p = .ok l d ∧ d.off.toNat = p.length := by
  have hz : (l.map fun _ => 0).sum = 0 := by
    clear hl h hb
    induction l with
    | nil => rfl
    | cons e l ih => simpa using ih
  obtain ⟨h1, d, h2, h3⟩ := C129_slice_exact f r w (fun _ => 0) l hl h (by rw [hz]; exact hb)
  exact ⟨_, d, h1, h2, by rw [← h3, hz]; rfl⟩

/-- C129 for maps, partial: likewise. -/
theorem C129_map_partial {κ ν : Type} [BEq κ] (kf : κ → List Call) (vf : ν → List Call) (kr : Rd κ) (vr : Rd ν)
    (kw : κ → Bytes) (vw : ν → Bytes) (m m' : List (κ × ν)) (hp : m.Perm m')
    (hl : m.length < 2^32) (hd : m'.Pairwise fun a b => (a.1 == b.1) = false)
    (h : ∀ e ∈ m, Spends kf kr e.1 (kw e.1) 0 ∧ Spends vf vr e.2 (vw e.2) 0)
    (hb : (mapHead m.length ++ m'.flatMap fun e => kw e.1 ++ vw e.2).length < 2^32) :
    ∃ p d, mapEncode kf vf m m' = .ok p ∧ mapDecode kr vr p = .ok m' d ∧ d.off.toNat = p.length := by
  have hz : (m.map fun _ : κ × ν => 0 + 0).sum = 0 := by
    clear hp hl h hb
    induction m with
    | nil => rfl
    | cons e m ih => simpa using ih
  obtain ⟨h1, d, h2, h3⟩ := C129_map_exact kf vf kr vr kw vw (fun _ => 0) (fun _ => 0) m m' hp hl hd h (by rw [hz]; exact hb)
  exact ⟨_, d, h1, h2, by rw [← h3, hz]; rfl⟩

/-- C129 for values with a text form: what `ToStringEncode` makes, `ToStringDecode` turns back if the text can be parsed to the
value. -/
theorem C129_text {T : Type} (text : T → Bytes) (parse : Bytes → Except String T) (v : T) (hp : parse (text v) = .ok v)
    (hl : (str (text v)).length < 2^32) :
    ∃ p d, toStringEncode text v = .ok p ∧ toStringDecode parse p = .ok v d ∧ d.off.toNat = p.length := by
  obtain ⟨p, d, h1, h2, h3⟩ := (C48_partial ⟨fun _ => 0, fun _ => none⟩).1 (text v) hl
  refine ⟨p, d, h1, ?_, h3⟩
  unfold toStringDecode
  rw [h2]
  dsimp only
  rw [hp]

/-- And a text that cannot be parsed gives the error of the parser. -/
theorem C129_text_refused {T : Type} (text : T → Bytes) (parse : Bytes → Except String T) (v : T) (e : String)
    (hp : parse (text v) = .error e) (hl : (str (text v)).length < 2^32) :
    ∃ p d, toStringEncode text v = .ok p ∧ toStringDecode parse p = .fail e d := by
  obtain ⟨p, d, h1, h2, h3⟩ := (C48_partial ⟨fun _ => 0, fun _ => none⟩).1 (text v) hl
  refine ⟨p, d, h1, ?_⟩
  unfold toStringDecode
  rw [h2]
  dsimp only
  rw [hp]

/-- C129 for a map that changes between the two visits: if what the second visit writes does not fit into the size found by the
first, `MapEncode` gives the range error, not a payload that is cut short. -/
theorem C129_map_grown {κ ν : Type} (kf : κ → List Call) (vf : ν → List Call) (m m' : List (κ × ν))
    (ht : timesCalls (writeMap kf vf m'))
    (hl : (Sizer.writeCalls (writeMap kf vf m) 0).toNat + (emitCalls (writeMap kf vf m')).length < 2^32)
    (hg : (Sizer.writeCalls (writeMap kf vf m) 0).toNat < (emitCalls (writeMap kf vf m')).length) :
    mapEncode kf vf m m' = .err errRange := by
  obtain ⟨d, h1, _, _, h4⟩ := C89_overflow (writeMap kf vf m')
    (List.replicate (Sizer.writeCalls (writeMap kf vf m) 0).toNat 0) ht (by rw [List.length_replicate]; exact hl)
  have he := (h4 (by rw [List.length_replicate]; exact hg)).1
  unfold mapEncode
  rw [h1]
  show (match d.err with | some e => Go.err e | none => Go.ok d.buf) = _
  rw [he]

/-- Whoever decodes the payload as a `uint64` (transform.go 365-369) and looks the handle up after any further history gets the
instance, as long as it has not been removed. -/
theorem C129_reference {T : Type} (mem : UInt64 → T) (before after : List (LiveOp T)) (inst : T) (addr : UInt64)
    (hv : (liveInit mem).validFrom (before ++ .put inst addr :: after)) (hr : .remove addr ∉ after) :
    ∃ p d h, (interfaceEncode ((liveInit mem).run before) inst addr).1 = .ok p ∧
      Transform.uint64.decode p = .ok h d ∧ d.off.toNat = p.length ∧
      ((interfaceEncode ((liveInit mem).run before) inst addr).2.run after).get h = some inst := by
  obtain ⟨p, d, h1, h2, h3⟩ := (C48_partial ⟨fun _ => 0, fun _ => none⟩).2.2.2.2.2.2.2.2.2.2.2.2.2.1 addr
  refine ⟨p, d, addr, h1, h2, h3, ?_⟩
  have key : ∀ (ops : List (LiveOp T)) (l : Live T), l.validFrom ops → .remove addr ∉ ops → l.get addr = some inst →
      (l.run ops).get addr = some inst := by
    intro ops
    induction ops with
    | nil => intro l _ _ h; exact h
    | cons op ops ih =>
      intro l hv hr hg
      refine ih (l.step op) hv.2 (fun h => hr (List.mem_cons_of_mem _ h)) ?_
      have hm : addr ∈ l.instances := by
        unfold Live.get at hg
        split at hg
        · assumption
        · cases hg
      cases op with
      | get id => exact hg
      | put i a =>
        have ha : a ∉ l.instances := hv.1
        have hne : addr ≠ a := fun e => ha (e ▸ hm)
        unfold Live.get at hg ⊢
        rw [if_pos hm] at hg
        show (if addr ∈ a :: l.instances then some (if addr = a then i else l.heap addr) else none) = _
        rw [if_pos (List.mem_cons_of_mem _ hm), if_neg hne]
        exact hg
      | remove id =>
        have hne : addr ≠ id := fun e => hr (e ▸ List.mem_cons_self)
        unfold Live.get at hg ⊢
        rw [if_pos hm] at hg
        show (if addr ∈ (l.remove id).2.instances then some ((l.remove id).2.heap addr) else none) = _
        unfold Live.remove
        split
        · rw [if_pos (by simp [hm, hne])]; exact hg
        · exact hg
  have hv' : ∀ (ops : List (LiveOp T)) (l : Live T), l.validFrom (ops ++ .put inst addr :: after) →
      ((l.run ops).put inst addr).2.validFrom after := by
    intro ops
    induction ops with
    | nil => intro l h; exact h.2
    | cons op ops ih => intro l h; exact ih _ h.2
  exact key after _ (hv' before _ hv) hr (by simp [interfaceEncode, Live.put, Live.get])

/-! ## Witness -/

theorem spends_bytes255 (b : Bytes) (h : b.length = 255) :
    Spends (fun b => [Call.bytes b]) readByteArray b (bin b) 1 := by
  refine ⟨writes_one (writeByteArray_writes b (by omega)), readByteArray_reads b (by omega), fun s => ?_⟩
  have hlen : (bin b).length = 257 := by
    unfold bin binHead; rw [if_pos (by omega)]; simp [be_len, h]
  show Sizer.writeByteArray b s = _
  unfold Sizer.writeByteArray
  rw [h, hlen]
  show s + 2 + (UInt32.ofNat 255 + 1) = s + UInt32.ofNat 258
  rw [UInt32.add_assoc]
  rfl

/-- C129 fails: a slice of one byte array of 255 bytes gets a payload with an extra byte. -/
theorem C129_violated : ¬ C129_statement := by
  intro h
  have hb : (List.replicate 255 (0 : UInt8)).length = 255 := List.length_replicate
  generalize List.replicate 255 (0 : UInt8) = b at hb
  have hs := spends_bytes255 b hb
  have hlen : (bin b).length = 257 := by
    unfold bin binHead; rw [if_pos (by omega)]; simp [be_len, hb]
  have hspec : ∀ a ∈ [b], Spends (fun b => [Call.bytes b]) readByteArray a (bin a) 1 := by
    intro a ha
    rw [List.mem_singleton.1 ha]; exact hs
  have hl : (arrHead [b].length ++ [b].flatMap bin).length = 258 := by
    rw [List.length_append]
    simp [hlen, arrHead]
  have h1 := C129_slice_exact _ _ bin (fun _ => 1) [b] (by simp) hspec (by rw [hl]; simp)
  dsimp only at h1
  obtain ⟨h1, d, h2, h3⟩ := h1
  obtain ⟨p, d', g1, g2, g3⟩ := h.1 Bytes (fun b => [Call.bytes b]) readByteArray [b] (by simp)
    (fun a ha => ⟨_, (hspec a ha).1, (hspec a ha).2.1⟩)
    ⟨_, (sized_arraySize 1).1.seq (writes_flat (w := bin) [b] fun a ha => (hspec a ha).1), by
      have : (arrHead (1 : UInt32).toNat ++ [b].flatMap bin).length = 258 := hl
      rw [this]; decide⟩
  rw [g1] at h1
  injection h1 with h1
  subst h1
  rw [h2] at g2
  injection g2 with _ g2
  subst g2
  have he : (List.map (fun _ : Bytes => 1) [b]).sum = 1 := by simp
  omega

/-! ## Cases -/

theorem spends_uint64 (v : UInt64) : Spends (fun v => [Call.uint64 v]) readUint64 v (Spec.uint v.toNat) 0 :=
  ⟨writes_one (writeUint64_writes v), readUint64_reads v _ (uint_form v), (sized_uint64 v).2⟩

theorem spends_string (s : Bytes) (h : (str s).length < 2^32) :
    Spends (fun s => [Call.str s]) readString s (str s) 0 := by
  have hl : s.length < 2^32 := by
    have : (str s).length = (strHead s.length).length + s.length := by unfold str; rw [List.length_append]
    omega
  exact ⟨writes_one (writeString_writes s hl), readString_reads s hl, (sized_str s h).2⟩

/-- A map from strings to numbers, visited in one order for its size and in the other for its contents. -/
example : ∃ p d, mapEncode (fun s => [Call.str s]) (fun v => [Call.uint64 v]) [([97], 1), ([98, 99], 300)]
      [([98, 99], 300), ([97], 1)] = .ok p ∧
    mapDecode readString readUint64 p = .ok [([98, 99], 300), ([97], 1)] d ∧ d.off.toNat = p.length :=
  C129_map_partial _ _ _ _ str (fun v => Spec.uint v.toNat) _ _ (by decide) (by decide) (by decide)
    (fun e he => ⟨spends_string _ (by revert e; decide), spends_uint64 _⟩) (by decide)

/-- A map that gets another entry between the two visits. -/
example : mapEncode (fun s => [Call.str s]) (fun v => [Call.uint64 v]) [([97], 1)] [([97], 1), ([98], 2)] = .err errRange :=
  C129_map_grown _ _ _ _ (by simp [writeMap, timesCalls, timesCall]) (by decide) (by decide)

/-- A text that is refused. -/
example : ∃ p d, toStringEncode (fun v : Bytes => v) [120] = .ok p ∧
    toStringDecode (fun b => if b = [49] then .ok b else .error "no number") p = .fail "no number" d :=
  C129_text_refused _ _ _ _ rfl (by decide)

/-- A slice of strings. -/
example : ∃ p d, sliceEncode (fun s => [Call.str s]) [[97], [], [98, 99]] = .ok p ∧
    sliceDecode readString p = .ok [[97], [], [98, 99]] d ∧ d.off.toNat = p.length :=
  C129_slice_partial _ _ str _ (by decide) (fun e he => spends_string _ (by revert e; decide)) (by decide)

/-- Two references, of which the other one is removed. -/
example : (liveInit fun _ => 'z').validFrom ([.put 'a' 16] ++ .put 'b' 32 :: [.remove 16, .put 'c' 16]) ∧
    LiveOp.remove 32 ∉ [LiveOp.remove 16, LiveOp.put 'c' 16] := by
  refine ⟨⟨?_, ?_, trivial, ?_, trivial⟩, by simp⟩ <;>
    simp [liveInit, Live.step, Live.put, Live.remove]

end Verif.Props
