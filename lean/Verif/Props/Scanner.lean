import Verif.Model.Scanner
import Verif.Lemmas.Ints
/-
Properties C49 (TCP framing) and C54 (received frames keep their contents).
-/
set_option autoImplicit false
namespace Verif.Props
open Verif Scanner

/-! ## Specification -/

/-- A frame with its length in front. -/
def framed (f : Bytes) : Bytes := be24 (UInt32.ofNat f.length) ++ f

/-- The beginning of a frame that is not complete yet (possibly nothing). -/
def Incomplete (d : Bytes) : Prop :=
  ∃ f : Bytes, 1 ≤ f.length ∧ f.length < 2^24 ∧ d <+: framed f ∧ d.length < (framed f).length

/-- The connection stays open, ends, or breaks. -/
inductive Tail : List Ev → End → Prop where
  | wait : Tail [] .blocked
  | eof : Tail [.eof] .eof
  | fail (e : String) (h : isClosedErr e = false) (h' : e ≠ eofErr) : Tail [.fail e] (.err e)
  | closed (e : String) (h : isClosedErr e = true) : Tail [.fail e] .eof

/-- Receiving the events `es` gives exactly the frames `fs`, with these contents, and ends with `e`. -/
def Receives (es : List Ev) (fs : List Bytes) (e : End) : Prop :=
  ∃ l s f0, l.map (·.2) = fs ∧ ∀ f, f0 ≤ f → readAll f Scanner.new es = some (l, e, s)

/-- C49 in full: the bytes of the frames `fs` followed by an incomplete frame `part` arrive in
pieces, and then the connection stays open, ends or breaks; the end may come together with the
last piece. -/
def C49_statement : Prop :=
  ∀ (fs : List Bytes) (part : Bytes) (segs : List Bytes), (∀ f ∈ fs, 6 ≤ f.length ∧ f.length < 2^24) →
    Incomplete part → (∀ b ∈ segs, b ≠ []) → segs.flatten = fs.flatMap framed ++ part →
    (∀ tail e, Tail tail e → Receives (segs.map .data ++ tail) fs e) ∧
    ∀ init last, segs = init ++ [last] → Receives (init.map .data ++ [.dataEof last]) fs .eof

/-! ## The scanner -/

structure ScnOK (s : Scn) : Prop where
  le : s.start ≤ s.stop
  le' : s.stop ≤ s.buf.length
  pos : 1 ≤ s.buf.length
  max : s.buf.length ≤ maxBuffSize
  err : s.err = none

theorem data_length {s : Scn} (h : ScnOK s) : s.data.length = s.stop - s.start := by
  have := h.le; have := h.le'
  simp only [Scn.data, List.length_take, List.length_drop]
  omega

theorem shift_ok {s : Scn} (h : ScnOK s) :
    ScnOK s.shift ∧ s.shift.data = s.data ∧
      (s.shift.stop = s.shift.buf.length → s.shift.start = 0) := by
  have hl := data_length h
  have h1 := h.le; have h2 := h.le'; have h3 := h.pos; have h4 := h.max
  unfold Scn.shift
  split
  · rename_i hc
    have hb : (s.data ++ s.buf.drop s.data.length).length = s.buf.length := by
      simp only [List.length_append, List.length_drop]; omega
    refine ⟨⟨Nat.zero_le _, ?_, ?_, ?_, h.err⟩, ?_, fun _ => rfl⟩
    · show s.stop - s.start ≤ _
      rw [hb]; omega
    · show 1 ≤ (_ : Bytes).length
      rw [hb]; exact h3
    · show (_ : Bytes).length ≤ _
      rw [hb]; exact h4
    · show ((s.data ++ s.buf.drop s.data.length).drop 0).take (s.stop - s.start - 0) = _
      rw [List.drop_zero, Nat.sub_zero, List.take_append_of_le_length (by omega), List.take_of_length_le]
      omega
  · rename_i hc
    exact ⟨h, rfl, fun he => by
      rcases Nat.eq_zero_or_pos s.start with h0 | h0
      · exact h0
      · exact absurd ⟨h0, .inl he⟩ hc⟩

theorem grow_ok {s : Scn} (h : ScnOK s) (h0 : s.stop = s.buf.length → s.start = 0)
    (hd : s.data.length < maxBuffSize) :
    ∃ s', s.grow = some s' ∧ ScnOK s' ∧ s'.data = s.data ∧ s'.stop < s'.buf.length := by
  have hl := data_length h
  have h1 := h.le; have h2 := h.le'; have h3 := h.pos; have h4 := h.max
  unfold Scn.grow
  by_cases hc : s.stop = s.buf.length
  · rw [if_pos hc, if_neg (by have := h0 hc; omega)]
    have h0 := h0 hc
    refine ⟨_, rfl, ?_, ?_, ?_⟩
    · refine ⟨Nat.zero_le _, ?_, ?_, ?_, h.err⟩
      · show s.stop - s.start ≤ (_ : Bytes).length
        simp only [List.length_append, List.length_replicate]; omega
      · show 1 ≤ (_ : Bytes).length
        simp only [List.length_append, List.length_replicate]; omega
      · show (_ : Bytes).length ≤ _
        simp only [List.length_append, List.length_replicate]; omega
    · show ((s.data ++ _).drop 0).take (s.stop - s.start - 0) = _
      rw [List.drop_zero, Nat.sub_zero, List.take_append_of_le_length (by omega), List.take_of_length_le]
      omega
    · show s.stop - s.start < (_ : Bytes).length
      simp only [List.length_append, List.length_replicate]; omega
  · rw [if_neg hc]
    exact ⟨s, rfl, h, rfl, by omega⟩

theorem write_ok {s : Scn} (h : ScnOK s) (w : Bytes) (hw : s.stop + w.length ≤ s.buf.length) :
    ScnOK (s.write w) ∧ (s.write w).data = s.data ++ w := by
  have h1 := h.le; have h2 := h.le'; have h3 := h.pos; have h4 := h.max
  have hb : (s.buf.take s.stop ++ w ++ s.buf.drop (s.stop + w.length)).length = s.buf.length := by
    simp only [List.length_append, List.length_take, List.length_drop]; omega
  refine ⟨⟨?_, ?_, ?_, ?_, h.err⟩, ?_⟩
  · show s.start ≤ s.stop + w.length; omega
  · exact Nat.le_trans hw (Nat.le_of_eq hb.symm)
  · exact Nat.le_trans h3 (Nat.le_of_eq hb.symm)
  · exact Nat.le_trans (Nat.le_of_eq hb) h4
  · show ((s.buf.take s.stop ++ w ++ s.buf.drop (s.stop + w.length)).drop s.start).take
      (s.stop + w.length - s.start) = _
    have hd : s.data = (s.buf.take s.stop).drop s.start := by
      rw [Scn.data, List.drop_take]
    rw [List.append_assoc, List.drop_append_of_le_length (by simp only [List.length_take]; omega), ← hd,
      ← List.append_assoc, List.take_append_of_le_length, List.take_of_length_le]
    · simp only [List.length_append, data_length h]; omega
    · simp only [List.length_append, data_length h]; omega

theorem framed_length (f : Bytes) : (framed f).length = f.length + 3 := by
  simp [framed, Nat.add_comm]

theorem frameLength_framed {f d : Bytes} (hf : f.length < 2^24) (h3 : 3 ≤ d.length)
    (h : d <+: framed f ∨ framed f <+: d) : frameLength d = f.length := by
  have ht : d.take 3 = be24 (UInt32.ofNat f.length) := by
    rcases h with ⟨r, h⟩ | ⟨r, h⟩
    · have := congrArg (List.take 3) h
      rwa [List.take_append_of_le_length h3, framed, List.take_append_of_le_length (l₁ := be24 _) (by simp),
        List.take_of_length_le (l := be24 _) (by simp)] at this
    · rw [← h, framed, List.append_assoc, List.take_append_of_le_length (by simp),
        List.take_of_length_le (by simp)]
  rw [frameLength, ht, beNat_be24, UInt32.toNat_ofNat_lt (by omega), Nat.mod_eq_of_lt hf]

theorem split_framed {f rest : Bytes} (h1 : 1 ≤ f.length) (h2 : f.length < 2^24) :
    doSplit (framed f ++ rest) false = some (f.length + 2 + 1) := by
  have hl := framed_length f
  have hL : (framed f ++ rest).length = f.length + 3 + rest.length := by rw [List.length_append, hl]
  have hfl : frameLength (framed f ++ rest) = f.length :=
    frameLength_framed h2 (by omega) (.inr ⟨rest, rfl⟩)
  unfold doSplit
  rw [if_neg (by decide), if_neg (by omega), hfl, if_neg (by omega), if_pos (by omega)]

theorem split_incomplete {d : Bytes} (h : Incomplete d) : doSplit d false = some 0 := by
  obtain ⟨f, h1, h2, h3, h4⟩ := h
  rw [framed_length] at h4
  unfold doSplit
  rw [if_neg (by decide)]
  by_cases h : d.length < 3
  · rw [if_pos h]
  · have hfl : frameLength d = f.length := frameLength_framed h2 (by omega) (.inl h3)
    rw [if_neg h, hfl, if_neg (by omega), if_neg (by omega)]

theorem incomplete_small {d : Bytes} (h : Incomplete d) : d.length < maxBuffSize := by
  obtain ⟨f, _, h2, _, h4⟩ := h
  rw [framed_length] at h4
  unfold maxBuffSize
  omega

/-- One round of `Scan` without a complete frame. -/
theorem scan_round {s : Scn} (h : ScnOK s) (hd : Incomplete s.data) :
    ∃ s', ScnOK s' ∧ s'.data = s.data ∧ s'.stop < s'.buf.length ∧
      ∀ f es, scan (f + 1) s es = match s'.more 0 es with
        | none => some (s', es, .blocked)
        | some (s', es') => scan f s' es' := by
  obtain ⟨a1, a2, a3⟩ := shift_ok h
  obtain ⟨s', b1, b2, b3, b4⟩ := grow_ok a1 a3 (by rw [a2]; exact incomplete_small hd)
  refine ⟨s', b2, b3.trans a2, b4, fun f es => ?_⟩
  have hs : (if s.stop > s.start ∨ s.err ≠ none then doSplit s.data (s.err != none) else some 0) =
      some 0 := by
    split
    · rw [h.err]
      exact split_incomplete hd
    · rfl
  simp only [scan, hs, b1]
  rw [if_neg (by rw [h.err]; simp)]
  rfl

/-- Reading data makes progress. -/
theorem more_data {s : Scn} (h : ScnOK s) (hr : s.stop < s.buf.length) (b : Bytes) (hb : b ≠ [])
    (segs : List Bytes) (hs : ∀ b ∈ segs, b ≠ []) (tail : List Ev) :
    ∃ (s' : Scn) (segs' : List Bytes), s.more 0 ((b :: segs).map .data ++ tail) = some (s', segs'.map .data ++ tail) ∧
      ScnOK s' ∧ (∀ b ∈ segs', b ≠ []) ∧ s'.data ++ segs'.flatten = s.data ++ (b :: segs).flatten ∧
      segs'.flatten.length < (b :: segs).flatten.length := by
  rw [List.map_cons, List.cons_append, Scn.more]
  have hpos : 0 < b.length := List.length_pos_iff.2 hb
  by_cases hc : b.length ≤ s.buf.length - s.stop
  · rw [if_pos hc, if_neg hb]
    obtain ⟨w1, w2⟩ := write_ok h b (by omega)
    refine ⟨_, segs, rfl, w1, hs, ?_, ?_⟩
    · rw [w2, List.flatten_cons, List.append_assoc]
    · rw [List.flatten_cons, List.length_append]; omega
  · rw [if_neg hc]
    have hlt : (b.take (s.buf.length - s.stop)).length = s.buf.length - s.stop := by
      rw [List.length_take]; omega
    obtain ⟨w1, w2⟩ := write_ok h (b.take (s.buf.length - s.stop)) (by omega)
    refine ⟨_, b.drop (s.buf.length - s.stop) :: segs, rfl, w1, ?_, ?_, ?_⟩
    · intro x hx
      rcases List.mem_cons.1 hx with rfl | hx
      · intro he
        have := congrArg List.length he
        rw [List.length_drop, List.length_nil] at this
        omega
      · exact hs x hx
    · rw [w2, List.flatten_cons, List.flatten_cons, List.append_assoc, ← List.append_assoc (b.take _),
        List.take_append_drop]
    · rw [List.flatten_cons, List.flatten_cons, List.length_append, List.length_append, List.length_drop]
      omega

theorem look_now {s : Scn} (n k : Nat) (h : n ≤ s.data.length) (st : Nat) :
    Scn.look { s with start := st } ⟨s.old.length, s.start + k, n - k⟩ = (s.data.take n).drop k := by
  have : n ≤ s.stop - s.start := by
    simp only [Scn.data, List.length_take] at h; omega
  simp only [Scn.look, Scn.data]
  rw [List.getD_eq_getElem?_getD, List.getElem?_append_right (Nat.le_refl _), Nat.sub_self]
  simp only [List.getElem?_cons_zero, Option.getD_some]
  rw [List.take_take, Nat.min_eq_left this, List.drop_take, List.drop_drop]

/-- `Scan` finds the next frame. -/
theorem scan_frame {f rest : Bytes} (h1 : 1 ≤ f.length) (h2 : f.length < 2^24) (n : Nat) :
    ∀ (s : Scn) (segs : List Bytes) (tail : List Ev), ScnOK s → (∀ b ∈ segs, b ≠ []) →
      s.data ++ segs.flatten = framed f ++ rest → segs.flatten.length < n →
      ∃ (s' : Scn) (segs' : List Bytes) (v : View), scan n s (segs.map .data ++ tail) = some (s', segs'.map .data ++ tail, .token v) ∧
        ScnOK s' ∧ (∀ b ∈ segs', b ≠ []) ∧ v.len = f.length + 3 ∧
        s'.look ⟨v.gen, v.off + 3, v.len - 3⟩ = f ∧ s'.data ++ segs'.flatten = rest := by
  induction n with
  | zero => intro s segs tail _ _ _ h; omega
  | succ n ih =>
    intro s segs tail ho hs he hn
    by_cases hc : f.length + 3 ≤ s.data.length
    · have hpre : s.data = framed f ++ s.data.drop (f.length + 3) := by
        have ht := congrArg (List.take (f.length + 3)) he
        rw [List.take_append_of_le_length hc, List.take_append_of_le_length (by rw [framed_length]; omega),
          List.take_of_length_le (l := framed f) (by rw [framed_length]; omega)] at ht
        rw [← ht, List.take_append_drop]
      have hsp := split_framed (rest := s.data.drop (f.length + 3)) h1 h2
      rw [← hpre] at hsp
      have hst : s.stop > s.start := by
        have := data_length ho
        omega
      refine ⟨{ s with start := s.start + (f.length + 2 + 1) }, segs,
        ⟨s.old.length, s.start, f.length + 2 + 1⟩, ?_, ?_, hs, rfl, ?_, ?_⟩
      · simp only [scan, ho.err]
        rw [if_pos (.inl hst)]
        rw [show ((none : Option String) != none) = false from rfl, hsp]
      · have := data_length ho
        exact ⟨by show s.start + (f.length + 2 + 1) ≤ s.stop; omega, ho.le', ho.pos, ho.max, ho.err⟩
      · rw [show f.length + 2 + 1 = f.length + 3 from rfl, look_now (f.length + 3) 3 hc]
        rw [hpre, List.take_append_of_le_length (by rw [framed_length]; omega),
          List.take_of_length_le (by rw [framed_length]; omega)]
        rfl
      · have hdr : Scn.data { s with start := s.start + (f.length + 2 + 1) } =
            s.data.drop (f.length + 3) := by
          simp only [Scn.data, List.drop_take, List.drop_drop]
          congr 1
          omega
        rw [hdr]
        have hdd := congrArg (List.drop (f.length + 3)) he
        rwa [List.drop_append_of_le_length hc, List.drop_append_of_le_length (by rw [framed_length]; omega),
          List.drop_of_length_le (l := framed f) (by rw [framed_length]; omega), List.nil_append] at hdd
    · have hinc : Incomplete s.data := by
        refine ⟨f, h1, h2, ?_, by rw [framed_length]; omega⟩
        have h3 : s.data <+: framed f ++ rest := ⟨segs.flatten, he⟩
        exact List.prefix_of_prefix_length_le h3 (List.prefix_append _ _) (by rw [framed_length]; omega)
      obtain ⟨s1, r1, r2, r3, r4⟩ := scan_round ho hinc
      cases segs with
      | nil =>
        have := congrArg List.length he
        rw [List.length_append, List.length_append, framed_length] at this
        simp only [List.flatten_nil, List.length_nil] at this
        omega
      | cons b segs =>
        obtain ⟨s2, segs', m1, m2, m3, m4, m5⟩ := more_data r1 r3 b (hs b List.mem_cons_self) segs
          (fun x hx => hs x (by simp [hx])) tail
        rw [r4, m1]
        exact ih s2 segs' tail m2 m3 (by rw [m4, r2]; exact he) (by omega)

theorem incomplete_prefix {a b : Bytes} (h : Incomplete b) (hp : a <+: b) : Incomplete a := by
  obtain ⟨f, h1, h2, h3, h4⟩ := h
  have := hp.length_le
  exact ⟨f, h1, h2, hp.trans h3, by omega⟩

/-- Without a complete frame `Scan` waits or reports the end. -/
theorem scan_tail {part : Bytes} (hp : Incomplete part) {tail : List Ev} {e : End} (ht : Tail tail e)
    (n : Nat) : ∀ (s : Scn) (segs : List Bytes), ScnOK s → (∀ b ∈ segs, b ≠ []) →
      s.data ++ segs.flatten = part → segs.flatten.length + 1 < n →
      ∃ s' es, Scanner.read n s (segs.map .data ++ tail) = some (s', es, .inr e) := by
  induction n with
  | zero => intro s segs _ _ _ h; omega
  | succ n ih =>
    intro s segs ho hs he hn
    have hinc : Incomplete s.data := incomplete_prefix hp ⟨_, he⟩
    obtain ⟨s1, r1, r2, r3, r4⟩ := scan_round ho hinc
    cases segs with
    | nil =>
      obtain ⟨n, rfl⟩ : ∃ m, n = m + 1 := ⟨n - 1, by omega⟩
      have hend : ∀ x : String, scan (n + 1) (s1.setErr x) [] =
          some ({ s1.setErr x with start := 0, stop := 0 }, [], .done) ∧ (s1.setErr x).err = some x := by
        intro x
        have hx : (s1.setErr x).err = some x := by
          unfold Scn.setErr; rw [if_pos (.inl r1.err)]
        have hsp : (if (s1.setErr x).stop > (s1.setErr x).start ∨ (s1.setErr x).err ≠ none then
            doSplit (s1.setErr x).data ((s1.setErr x).err != none) else some 0) = some 0 := by
          split
          · rw [hx]; rfl
          · rfl
        refine ⟨?_, hx⟩
        simp only [scan, hsp]
        rw [hx]
        rw [if_pos (by simp)]
      unfold Scanner.read
      rw [r4, List.map_nil, List.nil_append]
      cases ht with
      | wait => exact ⟨_, _, rfl⟩
      | eof =>
        simp only [Scn.more]
        rw [(hend eofErr).1]
        refine ⟨{ s1.setErr eofErr with start := 0, stop := 0 }, [], ?_⟩
        simp only [(hend eofErr).2]
        simp
      | fail x h h' =>
        simp only [Scn.more]
        rw [(hend x).1]
        refine ⟨{ s1.setErr x with start := 0, stop := 0 }, [], ?_⟩
        simp only [(hend x).2]
        simp [h, h']
      | closed x h =>
        simp only [Scn.more]
        rw [(hend x).1]
        refine ⟨{ s1.setErr x with start := 0, stop := 0 }, [], ?_⟩
        simp only [(hend x).2]
        simp [h]
    | cons b segs =>
      obtain ⟨s2, segs', m1, m2, m3, m4, m5⟩ := more_data r1 r3 b (hs b List.mem_cons_self) segs
        (fun x hx => hs x (by simp [hx])) tail
      have := ih s2 segs' m2 m3 (by rw [m4, r2]; exact he) (by omega)
      unfold Scanner.read at this ⊢
      rw [r4, m1]
      exact this

theorem receive_all {part : Bytes} (hp : Incomplete part) {tail : List Ev} {e : End} (ht : Tail tail e)
    (fs : List Bytes) (hf : ∀ f ∈ fs, 6 ≤ f.length ∧ f.length < 2^24) :
    ∀ (n : Nat) (s : Scn) (segs : List Bytes), ScnOK s → (∀ b ∈ segs, b ≠ []) →
      s.data ++ segs.flatten = fs.flatMap framed ++ part →
      (s.data ++ segs.flatten).length + 1 < n →
      ∃ l s', readAll n s (segs.map .data ++ tail) = some (l, e, s') ∧ l.map (·.2) = fs := by
  induction fs with
  | nil =>
    intro n s segs ho hs he hn
    obtain ⟨n, rfl⟩ : ∃ m, n = m + 1 := ⟨n - 1, by omega⟩
    rw [List.length_append] at hn
    obtain ⟨s', es, h⟩ := scan_tail hp ht (n + 1) s segs ho hs he (by omega)
    exact ⟨[], s', by simp only [readAll, h], rfl⟩
  | cons f fs ih =>
    intro n s segs ho hs he hn
    obtain ⟨n, rfl⟩ : ∃ m, n = m + 1 := ⟨n - 1, by omega⟩
    rw [List.flatMap_cons, List.append_assoc] at he
    have hf0 := hf f List.mem_cons_self
    rw [List.length_append] at hn
    obtain ⟨s', segs', v, g1, g2, g3, g4, g5, g6⟩ := scan_frame (by omega) hf0.2 (n + 1) s segs tail ho hs he
      (by omega)
    obtain ⟨l, s'', i1, i2⟩ := ih (fun x hx => hf x (by simp [hx])) n s' segs' g2 g3 g6 (by
      rw [g6]
      have := congrArg List.length he
      rw [List.length_append, List.length_append (as := framed f), framed_length] at this
      omega)
    refine ⟨(⟨v.gen, v.off + 3, v.len - 3⟩, s'.look ⟨v.gen, v.off + 3, v.len - 3⟩) :: l, s'', ?_, ?_⟩
    · have hr : Scanner.read (n + 1) s (segs.map .data ++ tail) =
          some (s', segs'.map .data ++ tail, .inl ⟨v.gen, v.off + 3, v.len - 3⟩) := by
        unfold Scanner.read
        rw [g1]
        simp only
        rw [if_neg (by omega)]
      simp only [readAll, hr, i1]
    · rw [List.map_cons, i2, g5]

theorem new_ok : ScnOK Scanner.new ∧ Scanner.new.data = [] := by
  refine ⟨⟨Nat.le_refl _, Nat.zero_le _, ?_, ?_, rfl⟩, ?_⟩
  · show 1 ≤ (List.replicate _ _).length
    rw [List.length_replicate]; decide
  · show (List.replicate _ _).length ≤ _
    rw [List.length_replicate]; decide
  · show List.take (0 - 0) _ = _
    rfl

theorem readAll_mono (f : Nat) : ∀ (s : Scn) (es : List Ev) r, readAll f s es = some r →
    ∀ g, f ≤ g → readAll g s es = some r := by
  have scan_mono : ∀ (f : Nat) (s : Scn) (es : List Ev) r, scan f s es = some r →
      ∀ g, f ≤ g → scan g s es = some r := by
    intro f
    induction f with
    | zero => intro s es r h; cases h
    | succ f ih =>
      intro s es r h g hg
      obtain ⟨g, rfl⟩ : ∃ m, g = m + 1 := ⟨g - 1, by omega⟩
      simp only [scan] at h ⊢
      generalize (if s.stop > s.start ∨ s.err ≠ none then doSplit s.data (s.err != none) else some 0) = x
        at h ⊢
      match x with
      | none => exact h
      | some (n + 1) => exact h
      | some 0 =>
        simp only at h ⊢
        split
        · rename_i hc; rw [if_pos hc] at h; exact h
        · rename_i hc
          rw [if_neg hc] at h
          generalize s.shift.grow = y at h ⊢
          cases y with
          | none => exact h
          | some s' =>
            simp only at h ⊢
            generalize s'.more 0 es = z at h ⊢
            cases z with
            | none => exact h
            | some p => exact ih _ _ _ h _ (by omega)
  have read_mono : ∀ (f : Nat) (s : Scn) (es : List Ev) r, Scanner.read f s es = some r →
      ∀ g, f ≤ g → Scanner.read g s es = some r := by
    intro f s es r h g hg
    unfold Scanner.read at h ⊢
    cases hx : scan f s es with
    | none => rw [hx] at h; cases h
    | some x => rw [scan_mono f s es x hx g hg]; rw [hx] at h; exact h
  induction f with
  | zero => intro s es r h; cases h
  | succ f ih =>
    intro s es r h g hg
    obtain ⟨g, rfl⟩ : ∃ m, g = m + 1 := ⟨g - 1, by omega⟩
    simp only [readAll] at h ⊢
    cases hx : Scanner.read (f + 1) s es with
    | none => rw [hx] at h; cases h
    | some x =>
      rw [read_mono _ s es x hx _ hg]
      rw [hx] at h
      obtain ⟨s', es', v | e⟩ := x
      · simp only at h ⊢
        cases hy : readAll f s' es' with
        | none => rw [hy] at h; cases h
        | some y => rw [ih _ _ _ hy g (by omega)]; rw [hy] at h; exact h
      · exact h

/-! ## C49 -/

/-- C49, partial: for every list of frames of 6 to 2^24-1 bytes and every segmentation, the receiver
gets exactly these frames in order, and nothing for an incomplete one at the end. Missing: an end of
stream that is reported together with the last data (`C49_violated`), as TLS connections do. -/
theorem C49_partial (fs : List Bytes) (part : Bytes) (segs : List Bytes)
    (hf : ∀ f ∈ fs, 6 ≤ f.length ∧ f.length < 2^24) (hp : Incomplete part) (hs : ∀ b ∈ segs, b ≠ [])
    (h : segs.flatten = fs.flatMap framed ++ part) (tail : List Ev) (e : End) (ht : Tail tail e) :
    Receives (segs.map .data ++ tail) fs e := by
  obtain ⟨l, s, h1, h2⟩ := receive_all hp ht fs hf _ Scanner.new segs new_ok.1 hs
    (by rw [new_ok.2]; exact h) (Nat.lt_succ_self _)
  exact ⟨l, s, _, h2, fun f hg => readAll_mono _ _ _ _ h1 f hg⟩

/-- C49 fails when the last bytes come together with the end of the stream: `doSplit` gives up at
the end of the stream before looking at the data (decoder.go 46-48). -/
theorem C49_violated : ¬ C49_statement := by
  intro h
  obtain ⟨l, s, f0, h1, h2⟩ := (h [[1, 2, 3, 4, 5, 6]] [] [framed [1, 2, 3, 4, 5, 6]] (by simp)
    ⟨[0], by decide, by decide, by decide, by decide⟩ (by simp [framed, be24]) (by simp)).2
    [] _ rfl
  have h2 := h2 (f0 + 2) (by omega)
  have e0 : Scanner.new.buf.length = 8192 := List.length_replicate
  have e1 : Scanner.new.shift.grow = some Scanner.new := by
    have : Scanner.new.shift = Scanner.new := if_neg fun h => Nat.lt_irrefl _ h.1
    rw [this]
    exact if_neg fun h => by rw [e0] at h; cases h
  have e2 : Scanner.new.more 0 [.dataEof (framed [1, 2, 3, 4, 5, 6])] =
      some ((Scanner.new.write (framed [1, 2, 3, 4, 5, 6])).setErr eofErr, []) := by
    simp only [Scn.more]
    rw [e0]
    exact if_pos (by decide)
  have e3 : ((Scanner.new.write (framed [1, 2, 3, 4, 5, 6])).setErr eofErr).err = some eofErr := rfl
  have e4 : scan (f0 + 1) ((Scanner.new.write (framed [1, 2, 3, 4, 5, 6])).setErr eofErr) [] =
      some ({ (Scanner.new.write (framed [1, 2, 3, 4, 5, 6])).setErr eofErr with start := 0, stop := 0 },
        [], .done) := by
    simp only [scan, e3]
    rw [if_pos (.inr (by simp))]
    rfl
  have e5 : scan (f0 + 2) Scanner.new [.dataEof (framed [1, 2, 3, 4, 5, 6])] =
      some ({ (Scanner.new.write (framed [1, 2, 3, 4, 5, 6])).setErr eofErr with start := 0, stop := 0 },
        [], .done) := by
    rw [scan, e1]
    simp only [e2, e4]
    rfl
  have e6 : readAll (f0 + 2) Scanner.new [.dataEof (framed [1, 2, 3, 4, 5, 6])] =
      some ([], .eof, { (Scanner.new.write (framed [1, 2, 3, 4, 5, 6])).setErr eofErr with
        start := 0, stop := 0 }) := by
    simp only [readAll, Scanner.read, e5, e3]
    simp
  rw [List.map_nil, List.nil_append, e6] at h2
  simp only [Option.some.injEq, Prod.mk.injEq] at h2
  rw [← h2.1] at h1
  cases h1

/-- Two frames, the first cut twice, the second not complete. -/
example : Incomplete [0, 0, 7, 1] ∧
    [[0, 0], [6, 1, 2, 3, 4, 5], [6, 0, 0, 7, 1]].flatten =
      [([1, 2, 3, 4, 5, 6] : Bytes)].flatMap framed ++ [0, 0, 7, 1] :=
  ⟨⟨[1, 2, 3, 4, 5, 6, 7], by decide, by decide, by decide, by decide⟩, by decide⟩

/-! ## C54 -/

/-- C54 in full: whatever arrives in whatever pieces, at the end every frame handed out still shows
the bytes it showed when it was handed out. -/
def C54_statement : Prop :=
  ∀ (f : Nat) (es : List Ev) l e s, readAll f Scanner.new es = some (l, e, s) →
    ∀ p ∈ l, s.look p.1 = p.2

/-- Number of bytes that arrive. -/
def arriving : List Ev → Nat
  | [] => 0
  | .data b :: es => b.length + arriving es
  | .dataEof b :: es => b.length + arriving es
  | _ :: es => arriving es

/-- Within the first half of the first buffer. -/
structure Early (s : Scn) (es : List Ev) : Prop where
  old : s.old = []
  len : s.buf.length = 8192
  le : s.start ≤ s.stop
  room : s.stop + arriving es ≤ 4096

theorem early_same {s : Scn} {es : List Ev} (h : Early s es) : s.shift.grow = some s := by
  have h1 := h.len; have h2 := h.le; have h3 := h.room
  have : s.shift = s := if_neg fun hc => by omega
  rw [this]
  exact if_neg (by omega)

theorem write_take (s : Scn) (w : Bytes) (h : s.stop ≤ s.buf.length) :
    (s.write w).buf.take s.stop = s.buf.take s.stop := by
  show (s.buf.take s.stop ++ w ++ _).take s.stop = _
  rw [List.append_assoc, List.take_append_of_le_length (by rw [List.length_take]; omega), List.take_take,
    Nat.min_self]

theorem write_len (s : Scn) (w : Bytes) (h : s.stop + w.length ≤ s.buf.length) :
    (s.write w).buf.length = s.buf.length := by
  show (s.buf.take s.stop ++ w ++ s.buf.drop (s.stop + w.length)).length = _
  simp only [List.length_append, List.length_take, List.length_drop]; omega

theorem setErr_same (s : Scn) (e : String) :
    (s.setErr e).old = s.old ∧ (s.setErr e).buf = s.buf ∧ (s.setErr e).start = s.start ∧
      (s.setErr e).stop = s.stop := by
  unfold Scn.setErr; split <;> simp

theorem early_setErr {s : Scn} {es : List Ev} (e : String) (h : Early s es) : Early (s.setErr e) es := by
  obtain ⟨a, b, c, d⟩ := setErr_same s e
  exact ⟨a.trans h.old, by rw [b]; exact h.len, by rw [c, d]; exact h.le, by rw [d]; exact h.room⟩

theorem early_write {s : Scn} {es : List Ev} (w : Bytes) (es' : List Ev) (h : Early s es)
    (hw : w.length + arriving es' ≤ arriving es) : Early (s.write w) es' := by
  have h1 := h.len; have h2 := h.le; have h3 := h.room
  refine ⟨h.old, ?_, ?_, ?_⟩
  · rw [write_len _ _ (by omega)]; exact h1
  · show s.start ≤ s.stop + w.length; omega
  · show s.stop + w.length + _ ≤ _; omega

theorem early_more (es : List Ev) : ∀ (s : Scn) (n : Nat) (s' : Scn) (es' : List Ev), Early s es →
    s.more n es = some (s', es') →
    Early s' es' ∧ s'.buf.take s.stop = s.buf.take s.stop ∧ s.stop ≤ s'.stop := by
  induction es with
  | nil => intro s n s' es' _ h; cases h
  | cons e es ih =>
    intro s n s' es' h hm
    have h1 := h.len; have h2 := h.le; have h3 := h.room
    cases e with
    | data b =>
      simp only [arriving] at h3
      simp only [Scn.more] at hm
      rw [if_pos (by omega)] at hm
      split at hm
      · rename_i hb
        subst hb
        have h' : Early s es := ⟨h.old, h.len, h.le, by simpa using h3⟩
        split at hm
        · cases hm
          refine ⟨early_setErr _ h', ?_, ?_⟩
          · rw [(setErr_same s _).2.1]
          · rw [(setErr_same s _).2.2.2]; exact Nat.le_refl _
        · exact ih s _ s' es' h' hm
      · cases hm
        exact ⟨early_write b es h (Nat.le_refl _), write_take s b (by omega), Nat.le_add_right _ _⟩
    | dataEof b =>
      simp only [arriving] at h3
      simp only [Scn.more] at hm
      rw [if_pos (by omega)] at hm
      cases hm
      refine ⟨early_setErr _ (early_write b es h (Nat.le_refl _)), ?_, ?_⟩
      · rw [(setErr_same _ _).2.1]; exact write_take s b (by omega)
      · rw [(setErr_same _ _).2.2.2]; exact Nat.le_add_right _ _
    | eof =>
      cases hm
      have h' : Early s es := ⟨h.old, h.len, h.le, h3⟩
      exact ⟨early_setErr _ h', by rw [(setErr_same s _).2.1],
        by rw [(setErr_same s _).2.2.2]; exact Nat.le_refl _⟩
    | fail x =>
      cases hm
      have h' : Early s es := ⟨h.old, h.len, h.le, h3⟩
      exact ⟨early_setErr _ h', by rw [(setErr_same s _).2.1],
        by rw [(setErr_same s _).2.2.2]; exact Nat.le_refl _⟩

theorem take_mono {a b : Bytes} {n m : Nat} (h : a.take n = b.take n) (hm : m ≤ n) :
    a.take m = b.take m := by
  have := congrArg (List.take m) h
  rwa [List.take_take, List.take_take, Nat.min_eq_left hm] at this

theorem split_le {d : Bytes} {b : Bool} {n : Nat} (h : doSplit d b = some n) : n ≤ d.length := by
  unfold doSplit at h
  repeat' split at h
  all_goals first | (cases h; omega) | cases h

theorem early_scan (f : Nat) : ∀ (s : Scn) (es : List Ev) (s' : Scn) (es' : List Ev) (r : Res),
    Early s es → scan f s es = some (s', es', r) →
    s'.old = [] ∧ s'.buf.take s.stop = s.buf.take s.stop ∧
      ∀ v, r = .token v → Early s' es' ∧ v.gen = 0 ∧ v.off + v.len ≤ s'.stop ∧ s.stop ≤ s'.stop := by
  induction f with
  | zero => intro s es s' es' r _ h; cases h
  | succ f ih =>
    intro s es s' es' r h hm
    have h1 := h.len; have h2 := h.le; have h3 := h.room
    simp only [scan] at hm
    generalize hx : (if s.stop > s.start ∨ s.err ≠ none then doSplit s.data (s.err != none) else some 0) = x
      at hm
    match x with
    | none =>
      cases hm
      exact ⟨(setErr_same s _).1.trans h.old, by rw [(setErr_same s _).2.1], fun v hv => by cases hv⟩
    | some (n + 1) =>
      cases hm
      refine ⟨h.old, rfl, fun v hv => ?_⟩
      cases hv
      have hn : n + 1 ≤ s.data.length := by
        split at hx
        · exact split_le hx
        · cases hx
      have hd : s.data.length ≤ s.stop - s.start := by
        simp only [Scn.data, List.length_take]; omega
      refine ⟨⟨h.old, h.len, ?_, h.room⟩, ?_, ?_, Nat.le_refl _⟩
      · show s.start + (n + 1) ≤ s.stop; omega
      · show s.old.length = 0; rw [h.old]; rfl
      · show s.start + (n + 1) ≤ s.stop; omega
    | some 0 =>
      simp only [early_same h] at hm
      split at hm
      · cases hm
        exact ⟨h.old, rfl, fun v hv => by cases hv⟩
      · cases hmo : s.more 0 es with
        | none =>
          rw [hmo] at hm
          cases hm
          exact ⟨h.old, rfl, fun v hv => by cases hv⟩
        | some p =>
          obtain ⟨s1, es1⟩ := p
          rw [hmo] at hm
          obtain ⟨a1, a2, a3⟩ := early_more es s 0 s1 es1 h hmo
          obtain ⟨b1, b2, b3⟩ := ih s1 es1 s' es' r a1 hm
          refine ⟨b1, (take_mono b2 a3).trans a2, fun v hv => ?_⟩
          obtain ⟨c1, c2, c3, c4⟩ := b3 v hv
          exact ⟨c1, c2, c3, by omega⟩

theorem look_early {s s' : Scn} {v : View} (h : s.old = []) (h' : s'.old = []) (hv : v.gen = 0) {n : Nat}
    (hn : v.off + v.len ≤ n) (ht : s'.buf.take n = s.buf.take n) : s'.look v = s.look v := by
  simp only [Scn.look, h, h', hv, List.nil_append, List.getD_cons_zero]
  have hv (b : Bytes) : (b.drop v.off).take v.len = (b.take (v.off + v.len)).drop v.off := by
    rw [List.drop_take, Nat.add_sub_cancel_left]
  rw [hv, hv, take_mono ht hn]

theorem early_readAll (f : Nat) : ∀ (s : Scn) (es : List Ev) l e (s' : Scn), Early s es →
    readAll f s es = some (l, e, s') →
    s'.old = [] ∧ s'.buf.take s.stop = s.buf.take s.stop ∧ ∀ p ∈ l, s'.look p.1 = p.2 := by
  induction f with
  | zero => intro s es l e s' _ h; cases h
  | succ f ih =>
    intro s es l e s' h hm
    simp only [readAll, Scanner.read] at hm
    cases hs : scan (f + 1) s es with
    | none => rw [hs] at hm; cases hm
    | some x =>
      obtain ⟨s1, es1, r⟩ := x
      obtain ⟨a1, a2, a3⟩ := early_scan _ _ _ _ _ _ h hs
      rw [hs] at hm
      cases r with
      | blocked => cases hm; exact ⟨a1, a2, fun p hp => by cases hp⟩
      | done =>
        simp only at hm
        cases he : s1.err with
        | none => rw [he] at hm; cases hm; exact ⟨a1, a2, fun p hp => by cases hp⟩
        | some x => rw [he] at hm; cases hm; exact ⟨a1, a2, fun p hp => by cases hp⟩
      | token v =>
        simp only at hm
        obtain ⟨c1, c2, c3, c4⟩ := a3 v rfl
        split at hm
        · rename_i heq
          split at heq <;> cases heq
        · rename_i heq
          split at heq
          · cases heq
            cases hm
            exact ⟨a1, a2, fun p hp => by cases hp⟩
          · cases heq
        · rename_i w heq
          split at heq
          · cases heq
          · rename_i hlen
            cases heq
            cases hr : readAll f s1 es1 with
            | none => rw [hr] at hm; cases hm
            | some y =>
              obtain ⟨l', e', s2⟩ := y
              rw [hr] at hm
              cases hm
              obtain ⟨d1, d2, d3⟩ := ih _ _ _ _ _ c1 hr
              refine ⟨d1, (take_mono d2 c4).trans a2, fun p hp => ?_⟩
              rcases List.mem_cons.1 hp with rfl | hp
              · exact look_early a1 d1 c2 (by show v.off + 3 + (v.len - 3) ≤ s1.stop; omega) d2
              · exact d3 p hp

/-- A scanner without unread data at the beginning of the first buffer, or in its second half, puts
what arrives at the beginning. -/
theorem scan_fresh {s : Scn} {f : Bytes} {es : List Ev} (n : Nat) (ho : ScnOK s) (he : s.start = s.stop)
    (hb : s.buf.length = 8192) (hp : s.start = 0 ∨ s.start > 4096) (hs : s.stop < 8192)
    (h1 : 6 ≤ f.length) (h2 : f.length ≤ 8000) :
    Scanner.read (n + 2) s (.data (framed f) :: es) =
      some (⟨s.old, framed f ++ s.buf.drop (framed f).length, f.length + 3, f.length + 3, none⟩, es,
        .inl ⟨s.old.length, 3, f.length⟩) := by
  have hd : s.data = [] := by simp [Scn.data, he]
  have hl := framed_length f
  have hsg : s.shift.grow = some ⟨s.old, s.buf, 0, 0, none⟩ := by
    have : s.shift = ⟨s.old, s.buf, 0, 0, none⟩ := by
      unfold Scn.shift
      have herr := ho.err
      obtain ⟨old, buf, start, stop, err⟩ := s
      simp only at he hb hp hs hd herr
      subst he herr
      simp only [hd]
      rcases hp with rfl | hp
      · rw [if_neg (fun h => Nat.lt_irrefl _ h.1)]
      · rw [if_pos ⟨by omega, .inr (by omega)⟩]
        simp
    rw [this]
    exact if_neg (by show ¬ 0 = s.buf.length; omega)
  have hw : (⟨s.old, s.buf, 0, 0, none⟩ : Scn).write (framed f) =
      ⟨s.old, framed f ++ s.buf.drop (framed f).length, 0, f.length + 3, none⟩ := by
    simp [Scn.write, hl]
  have hm : (⟨s.old, s.buf, 0, 0, none⟩ : Scn).more 0 (.data (framed f) :: es) =
      some (⟨s.old, framed f ++ s.buf.drop (framed f).length, 0, f.length + 3, none⟩, es) := by
    simp only [Scn.more]
    rw [if_pos (by omega), if_neg (by intro h; rw [h] at hl; simp at hl), hw]
  have hdata : (⟨s.old, framed f ++ s.buf.drop (framed f).length, 0, f.length + 3, none⟩ : Scn).data =
      framed f ++ [] := by
    simp [Scn.data, ← hl]
  have hsplit := split_framed (f := f) (rest := []) (by omega) (by omega)
  have hscan2 : scan (n + 1) ⟨s.old, framed f ++ s.buf.drop (framed f).length, 0, f.length + 3, none⟩ es =
      some (⟨s.old, framed f ++ s.buf.drop (framed f).length, f.length + 3, f.length + 3, none⟩, es,
        .token ⟨s.old.length, 0, f.length + 3⟩) := by
    simp only [scan, hdata]
    rw [if_pos (.inl (by omega)), show ((none : Option String) != none) = false from rfl, hsplit]
    simp
  have hscan : scan (n + 2) s (.data (framed f) :: es) =
      some (⟨s.old, framed f ++ s.buf.drop (framed f).length, f.length + 3, f.length + 3, none⟩, es,
        .token ⟨s.old.length, 0, f.length + 3⟩) := by
    rw [scan]
    rw [if_neg (by rw [he, ho.err]; simp)]
    simp only [hsg, hm, hscan2, ho.err]
    rfl
  unfold Scanner.read
  rw [hscan]
  simp only
  rw [if_neg (by omega)]
  simp

/-- C54 fails: a frame of 4100 bytes is overwritten by the next one. -/
theorem C54_violated : ¬ C54_statement := by
  intro h
  have hF : (List.replicate 4100 (0 : UInt8)).length = 4100 := List.length_replicate
  have hh : (List.replicate 4100 (0 : UInt8)).take 6 = [0, 0, 0, 0, 0, 0] := by
    rw [List.take_replicate]; decide
  generalize List.replicate 4100 (0 : UInt8) = F at hF hh
  have r1 := scan_fresh (f := F) (es := [.data (framed [1, 1, 1, 1, 1, 1])]) 1 new_ok.1 rfl
    List.length_replicate (.inl rfl) (by decide) (by omega) (by omega)
  have hz : (framed F ++ Scanner.new.buf.drop (framed F).length).length = 8192 := by
    have : Scanner.new.buf.length = 8192 := List.length_replicate
    rw [List.length_append, List.length_drop, framed_length, this]; omega
  have hF6 : ((framed F ++ Scanner.new.buf.drop (framed F).length).drop 3).take 6 = [0, 0, 0, 0, 0, 0] := by
    rw [framed, List.append_assoc, List.drop_append_of_le_length (by simp),
      List.drop_of_length_le (l := be24 _) (by simp), List.nil_append,
      List.take_append_of_le_length (by omega), hh]
  generalize framed F ++ Scanner.new.buf.drop (framed F).length = b1 at r1 hz hF6
  have r2 := scan_fresh (f := [1, 1, 1, 1, 1, 1]) (es := []) (s := ⟨[], b1, F.length + 3, F.length + 3, none⟩) 0
    ⟨Nat.le_refl _, by show F.length + 3 ≤ b1.length; omega, by show 1 ≤ b1.length; omega, by
      show b1.length ≤ _; rw [hz]; decide, rfl⟩ rfl hz (.inr (by show F.length + 3 > 4096; omega))
    (by show F.length + 3 < 8192; omega) (by decide) (by decide)
  have h3 : Early ⟨[], framed [1, 1, 1, 1, 1, 1] ++ b1.drop 9, 9, 9, none⟩ [] := by
    refine ⟨rfl, ?_, Nat.le_refl _, show 9 + 0 ≤ 4096 by decide⟩
    show (framed [1, 1, 1, 1, 1, 1] ++ b1.drop 9).length = 8192
    rw [List.length_append, List.length_drop, framed_length, hz]; decide
  have r3 : Scanner.read 1 ⟨[], framed [1, 1, 1, 1, 1, 1] ++ b1.drop 9, 9, 9, none⟩ [] =
      some (⟨[], framed [1, 1, 1, 1, 1, 1] ++ b1.drop 9, 9, 9, none⟩, [], .inr .blocked) := by
    unfold Scanner.read
    rw [scan, if_neg (by simp)]
    simp only [early_same h3]
    rfl
  have r2 : Scanner.read 2 ⟨[], b1, F.length + 3, F.length + 3, none⟩
      [.data (framed [1, 1, 1, 1, 1, 1])] =
      some (⟨[], framed [1, 1, 1, 1, 1, 1] ++ b1.drop 9, 9, 9, none⟩, [], .inl ⟨0, 3, 6⟩) := r2
  have r1 : Scanner.read 3 Scanner.new [.data (framed F), .data (framed [1, 1, 1, 1, 1, 1])] =
      some (⟨[], b1, F.length + 3, F.length + 3, none⟩, [.data (framed [1, 1, 1, 1, 1, 1])],
        .inl ⟨0, 3, F.length⟩) := r1
  have a3 : readAll 1 ⟨[], framed [1, 1, 1, 1, 1, 1] ++ b1.drop 9, 9, 9, none⟩ [] =
      some ([], .blocked, ⟨[], framed [1, 1, 1, 1, 1, 1] ++ b1.drop 9, 9, 9, none⟩) := by
    rw [readAll, r3]
  have a2 : readAll 2 ⟨[], b1, F.length + 3, F.length + 3, none⟩ [.data (framed [1, 1, 1, 1, 1, 1])] =
      some ([(⟨0, 3, 6⟩, Scn.look ⟨[], framed [1, 1, 1, 1, 1, 1] ++ b1.drop 9, 9, 9, none⟩ ⟨0, 3, 6⟩)],
        .blocked, ⟨[], framed [1, 1, 1, 1, 1, 1] ++ b1.drop 9, 9, 9, none⟩) := by
    rw [readAll, r2]
    simp only [a3]
  have hall : readAll 3 Scanner.new [.data (framed F), .data (framed [1, 1, 1, 1, 1, 1])] =
      some ((⟨0, 3, F.length⟩, Scn.look ⟨[], b1, F.length + 3, F.length + 3, none⟩ ⟨0, 3, F.length⟩) ::
        [(⟨0, 3, 6⟩, Scn.look ⟨[], framed [1, 1, 1, 1, 1, 1] ++ b1.drop 9, 9, 9, none⟩ ⟨0, 3, 6⟩)],
        .blocked, ⟨[], framed [1, 1, 1, 1, 1, 1] ++ b1.drop 9, 9, 9, none⟩) := by
    rw [readAll, r1]
    simp only [a2]
  have hc := h _ _ _ _ _ hall _ List.mem_cons_self
  have hc : ((framed [1, 1, 1, 1, 1, 1] ++ b1.drop 9).drop 3).take F.length =
    (b1.drop 3).take F.length := hc
  have hc := take_mono (m := 6) hc (by omega)
  rw [hF6] at hc
  simp [framed, be24] at hc

/-- C54, partial: frames keep their contents as long as the connection has received no more than 4096
bytes (half of the initial buffer). What they show when they are handed out is right by
`C49_partial`. Missing: everything after that (`C54_violated`). -/
theorem C54_partial (f : Nat) (es : List Ev) (l : List (View × Bytes)) (e : End) (s : Scn)
    (hb : arriving es ≤ 4096) (h : readAll f Scanner.new es = some (l, e, s)) :
    ∀ p ∈ l, s.look p.1 = p.2 :=
  (early_readAll f Scanner.new es l e s ⟨rfl, List.length_replicate, Nat.le_refl _, by
    show 0 + _ ≤ _; omega⟩ h).2.2

/-- Two frames in one piece. -/
example : ∃ f l e s, arriving [.data (framed [1, 2, 3, 4, 5, 6] ++ framed [7, 7, 7, 7, 7, 7, 7])] ≤ 4096 ∧
    readAll f Scanner.new [.data (framed [1, 2, 3, 4, 5, 6] ++ framed [7, 7, 7, 7, 7, 7, 7])] =
      some (l, e, s) ∧ l.map (·.2) = [[1, 2, 3, 4, 5, 6], [7, 7, 7, 7, 7, 7, 7]] ∧
      ∀ p ∈ l, s.look p.1 = p.2 := by
  obtain ⟨l, s, f, h1, h2⟩ := C49_partial [[1, 2, 3, 4, 5, 6], [7, 7, 7, 7, 7, 7, 7]] []
    [framed [1, 2, 3, 4, 5, 6] ++ framed [7, 7, 7, 7, 7, 7, 7]] (by simp)
    ⟨[0], by decide, by decide, by decide, by decide⟩ (by simp [framed, be24]) (by simp) [] .blocked .wait
  exact ⟨f, l, _, s, by decide, h2 f (Nat.le_refl _), h1,
    C54_partial f _ l _ s (by decide) (h2 f (Nat.le_refl _))⟩

end Verif.Props
