import Verif.Model.Kept
import Verif.Props.Scanner
import Verif.Lemmas.Msgpack
import Verif.Props.MsgpackScalars
/-
Property C132 (texts and byte arrays decoded from a received message keep their value).
-/
set_option autoImplicit false
namespace Verif.Props
open Verif Scanner Kept

/-! ## The parts are where the values are -/

theorem getPart_shows (n : UInt32) (d : Msgpack.DR) : Msgpack.getBytes n d =
    match getPart n d with
    | .ok p d' => .ok (p.of d.buf) d'
    | .fail e d' => .fail e d'
    | .panic => .panic := by
  simp only [Msgpack.getBytes, getPart, Msgpack.rd_bind, Msgpack.rd_of]
  cases hc : Msgpack.check n d with
  | fail e d' => rfl
  | panic => rfl
  | ok u d' =>
    have : d' = d := by
      unfold Msgpack.check at hc
      repeat' split at hc
      all_goals cases hc
      rfl
    subst this
    simp only [slice]
    by_cases h : d'.off.toNat ≤ (d'.off + n).toNat ∧ (d'.off + n).toNat ≤ d'.buf.length
    · simp only [if_pos h, Part.of, List.drop_take]
    · simp only [if_neg h]

/-- A reading method that leaves the buffer of the reader alone. -/
def SameBuf {α : Type} (m : Msgpack.Rd α) : Prop := ∀ d a d', m d = .ok a d' → d'.buf = d.buf

theorem SameBuf.bind {α β : Type} {m : Msgpack.Rd α} {k : α → Msgpack.Rd β} (hm : SameBuf m) (hk : ∀ a, SameBuf (k a)) :
    SameBuf (m >>= k) := by
  intro d b d' h
  rw [Msgpack.rd_bind] at h
  cases hx : m d with
  | fail e d1 => rw [hx] at h; cases h
  | panic => rw [hx] at h; cases h
  | ok a d1 =>
    rw [hx] at h
    exact (hk a d1 b d' h).trans (hm d a d1 hx)

theorem SameBuf.pure {α : Type} (a : α) : SameBuf (Msgpack.Rd.pure a) := by
  intro d b d' h; cases h; rfl

theorem SameBuf.fail {α : Type} (e : String) : SameBuf (Msgpack.Rd.fail e : Msgpack.Rd α) := by
  intro d b d' h; cases h

theorem SameBuf.check (n : UInt32) : SameBuf (Msgpack.check n) := by
  intro d a d' h
  unfold Msgpack.check at h
  repeat' split at h
  all_goals cases h
  rfl

theorem SameBuf.getWith {α : Type} (n : UInt32) (f : Bytes → Go α) : SameBuf (Msgpack.getWith n f) := by
  refine (SameBuf.check _).bind fun _ d a d' h => ?_
  simp only [Msgpack.rd_of] at h
  repeat' split at h
  all_goals cases h
  rfl

theorem SameBuf.uint8 : SameBuf Msgpack.getUint8 := .getWith _ _
theorem SameBuf.uint16 : SameBuf Msgpack.getUint16 := .getWith _ _
theorem SameBuf.uint32 : SameBuf Msgpack.getUint32 := .getWith _ _

theorem length_buf {m : Msgpack.Rd UInt32} (hm : m = Msgpack.readStringLength ∨ m = Msgpack.readBinLength)
    (d d' : Msgpack.DR) (n : UInt32) (h : m d = .ok n d') : d'.buf = d.buf := by
  have : SameBuf m := by
    rcases hm with rfl | rfl
    all_goals
      refine SameBuf.uint8.bind fun p => ?_
      repeat' split
      all_goals first
        | exact .pure _
        | exact .fail _
        | exact .uint32
        | exact SameBuf.uint8.bind fun _ => .pure _
        | exact SameBuf.uint16.bind fun _ => .pure _
  exact this d n d' h

/-- Where the model says that a text is, there is the text; and reading does the same otherwise. -/
theorem C132_text (d : Msgpack.DR) : Msgpack.readString d =
    match readStringPart d with
    | .ok p d' => .ok (p.of d.buf) d'
    | .fail e d' => .fail e d'
    | .panic => .panic := by
  simp only [Msgpack.readString, readStringPart, Msgpack.rd_bind]
  cases h : Msgpack.readStringLength d with
  | fail e d' => rfl
  | panic => rfl
  | ok n d' =>
    simp only [getPart_shows, length_buf (.inl rfl) d d' n h]

/-- The same for byte arrays. -/
theorem C132_bytes (d : Msgpack.DR) : Msgpack.readByteArray d =
    match readByteArrayPart d with
    | .ok p d' => .ok (p.of d.buf) d'
    | .fail e d' => .fail e d'
    | .panic => .panic := by
  simp only [Msgpack.readByteArray, readByteArrayPart, Msgpack.rd_bind]
  cases h : Msgpack.readBinLength d with
  | fail e d' => rfl
  | panic => rfl
  | ok n d' =>
    simp only [getPart_shows, length_buf (.inr rfl) d d' n h]

theorem sliceFrom_suffix {s t : Bytes} {n : Nat} (h : sliceFrom s n = .ok t) : t <:+ s := by
  unfold sliceFrom at h
  split at h
  · cases h; exact List.drop_suffix _ _
  · cases h

theorem go_bind_ok {α β : Type} {x : Go α} {k : α → Go β} {b : β} (h : (x >>= k) = .ok b) :
    ∃ a, x = .ok a ∧ k a = .ok b := by
  cases x with
  | ok a => exact ⟨a, rfl, h⟩
  | err e => cases h
  | panic => cases h

theorem metadata_suffix {c : Bool} {p md q : Bytes} (h : Frames.getMetadata c p = .ok (md, q)) : q <:+ p := by
  unfold Frames.getMetadata at h
  split at h
  · obtain ⟨a, _, h⟩ := go_bind_ok h
    obtain ⟨b, _, h⟩ := go_bind_ok h
    obtain ⟨c, h3, h⟩ := go_bind_ok h
    obtain ⟨e, _, h⟩ := go_bind_ok h
    obtain ⟨g, h4, h⟩ := go_bind_ok h
    cases h
    exact (sliceFrom_suffix h4).trans (sliceFrom_suffix h3)
  · cases h; exact List.suffix_refl _

/-- The message is the end of the frame. -/
theorem C132_message (raw data : Bytes) (f : Frames.AnyFrame) (h : TcpConn.parse raw = .ok f)
    (hm : message f = some data) : data <:+ raw := by
  unfold TcpConn.parse at h
  obtain ⟨hd, _, h⟩ := go_bind_ok h
  obtain ⟨buf, hb, h⟩ := go_bind_ok h
  have hb := sliceFrom_suffix hb
  refine List.IsSuffix.trans ?_ hb
  repeat' split at h
  all_goals first | (obtain ⟨g, hg, h⟩ := go_bind_ok h; cases h) | cases h
  all_goals try cases hm
  · unfold Frames.RequestPayload.decode at hg
    dsimp only at hg
    split at hg
    · obtain ⟨a, _, hg⟩ := go_bind_ok hg
      obtain ⟨b, hb, hg⟩ := go_bind_ok hg
      obtain ⟨⟨n, p⟩, hn, hg⟩ := go_bind_ok hg
      cases hn
      obtain ⟨⟨md, q⟩, hq, hg⟩ := go_bind_ok hg
      cases hg
      exact (metadata_suffix hq).trans (sliceFrom_suffix hb)
    · obtain ⟨⟨n, p⟩, hn, hg⟩ := go_bind_ok hg
      cases hn
      obtain ⟨⟨md, q⟩, hq, hg⟩ := go_bind_ok hg
      cases hg
      exact metadata_suffix hq
  · unfold Frames.Payload.decode at hg
    obtain ⟨⟨md, q⟩, hq, hg⟩ := go_bind_ok hg
    cases hg
    exact metadata_suffix hq

/-! ## The claim -/

/-- At the end, what was read from the messages of the frames `l` shows what it was when it was read: `read` returned
the value `x`, and the memory it is in, found by `part`, shows `x`. -/
def AllKept (l : List (View × Bytes)) (s : Scn) (read : Msgpack.Rd Bytes) (part : Msgpack.Rd Part) : Prop :=
  ∀ fr ∈ l, ∀ f data, TcpConn.parse fr.2 = .ok f → message f = some data →
    ∀ (d : Msgpack.DR) (x : Bytes) (d' : Msgpack.DR) (p : Part), d.buf = data → read d = .ok x d' →
      part d = .ok p d' → s.look (place fr.1 fr.2 data p) = x

/-- C132 in full: whatever arrives in whatever pieces, every text and every byte array that the application has read from a
message, at any position, still has its value at the end. -/
def C132_statement : Prop :=
  ∀ (n : Nat) (es : List Ev) l e s, readAll n Scanner.new es = some (l, e, s) →
    AllKept l s Msgpack.readString readStringPart ∧ AllKept l s Msgpack.readByteArray readByteArrayPart

/-- Where a slice of a slice is. -/
theorem look_place {s : Scn} {v : View} {raw data : Bytes} {p : Part} (hr : s.look v = raw) (hd : data <:+ raw)
    (hp : p.off + p.len ≤ data.length) : s.look (place v raw data p) = p.of data := by
  obtain ⟨pre, rfl⟩ := hd
  have hl : (s.look v).length = pre.length + data.length := by rw [hr, List.length_append]
  simp only [Scn.look, place, Part.of, List.length_append, Nat.add_sub_cancel] at hr hl ⊢
  generalize (s.old ++ [s.buf]).getD v.gen [] = b at hr hl ⊢
  have h1 : data = ((b.drop v.off).take v.len).drop pre.length := by rw [hr]; simp
  rw [h1, List.drop_take, List.drop_take, List.take_take, List.drop_drop, List.drop_drop,
    Nat.add_assoc]
  rw [List.length_take] at hl
  congr 1
  omega

theorem part_inside {n : UInt32} {d d' : Msgpack.DR} {p : Part} (h : getPart n d = .ok p d') :
    p.off + p.len ≤ d.buf.length := by
  simp only [getPart, Msgpack.rd_bind, Msgpack.rd_of] at h
  cases hc : Msgpack.check n d with
  | fail e d' => rw [hc] at h; cases h
  | panic => rw [hc] at h; cases h
  | ok u d1 =>
    rw [hc] at h
    have : d1 = d := by
      unfold Msgpack.check at hc
      repeat' split at hc
      all_goals cases hc
      rfl
    subst this
    simp only at h
    split at h
    · cases h; simp only; omega
    · cases h

theorem strings_inside {d d' : Msgpack.DR} {p : Part}
    (h : readStringPart d = .ok p d' ∨ readByteArrayPart d = .ok p d') : p.off + p.len ≤ d.buf.length := by
  rcases h with h | h
  · simp only [readStringPart, Msgpack.rd_bind] at h
    cases hn : Msgpack.readStringLength d with
    | fail e d' => rw [hn] at h; cases h
    | panic => rw [hn] at h; cases h
    | ok n d1 =>
      rw [hn] at h
      rw [← length_buf (.inl rfl) d d1 n hn]
      exact part_inside h
  · simp only [readByteArrayPart, Msgpack.rd_bind] at h
    cases hn : Msgpack.readBinLength d with
    | fail e d' => rw [hn] at h; cases h
    | panic => rw [hn] at h; cases h
    | ok n d1 =>
      rw [hn] at h
      rw [← length_buf (.inr rfl) d d1 n hn]
      exact part_inside h

/-- As long as a frame keeps its contents, so do the values read from its message. -/
theorem kept_of_same {l : List (View × Bytes)} {s : Scn} (h : ∀ fr ∈ l, s.look fr.1 = fr.2) :
    AllKept l s Msgpack.readString readStringPart ∧ AllKept l s Msgpack.readByteArray readByteArrayPart := by
  refine ⟨fun fr hfr f data hf hm d x d' p hd hx hp => ?_, fun fr hfr f data hf hm d x d' p hd hx hp => ?_⟩
  · subst hd
    rw [look_place (h fr hfr) (C132_message _ _ _ hf hm) (strings_inside (.inl hp))]
    rw [C132_text, hp] at hx
    cases hx; rfl
  · subst hd
    rw [look_place (h fr hfr) (C132_message _ _ _ hf hm) (strings_inside (.inr hp))]
    rw [C132_bytes, hp] at hx
    cases hx; rfl

/-- C132, partial: values keep as long as the connection has received no more than 4096 bytes. Missing: everything after that
(`C132_violated`). -/
theorem C132_partial (n : Nat) (es : List Ev) (l : List (View × Bytes)) (e : End) (s : Scn)
    (hb : arriving es ≤ 4096) (h : readAll n Scanner.new es = some (l, e, s)) :
    AllKept l s Msgpack.readString readStringPart ∧ AllKept l s Msgpack.readByteArray readByteArrayPart :=
  kept_of_same (C54_partial n es l e s hb h)

/-- A message with the text `lost` in a payload frame of stream 1. -/
def lostFrame : Bytes := [0, 0, 0, 1, 0x28, 0x20, 0xa4, 108, 111, 115, 116]

/-- The text `lost` is read from a frame, and another frame arrives; the text is at position 10 of the buffer. -/
example : ∃ (n : Nat) (l : List (View × Bytes)) (e : End) (s : Scn) (v : View) (f : Frames.AnyFrame) (d' : Msgpack.DR) (p : Part),
    readAll n Scanner.new [.data (framed lostFrame), .data (framed [0, 0, 0, 1, 0x28, 0x20, 0xc0])] = some (l, e, s) ∧
      l.map (·.2) = [lostFrame, [0, 0, 0, 1, 0x28, 0x20, 0xc0]] ∧ (v, lostFrame) ∈ l ∧ TcpConn.parse lostFrame = .ok f ∧
      message f = some (lostFrame.drop 6) ∧ Msgpack.readString (.new (lostFrame.drop 6)) = .ok [108, 111, 115, 116] d' ∧
      readStringPart (.new (lostFrame.drop 6)) = .ok p d' ∧ s.look (place v lostFrame (lostFrame.drop 6) p) = [108, 111, 115, 116] := by
  obtain ⟨l, s, n, h1, h2⟩ := C49_partial [lostFrame, [0, 0, 0, 1, 0x28, 0x20, 0xc0]] []
    [framed lostFrame, framed [0, 0, 0, 1, 0x28, 0x20, 0xc0]] (by simp [lostFrame])
    ⟨[0], by decide, by decide, by decide, by decide⟩ (by simp [framed, be24]) (by simp [lostFrame, framed]) [] .blocked .wait
  have h2 := h2 n (Nat.le_refl _)
  have hk := C132_partial n _ l _ s (by decide) h2
  obtain ⟨⟨v, b⟩, hv, rfl⟩ : ∃ p ∈ l, p.2 = lostFrame := by
    have : lostFrame ∈ l.map (·.2) := by rw [h1]; simp
    simpa using this
  have hf : TcpConn.parse lostFrame = .ok (.payload ⟨1, [], lostFrame.drop 6, false, false, true⟩) := by decide +kernel
  have hx : Msgpack.readString (.new (lostFrame.drop 6)) = .ok [108, 111, 115, 116] ⟨lostFrame.drop 6, 5, none⟩ := by decide +kernel
  have hp : readStringPart (.new (lostFrame.drop 6)) = .ok ⟨1, 4⟩ ⟨lostFrame.drop 6, 5, none⟩ := by decide +kernel
  exact ⟨n, l, _, s, v, _, _, _, h2, h1, hv, hf, rfl, hx, hp, hk.1 _ hv _ _ hf rfl _ _ _ _ rfl hx hp⟩

/-! ## Buffers that are no longer used -/

theorem more_old (es : List Ev) : ∀ (s : Scn) (n : Nat) (s' : Scn) (es' : List Ev), s.more n es = some (s', es') →
    s'.old = s.old := by
  induction es with
  | nil => intro s n s' es' h; cases h
  | cons e es ih =>
    intro s n s' es' h
    cases e with
    | data b =>
      simp only [Scn.more] at h
      repeat' split at h
      · cases h; exact (setErr_same s _).1
      · exact ih s _ s' es' h
      · cases h; rfl
      · cases h; rfl
    | dataEof b =>
      simp only [Scn.more] at h
      split at h
      · cases h; exact (setErr_same _ _).1
      · cases h; rfl
    | eof => cases h; exact (setErr_same s _).1
    | fail x => cases h; exact (setErr_same s _).1

theorem shift_old (s : Scn) : s.shift.old = s.old := by
  unfold Scn.shift
  split <;> rfl

theorem grow_old {s s' : Scn} (h : s.grow = some s') : s.old <+: s'.old := by
  unfold Scn.grow at h
  repeat' split at h
  · cases h
  · cases h; exact List.prefix_append _ _
  · cases h; exact List.prefix_refl _

theorem scan_old (f : Nat) : ∀ (s : Scn) (es : List Ev) (s' : Scn) (es' : List Ev) (r : Res),
    scan f s es = some (s', es', r) → s.old <+: s'.old := by
  induction f with
  | zero => intro s es s' es' r h; cases h
  | succ f ih =>
    intro s es s' es' r hm
    simp only [scan] at hm
    generalize (if s.stop > s.start ∨ s.err ≠ none then doSplit s.data (s.err != none) else some 0) = x at hm
    match x with
    | none => cases hm; rw [(setErr_same s _).1]; exact List.prefix_refl _
    | some (n + 1) => cases hm; exact List.prefix_refl _
    | some 0 =>
      simp only at hm
      split at hm
      · cases hm; exact List.prefix_refl _
      · cases hg : s.shift.grow with
        | none =>
          rw [hg] at hm
          cases hm
          rw [(setErr_same _ _).1, shift_old]
          exact List.prefix_refl _
        | some s1 =>
          rw [hg] at hm
          have h1 : s.old <+: s1.old := by have := grow_old hg; rwa [shift_old] at this
          simp only at hm
          cases hmo : s1.more 0 es with
          | none => rw [hmo] at hm; cases hm; exact h1
          | some p =>
            obtain ⟨s2, es2⟩ := p
            rw [hmo] at hm
            have h2 := more_old es s1 0 s2 es2 hmo
            exact h1.trans (h2 ▸ ih s2 es2 s' es' r hm)

theorem readAll_old (f : Nat) : ∀ (s : Scn) (es : List Ev) l e (s' : Scn), readAll f s es = some (l, e, s') →
    s.old <+: s'.old := by
  induction f with
  | zero => intro s es l e s' h; cases h
  | succ f ih =>
    intro s es l e s' hm
    simp only [readAll, Scanner.read] at hm
    cases hs : scan (f + 1) s es with
    | none => rw [hs] at hm; cases hm
    | some x =>
      obtain ⟨s1, es1, r⟩ := x
      have h1 := scan_old _ _ _ _ _ _ hs
      rw [hs] at hm
      cases r with
      | blocked => cases hm; exact h1
      | done =>
        simp only at hm
        cases he : s1.err with
        | none => rw [he] at hm; cases hm; exact h1
        | some x => rw [he] at hm; cases hm; exact h1
      | token v =>
        simp only at hm
        split at hm
        · rename_i heq
          split at heq <;> cases heq
        · rename_i heq
          split at heq
          · cases heq; cases hm; exact h1
          · cases heq
        · rename_i w heq
          split at heq
          · cases heq
          · cases heq
            cases hr : readAll f s1 es1 with
            | none => rw [hr] at hm; cases hm
            | some y =>
              obtain ⟨l', e', s2⟩ := y
              rw [hr] at hm
              cases hm
              exact h1.trans (ih _ _ _ _ _ hr)

/-- What is in a buffer that the scanner has replaced by a larger one keeps its value for good, whatever arrives later: frames, texts and
byte arrays. -/
theorem C132_replaced (n : Nat) (s s' : Scn) (es : List Ev) (l : List (View × Bytes)) (e : End)
    (h : readAll n s es = some (l, e, s')) (v : View) (hv : v.gen < s.old.length) : s'.look v = s.look v := by
  obtain ⟨xs, hx⟩ := readAll_old n s es l e s' h
  have hg (a b : List Bytes) (h : v.gen < a.length) : (a ++ b).getD v.gen [] = a.getD v.gen [] := by
    simp [List.getD, List.getElem?_append_left h]
  simp only [Scn.look]
  rw [← hx, List.append_assoc, hg _ _ hv, hg _ _ hv]

/-- A frame that lies in a buffer that was replaced; another frame arrives. -/
example : ∃ s : Scn, ∃ (v : View) (n : Nat) (l : List (View × Bytes)) (s' : Scn),
    s.look v = [9, 9] ∧ v.gen < s.old.length ∧ readAll n s [.data (framed lostFrame)] = some (l, .blocked, s') ∧
      l.map (·.2) = [lostFrame] ∧ s'.look v = [9, 9] :=
  ⟨⟨[[0, 9, 9]], List.replicate 64 0, 0, 0, none⟩, ⟨0, 1, 2⟩, 3, [(⟨1, 3, 11⟩, lostFrame)],
    ⟨[[0, 9, 9]], framed lostFrame ++ List.replicate 50 0, 14, 14, none⟩, by decide +kernel⟩

/-! ## The claim fails -/

/-- After a frame of 4094 to 8000 bytes, another of up to 4093 bytes is put in the same place: the slice of the first frame shows the
second frame, and behind it the rest of the first. -/
theorem C132_mixed (F G : Bytes) (h1 : 4094 ≤ F.length) (h2 : F.length ≤ 8000) (h3 : 6 ≤ G.length)
    (h4 : G.length ≤ 4093) : ∃ s v w,
      readAll 3 Scanner.new [.data (framed F), .data (framed G)] = some ([(v, F), (w, G)], .blocked, s) ∧
      s.look v = G ++ F.drop G.length ∧ s.look w = G := by
  have r1 := scan_fresh (f := F) (es := [.data (framed G)]) 1 new_ok.1 rfl
    List.length_replicate (.inl rfl) (by decide) (by omega) (by omega)
  have hn : Scanner.new.buf.length = 8192 := List.length_replicate
  have hz : (framed F ++ Scanner.new.buf.drop (framed F).length).length = 8192 := by
    rw [List.length_append, List.length_drop, framed_length, hn]; omega
  have hb : (framed F ++ Scanner.new.buf.drop (framed F).length).drop 3 =
      F ++ Scanner.new.buf.drop (framed F).length := by
    rw [framed, List.append_assoc, List.drop_append_of_le_length (by simp),
      List.drop_of_length_le (l := be24 _) (by simp), List.nil_append]
  generalize Scanner.new.buf.drop (framed F).length = tail at r1 hz hb
  generalize framed F ++ tail = b1 at r1 hz hb
  have hl := framed_length G
  have r2 := scan_fresh (f := G) (es := []) (s := ⟨[], b1, F.length + 3, F.length + 3, none⟩) 0
    ⟨Nat.le_refl _, by show F.length + 3 ≤ b1.length; omega, by show 1 ≤ b1.length; omega, by
      show b1.length ≤ _; rw [hz]; decide, rfl⟩ rfl hz (.inr (by show F.length + 3 > 4096; omega))
    (by show F.length + 3 < 8192; omega) (by omega) (by omega)
  simp only [hl] at r2
  have hb2 : (framed G ++ b1.drop (G.length + 3)).length = 8192 := by
    rw [List.length_append, List.length_drop, hl, hz]; omega
  have hb3 : (framed G ++ b1.drop (G.length + 3)).drop 3 = G ++ b1.drop (G.length + 3) := by
    rw [framed, List.append_assoc, List.drop_append_of_le_length (by simp),
      List.drop_of_length_le (l := be24 _) (by simp), List.nil_append]
  have hb4 : b1.drop (G.length + 3) = F.drop G.length ++ tail := by
    rw [Nat.add_comm, ← List.drop_drop, hb, List.drop_append_of_le_length (by omega)]
  generalize hb5 : framed G ++ b1.drop (G.length + 3) = b2 at r2 hb2 hb3
  have he : Early ⟨[], b2, G.length + 3, G.length + 3, none⟩ [] :=
    ⟨rfl, hb2, Nat.le_refl _, by show G.length + 3 + 0 ≤ 4096; omega⟩
  have r3 : Scanner.read 1 ⟨[], b2, G.length + 3, G.length + 3, none⟩ [] =
      some (⟨[], b2, G.length + 3, G.length + 3, none⟩, [], .inr .blocked) := by
    unfold Scanner.read
    rw [scan, if_neg (by simp)]
    simp only [early_same he]
    rfl
  have r2 : Scanner.read 2 ⟨[], b1, F.length + 3, F.length + 3, none⟩ [.data (framed G)] =
      some (⟨[], b2, G.length + 3, G.length + 3, none⟩, [], .inl ⟨0, 3, G.length⟩) := r2
  have r1 : Scanner.read 3 Scanner.new [.data (framed F), .data (framed G)] =
      some (⟨[], b1, F.length + 3, F.length + 3, none⟩, [.data (framed G)], .inl ⟨0, 3, F.length⟩) := r1
  have a3 : readAll 1 ⟨[], b2, G.length + 3, G.length + 3, none⟩ [] =
      some ([], .blocked, ⟨[], b2, G.length + 3, G.length + 3, none⟩) := by
    rw [readAll, r3]
  have l1 : Scn.look ⟨[], b1, F.length + 3, F.length + 3, none⟩ ⟨0, 3, F.length⟩ = F := by
    show (b1.drop 3).take F.length = F
    rw [hb]; simp
  have l2 : Scn.look ⟨[], b2, G.length + 3, G.length + 3, none⟩ ⟨0, 3, G.length⟩ = G := by
    show (b2.drop 3).take G.length = G
    rw [hb3]; simp
  have l3 : Scn.look ⟨[], b2, G.length + 3, G.length + 3, none⟩ ⟨0, 3, F.length⟩ = G ++ F.drop G.length := by
    show (b2.drop 3).take F.length = _
    rw [hb3, hb4, ← List.append_assoc, List.take_left' (by simp; omega)]
  refine ⟨⟨[], b2, G.length + 3, G.length + 3, none⟩, ⟨0, 3, F.length⟩, ⟨0, 3, G.length⟩, ?_, l3, l2⟩
  rw [readAll, r1]
  simp only
  rw [readAll, r2]
  simp only [a3, l1, l2]

/-- What an application then sees in a text that it has read from the message of the first frame: the bytes of the second frame and
of the rest of the first at the place where the text was. -/
theorem C132_shows (F G data : Bytes) (f : Frames.AnyFrame) (h1 : 4094 ≤ F.length) (h2 : F.length ≤ 8000) (h3 : 6 ≤ G.length)
    (h4 : G.length ≤ 4093) (hf : TcpConn.parse F = .ok f) (hm : message f = some data) : ∃ s v w,
      readAll 3 Scanner.new [.data (framed F), .data (framed G)] = some ([(v, F), (w, G)], .blocked, s) ∧
      ∀ p : Part, p.off + p.len ≤ data.length →
        s.look (place v F data p) = ((G ++ F.drop G.length).drop (F.length - data.length + p.off)).take p.len := by
  obtain ⟨s, v, w, a, b, _⟩ := C132_mixed F G h1 h2 h3 h4
  refine ⟨s, v, w, a, fun p hp => ?_⟩
  have hd := (C132_message F data f hf hm).length_le
  have hl : (G ++ F.drop G.length).length = F.length := by
    rw [List.length_append, List.length_drop]; omega
  have hq : ((G ++ F.drop G.length).drop (F.length - data.length)).length = data.length := by
    rw [List.length_drop, hl]; omega
  have := look_place (p := p) b (List.drop_suffix (F.length - data.length) _) (by rw [hq]; exact hp)
  simp only [place, hl, hq, Part.of, List.drop_drop] at this ⊢
  exact this

/-- A message with a long text, 4091 times `x`, in a payload frame of stream 1. -/
def longFrame : Bytes := [0, 0, 0, 1, 0x28, 0x20, 0xda, 0x0f, 0xfb] ++ List.replicate 4091 120

theorem longFrame_length : longFrame.length = 4100 := by
  simp only [longFrame, List.length_append, List.length_replicate]; rfl

theorem longFrame_parse : TcpConn.parse longFrame = .ok (.payload ⟨1, [], longFrame.drop 6, false, false, true⟩) := by
  unfold longFrame
  generalize List.replicate 4091 (120 : UInt8) = x
  simp only [TcpConn.parse, List.cons_append, List.nil_append, Frames.parseHeader]
  rfl

theorem longFrame_part : ∃ d', Msgpack.readString (.new (longFrame.drop 6)) = .ok (List.replicate 4091 120) d' ∧
    readStringPart (.new (longFrame.drop 6)) = .ok ⟨3, 4091⟩ d' := by
  have hp : ∃ d', readStringPart (.new (longFrame.drop 6)) = .ok ⟨3, 4091⟩ d' := by
    unfold longFrame
    have hx : (List.replicate 4091 (120 : UInt8)).length = 4091 := List.length_replicate
    generalize List.replicate 4091 (120 : UInt8) = x at hx
    have hr := readStringLength_reads 4091 [] x (by
      rw [show Spec.strHead (4091 : UInt32).toNat = [0xda, 0x0f, 0xfb] by decide]; simp [hx])
    rw [show Spec.strHead (4091 : UInt32).toNat = [0xda, 0x0f, 0xfb] by decide] at hr
    have hb : ([] ++ [0xda, 0x0f, 0xfb] ++ x : Bytes).length < 2^32 := by simp [hx]
    have hc := Msgpack.check_at (n := 4091) hb (by rw [hx]; decide)
    have ho := Msgpack.at_off hb
    refine ⟨⟨[0xda, 0x0f, 0xfb] ++ x, 4094, none⟩, ?_⟩
    show readStringPart (Spec.at_ [] ([0xda, 0x0f, 0xfb] ++ x)) = _
    simp only [readStringPart, Msgpack.rd_bind, hr, getPart, hc, Msgpack.rd_of]
    have h3 : (Spec.at_ ([] ++ [0xda, 0x0f, 0xfb]) x).off = 3 := rfl
    have h4 : (Spec.at_ ([] ++ [0xda, 0x0f, 0xfb]) x).buf.length = 4094 := by
      show ([0xda, 0x0f, 0xfb] ++ x : Bytes).length = 4094
      rw [List.length_append, hx]; rfl
    have h5 : (3 + 4091 : UInt32) = 4094 := by decide
    have h6 : (4094 : UInt32).toNat = 4094 := by decide
    have h7 : (3 : UInt32).toNat = 3 := by decide
    simp only [h3, h4, h5, h6, h7]
    rw [if_pos (by omega)]
    congr 1
  obtain ⟨d', hp⟩ := hp
  refine ⟨d', ?_, hp⟩
  rw [C132_text, hp]
  unfold longFrame
  have hx : (List.replicate 4091 (120 : UInt8)).length = 4091 := List.length_replicate
  generalize List.replicate 4091 (120 : UInt8) = x at hx
  show Msgpack.Out.ok (x.take 4091) d' = .ok x d'
  rw [List.take_of_length_le (by omega)]

/-- C132 fails: the text of 4091 letters `x` begins with `st` after the second message has arrived, the end of `lost`. -/
theorem C132_violated : ¬ C132_statement := by
  intro h
  have hl := longFrame_length
  obtain ⟨s, v, w, h1, h2⟩ := C132_shows longFrame lostFrame _ _ (by omega) (by omega) (by decide) (by decide) longFrame_parse rfl
  obtain ⟨d', p1, p2⟩ := longFrame_part
  have hk := (h _ _ _ _ _ h1).1 _ List.mem_cons_self _ _ longFrame_parse rfl _ _ _ _ rfl p1 p2
  have h2 := h2 ⟨3, 4091⟩ (by show 3 + 4091 ≤ (longFrame.drop 6).length; rw [List.length_drop]; omega)
  have hk := congrArg (List.take 1) (h2.symm.trans hk)
  have hd : longFrame.length - (longFrame.drop 6).length + 3 = 9 := by rw [List.length_drop]; omega
  simp only [hd, List.take_take, List.take_replicate] at hk
  exact absurd hk (by simp [lostFrame])

end Verif.Props
