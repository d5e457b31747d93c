import Verif.Model.WasmBuffers
import Verif.Props.Frames2
import Verif.Props.Scanner
/-
Properties C51, C52 and C75: the buffers shared by host and guest.
-/
set_option autoImplicit false
namespace Verif.Props
open Verif Frames Wasm

/-! ## Specification -/

/-- Frames the encoders write faithfully (see C06): lengths fit their fields. -/
def Encodable : AnyFrame → Prop
  | .setup f => SetupSmall f ∧ f.token = []
  | .request f => isRequest f.frameType ∧ f.metadata.length < 2^24 ∧
      f.metadata.length + f.data.length + 13 < 2^32
  | .requestN _ => True
  | .cancel _ => True
  | .payload f => f.metadata.length < 2^24 ∧ f.metadata.length + f.data.length + 9 < 2^32
  | .error f => 10 + f.data.length < 2^32

/-- `w` is the encoding of `f`: what `Encode` writes into a buffer of `Size()` bytes. -/
def EncodesAs (f : AnyFrame) (w : Bytes) : Prop :=
  ∀ buf : Bytes, buf.length = f.size.toNat → f.encode buf = .ok w

theorem encodable_exact (f : AnyFrame) (h : Encodable f) : SizeExact f.encode f.size.toNat := by
  cases f with
  | setup f => exact C06_setup_size_partial f h.1 h.2
  | request f => exact C06_request_size f h.1 h.2.1 h.2.2
  | requestN f => exact C06_requestN_size f
  | cancel f => exact C06_cancel_size f
  | payload f => exact C06_payload_size f h.1 h.2
  | error f => exact C06_error_size f h

/-! ## C51 -/

theorem framed_len3 (f : Bytes) : (framed f).length = 3 + f.length := by simp [framed]

theorem framed_take {f : Bytes} (h : f.length < 2^24) (r : Bytes) :
    beNat ((framed f ++ r).take 3) = f.length := by
  rw [framed, List.append_assoc, List.take_append_of_le_length (by simp),
    List.take_of_length_le (by simp), beNat_be24, UInt32.toNat_ofNat_lt (by omega)]
  omega

theorem framed_drop (f r : Bytes) : (framed f ++ r).drop 3 = f ++ r := by
  rw [framed, List.append_assoc, List.drop_append_of_le_length (by simp), List.drop_of_length_le (by simp)]
  rfl

theorem framed_drop' (f r : Bytes) : (framed f ++ r).drop (3 + f.length) = r := by
  rw [← framed_len3, List.drop_left]

theorem parseHeader_long {f : Bytes} (h : 6 ≤ f.length) : ∃ hd, parseHeader f = .ok hd := by
  match f, h with
  | b0 :: b1 :: b2 :: b3 :: b4 :: b5 :: _, _ => exact ⟨_, rfl⟩

theorem guestSend_cons {f r : Bytes} {cur stop : UInt32} (h6 : 6 ≤ f.length) (h : f.length < 2^24)
    (hc : cur < stop) :
    guestSend (framed f ++ r) cur stop =
      (f :: (guestSend r (cur + (3 + UInt32.ofNat f.length)) stop).1,
        (guestSend r (cur + (3 + UInt32.ofNat f.length)) stop).2) := by
  obtain ⟨hd, hh⟩ := parseHeader_long h6
  rw [guestSend]
  simp only [framed_take h, framed_drop, framed_drop', List.take_left, hh, hc, if_true,
    List.length_append, framed_len3]
  rw [if_neg (by omega), dif_neg (by omega)]

theorem guestSend_split (fs : List Bytes) (rest : Bytes) (cur stop : UInt32)
    (h : ∀ f ∈ fs, 6 ≤ f.length ∧ f.length < 2^24)
    (hs : cur.toNat + (fs.flatMap framed).length = stop.toNat) :
    guestSend (fs.flatMap framed ++ rest) cur stop = (fs, false) := by
  induction fs generalizing cur with
  | nil =>
    simp at hs
    rw [guestSend, if_neg (by rw [UInt32.lt_iff_toNat_lt]; omega)]
  | cons f fs ih =>
    obtain ⟨h6, hf⟩ := h f (by simp)
    have hb := stop.toNat_lt
    simp only [List.flatMap_cons, List.length_append, framed_len3] at hs
    rw [List.flatMap_cons, List.append_assoc,
      guestSend_cons h6 hf (by rw [UInt32.lt_iff_toNat_lt]; omega), ih]
    · exact fun g hg => h g (by simp [hg])
    · rw [UInt32.toNat_add, UInt32.toNat_add, UInt32.toNat_ofNat_lt (by omega)]
      have h3 : (3 : UInt32).toNat = 3 := rfl
      rw [h3]
      omega

/-- C51: the guest splits frames laid out back to back into exactly these frames, whatever the
buffer holds behind them. -/
theorem C51_guest_splits (fs : List Bytes) (rest : Bytes)
    (h : ∀ f ∈ fs, 6 ≤ f.length ∧ f.length < 2^24) (hs : (fs.flatMap framed).length < 2^32) :
    guestSend (fs.flatMap framed ++ rest) 0 (UInt32.ofNat (fs.flatMap framed).length) =
      (fs, false) :=
  guestSend_split fs rest 0 _ h (by rw [UInt32.toNat_ofNat_lt hs]; simp)

example : guestSend ([[0, 0, 0, 1, 0x24, 0], [0, 0, 0, 3, 0x20, 0, 0, 0, 0, 9]].flatMap framed ++ [7, 7]) 0 22 =
    ([[0, 0, 0, 1, 0x24, 0], [0, 0, 0, 3, 0x20, 0, 0, 0, 0, 9]], false) :=
  C51_guest_splits _ _ (by decide) (by decide)

theorem hostSplit_cons {f r : Bytes} (h : f.length < 2^24) :
    hostSplit (framed f ++ r) = (f :: (hostSplit r).1, (hostSplit r).2) := by
  rw [hostSplit]
  simp only [framed_take h, framed_drop, framed_drop', List.take_left, List.length_append,
    framed_len3]
  rw [if_neg (by omega), if_neg (by omega), dif_neg (by omega)]

/-- C51: the host splits frames laid out back to back into exactly these frames. -/
theorem C51_host_splits (fs : List Bytes) (before rest : Bytes) (h : ∀ f ∈ fs, f.length < 2^24)
    (hs : (fs.flatMap framed).length < 2^32) :
    hostSend (before ++ fs.flatMap framed ++ rest) before.length
      (UInt32.ofNat (fs.flatMap framed).length) = (fs, false) := by
  have hm : memRead (before ++ fs.flatMap framed ++ rest) before.length
      (UInt32.ofNat (fs.flatMap framed).length).toNat = fs.flatMap framed := by
    rw [UInt32.toNat_ofNat_lt hs, memRead, if_pos (by simp only [List.length_append]; omega),
      List.append_assoc, List.drop_left, List.take_left]
  rw [hostSend, hm]
  clear hm hs
  induction fs with
  | nil => rw [hostSplit]; rfl
  | cons f fs ih =>
    rw [List.flatMap_cons, hostSplit_cons (h f (by simp)), ih (fun g hg => h g (by simp [hg]))]

example : hostSend ([5] ++ [[0, 0, 0, 1, 0x24, 0], [1]].flatMap framed ++ [7]) 1 13 =
    ([[0, 0, 0, 1, 0x24, 0], [1]], false) :=
  C51_host_splits [[0, 0, 0, 1, 0x24, 0], [1]] [5] [7] (by decide) (by decide)

theorem skip3 {buf w : Bytes} (hw : w.length = 3) (h : 3 ≤ buf.length) :
    (Cur.copy ⟨[], buf⟩ w).skip 3 = .ok ⟨w, buf.drop 3⟩ := by
  simp only [Cur.copy, Cur.skip, List.nil_append, hw]
  rw [List.take_of_length_le (l := w) (by omega), if_pos (by simp; omega)]
  rw [List.take_append_of_le_length (by omega), List.take_of_length_le (by omega),
    List.drop_append_of_le_length (by omega), List.drop_of_length_le (by omega)]
  rfl

theorem exact_encodesAs {f : AnyFrame} {w : Bytes} (hw : w.length = f.size.toNat)
    (he : ∀ buf : Bytes, f.size.toNat ≤ buf.length → f.encode buf = .ok (w ++ buf.drop f.size.toNat)) :
    EncodesAs f w := by
  intro buf hb
  rw [he buf (by omega), List.drop_of_length_le (by omega), List.append_nil]

theorem header_wires {f : AnyFrame} {buf r : Bytes} (h : f.encode buf = .ok r) : 6 ≤ buf.length := by
  have aux : ∀ (α : Type) (id : UInt32) (t : UInt8) (fg : UInt16) (k : Cur → Go α) (a : α),
      (putHeader ⟨[], buf⟩ id t fg >>= k) = .ok a → 6 ≤ buf.length := by
    intro α id t fg k a hk
    rcases Nat.lt_or_ge buf.length 6 with hl | hl
    · rw [putHeader, Cur.put, if_neg (by simp [headerBytes]; omega)] at hk
      exact absurd hk (by simp)
    · exact hl
  cases f with
  | setup f => exact aux _ _ _ _ _ _ h
  | request f => exact aux _ _ _ _ _ _ h
  | requestN f => exact aux _ _ _ _ _ _ h
  | cancel f => exact aux _ _ _ _ _ _ h
  | payload f => exact aux _ _ _ _ _ _ h
  | error f => exact aux _ _ _ _ _ _ h

theorem encodesAs_six {f : AnyFrame} {w : Bytes} (h : EncodesAs f w) : 6 ≤ f.size.toNat := by
  have := header_wires (h (List.replicate f.size.toNat 0) (by simp))
  simpa using this

/-- C51: a frame written by the host alone is read by the guest as that frame. -/
theorem C51_host_to_guest (f : AnyFrame) (buf : Bytes) (hf : Encodable f)
    (h24 : f.size.toNat < 2^24) (hb : 3 + f.size.toNat ≤ buf.length) :
    ∃ w, EncodesAs f w ∧ toGuest buf f = .ok ([w], false) := by
  obtain ⟨w, hw, he⟩ := encodable_exact f hf
  have hea := exact_encodesAs hw he
  have h6 := encodesAs_six hea
  refine ⟨w, hea, ?_⟩
  have hfr : be24 f.size = be24 (UInt32.ofNat w.length) := by rw [hw, UInt32.ofNat_toNat]
  have hg := C51_guest_splits [w] ((buf.drop 3).drop f.size.toNat)
    (by simp only [List.mem_singleton, forall_eq]; omega)
    (by simp only [List.flatMap_cons, List.flatMap_nil, List.append_nil, framed_len3]; omega)
  simp only [List.flatMap_cons, List.flatMap_nil, List.append_nil, framed_len3] at hg
  have hst : (3 : UInt32) + f.size = UInt32.ofNat (3 + w.length) := by
    apply UInt32.toNat_inj.mp
    rw [UInt32.toNat_ofNat_lt (by omega), UInt32.toNat_add, hw]
    simp; omega
  unfold toGuest hostWrite
  rw [skip3 (by simp) (by omega)]
  simp only [Go.bind_ok]
  rw [he _ (by simp; omega)]
  simp only [Go.bind_ok]
  rw [hst, ← hg, hfr, framed, List.append_assoc]

/-- C51: a frame written by the guest alone is read by the host as that frame. -/
theorem C51_guest_to_host (f : AnyFrame) (before buf after : Bytes) (hf : Encodable f)
    (h24 : f.size.toNat < 2^24) (hb : 3 + f.size.toNat ≤ buf.length) :
    ∃ w, EncodesAs f w ∧ toHost before buf after f = .ok ([w], false) := by
  obtain ⟨w, hw, he⟩ := encodable_exact f hf
  refine ⟨w, exact_encodesAs hw he, ?_⟩
  have hfr : be24 f.size = be24 (UInt32.ofNat w.length) := by rw [hw, UInt32.ofNat_toNat]
  have hg := C51_host_splits [w] before ((buf.drop 3).drop f.size.toNat ++ after)
    (by simp only [List.mem_singleton, forall_eq]; omega)
    (by simp only [List.flatMap_cons, List.flatMap_nil, List.append_nil, framed_len3]; omega)
  simp only [List.flatMap_cons, List.flatMap_nil, List.append_nil, framed_len3] at hg
  have hst : f.size + (3 : UInt32) = UInt32.ofNat (3 + w.length) := by
    apply UInt32.toNat_inj.mp
    rw [UInt32.toNat_ofNat_lt (by omega), UInt32.toNat_add, hw]
    simp; omega
  unfold toHost guestWrite
  rw [if_neg (by omega), he _ (by simp; omega)]
  simp only [Go.bind_ok]
  rw [hst, ← hg, hfr, framed]
  simp only [List.append_assoc]

/-- The hypotheses are met: a payload frame with metadata in a 64-byte buffer. -/
example : ∃ w, EncodesAs (.payload ⟨3, [1, 2], [3, 4, 5], false, false, true⟩) w ∧
    toGuest (List.replicate 64 0) (.payload ⟨3, [1, 2], [3, 4, 5], false, false, true⟩) =
      .ok ([w], false) :=
  C51_host_to_guest _ _ ⟨by decide, by decide⟩ (by decide) (by decide)

example : ∃ w, EncodesAs (.requestN ⟨2, 7⟩) w ∧
    toHost [1] (List.replicate 64 0) [2] (.requestN ⟨2, 7⟩) = .ok ([w], false) :=
  C51_guest_to_host _ _ _ _ trivial (by decide) (by decide)

/-! ## C52 -/

/-- C52 in full: a frame that does not fit into the guest's buffer is not delivered, not even in
part. -/
def C52_statement : Prop :=
  ∀ (f : AnyFrame) (buf : Bytes) (l : List Bytes) (p : Bool), Encodable f →
    buf.length < 3 + f.size.toNat → toGuest buf f = .ok (l, p) → l = []

theorem put_len {c c' : Cur} {w : Bytes} (h : c.put w = .ok c') : c'.all.length = c.all.length := by
  unfold Cur.put at h
  split at h
  · cases h; simp [Cur.all]; omega
  · cases h

theorem skip_len {c c' : Cur} {n : Nat} (h : c.skip n = .ok c') : c'.all.length = c.all.length := by
  unfold Cur.skip at h
  split at h
  · cases h; simp [Cur.all]
  · cases h

theorem copy_len (c : Cur) (w : Bytes) : (c.copy w).all.length = c.all.length := by
  simp only [Cur.all, Cur.copy, List.length_append, List.length_take, List.length_drop]; omega

theorem bind_ok_inv {α β : Type} {x : Go α} {k : α → Go β} {b : β} (h : (x >>= k) = .ok b) :
    ∃ a, x = .ok a ∧ k a = .ok b := by
  cases x with
  | ok a => exact ⟨a, rfl, h⟩
  | err e => cases h
  | panic => cases h

theorem putMetadata_len {c c' : Cur} {md : Bytes} (h : putMetadata c md = .ok c') :
    c'.all.length = c.all.length := by
  unfold putMetadata at h
  simp only at h
  split at h
  · obtain ⟨c1, h1, h2⟩ := bind_ok_inv h
    rw [skip_len h2, copy_len, put_len h1]
  · cases h; rfl

theorem putToken_len {c c' : Cur} {t : Bytes} (h : putToken c t = .ok c') :
    c'.all.length = c.all.length := by
  unfold putToken at h
  simp only at h
  split at h
  · obtain ⟨c1, h1, h2⟩ := bind_ok_inv h
    rw [skip_len h2, copy_len, put_len h1]
  · cases h; rfl

theorem putMime_len {c c' : Cur} {m : Bytes} (h : putMime c m = .ok c') :
    c'.all.length = c.all.length := by
  unfold putMime at h
  obtain ⟨c1, h1, h2⟩ := bind_ok_inv h
  rw [skip_len h2, copy_len, put_len h1]

theorem encode_len {f : AnyFrame} {buf r : Bytes} (h : f.encode buf = .ok r) :
    r.length = buf.length := by
  cases f with
  | setup f =>
    obtain ⟨c1, h1, h⟩ := bind_ok_inv h
    obtain ⟨c2, h2, h⟩ := bind_ok_inv h
    obtain ⟨c3, h3, h⟩ := bind_ok_inv h
    obtain ⟨c4, h4, h⟩ := bind_ok_inv h
    obtain ⟨c5, h5, h⟩ := bind_ok_inv h
    obtain ⟨c6, h6, h⟩ := bind_ok_inv h
    obtain ⟨c7, h7, h⟩ := bind_ok_inv h
    obtain ⟨c8, h8, h⟩ := bind_ok_inv h
    obtain ⟨c9, h9, h⟩ := bind_ok_inv h
    cases h
    rw [copy_len, putMetadata_len h9, putMime_len h8, putMime_len h7, putToken_len h6, put_len h5,
      put_len h4, put_len h3, put_len h2, put_len h1]
    rfl
  | request f =>
    obtain ⟨c1, h1, h⟩ := bind_ok_inv h
    have hc1 : c1.all.length = buf.length := by rw [put_len h1]; rfl
    split at h
    · obtain ⟨c2, h2, h⟩ := bind_ok_inv h
      obtain ⟨c3, h3, h⟩ := bind_ok_inv h
      cases h
      rw [copy_len, putMetadata_len h3, put_len h2, hc1]
    · obtain ⟨c2, h2, h⟩ := bind_ok_inv h
      obtain ⟨c3, h3, h⟩ := bind_ok_inv h
      cases h
      cases h2
      rw [copy_len, putMetadata_len h3, hc1]
  | requestN f =>
    obtain ⟨c1, h1, h⟩ := bind_ok_inv h
    obtain ⟨c2, h2, h⟩ := bind_ok_inv h
    cases h
    rw [put_len h2, put_len h1]; rfl
  | cancel f =>
    obtain ⟨c1, h1, h⟩ := bind_ok_inv h
    cases h
    rw [put_len h1]; rfl
  | payload f =>
    obtain ⟨c1, h1, h⟩ := bind_ok_inv h
    obtain ⟨c2, h2, h⟩ := bind_ok_inv h
    cases h
    rw [copy_len, putMetadata_len h2, put_len h1]; rfl
  | error f =>
    obtain ⟨c1, h1, h⟩ := bind_ok_inv h
    obtain ⟨c2, h2, h⟩ := bind_ok_inv h
    cases h
    rw [copy_len, put_len h2, put_len h1]; rfl

theorem hostWrite_shape {f : AnyFrame} {buf buf' : Bytes} {n : UInt32}
    (h : hostWrite buf f = .ok (buf', n)) :
    ∃ body, f.encode (buf.drop 3) = .ok body ∧ buf' = be24 f.size ++ body ∧ n = 3 + f.size ∧
      body.length + 3 = buf.length := by
  unfold hostWrite at h
  have h3 : 3 ≤ buf.length := by
    rcases Nat.lt_or_ge buf.length 3 with hl | hl
    · rw [Cur.skip, if_neg (by simp [Cur.copy]; omega)] at h
      exact absurd h (by simp)
    · exact hl
  rw [skip3 (by simp) h3] at h
  obtain ⟨body, h1, h2⟩ := bind_ok_inv (x := f.encode (buf.drop 3)) h
  cases h2
  refine ⟨body, h1, rfl, rfl, ?_⟩
  rw [encode_len h1, List.length_drop]; omega

/-- C52, partial: every frame of less than 2^24 bytes. Missing: larger frames, whose length does
not fit into the three bytes in front of it. -/
theorem C52_oversize_partial (f : AnyFrame) (buf : Bytes) (l : List Bytes) (p : Bool)
    (h24 : f.size.toNat < 2^24) (hb : buf.length < 3 + f.size.toNat)
    (h : toGuest buf f = .ok (l, p)) : l = [] := by
  unfold toGuest at h
  obtain ⟨⟨buf', n⟩, h1, h2⟩ := bind_ok_inv h
  obtain ⟨body, _, rfl, rfl, hl⟩ := hostWrite_shape h1
  have h2 : guestSend (be24 f.size ++ body) 0 (3 + f.size) = (l, p) := Go.ok.inj h2
  have hl0 : l = (guestSend (be24 f.size ++ body) 0 (3 + f.size)).1 := by rw [h2]
  rw [hl0]
  have hn : beNat ((be24 f.size ++ body).take 3) = f.size.toNat := by
    rw [List.take_append_of_le_length (by simp), List.take_of_length_le (by simp), beNat_be24]
    omega
  rw [guestSend]
  split
  · split
    · rfl
    · rw [dif_pos (by rw [hn]; simp; omega)]
  · rfl

theorem parseHeader_short {f : Bytes} (h : f.length < 6) : parseHeader f = .panic := by
  match f, h with
  | [], _ => rfl
  | [_], _ => rfl
  | [_, _], _ => rfl
  | [_, _, _], _ => rfl
  | [_, _, _, _], _ => rfl
  | [_, _, _, _, _], _ => rfl

/-- C52, exactly: what is delivered of a frame that does not fit. Something is if and only if the length, cut to
three bytes, is that of a header at least and fits into the buffer. Missing: sizes of 4 GiB. -/
theorem C52_exact_partial (f : AnyFrame) (buf : Bytes) (l : List Bytes) (p : Bool)
    (h32 : 3 + f.size.toNat < 2^32) (hb : buf.length < 3 + f.size.toNat) (h : toGuest buf f = .ok (l, p)) :
    l ≠ [] ↔ 6 ≤ f.size.toNat % 2^24 ∧ 3 + f.size.toNat % 2^24 ≤ buf.length := by
  unfold toGuest at h
  obtain ⟨⟨buf', n⟩, h1, h2⟩ := bind_ok_inv h
  obtain ⟨body, _, rfl, rfl, hl⟩ := hostWrite_shape h1
  have h2 : guestSend (be24 f.size ++ body) 0 (3 + f.size) = (l, p) := Go.ok.inj h2
  have hl0 : l = (guestSend (be24 f.size ++ body) 0 (3 + f.size)).1 := by rw [h2]
  rw [hl0]
  have hn : beNat ((be24 f.size ++ body).take 3) = f.size.toNat % 2^24 := by
    rw [List.take_append_of_le_length (by simp), List.take_of_length_le (by simp), beNat_be24]
  have hlen : (be24 f.size ++ body).length = buf.length := by simp; omega
  have hpos : (0 : UInt32) < 3 + f.size := by
    rw [UInt32.lt_iff_toNat_lt, UInt32.toNat_add]
    have : (3 : UInt32).toNat = 3 := rfl
    rw [this, Nat.mod_eq_of_lt h32]
    simp
    omega
  rw [guestSend, if_pos hpos, if_neg (by omega)]
  by_cases hfit : 3 + f.size.toNat % 2^24 ≤ buf.length
  · rw [dif_neg (by rw [hn, hlen]; omega), hn]
    have ht : (((be24 f.size ++ body).drop 3).take (f.size.toNat % 2^24)).length = f.size.toNat % 2^24 := by
      rw [List.length_take, List.length_drop, hlen]; omega
    by_cases h6 : 6 ≤ f.size.toNat % 2^24
    · obtain ⟨hd, hh⟩ := parseHeader_long (f := ((be24 f.size ++ body).drop 3).take (f.size.toNat % 2^24)) (by omega)
      rw [hh]
      exact ⟨fun _ => ⟨h6, hfit⟩, fun _ => by simp⟩
    · rw [parseHeader_short (by omega)]
      exact ⟨fun q => absurd rfl q, fun q => absurd q.1 h6⟩
  · rw [dif_pos (by rw [hn, hlen]; omega)]
    exact ⟨fun q => absurd rfl q, fun q => absurd q.2 hfit⟩

/-- The hypotheses are met by a frame of 12 bytes and a buffer of 14; nothing of it is delivered. -/
example : toGuest (List.replicate 14 0) (.payload ⟨1, [], [1, 2, 3, 4, 5, 6], false, true, true⟩) = .ok ([], true) ∧
    (AnyFrame.payload ⟨1, [], [1, 2, 3, 4, 5, 6], false, true, true⟩).size = 12 := by decide +kernel

/-- A payload frame without metadata written into a buffer that is too short for it. -/
theorem payload_truncated (id : UInt32) (d buf : Bytes) (fo co ne : Bool) (hb : 6 ≤ buf.length)
    (hd : buf.length - 6 ≤ d.length) :
    Payload.encode ⟨id, [], d, fo, co, ne⟩ buf =
      .ok (headerBytes id typePayload (Payload.flags ⟨id, [], d, fo, co, ne⟩) ++
        d.take (buf.length - 6)) := by
  unfold Payload.encode
  rw [putHeader_ok _ _ _ (by simpa using hb)]
  simp [putMetadata, Cur.all, Cur.copy]
  omega

/-- The hypotheses are met by payloads of 16400 bytes and the buffer of 16 KiB the host asks for. -/
example (d buf : Bytes) (hd : d.length = 16400) (hb : buf.length = 16384) :
    (AnyFrame.payload ⟨1, [], d, false, true, true⟩).size.toNat < 2^24 ∧
    buf.length < 3 + (AnyFrame.payload ⟨1, [], d, false, true, true⟩).size.toNat ∧
    ∃ r, toGuest buf (.payload ⟨1, [], d, false, true, true⟩) = .ok r := by
  have hs : (AnyFrame.payload ⟨1, [], d, false, true, true⟩).size.toNat = 16406 := by
    simp [AnyFrame.size, Payload.size, hd]
  refine ⟨by omega, by omega, ?_⟩
  unfold toGuest hostWrite
  rw [skip3 (by simp) (by omega)]
  simp only [Go.bind_ok, AnyFrame.encode]
  rw [payload_truncated _ _ _ _ _ _ (by simp; omega) (by simp; omega)]
  exact ⟨_, rfl⟩

/-- C52 fails for a frame of 2^24 + 20 bytes: the guest gets a frame of 20 bytes. -/
theorem C52_oversize_violated : ¬ C52_statement := by
  intro hall
  obtain ⟨d, hd⟩ : ∃ d : Bytes, d.length = 2^24 + 14 := ⟨List.replicate (2^24 + 14) 0, List.length_replicate⟩
  obtain ⟨buf, hbuf⟩ : ∃ buf : Bytes, buf.length = 16384 := ⟨List.replicate 16384 0, List.length_replicate⟩
  have hs : (AnyFrame.payload ⟨1, [], d, false, true, true⟩).size = 16777236 := by
    simp [AnyFrame.size, Payload.size, hd]
  have hsn : (16777236 : UInt32).toNat = 16777236 := rfl
  have hw : hostWrite buf (.payload ⟨1, [], d, false, true, true⟩) =
      .ok (be24 16777236 ++ (headerBytes 1 typePayload
        (Payload.flags ⟨1, [], d, false, true, true⟩) ++ d.take 16375), 3 + 16777236) := by
    unfold hostWrite
    rw [skip3 (by simp) (by omega), hs]
    simp only [Go.bind_ok, AnyFrame.encode]
    rw [payload_truncated _ _ _ _ _ _ (by simp; omega) (by simp; omega)]
    simp only [Go.bind_ok, List.length_drop, hbuf]
  have hg : toGuest buf (.payload ⟨1, [], d, false, true, true⟩) =
      .ok (guestSend (be24 16777236 ++ (headerBytes 1 typePayload
        (Payload.flags ⟨1, [], d, false, true, true⟩) ++ d.take 16375)) 0 (3 + 16777236)) := by
    unfold toGuest; rw [hw]; rfl
  have hnil := hall (.payload ⟨1, [], d, false, true, true⟩) buf _ _
    (show _ ∧ _ from ⟨by simp, by simp [hd]⟩) (by rw [hs, hbuf, hsn]; omega) hg
  have hlen : (d.take 16375).length = 16375 := by simp [hd]
  rw [guestSend] at hnil
  generalize d.take 16375 = t at hnil hlen
  have hn : beNat ((be24 16777236 ++ (headerBytes 1 typePayload
      (Payload.flags ⟨1, [], d, false, true, true⟩) ++ t)).take 3) = 20 := by
    rw [List.take_append_of_le_length (by simp), List.take_of_length_le (by simp), beNat_be24]
    rfl
  obtain ⟨hd', hh⟩ : ∃ x, parseHeader (((be24 16777236 ++ (headerBytes 1 typePayload
      (Payload.flags ⟨1, [], d, false, true, true⟩) ++ t)).drop 3).take 20) = .ok x :=
    parseHeader_long (by simp [headerBytes, hlen])
  rw [hn, hh] at hnil
  simp [headerBytes, hlen] at hnil

/-! ## C75 -/

/-- C75 in full: what the host gets from the guest is the frame that was sent, or nothing. -/
def C75_statement : Prop :=
  ∀ (f : AnyFrame) (before buf after : Bytes) (l : List Bytes) (p : Bool), Encodable f →
    toHost before buf after f = .ok (l, p) → l = [] ∨ ∃ w, EncodesAs f w ∧ l = [w]

/-- C75, partial: when the frame fits into the buffer the host gets it; when it does not fit and
the guest's memory ends before the length claimed, the host gets nothing. Missing: a frame
that does not fit while there is memory behind the buffer. -/
theorem C75_guest_memory_partial (f : AnyFrame) (before buf after : Bytes) (l : List Bytes) (p : Bool)
    (hf : Encodable f) (h24 : f.size.toNat < 2^24)
    (hb : 3 + f.size.toNat ≤ buf.length ∨ buf.length + after.length < 3 + f.size.toNat)
    (h : toHost before buf after f = .ok (l, p)) : l = [] ∨ ∃ w, EncodesAs f w ∧ l = [w] := by
  rcases hb with hb | hb
  · obtain ⟨w, he, hw⟩ := C51_guest_to_host f before buf after hf h24 hb
    rw [hw] at h
    cases h
    exact .inr ⟨w, he, rfl⟩
  · left
    unfold toHost guestWrite at h
    split at h
    · cases h
    · obtain ⟨⟨b', n⟩, h1, h2⟩ := bind_ok_inv h
      obtain ⟨body, h3, h4⟩ := bind_ok_inv h1
      have hl := encode_len h3
      rw [List.length_drop] at hl
      cases h4
      have hn : (f.size + 3).toNat = f.size.toNat + 3 := by
        rw [UInt32.toNat_add]; simp; omega
      have h2 := Go.ok.inj h2
      have hl0 : l = _ := (congrArg Prod.fst h2).symm
      rw [hl0, hostSend, memRead, if_neg (by rw [hn]; simp only [List.length_append, be24_length]; omega),
        hostSplit]
      rfl

/-- A payload frame of one data byte too many: the host gets the byte behind the buffer as part of
the payload. -/
theorem guest_leak (before buf d after : Bytes) (x : UInt8) (id : UInt32) (fo co ne : Bool)
    (hb : 9 ≤ buf.length) (h24 : buf.length < 2^24) (hd : d.length = buf.length - 9 + 1) :
    toHost before buf (x :: after) (.payload ⟨id, [], d, fo, co, ne⟩) =
      .ok ([headerBytes id typePayload (Payload.flags ⟨id, [], d, fo, co, ne⟩) ++
        d.take (buf.length - 9) ++ [x]], false) := by
  have hs : (AnyFrame.payload ⟨id, [], d, fo, co, ne⟩).size.toNat = buf.length - 9 + 7 := by
    simp only [AnyFrame.size, Payload.size, List.length_nil, Nat.zero_add, hd]
    rw [UInt32.toNat_add, UInt32.toNat_add, UInt32.toNat_ofNat_lt (by omega)]
    simp; omega
  have hbody : (AnyFrame.payload ⟨id, [], d, fo, co, ne⟩).encode (buf.drop 3) =
      .ok (headerBytes id typePayload (Payload.flags ⟨id, [], d, fo, co, ne⟩) ++
        d.take (buf.length - 9)) := by
    show Payload.encode _ _ = _
    rw [payload_truncated _ _ _ _ _ _ (by simp; omega) (by simp; omega)]
    simp only [List.length_drop]
    rfl
  unfold toHost guestWrite
  rw [if_neg (by omega), hbody]
  simp only [Go.bind_ok]
  generalize hsz : (AnyFrame.payload ⟨id, [], d, fo, co, ne⟩).size = sz at hs
  generalize hw : headerBytes id typePayload (Payload.flags ⟨id, [], d, fo, co, ne⟩) ++
        d.take (buf.length - 9) ++ [x] = w
  have hwl : w.length = sz.toNat := by
    rw [hs, ← hw]; simp [headerBytes]; omega
  have hg := C51_host_splits [w] before after
    (by simp only [List.mem_singleton, forall_eq]; omega)
    (by simp only [List.flatMap_cons, List.flatMap_nil, List.append_nil, framed_len3]; omega)
  simp only [List.flatMap_cons, List.flatMap_nil, List.append_nil, framed_len3] at hg
  have hst : sz + (3 : UInt32) = UInt32.ofNat (3 + w.length) := by
    apply UInt32.toNat_inj.mp
    rw [UInt32.toNat_ofNat_lt (by omega), UInt32.toNat_add, hwl]
    simp; omega
  rw [hst, ← hg, framed, hwl, UInt32.ofNat_toNat, ← hw]
  simp only [List.append_assoc, List.cons_append, List.nil_append]

/-- C75 fails: a payload of 16376 bytes, one more than fits into the 16 KiB buffer; the host
gets a frame whose last byte is the byte of guest memory behind the buffer. -/
theorem C75_guest_memory_violated : ¬ C75_statement := by
  intro hall
  obtain ⟨d0, hd0⟩ : ∃ d : Bytes, d.length = 16375 := ⟨List.replicate 16375 0, List.length_replicate⟩
  obtain ⟨buf, hbuf⟩ : ∃ buf : Bytes, buf.length = 16384 :=
    ⟨List.replicate 16384 0, List.length_replicate⟩
  have hdl : (d0 ++ [1]).length = 16376 := by simp [hd0]
  have hl := guest_leak [] buf (d0 ++ [1]) [] 99 1 false true true (by omega) (by omega) (by omega)
  rcases hall (.payload ⟨1, [], d0 ++ [1], false, true, true⟩) _ _ _ _ _
    (show _ ∧ _ from ⟨by simp, by simp [hd0]⟩) hl with h | ⟨w, he, h⟩
  · cases h
  · have hs : (AnyFrame.payload ⟨1, [], d0 ++ [1], false, true, true⟩).size.toNat = 16382 := by
      simp [AnyFrame.size, Payload.size, hd0]
    obtain ⟨b, hb⟩ : ∃ b : Bytes, b.length = 16382 := ⟨List.replicate 16382 0, List.length_replicate⟩
    have hw := payload_truncated 1 (d0 ++ [1]) b false true true (by omega) (by omega)
    have hw' := he b (by omega)
    simp only [AnyFrame.encode] at hw'
    rw [hw] at hw'
    injection hw' with hw'
    injection h with h
    rw [← hw', List.append_assoc] at h
    have h := List.append_cancel_left h
    rw [List.take_of_length_le (i := b.length - 6) (by omega)] at h
    have := congrArg List.getLast? h
    simp at this

end Verif.Props
