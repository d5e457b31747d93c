import Verif.Props.Frames
/-
Properties C04, C05, C06, C10.
-/
namespace Verif.Props
open Verif Frames

/-! ## C04 -/

theorem requestN_encode (f : RequestN) (buf : Bytes) (hb : 10 ≤ buf.length) :
    f.encode buf = .ok (Spec.requestNWire f ++ buf.drop 10) := by
  unfold RequestN.encode
  rw [putHeader_ok _ _ _ (by simp; omega)]
  simp only [Go.bind_ok]
  rw [Cur.put_ok (by simp; omega)]
  simp [Cur.all, Spec.requestNWire, Spec.be32_eq, typeRequestN]
  exact headerBytes_eq (t := 8) (fg := 0) (by decide) (by decide)

theorem cancel_encode (f : Cancel) (buf : Bytes) (hb : 6 ≤ buf.length) :
    f.encode buf = .ok (Spec.cancelWire f ++ buf.drop 6) := by
  unfold Cancel.encode
  rw [putHeader_ok _ _ _ (by simp; omega)]
  simp [Cur.all, Spec.cancelWire, typeCancel]
  exact headerBytes_eq (t := 9) (fg := 0) (by decide) (by decide)

theorem error_encode (f : Error) (buf : Bytes) (hb : 10 + f.data.length ≤ buf.length) :
    f.encode buf = .ok (Spec.errorWire f ++ buf.drop (10 + f.data.length)) := by
  unfold Error.encode
  rw [putHeader_ok _ _ _ (by simp; omega)]
  simp only [Go.bind_ok]
  rw [Cur.put_ok (by simp; omega)]
  simp only [Go.bind_ok]
  rw [Cur.copyAll (by simp; omega)]
  simp [Spec.errorWire, Spec.be32_eq, typeError]
  exact headerBytes_eq (t := 11) (fg := 0) (by decide) (by decide)

/-- C04: request-n, cancel and error frames: specified wire bytes, and they decode back. -/
theorem C04_requestN_roundtrip (f : RequestN) (buf : Bytes) (hid : f.streamID.toNat < 2^31)
    (hb : buf.length = f.size.toNat) :
    f.encode buf = .ok (Spec.requestNWire f) ∧
    ∃ h, recv RequestN.decode (Spec.requestNWire f) = .ok (h, f) ∧ h.type = 0x08 := by
  have hb' : buf.length = 10 := hb
  refine ⟨by rw [requestN_encode f buf (by omega), List.drop_eq_nil_of_le (by omega)]; simp,
    mkHeader f.streamID typeRequestN 0, ?_, mkHeader_type _ (by decide) (by decide)⟩
  rw [show Spec.requestNWire f = headerBytes f.streamID typeRequestN 0 ++ (be32 f.n ++ []) by
    simp [Spec.requestNWire, Spec.be32_eq, typeRequestN]
    exact (headerBytes_eq (t := 8) (fg := 0) (by decide) (by decide)).symm]
  unfold recv
  rw [parseHeader_headerBytes, sliceFrom_append' _ _ _ (by simp [headerBytes])]
  simp only [Go.bind_ok, RequestN.decode, getU32_be32, mkHeader_streamID _ _ hid]

theorem C04_cancel_roundtrip (f : Cancel) (buf : Bytes) (hid : f.streamID.toNat < 2^31)
    (hb : buf.length = f.size.toNat) :
    f.encode buf = .ok (Spec.cancelWire f) ∧
    ∃ h, recv Cancel.decode (Spec.cancelWire f) = .ok (h, f) ∧ h.type = 0x09 := by
  have hb' : buf.length = 6 := hb
  refine ⟨by rw [cancel_encode f buf (by omega), List.drop_eq_nil_of_le (by omega)]; simp,
    mkHeader f.streamID typeCancel 0, ?_, mkHeader_type _ (by decide) (by decide)⟩
  rw [show Spec.cancelWire f = headerBytes f.streamID typeCancel 0 ++ [] by
    simp [Spec.cancelWire, typeCancel]
    exact (headerBytes_eq (t := 9) (fg := 0) (by decide) (by decide)).symm]
  unfold recv
  rw [parseHeader_headerBytes, sliceFrom_append' _ _ _ (by simp [headerBytes])]
  simp only [Go.bind_ok, Cancel.decode, mkHeader_streamID _ _ hid]

theorem C04_error_roundtrip (f : Error) (buf : Bytes) (hid : f.streamID.toNat < 2^31)
    (hsz : 10 + f.data.length < 2^32) (hb : buf.length = f.size.toNat) :
    f.encode buf = .ok (Spec.errorWire f) ∧
    ∃ h, recv Error.decode (Spec.errorWire f) = .ok (h, f) ∧ h.type = 0x0B := by
  have hb' : buf.length = 10 + f.data.length := by
    rw [hb, Error.size, UInt32.toNat_ofNat_lt (by omega)]
  refine ⟨by rw [error_encode f buf (by omega), List.drop_eq_nil_of_le (by omega)]; simp,
    mkHeader f.streamID typeError 0, ?_, mkHeader_type _ (by decide) (by decide)⟩
  rw [show Spec.errorWire f = headerBytes f.streamID typeError 0 ++ (be32 f.code ++ f.data) by
    simp [Spec.errorWire, Spec.be32_eq, typeError]
    exact (headerBytes_eq (t := 11) (fg := 0) (by decide) (by decide)).symm]
  unfold recv
  rw [parseHeader_headerBytes, sliceFrom_append' _ _ _ (by simp [headerBytes])]
  simp only [Go.bind_ok, Error.decode, getU32_be32, mkHeader_streamID _ _ hid]
  rw [sliceFrom_append' _ _ _ (by simp)]
  simp

example : ∃ f : Error, f.streamID.toNat < 2^31 ∧ 10 + f.data.length < 2^32 ∧
    (List.replicate 12 0 : Bytes).length = f.size.toNat := ⟨⟨5, 0x201, [1, 2]⟩, by decide⟩

/-! ## C05 -/

/-- A duration a setup frame can carry: whole milliseconds, 32 bits of them, not negative. -/
def wireDuration (d : Int64) : Prop :=
  0 ≤ d.toInt ∧ d.toInt % 1000000 = 0 ∧ d.toInt / 1000000 < 2^32

instance (d : Int64) : Decidable (wireDuration d) := inferInstanceAs (Decidable (_ ∧ _))

/-- Setup frames within the limits of the wire format: 8-bit mime lengths, 16-bit token length,
24-bit metadata length, 32-bit millisecond durations, total below 2^31. -/
structure SetupOk (f : Setup) : Prop where
  mimeM : f.mimeMetadata.length < 256
  mimeD : f.mimeData.length < 256
  token : f.token.length < 65536
  md : f.metadata.length < 2^24
  data : f.data.length < 2^31
  ka : wireDuration f.timeBetweenKeepalive
  ml : wireDuration f.maxLifetime

/-- C05 as stated in English: every setup frame survives encode/decode. -/
def C05_statement : Prop :=
  ∀ (f : Setup) (buf : Bytes), SetupOk f → buf.length = f.size.toNat →
    ∃ w h, f.encode buf = .ok w ∧ recv Setup.decode w = .ok (h, f)

/-- C05 does not hold: a keep-alive interval of 5 s is encoded as 705 ms (the nanosecond count is
cut to 32 bits before the division). -/
theorem C05_setup_roundtrip_violated : ¬ C05_statement := by
  intro hst
  obtain ⟨w, h, he, hd⟩ := hst ⟨1, 0, 5000000000, 0, [], [], [], [], [], false⟩
    (List.replicate 20 0)
    ⟨by decide, by decide, by decide, by decide, by decide, by decide, by decide⟩ (by decide)
  have h1 : Setup.encode ⟨1, 0, 5000000000, 0, [], [], [], [], [], false⟩ (List.replicate 20 0) =
      .ok [0, 0, 0, 0, 4, 0, 0, 1, 0, 0, 0, 0, 2, 0xC1, 0, 0, 0, 0, 0, 0] := by decide
  rw [h1] at he
  have := Go.ok.inj he; subst this
  have h2 : recv Setup.decode [0, 0, 0, 0, 4, 0, 0, 1, 0, 0, 0, 0, 2, 0xC1, 0, 0, 0, 0, 0, 0] =
      .ok (⟨0, 0, 0, 0, 4, 0⟩, ⟨1, 0, 705000000, 0, [], [], [], [], [], false⟩) := by decide
  rw [h2] at hd
  have := (Prod.mk.inj (Go.ok.inj hd)).2
  revert this; decide

/-- C05 also fails on data alone: with a resume token, `Size()` counts the token twice and the
receiver sees trailing zero bytes in the data. -/
theorem C05_setup_token_violated : ∃ (f : Setup) (buf w : Bytes) (h : Header) (g : Setup),
    SetupOk f ∧ buf.length = f.size.toNat ∧ f.timeBetweenKeepalive = 0 ∧ f.maxLifetime = 0 ∧
    f.encode buf = .ok w ∧ recv Setup.decode w = .ok (h, g) ∧
    f.data = [7] ∧ g.data = [7, 0, 0] :=
  ⟨⟨1, 0, 0, 0, [5, 6], [], [], [], [7], false⟩, List.replicate 27 0,
    [0, 0, 0, 0, 4, 0x80, 0, 1, 0, 0, 0, 0, 0, 0, 0, 0, 0, 0, 0, 2, 5, 6, 0, 0, 7, 0, 0],
    ⟨0, 0, 0, 0, 4, 0x80⟩, ⟨1, 0, 0, 0, [5, 6], [], [], [], [7, 0, 0], false⟩,
    ⟨by decide, by decide, by decide, by decide, by decide, by decide, by decide⟩,
    by decide, rfl, rfl, by decide, by decide, rfl, rfl⟩

set_option maxRecDepth 4000 in
/-- C05 also fails for 255-byte mime types: the receiver panics. -/
theorem C05_setup_mime255_violated : ∃ (f : Setup) (buf w : Bytes),
    SetupOk f ∧ buf.length = f.size.toNat ∧ f.encode buf = .ok w ∧
    recv Setup.decode w = .panic := by
  refine ⟨⟨1, 0, 0, 0, [], List.replicate 255 65, [], [], [], false⟩, List.replicate 275 0,
    [0, 0, 0, 0, 4, 0, 0, 1, 0, 0, 0, 0, 0, 0, 0, 0, 0, 0] ++ 255 :: List.replicate 255 65 ++ [0],
    ⟨by decide, by decide, by decide, by decide, by decide, by decide, by decide⟩, ?_, ?_, ?_⟩ <;>
    decide +kernel

theorem durToWire_ok {d : Int64} (h : 0 ≤ d.toInt) (h32 : d.toInt < 2^32) :
    (durToWire d).toNat = (d.toInt / 1000000).toNat := by
  have hd : d.toUInt64.toNat = d.toInt.toNat := by
    have := Int64.toNat_toUInt64_of_le (x := d) (by rw [Int64.le_iff_toInt_le]; simpa using h)
    rw [this]; rfl
  simp only [durToWire, UInt32.toNat_div, UInt64.toNat_toUInt32, hd, millisecond]
  rw [show (UInt32.ofNat 1000000).toNat = 1000000 from rfl]
  omega

theorem durFromWire_ok {d : Int64} (h : 0 ≤ d.toInt) (hm : d.toInt % 1000000 = 0) {w : UInt32}
    (hw : w.toNat = (d.toInt / 1000000).toNat) : durFromWire w = d := by
  apply Int64.toInt_inj.mp
  have h1 := d.toInt_lt
  have h2 := w.toNat_lt
  rw [durFromWire, Int64.toInt_mul]
  rw [show (Int64.ofNat millisecond).toInt = 1000000 from rfl]
  rw [Int64.toInt_ofNat_of_lt (by omega), hw]
  have : (1000000 : Int) * ((d.toInt / 1000000).toNat : Int) = d.toInt := by omega
  rw [this]
  exact Int.bmod_eq_of_le (by omega) (by omega)

theorem putToken_ok {c : Cur} {t : Bytes} (ht : t.length < 2^16)
    (h : (Spec.tokenBlock t).length ≤ c.rest.length) :
    putToken c t = .ok ⟨c.done ++ Spec.tokenBlock t, c.rest.drop (Spec.tokenBlock t).length⟩ := by
  have hpos := UInt16.ofNat_pos_iff ht
  by_cases he : t = []
  · subst he
    simp [putToken, Spec.tokenBlock]
  · have h0 : 0 < t.length := List.length_pos_iff.mpr he
    simp only [putToken, hpos, h0, if_true]
    simp only [Spec.tokenBlock, he, if_false] at h ⊢
    simp at h
    rw [Cur.put_ok (by simp; omega)]
    simp only [Go.bind_ok]
    rw [Cur.copySkip_ok (UInt16.toNat_ofNat_lt ht) (by simp; omega)]
    simp [Spec.be16_ofNat ht]

theorem putMime_ok {c : Cur} {m : Bytes} (h : (Spec.mimeBlock m).length ≤ c.rest.length) :
    putMime c m = .ok ⟨c.done ++ Spec.mimeBlock m, c.rest.drop (Spec.mimeBlock m).length⟩ := by
  simp [Spec.mimeBlock] at h ⊢
  unfold putMime
  rw [Cur.put_ok (by simp; omega)]
  simp only [Go.bind_ok]
  rw [Cur.copySkip_ok rfl (by simp; omega)]
  simp [Spec.bigEndian]
  congr 1; omega

theorem getToken_ok {t data : Bytes} (ht : t.length < 65534) (b : Bool)
    (hb : b = decide (t ≠ [])) :
    getToken b (Spec.tokenBlock t ++ data) = .ok (t, data) := by
  subst hb
  by_cases he : t = []
  · subst he; simp [getToken, Spec.tokenBlock]
  · have hn : (2 + UInt16.ofNat t.length).toNat = 2 + t.length := by
      rw [UInt16.toNat_add, UInt16.toNat_ofNat_lt (by omega)]; simp; omega
    have h2 := Spec.be16_ofNat (n := t.length) (by omega)
    simp only [getToken, Spec.tokenBlock, he, if_false, ne_eq, not_false_eq_true, decide_true,
      if_true, List.append_assoc, ← h2, getU16_be16, Go.bind_ok, hn]
    simp [slice, sliceFrom, List.take_append, List.drop_append]

theorem getMime_ok {m data : Bytes} (hm : m.length < 255) :
    getMime (Spec.mimeBlock m ++ data) = .ok (m, data) := by
  have hn : (1 + UInt8.ofNat m.length).toNat = 1 + m.length := by
    rw [UInt8.toNat_add, UInt8.toNat_ofNat_lt (by omega)]; simp; omega
  have hi : index (Spec.mimeBlock m ++ data) 0 = .ok (UInt8.ofNat m.length) := by
    simp [index, Spec.mimeBlock, Spec.bigEndian]
  simp only [getMime, hi, Go.bind_ok, hn]
  simp [Spec.mimeBlock, Spec.bigEndian, slice, sliceFrom, Nat.add_comm 1]

theorem setup_flags_toNat (f : Setup) (hmd : f.metadata.length < 2^24)
    (ht : f.token.length < 2^16) :
    f.flags.toNat = Spec.mdFlag f.metadata + Spec.bit (f.token ≠ []) 0x80 +
      Spec.bit f.lease 0x40 := by
  have hp := UInt32.ofNat_pos_iff (n := f.metadata.length) (by omega)
  have hp2 := UInt16.ofNat_pos_iff ht
  have h0 : 0 < f.metadata.length ↔ f.metadata ≠ [] := List.length_pos_iff
  have h1 : 0 < f.token.length ↔ f.token ≠ [] := List.length_pos_iff
  unfold Setup.flags Spec.mdFlag Spec.bit
  simp only [hp, h0, hp2, h1]
  by_cases hm : f.metadata = [] <;> by_cases htt : f.token = [] <;> cases f.lease <;>
    simp [hm, htt] <;> decide

theorem setup_flags_lt (f : Setup) (hmd : f.metadata.length < 2^24)
    (ht : f.token.length < 2^16) : f.flags.toNat < 1024 := by
  rw [setup_flags_toNat f hmd ht]; unfold Spec.mdFlag Spec.bit
  split <;> split <;> split <;> omega

/-- Durations that survive: in addition to `wireDuration`, below 2^32 nanoseconds (4.29 s). -/
structure SetupSmall (f : Setup) : Prop where
  ok : SetupOk f
  ka : f.timeBetweenKeepalive.toInt < 2^32
  ml : f.maxLifetime.toInt < 2^32
  mimeM : f.mimeMetadata.length < 255
  mimeD : f.mimeData.length < 255
  token : f.token.length < 65534

theorem setup_wire (f : Setup) (h : SetupSmall f) :
    Spec.setupWire f = headerBytes 0 typeSetup f.flags ++ (be16 f.majorVersion ++
      (be16 f.minorVersion ++ (be32 (durToWire f.timeBetweenKeepalive) ++
      (be32 (durToWire f.maxLifetime) ++ (Spec.tokenBlock f.token ++
      (Spec.mimeBlock f.mimeMetadata ++ (Spec.mimeBlock f.mimeData ++
      (Spec.metadataBlock f.metadata ++ f.data)))))))) := by
  have hlt := setup_flags_lt f h.ok.md h.ok.token
  rw [headerBytes_eq (by decide) hlt, setup_flags_toNat f h.ok.md h.ok.token]
  simp [Spec.setupWire, Spec.be16_eq, Spec.be32_eq, durToWire_ok h.ok.ka.1 h.ka,
    durToWire_ok h.ok.ml.1 h.ml, typeSetup]

theorem setup_encode (f : Setup) (h : SetupSmall f) (buf : Bytes)
    (hb : (Spec.setupWire f).length ≤ buf.length) :
    f.encode buf = .ok (Spec.setupWire f ++ buf.drop (Spec.setupWire f).length) := by
  rw [setup_wire f h] at hb ⊢
  simp only [List.length_append, headerBytes, be16_length, be32_length] at hb
  have hmd := h.ok.md
  unfold Setup.encode
  rw [putHeader_ok _ _ _ (by simp; omega)]
  simp only [Go.bind_ok]
  rw [Cur.put_ok (by simp; omega)]
  simp only [Go.bind_ok]
  rw [Cur.put_ok (by simp; omega)]
  simp only [Go.bind_ok]
  rw [Cur.put_ok (by simp; omega)]
  simp only [Go.bind_ok]
  rw [Cur.put_ok (by simp; omega)]
  simp only [Go.bind_ok]
  rw [putToken_ok h.ok.token (by simp; omega)]
  simp only [Go.bind_ok]
  rw [putMime_ok (by simp; omega)]
  simp only [Go.bind_ok]
  rw [putMime_ok (by simp; omega)]
  simp only [Go.bind_ok]
  rw [putMetadata_ok (by omega) (by simp; omega)]
  simp only [Go.bind_ok]
  rw [Cur.copyAll (by simp; omega)]
  simp [headerBytes]
  congr 1; omega

theorem setup_decode (f : Setup) (h : SetupSmall f) (tail : Bytes) :
    ∃ hd, recv Setup.decode (Spec.setupWire f ++ tail) =
      .ok (hd, { f with data := f.data ++ tail }) ∧ hd.type = 1 := by
  have hlt := setup_flags_lt f h.ok.md h.ok.token
  refine ⟨mkHeader 0 typeSetup f.flags, ?_, mkHeader_type _ (by decide) hlt⟩
  rw [setup_wire f h]
  have hc : check f.flags flagMetadata = decide (f.metadata ≠ []) ∧
      check f.flags flagResume = decide (f.token ≠ []) ∧
      check f.flags flagLease = f.lease := by
    have hmd := h.ok.md
    have hp := UInt32.ofNat_pos_iff (n := f.metadata.length) (by omega)
    have hp2 := UInt16.ofNat_pos_iff h.ok.token
    have h0 : 0 < f.metadata.length ↔ f.metadata ≠ [] := List.length_pos_iff
    have h1 : 0 < f.token.length ↔ f.token ≠ [] := List.length_pos_iff
    unfold Setup.flags
    simp only [hp, h0, hp2, h1]
    by_cases hm : f.metadata = [] <;> by_cases htt : f.token = [] <;> cases f.lease <;>
      simp [hm, htt] <;> decide
  unfold recv
  simp only [List.append_assoc]
  rw [parseHeader_headerBytes, sliceFrom_append' _ _ _ (by simp [headerBytes])]
  simp only [Go.bind_ok, Setup.decode, mkHeader_flag _ (by decide : typeSetup.toNat < 64) hlt,
    getU16_be16]
  have e2 : ∀ r : Bytes, sliceFrom (be16 f.majorVersion ++ r) 2 = .ok r :=
    fun r => sliceFrom_append' _ _ _ (by simp)
  have e4 : ∀ r : Bytes, sliceFrom (be16 f.majorVersion ++ (be16 f.minorVersion ++ r)) 4 = .ok r :=
    fun r => by rw [← List.append_assoc]; exact sliceFrom_append' _ _ _ (by simp)
  have e8 : ∀ (w : UInt32) (r : Bytes),
      sliceFrom (be16 f.majorVersion ++ (be16 f.minorVersion ++ (be32 w ++ r))) 8 = .ok r :=
    fun w r => by
      rw [← List.append_assoc, ← List.append_assoc]; exact sliceFrom_append' _ _ _ (by simp)
  have e12 : ∀ (w v : UInt32) (r : Bytes), sliceFrom (be16 f.majorVersion ++
      (be16 f.minorVersion ++ (be32 w ++ (be32 v ++ r)))) 12 = .ok r :=
    fun w v r => by
      rw [← List.append_assoc, ← List.append_assoc, ← List.append_assoc]
      exact sliceFrom_append' _ _ _ (by simp)
  simp only [e2, e4, e8, e12, Go.bind_ok, getU16_be16, getU32_be32]
  rw [getToken_ok h.token _ hc.2.1]
  simp only [Go.bind_ok]
  rw [getMime_ok h.mimeM]
  simp only [Go.bind_ok]
  rw [getMime_ok h.mimeD]
  simp only [Go.bind_ok]
  rw [getMetadata_ok h.ok.md _ hc.1]
  simp only [Go.bind_ok, hc,
    durFromWire_ok h.ok.ka.1 h.ok.ka.2.1 (durToWire_ok h.ok.ka.1 h.ka),
    durFromWire_ok h.ok.ml.1 h.ok.ml.2.1 (durToWire_ok h.ok.ml.1 h.ml)]

theorem setup_size (f : Setup) (h : SetupOk f) :
    f.size.toNat = (Spec.setupWire f).length + f.token.length := by
  have hmd := h.md; have ht := h.token; have hm := h.mimeM; have hm2 := h.mimeD
  have hd := h.data
  have hp := UInt32.ofNat_pos_iff (n := f.metadata.length) (by omega)
  have hp2 := UInt32.ofNat_pos_iff (n := f.token.length) (by omega)
  have h0 : 0 < f.metadata.length ↔ f.metadata ≠ [] := List.length_pos_iff
  have h1 : 0 < f.token.length ↔ f.token ≠ [] := List.length_pos_iff
  simp only [Spec.setupWire, Spec.header, Spec.mimeBlock, List.length_append,
    Spec.bigEndian_length, Spec.metadataBlock_length, Spec.tokenBlock_length]
  unfold Setup.size
  simp only [hp, h0, hp2, h1]
  by_cases hm' : f.metadata = [] <;> by_cases ht' : f.token = [] <;>
    simp [hm', ht', UInt32.toNat_add, UInt32.toNat_ofNat'] <;> omega

/-- C05, the part that holds: durations below 2^32 ns, mime types below 255 bytes, token below
65534 bytes. The wire bytes are the specified ones; every field survives except that the data
picks up the unused rest of the buffer, `token.length` bytes (none without a resume token).
Missing: longer durations, 255-byte mime types, 65534/65535-byte tokens, and exact data when
there is a token - all of which really fail. -/
theorem C05_setup_roundtrip_partial (f : Setup) (buf : Bytes) (h : SetupSmall f)
    (hb : buf.length = f.size.toNat) :
    ∃ tail, tail.length = f.token.length ∧ f.encode buf = .ok (Spec.setupWire f ++ tail) ∧
    ∃ hd, recv Setup.decode (Spec.setupWire f ++ tail) =
      .ok (hd, { f with data := f.data ++ tail }) ∧ hd.type = 0x01 := by
  have hs := setup_size f h.ok
  refine ⟨buf.drop (Spec.setupWire f).length, by rw [List.length_drop]; omega,
    setup_encode f h buf (by omega), setup_decode f h _⟩

/-- C05 for setup frames without a resume token (the only kind this library sends). -/
theorem C05_setup_no_token_partial (f : Setup) (buf : Bytes) (h : SetupSmall f)
    (ht : f.token = []) (hb : buf.length = f.size.toNat) :
    f.encode buf = .ok (Spec.setupWire f) ∧
    ∃ hd, recv Setup.decode (Spec.setupWire f) = .ok (hd, f) ∧ hd.type = 0x01 := by
  obtain ⟨tail, hl, he, hd⟩ := C05_setup_roundtrip_partial f buf h hb
  have : tail = [] := by rw [ht] at hl; exact List.length_eq_zero_iff.mp hl
  subst this
  rw [List.append_nil] at he hd
  simp only [List.append_nil] at hd
  exact ⟨he, hd⟩

example : ∃ f : Setup, SetupSmall f ∧ f.token = [] ∧ f.metadata ≠ [] ∧
    (List.replicate 30 0 : Bytes).length = f.size.toNat :=
  ⟨⟨1, 2, 3000000000, 4000000000, [], [1, 2], [3, 4, 5], [6], [7], true⟩,
   ⟨⟨by decide, by decide, by decide, by decide, by decide, by decide, by decide⟩,
    by decide, by decide, by decide, by decide, by decide⟩, by decide⟩

/-! ## C06 -/

/-- `Size()` is exact for an encoder: it writes the same `size` bytes `w` at the start of every
large enough buffer and leaves the rest alone. -/
def SizeExact (encode : Bytes → Go Bytes) (size : Nat) : Prop :=
  ∃ w : Bytes, w.length = size ∧
    ∀ buf : Bytes, size ≤ buf.length → encode buf = .ok (w ++ buf.drop size)

theorem C06_payload_size (f : Payload) (hmd : f.metadata.length < 2^24)
    (hsz : f.metadata.length + f.data.length + 9 < 2^32) : SizeExact f.encode f.size.toNat := by
  have hl : (Spec.payloadWire f).length < 2^32 := by
    simp only [Spec.payloadWire, Spec.header, List.length_append, Spec.bigEndian_length,
      Spec.metadataBlock_length]
    split <;> omega
  rw [payload_size f hmd hl]
  exact ⟨_, rfl, fun buf hb => payload_encode f hmd buf hb⟩

theorem C06_request_size (f : RequestPayload) (ht : isRequest f.frameType)
    (hmd : f.metadata.length < 2^24)
    (hsz : f.metadata.length + f.data.length + 13 < 2^32) : SizeExact f.encode f.size.toNat := by
  -- the encoder and `Size` ignore `follows`
  have he : f.encode = RequestPayload.encode { f with follows := false } := rfl
  have hs : f.size = RequestPayload.size { f with follows := false } := rfl
  rw [he, hs]
  have hl : (Spec.requestWire { f with follows := false }).length < 2^32 := by
    simp only [Spec.requestWire, Spec.header, List.length_append, Spec.bigEndian_length,
      Spec.metadataBlock_length]
    split <;> split <;> simp <;> omega
  rw [request_size { f with follows := false } hmd hl]
  exact ⟨_, rfl, fun buf hb => request_encode { f with follows := false } ht hmd rfl buf hb⟩

theorem C06_requestN_size (f : RequestN) : SizeExact f.encode f.size.toNat :=
  ⟨Spec.requestNWire f, by simp [Spec.requestNWire, Spec.header]; rfl,
    fun buf hb => requestN_encode f buf hb⟩

theorem C06_cancel_size (f : Cancel) : SizeExact f.encode f.size.toNat :=
  ⟨Spec.cancelWire f, by simp [Spec.cancelWire, Spec.header]; rfl,
    fun buf hb => cancel_encode f buf hb⟩

theorem C06_error_size (f : Error) (hsz : 10 + f.data.length < 2^32) :
    SizeExact f.encode f.size.toNat := by
  rw [Error.size, UInt32.toNat_ofNat_lt (by omega)]
  exact ⟨Spec.errorWire f, by simp [Spec.errorWire, Spec.header]; omega,
    fun buf hb => error_encode f buf (by simpa using hb)⟩

/-- C06 fails for setup frames with a resume token: `Size()` is larger than what is written. -/
theorem C06_setup_size_violated :
    ¬ ∀ f : Setup, SetupOk f → SizeExact f.encode f.size.toNat := by
  intro hall
  obtain ⟨w, hw, he⟩ := hall ⟨1, 0, 0, 0, [5], [], [], [], [], false⟩
    ⟨by decide, by decide, by decide, by decide, by decide, by decide, by decide⟩
  have hz := he (List.replicate 24 0) (by decide)
  have ho := he (List.replicate 24 1) (by decide)
  have hz' : Setup.encode ⟨1, 0, 0, 0, [5], [], [], [], [], false⟩ (List.replicate 24 0) =
      .ok [0, 0, 0, 0, 4, 0x80, 0, 1, 0, 0, 0, 0, 0, 0, 0, 0, 0, 0, 0, 1, 5, 0, 0, 0] := by decide
  have ho' : Setup.encode ⟨1, 0, 0, 0, [5], [], [], [], [], false⟩ (List.replicate 24 1) =
      .ok [0, 0, 0, 0, 4, 0x80, 0, 1, 0, 0, 0, 0, 0, 0, 0, 0, 0, 0, 0, 1, 5, 0, 0, 1] := by decide
  have hd0 : (List.replicate 24 (0 : UInt8)).drop
      (Setup.size ⟨1, 0, 0, 0, [5], [], [], [], [], false⟩).toNat = [] := by decide
  have hd1 : (List.replicate 24 (1 : UInt8)).drop
      (Setup.size ⟨1, 0, 0, 0, [5], [], [], [], [], false⟩).toNat = [] := by decide
  rw [hz', hd0, List.append_nil] at hz
  rw [ho', hd1, List.append_nil] at ho
  have := (Go.ok.inj hz).trans (Go.ok.inj ho).symm
  revert this; decide

/-- C06 for setup frames without a token. Missing: tokens (fails). -/
theorem C06_setup_size_partial (f : Setup) (h : SetupSmall f) (ht : f.token = []) :
    SizeExact f.encode f.size.toNat := by
  have hs := setup_size f h.ok
  rw [ht] at hs
  rw [hs]
  exact ⟨_, rfl, fun buf hb => setup_encode f h buf (by simpa using hb)⟩

example : SizeExact (Payload.encode ⟨7, [1, 2], [3], false, true, true⟩) 12 :=
  C06_payload_size ⟨7, [1, 2], [3], false, true, true⟩ (by decide) (by decide)

/-! ## C10 -/

/-- A decoder never crashes: C10 as stated in English. -/
def NeverPanics {α : Type} (decode : Header → Bytes → Go α) : Prop :=
  ∀ data : Bytes, recv decode data ≠ .panic

theorem C10_decode_violated :
    ¬ NeverPanics Payload.decode ∧ ¬ NeverPanics RequestPayload.decode ∧
    ¬ NeverPanics RequestN.decode ∧ ¬ NeverPanics Cancel.decode ∧
    ¬ NeverPanics Error.decode ∧ ¬ NeverPanics Setup.decode := by
  refine ⟨?_, ?_, ?_, ?_, ?_, ?_⟩ <;> intro h <;> exact h [1, 2, 3] (by decide)

/-- A metadata block is complete: 3 length bytes and as many bytes as they say. -/
def metadataFits (flag : Bool) (body : Bytes) : Prop :=
  flag = true → 3 ≤ body.length ∧ 3 + beNat (body.take 3) ≤ body.length

theorem getMetadata_total (flag : Bool) (body : Bytes) :
    (metadataFits flag body → ∃ md rest, getMetadata flag body = .ok (md, rest)) ∧
    (¬ metadataFits flag body → getMetadata flag body = .panic) := by
  cases flag with
  | false => simp [metadataFits, getMetadata]
  | true =>
    match body with
    | [] => simp [metadataFits, getMetadata, slice]
    | [_] => simp [metadataFits, getMetadata, slice]
    | [_, _] => simp [metadataFits, getMetadata, slice]
    | a :: b :: c :: r =>
      have ha := a.toNat_lt; have hb := b.toNat_lt; have hc := c.toNat_lt
      have hn : (UInt32.ofNat (beNat [0, a, b, c])).toNat = beNat [a, b, c] := by
        simp [beNat, UInt32.toNat_ofNat']; omega
      have e : getMetadata true (a :: b :: c :: r) =
          (sliceTo r (beNat [a, b, c])).bind (fun md =>
            (sliceFrom r (beNat [a, b, c])).bind fun p => .ok (md, p)) := by
        simp only [getMetadata, if_true]
        simp [slice, getU32, hn, sliceFrom]
        rfl
      rw [e]
      simp only [metadataFits, List.take_succ_cons, List.take_zero, List.length_cons,
        sliceTo, sliceFrom]
      constructor
      · intro h
        have := (h trivial).2
        have h2 : beNat [a, b, c] ≤ r.length := by omega
        simp [h2, Go.bind]
      · intro h
        have h2 : ¬ beNat [a, b, c] ≤ r.length := by
          intro h2; apply h; intro _; exact ⟨by omega, by omega⟩
        simp [h2, Go.bind]

/-- C10, what holds: a decoder crashes exactly when the input is truncated - shorter than the
six header bytes, the fixed fields, or the announced metadata. -/
theorem C10_payload_partial (h : Header) (body : Bytes) :
    Payload.decode h body ≠ .panic ↔ metadataFits (check h.flag flagMetadata) body := by
  have ⟨h1, h2⟩ := getMetadata_total (check h.flag flagMetadata) body
  unfold Payload.decode
  by_cases hf : metadataFits (check h.flag flagMetadata) body
  · obtain ⟨md, r, e⟩ := h1 hf
    simp [e, hf]
  · simp [h2 hf, hf]

theorem getU32_total (body : Bytes) :
    (4 ≤ body.length → ∃ n, getU32 body = .ok n) ∧ (¬ 4 ≤ body.length → getU32 body = .panic) := by
  match body with
  | [] | [_] | [_, _] | [_, _, _] => simp [getU32]
  | _ :: _ :: _ :: _ :: _ => simp [getU32]

theorem C10_request_partial (h : Header) (body : Bytes) :
    RequestPayload.decode h body ≠ .panic ↔
      ((h.type = 6 ∨ h.type = 7) → 4 ≤ body.length) ∧
      metadataFits (check h.flag flagMetadata)
        (if h.type = 6 ∨ h.type = 7 then body.drop 4 else body) := by
  unfold RequestPayload.decode
  by_cases hn : hasInitialN h.type
  · have hn' := (hasInitialN_iff _).mp hn
    have ⟨g1, g2⟩ := getU32_total body
    have ⟨h1, h2⟩ := getMetadata_total (check h.flag flagMetadata) (body.drop 4)
    by_cases h4 : 4 ≤ body.length
    · obtain ⟨n, e⟩ := g1 h4
      by_cases hf : metadataFits (check h.flag flagMetadata) (body.drop 4)
      · obtain ⟨md, r, e'⟩ := h1 hf
        simp [hn, hn', e, sliceFrom, h4, e', hf]
      · simp [hn, hn', e, sliceFrom, h4, h2 hf, hf]
    · simp [hn, hn', g2 h4, h4]
  · have hn' : ¬ (h.type = 6 ∨ h.type = 7) := mt (hasInitialN_iff _).mpr hn
    have ⟨h1, h2⟩ := getMetadata_total (check h.flag flagMetadata) body
    by_cases hf : metadataFits (check h.flag flagMetadata) body
    · obtain ⟨md, r, e'⟩ := h1 hf
      simp [hn, hn', e', hf]
    · simp [hn, hn', h2 hf, hf]

theorem C10_requestN_partial (h : Header) (body : Bytes) :
    RequestN.decode h body ≠ .panic ↔ 4 ≤ body.length := by
  have ⟨g1, g2⟩ := getU32_total body
  unfold RequestN.decode
  by_cases h4 : 4 ≤ body.length
  · obtain ⟨n, e⟩ := g1 h4; simp [e, h4]
  · simp [g2 h4, h4]

theorem C10_error_partial (h : Header) (body : Bytes) :
    Error.decode h body ≠ .panic ↔ 4 ≤ body.length := by
  have ⟨g1, g2⟩ := getU32_total body
  unfold Error.decode
  by_cases h4 : 4 ≤ body.length
  · obtain ⟨n, e⟩ := g1 h4; simp [e, h4, sliceFrom]
  · simp [g2 h4, h4]

theorem C10_cancel_partial (h : Header) (body : Bytes) : Cancel.decode h body ≠ .panic := by
  simp [Cancel.decode]

theorem C10_header_partial (data : Bytes) : parseHeader data ≠ .panic ↔ 6 ≤ data.length := by
  match data with
  | [] | [_] | [_, _] | [_, _, _] | [_, _, _, _] | [_, _, _, _, _] => simp [parseHeader]
  | _ :: _ :: _ :: _ :: _ :: _ :: _ => simp [parseHeader]

/-- The resume token is complete: 2 length bytes (below 65534) and as many bytes as they say. -/
def tokenFits (flag : Bool) (body : Bytes) : Prop :=
  flag = true → 2 ≤ body.length ∧ beNat (body.take 2) < 65534 ∧
    2 + beNat (body.take 2) ≤ body.length

/-- What follows the resume token. -/
def afterToken (flag : Bool) (body : Bytes) : Bytes :=
  if flag then body.drop (2 + beNat (body.take 2)) else body

/-- A mime type is complete: a length byte (below 255) and as many bytes as it says. -/
def mimeFits (body : Bytes) : Prop :=
  1 ≤ body.length ∧ beNat (body.take 1) < 255 ∧ 1 + beNat (body.take 1) ≤ body.length

/-- What follows a mime type. -/
def afterMime (body : Bytes) : Bytes := body.drop (1 + beNat (body.take 1))

theorem getToken_total (flag : Bool) (body : Bytes) :
    (tokenFits flag body → ∃ t, getToken flag body = .ok (t, afterToken flag body)) ∧
    (¬ tokenFits flag body → getToken flag body = .panic) := by
  cases flag with
  | false => simp [tokenFits, getToken, afterToken]
  | true =>
    match body with
    | [] => simp [tokenFits, getToken, getU16]
    | [_] => simp [tokenFits, getToken, getU16]
    | a :: b :: r =>
      have ha := a.toNat_lt; have hb := b.toNat_lt
      obtain ⟨n, hn⟩ : ∃ n, n = beNat [a, b] := ⟨_, rfl⟩
      have hn16 : n < 65536 := by rw [hn]; simp [beNat]; omega
      have hadd : (2 + UInt16.ofNat n).toNat = (2 + n) % 65536 := by
        rw [UInt16.toNat_add, UInt16.toNat_ofNat_lt (by omega)]; rfl
      simp only [tokenFits, afterToken, getToken, if_true, getU16, ← hn, Go.bind_ok, hadd,
        List.take_succ_cons, List.take_zero, List.length_cons, slice, sliceFrom, true_implies]
      constructor
      · rintro ⟨_, h1, h2⟩
        have : (2 + n) % 65536 = 2 + n := by omega
        rw [this]
        simp [show 2 + n ≤ r.length + 1 + 1 by omega]
      · intro h
        by_cases h1 : n < 65534
        · have : (2 + n) % 65536 = 2 + n := by omega
          rw [this]
          simp [show ¬ 2 + n ≤ r.length + 1 + 1 by omega]
        · simp [show ¬ 2 ≤ (2 + n) % 65536 by omega]

theorem getMime_total (body : Bytes) :
    (mimeFits body → ∃ m, getMime body = .ok (m, afterMime body)) ∧
    (¬ mimeFits body → getMime body = .panic) := by
  match body with
  | [] => simp [mimeFits, getMime, index]
  | a :: r =>
    have ha := a.toNat_lt
    have hadd : (1 + a).toNat = (1 + a.toNat) % 256 := by rw [UInt8.toNat_add]; rfl
    have hb : beNat [a] = a.toNat := by simp [beNat]
    have hi : index (a :: r) 0 = .ok a := by simp [index]
    simp only [mimeFits, afterMime, getMime, hi, Go.bind_ok, hadd, hb,
      List.take_succ_cons, List.take_zero, List.length_cons, slice, sliceFrom]
    constructor
    · rintro ⟨_, h1, h2⟩
      have : (1 + a.toNat) % 256 = 1 + a.toNat := by omega
      rw [this]
      simp [show 1 + a.toNat ≤ r.length + 1 by omega]
    · intro h
      by_cases h1 : a.toNat < 255
      · have : (1 + a.toNat) % 256 = 1 + a.toNat := by omega
        rw [this]
        simp [show ¬ 1 + a.toNat ≤ r.length + 1 by omega]
      · simp [show ¬ 1 ≤ (1 + a.toNat) % 256 by omega]

/-- C10 for setup frames, exactly. -/
theorem C10_setup_partial (h : Header) (body : Bytes) :
    Setup.decode h body ≠ .panic ↔
      12 ≤ body.length ∧ tokenFits (check h.flag flagResume) (body.drop 12) ∧
      mimeFits (afterToken (check h.flag flagResume) (body.drop 12)) ∧
      mimeFits (afterMime (afterToken (check h.flag flagResume) (body.drop 12))) ∧
      metadataFits (check h.flag flagMetadata)
        (afterMime (afterMime (afterToken (check h.flag flagResume) (body.drop 12)))) := by
  by_cases h12 : 12 ≤ body.length
  · match body, h12 with
    | b0 :: b1 :: b2 :: b3 :: b4 :: b5 :: b6 :: b7 :: b8 :: b9 :: b10 :: b11 :: r, h12 =>
      have hd : List.drop 12 (b0 :: b1 :: b2 :: b3 :: b4 :: b5 :: b6 :: b7 :: b8 :: b9 :: b10 ::
        b11 :: r) = r := rfl
      simp only [hd, h12, true_and]
      simp only [Setup.decode, sliceFrom, List.length_cons, Nat.le_add_left, if_true,
        List.drop_succ_cons, List.drop_zero, getU16, getU32, Go.bind_ok,
        show ∀ k, 2 ≤ k + 1 + 1 from fun k => by omega,
        show ∀ k, 4 ≤ k + 1 + 1 + 1 + 1 from fun k => by omega,
        show ∀ k, 8 ≤ k + 1 + 1 + 1 + 1 + 1 + 1 + 1 + 1 from fun k => by omega,
        show ∀ k, 12 ≤ k + 1 + 1 + 1 + 1 + 1 + 1 + 1 + 1 + 1 + 1 + 1 + 1 from fun k => by omega]
      have ⟨t1, t2⟩ := getToken_total (check h.flag flagResume) r
      by_cases ht : tokenFits (check h.flag flagResume) r
      · obtain ⟨t, e⟩ := t1 ht
        simp only [e, ht, Go.bind_ok, true_and]
        generalize afterToken (check h.flag flagResume) r = r1
        have ⟨m1, m2⟩ := getMime_total r1
        by_cases hm : mimeFits r1
        · obtain ⟨m, e⟩ := m1 hm
          simp only [e, hm, Go.bind_ok, true_and]
          generalize afterMime r1 = r2
          have ⟨n1, n2⟩ := getMime_total r2
          by_cases hn : mimeFits r2
          · obtain ⟨n, e⟩ := n1 hn
            simp only [e, hn, Go.bind_ok, true_and]
            generalize afterMime r2 = r3
            have ⟨d1, d2⟩ := getMetadata_total (check h.flag flagMetadata) r3
            by_cases hf : metadataFits (check h.flag flagMetadata) r3
            · obtain ⟨md, q, e⟩ := d1 hf
              simp [e, hf]
            · simp [d2 hf, hf]
          · simp [n2 hn, hn]
        · simp [m2 hm, hm]
      · simp [t2 ht, ht]
  · simp only [h12, false_and, iff_false, ne_eq, Decidable.not_not]
    unfold Setup.decode
    cases e0 : getU16 body with
    | ok v0 =>
      simp only [Go.bind_ok]
      cases e1 : sliceFrom body 2 with
      | ok p2 =>
        simp only [Go.bind_ok]
        cases e2 : getU16 p2 with
        | ok v1 =>
          simp only [Go.bind_ok]
          cases e3 : sliceFrom body 4 with
          | ok p4 =>
            simp only [Go.bind_ok]
            cases e4 : getU32 p4 with
            | ok v2 =>
              simp only [Go.bind_ok]
              cases e5 : sliceFrom body 8 with
              | ok p8 =>
                simp only [Go.bind_ok]
                cases e6 : getU32 p8 with
                | ok v3 => simp [sliceFrom, h12]
                | panic => rfl
                | err s => simp only [getU32] at e6; split at e6 <;> cases e6
              | panic => rfl
              | err s => simp only [sliceFrom] at e5; split at e5 <;> cases e5
            | panic => rfl
            | err s => simp only [getU32] at e4; split at e4 <;> cases e4
          | panic => rfl
          | err s => simp only [sliceFrom] at e3; split at e3 <;> cases e3
        | panic => rfl
        | err s => simp only [getU16] at e2; split at e2 <;> cases e2
      | panic => rfl
      | err s => simp only [sliceFrom] at e1; split at e1 <;> cases e1
    | panic => rfl
    | err s => simp only [getU16] at e0; split at e0 <;> cases e0

end Verif.Props
