import Verif.Spec.Msgpack
import Verif.Lemmas.Frames
set_option autoImplicit false
namespace Verif.Msgpack
open Verif Spec

/-! ## The reading monad -/

@[simp] theorem rd_bind {α β : Type} (x : Rd α) (f : α → Rd β) (d : DR) :
    (x >>= f) d = match x d with
      | .ok a d => f a d
      | .fail e d => .fail e d
      | .panic => .panic := rfl

@[simp] theorem rd_pure {α : Type} (a : α) (d : DR) : Rd.pure a d = .ok a d := rfl
@[simp] theorem rd_pure' {α : Type} (a : α) (d : DR) : (pure a : Rd α) d = .ok a d := rfl
@[simp] theorem rd_fail {α : Type} (e : String) (d : DR) : (Rd.fail e : Rd α) d = .fail e d := rfl

@[simp] theorem rd_of {α : Type} (f : DR → Out α) (d : DR) : Rd.of f d = f d := rfl

theorem at_off {pre rest : Bytes} (h : (pre ++ rest).length < 2^32) :
    (at_ pre rest).off.toNat = pre.length := by
  simp only [at_]
  exact UInt32.toNat_ofNat_lt (by simp only [List.length_append] at h; omega)

/-! ## Checking -/

theorem check_at {pre rest : Bytes} {n : UInt32} (h : (pre ++ rest).length < 2^32)
    (hn : n.toNat ≤ rest.length) : check n (at_ pre rest) = .ok () (at_ pre rest) := by
  have ho := at_off h
  simp only [List.length_append] at h
  have hb : (at_ pre rest).buf.length = pre.length + rest.length := by simp [at_]
  simp only [check, show (at_ pre rest).err = none from rfl]
  rw [if_neg]
  rw [gt_iff_lt, UInt32.lt_iff_toNat_lt, hb, UInt32.toNat_ofNat_lt h, UInt32.toNat_add, ho]
  omega

theorem check_at_short {pre rest : Bytes} {n : UInt32} (h : (pre ++ rest).length < 2^32)
    (hn : rest.length < n.toNat) (hw : pre.length + n.toNat < 2^32) :
    check n (at_ pre rest) = .fail errRange { at_ pre rest with err := some errRange } := by
  have ho := at_off h
  simp only [List.length_append] at h
  have hb : (at_ pre rest).buf.length = pre.length + rest.length := by simp [at_]
  simp only [check, show (at_ pre rest).err = none from rfl]
  rw [if_pos]
  rw [gt_iff_lt, UInt32.lt_iff_toNat_lt, hb, UInt32.toNat_ofNat_lt h, UInt32.toNat_add, ho]
  omega

theorem off_add {pre w : Bytes} {n : UInt32} (hn : n.toNat = w.length)
    (h : (pre ++ w).length < 2^32) :
    UInt32.ofNat pre.length + n = UInt32.ofNat (pre ++ w).length := by
  apply UInt32.toNat_inj.mp
  simp only [List.length_append] at *
  rw [UInt32.toNat_add, UInt32.toNat_ofNat_lt (by omega), UInt32.toNat_ofNat_lt (by omega), hn]
  omega

/-! ## Writing -/

theorem setFixed_writes (w : Bytes) : Writes (setFixed w) w := by
  intro pre old rest hl h
  have hassoc : pre ++ old ++ rest = pre ++ (old ++ rest) := List.append_assoc ..
  have h' : (pre ++ (old ++ rest)).length < 2^32 := by rw [← hassoc]; exact h
  have ho := at_off h'
  simp only [List.length_append] at h
  have hn : (UInt32.ofNat w.length).toNat = w.length := UInt32.toNat_ofNat_lt (by omega)
  simp only [setFixed]
  rw [check_at h' (by rw [hn]; simp; omega)]
  simp only
  rw [if_pos (by rw [ho]; simp [at_]; omega)]
  rw [ho]
  congr 1
  simp only [at_]
  congr 1
  · rw [List.take_left, List.append_assoc, List.append_assoc]
    congr 2
    rw [List.drop_append, List.drop_of_length_le (by omega)]
    simp only [Nat.add_sub_cancel_left, List.nil_append]
    rw [← hl, List.drop_left]
  · exact off_add hn (by simp; omega)

theorem setBytes_writes (w : Bytes) : Writes (setBytes w) w := by
  intro pre old rest hl h
  have hassoc : pre ++ old ++ rest = pre ++ (old ++ rest) := List.append_assoc ..
  have h' : (pre ++ (old ++ rest)).length < 2^32 := by rw [← hassoc]; exact h
  have ho := at_off h'
  simp only [List.length_append] at h
  have hn : (UInt32.ofNat w.length).toNat = w.length := UInt32.toNat_ofNat_lt (by omega)
  simp only [setBytes]
  rw [check_at h' (by rw [hn]; simp; omega)]
  simp only
  rw [if_pos (by rw [ho]; simp [at_])]
  rw [ho]
  congr 1
  simp only [at_]
  congr 1
  · rw [List.take_left, List.append_assoc, List.append_assoc]
    congr 1
    rw [List.take_of_length_le (by simp; omega)]
    congr 1
    rw [List.drop_append, List.drop_of_length_le (by omega)]
    simp only [Nat.add_sub_cancel_left, List.nil_append]
    rw [← hl, List.drop_left]
  · exact off_add hn (by simp; omega)

theorem writes_nil : Writes .ok [] := by
  intro pre old rest hl _
  have : old = [] := List.length_eq_zero_iff.mp hl
  subst this
  simp

theorem _root_.Verif.Spec.Writes.seq {f g : Enc} {v w : Bytes} (hf : Writes f v) (hg : Writes g w) :
    Writes (f ≫ g) (v ++ w) := by
  intro pre old rest hl h
  simp only [List.length_append] at hl h
  have hs : old = old.take v.length ++ old.drop v.length := (List.take_append_drop ..).symm
  have h1 := hf pre (old.take v.length) (old.drop v.length ++ rest) (by simp; omega)
    (by simp; omega)
  have h2 := hg (pre ++ v) (old.drop v.length) rest (by simp; omega) (by simp; omega)
  rw [← List.append_assoc, ← hs] at h1
  simp only [Enc.seq, h1, Go.bind_ok, h2, List.append_assoc]

theorem _root_.Verif.Spec.Writes.cons {f g : Enc} {b : UInt8} {w : Bytes} (hf : Writes f [b]) (hg : Writes g w) :
    Writes (f ≫ g) (b :: w) := hf.seq hg

/-! ## Reading -/

theorem getWith_reads {α : Type} {n : UInt32} {f : Bytes → Go α} {w : Bytes} {a : α}
    (hn : n.toNat = w.length) (hf : ∀ rest, f (w ++ rest) = .ok a) : Reads (getWith n f) w a := by
  intro pre rest h
  have h' : (pre ++ (w ++ rest)).length < 2^32 := by rw [← List.append_assoc]; exact h
  have ho := at_off h'
  simp only [getWith, rd_bind, rd_of]
  rw [check_at h' (by rw [hn]; simp)]
  simp only
  have : sliceFrom (at_ pre (w ++ rest)).buf (at_ pre (w ++ rest)).off.toNat = .ok (w ++ rest) := by
    rw [ho]; exact sliceFrom_append _ _
  rw [this]
  simp only [Go.bind_ok, hf]
  congr 1
  simp only [at_, List.append_assoc]
  congr 1
  exact off_add hn (by simp only [List.length_append] at h ⊢; omega)

theorem getUint8_reads (b : UInt8) : Reads getUint8 [b] b :=
  getWith_reads rfl (fun _ => rfl)

theorem getUint16_reads (v : UInt16) : Reads getUint16 (be16 v) v :=
  getWith_reads rfl (fun _ => getU16_be16 ..)

theorem getUint32_reads (v : UInt32) : Reads getUint32 (be32 v) v :=
  getWith_reads rfl (fun _ => getU32_be32 ..)

theorem getUint64_reads (v : UInt64) : Reads getUint64 (be64 v) v :=
  getWith_reads rfl (fun _ => getU64_be64 ..)

theorem getBytes_reads (n : UInt32) (w : Bytes) (hn : n.toNat = w.length) :
    Reads (getBytes n) w w := by
  intro pre rest h
  have h' : (pre ++ (w ++ rest)).length < 2^32 := by rw [← List.append_assoc]; exact h
  have ho := at_off h'
  simp only [getBytes, rd_bind, rd_of]
  rw [check_at h' (by rw [hn]; simp)]
  simp only [List.length_append] at h
  have hoff : (at_ pre (w ++ rest)).off + n = UInt32.ofNat (pre ++ w).length :=
    off_add hn (by simp; omega)
  have hnat : ((at_ pre (w ++ rest)).off + n).toNat = pre.length + w.length := by
    rw [hoff, UInt32.toNat_ofNat_lt (by simp; omega), List.length_append]
  have : slice (at_ pre (w ++ rest)).buf (at_ pre (w ++ rest)).off.toNat
      ((at_ pre (w ++ rest)).off + n).toNat = .ok w := by
    rw [hnat, ho, slice, if_pos ⟨by omega, by simp [at_]⟩]
    simp only [at_]
    rw [← List.append_assoc, ← List.length_append, List.take_left, List.drop_left]
  simp only
  rw [this]
  simp only [hoff]
  simp [at_]

theorem _root_.Verif.Spec.Reads.bind {α β : Type} {x : Rd α} {f : α → Rd β} {v w : Bytes} {a : α} {b : β}
    (hx : Reads x v a) (hf : Reads (f a) w b) : Reads (x >>= f) (v ++ w) b := by
  intro pre rest h
  have h1 := hx pre (w ++ rest) (by simpa [Nat.add_assoc] using h)
  have h2 := hf (pre ++ v) rest (by simpa [Nat.add_assoc] using h)
  simp only [rd_bind, List.append_assoc, h1] at *
  rw [h2]

theorem _root_.Verif.Spec.Reads.pure {α : Type} (a : α) : Reads (Rd.pure a) [] a := by
  intro pre rest _
  simp

theorem _root_.Verif.Spec.Reads.cons {β : Type} {f : UInt8 → Rd β} {w : Bytes} {p : UInt8} {b : β}
    (hf : Reads (f p) w b) : Reads (getUint8 >>= f) (p :: w) b :=
  (getUint8_reads p).bind hf

theorem _root_.Verif.Spec.Reads.one {β : Type} {f : UInt8 → Rd β} {p : UInt8} {b : β}
    (hf : Reads (f p) [] b) : Reads (getUint8 >>= f) [p] b := Reads.cons hf

theorem _root_.Verif.Spec.Reads.map {α β : Type} {x : Rd α} {g : α → β} {w : Bytes} {a : α}
    (hx : Reads x w a) : Reads (x >>= fun v => Rd.pure (g v)) w (g a) := by
  have := hx.bind (f := fun v => Rd.pure (g v)) (Reads.pure (g a))
  rwa [List.append_nil] at this

theorem _root_.Verif.Spec.Refuses.fail {α : Type} (e : String) : Refuses (Rd.fail e : Rd α) [] := by
  intro pre rest _
  exact ⟨e, by simp⟩

theorem _root_.Verif.Spec.Refuses.bind {α β : Type} {x : Rd α} {f : α → Rd β} {v w : Bytes} {a : α}
    (hx : Reads x v a) (hf : Refuses (f a) w) : Refuses (x >>= f) (v ++ w) := by
  intro pre rest h
  have h1 := hx pre (w ++ rest) (by simpa [Nat.add_assoc] using h)
  obtain ⟨e, h2⟩ := hf (pre ++ v) rest (by simpa [Nat.add_assoc] using h)
  refine ⟨e, ?_⟩
  simp only [rd_bind, List.append_assoc, h1] at *
  rw [h2]

/-- Peeking leaves the position. -/
theorem peek_at (pre rest : Bytes) (b : UInt8) (h : (pre ++ b :: rest).length < 2^32) :
    peekUint8 (at_ pre (b :: rest)) = .ok b (at_ pre (b :: rest)) := by
  have ho := at_off h
  simp only [peekUint8, rd_bind, rd_of]
  rw [check_at h (by simp)]
  simp only [ho]
  simp [at_, index]

theorem discard_reads (n : UInt32) (w : Bytes) (hn : n.toNat = w.length) :
    Reads (discard n) w () := by
  intro pre rest h
  have h' : (pre ++ (w ++ rest)).length < 2^32 := by rw [← List.append_assoc]; exact h
  simp only [discard, rd_bind, rd_of]
  rw [check_at h' (by rw [hn]; simp)]
  simp only [List.length_append] at h
  have hoff : (at_ pre (w ++ rest)).off + n = UInt32.ofNat (pre ++ w).length :=
    off_add hn (by simp; omega)
  simp only [hoff]
  simp [at_]

theorem discardQuiet_reads (n : UInt32) (w : Bytes) (hn : n.toNat = w.length) :
    Reads (discardQuiet n) w () := by
  intro pre rest h
  simp only [discardQuiet, discard_reads n w hn pre rest h]

end Verif.Msgpack
