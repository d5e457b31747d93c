import Verif.Props.Records
import Verif.Model.Typed
/-
Properties C119 and C120: values and requests that were cut short.
-/
set_option autoImplicit false
namespace Verif.Props
open Verif Spec Msgpack Typed

/-! ## Specification -/

/-- `r` reads the bytes `w` behind `pre` and stops behind them. -/
def Takes (r : DR → Option (Out Unit)) (pre w rest : Bytes) : Prop :=
  (pre ++ w ++ rest).length < 2 ^ 32 ∧ r (at_ pre (w ++ rest)) = some (.ok () (at_ (pre ++ w) rest))

/-- If the input ends within `w`, `r` returns an error. -/
def RefusesCut (r : DR → Option (Out Unit)) (pre w : Bytes) : Prop :=
  ∀ n, n < w.length → ∃ e d, r (at_ pre (w.take n)) = some (.fail e d)

/-- C119 in full: whatever a read consumes, it refuses if it has been cut short. -/
def C119_statement : Prop :=
  ∀ (lib : Lib) (f : Nat) (op : ReadOp) (pre w rest : Bytes), Takes (op.run lib f) pre w rest → RefusesCut (op.run lib f) pre w

/-- The handlers of an operation whose requests are records refuse a request with this data: they answer with an error,
whatever the service does. -/
def RefusesRequest {ρ : Type} (f : Nat) (field : Bytes → Option (ρ → Rd ρ)) (zero : ρ) (data : Bytes) : Prop :=
  ∃ m, (∀ svc, answerRequest f field zero svc data = some (.failed (some m))) ∧
    ∀ svc, streamRequest f field zero svc data = some (.failed (some m))

/-- The handlers answer a request with this data by what the service answers to `r`. -/
def AnswersRequest {ρ : Type} (f : Nat) (field : Bytes → Option (ρ → Rd ρ)) (zero : ρ) (data : Bytes) (r : ρ) : Prop :=
  (∀ svc, answerRequest f field zero svc data = some (svc r).encoded) ∧
    ∀ svc, streamRequest f field zero svc data = some (svc r).encoded

/-- `P` of every map `es` made of the fields of a record `r` and of other fields with values that can be skipped (C42), and of what
is left of it if it is cut short; `P` may assume as high a bound on the recursion of `Skip` as it needs. -/
def CutRequests {ρ : Type} (fields : ρ → List (Bytes × Val)) (P : Nat → ρ → List (Bytes × Val) → Bytes → Prop) : Prop :=
  ∀ r es, Mixed (fun v => v.valid ∧ v.shortTimes) (fields r) es → (fieldMap es).length < 2 ^ 32 →
    ∃ f0, ∀ f, f0 ≤ f → ∀ n, n < (fieldMap es).length → P f r es ((fieldMap es).take n)

/-- C120 in full, for one kind of record: all that was cut short is refused. -/
def C120_for {ρ : Type} (fields : ρ → List (Bytes × Val)) (field : Bytes → Option (ρ → Rd ρ)) (zero : ρ) : Prop :=
  CutRequests fields fun f _ _ data => RefusesRequest f field zero data

def C120_statement : Prop :=
  C120_for greetingFields GreetingRequest.field ⟨[], []⟩ ∧ C120_for stringsFields Strings.field ⟨[], []⟩ ∧
  C120_for wordCountFields WordCount.field ⟨[], 0⟩ ∧ C120_for counterFields CounterRequest.field ⟨0⟩ ∧
  C120_for nameFields NameRequest.field ⟨[]⟩

/-- What remains of it: refused if the last field is one of the record, and otherwise refused or answered like the request that was sent. -/
def C120_rest {ρ : Type} (fields : ρ → List (Bytes × Val)) (field : Bytes → Option (ρ → Rd ρ)) (zero : ρ) : Prop :=
  CutRequests fields fun f r es data =>
    ((∀ e, es.getLast? = some e → e ∈ fields r) → RefusesRequest f field zero data) ∧
    (RefusesRequest f field zero data ∨ AnswersRequest f field zero data r)

/-! ## Proof -/

/-- The same reader with more bytes at the end. -/
def more (d : DR) (q : Bytes) : DR := { d with buf := d.buf ++ q }

/-- A reader that has seen no error. -/
def Live (d : DR) (q : Bytes) : Prop := d.err = none ∧ Inside d ∧ (d.buf ++ q).length < 2 ^ 32

/-- The outcome with fewer bytes, if with more it is `.ok a d'`. -/
def SameOr {α : Type} (bad : Out α → Prop) (q : Bytes) (a : α) (d' : DR) (o : Out α) : Prop :=
  (∃ e, o = .ok a e ∧ d' = more e q ∧ Live e q) ∨ bad o

def failed {α : Type} (o : Out α) : Prop := ∃ m e, o = .fail m e
def poisoned {α : Type} (a : α) (o : Out α) : Prop := ∃ e, o = .ok a e ∧ e.err = some errRange

/-- With fewer bytes: the same or an error. -/
def Strict {α : Type} (r : Rd α) : Prop :=
  ∀ d q a d', Live d q → r (more d q) = .ok a d' → SameOr failed q a d' (r d)

/-- With fewer bytes: the same or an error, or the same value and a reader that will give no more. -/
def Lax {α : Type} (r : Rd α) : Prop :=
  ∀ d q a d', Live d q → r (more d q) = .ok a d' → SameOr (fun o => failed o ∨ poisoned a o) q a d' (r d)

/-- Fails on a reader that has run past the end. -/
def Dead {α : Type} (r : Rd α) : Prop := ∀ d, d.err = some errRange → failed (r d)

def Numb {α : Type} (r : Rd α) : Prop := ∀ d, d.err = some errRange → failed (r d) ∨ ∃ a, poisoned a (r d)

theorem bind_eq {α β : Type} (x : Rd α) (f : α → Rd β) (d : DR) : (x >>= f) d =
    match x d with
    | .ok a d => f a d
    | .fail e d => .fail e d
    | .panic => .panic := rfl

theorem Strict.lax {α : Type} {r : Rd α} (h : Strict r) : Lax r := fun d q a d' hl hr => by
  rcases h d q a d' hl hr with h | h
  · exact .inl h
  · exact .inr (.inl h)

theorem Strict.bind {α β : Type} {x : Rd α} {f : α → Rd β} (hx : Strict x) (hf : ∀ a, Strict (f a)) : Strict (x >>= f) := by
  intro d q b d' hl hr
  rw [bind_eq] at hr ⊢
  split at hr
  · rename_i a d1 h1
    rcases hx d q a d1 hl h1 with ⟨e, h2, rfl, h3⟩ | ⟨m, e, h2⟩
    · rw [h2]; exact hf a e q b d' h3 hr
    · rw [h2]; exact .inr ⟨m, e, rfl⟩
  · cases hr
  · cases hr

theorem Lax.bind_dead {α β : Type} {x : Rd α} {f : α → Rd β} (hx : Lax x) (hf : ∀ a, Strict (f a)) (hn : ∀ a, Dead (f a)) : Strict (x >>= f) := by
  intro d q b d' hl hr
  rw [bind_eq] at hr ⊢
  split at hr
  · rename_i a d1 h1
    rcases hx d q a d1 hl h1 with ⟨e, h2, rfl, h3⟩ | ⟨m, e, h2⟩ | ⟨e, h2, h3⟩
    · rw [h2]; exact hf a e q b d' h3 hr
    · rw [h2]; exact .inr ⟨m, e, rfl⟩
    · rw [h2]; exact .inr (hn a e h3)
  · cases hr
  · cases hr

theorem Dead.bind {α β : Type} {x : Rd α} {f : α → Rd β} (hx : Dead x) : Dead (x >>= f) := by
  intro d h
  obtain ⟨m, e, h1⟩ := hx d h
  rw [bind_eq, h1]; exact ⟨m, e, rfl⟩

theorem Numb.bind_dead {α β : Type} {x : Rd α} {f : α → Rd β} (hx : Numb x) (hf : ∀ a, Dead (f a)) : Dead (x >>= f) := by
  intro d h
  rw [bind_eq]
  rcases hx d h with ⟨m, e, h1⟩ | ⟨a, e, h1, h2⟩
  · rw [h1]; exact ⟨m, e, rfl⟩
  · rw [h1]; exact hf a e h2

theorem Dead.numb {α : Type} {x : Rd α} (hx : Dead x) : Numb x := fun d h => .inl (hx d h)
theorem numb_pure {α : Type} (a : α) : Numb (Rd.pure a) := fun d h => .inr ⟨a, d, rfl, h⟩
theorem dead_fail {α : Type} (e : String) : Dead (Rd.fail e : Rd α) := fun d _ => ⟨e, d, rfl⟩
theorem numb_ite {α : Type} {c : Prop} [Decidable c] {a b : Rd α} (ha : Numb a) (hb : Numb b) : Numb (if c then a else b) := by
  split <;> assumption
theorem dead_ite {α : Type} {c : Prop} [Decidable c] {a b : Rd α} (ha : Dead a) (hb : Dead b) : Dead (if c then a else b) := by
  split <;> assumption
theorem strict_ite {α : Type} {c : Prop} [Decidable c] {a b : Rd α} (ha : Strict a) (hb : Strict b) : Strict (if c then a else b) := by
  split <;> assumption
theorem lax_ite {α : Type} {c : Prop} [Decidable c] {a b : Rd α} (ha : Lax a) (hb : Lax b) : Lax (if c then a else b) := by
  split <;> assumption

theorem strict_pure {α : Type} (a : α) : Strict (Rd.pure a) := by
  intro d q b d' hl hr
  cases hr
  exact .inl ⟨d, rfl, rfl, hl⟩
theorem strict_fail {α : Type} (e : String) : Strict (Rd.fail e : Rd α) := fun _ _ _ _ _ hr => by cases hr

theorem dead_check (n : UInt32) : Dead (check n) := fun d h => ⟨errRange, d, by simp [check, h]⟩

theorem check_live {d : DR} {q : Bytes} (n : UInt32) (hl : Live d q) :
    (check n (more d q) = .ok () (more d q) ∧ (d.off + n).toNat ≤ (d.buf ++ q).length ∧
      ((check n d = .ok () d ∧ (d.off + n).toNat ≤ d.buf.length) ∨ check n d = .fail errRange { d with err := some errRange })) ∨
    (check n (more d q) = .fail errRange { more d q with err := some errRange } ∧ check n d = .fail errRange { d with err := some errRange }) := by
  obtain ⟨h1, h2, h3⟩ := hl
  have h4 : (UInt32.ofNat d.buf.length).toNat = d.buf.length := UInt32.toNat_ofNat_lt (by simp at h3; omega)
  have h5 : (UInt32.ofNat (d.buf ++ q).length).toNat = (d.buf ++ q).length := UInt32.toNat_ofNat_lt h3
  simp only [check, more, h1, gt_iff_lt, UInt32.lt_iff_toNat_lt, h4, h5]
  have h6 : (d.buf ++ q).length = d.buf.length + q.length := by simp
  by_cases ha : (d.buf ++ q).length < (d.off + n).toNat
  · right
    rw [if_pos ha, if_pos (by omega)]
    exact ⟨rfl, rfl⟩
  · left
    rw [if_neg ha]
    refine ⟨rfl, by omega, ?_⟩
    by_cases hb : d.buf.length < (d.off + n).toNat
    · rw [if_pos hb]; exact .inr rfl
    · rw [if_neg hb]; exact .inl ⟨rfl, by omega⟩

theorem strict_getBytes (n : UInt32) : Strict (getBytes n) := by
  intro d q a d' hl hr
  simp only [getBytes, bind_eq] at hr ⊢
  rcases check_live n hl with ⟨h1, h2, ⟨h3, h4⟩ | h3⟩ | ⟨h1, h3⟩
  · rw [h1] at hr
    rw [h3]
    simp only [Rd.of] at hr ⊢
    split at hr
    · rename_i b hs
      change slice (d.buf ++ q) d.off.toNat (d.off + n).toNat = .ok b at hs
      cases hr
      unfold slice at hs
      split at hs
      · rename_i hc
        have hs' : slice d.buf d.off.toNat (d.off + n).toNat = .ok a := by
          unfold slice
          rw [if_pos ⟨hc.1, h4⟩, ← hs, List.take_append_of_le_length h4]
        rw [hs']
        exact .inl ⟨_, rfl, rfl, hl.1, h4, hl.2.2⟩
      · cases hs
    · cases hr
  · rw [h3]; exact .inr ⟨_, _, rfl⟩
  · rw [h1] at hr; cases hr

theorem strict_getWith {α : Type} (n : UInt32) (f : Bytes → Go α) (h1 : ∀ b a, f b = .ok a → n.toNat ≤ b.length)
    (h2 : ∀ b q, n.toNat ≤ b.length → f (b ++ q) = f b) : Strict (getWith n f) := by
  intro d q a d' hl hr
  simp only [getWith, bind_eq] at hr ⊢
  rcases check_live n hl with ⟨g1, g2, ⟨g3, g4⟩ | g3⟩ | ⟨g1, g3⟩
  · rw [g1] at hr
    rw [g3]
    have hin : d.off.toNat ≤ d.buf.length := hl.2.1
    simp only [Rd.of] at hr ⊢
    have e1 : sliceFrom (more d q).buf (more d q).off.toNat = .ok (d.buf.drop d.off.toNat ++ q) := by
      change sliceFrom (d.buf ++ q) d.off.toNat = _
      unfold sliceFrom
      rw [if_pos (by simp; omega), List.drop_append_of_le_length hin]
    have e2 : sliceFrom d.buf d.off.toNat = .ok (d.buf.drop d.off.toNat) := if_pos hin
    rw [e1] at hr
    rw [e2]
    simp only [Go.bind_ok] at hr ⊢
    split at hr
    · rename_i a' hf
      have h5 := h1 _ _ hf
      have h7 : (d.buf ++ q).length < 2 ^ 32 := hl.2.2
      have h6 : (d.off + n).toNat = d.off.toNat + n.toNat := by
        simp at h5 h7
        rw [UInt32.toNat_add]; omega
      rw [h2 _ _ (by simp; omega)] at hf
      rw [hf]
      cases hr
      exact .inl ⟨_, rfl, rfl, hl.1, g4, hl.2.2⟩
    · cases hr
  · rw [g3]; exact .inr ⟨_, _, rfl⟩
  · rw [g1] at hr; cases hr

theorem strict_u8 : Strict getUint8 :=
  strict_getWith 1 _ (by intro b a h; cases b <;> simp_all [index]) (by
    intro b q h; cases b <;> simp_all [index])
theorem getU16_grow : (∀ b a, getU16 b = .ok a → (2 : UInt32).toNat ≤ b.length) ∧ ∀ b q, (2 : UInt32).toNat ≤ b.length → getU16 (b ++ q) = getU16 b := by
  refine ⟨fun b a h => ?_, fun b q h => ?_⟩
  · unfold getU16 at h; split at h
    · simp
    · cases h
  · match b, h with
    | _ :: _ :: _, _ => rfl
theorem getU32_grow : (∀ b a, getU32 b = .ok a → (4 : UInt32).toNat ≤ b.length) ∧ ∀ b q, (4 : UInt32).toNat ≤ b.length → getU32 (b ++ q) = getU32 b := by
  refine ⟨fun b a h => ?_, fun b q h => ?_⟩
  · unfold getU32 at h; split at h
    · simp
    · cases h
  · match b, h with
    | _ :: _ :: _ :: _ :: _, _ => rfl
theorem getU64_grow : (∀ b a, getU64 b = .ok a → (8 : UInt32).toNat ≤ b.length) ∧ ∀ b q, (8 : UInt32).toNat ≤ b.length → getU64 (b ++ q) = getU64 b := by
  refine ⟨fun b a h => ?_, fun b q h => ?_⟩
  · unfold getU64 at h; split at h
    · simp
    · cases h
  · match b, h with
    | _ :: _ :: _ :: _ :: _ :: _ :: _ :: _ :: _, _ => rfl
theorem strict_u16 : Strict getUint16 := strict_getWith 2 _ getU16_grow.1 getU16_grow.2
theorem strict_u32 : Strict getUint32 := strict_getWith 4 _ getU32_grow.1 getU32_grow.2
theorem strict_u64 : Strict getUint64 := strict_getWith 8 _ getU64_grow.1 getU64_grow.2
theorem strict_i8 : Strict getInt8 := strict_u8.bind fun _ => strict_pure _
theorem strict_i16 : Strict getInt16 := strict_u16.bind fun _ => strict_pure _
theorem strict_i32 : Strict getInt32 := strict_u32.bind fun _ => strict_pure _
theorem strict_i64 : Strict getInt64 := strict_u64.bind fun _ => strict_pure _

theorem strict_peek : Strict peekUint8 := by
  intro d q a d' hl hr
  simp only [peekUint8, bind_eq] at hr ⊢
  rcases check_live 1 hl with ⟨g1, g2, ⟨g3, g4⟩ | g3⟩ | ⟨g1, g3⟩
  · rw [g1] at hr
    rw [g3]
    simp only [Rd.of] at hr ⊢
    split at hr
    · rename_i b hb
      change index (d.buf ++ q) d.off.toNat = .ok b at hb
      cases hr
      unfold index at hb
      split at hb
      · rename_i b' hb'
        cases hb
        have h5 : d.off.toNat < (d.buf ++ q).length := by
          rcases Nat.lt_or_ge d.off.toNat (d.buf ++ q).length with h | h
          · exact h
          · rw [List.getElem?_eq_none h] at hb'; cases hb'
        have h6 : (d.off + 1).toNat = d.off.toNat + 1 := by
          have h7 : (d.buf ++ q).length < 2 ^ 32 := hl.2.2
          rw [UInt32.toNat_add]
          show (d.off.toNat + 1) % 2 ^ 32 = _
          omega
        rw [List.getElem?_append_left (by omega)] at hb'
        have hx : index d.buf d.off.toNat = .ok a := by unfold index; rw [hb']
        rw [hx]
        exact .inl ⟨d, rfl, rfl, hl⟩
      · cases hb
    · cases hr
  · rw [g3]; exact .inr ⟨_, _, rfl⟩
  · rw [g1] at hr; cases hr

theorem strict_discard (n : UInt32) : Strict (Msgpack.discard n) := by
  intro d q a d' hl hr
  simp only [Msgpack.discard, bind_eq] at hr ⊢
  rcases check_live n hl with ⟨g1, g2, ⟨g3, g4⟩ | g3⟩ | ⟨g1, g3⟩
  · rw [g1] at hr
    rw [g3]
    simp only [Rd.of] at hr ⊢
    cases hr
    exact .inl ⟨_, rfl, rfl, hl.1, g4, hl.2.2⟩
  · rw [g3]; exact .inr ⟨_, _, rfl⟩
  · rw [g1] at hr; cases hr

theorem lax_discardQuiet (n : UInt32) : Lax (discardQuiet n) := by
  intro d q a d' hl hr
  simp only [discardQuiet, Msgpack.discard, bind_eq] at hr ⊢
  rcases check_live n hl with ⟨g1, g2, ⟨g3, g4⟩ | g3⟩ | ⟨g1, g3⟩
  · rw [g1] at hr
    rw [g3]
    simp only [Rd.of] at hr ⊢
    cases hr
    exact .inl ⟨_, rfl, rfl, hl.1, g4, hl.2.2⟩
  · rw [g3]; exact .inr (.inr ⟨_, rfl, rfl⟩)
  · rw [g3]; exact .inr (.inr ⟨_, rfl, rfl⟩)

theorem dead_getWith {α : Type} (n : UInt32) (f : Bytes → Go α) : Dead (getWith n f) := (dead_check n).bind
theorem dead_getBytes (n : UInt32) : Dead (getBytes n) := (dead_check n).bind
theorem dead_u8 : Dead getUint8 := dead_getWith _ _

theorem strict_isNextNil : Strict isNextNil := by
  intro d q a d' hl hr
  simp only [isNextNil, bind_eq] at hr ⊢
  have hp := strict_peek d q
  split at hr
  · rename_i b d1 h1
    have hk : d1 = more d q := by
      simp only [peekUint8, bind_eq] at h1
      rcases check_live 1 hl with ⟨g1, -⟩ | ⟨g1, -⟩
      · rw [g1] at h1
        simp only [Rd.of] at h1
        split at h1
        · cases h1; rfl
        · cases h1
      · rw [g1] at h1; cases h1
    rcases hp b d1 hl h1 with ⟨e, h2, h3, h4⟩ | ⟨m, e, h2⟩
    · have he : e = d := by
        rw [hk] at h3
        obtain ⟨eb, eo, ee⟩ := e
        obtain ⟨db, dof, de⟩ := d
        simp only [more, DR.mk.injEq, List.append_cancel_right_eq] at h3
        obtain ⟨rfl, rfl, rfl⟩ := h3
        rfl
      subst he
      subst hk
      rw [h2]
      dsimp only at hr ⊢
      by_cases hb : b = fmtNil
      · rw [if_pos hb] at hr ⊢
        have hc : check 1 e = .ok () e := by
          simp only [peekUint8, bind_eq] at h2
          split at h2
          · rename_i h5
            have : ∀ x, check 1 e = .ok () x → x = e := by
              intro x hx
              unfold check at hx
              rw [hl.1] at hx
              dsimp only at hx
              split at hx <;> cases hx
              rfl
            rw [this _ h5] at h5
            exact h5
          · cases h2
          · cases h2
        rcases check_live 1 hl with ⟨g1, g2, ⟨g3, g4⟩ | g3⟩ | ⟨g1, g3⟩
        · have k1 : Msgpack.discard 1 (more e q) = .ok () { more e q with off := e.off + 1 } := by
            simp only [Msgpack.discard, bind_eq, g1]; rfl
          have k2 : Msgpack.discard 1 e = .ok () { e with off := e.off + 1 } := by
            simp only [Msgpack.discard, bind_eq, g3]; rfl
          simp only [Rd.of, k1] at hr
          simp only [Rd.of, k2]
          cases hr
          exact .inl ⟨_, rfl, rfl, hl.1, g4, hl.2.2⟩
        · rw [g3] at hc; cases hc
        · rw [g3] at hc; cases hc
      · rw [if_neg hb] at hr ⊢
        cases hr
        exact .inl ⟨_, rfl, rfl, hl⟩
    · rw [h2]; exact .inr ⟨m, e, rfl⟩
  · cases hr
  · cases hr

/-- Works through a reader built from the primitives. -/
macro "stricts" : tactic => `(tactic| repeat' (first
  | exact strict_pure _ | exact strict_u8 | exact strict_u16 | exact strict_u32 | exact strict_u64
  | exact strict_i8 | exact strict_i16 | exact strict_i32 | exact strict_i64
  | exact strict_getBytes _ | exact strict_discard _ | exact strict_peek
  | exact strict_fail _
  | assumption
  | refine Strict.bind ?_ (fun _ => ?_) | refine strict_ite ?_ ?_))

theorem strict_f32 : Strict getFloat32 := strict_u32
theorem strict_f64 : Strict getFloat64 := strict_u64
theorem strict_readBool : Strict readBool := by unfold readBool; stricts
theorem strict_readInt64 : Strict readInt64 := by unfold readInt64; stricts
theorem strict_readInt8 : Strict readInt8 := by have := strict_readInt64; unfold readInt8; stricts
theorem strict_readInt16 : Strict readInt16 := by have := strict_readInt64; unfold readInt16; stricts
theorem strict_readInt32 : Strict readInt32 := by have := strict_readInt64; unfold readInt32; stricts
theorem strict_readUint64 : Strict readUint64 := by unfold readUint64; stricts
theorem strict_readUint8 : Strict readUint8 := by have := strict_readUint64; unfold readUint8; stricts
theorem strict_readUint16 : Strict readUint16 := by have := strict_readUint64; unfold readUint16; stricts
theorem strict_readUint32 : Strict readUint32 := by have := strict_readUint64; unfold readUint32; stricts
theorem strict_readFloat32 (lib : Lib) : Strict (readFloat32 lib) := by
  have := strict_f32; have := strict_f64; unfold readFloat32; stricts
theorem strict_readFloat64 : Strict readFloat64 := by have := strict_f64; unfold readFloat64; stricts
theorem strict_readString : Strict readString := by unfold readString readStringLength; stricts
theorem strict_readByteArray : Strict readByteArray := by unfold readByteArray readBinLength; stricts
theorem strict_readArraySize : Strict readArraySize := by unfold readArraySize; stricts
theorem strict_readMapSize : Strict readMapSize := by unfold readMapSize; stricts
theorem strict_parseExtLen (c : UInt8) : Strict (parseExtLen c) := by
  have := strict_readUint8; have := strict_readUint16; have := strict_readUint32
  unfold parseExtLen; stricts
theorem strict_nillable {α : Type} {r : Rd α} (h : Strict r) : Strict (readNillable r) := by
  have := strict_isNextNil; unfold readNillable; stricts

theorem dead_readUint64 : Dead readUint64 := dead_u8.bind
theorem numb_parseExtLen (c : UInt8) : Numb (parseExtLen c) := by
  have h8 : Dead readUint8 := dead_readUint64.bind
  have h16 : Dead readUint16 := dead_readUint64.bind
  have h32 : Dead readUint32 := dead_readUint64.bind
  unfold parseExtLen
  repeat' (first | exact numb_pure _ | exact h32.numb | exact (dead_fail _).numb | exact h8.bind.numb | exact h16.bind.numb | refine numb_ite ?_ ?_)

theorem strict_decodeTime (n : UInt32) : Strict (decodeTime n) := by
  refine (strict_getBytes n).bind fun b => ?_
  intro d q a d' hl hr
  simp only [Rd.of] at hr ⊢
  cases ht : timeOfBytes b with
  | ok t => rw [ht] at hr; cases hr; exact .inl ⟨_, rfl, rfl, hl⟩
  | err e => rw [ht] at hr; cases hr
  | panic => rw [ht] at hr; cases hr

theorem strict_readTime (lib : Lib) : Strict (readTime lib) := by
  refine strict_peek.bind fun p => strict_ite ?_ ?_
  · refine strict_readString.bind fun s => ?_
    cases lib.parseTime s with
    | some t => exact strict_pure _
    | none => exact strict_fail _
  · refine (lax_discardQuiet 1).bind_dead (fun _ => ?_) (fun _ => ?_)
    · refine (strict_parseExtLen p).bind fun n => strict_u8.bind fun id => strict_ite (strict_fail _) (strict_decodeTime n)
    · exact (numb_parseExtLen p).bind_dead fun n => dead_u8.bind

/-- A read with a bound on its recursion. -/
def StrictRun {α : Type} (r : DR → Option (Out α)) : Prop :=
  ∀ d q a d', Live d q → r (more d q) = some (.ok a d') → ∃ o, r d = some o ∧ SameOr failed q a d' o

def LaxRun {α : Type} (r : DR → Option (Out α)) : Prop :=
  ∀ d q a d', Live d q → r (more d q) = some (.ok a d') → ∃ o, r d = some o ∧ SameOr (fun o => failed o ∨ poisoned a o) q a d' o

theorem strict_void {α : Type} {r : Rd α} (h : Strict r) : StrictRun fun d => some (r d).void := by
  intro d q a d' hl hr
  refine ⟨_, rfl, ?_⟩
  dsimp only at hr
  cases h1 : r (more d q) with
  | ok b e =>
    rw [h1] at hr
    cases hr
    rcases h d q b d' hl h1 with ⟨e, h2, h3, h4⟩ | ⟨m, e, h2⟩
    · rw [h2]; exact .inl ⟨e, rfl, h3, h4⟩
    · rw [h2]; exact .inr ⟨m, e, rfl⟩
  | fail => rw [h1] at hr; cases hr
  | panic => rw [h1] at hr; cases hr

theorem strict_opt_ite {α : Type} {c : Prop} [Decidable c] {a b : Option (Rd α)} (ha : ∀ r, a = some r → Strict r)
    (hb : ∀ r, b = some r → Strict r) : ∀ r, (if c then a else b) = some r → Strict r := by
  split <;> assumption

theorem strict_opt_some {α : Type} {a : Rd α} (h : Strict a) : ∀ r, some a = some r → Strict r := fun _ hr => by cases hr; exact h

theorem strict_opt_none {α : Type} : ∀ r : Rd α, none = some r → Strict r := fun _ hr => by cases hr

theorem strict_anyScalar (p : UInt8) : ∀ r, readAnyScalar p = some r → Strict r := by
  have := strict_f32
  have := strict_f64
  unfold readAnyScalar
  repeat' (first | refine strict_opt_ite ?_ ?_ | exact strict_opt_none | refine strict_opt_some ?_)
  all_goals stricts

theorem strict_anyHeader (p : UInt8) : Strict (readAnyHeader p) := by unfold readAnyHeader; stricts

theorem strict_anys (f : Nat) : StrictRun (readAny f) ∧ (∀ n, StrictRun (readArray f n)) ∧ ∀ n m, StrictRun (readMap f n m) := by
  induction f with
  | zero => exact ⟨fun _ _ _ _ _ h => by simp [readAny] at h, fun _ _ _ _ _ _ h => by simp [readArray] at h, fun _ _ _ _ _ _ _ h => by simp [readMap] at h⟩
  | succ f ih =>
    refine ⟨fun d q a d' hl hr => ?_, fun n d q a d' hl hr => ?_, fun n m d q a d' hl hr => ?_⟩
    · simp only [readAny] at hr ⊢
      cases h1 : getUint8 (more d q) with
      | panic => rw [h1] at hr; cases hr
      | fail => rw [h1] at hr; cases hr
      | ok p d1 =>
        rw [h1] at hr
        dsimp only at hr
        rcases strict_u8 d q p d1 hl h1 with ⟨e, h2, rfl, h3⟩ | ⟨m, e, h2⟩
        · rw [h2]
          dsimp only
          cases hs : readAnyScalar p with
          | some r =>
            rw [hs] at hr
            dsimp only at hr ⊢
            exact ⟨_, rfl, strict_anyScalar p r hs e q a d' h3 (Option.some.inj hr)⟩
          | none =>
            rw [hs] at hr
            dsimp only at hr ⊢
            cases h4 : readAnyHeader p (more e q) with
            | panic => rw [h4] at hr; cases hr
            | fail => rw [h4] at hr; cases hr
            | ok x d2 =>
              obtain ⟨b, n⟩ := x
              rw [h4] at hr
              rcases strict_anyHeader p e q _ d2 h3 h4 with ⟨e2, h5, rfl, h6⟩ | ⟨m, e2, h5⟩
              · rw [h5]
                cases b with
                | false =>
                  dsimp only at hr ⊢
                  cases h7 : readArray f n.toNat (more e2 q) with
                  | none => rw [h7] at hr; cases hr
                  | some o =>
                    rw [h7] at hr
                    cases o with
                    | panic => cases hr
                    | fail => cases hr
                    | ok l d3 =>
                      cases hr
                      obtain ⟨o, h8, h9⟩ := ih.2.1 n.toNat e2 q l d' h6 h7
                      rw [h8]
                      rcases h9 with ⟨e3, rfl, h9, h10⟩ | ⟨m, e3, rfl⟩
                      · exact ⟨_, rfl, .inl ⟨e3, rfl, h9, h10⟩⟩
                      · exact ⟨_, rfl, .inr ⟨m, e3, rfl⟩⟩
                | true =>
                  dsimp only at hr ⊢
                  cases h7 : readMap f n.toNat [] (more e2 q) with
                  | none => rw [h7] at hr; cases hr
                  | some o =>
                    rw [h7] at hr
                    cases o with
                    | panic => cases hr
                    | fail => cases hr
                    | ok l d3 =>
                      cases hr
                      obtain ⟨o, h8, h9⟩ := ih.2.2 n.toNat [] e2 q l d' h6 h7
                      rw [h8]
                      rcases h9 with ⟨e3, rfl, h9, h10⟩ | ⟨m, e3, rfl⟩
                      · exact ⟨_, rfl, .inl ⟨e3, rfl, h9, h10⟩⟩
                      · exact ⟨_, rfl, .inr ⟨m, e3, rfl⟩⟩
              · rw [h5]; exact ⟨_, rfl, .inr ⟨m, e2, rfl⟩⟩
        · rw [h2]; exact ⟨_, rfl, .inr ⟨m, e, rfl⟩⟩
    · cases n with
      | zero => simp only [readArray] at hr ⊢; cases hr; exact ⟨_, rfl, .inl ⟨d, rfl, rfl, hl⟩⟩
      | succ n =>
        simp only [readArray] at hr ⊢
        cases h1 : readAny f (more d q) with
        | none => rw [h1] at hr; cases hr
        | some o =>
          rw [h1] at hr
          cases o with
          | panic => cases hr
          | fail => cases hr
          | ok v d1 =>
            dsimp only at hr
            obtain ⟨o, h2, h3⟩ := ih.1 d q v d1 hl h1
            rw [h2]
            rcases h3 with ⟨e, rfl, rfl, h4⟩ | ⟨m, e, rfl⟩
            · dsimp only
              cases h5 : readArray f n (more e q) with
              | none => rw [h5] at hr; cases hr
              | some o =>
                rw [h5] at hr
                cases o with
                | panic => cases hr
                | fail => cases hr
                | ok l d2 =>
                  cases hr
                  obtain ⟨o, h6, h7⟩ := ih.2.1 n e q l d' h4 h5
                  rw [h6]
                  rcases h7 with ⟨e2, rfl, h8, h9⟩ | ⟨m, e2, rfl⟩
                  · exact ⟨_, rfl, .inl ⟨e2, rfl, h8, h9⟩⟩
                  · exact ⟨_, rfl, .inr ⟨m, e2, rfl⟩⟩
            · exact ⟨_, rfl, .inr ⟨m, e, rfl⟩⟩
    · cases n with
      | zero => simp only [readMap] at hr ⊢; cases hr; exact ⟨_, rfl, .inl ⟨d, rfl, rfl, hl⟩⟩
      | succ n =>
        simp only [readMap] at hr ⊢
        cases h1 : readAny f (more d q) with
        | none => rw [h1] at hr; cases hr
        | some o =>
          rw [h1] at hr
          cases o with
          | panic => cases hr
          | fail => cases hr
          | ok k d1 =>
            dsimp only at hr
            obtain ⟨o, h2, h3⟩ := ih.1 d q k d1 hl h1
            rw [h2]
            rcases h3 with ⟨e, rfl, rfl, h4⟩ | ⟨m, e, rfl⟩
            · dsimp only
              cases h5 : readAny f (more e q) with
              | none => rw [h5] at hr; cases hr
              | some o =>
                rw [h5] at hr
                cases o with
                | panic => cases hr
                | fail => cases hr
                | ok v d2 =>
                  dsimp only at hr
                  obtain ⟨o, h6, h7⟩ := ih.1 e q v d2 h4 h5
                  rw [h6]
                  rcases h7 with ⟨e2, rfl, rfl, h9⟩ | ⟨m, e2, rfl⟩
                  · dsimp only
                    split at hr
                    · rename_i hh
                      rw [if_pos hh]
                      exact ih.2.2 n _ e2 q a d' h9 hr
                    · cases hr
                  · exact ⟨_, rfl, .inr ⟨m, e2, rfl⟩⟩
            · exact ⟨_, rfl, .inr ⟨m, e, rfl⟩⟩

/-- What is left of an input that was cut short within what `r` reads. -/
theorem cut_parts {pre w rest : Bytes} (hlen : (pre ++ w ++ rest).length < 2 ^ 32) (n : Nat) (hn : n < w.length) :
    at_ pre (w ++ rest) = more (at_ pre (w.take n)) (w.drop n ++ rest) ∧ Live (at_ pre (w.take n)) (w.drop n ++ rest) ∧
    ∀ e, at_ (pre ++ w) rest = more e (w.drop n ++ rest) → Live e (w.drop n ++ rest) → False := by
  have hsplit : w ++ rest = w.take n ++ (w.drop n ++ rest) := by rw [← List.append_assoc, List.take_append_drop]
  have hp : (UInt32.ofNat pre.length).toNat = pre.length := UInt32.toNat_ofNat_lt (by simp at hlen; omega)
  refine ⟨by rw [hsplit]; simp [at_, more], ⟨rfl, ?_, ?_⟩, fun e h3 h4 => ?_⟩
  · show (UInt32.ofNat pre.length).toNat ≤ (pre ++ w.take n).length
    rw [hp]; simp
  · show ((pre ++ w.take n) ++ (w.drop n ++ rest)).length < 2 ^ 32
    rw [List.append_assoc, ← hsplit, ← List.append_assoc]; exact hlen
  · have hb : e.buf = pre ++ w.take n := by
      have : pre ++ w ++ rest = e.buf ++ (w.drop n ++ rest) := congrArg DR.buf h3
      rw [List.append_assoc, hsplit, ← List.append_assoc] at this
      exact (List.append_cancel_right this).symm
    have ho : e.off.toNat = (pre ++ w).length := by
      have : UInt32.ofNat (pre ++ w).length = e.off := congrArg DR.off h3
      rw [← this]
      exact UInt32.toNat_ofNat_lt (by simp at hlen ⊢; omega)
    have : e.off.toNat ≤ e.buf.length := h4.2.1
    rw [ho, hb] at this
    simp at this
    omega

/-- Cutting off the end of what was read leaves nothing but an error. -/
theorem cut_refused {r : DR → Option (Out Unit)} (h : StrictRun r) {pre w rest : Bytes} (ht : Takes r pre w rest) : RefusesCut r pre w := by
  intro n hn
  obtain ⟨h1, h2, h3⟩ := cut_parts ht.1 n hn
  have h4 := ht.2
  rw [h1] at h4
  obtain ⟨o, h5, h6⟩ := h _ _ _ _ h2 h4
  rcases h6 with ⟨e, rfl, h7, h8⟩ | ⟨m, e, rfl⟩
  · exact (h3 e h7 h8).elim
  · exact ⟨m, e, h5⟩

/-- C119, partial: for all reads but `Skip`, which ignores the errors of the bytes it steps over. -/
theorem C119_partial (lib : Lib) (f : Nat) (op : ReadOp) (h : op ≠ .skip) (pre w rest : Bytes) (ht : Takes (op.run lib f) pre w rest) :
    RefusesCut (op.run lib f) pre w := by
  refine cut_refused ?_ ht
  have lift : ∀ {α : Type} {r : Rd α}, Strict r → StrictRun fun d => some (r d).void := fun h => strict_void h
  cases op with
  | skip => exact absurd rfl h
  | any =>
    intro d q a d' hl hr
    simp only [ReadOp.run] at hr ⊢
    cases h1 : readAny f (more d q) with
    | none => rw [h1] at hr; cases hr
    | some o =>
      rw [h1] at hr
      cases o with
      | panic => cases hr
      | fail => cases hr
      | ok v d1 =>
        cases hr
        obtain ⟨o, h2, h3⟩ := (strict_anys f).1 d q v d' hl h1
        rw [h2]
        rcases h3 with ⟨e, rfl, h4, h5⟩ | ⟨m, e, rfl⟩
        · exact ⟨_, rfl, .inl ⟨e, rfl, h4, h5⟩⟩
        · exact ⟨_, rfl, .inr ⟨m, e, rfl⟩⟩
  | isNextNil => exact lift strict_isNextNil
  | bool => exact lift strict_readBool
  | int8 => exact lift strict_readInt8
  | int16 => exact lift strict_readInt16
  | int32 => exact lift strict_readInt32
  | int64 => exact lift strict_readInt64
  | uint8 => exact lift strict_readUint8
  | uint16 => exact lift strict_readUint16
  | uint32 => exact lift strict_readUint32
  | uint64 => exact lift strict_readUint64
  | float32 => exact lift (strict_readFloat32 lib)
  | float64 => exact lift strict_readFloat64
  | string => exact lift strict_readString
  | time => exact lift (strict_readTime lib)
  | bytes => exact lift strict_readByteArray
  | arraySize => exact lift strict_readArraySize
  | mapSize => exact lift strict_readMapSize
  | nillableBool => exact lift (strict_nillable strict_readBool)
  | nillableInt8 => exact lift (strict_nillable strict_readInt8)
  | nillableInt16 => exact lift (strict_nillable strict_readInt16)
  | nillableInt32 => exact lift (strict_nillable strict_readInt32)
  | nillableInt64 => exact lift (strict_nillable strict_readInt64)
  | nillableUint8 => exact lift (strict_nillable strict_readUint8)
  | nillableUint16 => exact lift (strict_nillable strict_readUint16)
  | nillableUint32 => exact lift (strict_nillable strict_readUint32)
  | nillableUint64 => exact lift (strict_nillable strict_readUint64)
  | nillableFloat32 => exact lift (strict_nillable (strict_readFloat32 lib))
  | nillableFloat64 => exact lift (strict_nillable strict_readFloat64)
  | nillableString => exact lift (strict_nillable strict_readString)
  | nillableTime => exact lift (strict_nillable (strict_readTime lib))
  | nillableBytes => exact lift (strict_nillable strict_readByteArray)

/-! ## Skip -/

theorem Lax.step {α β : Type} {x : Rd α} {f : α → Rd β} (hx : Strict x) (hf : ∀ a, Lax (f a)) : Lax (x >>= f) := by
  intro d q b d' hl hr
  rw [bind_eq] at hr ⊢
  split at hr
  · rename_i a d1 h1
    rcases hx d q a d1 hl h1 with ⟨e, h2, rfl, h3⟩ | ⟨m, e, h2⟩
    · rw [h2]; exact hf a e q b d' h3 hr
    · rw [h2]; exact .inr (.inl ⟨m, e, rfl⟩)
  · cases hr
  · cases hr

theorem lax_quiet (n : UInt32) (a : UInt32) : Lax (do discardQuiet n; Rd.pure a) := by
  intro d q b d' hl hr
  rw [bind_eq] at hr ⊢
  cases h1 : discardQuiet n (more d q) with
  | fail => rw [h1] at hr; cases hr
  | panic => rw [h1] at hr; cases hr
  | ok u d1 =>
    rw [h1] at hr
    cases hr
    rcases lax_discardQuiet n d q u d' hl h1 with ⟨e, h2, h3, h4⟩ | ⟨m, e, h2⟩ | ⟨e, h2, h3⟩
    · rw [h2]; exact .inl ⟨e, rfl, h3, h4⟩
    · rw [h2]; exact .inr (.inl ⟨m, e, rfl⟩)
    · rw [h2]; exact .inr (.inr ⟨e, rfl, h3⟩)

theorem lax_getSize : Lax getSize := by
  refine Lax.step strict_u8 fun b => ?_
  repeat' (first | refine lax_ite ?_ ?_ | exact lax_quiet _ _ | (refine Strict.lax ?_; stricts; done))

theorem dead_getSize : Dead getSize := dead_u8.bind

theorem numb_skipN (f n : Nat) (x d' e : DR) (u : Unit) (h : skipN f n x = some (.ok u d')) (he : e.err = some errRange) :
    ∃ o, skipN f n e = some o ∧ (failed o ∨ poisoned () o) := by
  cases f with
  | zero => simp [skipN] at h
  | succ f =>
    cases n with
    | zero => exact ⟨_, rfl, .inr ⟨_, rfl, he⟩⟩
    | succ n =>
      simp only [skipN] at h ⊢
      cases f with
      | zero => simp [Msgpack.skip] at h
      | succ f =>
        obtain ⟨m, e2, h4⟩ := dead_getSize e he
        simp only [Msgpack.skip, h4]
        exact ⟨_, rfl, .inl ⟨_, _, rfl⟩⟩

theorem lax_skips (f : Nat) : LaxRun (Msgpack.skip f) ∧ ∀ n, LaxRun (skipN f n) := by
  induction f with
  | zero => exact ⟨fun _ _ _ _ _ h => by simp [Msgpack.skip] at h, fun _ _ _ _ _ _ h => by simp [skipN] at h⟩
  | succ f ih =>
    refine ⟨fun d q a d' hl hr => ?_, fun n d q a d' hl hr => ?_⟩
    · simp only [Msgpack.skip] at hr ⊢
      cases h1 : getSize (more d q) with
      | panic => rw [h1] at hr; cases hr
      | fail => rw [h1] at hr; cases hr
      | ok n d1 =>
        rw [h1] at hr
        dsimp only at hr
        rcases lax_getSize d q n d1 hl h1 with ⟨e, h2, rfl, h3⟩ | ⟨m, e, h2⟩ | ⟨e, h2, h3⟩
        · rw [h2]; exact ih.2 _ e q a d' h3 hr
        · rw [h2]; exact ⟨_, rfl, .inr (.inl ⟨m, e, rfl⟩)⟩
        · rw [h2]
          obtain ⟨o, h4, h5⟩ := numb_skipN f n.toNat d1 d' e a hr h3
          exact ⟨o, h4, .inr h5⟩
    · cases n with
      | zero => simp only [skipN] at hr ⊢; cases hr; exact ⟨_, rfl, .inl ⟨d, rfl, rfl, hl⟩⟩
      | succ n =>
        simp only [skipN] at hr ⊢
        cases h1 : Msgpack.skip f (more d q) with
        | none => rw [h1] at hr; cases hr
        | some o =>
          rw [h1] at hr
          cases o with
          | panic => cases hr
          | fail => cases hr
          | ok v d1 =>
            dsimp only at hr
            obtain ⟨o, h2, h3⟩ := ih.1 d q v d1 hl h1
            rw [h2]
            rcases h3 with ⟨e, rfl, rfl, h4⟩ | ⟨m, e, rfl⟩ | ⟨e, rfl, h4⟩
            · exact ih.2 n e q a d' h4 hr
            · exact ⟨_, rfl, .inr (.inl ⟨m, e, rfl⟩)⟩
            · obtain ⟨o, h5, h6⟩ := numb_skipN f n d1 d' e a hr h4
              exact ⟨o, h5, .inr h6⟩

/-- C119 for `Skip`, partial: if it returns no error, every further read does. Missing: that it returns one. -/
theorem C119_skip_partial (lib : Lib) (f : Nat) (pre w rest : Bytes) (ht : Takes (ReadOp.skip.run lib f) pre w rest) (n : Nat) (hn : n < w.length) :
    ∃ o, ReadOp.skip.run lib f (at_ pre (w.take n)) = some o ∧
      ((∃ e d, o = .fail e d) ∨ ∃ d, o = .ok () d ∧ ∀ (op : ReadOp) (f : Nat), ∃ e d', op.run lib (f + 1) d = some (.fail e d')) := by
  obtain ⟨h1, h2, h3⟩ := cut_parts ht.1 n hn
  have h4 := ht.2
  rw [h1] at h4
  obtain ⟨o, h5, h6⟩ := (lax_skips f).1 _ _ _ _ h2 h4
  refine ⟨o, h5, ?_⟩
  rcases h6 with ⟨e, rfl, h7, h8⟩ | ⟨m, e, rfl⟩ | ⟨e, rfl, h7⟩
  · exact (h3 e h7 h8).elim
  · exact .inl ⟨m, e, rfl⟩
  · exact .inr ⟨e, rfl, fun op f => ⟨_, _, sticky_run lib f op e errRange h7⟩⟩

def lib119 : Lib := ⟨fun _ => 0, fun _ => none⟩

/-- `"abc"` behind one other byte, with something behind it, and cut after two bytes. -/
example : Takes (ReadOp.string.run lib119 0) [1] (str (ascii "abc")) [7] ∧
    ReadOp.string.run lib119 0 (at_ [1] ((str (ascii "abc")).take 2)) =
      some (.fail errRange ⟨[1, 0xa3, 0x61], 2, some errRange⟩) :=
  ⟨⟨by decide, by decide⟩, by decide⟩

/-- C119 fails for `Skip`: of the nine bytes of a float64 the first is enough for it. -/
theorem C119_violated : ¬ C119_statement := by
  intro h
  obtain ⟨e, d, h1⟩ := h lib119 2 .skip [] [0xcb, 0, 0, 0, 0, 0, 0, 0, 0] [] ⟨by decide, by decide⟩ 1 (by decide)
  have h2 : ReadOp.run lib119 2 .skip (at_ [] ([0xcb, 0, 0, 0, 0, 0, 0, 0, 0].take 1)) = some (.ok () ⟨[0xcb], 1, some errRange⟩) := by
    decide
  rw [h2] at h1
  cases h1

/-! ## Records -/

/-- The fields of a record are the ones its codec knows, and it reads their values. -/
def Knows {ρ : Type} (fields : ρ → List (Bytes × Val)) (field : Bytes → Option (ρ → Rd ρ)) : Prop :=
  (∀ r, ∀ e ∈ fields r, e.2.enc.length < 2 ^ 32 → ∃ set, field e.1 = some set ∧ ∀ x, ∃ x', Reads (set x) e.2.enc x') ∧
  (∀ r n, (∀ k ∈ fields r, k.1 ≠ n) → field n = none) ∧ ∀ n set, field n = some set → ∀ x, Strict (set x)

theorem strict_set_str {ρ : Type} (g : Bytes → ρ) : Strict (do let s ← readString; Rd.pure (g s)) :=
  strict_readString.bind fun _ => strict_pure _

theorem strict_set_u64 {ρ : Type} (g : UInt64 → ρ) : Strict (do let n ← readUint64; Rd.pure (g n)) :=
  strict_readUint64.bind fun _ => strict_pure _

theorem greeting_knows : Knows greetingFields GreetingRequest.field := by
  refine ⟨fun r e he hl => ?_, fun r n h => ?_, fun n set h x => ?_⟩
  · simp only [greetingFields, List.mem_cons, List.not_mem_nil, or_false] at he
    rcases he with rfl | rfl
    · exact ⟨_, if_pos rfl, fun x => ⟨_, set_str hl⟩⟩
    · exact ⟨_, (if_neg greeting_names).trans (if_pos rfl), fun x => ⟨_, set_str hl⟩⟩
  · have h1 := h _ (show _ ∈ greetingFields r from List.mem_cons_self)
    have h2 := h (ascii "lastName", .str r.lastName) (by simp [greetingFields])
    exact (if_neg (Ne.symm h1)).trans (if_neg (Ne.symm h2))
  · unfold GreetingRequest.field at h
    split at h
    · cases h; exact strict_set_str _
    · split at h
      · cases h; exact strict_set_str _
      · cases h

theorem strings_knows : Knows stringsFields Strings.field := by
  refine ⟨fun r e he hl => ?_, fun r n h => ?_, fun n set h x => ?_⟩
  · simp only [stringsFields, List.mem_cons, List.not_mem_nil, or_false] at he
    rcases he with rfl | rfl
    · exact ⟨_, if_pos rfl, fun x => ⟨_, set_str hl⟩⟩
    · exact ⟨_, (if_neg strings_names).trans (if_pos rfl), fun x => ⟨_, set_str hl⟩⟩
  · have h1 := h _ (show _ ∈ stringsFields r from List.mem_cons_self)
    have h2 := h (ascii "right", .str r.right) (by simp [stringsFields])
    exact (if_neg (Ne.symm h1)).trans (if_neg (Ne.symm h2))
  · unfold Strings.field at h
    split at h
    · cases h; exact strict_set_str _
    · split at h
      · cases h; exact strict_set_str _
      · cases h

theorem wordCount_knows : Knows wordCountFields WordCount.field := by
  refine ⟨fun r e he hl => ?_, fun r n h => ?_, fun n set h x => ?_⟩
  · simp only [wordCountFields, List.mem_cons, List.not_mem_nil, or_false] at he
    rcases he with rfl | rfl
    · exact ⟨_, if_pos rfl, fun x => ⟨_, set_str hl⟩⟩
    · exact ⟨_, (if_neg wordCount_names).trans (if_pos rfl), fun x => ⟨_, set_u64 _⟩⟩
  · have h1 := h _ (show _ ∈ wordCountFields r from List.mem_cons_self)
    have h2 := h (ascii "count", .nat r.count.toNat) (by simp [wordCountFields])
    exact (if_neg (Ne.symm h1)).trans (if_neg (Ne.symm h2))
  · unfold WordCount.field at h
    split at h
    · cases h; exact strict_set_str _
    · split at h
      · cases h; exact strict_set_u64 _
      · cases h

theorem counter_knows : Knows counterFields CounterRequest.field := by
  refine ⟨fun r e he hl => ?_, fun r n h => ?_, fun n set h x => ?_⟩
  · simp only [counterFields, List.mem_cons, List.not_mem_nil, or_false] at he
    subst he
    exact ⟨_, if_pos rfl, fun x => ⟨_, set_u64 _⟩⟩
  · exact if_neg (Ne.symm (h _ (show _ ∈ counterFields r from List.mem_cons_self)))
  · unfold CounterRequest.field at h
    split at h
    · cases h; exact strict_set_u64 _
    · cases h

theorem name_knows : Knows nameFields NameRequest.field := by
  refine ⟨fun r e he hl => ?_, fun r n h => ?_, fun n set h x => ?_⟩
  · simp only [nameFields, List.mem_cons, List.not_mem_nil, or_false] at he
    subst he
    exact ⟨_, if_pos rfl, fun x => ⟨_, set_str hl⟩⟩
  · exact if_neg (Ne.symm (h _ (show _ ∈ nameFields r from List.mem_cons_self)))
  · unfold NameRequest.field at h
    split at h
    · cases h; exact strict_set_str _
    · cases h

section
variable {ρ : Type} {field : Bytes → Option (ρ → Rd ρ)}

theorem dead_readString : Dead readString := dead_u8.bind.bind

theorem numb_fields (f n : Nat) (r : ρ) (e : DR) (he : e.err = some errRange) :
    (n = 0 ∧ decodeFields f field n r e = some (.ok r e)) ∨ ∃ o, decodeFields f field n r e = some o ∧ failed o := by
  cases n with
  | zero => exact .inl ⟨rfl, rfl⟩
  | succ n =>
    obtain ⟨m, e2, h⟩ := dead_readString e he
    simp only [decodeFields, h]
    exact .inr ⟨_, rfl, ⟨_, _, rfl⟩⟩

/-- The loop over the fields. -/
theorem fields_lax (hs : ∀ n set, field n = some set → ∀ x, Strict (set x)) (f n : Nat) (r : ρ) : LaxRun (decodeFields f field n r) := by
  induction n generalizing r with
  | zero =>
    intro d q a d' hl hr
    cases hr
    exact ⟨_, rfl, .inl ⟨d, rfl, rfl, hl⟩⟩
  | succ n ih =>
    intro d q a d' hl hr
    simp only [decodeFields] at hr ⊢
    cases h1 : readString (more d q) with
    | fail => rw [h1] at hr; cases hr
    | panic => rw [h1] at hr; cases hr
    | ok name d1 =>
      rw [h1] at hr
      rcases strict_readString d q name d1 hl h1 with ⟨e, h2, rfl, h3⟩ | ⟨m, e, h2⟩
      · rw [h2]
        dsimp only at hr ⊢
        cases hf : field name with
        | some set =>
          rw [hf] at hr
          dsimp only at hr ⊢
          cases h4 : set r (more e q) with
          | fail => rw [h4] at hr; cases hr
          | panic => rw [h4] at hr; cases hr
          | ok r1 d2 =>
            rw [h4] at hr
            rcases hs name set hf r e q r1 d2 h3 h4 with ⟨e2, h5, rfl, h6⟩ | ⟨m, e2, h5⟩
            · rw [h5]; exact ih r1 e2 q a d' h6 hr
            · rw [h5]; exact ⟨_, rfl, .inr (.inl ⟨m, e2, rfl⟩)⟩
        | none =>
          rw [hf] at hr
          dsimp only at hr ⊢
          cases h4 : Msgpack.skip f (more e q) with
          | none => rw [h4] at hr; cases hr
          | some o =>
            rw [h4] at hr
            cases o with
            | fail => cases hr
            | panic => cases hr
            | ok u d2 =>
              dsimp only at hr
              obtain ⟨o, h5, h6⟩ := (lax_skips f).1 e q u d2 h3 h4
              rw [h5]
              rcases h6 with ⟨e2, rfl, rfl, h7⟩ | ⟨m, e2, rfl⟩ | ⟨e2, rfl, h7⟩
              · exact ih r e2 q a d' h7 hr
              · exact ⟨_, rfl, .inr (.inl ⟨m, e2, rfl⟩)⟩
              · rcases numb_fields f n r e2 h7 with ⟨rfl, h8⟩ | ⟨o, h8, h9⟩
                · dsimp only
                  rw [h8]
                  cases hr
                  exact ⟨_, rfl, .inr (.inr ⟨e2, rfl, h7⟩)⟩
                · exact ⟨o, h8, .inr (.inl h9)⟩
      · rw [h2]; exact ⟨_, rfl, .inr (.inl ⟨m, e, rfl⟩)⟩

theorem fields_add (f a b : Nat) (r : ρ) (d : DR) : decodeFields f field (a + b) r d =
    match decodeFields f field a r d with
    | some (.ok r d) => decodeFields f field b r d
    | o => o := by
  induction a generalizing r d with
  | zero => simp [decodeFields]
  | succ a ih =>
    rw [Nat.succ_add]
    simp only [decodeFields]
    split
    · rfl
    · rfl
    · split
      · split
        · exact ih _ _
        · rfl
        · rfl
      · split
        · rfl
        · exact ih _ _
        · rfl
        · rfl

theorem fieldBytes_append (a b : List (Bytes × Val)) : fieldBytes (a ++ b) = fieldBytes a ++ fieldBytes b := by
  induction a with
  | nil => rfl
  | cons x a ih => obtain ⟨n, v⟩ := x; simp [fieldBytes, ih]

/-- One field that the codec knows. -/
theorem one_field (hs : ∀ n set, field n = some set → ∀ x, Strict (set x)) (f : Nat) (r : ρ) {n : Bytes} {set : ρ → Rd ρ}
    (hf : field n = some set) (d : DR) (q : Bytes) (a : ρ) (d' d1 : DR) (hl : Live d q) (h1 : readString (more d q) = .ok n d1)
    (hr : decodeFields f field 1 r (more d q) = some (.ok a d')) :
    ∃ o, decodeFields f field 1 r d = some o ∧ SameOr failed q a d' o := by
  simp only [decodeFields, h1, hf] at hr ⊢
  rcases strict_readString d q n d1 hl h1 with ⟨e, h2, rfl, h3⟩ | ⟨m, e, h2⟩
  · rw [h2]
    simp only [hf]
    cases h4 : set r (more e q) with
    | fail => rw [h4] at hr; cases hr
    | panic => rw [h4] at hr; cases hr
    | ok r1 d2 =>
      rw [h4] at hr
      cases hr
      rcases hs n set hf r e q a d' h3 h4 with ⟨e2, h5, h6, h7⟩ | ⟨m, e2, h5⟩
      · rw [h5]; exact ⟨_, rfl, .inl ⟨e2, rfl, h6, h7⟩⟩
      · rw [h5]; exact ⟨_, rfl, .inr ⟨m, e2, rfl⟩⟩
  · rw [h2]; exact ⟨_, rfl, .inr ⟨m, e, rfl⟩⟩

/-- The loop over fields the last of which the codec knows. -/
theorem fields_strict {fields : ρ → List (Bytes × Val)} (hk : Knows fields field) (x r : ρ) (es : List (Bytes × Val)) (n : Bytes) (v : Val)
    (hes : ∀ e ∈ es, e ∈ fields x ∨ ((∀ k ∈ fields x, k.1 ≠ e.1) ∧ e.2.valid ∧ e.2.shortTimes)) (hnv : (n, v) ∈ fields x)
    (hlen : (fieldBytes (es ++ [(n, v)])).length < 2 ^ 32) :
    ∃ f0, ∀ f, f0 ≤ f → ∀ (pre rest : Bytes) (d : DR) (q : Bytes) (a : ρ) (d' : DR), (pre ++ fieldBytes (es ++ [(n, v)]) ++ rest).length < 2 ^ 32 →
      more d q = at_ pre (fieldBytes (es ++ [(n, v)]) ++ rest) → Live d q →
      decodeFields f field (es ++ [(n, v)]).length r (more d q) = some (.ok a d') →
      ∃ o, decodeFields f field (es ++ [(n, v)]).length r d = some o ∧ SameOr failed q a d' o := by
  have hlen' := hlen
  rw [fieldBytes_append] at hlen'
  simp only [fieldBytes, List.length_append, str] at hlen'
  obtain ⟨r0, f0, h0, -, -⟩ := fields_decode (field := field) (fun _ _ => True) (fields x)
    (fun e he hl => by
      obtain ⟨set, h1, h2⟩ := hk.1 x e he hl
      exact ⟨set, h1, fun r => by obtain ⟨r', h3⟩ := h2 r; exact ⟨r', h3, trivial, fun _ _ => trivial⟩⟩)
    (hk.2.1 x) es hes (by omega) r
  obtain ⟨set, hset, -⟩ := hk.1 x (n, v) hnv (by show v.enc.length < _; simp only [List.length_nil] at hlen'; omega)
  refine ⟨f0, fun f hf pre rest d q a d' hl hm hlive hr => ?_⟩
  have hsh : fieldBytes (es ++ [(n, v)]) ++ rest = fieldBytes es ++ (str n ++ (v.enc ++ rest)) := by
    rw [fieldBytes_append]; simp [fieldBytes]
  have hl2 : (pre ++ fieldBytes es ++ (str n ++ (v.enc ++ rest))).length < 2 ^ 32 := by
    rw [List.append_assoc, ← hsh, ← List.append_assoc]; exact hl
  have hfull := h0 f hf pre (str n ++ (v.enc ++ rest)) hl2
  rw [← hsh, ← hm] at hfull
  rw [List.length_append, List.length_singleton, fields_add] at hr ⊢
  rw [hfull] at hr
  dsimp only at hr
  obtain ⟨o, h1, h2⟩ := fields_lax hk.2.2 f es.length r d q r0 _ hlive hfull
  rw [h1]
  rcases h2 with ⟨e, rfl, h3, h4⟩ | ⟨m, e, rfl⟩ | ⟨e, rfl, h3⟩
  · dsimp only
    have hrs := readString_reads n (by omega) (pre ++ fieldBytes es) (v.enc ++ rest) (by simpa [Nat.add_assoc] using hl2)
    rw [h3] at hr hrs
    exact one_field hk.2.2 f r0 hset e q a d' _ h4 hrs hr
  · exact ⟨_, rfl, .inr ⟨m, e, rfl⟩⟩
  · dsimp only
    rcases numb_fields (field := field) f 1 r0 e h3 with ⟨h, -⟩ | ⟨o, h5, h6⟩
    · cases h
    · exact ⟨o, h5, .inr h6⟩

theorem request_failed {f : Nat} {zero : ρ} {data : Bytes} {m : String} {d : DR}
    (h : decodeRecord f field zero (DR.new data) = some (.fail m d)) : RefusesRequest f field zero data := by
  refine ⟨m, fun svc => ?_, fun svc => ?_⟩
  · simp only [answerRequest, decodeRequest, h]
  · simp only [streamRequest, decodeRequest, h]

theorem request_answered {f : Nat} {zero r : ρ} {data : Bytes} {d : DR}
    (h : decodeRecord f field zero (DR.new data) = some (.ok r d)) : AnswersRequest f field zero data r := by
  refine ⟨fun svc => ?_, fun svc => ?_⟩
  · simp only [answerRequest, decodeRequest, h]
  · simp only [streamRequest, decodeRequest, h]

theorem rest_of {fields : ρ → List (Bytes × Val)} {encode : Option ρ → List Call} {zero : ρ} (hk : Knows fields field)
    (hok : RecordOK fields encode field zero fun v => v.valid ∧ v.shortTimes) : C120_rest fields field zero := by
  intro r es hm hlen
  have hl' := hlen
  rw [fieldMap, List.length_append] at hl'
  have hcnt : es.length < 2 ^ 32 := by
    have : es.length ≤ (fieldBytes es).length := by
      clear hm hlen hl'
      induction es with
      | nil => simp
      | cons e es ih =>
        obtain ⟨n, v⟩ := e
        have : 0 < (str n).length := by
          simp only [str, strHead, List.length_append]
          repeat' split
          all_goals (simp; omega)
        simp only [fieldBytes, List.length_cons, List.length_append]
        omega
    omega
  obtain ⟨f1, h1⟩ := hok.2.1 r es hm hlen hcnt
  have h2 : ∃ f2, ∀ (es0 : List (Bytes × Val)) n v, es = es0 ++ [(n, v)] → (n, v) ∈ fields r → ∀ f, f2 ≤ f → ∀ (pre rest : Bytes) (d : DR) (q : Bytes) (a : ρ) (d' : DR),
      (pre ++ fieldBytes es ++ rest).length < 2 ^ 32 → more d q = at_ pre (fieldBytes es ++ rest) → Live d q →
      decodeFields f field es.length zero (more d q) = some (.ok a d') →
      ∃ o, decodeFields f field es.length zero d = some o ∧ SameOr failed q a d' o := by
    rcases List.eq_nil_or_concat es with rfl | ⟨es0, ⟨n, v⟩, rfl⟩
    · exact ⟨0, fun es0 n v h => by simp at h⟩
    · rw [List.concat_eq_append] at *
      by_cases hnv : (n, v) ∈ fields r
      · obtain ⟨f2, h2⟩ := fields_strict hk r zero es0 n v (fun e he => hm.2 e (by simp [he])) hnv (by omega)
        exact ⟨f2, fun _ _ _ _ _ => h2⟩
      · refine ⟨0, fun es1 n1 v1 h h' => ?_⟩
        obtain ⟨-, h⟩ := List.append_inj' h rfl
        cases h
        exact absurd h' hnv
  obtain ⟨f2, h2⟩ := h2
  refine ⟨max f1 f2, fun f hf n hn => ?_⟩
  obtain ⟨g1, g2, g3⟩ := cut_parts (pre := []) (w := fieldMap es) (rest := []) (by simpa using hlen) n hn
  have hfull := (h1 f (by omega) [] [] (by simpa using hlen)).1
  rw [g1] at hfull
  have hdr : at_ [] ((fieldMap es).take n) = DR.new ((fieldMap es).take n) := rfl
  rw [hdr] at hfull g1 g2
  generalize hd : DR.new ((fieldMap es).take n) = d at hfull g1 g2
  generalize hq : (fieldMap es).drop n ++ [] = q at hfull g1 g2 g3
  have hread := readMapSize_reads (UInt32.ofNat es.length) [] (fieldBytes es) (by
    rw [UInt32.toNat_ofNat_lt hcnt]; simpa [fieldMap] using hlen)
  rw [UInt32.toNat_ofNat_lt hcnt] at hread
  have hread' : readMapSize (more d q) = .ok (UInt32.ofNat es.length) (at_ (mapHead es.length) (fieldBytes es)) := by
    rw [← g1, List.append_nil]; exact hread
  have hdec : decodeRecord f field zero (more d q) = decodeFields f field es.length zero (at_ (mapHead es.length) (fieldBytes es)) := by
    simp only [decodeRecord, hread', UInt32.toNat_ofNat_lt hcnt]
  rw [hdec] at hfull
  rcases strict_readMapSize d q _ _ g2 hread' with ⟨e, k1, k2, k3⟩ | ⟨m, e, k1⟩
  · have hsh : decodeRecord f field zero d = decodeFields f field es.length zero e := by
      simp only [decodeRecord, k1, UInt32.toNat_ofNat_lt hcnt]
    rw [k2] at hfull
    refine ⟨fun hlast => ?_, ?_⟩
    · have hne : es ≠ [] := by
        rintro rfl
        injection hfull with h
        injection h with _ h
        exact g3 e h.symm k3
      obtain ⟨es0, ⟨nm, v⟩, hc⟩ := (List.eq_nil_or_concat es).resolve_left hne
      rw [List.concat_eq_append] at hc
      have hin := hlast (nm, v) (by rw [hc]; simp)
      obtain ⟨o, h3, h4⟩ := h2 es0 nm v hc hin f (by omega) (mapHead es.length) [] e q _ _ (by simpa [fieldMap] using hlen)
        (by rw [← k2, List.append_nil]) k3 hfull
      rw [← hsh, ← hd] at h3
      rcases h4 with ⟨e2, rfl, h5, h6⟩ | ⟨m, e2, rfl⟩
      · exact (g3 e2 h5 h6).elim
      · exact request_failed h3
    · obtain ⟨o, h3, h4⟩ := fields_lax hk.2.2 f es.length zero e q _ _ k3 hfull
      rw [← hsh, ← hd] at h3
      rcases h4 with ⟨e2, rfl, h5, h6⟩ | ⟨m, e2, rfl⟩ | ⟨e2, rfl, h5⟩
      · exact (g3 e2 h5 h6).elim
      · exact .inl (request_failed h3)
      · exact .inr (request_answered h3)
  · have h3 : decodeRecord f field zero (DR.new ((fieldMap es).take n)) = some (.fail m e) := by
      rw [hd]; simp only [decodeRecord, k1]
    exact ⟨fun _ => request_failed h3, .inl (request_failed h3)⟩
end

/-- C120, partial: a request that was cut short is refused if its last field is one of the record, as in every request that the generated clients
send; in any case it is refused or answered like the whole request. Missing: that it is refused if the cut is in a last field that is unknown to the record. -/
theorem C120_partial :
    C120_rest greetingFields GreetingRequest.field ⟨[], []⟩ ∧ C120_rest stringsFields Strings.field ⟨[], []⟩ ∧
    C120_rest wordCountFields WordCount.field ⟨[], 0⟩ ∧ C120_rest counterFields CounterRequest.field ⟨0⟩ ∧
    C120_rest nameFields NameRequest.field ⟨[]⟩ :=
  ⟨rest_of greeting_knows greeting_ok, rest_of strings_knows strings_ok, rest_of wordCount_knows wordCount_ok,
    rest_of counter_knows counter_ok, rest_of name_knows name_ok⟩

/-- A counter's request with another field behind it. -/
def es120 : List (Bytes × Val) := [(ascii "to", .nat 5), (ascii "x", .str (ascii "ab"))]

theorem mixed120 : Mixed (fun v => v.valid ∧ v.shortTimes) (counterFields ⟨5⟩) es120 := by
  refine ⟨fun e he => ?_, fun e he => ?_⟩
  · simp only [counterFields, List.mem_cons, List.not_mem_nil, or_false] at he
    subst he
    exact List.mem_cons_self
  · simp only [es120, List.mem_cons, List.not_mem_nil, or_false] at he
    rcases he with rfl | rfl
    · exact .inl List.mem_cons_self
    · refine .inr ⟨fun k hk => ?_, ?_⟩
      · simp only [counterFields, List.mem_cons, List.not_mem_nil, or_false] at hk
        subst hk
        show ascii "to" ≠ ascii "x"
        decide
      · simp [Val.valid, Val.shortTimes, ascii]

/-- Its last two bytes are lost; it is answered nevertheless. -/
theorem cut120 (f : Nat) : decodeRecord (f + 2) CounterRequest.field ⟨0⟩ (DR.new ((fieldMap es120).take 8)) =
    some (.ok ⟨5⟩ ⟨(fieldMap es120).take 8, 8, some errRange⟩) := by
  have h1 : readMapSize (DR.new ((fieldMap es120).take 8)) = .ok 2 ⟨(fieldMap es120).take 8, 1, none⟩ := by decide +kernel
  have h2 : readString ⟨(fieldMap es120).take 8, 1, none⟩ = .ok (ascii "to") ⟨(fieldMap es120).take 8, 4, none⟩ := by decide +kernel
  have h3 : readUint64 ⟨(fieldMap es120).take 8, 4, none⟩ = .ok 5 ⟨(fieldMap es120).take 8, 5, none⟩ := by decide +kernel
  have h4 : readString ⟨(fieldMap es120).take 8, 5, none⟩ = .ok (ascii "x") ⟨(fieldMap es120).take 8, 7, none⟩ := by decide +kernel
  have h5 : getSize ⟨(fieldMap es120).take 8, 7, none⟩ = .ok 0 ⟨(fieldMap es120).take 8, 8, some errRange⟩ := by decide +kernel
  have h6 : CounterRequest.field (ascii "to") = some (fun _ => (do let n ← readUint64; Rd.pure ⟨n⟩)) := if_pos rfl
  have h7 : CounterRequest.field (ascii "x") = none := if_neg (by decide)
  have h8 : (2 : UInt32).toNat = 2 := rfl
  simp only [decodeRecord, h1, h8, decodeFields, h2, h6, bind_eq, h3, Rd.pure, h4, h7, Msgpack.skip, h5]
  rfl

/-- The request of a client, cut anywhere. -/
example : (∀ e, (greetingFields ⟨ascii "Ada", ascii "L"⟩).getLast? = some e → e ∈ greetingFields ⟨ascii "Ada", ascii "L"⟩) ∧
    ∀ n, n < 26 → (match decodeRequest 0 GreetingRequest.field ⟨[], []⟩ ((fieldMap (greetingFields ⟨ascii "Ada", ascii "L"⟩)).take n) with
      | some (.error e) => e == errRange
      | _ => false) = true :=
  ⟨fun e h => List.mem_of_getLast? h, by decide +kernel⟩

/-- C120 fails: a counter counts to five though its request has lost the end of a field it does not know. -/
theorem C120_violated : ¬ C120_statement := by
  intro h
  obtain ⟨f0, h1⟩ := h.2.2.2.1 ⟨5⟩ es120 mixed120 (by decide +kernel)
  obtain ⟨m, h2, -⟩ := h1 (f0 + 2) (by omega) 8 (by decide +kernel)
  have h3 := (request_answered (cut120 f0)).1 fun _ => .created
  rw [h2] at h3
  cases h3

end Verif.Props
