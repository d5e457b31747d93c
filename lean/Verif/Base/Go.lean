/-
Go results, slices and big-endian integers.

This file models no repository code; it fixes the meaning of the Go operations the
repository code uses (see DESIGN.md section 2).
-/
namespace Verif

/-- Contents of a Go `[]byte` or `string`. -/
abbrev Bytes := List UInt8

/-- Outcome of a Go call: a value, a returned error (its message), or a panic. -/
inductive Go (α : Type) where
  | ok (a : α)
  | err (e : String)
  | panic
  deriving Repr, DecidableEq

namespace Go
variable {α β : Type}

/-- Sequencing: an error return or a panic stops the computation. -/
@[inline] def bind (x : Go α) (f : α → Go β) : Go β :=
  match x with
  | ok a => f a
  | err e => err e
  | panic => panic

instance : Monad Go where
  pure := ok
  bind := Go.bind

@[simp] theorem bind_ok (a : α) (f : α → Go β) : (Go.ok a >>= f) = f a := rfl
@[simp] theorem bind_err (e : String) (f : α → Go β) : (Go.err e >>= f) = Go.err e := rfl
@[simp] theorem bind_panic (f : α → Go β) : ((Go.panic : Go α) >>= f) = Go.panic := rfl
@[simp] theorem pure_eq (a : α) : (pure a : Go α) = Go.ok a := rfl
@[simp] theorem map_ok (a : α) (f : α → β) : (f <$> Go.ok a) = Go.ok (f a) := rfl
@[simp] theorem map_err (e : String) (f : α → β) : (f <$> (Go.err e : Go α)) = Go.err e := rfl
@[simp] theorem map_panic (f : α → β) : (f <$> (Go.panic : Go α)) = Go.panic := rfl

instance : LawfulMonad Go := LawfulMonad.mk'
  (id_map := by intro α x; cases x <;> rfl)
  (pure_bind := by intros; rfl)
  (bind_assoc := by intro α β γ x f g; cases x <;> rfl)

end Go

/-- `s[lo:]` : panics when `lo > len(s)`. -/
def sliceFrom (s : Bytes) (lo : Nat) : Go Bytes :=
  if lo ≤ s.length then .ok (s.drop lo) else .panic

/-- `s[:hi]` : panics when `hi > len(s)` (capacity taken equal to length). -/
def sliceTo (s : Bytes) (hi : Nat) : Go Bytes :=
  if hi ≤ s.length then .ok (s.take hi) else .panic

/-- `s[lo:hi]` : panics unless `lo ≤ hi ≤ len(s)` (capacity taken equal to length). -/
def slice (s : Bytes) (lo hi : Nat) : Go Bytes :=
  if lo ≤ hi ∧ hi ≤ s.length then .ok ((s.take hi).drop lo) else .panic

/-- `s[i]` : panics when `i ≥ len(s)`. -/
def index (s : Bytes) (i : Nat) : Go UInt8 :=
  match s[i]? with
  | some b => .ok b
  | none => .panic

/-- The bytes of a big-endian 16-bit number (`binary.BigEndian.PutUint16`). -/
def be16 (v : UInt16) : Bytes := [UInt8.ofNat (v.toNat / 2^8), UInt8.ofNat v.toNat]

/-- The bytes of a big-endian 32-bit number (`binary.BigEndian.PutUint32`). -/
def be32 (v : UInt32) : Bytes :=
  [UInt8.ofNat (v.toNat / 2^24), UInt8.ofNat (v.toNat / 2^16),
   UInt8.ofNat (v.toNat / 2^8), UInt8.ofNat v.toNat]

/-- The bytes of a big-endian 64-bit number (`binary.BigEndian.PutUint64`). -/
def be64 (v : UInt64) : Bytes :=
  [UInt8.ofNat (v.toNat / 2^56), UInt8.ofNat (v.toNat / 2^48),
   UInt8.ofNat (v.toNat / 2^40), UInt8.ofNat (v.toNat / 2^32),
   UInt8.ofNat (v.toNat / 2^24), UInt8.ofNat (v.toNat / 2^16),
   UInt8.ofNat (v.toNat / 2^8), UInt8.ofNat v.toNat]

/-- The three low-order bytes, big-endian (`copy(dst, be32(v)[1:])`). -/
def be24 (v : UInt32) : Bytes :=
  [UInt8.ofNat (v.toNat / 2^16), UInt8.ofNat (v.toNat / 2^8), UInt8.ofNat v.toNat]

/-- Value of a byte string read as a big-endian number. -/
def beNat (s : Bytes) : Nat := s.foldl (fun a b => a * 256 + b.toNat) 0

/-- `binary.BigEndian.Uint16(s)` : panics when fewer than 2 bytes. -/
def getU16 : Bytes → Go UInt16
  | a :: b :: _ => .ok (UInt16.ofNat (beNat [a, b]))
  | _ => .panic

/-- `binary.BigEndian.Uint32(s)` : panics when fewer than 4 bytes. -/
def getU32 : Bytes → Go UInt32
  | a :: b :: c :: d :: _ => .ok (UInt32.ofNat (beNat [a, b, c, d]))
  | _ => .panic

/-- `binary.BigEndian.Uint64(s)` : panics when fewer than 8 bytes. -/
def getU64 : Bytes → Go UInt64
  | a :: b :: c :: d :: e :: f :: g :: h :: _ => .ok (UInt64.ofNat (beNat [a, b, c, d, e, f, g, h]))
  | _ => .panic

/-! ### Writing into a buffer

A buffer that is being filled is a pair (bytes already passed, bytes still ahead).
`payload = payload[n:]` moves `n` bytes from the second to the first component. -/

/-- Cursor into a buffer: `done ++ rest` is the whole buffer, `rest` the current slice. -/
structure Cur where
  done : Bytes
  rest : Bytes
  deriving Repr, DecidableEq

/-- `binary.PutUintXX(payload, v); payload = payload[len(w):]` and `payload[0] = b; payload =
payload[1:]`: panics if `w` does not fit. -/
def Cur.put (c : Cur) (w : Bytes) : Go Cur :=
  if w.length ≤ c.rest.length then .ok ⟨c.done ++ w, c.rest.drop w.length⟩ else .panic

/-- `copy(payload, w)` : copies `min(len(payload), len(w))` bytes, never panics, does not advance. -/
def Cur.copy (c : Cur) (w : Bytes) : Cur :=
  ⟨c.done, w.take c.rest.length ++ c.rest.drop w.length⟩

/-- `payload = payload[n:]`. -/
def Cur.skip (c : Cur) (n : Nat) : Go Cur :=
  if n ≤ c.rest.length then .ok ⟨c.done ++ c.rest.take n, c.rest.drop n⟩ else .panic

/-- The whole buffer. -/
def Cur.all (c : Cur) : Bytes := c.done ++ c.rest

/-! ### Lemmas -/

@[simp] theorem be16_length (v) : (be16 v).length = 2 := rfl
@[simp] theorem be24_length (v) : (be24 v).length = 3 := rfl
@[simp] theorem be32_length (v) : (be32 v).length = 4 := rfl
@[simp] theorem be64_length (v) : (be64 v).length = 8 := rfl

theorem beNat_be16 (v : UInt16) : beNat (be16 v) = v.toNat := by
  have := v.toNat_lt
  simp [beNat, be16, UInt8.toNat_ofNat']
  omega

theorem beNat_be24 (v : UInt32) : beNat (be24 v) = v.toNat % 2^24 := by
  have := v.toNat_lt
  simp [beNat, be24, UInt8.toNat_ofNat']
  omega

theorem beNat_be32 (v : UInt32) : beNat (be32 v) = v.toNat := by
  have := v.toNat_lt
  simp [beNat, be32, UInt8.toNat_ofNat']
  omega

theorem beNat_be64 (v : UInt64) : beNat (be64 v) = v.toNat := by
  have := v.toNat_lt
  simp [beNat, be64, UInt8.toNat_ofNat']
  omega

@[simp] theorem getU16_be16 (v : UInt16) (r : Bytes) : getU16 (be16 v ++ r) = .ok v := by
  have h := beNat_be16 v
  simp only [be16] at h ⊢
  simp only [List.cons_append, List.nil_append, getU16, h, UInt16.ofNat_toNat]

@[simp] theorem getU32_be32 (v : UInt32) (r : Bytes) : getU32 (be32 v ++ r) = .ok v := by
  have h := beNat_be32 v
  simp only [be32] at h ⊢
  simp only [List.cons_append, List.nil_append, getU32, h, UInt32.ofNat_toNat]

@[simp] theorem getU64_be64 (v : UInt64) (r : Bytes) : getU64 (be64 v ++ r) = .ok v := by
  have h := beNat_be64 v
  simp only [be64] at h ⊢
  simp only [List.cons_append, List.nil_append, getU64, h, UInt64.ofNat_toNat]

@[simp] theorem sliceFrom_append (a b : Bytes) : sliceFrom (a ++ b) a.length = .ok b := by
  simp [sliceFrom]

@[simp] theorem sliceTo_append (a b : Bytes) : sliceTo (a ++ b) a.length = .ok a := by
  simp [sliceTo]

theorem sliceFrom_append' (a b : Bytes) (n : Nat) (h : n = a.length) :
    sliceFrom (a ++ b) n = .ok b := by subst h; simp

theorem sliceTo_append' (a b : Bytes) (n : Nat) (h : n = a.length) :
    sliceTo (a ++ b) n = .ok a := by subst h; simp

theorem Cur.put_append (d w r : Bytes) (h : w.length ≤ r.length) :
    Cur.put ⟨d, r⟩ w = .ok ⟨d ++ w, r.drop w.length⟩ := by simp [Cur.put, h]

end Verif
