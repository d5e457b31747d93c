import Verif.Base.Go
/-
Model of transport/rsocket/decoder.go and of the `bufio.Scanner` below it.

`bufio.Scanner` is part of the Go standard library; its `Scan` loop is modelled statement by
statement, with the buffer as memory, because the frames handed out are slices of it.
-/
set_option autoImplicit false
namespace Verif.Scanner
open Verif

/-- What the connection has for `Read(p)`: a piece of data (handed out in parts if `p` is
shorter), data together with the end of the stream (which `io.Reader` allows), the end alone, or
another error. No event at all: `Read` blocks. -/
inductive Ev where
  | data (b : Bytes)
  | dataEof (b : Bytes)
  | eof
  | fail (e : String)
  deriving Repr, DecidableEq

/-- `io.EOF` as recorded in `Scanner.err`. -/
def eofErr : String := "EOF"

/-- `bufio.Scanner`: the current buffer, the unread part `buf[start:end]`, the recorded
error, and the buffers used before the current one (frames handed out earlier may still point there). -/
structure Scn where
  old : List Bytes
  buf : Bytes
  start : Nat
  stop : Nat
  err : Option String
  deriving Repr, DecidableEq

/-- A slice handed out: number of the buffer, offset, length. -/
structure View where
  gen : Nat
  off : Nat
  len : Nat
  deriving Repr, DecidableEq

/-- The bytes a slice shows at the moment. -/
def Scn.look (s : Scn) (v : View) : Bytes :=
  (((s.old ++ [s.buf]).getD v.gen []).drop v.off).take v.len

/-- `s.buf[s.start:s.end]`. -/
def Scn.data (s : Scn) : Bytes := (s.buf.drop s.start).take (s.stop - s.start)

/-- decoder.go 13-17. -/
def minBuffSize : Nat := 8 * 1024
def maxBuffSize : Nat := 16 * 1024 * 1024 + 3

/-- decoder.go 63-70. -/
def new : Scn := ⟨[], List.replicate minBuffSize 0, 0, 0, none⟩

/-- u24.ReadUint24ToInt (u24.go 84-87) on at least three bytes. -/
def frameLength (d : Bytes) : Nat := beNat (d.take 3)

/-- decoder.go 45-62 `doSplit`: `none` is an error, `some 0` is "no token", `some n` a token of `n`
bytes (which is also how far to advance). -/
def doSplit (d : Bytes) (eof : Bool) : Option Nat :=
  if eof then some 0
  else if d.length < 3 then some 0
  else if frameLength d < 1 then none
  else if frameLength d + 3 ≤ d.length then some (frameLength d + 3)
  else some 0

/-- bufio `setErr`. -/
def Scn.setErr (s : Scn) (e : String) : Scn :=
  if s.err = none ∨ s.err = some eofErr then { s with err := some e } else s

/-- First part of "must read more data": `copy(s.buf, s.buf[s.start:s.end])`. -/
def Scn.shift (s : Scn) : Scn :=
  if s.start > 0 ∧ (s.stop = s.buf.length ∨ s.start > s.buf.length / 2) then
    { s with buf := s.data ++ s.buf.drop s.data.length, stop := s.stop - s.start, start := 0 }
  else s

/-- Second part: a full buffer is replaced by one of twice the size; `none` is `ErrTooLong`. -/
def Scn.grow (s : Scn) : Option Scn :=
  if s.stop = s.buf.length then
    if s.buf.length ≥ maxBuffSize then none
    else some { s with
      old := s.old ++ [s.buf]
      buf := s.data ++ List.replicate (min (s.buf.length * 2) maxBuffSize - s.data.length) 0
      stop := s.stop - s.start
      start := 0 }
  else some s

/-- The bytes `w` arrive in `s.buf[s.end:]`. -/
def Scn.write (s : Scn) (w : Bytes) : Scn :=
  { s with buf := s.buf.take s.stop ++ w ++ s.buf.drop (s.stop + w.length), stop := s.stop + w.length }

/-- Third part: `s.r.Read(s.buf[s.end:len(s.buf)])`, repeated while it returns nothing, at most
100 times (there is room, see `grow`). `none`: blocked. -/
def Scn.more (s : Scn) (loop : Nat) : List Ev → Option (Scn × List Ev)
  | [] => none
  | .data b :: es =>
    if b.length ≤ s.buf.length - s.stop then
      if b = [] then
        if loop + 1 > 100 then some (s.setErr "multiple Read calls return no data or error", es)
        else s.more (loop + 1) es
      else some (s.write b, es)
    else some (s.write (b.take (s.buf.length - s.stop)), .data (b.drop (s.buf.length - s.stop)) :: es)
  | .dataEof b :: es =>
    if b.length ≤ s.buf.length - s.stop then some ((s.write b).setErr eofErr, es)
    else some (s.write (b.take (s.buf.length - s.stop)), .dataEof (b.drop (s.buf.length - s.stop)) :: es)
  | .eof :: es => some (s.setErr eofErr, es)
  | .fail e :: es => some (s.setErr e, es)

/-- Result of `Scan`: a token, false, or no return. -/
inductive Res where
  | token (v : View)
  | done
  | blocked
  deriving Repr, DecidableEq

/-- `Scan`; the first argument bounds the number of rounds. -/
def scan : Nat → Scn → List Ev → Option (Scn × List Ev × Res)
  | 0, _, _ => none
  | f + 1, s, es =>
    let split := if s.stop > s.start ∨ s.err ≠ none then doSplit s.data (s.err != none) else some 0
    match split with
    | none => some (s.setErr "rsocket: invalid frame length", es, .done)
    | some (n + 1) =>
      some ({ s with start := s.start + (n + 1) }, es, .token ⟨s.old.length, s.start, n + 1⟩)
    | some 0 =>
      if s.err ≠ none then some ({ s with start := 0, stop := 0 }, es, .done)
      else match s.shift.grow with
        | none => some (s.shift.setErr "bufio.Scanner: token too long", es, .done)
        | some s' =>
          match s'.more 0 es with
          | none => some (s', es, .blocked)
          | some (s', es') => scan f s' es'

/-- misc.go 8-19 (`http.ErrServerClosed` cannot come from a connection). -/
def isClosedErr (e : String) : Bool :=
  decide ("use of closed network connection".toList <:+: e.toList)

/-- What stopped the receiver. -/
inductive End where
  | eof
  | err (e : String)
  | blocked
  deriving Repr, DecidableEq

/-- decoder.go 28-43 `Read`: the frame (without the length), or why there is none. -/
def read (f : Nat) (s : Scn) (es : List Ev) : Option (Scn × List Ev × Sum View End) :=
  match scan f s es with
  | none => none
  | some (s, es, .blocked) => some (s, es, .inr .blocked)
  | some (s, es, .done) =>
    match s.err with
    | none => some (s, es, .inr .eof)
    | some e => some (s, es, .inr (if e = eofErr ∨ isClosedErr e then .eof else .err e))
  | some (s, es, .token v) =>
    if v.len - 3 < 6 then some (s, es, .inr (.err "incomplete frame header"))
    else some (s, es, .inl ⟨v.gen, v.off + 3, v.len - 3⟩)

/-- A receiver that keeps calling `Read` (transport.go 217-236): the frames, each with the bytes it
showed when it was returned, and what stopped the receiver. -/
def readAll : Nat → Scn → List Ev → Option (List (View × Bytes) × End × Scn)
  | 0, _, _ => none
  | f + 1, s, es =>
    match read (f + 1) s es with
    | none => none
    | some (s, _, .inr e) => some ([], e, s)
    | some (s, es, .inl v) =>
      match readAll f s es with
      | none => none
      | some (l, e, s') => some ((v, s.look v) :: l, e, s')

end Verif.Scanner
