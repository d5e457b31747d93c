import Verif.Model.Unbounded
/-
Model of transport/rsocket: sending (transport.go `Send`, tcp_conn.go `Write`, `Flush`) and the
two goroutines of a running connection (transport.go `Start`, `loopReadBuffer`).
-/
set_option autoImplicit false
namespace Verif.Transport
open Verif

/-! ## Sending -/

/-- tcp_conn.go 141-146: the `bufio.Writer` of a connection (standard library) and the bytes that
went out so far. Network errors are not modelled. -/
structure Writer where
  buf : Bytes
  out : Bytes
  deriving Repr, DecidableEq

/-- tcp_conn.go 144: the size of the buffer. -/
def bufSize : Nat := 8192

/-- `bufio.Writer.Flush`. -/
def Writer.flush (w : Writer) : Writer := ⟨[], w.out ++ w.buf⟩

/-- `bufio.Writer.Write`: fill and flush while `p` does not fit; what does not fit into the empty
buffer goes out directly. -/
def Writer.write (w : Writer) (p : Bytes) : Writer :=
  if p.length ≤ bufSize - w.buf.length then ⟨w.buf ++ p, w.out⟩
  else if w.buf = [] then ⟨[], w.out ++ p⟩
  else if (p.drop (bufSize - w.buf.length)).length ≤ bufSize then
    ⟨p.drop (bufSize - w.buf.length), w.out ++ w.buf ++ p.take (bufSize - w.buf.length)⟩
  else ⟨[], w.out ++ w.buf ++ p⟩

/-- Where a sending goroutine is: not sending, or the length of the frame `f` was written
(tcp_conn.go 107), or the frame was written as well (116) and is to be flushed (transport.go 118). -/
inductive Stage where
  | idle
  | length (f : Bytes)
  | flush
  deriving Repr, DecidableEq

/-- A goroutine that sends the frames `todo` (their encodings), one after the other. -/
structure Sender where
  stage : Stage
  todo : List Bytes
  deriving Repr, DecidableEq

/-- A connection and the goroutines sending on it. -/
structure Net where
  w : Writer
  senders : List Sender
  deriving Repr, DecidableEq

/-- One step of a sender: the three statements that touch the writer (tcp_conn.go 107 and 116,
transport.go 118). There is no lock, so other senders may run in between; each statement itself is
taken to be atomic (in Go even that is not guaranteed). -/
def send (w : Writer) (s : Sender) : Writer × Sender :=
  match s.stage, s.todo with
  | .idle, [] => (w, s)
  | .idle, f :: fs => (w.write (be24 (UInt32.ofNat f.length)), ⟨.length f, fs⟩)
  | .length f, fs => (w.write f, ⟨.flush, fs⟩)
  | .flush, fs => (w.flush, ⟨.idle, fs⟩)

/-- Sender number `i` runs. -/
def Net.step (n : Net) (i : Nat) : Net :=
  match n.senders[i]? with
  | none => n
  | some s => ⟨(send n.w s).1, n.senders.set i (send n.w s).2⟩

/-- A schedule: which sender runs next. -/
def Net.run (n : Net) : List Nat → Net
  | [] => n
  | i :: is => (n.step i).run is

/-- A fresh connection with goroutines that want to send these frames. -/
def Net.init (frames : List (List Bytes)) : Net := ⟨⟨[], []⟩, frames.map (⟨.idle, ·⟩)⟩

/-! ## Receiving -/

variable {α : Type}

/-- Where `Start` is: before the first read (transport.go 142 and 199), reading the first frame
(146), at the `select` (215), in `conn.Read` (221), before the deferred `Dispose` (191), before
`<-done` (193), returned. -/
inductive RPhase where
  | first
  | readingFirst
  | select
  | reading
  | dispose
  | wait
  | returned
  deriving Repr, DecidableEq

/-- Where `loopReadBuffer` is: at the receive (162), before `Load` (171), finished. -/
inductive HPhase where
  | recv
  | load
  | finished
  deriving Repr, DecidableEq

/-- A running connection: the queue, both goroutines, whether an error waits in `errChan` (capacity
1), whether the context is cancelled, the frames the peer will send, the frames read so far, and
the frames handed to `HandleFrame` so far. -/
structure Conn (α : Type) where
  q : Unbounded.St α
  r : RPhase
  h : HPhase
  errCh : Bool
  ctx : Bool
  input : List α
  got : List α
  handled : List α

/-- What happens next: the context is cancelled; `Start` runs (`fail`: whether `HandleFrame` on
the setup frame returns an error); `conn.Read` ends with an error or `io.EOF`; `loopReadBuffer`
runs (`fail`: what `HandleFrame` returns). -/
inductive Ev where
  | cancel
  | reader (fail : Bool)
  | readEnd
  | handler (fail : Bool)
  deriving Repr, DecidableEq

/-- transport.go 178-232 `Start`, one step (nothing happens while it is blocked). -/
def readerStep (isSetup : α → Bool) (c : Conn α) (fail : Bool) : Go (Conn α) :=
  match c.r with
  | .first => .ok { c with r := if c.ctx then .dispose else .readingFirst }
  | .readingFirst =>
    match c.input with
    | [] => .ok c
    | f :: fs =>
      if isSetup f then
        .ok { c with input := fs, got := c.got ++ [f], handled := c.handled ++ [f]
                     r := if fail then .dispose else .select }
      else .ok { c with input := fs, got := c.got ++ [f], r := .dispose }
  | .select => .ok { c with r := if c.ctx || c.errCh then .dispose else .reading }
  | .reading =>
    match c.input with
    | [] => .ok c
    | f :: fs => do
      let (q, _) ← Unbounded.put c.q f
      .ok { c with q := q, input := fs, got := c.got ++ [f], r := .select }
  | .dispose => .ok { c with q := Unbounded.dispose c.q, r := .wait }
  | .wait => .ok { c with r := if c.h = .finished then .returned else .wait }
  | .returned => .ok c

/-- transport.go 157-175 `loopReadBuffer`, one step; an error goes to `errChan` if there is room. -/
def handlerStep (c : Conn α) (fail : Bool) : Go (Conn α) :=
  match c.h with
  | .recv =>
    match Unbounded.recv c.q with
    | (q, .val f) => .ok { c with q := q, handled := c.handled ++ [f], errCh := c.errCh || fail, h := .load }
    | (_, .closed) => .ok { c with h := .finished }
    | (_, .wait) => .ok c
  | .load => do
    let (q, _) ← Unbounded.load c.q
    .ok { c with q := q, h := .recv }
  | .finished => .ok c

/-- One step. -/
def Conn.step (isSetup : α → Bool) (c : Conn α) : Ev → Go (Conn α)
  | .cancel => .ok { c with ctx := true }
  | .reader fail => readerStep isSetup c fail
  | .readEnd =>
    match c.r with
    | .readingFirst => .ok { c with r := .dispose }
    | .reading => .ok { c with r := .dispose }
    | _ => .ok c
  | .handler fail => handlerStep c fail

/-- A sequence of steps. -/
def Conn.run (isSetup : α → Bool) (c : Conn α) : List Ev → Go (Conn α)
  | [] => .ok c
  | e :: es => do
    let c ← c.step isSetup e
    c.run isSetup es

/-- transport.go 183-198: a connection on which the peer will send `input`; a client does not wait
for a setup frame. -/
def Conn.init (server : Bool) (input : List α) : Conn α :=
  ⟨Unbounded.init, if server then .first else .select, .recv, false, false, input, [], []⟩

end Verif.Transport
