import Verif.Model.Typed
import Verif.Model.Invoke
import Verif.Model.FluxProc
/-
Model of the generated handlers of components and of the components themselves: transport/wasmrs/example/concat,
transport/wasmrs/example/greeter and transport/wasmrs/example/wordfrequency. A component is a channel operation; the
metadata of each payload (`PortIO`) says which of its ports it is for. The handler returns `flux.Create(f)`; `f` is called when the
output is subscribed to, with the sink of that subscription. What the handler calls on the sink is a trace of `SinkOp`; the sink
takes no notice of what comes after Complete or Error (C26). Guests run on one thread, so the callbacks of the input run one after the other.
-/
set_option autoImplicit false
namespace Verif.Components
open Verif Msgpack Invoke Typed
open Verif.Handler (Pay)

/-- What is called on the sink of the output. -/
inductive SinkOp
  | next (p : Pay)
  | complete
  | error (e : String)
  deriving Repr, DecidableEq

/-! ## Components with one mono in and one out

transport/wasmrs/example/concat/generated.go 36-101 and transport/wasmrs/example/greeter/generated.go 35-99 differ in what is given here. -/

/-- The names of the ports, how the data of a payload for the input is decoded (`none`: a panic), what the component answers
to the value, and whether it installs OnError. -/
structure MonoComp (α : Type) where
  inPort : Bytes
  outPort : Bytes
  decode : Bytes → Option (Except String α)
  process : α → Bytes
  onError : Bool

/-- concat/generated.go 85-97, transform.go 321-324 `CodecDecode`; concat/concat.go 9-18. The argument bounds the recursion of `Skip`. -/
def concatComp (fuel : Nat) : MonoComp Strings :=
  ⟨ascii "strings", ascii "value", decodeRequest fuel Strings.field ⟨[], []⟩, fun s => s.left ++ ascii " " ++ s.right, true⟩

/-- transform.go 22-26 `String.Decode`. -/
def stringDecode (d : Bytes) : Option (Except String Bytes) :=
  match Transform.string.decode d with
  | .ok s _ => some (.ok s)
  | .fail e _ => some (.error e)
  | .panic => none

/-- greeter/generated.go 84-95; greeter/greeter.go 9-15. -/
def greeterComp : MonoComp Bytes :=
  ⟨ascii "name", ascii "message", stringDecode, fun name => ascii "Hello, " ++ name, false⟩

/-- concat/generated.go 38-41: the two processors and the counter. -/
structure MonoSt (α : Type) where
  input : Mono.Proc α
  output : Mono.Proc Bytes
  finalized : Nat

section
variable {α : Type}

/-- concat/generated.go 37-76: until the input is subscribed to. The handler subscribes to the output, then `Process` subscribes to
the input. -/
def MonoComp.start (c : MonoComp α) : MonoSt α :=
  ⟨(Mono.Proc.init.step (.subscribe ⟨true, c.onError, false⟩)).1, (Mono.Proc.init.step (.subscribe ⟨true, false, true⟩)).1, 0⟩

/-- concat/generated.go 41-46, 49-64: the callbacks on the output. -/
def MonoComp.outputEv (c : MonoComp α) (s : MonoSt α) : Mono.Ev Bytes → Go (MonoSt α × List SinkOp)
  | .success _ v =>
    match encodeString ⟨v, []⟩ with
    | .error e => .ok (s, [.error e])
    | .ok p => do
      let md ← PortIO.encode ⟨c.outPort, [], true, true⟩
      .ok (s, [.next ⟨p.data, md⟩])
  | .fin _ _ =>
    let n := s.finalized + 1
    .ok ({ s with finalized := n }, if n = 1 then [.complete] else [])
  | _ => .ok (s, [])

def MonoComp.outputEvs (c : MonoComp α) (s : MonoSt α) : List (Mono.Ev Bytes) → Go (MonoSt α × List SinkOp)
  | [] => .ok (s, [])
  | e :: es => do
    let (s, o1) ← c.outputEv s e
    let (s, o2) ← c.outputEvs s es
    .ok (s, o1 ++ o2)

/-- concat/concat.go 9-18, greeter/greeter.go 9-15: the callbacks on the input. -/
def MonoComp.inputEv (c : MonoComp α) (s : MonoSt α) : Mono.Ev α → Go (MonoSt α × List SinkOp)
  | .success _ a =>
    let r := s.output.step (.success (c.process a))
    c.outputEvs { s with output := r.1 } r.2
  | .error _ e =>
    let r := s.output.step (.error e)
    c.outputEvs { s with output := r.1 } r.2
  | _ => .ok (s, [])

def MonoComp.inputEvs (c : MonoComp α) (s : MonoSt α) : List (Mono.Ev α) → Go (MonoSt α × List SinkOp)
  | [] => .ok (s, [])
  | e :: es => do
    let (s, o1) ← c.inputEv s e
    let (s, o2) ← c.inputEvs s es
    .ok (s, o1 ++ o2)

/-- concat/generated.go 79-99: OnNext of the input. No other callback is installed. -/
def MonoComp.onNext (c : MonoComp α) (s : MonoSt α) (p : Pay) : Go (MonoSt α × List SinkOp) := do
  let port ← PortIO.decode p.metadata
  if port.port = c.inPort ∧ port.next = true then
    match c.decode p.data with
    | none => .panic
    | some (.error e) => .ok (s, [.error e])
    | some (.ok a) =>
      let r := s.input.step (.success a)
      c.inputEvs { s with input := r.1 } r.2
  else .ok (s, [])

/-- The payloads of the input, one after the other. -/
def MonoComp.runFrom (c : MonoComp α) (s : MonoSt α) : List Pay → Go (MonoSt α × List SinkOp)
  | [] => .ok (s, [])
  | p :: ps => do
    let (s, o1) ← c.onNext s p
    let (s, o2) ← c.runFrom s ps
    .ok (s, o1 ++ o2)

/-- What the handler calls on its sink, given the payloads of the input. -/
def MonoComp.run (c : MonoComp α) (ps : List Pay) : Go (List SinkOp) := do
  let (_, o) ← c.runFrom c.start ps
  .ok o

end

/-- transport/wasmrs/cmd/fbp/host/main.go 29-43: what the host passes on to the input of the second component when the first one says `p`. -/
def forward (fromPort toPort : Bytes) (p : Pay) : Go (List Pay) := do
  let port ← PortIO.decode p.metadata
  if port.port = fromPort then do
    let md ← PortIO.encode { port with port := toPort }
    .ok [⟨p.data, md⟩]
  else .ok []

/-- The same for all that the first component says. Only OnNext is installed. -/
def forwardAll (fromPort toPort : Bytes) : List SinkOp → Go (List Pay)
  | [] => .ok []
  | .next p :: l => do
    let a ← forward fromPort toPort p
    let b ← forwardAll fromPort toPort l
    .ok (a ++ b)
  | _ :: l => forwardAll fromPort toPort l

/-! ## WordFrequency (transport/wasmrs/example/wordfrequency) -/

/-- What the component uses of Go's library: `strings.ToLower`, and the list that `makeWordCounts` (wordfrequency.go 33-44) makes of the
map: it goes through the map in some order and sorts (`sort.Sort`). -/
structure WordLib where
  lower : Bytes → Bytes
  order : List WordCount → List WordCount

/-- wordfrequency.go 59-71 `ignoredWords`. -/
def ignoredWords : List Bytes :=
  ["i", "the", "and", "to", "of", "a", "my", "in", "you", "is", "that"].map ascii

/-- wordfrequency.go 19: `counts[word] = counts[word] + 1`, on a list of the pairs in the map. -/
def countWord (word : Bytes) : List WordCount → List WordCount
  | [] => [⟨word, 1⟩]
  | x :: l => if x.word = word then ⟨word, x.count + 1⟩ :: l else x :: countWord word l

/-- The two processors (generated.go 38-39), the map (wordfrequency.go 12) and the counter (generated.go 43). -/
structure WordSt where
  words : Flux.Proc
  counts : Flux.Proc
  map : List WordCount
  finalized : Nat

/-- generated.go 36-88: the counts are subscribed to, then `Process` (wordfrequency.go 11-31) subscribes to the words. The subscriber of
the counts leaves it to the library how many it asks for. -/
def WordSt.start (sub : Flux.Installed) : WordSt :=
  ⟨(Flux.Proc.init.step (T := Bytes) (.subscribe ⟨true, true, false, false, false, false⟩ [])).1,
    (Flux.Proc.init.step (T := WordCount) (.subscribe { sub with onRequest := false, noRequest := false } [])).1, [], 0⟩

/-- What `SliceResponse` calls on its sink, the processor. -/
def pushOf : Flux.SinkCall WordCount → Flux.POp WordCount
  | .next v => .next v [] []
  | .complete => .complete []

/-- wordfrequency.go 24-28: `SliceResponse` has been asked for `n` elements (flux_webassembly.go 11-13). Its sink is the processor. What
the subscriber asks for after 2^31-1 of them is left out. -/
def WordSt.respond (s : WordSt) (wc : List WordCount) (n : Int) : Go (WordSt × List (Flux.Ev WordCount)) := do
  let (_, out) ← Flux.sliceResponse wc n
  let r := s.counts.runFrom (out.map pushOf)
  .ok ({ s with counts := r.1 }, r.2.map Prod.snd)

def WordSt.responds (s : WordSt) (wc : List WordCount) : List (Flux.Ev WordCount) → Go (WordSt × List (Flux.Ev WordCount))
  | [] => .ok (s, [])
  | .upRequest n :: es => do
    let (s, o1) ← s.respond wc n
    let (s, o2) ← s.responds wc es
    .ok (s, o1 ++ o2)
  | e :: es => do
    let (s, o) ← s.responds wc es
    .ok (s, e :: o)

/-- wordfrequency.go 14-30: the callbacks on the words. The events are those of the counts. -/
def WordSt.wordsEv (lib : WordLib) (s : WordSt) : Flux.Ev Bytes → Go (WordSt × List (Flux.Ev WordCount))
  | .next word =>
    let word := lib.lower word
    if word ∈ ignoredWords then .ok (s, []) else .ok ({ s with map := countWord word s.map }, [])
  | .complete =>
    let r := s.counts.step (T := WordCount) (.onSubscribe false)
    ({ s with counts := r.1 } : WordSt).responds (lib.order s.map) (r.2.map Prod.snd)
  | _ => .ok (s, [])

def WordSt.wordsEvs (lib : WordLib) (s : WordSt) : List (Flux.Ev Bytes) → Go (WordSt × List (Flux.Ev WordCount))
  | [] => .ok (s, [])
  | e :: es => do
    let (s, o1) ← s.wordsEv lib e
    let (s, o2) ← s.wordsEvs lib es
    .ok (s, o1 ++ o2)

/-- Something is called on the processor of the words. -/
def WordSt.push (lib : WordLib) (s : WordSt) (op : Flux.POp Bytes) : Go (WordSt × List (Flux.Ev WordCount)) :=
  let r := s.words.step op
  ({ s with words := r.1 } : WordSt).wordsEvs lib (r.2.map Prod.snd)

def WordSt.pushAll (lib : WordLib) (s : WordSt) : List (Flux.POp Bytes) → Go (WordSt × List (Flux.Ev WordCount))
  | [] => .ok (s, [])
  | op :: ops => do
    let (s, o1) ← s.push lib op
    let (s, o2) ← s.pushAll lib ops
    .ok (s, o1 ++ o2)

/-- One word after the other, then Complete, as in cmd/wordfrequncy/main.go 66-87. Gives what happens to the subscriber of the counts. -/
def countWords (lib : WordLib) (sub : Flux.Installed) (words : List Bytes) : Go (List (Flux.Ev WordCount)) := do
  let (_, es) ← (WordSt.start sub).pushAll lib (words.map (fun w => .next w [] []) ++ [.complete []])
  .ok es

/-- generated.go 43-49, 53-76: the handler's callbacks on the counts. -/
def WordSt.countsEv (s : WordSt) : Flux.Ev WordCount → Go (WordSt × List SinkOp)
  | .next wc => do
    let data ← toBytes (WordCount.encode (some wc))
    let md ← PortIO.encode ⟨ascii "counts", [], false, true⟩
    .ok (s, [.next ⟨data, md⟩])
  | .complete => do
    let md ← PortIO.encode ⟨ascii "counts", [], true, false⟩
    .ok (s, [.next ⟨[], md⟩])
  | .fin _ =>
    let n := s.finalized + 1
    .ok ({ s with finalized := n }, if n = 1 then [.complete] else [])
  | _ => .ok (s, [])

def WordSt.countsEvs (s : WordSt) : List (Flux.Ev WordCount) → Go (WordSt × List SinkOp)
  | [] => .ok (s, [])
  | e :: es => do
    let (s, o1) ← s.countsEv e
    let (s, o2) ← s.countsEvs es
    .ok (s, o1 ++ o2)

/-- Something is called on the processor of the words by the handler. -/
def WordSt.handlerPush (lib : WordLib) (s : WordSt) (op : Flux.POp Bytes) : Go (WordSt × List SinkOp) := do
  let (s, es) ← s.push lib op
  s.countsEvs es

/-- What the input of the handler says. It has no OnError. -/
inductive WordIn
  | next (p : Pay)
  | complete

/-- generated.go 90-117: the handler's callbacks on the input. -/
def WordSt.onIn (lib : WordLib) (s : WordSt) : WordIn → Go (WordSt × List SinkOp)
  | .next p => do
    let port ← PortIO.decode p.metadata
    if port.port = ascii "words" then
      let next : Go (WordSt × List SinkOp × Bool) :=
        if port.next then
          match stringDecode p.data with
          | none => .panic
          | some (.error e) => .ok (s, [.error e], true)
          | some (.ok word) => do
            let (s, o) ← s.handlerPush lib (.next word [] [])
            .ok (s, o, false)
        else .ok (s, [], false)
      let (s, o1, failed) ← next
      if failed then .ok (s, o1)
      else if port.complete then do
        let (s, o2) ← s.handlerPush lib (.complete [])
        .ok (s, o1 ++ o2)
      else .ok (s, o1)
    else .ok (s, [])
  | .complete => s.handlerPush lib (.complete [])

def WordSt.runFrom (lib : WordLib) (s : WordSt) : List WordIn → Go (WordSt × List SinkOp)
  | [] => .ok (s, [])
  | i :: is => do
    let (s, o1) ← s.onIn lib i
    let (s, o2) ← s.runFrom lib is
    .ok (s, o1 ++ o2)

/-- What the handler calls on its sink, given what the input says. -/
def wordHandler (lib : WordLib) (is : List WordIn) : Go (List SinkOp) := do
  let (_, o) ← (WordSt.start ⟨true, true, false, false, true, false⟩).runFrom lib is
  .ok o

end Verif.Components
