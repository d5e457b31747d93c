import Verif.Props.TypedCalls
import Verif.Model.Components
/-
Property C117: components with one input and one output value.
-/
set_option autoImplicit false
namespace Verif.Props
open Verif Spec Handler Msgpack Typed Invoke
open Verif.Components (MonoComp MonoSt SinkOp)

/-! ## Specification -/

/-- A payload on the input or the output of a component: for (or from) which port it is, whether it brings a value, whether it is
the last one. -/
structure Packet where
  port : Bytes
  next : Bool
  complete : Bool
  data : Bytes
  deriving Repr, DecidableEq

/-- The payload whose metadata `PortIO.Encode` writes (C19). -/
def Packet.pay (k : Packet) : Pay := ⟨k.data, portWire ⟨k.port, [], k.complete, k.next⟩⟩

/-- The name has a 16-bit length. -/
def Packet.fits (k : Packet) : Prop := k.port.length < 2 ^ 16

instance (k : Packet) : Decidable k.fits := inferInstanceAs (Decidable (_ < _))

/-- The data of the first value for the port. -/
def firstValue (port : Bytes) (ks : List Packet) : Option Bytes :=
  (ks.find? fun k => k.port = port ∧ k.next = true).map (·.data)

/-- What a subscriber of the output sees of the calls on its sink: what comes after Complete or Error is without effect (C26). -/
def seenOfSink : List SinkOp → List SinkOp
  | [] => []
  | .next p :: l => .next p :: seenOfSink l
  | x :: _ => [x]

/-- The output with this one value. -/
def oneValue (port : Bytes) (s : Bytes) : List SinkOp := [.next (Packet.pay ⟨port, true, true, str s⟩), .complete]

/-- C117, what the subscriber of a component is to see: nothing without a value on the input; the error, if the first value is not
understood; otherwise what `f` makes of it, on the output port, and the end. -/
def componentSees {α : Type} (decode : Bytes → Option (Except String α)) (f : α → Bytes) (inPort outPort : Bytes)
    (ks : List Packet) : List SinkOp :=
  match firstValue inPort ks with
  | none => []
  | some d => match decode d with
    | some (.ok a) => oneValue outPort (f a)
    | some (.error e) => [.error e]
    | none => []

/-! ## Proof -/

section
variable {α : Type}

theorem encodeString_str (s : Bytes) (h : (str s).length < 2 ^ 32) : encodeString ⟨s, []⟩ = .ok ⟨str s, []⟩ := by
  have hs' : Sized (writeCalls [.str s]) (Sizer.writeCalls [.str s]) (str s) := by
    refine ⟨writes_one (sized_str s h).1, fun x => ?_⟩
    rw [← (sized_str s h).2 x]
    rfl
  have h1 : Transform.string.encode s = .ok (str s) := (toBytes_of_sized hs' h).2.1
  simp only [encodeString, h1]

theorem decodeString_str (s : Bytes) (h : (str s).length < 2 ^ 32) : decodeString ⟨str s, []⟩ = .ok s := by
  obtain ⟨w, h1, h2⟩ := string_coded s [] [] h
  rw [encodeString_str s h] at h1
  cases h1
  exact h2

theorem stringDecode_str (s : Bytes) (h : (str s).length < 2 ^ 32) : Components.stringDecode (str s) = some (.ok s) := by
  have h1 := decodeString_str s h
  simp only [decodeString] at h1
  simp only [Components.stringDecode]
  split at h1 <;> simp_all

/-- The input has got its value. -/
def InputOver (s : MonoSt α) : Prop := ∀ a, s.input.step (.success a) = (s.input, [])

/-- Where the metadata is understood and the data does not crash the decoder. -/
theorem onNext_over (c : MonoComp α) (s : MonoSt α) (h : InputOver s) (k : Packet) (hk : k.fits)
    (hd : k.port = c.inPort → c.decode k.data ≠ none) :
    ∃ o, c.onNext s k.pay = .ok (s, o) := by
  simp only [MonoComp.onNext, Packet.pay, port_decode ⟨k.port, [], k.complete, k.next⟩ hk, Go.bind_ok]
  split
  · rename_i hp
    cases hc : c.decode k.data with
    | none => exact absurd hc (hd hp.1)
    | some r =>
      cases r with
      | error e => exact ⟨_, rfl⟩
      | ok a => dsimp only; rw [h a]; exact ⟨_, rfl⟩
  · exact ⟨_, rfl⟩

theorem runFrom_over (c : MonoComp α) (s : MonoSt α) (h : InputOver s) (ks : List Packet) (hk : ∀ k ∈ ks, k.fits)
    (hd : ∀ k ∈ ks, k.port = c.inPort → c.decode k.data ≠ none) :
    ∃ o, c.runFrom s (ks.map Packet.pay) = .ok (s, o) := by
  induction ks with
  | nil => exact ⟨_, rfl⟩
  | cons k ks ih =>
    obtain ⟨o1, h1⟩ := onNext_over c s h k (hk k (by simp)) (hd k (by simp))
    obtain ⟨o2, h2⟩ := ih (fun x hx => hk x (by simp [hx])) (fun x hx => hd x (by simp [hx]))
    simp only [List.map_cons, MonoComp.runFrom, h1, h2, Go.bind_ok]
    exact ⟨_, rfl⟩

theorem start_input (c : MonoComp α) (a : α) : (c.start.input.step (.success a)).2 = [.success 0 a] := by
  cases c; rfl

theorem start_output (c : MonoComp α) (v : Bytes) : (c.start.output.step (.success v)).2 = [.success 0 v, .fin 0 .complete] := by
  cases c; rfl

theorem start_over (c : MonoComp α) (a b : α) : ((c.start.input.step (.success a)).1).step (.success b) =
    ((c.start.input.step (.success a)).1, []) := by
  cases c; rfl

/-- The first value. -/
theorem input_first (c : MonoComp α) (a : α) (hs : (str (c.process a)).length < 2 ^ 32) (ho : c.outPort.length < 2 ^ 16) :
    ∃ s, InputOver s ∧ c.inputEvs { c.start with input := (c.start.input.step (.success a)).1 } (c.start.input.step (.success a)).2 =
      .ok (s, oneValue c.outPort (c.process a)) := by
  have h1 := encodeString_str _ hs
  have h2 := port_encode ⟨c.outPort, [], true, true⟩ ho
  rw [start_input]
  have h3 := start_output c (c.process a)
  refine ⟨⟨(c.start.input.step (.success a)).1, (c.start.output.step (.success (c.process a))).1, 1⟩, start_over c a, ?_⟩
  simp only [MonoComp.inputEvs, MonoComp.inputEv, h3, MonoComp.outputEvs, MonoComp.outputEv, h1, h2, Go.bind_ok]
  rfl

/-- The first value, however long the answer. -/
theorem input_total (c : MonoComp α) (a : α) (ho : c.outPort.length < 2 ^ 16) :
    ∃ s o, InputOver s ∧ c.inputEvs { c.start with input := (c.start.input.step (.success a)).1 } (c.start.input.step (.success a)).2 =
      .ok (s, o) := by
  have h2 := port_encode ⟨c.outPort, [], true, true⟩ ho
  rw [start_input]
  have h3 := start_output c (c.process a)
  refine ⟨⟨(c.start.input.step (.success a)).1, (c.start.output.step (.success (c.process a))).1, 1⟩, ?_⟩
  cases h1 : encodeString ⟨c.process a, []⟩ with
  | ok p =>
    refine ⟨[.next ⟨p.data, portWire ⟨c.outPort, [], true, true⟩⟩, .complete], start_over c a, ?_⟩
    simp only [MonoComp.inputEvs, MonoComp.inputEv, h3, MonoComp.outputEvs, MonoComp.outputEv, h1, h2, Go.bind_ok]
    rfl
  | error e =>
    refine ⟨[.error e, .complete], start_over c a, ?_⟩
    simp only [MonoComp.inputEvs, MonoComp.inputEv, h3, MonoComp.outputEvs, MonoComp.outputEv, h1, Go.bind_ok]
    rfl

theorem runFrom_total (c : MonoComp α) (ho : c.outPort.length < 2 ^ 16) (ks : List Packet) (hk : ∀ k ∈ ks, k.fits)
    (hd : ∀ k ∈ ks, k.port = c.inPort → c.decode k.data ≠ none) :
    ∃ s o, c.runFrom c.start (ks.map Packet.pay) = .ok (s, o) := by
  induction ks with
  | nil => exact ⟨_, _, rfl⟩
  | cons k ks ih =>
    have hk2 : ∀ x ∈ ks, x.fits := fun x hx => hk x (by simp [hx])
    have hd2 : ∀ x ∈ ks, x.port = c.inPort → c.decode x.data ≠ none := fun x hx => hd x (by simp [hx])
    obtain ⟨s, o, h3⟩ := ih hk2 hd2
    simp only [List.map_cons, MonoComp.runFrom, MonoComp.onNext, Packet.pay,
      port_decode ⟨k.port, [], k.complete, k.next⟩ (hk k (by simp)), Go.bind_ok]
    split
    · rename_i hp
      cases hc : c.decode k.data with
      | none => exact absurd hc (hd k (by simp) hp.1)
      | some r =>
        cases r with
        | error e =>
          dsimp only
          simp only [Go.bind_ok]
          exact ⟨_, _, by rw [show (ks.map Packet.pay) = ks.map Packet.pay from rfl, h3]; rfl⟩
        | ok a =>
          obtain ⟨s1, o1, h1, h2⟩ := input_total c a ho
          obtain ⟨o2, h4⟩ := runFrom_over c s1 h1 ks hk2 hd2
          dsimp only
          rw [h2]
          simp only [Go.bind_ok, h4]
          exact ⟨_, _, rfl⟩
    · simp only [Go.bind_ok]
      exact ⟨_, _, by rw [h3]; rfl⟩

/-- A payload that is none of the values. -/
theorem onNext_other (c : MonoComp α) (s : MonoSt α) (k : Packet) (hk : k.fits)
    (h : ¬ (k.port = c.inPort ∧ (k.next || k.complete) = true)) : c.onNext s k.pay = .ok (s, []) := by
  simp only [MonoComp.onNext, Packet.pay, port_decode ⟨k.port, [], k.complete, k.next⟩ hk, Go.bind_ok]
  rw [if_neg h]

/-- C117 for a component that works like this. -/
theorem component_partial (c : MonoComp α) (ho : c.outPort.length < 2 ^ 16)
    (ks : List Packet) (hk : ∀ k ∈ ks, k.fits)
    (hd : ∀ k ∈ ks, k.port = c.inPort → c.decode k.data ≠ none)
    (hv : ∀ d a, firstValue c.inPort ks = some d → c.decode d = some (.ok a) → (str (c.process a)).length < 2 ^ 32)
    (hn : ∀ k ∈ ks, k.port = c.inPort → k.complete = true → k.next = true) :
    ∃ o, c.run (ks.map Packet.pay) = .ok o ∧
      seenOfSink o = componentSees c.decode c.process c.inPort c.outPort ks := by
  suffices h : ∃ s o, c.runFrom c.start (ks.map Packet.pay) = .ok (s, o) ∧
      seenOfSink o = componentSees c.decode c.process c.inPort c.outPort ks by
    obtain ⟨s, o, h1, h2⟩ := h
    exact ⟨o, by simp only [MonoComp.run, h1, Go.bind_ok], h2⟩
  induction ks with
  | nil => exact ⟨_, _, rfl, rfl⟩
  | cons k ks ih =>
    have hk1 := hk k (by simp)
    have hk2 : ∀ x ∈ ks, x.fits := fun x hx => hk x (by simp [hx])
    have hd2 : ∀ x ∈ ks, x.port = c.inPort → c.decode x.data ≠ none := fun x hx => hd x (by simp [hx])
    simp only [List.map_cons, MonoComp.runFrom]
    by_cases h : k.port = c.inPort ∧ k.next = true
    · have hf : firstValue c.inPort (k :: ks) = some k.data := by simp [firstValue, h]
      have hp : k.port = c.inPort ∧ (k.next || k.complete) = true := ⟨h.1, by simp [h.2]⟩
      have he : c.onNext c.start k.pay = match c.decode k.data with
          | none => .panic
          | some (.error e) => .ok (c.start, [.error e])
          | some (.ok a) => c.inputEvs { c.start with input := (c.start.input.step (.success a)).1 }
              (c.start.input.step (.success a)).2 := by
        simp only [MonoComp.onNext, Packet.pay, port_decode ⟨k.port, [], k.complete, k.next⟩ hk1, Go.bind_ok]
        rw [if_pos hp]
        rfl
      simp only [componentSees, hf]
      rw [he]
      cases hc : c.decode k.data with
      | none => exact absurd hc (hd k (by simp) h.1)
      | some r =>
        cases r with
        | error e =>
          obtain ⟨s, o, h3⟩ := runFrom_total c ho ks hk2 hd2
          dsimp only
          simp only [Go.bind_ok, h3]
          exact ⟨_, _, rfl, rfl⟩
        | ok a =>
          obtain ⟨s, h1, h2⟩ := input_first c a (hv _ _ hf hc) ho
          obtain ⟨o, h3⟩ := runFrom_over c s h1 ks hk2 hd2
          dsimp only
          rw [h2]
          simp only [Go.bind_ok, h3]
          exact ⟨_, _, rfl, rfl⟩
    · have hf : firstValue c.inPort (k :: ks) = firstValue c.inPort ks := by simp [firstValue, h]
      have h' : ¬ (k.port = c.inPort ∧ (k.next || k.complete) = true) := by
        intro hh
        apply h
        refine ⟨hh.1, ?_⟩
        cases hx : k.next with
        | true => rfl
        | false => have := hn k (by simp) hh.1 (by simpa [hx] using hh.2); rw [hx] at this; exact this
      rw [onNext_other c _ k hk1 h']
      simp only [Go.bind_ok, List.nil_append]
      obtain ⟨s, o, h1, h2⟩ := ih hk2 hd2 (fun d a h3 h4 => hv d a (hf.trans h3) h4) (fun x hx => hn x (by simp [hx]))
      rw [h1]
      exact ⟨_, _, rfl, by rw [h2]; simp only [componentSees, hf]⟩

end

/-- C117 for a component which takes values from `inPort`, understands them as `decode` says, and answers with what `f` makes of them on
`outPort`: for all payloads with names of 16 bits, as long as the decoder does not crash (C41) and the answer has a 32-bit length. -/
def C117_for {α : Type} (run : List Pay → Go (List SinkOp)) (decode : Bytes → Option (Except String α)) (f : α → Bytes)
    (inPort outPort : Bytes) (packets : List Packet → Prop) : Prop :=
  ∀ ks : List Packet, packets ks → (∀ k ∈ ks, k.fits) → (∀ k ∈ ks, k.port = inPort → decode k.data ≠ none) →
    (∀ d a, firstValue inPort ks = some d → decode d = some (.ok a) → (str (f a)).length < 2 ^ 32) →
    ∃ o, run (ks.map Packet.pay) = .ok o ∧ seenOfSink o = componentSees decode f inPort outPort ks

/-- No payload for the port says only that the port is complete. -/
def noBareEnd (port : Bytes) (ks : List Packet) : Prop := ∀ k ∈ ks, k.port = port → k.complete = true → k.next = true

/-- The data of a record, as `CodecEncode` writes it (C47). -/
def stringsData (r : Strings) : Bytes := fieldMap (stringsFields r)

theorem strings_decoded (r : Strings) (h : (stringsData r).length < 2 ^ 32) :
    ∃ f0, ∀ f, f0 ≤ f → decodeRequest f Strings.field ⟨[], []⟩ (stringsData r) = some (.ok r) := by
  have h1 := (strings_ok.1 r h).2
  have hp : requestPay (stringsCodec.encode (some r)) 0 = .ok ⟨stringsData r, be32 0 ++ [0, 0, 0, 0]⟩ := by
    show requestPay (Strings.encode (some r)) 0 = _
    simp only [requestPay, h1, Go.bind_ok]
    rfl
  exact (request_decoded (c := stringsCodec) strings_ok h hp (by show 2 < 2 ^ 32; omega)).2

/-- C117 as stated in English: the greeter. -/
def C117_statement : Prop :=
  C117_for Components.greeterComp.run Components.stringDecode (fun name => ascii "Hello, " ++ name)
    (ascii "name") (ascii "message") fun _ => True

/-- C117, partial: both components. Missing: payloads that complete the input port without a value. -/
theorem C117_component_partial (fuel : Nat) :
    C117_for (Components.concatComp fuel).run (decodeRequest fuel Strings.field ⟨[], []⟩)
      (fun s => s.left ++ ascii " " ++ s.right) (ascii "strings") (ascii "value") (noBareEnd (ascii "strings")) ∧
    C117_for Components.greeterComp.run Components.stringDecode (fun name => ascii "Hello, " ++ name)
      (ascii "name") (ascii "message") (noBareEnd (ascii "name")) :=
  ⟨fun ks hn hk hd hv => component_partial (Components.concatComp fuel) (show (ascii "value").length < 2 ^ 16 by decide) ks hk hd hv hn,
   fun ks hn hk hd hv => component_partial Components.greeterComp (by decide) ks hk hd hv hn⟩

theorem greeting_longer (name : Bytes) (h : (str (ascii "Hello, " ++ name)).length < 2 ^ 32) : (str name).length < 2 ^ 32 := by
  have e : ∀ n, (strHead n).length = if n ≤ 31 then 1 else if n < 2 ^ 8 then 2 else if n < 2 ^ 16 then 3 else 5 := by
    intro n; simp only [strHead]; repeat' split
    all_goals simp [be_len]
  simp only [str, List.length_append, e] at h ⊢
  have h7 : (ascii "Hello, ").length = 7 := by decide
  rw [h7] at h
  repeat' split at h
  all_goals repeat' split
  all_goals omega

/-- C117, partial, for values written as records, and as strings: the value of the first one decides, whatever else comes. -/
theorem C117_values_partial (ks : List Packet) (hk : ∀ k ∈ ks, k.fits) :
    (∀ r, noBareEnd (ascii "strings") ks → firstValue (ascii "strings") ks = some (stringsData r) →
      (∀ k ∈ ks, k.port = ascii "strings" → ∃ r, (stringsData r).length < 2 ^ 32 ∧ k.data = stringsData r) →
      (str (r.left ++ ascii " " ++ r.right)).length < 2 ^ 32 →
      ∃ f0, ∀ fuel, f0 ≤ fuel → ∃ o, (Components.concatComp fuel).run (ks.map Packet.pay) = .ok o ∧
        seenOfSink o = oneValue (ascii "value") (r.left ++ ascii " " ++ r.right)) ∧
    (∀ name, noBareEnd (ascii "name") ks → firstValue (ascii "name") ks = some (str name) →
      (∀ k ∈ ks, k.port = ascii "name" → ∃ n, (str n).length < 2 ^ 32 ∧ k.data = str n) →
      (str (ascii "Hello, " ++ name)).length < 2 ^ 32 →
      ∃ o, Components.greeterComp.run (ks.map Packet.pay) = .ok o ∧
        seenOfSink o = oneValue (ascii "message") (ascii "Hello, " ++ name)) := by
  refine ⟨fun r hn hf hr hl => ?_, fun name hn hf hr hl => ?_⟩
  · have hall : ∃ f0, ∀ f, f0 ≤ f → ∀ k ∈ ks, k.port = ascii "strings" →
        decodeRequest f Strings.field ⟨[], []⟩ k.data ≠ none := by
      clear hf hn hk
      induction ks with
      | nil => exact ⟨0, fun f _ k hk => by simp at hk⟩
      | cons k ks ih =>
        obtain ⟨f0, h0⟩ := ih (fun x hx => hr x (by simp [hx]))
        by_cases hp : k.port = ascii "strings"
        · obtain ⟨r', h1, h2⟩ := hr k (by simp) hp
          obtain ⟨f1, h3⟩ := strings_decoded r' h1
          refine ⟨f0 + f1, fun f hf x hx hxp => ?_⟩
          rcases List.mem_cons.1 hx with rfl | hx
          · rw [h2, h3 f (by omega)]; simp
          · exact h0 f (by omega) x hx hxp
        · refine ⟨f0, fun f hf x hx hxp => ?_⟩
          rcases List.mem_cons.1 hx with rfl | hx
          · exact absurd hxp hp
          · exact h0 f hf x hx hxp
    obtain ⟨f0, h0⟩ := hall
    have hsh : (stringsData r).length < 2 ^ 32 := by
      simp only [firstValue, Option.map_eq_some_iff] at hf
      obtain ⟨k, h1, h2⟩ := hf
      obtain ⟨r', h3, h4⟩ := hr k (List.mem_of_find?_eq_some h1) (by simpa using (by simpa using List.find?_some h1 : k.port = _ ∧ _).1)
      rw [← h2, h4]; exact h3
    obtain ⟨f1, h1⟩ := strings_decoded r hsh
    refine ⟨f0 + f1, fun fuel hfu => ?_⟩
    have hd := h1 fuel (by omega)
    obtain ⟨o, h2, h3⟩ := (C117_component_partial fuel).1 ks hn hk (h0 fuel (by omega)) (by
      intro d a h4 h5
      rw [hf] at h4
      cases h4
      rw [hd] at h5
      cases h5
      exact hl)
    refine ⟨o, h2, ?_⟩
    rw [h3]
    simp only [componentSees, hf, hd]
  · have hd := stringDecode_str name (greeting_longer name hl)
    obtain ⟨o, h2, h3⟩ := (C117_component_partial 0).2 ks hn hk (fun k h1 h2 => by
      obtain ⟨n, h3, h4⟩ := hr k h1 h2
      rw [h4, stringDecode_str n h3]; simp) (by
      intro d a h4 h5
      rw [hf] at h4
      cases h4
      rw [hd] at h5
      cases h5
      exact hl)
    refine ⟨o, h2, ?_⟩
    rw [h3]
    simp only [componentSees, hf, hd]

/-- C117, partial: the two components in a row, connected as in cmd/fbp/host: the record `r` becomes a greeting. -/
theorem C117_pipeline_partial (r : Strings) (hr : (stringsData r).length < 2 ^ 32)
    (hl : (str (ascii "Hello, " ++ (r.left ++ ascii " " ++ r.right))).length < 2 ^ 32) :
    ∃ f0, ∀ fuel, f0 ≤ fuel → ∃ o ps o', (Components.concatComp fuel).run [Packet.pay ⟨ascii "strings", true, true, stringsData r⟩] = .ok o ∧
      Components.forwardAll (ascii "value") (ascii "name") (seenOfSink o) = .ok ps ∧
      Components.greeterComp.run ps = .ok o' ∧
      seenOfSink o' = oneValue (ascii "message") (ascii "Hello, " ++ (r.left ++ ascii " " ++ r.right)) := by
  obtain ⟨f0, h0⟩ := (C117_values_partial [⟨ascii "strings", true, true, stringsData r⟩] (by
    intro k hk; rw [List.mem_singleton.1 hk]; show (ascii "strings").length < 2 ^ 16; decide)).1 r (by simp [noBareEnd]) (by simp [firstValue])
    (by intro k hk _; rw [List.mem_singleton.1 hk]; exact ⟨r, hr, rfl⟩) (greeting_longer _ hl)
  refine ⟨f0, fun fuel hf => ?_⟩
  obtain ⟨o, h1, h2⟩ := h0 fuel hf
  generalize hv : r.left ++ ascii " " ++ r.right = v at h2 hl ⊢
  have hw : PortIO.decode (portWire ⟨ascii "value", [], true, true⟩) = .ok ⟨ascii "value", [], true, true⟩ :=
    port_decode ⟨ascii "value", [], true, true⟩ (show (ascii "value").length < 2 ^ 16 by decide)
  have he := port_encode ⟨ascii "name", [], true, true⟩ (show (ascii "name").length < 2 ^ 16 by decide)
  have hps : Components.forwardAll (ascii "value") (ascii "name") (seenOfSink o) =
      .ok [Packet.pay ⟨ascii "name", true, true, str v⟩] := by
    rw [h2]
    simp only [oneValue, Components.forwardAll, Components.forward, Packet.pay, hw, Go.bind_ok, if_true, he]
    rfl
  obtain ⟨o', h3, h4⟩ := (C117_values_partial [⟨ascii "name", true, true, str v⟩] (by
    intro k hk; rw [List.mem_singleton.1 hk]; show (ascii "name").length < 2 ^ 16; decide)).2 v (by simp [noBareEnd]) (by simp [firstValue])
    (by intro k hk _; rw [List.mem_singleton.1 hk]; exact ⟨v, greeting_longer v hl, rfl⟩) hl
  exact ⟨o, _, o', h1, hps, h3, h4⟩

/-- C117, in a row: the second component is sent the payloads of the first one's output port, under the name of its own input
port, and no others. Missing: that they keep their flags; of a payload that has one of them only, it has both (C19). -/
theorem C117_forward_partial (fromPort toPort : Bytes) (ht : toPort.length < 2 ^ 16) (ks : List Packet) (hk : ∀ k ∈ ks, k.fits) :
    Components.forwardAll fromPort toPort (ks.map fun k => .next k.pay) =
      .ok ((ks.filter fun k => k.port = fromPort).map fun k =>
        Packet.pay ⟨toPort, k.next || k.complete, k.next || k.complete, k.data⟩) := by
  induction ks with
  | nil => rfl
  | cons k ks ih =>
    have h1 : PortIO.decode k.pay.metadata = .ok ⟨k.port, [], k.next || k.complete, k.next || k.complete⟩ :=
      port_decode ⟨k.port, [], k.complete, k.next⟩ (hk k (by simp))
    have h2 := port_encode ⟨toPort, [], k.next || k.complete, k.next || k.complete⟩ ht
    simp only [List.map_cons, Components.forwardAll, Components.forward, h1, Go.bind_ok, ih fun x hx => hk x (by simp [hx])]
    by_cases hp : k.port = fromPort
    · rw [if_pos hp, h2, List.filter_cons_of_pos (by simpa using hp)]
      rfl
    · rw [if_neg hp, List.filter_cons_of_neg (by simpa using hp)]
      rfl

example : Components.forwardAll (ascii "value") (ascii "name") ([⟨ascii "other", true, false, [1]⟩, ⟨ascii "value", true, true, [2]⟩].map
      fun k => .next (Packet.pay k)) = .ok [Packet.pay ⟨ascii "name", true, true, [2]⟩] :=
  C117_forward_partial _ _ (by decide) _ (by decide)

/-- C117 fails: a payload that says that there will be no name makes the greeter fail. -/
theorem C117_violated : ¬ C117_statement := by
  intro h
  obtain ⟨o, h1, h2⟩ := h [⟨ascii "name", false, true, []⟩] trivial (by decide) (by
    intro k hk _; rw [List.mem_singleton.1 hk]; decide +kernel) (by
    intro d a h; simp [firstValue] at h)
  have h3 : Components.greeterComp.run [Packet.pay ⟨ascii "name", false, true, []⟩] = .ok [.error "range error"] := by
    decide +kernel
  rw [show ([⟨ascii "name", false, true, []⟩] : List Packet).map Packet.pay = [Packet.pay ⟨ascii "name", false, true, []⟩] from rfl,
    h3] at h1
  cases h1
  revert h2
  decide

/-- Payloads for another port first, then two values: the first one counts. -/
example : let ks : List Packet := [⟨ascii "other", false, true, []⟩, ⟨ascii "name", true, true, str (ascii "Jo")⟩, ⟨ascii "name", true, false, str (ascii "Al")⟩]
    (∀ k ∈ ks, k.fits) ∧ noBareEnd (ascii "name") ks ∧ firstValue (ascii "name") ks = some (str (ascii "Jo")) ∧
    (str (ascii "Hello, " ++ ascii "Jo")).length < 2 ^ 32 ∧
    Components.greeterComp.run (ks.map Packet.pay) = .ok (oneValue (ascii "message") (ascii "Hello, Jo")) := by
  refine ⟨by decide, by unfold noBareEnd; decide, by decide, by decide, by decide +kernel⟩

/-- A record for concat. -/
example : let ks : List Packet := [⟨ascii "strings", true, true, stringsData ⟨ascii "Foo", ascii "Bar"⟩⟩]
    (∀ k ∈ ks, k.fits) ∧ noBareEnd (ascii "strings") ks ∧
    firstValue (ascii "strings") ks = some (stringsData ⟨ascii "Foo", ascii "Bar"⟩) ∧
    (stringsData ⟨ascii "Foo", ascii "Bar"⟩).length < 2 ^ 32 ∧
    (Components.concatComp 9).run (ks.map Packet.pay) = .ok (oneValue (ascii "value") (ascii "Foo Bar")) := by
  refine ⟨by decide, by unfold noBareEnd; decide, by decide, by decide, by decide +kernel⟩

/-- A number in place of a name. -/
example : Components.greeterComp.run [Packet.pay ⟨ascii "name", true, true, [7]⟩] = .ok [.error "bad prefix for string length"] := by decide +kernel

/-- C117, on safety, as stated in English: whatever payloads come, the handler does not crash. -/
def C117_safe_statement : Prop := ∀ ps : List Pay, Components.greeterComp.run ps ≠ .panic

/-- C117 fails: a payload without metadata crashes the handler. -/
theorem C117_safe_violated : ¬ C117_safe_statement := by
  intro h
  exact h [⟨str (ascii "Jo"), []⟩] (by decide)

end Verif.Props
