import Verif.Model.Typed
import Verif.Props.Records
import Verif.Props.TcpCalls
import Verif.Props.WasmCalls
/-
Property C112: the generated clients and handlers of operations that take a record and give a string.
-/
set_option autoImplicit false
namespace Verif.Props
open Verif Spec Frames Handler Msgpack Typed
open Verif.Invoke (Kind Registry)
open Verif.WasmRecv (Side registers)

section
variable {H ρ : Type}

/-! ## Specification -/

/-- A record type with its generated code: its fields, what `Encode` writes, the `switch` of `Decode`, the zero value. -/
structure Codec (ρ : Type) where
  fields : ρ → List (Bytes × Val)
  encode : Option ρ → List Msgpack.Call
  field : Bytes → Option (ρ → Rd ρ)
  zero : ρ

/-- The record types of the generated operations. -/
def greetingCodec : Codec GreetingRequest := ⟨greetingFields, GreetingRequest.encode, GreetingRequest.field, ⟨[], []⟩⟩
def nameCodec : Codec NameRequest := ⟨nameFields, NameRequest.encode, NameRequest.field, ⟨[]⟩⟩
def stringsCodec : Codec Strings := ⟨stringsFields, Strings.encode, Strings.field, ⟨[], []⟩⟩
def counterCodec : Codec CounterRequest := ⟨counterFields, CounterRequest.encode, CounterRequest.field, ⟨0⟩⟩

/-- The encoding of the record has a 32-bit length. -/
def Codec.short (c : Codec ρ) (r : ρ) : Prop := (fieldMap (c.fields r)).length < 2 ^ 32

/-- Says where in the history of an end the goroutines of requests ran, and what the application's handler returned
(`RanAt`, `RanOn`). -/
abbrev Runs (H : Type) := List Act → List Act → Nat → Ret → St H → List (Handler.Ev H) → Kind → UInt32 → Bytes → Bytes → UInt32 → Prop

/-- Number `op` of the request/response operations is the generated handler around a service which for the record `r` may return
any mono `m` with `svc r m`. -/
def Serves (ran : Runs H) (c : Codec ρ) (svc : ρ → StrMono → Prop) (op : UInt32) : Prop :=
  ∀ as1 as2 t ret s1 t1 id data md n, ran as1 as2 t ret s1 t1 .rr id data md n → opIdOf md = op.toNat →
    ∃ reply : ρ → StrMono, (∀ r, svc r (reply r)) ∧
      ∃ f0, ∀ f, f0 ≤ f → answerRequest f c.field c.zero reply data = some ret.mono

/-- What a mono of the service comes to, given what its source signals: `Just` and `Error` say it themselves, otherwise
the first signal counts, unless it cancels. -/
def said (m : StrMono) (sigs : List (Mono.Sig Pay)) : Option (Mono.Sig Bytes) :=
  match m, sigs with
  | .just s, _ => some (.success s)
  | .failed e, _ => some (.error e)
  | .created, .success p :: _ => some (.success p.data)
  | .created, .error e :: _ => some (.error e)
  | .created, _ => none

/-- `res` is what the service has said to the request `id`: it was given exactly the record `r`, and returned `m`. -/
def Said (ran : Runs H) (svc : ρ → StrMono → Prop) (id : UInt32) (p : Pay) (r : ρ) (res : Option (Mono.Sig Bytes)) : Prop :=
  ∃ as1 as2 t ret s1 t1 n m, ran as1 as2 t ret s1 t1 .rr id p.data p.metadata n ∧ svc r m ∧ ret.mono = m.encoded ∧
    res = said m (answerSigs s1.objs.length as2)

/-- Errors keep only the bytes of their message. -/
def strOverWire : Mono.Sig Bytes → Mono.Sig Bytes
  | .error (some e) => .error (some (strOf (bytesOf e)))
  | x => x

/-- The encoding of the string has a 32-bit length. -/
def fits32 : Mono.Sig Bytes → Prop
  | .success s => (str s).length < 2 ^ 32
  | _ => True

/-- C112: the subscriber of what the client function returned (which sees `seen`) sees nothing, or what the service has said
to this very call, having been given the caller's record; if nothing is under way any more, it has seen it. -/
def typedAnswered (ran : Runs H) (svc : ρ → StrMono → Prop) (id : UInt32) (p : Pay) (r : ρ) (inst : Mono.Installed)
    (over : Prop) (seen : List (Mono.Ev Bytes)) : Prop :=
  (seen = [] ∨ ∃ x, Said ran svc id p r (some x) ∧ (fits32 x → seen = outcome 0 inst [strOverWire x])) ∧
  (over → ∃ res, Said ran svc id p r res ∧
    ((∀ x, res = some x → fits32 x) → seen = outcome 0 inst (res.map strOverWire).toList))

/-- C112 for calls over TCP with the generated code of the record type `c`: A calls number `op`, under which B has exported
the generated handler (with the generated registration: `h`). -/
def C112_for (H : Type) {ρ : Type} (c : Codec ρ) : Prop :=
  ∀ (regA : Registry H) (callsB : List (Invoke.Call H)) (client : Bool) (pre mid post : List TcpSystem.Move)
    (t0 t : TcpSystem.Sys H) (r : ρ) (op : UInt32) (ns opn : Bytes) (h : H) (p : Pay) (src : Src) (inst : Mono.Installed)
    (svc : ρ → StrMono → Prop),
    fewCalls callsB → (exportsOf .rr callsB)[op.toNat]? = some (ns, opn, h) → c.short r →
    requestPay (c.encode (some r)) op = .ok p →
    tcpCall regA (Invoke.run Registry.init callsB) client pre t0 p src mid (Mono.mapInstalled inst) post t →
    TcpTidy t → below4G t.trA → below4G t.trB →
    Serves (RanAt (Invoke.run Registry.init callsB) (!client) t.histB) c svc op →
    typedAnswered (RanAt (Invoke.run Registry.init callsB) (!client) t.histB) svc (callId t0.a) p r inst
      (tcpSettled t (callId t0.a)) (decodedMono inst (monoEvs t0.a.objs.length t.trA))

/-- C112 for calls between a wasm host and its guest, in either direction. -/
def C112_wasm_for (H : Type) {ρ : Type} (c : Codec ρ) : Prop :=
  ∀ (side : Side) (regA : Registry H) (callsB : List (Invoke.Call H)) (pre mid post : List System.Move)
    (s0 s : System.Sys H) (r : ρ) (op : UInt32) (ns opn : Bytes) (h : H) (p : Pay) (src : Src) (inst : Mono.Installed)
    (svc : ρ → StrMono → Prop),
    fewCalls callsB → (exportsOf .rr callsB)[op.toNat]? = some (ns, opn, h) → c.short r →
    requestPay (c.encode (some r)) op = .ok p →
    wasmCall side regA (Invoke.run Registry.init callsB) pre s0 p src mid (Mono.mapInstalled inst) post s → Tidy s →
    Serves (RanOn (Wasm.Side.other side) (Invoke.run Registry.init callsB) s.histB) c svc op →
    typedAnswered (RanOn (Wasm.Side.other side) (Invoke.run Registry.init callsB) s.histB) svc (callId s0.a) p r inst
      (settled s (callId s0.a)) (decodedMono inst (monoEvs s0.a.objs.length s.trA))

/-! ## Proof -/

theorem string_coded (s md md' : Bytes) (h : (str s).length < 2 ^ 32) :
    ∃ w, encodeString ⟨s, md⟩ = .ok ⟨w, []⟩ ∧ decodeString ⟨w, md'⟩ = .ok s := by
  obtain ⟨w, d, h1, h2, -⟩ := (C48_partial ⟨fun _ => 0, fun _ => none⟩).1 s h
  exact ⟨w, by simp only [encodeString, h1], by simp only [decodeString, h2]⟩

theorem decoded_value (inst : Mono.Installed) (p : Pay) (s : Bytes) (h : decodeString p = .ok s) :
    decodedMono inst (outcome 0 (Mono.mapInstalled inst) [.success p]) = outcome 0 inst [.success s] := by
  obtain ⟨a, b, c⟩ := inst
  cases a <;> cases c <;> simp [decodedMono, outcome, Mono.mapInstalled, Mono.mapEv, h]

theorem decoded_error (inst : Mono.Installed) (e : Mono.Err) :
    decodedMono inst (outcome 0 (Mono.mapInstalled inst) [.error e]) = outcome 0 inst [.error e] := by
  obtain ⟨a, b, c⟩ := inst
  cases b <;> cases c <;> simp [decodedMono, outcome, Mono.mapInstalled, Mono.mapEv]

theorem decoded_wire_error (inst : Mono.Installed) (e : Mono.Err) :
    decodedMono inst (outcome 0 (Mono.mapInstalled inst) [overWire (.error e)]) =
      outcome 0 inst [strOverWire (.error e)] := by
  cases e with
  | none => exact decoded_error inst none
  | some e => exact decoded_error inst _

/-- What the mono of the handler comes to, and what the client makes of it. -/
theorem said_encoded (m : StrMono) (sigs : List (Mono.Sig Pay)) :
    match said m sigs with
    | none => resolution m.encoded sigs = none
    | some x => ∃ y, resolution m.encoded sigs = some y ∧ (fits32 x → ∀ inst,
        decodedMono inst (outcome 0 (Mono.mapInstalled inst) [overWire y]) = outcome 0 inst [strOverWire x]) := by
  cases m with
  | just s =>
    simp only [said, StrMono.encoded]
    by_cases hs : (str s).length < 2 ^ 32
    · obtain ⟨w, h1, h2⟩ := string_coded s [] [] hs
      simp only [h1, resolution]
      exact ⟨_, rfl, fun _ inst => decoded_value inst _ _ h2⟩
    · cases encodeString ⟨s, []⟩ with
      | ok p => exact ⟨_, rfl, fun h => absurd h hs⟩
      | error e => exact ⟨_, rfl, fun h => absurd h hs⟩
  | failed e =>
    simp only [said, StrMono.encoded, resolution]
    exact ⟨_, rfl, fun _ inst => decoded_wire_error inst e⟩
  | created =>
    cases sigs with
    | nil => rfl
    | cons x sigs =>
      cases x with
      | cancel => rfl
      | error e =>
        simp only [said, StrMono.encoded, resolution]
        exact ⟨_, rfl, fun _ inst => decoded_wire_error inst e⟩
      | success p =>
        simp only [said, StrMono.encoded, resolution]
        by_cases hs : (str p.data).length < 2 ^ 32
        · obtain ⟨w, h1, h2⟩ := string_coded p.data p.metadata [] hs
          have h1 : encodeString p = .ok ⟨w, []⟩ := h1
          simp only [h1]
          exact ⟨_, rfl, fun _ inst => decoded_value inst _ _ h2⟩
        · exact ⟨_, rfl, fun h => absurd h hs⟩

/-- The handler decodes the record that was sent. -/
theorem request_decoded {c : Codec ρ} {ok : Val → Prop} (hc : RecordOK c.fields c.encode c.field c.zero ok) {r : ρ}
    (hr : c.short r) {op : UInt32} {p : Pay} (hp : requestPay (c.encode (some r)) op = .ok p)
    (hn : (c.fields r).length < 2 ^ 32) :
    p.metadata = be32 op ++ [0, 0, 0, 0] ∧
    ∃ f0, ∀ f, f0 ≤ f → decodeRequest f c.field c.zero p.data = some (.ok r) := by
  have h1 := (hc.1 r hr).2
  simp only [requestPay, h1, Go.bind_ok] at hp
  cases hp
  refine ⟨rfl, ?_⟩
  obtain ⟨f0, h2⟩ := hc.2.1 r (c.fields r) ⟨fun e he => he, fun e he => .inl he⟩ hr hn
  refine ⟨f0, fun f hf => ?_⟩
  have h3 := (h2 f hf [] [] (by simpa [Codec.short] using hr)).1
  simp only [List.append_nil, List.nil_append, at_] at h3
  simp only [decodeRequest, DR.new]
  have h4 : (UInt32.ofNat ([] : Bytes).length) = 0 := rfl
  rw [h4] at h3
  rw [h3]

theorem opIdOf_be32 (op : UInt32) (r : Bytes) : opIdOf (be32 op ++ r) = op.toNat := by
  have : (be32 op ++ r).take 4 = be32 op := by
    rw [List.take_append_of_le_length (by simp), List.take_of_length_le (by simp)]
  rw [opIdOf, this, beNat_be32]

/-- The request names an exported operation. -/
theorem named_exported (callsB : List (Invoke.Call H)) (hf : fewCalls callsB) (k : Kind) (op : UInt32) (x : Bytes × Bytes × H)
    (hx : (exportsOf k callsB)[op.toNat]? = some x) :
    (exported (Invoke.run Registry.init callsB) k (be32 op ++ [0, 0, 0, 0])).isSome = true := by
  have h1 : ¬ (be32 op ++ [0, 0, 0, 0]).length < 8 := by simp
  simp only [exported, h1, if_false, namedOp, getU32_be32, C18_handler_lookup callsB hf, hx]
  rfl

/-- The part common to all transports. -/
theorem typed_answered {c : Codec ρ} {ok : Val → Prop} (hc : RecordOK c.fields c.encode c.field c.zero ok) {r : ρ}
    (hr : c.short r) {op : UInt32} {p : Pay} (hp : requestPay (c.encode (some r)) op = .ok p)
    (hn : (c.fields r).length < 2 ^ 32) {ran : Runs H} {svc : ρ → StrMono → Prop} (hs : Serves ran c svc op) {id : UInt32}
    {inst : Mono.Installed} {over : Prop} {seen : List (Mono.Ev Pay)}
    (handled : Option (Mono.Sig Pay) → Prop)
    (hh : ∀ res, handled res → ∃ as1 as2 t ret s1 t1 n, ran as1 as2 t ret s1 t1 .rr id p.data p.metadata n ∧
      res = resolution ret.mono (answerSigs s1.objs.length as2))
    (h1 : seen = [] ∨ ∃ sig, handled (some sig) ∧ seen = outcome 0 (Mono.mapInstalled inst) [overWire sig])
    (h2 : over → ∃ res, handled res ∧ seen = outcome 0 (Mono.mapInstalled inst) (res.map overWire).toList) :
    typedAnswered ran svc id p r inst over (decodedMono inst seen) := by
  obtain ⟨hm, f0, hd⟩ := request_decoded hc hr hp hn
  have key : ∀ res, handled res → ∃ res', Said ran svc id p r res' ∧ (res = none ↔ res' = none) ∧
      ((∀ x, res' = some x → fits32 x) →
        decodedMono inst (outcome 0 (Mono.mapInstalled inst) (res.map overWire).toList) =
          outcome 0 inst (res'.map strOverWire).toList) := by
    intro res hres
    obtain ⟨as1, as2, t, ret, s1, t1, n, h3, h4⟩ := hh res hres
    obtain ⟨reply, h5, f1, h6⟩ := hs _ _ _ _ _ _ _ _ _ _ h3 (by rw [hm, opIdOf_be32])
    have h6 := h6 (max f0 f1) (by omega)
    simp only [answerRequest, hd (max f0 f1) (by omega)] at h6
    injection h6 with h6
    have h7 := said_encoded (reply r) (answerSigs s1.objs.length as2)
    rw [← h6] at h4
    refine ⟨said (reply r) (answerSigs s1.objs.length as2),
      ⟨as1, as2, t, ret, s1, t1, n, reply r, h3, h5 r, h6.symm, rfl⟩, ?_, ?_⟩
    · rw [h4]
      cases hx : said (reply r) (answerSigs s1.objs.length as2) with
      | none => rw [hx] at h7; simp [h7]
      | some x =>
        rw [hx] at h7
        obtain ⟨y, h7, -⟩ := h7
        simp [h7]
    · intro hfit
      rw [h4]
      cases hx : said (reply r) (answerSigs s1.objs.length as2) with
      | none =>
        rw [hx] at h7
        simp only at h7
        rw [h7]
        rfl
      | some x =>
        rw [hx] at h7
        obtain ⟨y, h7, h8⟩ := h7
        rw [h7]
        exact h8 (hfit x hx) inst
  refine ⟨?_, fun ho => ?_⟩
  · rcases h1 with rfl | ⟨sig, h3, rfl⟩
    · exact .inl rfl
    · obtain ⟨res, h4, h5, h6⟩ := key _ h3
      cases res with
      | none => exact absurd (h5.2 rfl) (by simp)
      | some x => exact .inr ⟨x, h4, fun hx => h6 (fun y hy => by cases hy; exact hx)⟩
  · obtain ⟨res, h3, rfl⟩ := h2 ho
    obtain ⟨res', h4, -, h6⟩ := key _ h3
    exact ⟨res', h4, h6⟩

theorem typed_tcp {c : Codec ρ} {ok : Val → Prop} (hc : RecordOK c.fields c.encode c.field c.zero ok)
    (hn : ∀ r, (c.fields r).length < 2 ^ 32) : C112_for H c := by
  intro regA callsB client pre mid post t0 t r op ns opn h p src inst svc hf hx hr hp hcall ht ha hb hs
  have hm := (request_decoded hc hr hp (hn r)).1
  obtain ⟨h1, h2⟩ := C111_call_partial _ _ _ _ _ _ _ _ _ _ _ hcall ht ha hb
  refine typed_answered hc hr hp (hn r) hs (Handled _ _ _ _ _) ?_ h1 h2
  intro res hres
  cases hres with
  | rejected as1 as2 t ret s1 t1 n hran bad =>
    rw [hm] at bad
    have := named_exported callsB hf .rr op _ hx
    rw [bad] at this
    cases this
  | served as1 as2 t ret s1 t1 n hran good => exact ⟨_, _, _, _, _, _, _, hran, rfl⟩

theorem typed_wasm {c : Codec ρ} {ok : Val → Prop} (hc : RecordOK c.fields c.encode c.field c.zero ok)
    (hn : ∀ r, (c.fields r).length < 2 ^ 32) : C112_wasm_for H c := by
  intro side regA callsB pre mid post s0 s r op ns opn h p src inst svc hf hx hr hp hcall ht hs
  have hm := (request_decoded hc hr hp (hn r)).1
  refine typed_answered hc hr hp (hn r) hs (HandledOn _ _ _ _ _) ?_
    (C98_answer _ _ _ _ _ _ _ _ _ _ _ hcall ht) (C98_completes _ _ _ _ _ _ _ _ _ _ _ hcall ht)
  intro res hres
  cases hres with
  | rejected as1 as2 t ret s1 t1 n hran bad =>
    rw [hm] at bad
    have := named_exported callsB hf .rr op _ hx
    rw [bad] at this
    cases this
  | served as1 as2 t ret s1 t1 n hran good => exact ⟨_, _, _, _, _, _, _, hran, rfl⟩

/-- C112 over TCP, partial: `SayHello` of example/greeter (and transport/wasmrs/example), `SayHello` of
transport/wasmrs/mesh/modules/greeting, `Concat` of transport/wasmrs/mesh/modules/concat. Missing: what C111 misses, and
records and strings of 2^32 bytes and more. -/
theorem C112_tcp_partial (H : Type) : C112_for H greetingCodec ∧ C112_for H nameCodec ∧ C112_for H stringsCodec :=
  ⟨typed_tcp greeting_ok (fun _ => by show 2 < 2 ^ 32; omega), typed_tcp name_ok (fun _ => by show 1 < 2 ^ 32; omega),
   typed_tcp strings_ok (fun _ => by show 2 < 2 ^ 32; omega)⟩

/-- C112 between a wasm host and its guest. -/
theorem C112_wasm_partial (H : Type) :
    C112_wasm_for H greetingCodec ∧ C112_wasm_for H nameCodec ∧ C112_wasm_for H stringsCodec :=
  ⟨typed_wasm greeting_ok (fun _ => by show 2 < 2 ^ 32; omega), typed_wasm name_ok (fun _ => by show 1 < 2 ^ 32; omega),
   typed_wasm strings_ok (fun _ => by show 2 < 2 ^ 32; omega)⟩


/-- C112 as stated in English: for records and strings of every size. -/
def C112_statement (H : Type) {ρ : Type} (c : Codec ρ) : Prop :=
  ∀ (regA : Registry H) (callsB : List (Invoke.Call H)) (client : Bool) (pre mid post : List TcpSystem.Move)
    (t0 t : TcpSystem.Sys H) (r : ρ) (op : UInt32) (ns opn : Bytes) (h : H) (p : Pay) (src : Src) (inst : Mono.Installed)
    (svc : ρ → StrMono → Prop),
    fewCalls callsB → (exportsOf .rr callsB)[op.toNat]? = some (ns, opn, h) →
    requestPay (c.encode (some r)) op = .ok p →
    tcpCall regA (Invoke.run Registry.init callsB) client pre t0 p src mid (Mono.mapInstalled inst) post t → TcpTidy t →
    Serves (RanAt (Invoke.run Registry.init callsB) (!client) t.histB) c svc op →
    decodedMono inst (monoEvs t0.a.objs.length t.trA) = [] ∨
      ∃ x, Said (RanAt (Invoke.run Registry.init callsB) (!client) t.histB) svc (callId t0.a) p r (some x) ∧
        decodedMono inst (monoEvs t0.a.objs.length t.trA) = outcome 0 inst [strOverWire x]

/-! ## Where handlers ran in a concrete history -/

/-- The requests that were run, by their position in the history. -/
def ranAll (reg : Registry H) (client : Bool) (as : List Act) : List (Option (Kind × UInt32 × Bytes × Bytes)) :=
  (List.range as.length).map fun i =>
    match (as[i]? : Option Act) with
    | some (.run t _) =>
      match Handler.run reg client (as.take i) with
      | .ok (s, _) => match s.tasks[t]? with
        | some (.request k id data md _) => some (k, id, data, md)
        | _ => none
      | _ => none
    | _ => none

theorem ranAt_all {reg : Registry H} {client : Bool} {as as1 as2 : List Act} {t : Nat} {ret : Ret} {s1 : St H}
    {t1 : List (Handler.Ev H)} {k : Kind} {id : UInt32} {data md : Bytes} {n : UInt32}
    (h : RanAt reg client as as1 as2 t ret s1 t1 k id data md n) : some (k, id, data, md) ∈ ranAll reg client as := by
  refine List.mem_map.2 ⟨as1.length, List.mem_range.2 (by rw [h.split]; simp), ?_⟩
  have h1 : as[as1.length]? = some (.run t ret) := by rw [h.split]; simp
  have h2 : as.take as1.length = as1 := by rw [h.split]; simp
  simp only [h1, h2, h.before, h.task]

/-- What an end is told to do by the moves of a run. -/
theorem tcp_hist_moves {ms : List TcpSystem.Move} : ∀ {t t' : TcpSystem.Sys H}, TcpSystem.runFrom t ms = .ok t' →
    ∀ i ret, .run i ret ∈ t'.histB → .run i ret ∈ t.histB ∨ .atB (.run i ret) ∈ ms := by
  have hB : ∀ {t t' : TcpSystem.Sys H} {act : Act}, TcpSystem.moveB t act = .ok t' → t'.histB = t.histB ++ [act] := by
    intro t t' act h
    simp only [TcpSystem.moveB] at h
    split at h
    · obtain ⟨ba, h1, h⟩ := bind_ok_inv h
      cases h; rfl
    · cases h
    · cases h
  have hA : ∀ {t t' : TcpSystem.Sys H} {act : Act}, TcpSystem.moveA t act = .ok t' → t'.histB = t.histB := by
    intro t t' act h
    simp only [TcpSystem.moveA] at h
    split at h
    · obtain ⟨ba, h1, h⟩ := bind_ok_inv h
      cases h; rfl
    · cases h
    · cases h
  have hstep : ∀ {t t' : TcpSystem.Sys H} {m : TcpSystem.Move}, TcpSystem.step t m = .ok t' →
      ∀ i ret, .run i ret ∈ t'.histB → .run i ret ∈ t.histB ∨ m = .atB (.run i ret) := by
    intro t t' m h i ret hr
    cases m with
    | atA act =>
      simp only [TcpSystem.step] at h
      split at h
      · cases h; exact .inl hr
      · rw [hA h] at hr; exact .inl hr
    | atB act =>
      simp only [TcpSystem.step] at h
      split at h
      · cases h; exact .inl hr
      · rw [hB h] at hr
        rcases List.mem_append.1 hr with hr | hr
        · exact .inl hr
        · rw [List.mem_singleton.1 hr]; exact .inr rfl
    | carryAB n => cases h; exact .inl hr
    | carryBA n => cases h; exact .inl hr
    | readA =>
      simp only [TcpSystem.step] at h
      obtain ⟨ba, -, h⟩ := bind_ok_inv h
      cases h; exact .inl hr
    | readB =>
      simp only [TcpSystem.step] at h
      obtain ⟨ba, -, h⟩ := bind_ok_inv h
      cases h; exact .inl hr
    | toA r =>
      simp only [TcpSystem.step] at h
      split at h
      · cases h; exact .inl hr
      · rw [hA h] at hr; exact .inl hr
    | toB r =>
      simp only [TcpSystem.step] at h
      split at h
      · cases h; exact .inl hr
      · rw [hB h] at hr
        rcases List.mem_append.1 hr with hr | hr
        · exact .inl hr
        · cases List.mem_singleton.1 hr
  induction ms with
  | nil => intro t t' h i ret hr; cases h; exact .inl hr
  | cons m ms ih =>
    intro t t' h i ret hr
    simp only [TcpSystem.runFrom] at h
    obtain ⟨t1, h1, h⟩ := bind_ok_inv h
    rcases ih h i ret hr with h2 | h2
    · rcases hstep h1 i ret h2 with h3 | h3
      · exact .inl h3
      · exact .inr (by rw [h3]; exact List.mem_cons_self)
    · exact .inr (List.mem_cons_of_mem _ h2)

end

/-! ## Concrete runs -/

/-- The end B of the examples: one request/response operation, `greeting.sayHello`. -/
def exports112 : List (Invoke.Call Unit) := [.exp .rr (ascii "greeting") (ascii "sayHello") ()]

/-- The request for the record, as the client makes it. -/
def pay112 {ρ : Type} (c : Codec ρ) (r : ρ) : Pay :=
  match requestPay (c.encode (some r)) 0 with | .ok p => p | _ => ⟨[], []⟩

def moves112 (ret : Ret) (answers : List TcpSystem.Move) : List TcpSystem.Move :=
  [.carryAB 2, .readB, .carryAB 100, .readB, .toB noReact, .atB (.run 0 ret)] ++ answers ++
  [.carryBA 100, .readA, .toA noReact]

def end112 {ρ : Type} (c : Codec ρ) (r : ρ) (ret : Ret) (answers : List TcpSystem.Move) : TcpSystem.Sys Unit :=
  tcpAfter (TcpSystem.run oneHandler (Invoke.run Registry.init exports112) true
    ([] ++ .atA (.call .rr (pay112 c r) .created) :: [] ++
      .atA (.subscribeMono 0 (Mono.mapInstalled ⟨true, true, true⟩)) :: moves112 ret answers))

/-- B's handler in these runs is the generated one around a service that returns `m`. -/
theorem serves112 {ρ : Type} {c : Codec ρ} {r : ρ} {ret : Ret} {answers : List TcpSystem.Move} {m : StrMono}
    (ha : ∀ i ret', .atB (.run i ret') ∉ answers) (hm : ret.mono = m.encoded)
    (hok : ∃ f0, ∀ f, f0 ≤ f → decodeRequest f c.field c.zero (pay112 c r).data = some (.ok r))
    (hrun : TcpSystem.run oneHandler (Invoke.run Registry.init exports112) true
      ([] ++ .atA (.call .rr (pay112 c r) .created) :: [] ++
        .atA (.subscribeMono 0 (Mono.mapInstalled ⟨true, true, true⟩)) :: moves112 ret answers) =
      .ok (end112 c r ret answers))
    (hall : ∀ x ∈ ranAll (Invoke.run Registry.init exports112) false (end112 c r ret answers).histB,
      x = none ∨ x = some (.rr, 1, (pay112 c r).data, (pay112 c r).metadata)) :
    Serves (RanAt (Invoke.run Registry.init exports112) (!true) (end112 c r ret answers).histB) c (fun _ m' => m' = m) 0 := by
  intro as1 as2 t ret' s1 t1 id data md n h ho
  have h1 : ret' = ret := by
    have h2 : Act.run t ret' ∈ (end112 c r ret answers).histB := by rw [h.split]; simp
    rcases tcp_hist_moves hrun t ret' h2 with h3 | h3
    · cases h3
    · simp only [moves112, List.nil_append, List.cons_append, List.mem_cons, List.mem_append, reduceCtorEq, false_or,
        TcpSystem.Move.atB.injEq, Act.run.injEq, List.not_mem_nil, or_false, ha] at h3
      exact h3.2
  have h2 := hall _ (ranAt_all h)
  simp only [reduceCtorEq, false_or, Option.some.injEq, Prod.mk.injEq] at h2
  obtain ⟨f0, hok⟩ := hok
  refine ⟨fun _ => m, fun _ => rfl, f0, fun f hf => ?_⟩
  rw [h2.2.2.1, h1]
  simp only [answerRequest, hok f hf, hm]

theorem request112 : requestPay (greetingCodec.encode (some ⟨ascii "Ada", ascii "L"⟩)) 0 =
    .ok (pay112 greetingCodec ⟨ascii "Ada", ascii "L"⟩) := by
  have : (match requestPay (greetingCodec.encode (some ⟨ascii "Ada", ascii "L"⟩)) 0 with | .ok _ => true | _ => false) = true := by
    decide +kernel
  unfold pay112
  split
  · assumption
  · rename_i h1
    split at this
    · rename_i h2; exact absurd h2 (h1 _)
    · cases this

/-- What the greeter of the example returns: it answers later. -/
def ret112 : Ret := ⟨StrMono.created.encoded, .created, true⟩
def hello112 : List TcpSystem.Move := [.atB (.answer 0 (.success ⟨ascii "Hello, Ada L", []⟩))]
def greet112 : TcpSystem.Sys Unit := end112 greetingCodec ⟨ascii "Ada", ascii "L"⟩ ret112 hello112

/-- The hypotheses of C112_tcp_partial are met, and the caller of `SayHello` gets the greeting. -/
example : fewCalls exports112 ∧ (exportsOf .rr exports112)[(0 : UInt32).toNat]? = some (ascii "greeting", ascii "sayHello", ()) ∧
    greetingCodec.short ⟨ascii "Ada", ascii "L"⟩ ∧
    requestPay (greetingCodec.encode (some ⟨ascii "Ada", ascii "L"⟩)) 0 = .ok (pay112 greetingCodec ⟨ascii "Ada", ascii "L"⟩) ∧
    tcpCall oneHandler (Invoke.run Registry.init exports112) true []
      (.init oneHandler (Invoke.run Registry.init exports112) true) (pay112 greetingCodec ⟨ascii "Ada", ascii "L"⟩) .created []
      (Mono.mapInstalled ⟨true, true, true⟩) (moves112 ret112 hello112) greet112 ∧
    TcpTidy greet112 ∧ below4G greet112.trA ∧ below4G greet112.trB ∧
    Serves (RanAt (Invoke.run Registry.init exports112) (!true) greet112.histB) greetingCodec (fun _ m => m = .created) 0 ∧
    decodedMono ⟨true, true, true⟩ (monoEvs 0 greet112.trA) = [.success 0 (ascii "Hello, Ada L"), .fin 0 .complete] := by
  have hs : greetingCodec.short ⟨ascii "Ada", ascii "L"⟩ := by unfold Codec.short; decide +kernel
  refine ⟨by show 1 < 2 ^ 32; omega, by decide +kernel, hs, request112, ⟨rfl, tcp_ok (by decide +kernel)⟩,
    tcpTidy_of (by decide +kernel) (by decide +kernel) (by decide +kernel) (by decide +kernel),
    by unfold below4G; decide +kernel, by unfold below4G; decide +kernel, ?_, by decide +kernel⟩
  exact serves112 (by simp [hello112]) rfl (request_decoded greeting_ok hs request112 (by show 2 < 2 ^ 32; omega)).2
    (tcp_ok (by decide +kernel)) (by decide +kernel)

/-! ## A concrete run between host and guest -/

/-- `ranAll` on a side of wasm. -/
def ranAllOn {H : Type} (side : Side) (reg : Registry H) (as : List Act) : List (Option (Kind × UInt32 × Bytes × Bytes)) :=
  (List.range as.length).map fun i =>
    match (as[i]? : Option Act) with
    | some (.run t _) =>
      match Wasm.run side reg (as.take i) with
      | .ok (s, _) => match s.tasks[t]? with
        | some (.request k id data md _) => some (k, id, data, md)
        | _ => none
      | _ => none
    | _ => none

theorem ranOn_all {H : Type} {side : Side} {reg : Registry H} {as as1 as2 : List Act} {t : Nat} {ret : Ret} {s1 : St H}
    {t1 : List (Handler.Ev H)} {k : Kind} {id : UInt32} {data md : Bytes} {n : UInt32}
    (h : RanOn side reg as as1 as2 t ret s1 t1 k id data md n) : some (k, id, data, md) ∈ ranAllOn side reg as := by
  refine List.mem_map.2 ⟨as1.length, List.mem_range.2 (by rw [h.split]; simp), ?_⟩
  have h1 : as[as1.length]? = some (.run t ret) := by rw [h.split]; simp
  have h2 : as.take as1.length = as1 := by rw [h.split]; simp
  simp only [h1, h2, h.before, h.task]

/-- What an end is told to do by the moves of a run. -/
theorem wasm_hist_moves {H : Type} {side : Side} {ms : List System.Move} : ∀ {s s' : System.Sys H},
    Wasm.runSysFrom side s ms = .ok s' →
    ∀ i ret, .run i ret ∈ s'.histB → .run i ret ∈ s.histB ∨ .atB (.run i ret) ∈ ms := by
  have hB : ∀ {t t' : System.Sys H} {act : Act}, Wasm.moveB side t act = .ok t' → t'.histB = t.histB ++ [act] := by
    intro t t' act h
    simp only [Wasm.moveB] at h
    split at h
    · cases h; rfl
    · cases h
    · cases h
  have hA : ∀ {t t' : System.Sys H} {act : Act}, Wasm.moveA side t act = .ok t' → t'.histB = t.histB := by
    intro t t' act h
    simp only [Wasm.moveA] at h
    split at h
    · cases h; rfl
    · cases h
    · cases h
  induction ms with
  | nil => intro s s' h i ret hr; cases h; exact .inl hr
  | cons m ms ih =>
    intro s s' h i ret hr
    simp only [Wasm.runSysFrom] at h
    split at h
    · rename_i s1 h1
      rcases ih h i ret hr with h2 | h2
      · cases m with
        | atA act =>
          simp only [Wasm.stepSys] at h1
          split at h1
          · cases h1; exact .inl h2
          · rw [hA h1] at h2; exact .inl h2
        | atB act =>
          simp only [Wasm.stepSys] at h1
          split at h1
          · cases h1; exact .inl h2
          · rw [hB h1] at h2
            rcases List.mem_append.1 h2 with h2 | h2
            · exact .inl h2
            · rw [List.mem_singleton.1 h2]; exact .inr List.mem_cons_self
        | toA r =>
          simp only [Wasm.stepSys] at h1
          split at h1
          · cases h1; exact .inl h2
          · rw [hA h1] at h2; exact .inl h2
        | toB r =>
          simp only [Wasm.stepSys] at h1
          split at h1
          · cases h1; exact .inl h2
          · rw [hB h1] at h2
            rcases List.mem_append.1 h2 with h2 | h2
            · exact .inl h2
            · cases List.mem_singleton.1 h2
      · exact .inr (List.mem_cons_of_mem _ h2)
    · cases h
    · cases h

theorem sys_ok {x : Go (System.Sys Unit)} (h : (match x with | .ok _ => true | _ => false) = true) :
    x = .ok (sysAfter x) := by
  cases x <;> first | rfl | cases h

/-- The greeter of the examples, on the other side of `side`. -/
def retWasm112 (side : Side) : Ret := ⟨StrMono.created.encoded, .created, Wasm.keeps (Wasm.Side.other side)⟩

def movesWasm112 (side : Side) : List System.Move :=
  [.toB noReact, .atB (.run 0 (retWasm112 side)), .atB (.answer 0 (.success ⟨ascii "Hello, Ada L", []⟩)), .toA noReact]

def endWasm112 (side : Side) : System.Sys Unit :=
  sysAfter (Wasm.runSys side oneHandler (Invoke.run Registry.init exports112)
    ([] ++ .atA (.call .rr (pay112 greetingCodec ⟨ascii "Ada", ascii "L"⟩) .created) :: [] ++
      .atA (.subscribeMono 0 (Mono.mapInstalled ⟨true, true, true⟩)) :: movesWasm112 side))

theorem runWasm112 (side : Side) : Wasm.runSys side oneHandler (Invoke.run Registry.init exports112)
    ([] ++ .atA (.call .rr (pay112 greetingCodec ⟨ascii "Ada", ascii "L"⟩) .created) :: [] ++
      .atA (.subscribeMono 0 (Mono.mapInstalled ⟨true, true, true⟩)) :: movesWasm112 side) = .ok (endWasm112 side) :=
  sys_ok (by cases side <;> decide +kernel)

theorem servesWasm112 (side : Side) :
    Serves (RanOn (Wasm.Side.other side) (Invoke.run Registry.init exports112) (endWasm112 side).histB) greetingCodec
      (fun _ m => m = .created) 0 := by
  intro as1 as2 t ret s1 t1 id data md n h ho
  have h1 : ret = retWasm112 side := by
    have h2 : Act.run t ret ∈ (endWasm112 side).histB := by rw [h.split]; simp
    rcases wasm_hist_moves (runWasm112 side) t ret h2 with h3 | h3
    · cases h3
    · simp only [movesWasm112, List.nil_append, List.cons_append, List.mem_cons, List.mem_append, reduceCtorEq, false_or,
        System.Move.atB.injEq, Act.run.injEq, List.not_mem_nil, or_false] at h3
      exact h3.2
  have hall : ∀ x ∈ ranAllOn (Wasm.Side.other side) (Invoke.run Registry.init exports112) (endWasm112 side).histB,
      x = none ∨ x.map (·.2.2.1) = some (pay112 greetingCodec ⟨ascii "Ada", ascii "L"⟩).data := by
    cases side <;> decide +kernel
  have h2 := hall _ (ranOn_all h)
  simp only [reduceCtorEq, false_or, Option.map_some, Option.some.injEq] at h2
  have hs : greetingCodec.short ⟨ascii "Ada", ascii "L"⟩ := by unfold Codec.short; decide +kernel
  obtain ⟨f0, hok⟩ := (request_decoded greeting_ok hs request112 (by show 2 < 2 ^ 32; omega)).2
  refine ⟨fun _ => .created, fun _ => rfl, f0, fun f hf => ?_⟩
  rw [h2, h1]
  simp only [answerRequest, hok f hf, retWasm112]

/-- The hypotheses of C112_wasm_partial are met, whoever calls, and the caller of `SayHello` gets the greeting. -/
example (side : Side) : fewCalls exports112 ∧
    (exportsOf .rr exports112)[(0 : UInt32).toNat]? = some (ascii "greeting", ascii "sayHello", ()) ∧
    greetingCodec.short ⟨ascii "Ada", ascii "L"⟩ ∧
    requestPay (greetingCodec.encode (some ⟨ascii "Ada", ascii "L"⟩)) 0 = .ok (pay112 greetingCodec ⟨ascii "Ada", ascii "L"⟩) ∧
    wasmCall side oneHandler (Invoke.run Registry.init exports112) []
      (.init oneHandler (Invoke.run Registry.init exports112) (Wasm.Side.client side))
      (pay112 greetingCodec ⟨ascii "Ada", ascii "L"⟩) .created []
      (Mono.mapInstalled ⟨true, true, true⟩) (movesWasm112 side) (endWasm112 side) ∧
    Tidy (endWasm112 side) ∧
    Serves (RanOn (Wasm.Side.other side) (Invoke.run Registry.init exports112) (endWasm112 side).histB) greetingCodec
      (fun _ m => m = .created) 0 ∧
    decodedMono ⟨true, true, true⟩ (monoEvs 0 (endWasm112 side).trA) =
      [.success 0 (ascii "Hello, Ada L"), .fin 0 .complete] := by
  have hs : greetingCodec.short ⟨ascii "Ada", ascii "L"⟩ := by unfold Codec.short; decide +kernel
  refine ⟨by show 1 < 2 ^ 32; omega, by decide +kernel, hs, request112, ⟨rfl, runWasm112 side⟩,
    tidy_of ?_ ?_ ?_ ?_, servesWasm112 side, ?_⟩
  all_goals cases side <;> decide +kernel

/-! ## A string of 4 GiB -/

/-- `String.Encode` of a string of 2^32 bytes gives the encoding of the empty string. -/
theorem encode_4G (s md : Bytes) (h : s.length = 2 ^ 32) : encodeString ⟨s, md⟩ = .ok ⟨[0xa0], []⟩ := by
  have h0 : UInt32.ofNat s.length = 0 := by rw [h]; decide +kernel
  have h1 : Sizer.writeCalls [.str s] 0 = 1 := by
    simp only [Sizer.writeCalls, Sizer.writeCall, Sizer.writeString, h0]
    decide
  have h2 : toBytes [.str s] = .ok [0xa0] := by
    simp only [toBytes, h1, writeCalls, writeCall, writeString, h0]
    have h3 : writeStringLength 0 (DR.new (List.replicate (1 : UInt32).toNat 0)) = .ok ⟨[0xa0], 1, none⟩ := by decide
    have h4 : setBytes s ⟨[0xa0], 1, none⟩ = .ok ⟨[0xa0], 1, none⟩ := by
      simp only [setBytes, h0]
      have : check 0 ⟨[0xa0], 1, none⟩ = .ok () ⟨[0xa0], 1, none⟩ := by decide
      simp [this]
    simp only [h3, Enc.seq, Go.bind_ok, h4]
  simp only [encodeString, Transform.string, Transform.of, h2]

def empty112 : Ret := ⟨.just ⟨[0xa0], []⟩, .created, true⟩
def ada112 : TcpSystem.Sys Unit := end112 greetingCodec ⟨ascii "Ada", ascii "L"⟩ empty112 []

theorem call_ada112 : tcpCall oneHandler (Invoke.run Registry.init exports112) true []
      (.init oneHandler (Invoke.run Registry.init exports112) true) (pay112 greetingCodec ⟨ascii "Ada", ascii "L"⟩) .created []
      (Mono.mapInstalled ⟨true, true, true⟩) (moves112 empty112 []) ada112 := ⟨rfl, tcp_ok (by decide +kernel)⟩

theorem seen_ada112 : decodedMono ⟨true, true, true⟩ (monoEvs 0 ada112.trA) = [.success 0 [], .fin 0 .complete] := by
  decide +kernel

theorem short_ada112 : greetingCodec.short ⟨ascii "Ada", ascii "L"⟩ := by unfold Codec.short; decide +kernel

theorem serves_ada112 (s : Bytes) (hl : s.length = 2 ^ 32) :
    Serves (RanAt (Invoke.run Registry.init exports112) (!true) ada112.histB) greetingCodec (fun _ m => m = .just s) 0 := by
  refine serves112 (by simp) ?_ (request_decoded greeting_ok short_ada112 request112 (by show 2 < 2 ^ 32; omega)).2
      call_ada112.2 (by decide +kernel)
  simp only [StrMono.encoded, encode_4G s [] hl, empty112]

theorem tidy_ada112 : TcpTidy ada112 :=
  tcpTidy_of (by decide +kernel) (by decide +kernel) (by decide +kernel) (by decide +kernel)

/-- C112 fails for a greeting of 2^32 bytes: the caller gets an empty string. -/
theorem C112_violated : ¬ C112_statement Unit greetingCodec := by
  intro hc
  have hl : (List.replicate (2 ^ 32) (0 : UInt8)).length = 2 ^ 32 := List.length_replicate
  generalize List.replicate (2 ^ 32) (0 : UInt8) = s at hl
  have := hc _ _ _ _ _ _ _ _ _ _ _ _ _ _ _ ⟨true, true, true⟩ _ (by show 1 < 2 ^ 32; omega)
    (by decide +kernel : (exportsOf .rr exports112)[(0 : UInt32).toNat]? = some (ascii "greeting", ascii "sayHello", ()))
    request112 call_ada112 tidy_ada112 (serves_ada112 s hl)
  have h0 : (TcpSystem.Sys.init oneHandler (Invoke.run Registry.init exports112) true).a.objs.length = 0 := rfl
  rw [h0, seen_ada112] at this
  rcases this with h1 | ⟨x, ⟨as1, as2, t, ret, s1, t1, n, m, h2, h3, h4, h5⟩, h6⟩
  · cases h1
  · have h3 : m = .just s := h3
    subst h3
    simp only [said, Option.some.injEq] at h5
    subst h5
    simp [outcome, strOverWire] at h6
    rw [h6] at hl
    cases hl

end Verif.Props
