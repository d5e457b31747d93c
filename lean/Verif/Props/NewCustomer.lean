import Verif.Model.Customer
import Verif.Props.TypedCalls
/-
Property C122: the `NewCustomer` service of the mesh example.
-/
set_option autoImplicit false
namespace Verif.Props
open Verif Spec Frames Handler Msgpack Typed
open Verif.Customer (Which Answer Env)

/-! ## Specification -/

/-- The first answer to a call. -/
def firstAnswer (w : Which) (as : List (Which × Answer)) : Option Answer := (as.find? (·.1 = w)).map (·.2)

/-- The answers that come after the first answer to a call. -/
def afterAnswer (w : Which) (as : List (Which × Answer)) : List (Which × Answer) := (as.dropWhile (·.1 ≠ w)).tail

/-- The string an answer holds, or why there is none. -/
def answered : Answer → Except String Bytes
  | .value p => decodeString p
  | .error e => .error e

/-- The request for `concat.v1/concat`: a map of both names. -/
def concatRequest (env : Env) : Pay := ⟨fieldMap (stringsFields ⟨env.first, env.last⟩), be32 env.opConcat ++ [0, 0, 0, 0]⟩

/-- The request for `greeting.v1/sayHello`: a map of the name. -/
def helloRequest (env : Env) (n : Bytes) : Pay := ⟨fieldMap (nameFields ⟨n⟩), be32 env.opHello ++ [0, 0, 0, 0]⟩

/-- What should happen, given `read`: what the service does about the answer to a call. -/
def customerEvs (env : Env) (read : Answer → Except String Bytes) (as : List (Which × Answer)) : List Customer.Ev :=
  .called .concat (concatRequest env) ::
    match firstAnswer .concat as with
    | none => []
    | some a =>
      match read a with
      | .error e => [.error e]
      | .ok n => .called .greeting (helloRequest env n) ::
        match firstAnswer .greeting (afterAnswer .concat as) with
        | none => []
        | some b =>
          match read b with
          | .error e => [.error e]
          | .ok m => [.success m]

/-- The requests can be encoded. -/
def shortCustomer (env : Env) (read : Answer → Except String Bytes) (as : List (Which × Answer)) : Prop :=
  stringsCodec.short ⟨env.first, env.last⟩ ∧
  ∀ a n, firstAnswer .concat as = some a → read a = .ok n → nameCodec.short ⟨n⟩

/-- C122 in full: `NewCustomer` calls `concat` with both names, then `sayHello` with the string answered, then answers what that answered;
the failure of a call is its own. -/
def C122_statement : Prop :=
  ∀ (env : Env) (as : List (Which × Answer)), shortCustomer env answered as →
    ∃ s, Customer.run env as = some (.ok s) ∧ s.trace = customerEvs env answered as

/-- An answer that is no string counts as the empty one. -/
def orEmpty (a : Answer) : Except String Bytes :=
  match answered a with
  | .ok s => .ok s
  | .error _ => .ok []

/-- `a` is what a call with payload `p` is answered with by the generated handler of a service of the record type `c`; the
metadata are of no account. -/
def HandlerAnswers {ρ : Type} (c : Codec ρ) (svc : ρ → StrMono) (p : Pay) (a : Answer) : Prop :=
  ∃ q md f0, (∀ f, f0 ≤ f → answerRequest f c.field c.zero svc p.data = some (.just q)) ∧ a = .value ⟨q.data, md⟩

/-! ## Proof -/

theorem get_answered (a : Answer) : ∃ n, orEmpty a = .ok n ∧ Customer.get (some (some a)) = .ok n := by
  cases a with
  | error e => exact ⟨[], rfl, rfl⟩
  | value p =>
    simp only [orEmpty, answered, Customer.get]
    cases decodeString p with
    | ok s => exact ⟨s, rfl, rfl⟩
    | error e => exact ⟨[], rfl, rfl⟩

theorem concat_pay (env : Env) (h : stringsCodec.short ⟨env.first, env.last⟩) :
    requestPay (Strings.encode (some ⟨env.first, env.last⟩)) env.opConcat = .ok (concatRequest env) := by
  simp only [requestPay, (strings_ok.1 _ h).2, Go.bind_ok, concatRequest]

theorem hello_pay (env : Env) (n : Bytes) (h : nameCodec.short ⟨n⟩) :
    requestPay (NameRequest.encode (some ⟨n⟩)) env.opHello = .ok (helloRequest env n) := by
  simp only [requestPay, (name_ok.1 _ h).2, Go.bind_ok, helloRequest]

theorem answers_done (env : Env) (a b : Answer) (tr : List Customer.Ev) (as : List (Which × Answer)) :
    Customer.answers env as ⟨[], 0, 0, some (some a), some (some b), tr⟩ =
      some (.ok ⟨[], 0, 0, some (some a), some (some b), tr⟩) := by
  induction as with
  | nil => rfl
  | cons x as ih =>
    obtain ⟨w, c⟩ := x
    cases w <;> simp only [Customer.answers, Customer.answer, ih]

theorem answers_hello (env : Env) (a : Answer) (tr : List Customer.Ev) (as : List (Which × Answer)) :
    ∃ s, Customer.answers env as ⟨[.reply], 0, 1, some (some a), some none, tr⟩ = some (.ok s) ∧
      s.trace = tr ++ match firstAnswer .greeting as with
        | none => []
        | some b => match orEmpty b with
          | .error e => [.error e]
          | .ok m => [.success m] := by
  induction as with
  | nil => exact ⟨_, rfl, by simp [firstAnswer]⟩
  | cons x as ih =>
    obtain ⟨w, b⟩ := x
    cases w with
    | concat =>
      have h1 : firstAnswer .greeting ((Which.concat, b) :: as) = firstAnswer .greeting as := by simp [firstAnswer]
      rw [h1]
      simpa only [Customer.answers, Customer.answer] using ih
    | greeting =>
      obtain ⟨m, h1, h2⟩ := get_answered b
      have h3 : firstAnswer .greeting ((Which.greeting, b) :: as) = some b := by simp [firstAnswer]
      simp only [Customer.answers, Customer.answer, Customer.check, Customer.next, h2, h3, h1, ge_iff_le, Nat.zero_add,
        Nat.le_refl, if_true]
      rw [answers_done]
      exact ⟨_, rfl, rfl⟩

theorem answers_concat (env : Env) (tr : List Customer.Ev) (as : List (Which × Answer))
    (hs : ∀ a n, firstAnswer .concat as = some a → orEmpty a = .ok n → nameCodec.short ⟨n⟩) :
    ∃ s, Customer.answers env as ⟨[.greet, .reply], 0, 1, some none, none, tr⟩ = some (.ok s) ∧
      s.trace = tr ++ match firstAnswer .concat as with
        | none => []
        | some a => match orEmpty a with
          | .error e => [.error e]
          | .ok n => .called .greeting (helloRequest env n) ::
            match firstAnswer .greeting (afterAnswer .concat as) with
            | none => []
            | some b => match orEmpty b with
              | .error e => [.error e]
              | .ok m => [.success m] := by
  induction as with
  | nil => exact ⟨_, rfl, by simp [firstAnswer]⟩
  | cons x as ih =>
    obtain ⟨w, a⟩ := x
    cases w with
    | greeting =>
      have h1 : firstAnswer .concat ((Which.greeting, a) :: as) = firstAnswer .concat as := by simp [firstAnswer]
      have h2 : afterAnswer .concat ((Which.greeting, a) :: as) = afterAnswer .concat as := by simp [afterAnswer]
      rw [h1] at hs ⊢
      rw [h2]
      simpa only [Customer.answers, Customer.answer] using ih hs
    | concat =>
      obtain ⟨n, h1, h2⟩ := get_answered a
      have h3 : firstAnswer .concat ((Which.concat, a) :: as) = some a := by simp [firstAnswer]
      have h4 : afterAnswer .concat ((Which.concat, a) :: as) = as := by simp [afterAnswer]
      have h5 := hello_pay env n (hs a n h3 h1)
      simp only [Customer.answers, Customer.answer, Customer.check, Customer.next, h2, h3, h4, h5, h1, ge_iff_le, Nat.zero_add,
        Nat.le_refl, if_true]
      obtain ⟨s, h6, h7⟩ := answers_hello env a (tr ++ [.called .greeting (helloRequest env n)]) as
      refine ⟨s, h6, ?_⟩
      rw [h7, List.append_assoc]
      rfl

/-- What `NewCustomer` does, for any answers: it goes on with the empty string where a call failed. -/
theorem C122_exact (env : Env) (as : List (Which × Answer)) (hs : shortCustomer env orEmpty as) :
    ∃ s, Customer.run env as = some (.ok s) ∧ s.trace = customerEvs env orEmpty as := by
  obtain ⟨s, h1, h2⟩ := answers_concat env [.called .concat (concatRequest env)] as hs.2
  refine ⟨s, ?_, ?_⟩
  · simp only [Customer.run, Customer.next, concat_pay env hs.1]
    exact h1
  · rw [h2]
    rfl

theorem orEmpty_ok {a : Answer} {s : Bytes} (h : answered a = .ok s) : orEmpty a = .ok s := by
  simp only [orEmpty, h]

/-- C122, partial: both calls are answered with strings (or not answered). Missing: calls that fail, whose failure
is ignored. -/
theorem C122_partial (env : Env) (as : List (Which × Answer)) (hs : shortCustomer env answered as)
    (h1 : ∀ a, firstAnswer .concat as = some a → ∃ n, answered a = .ok n)
    (h2 : ∀ b, firstAnswer .greeting (afterAnswer .concat as) = some b → ∃ m, answered b = .ok m) :
    ∃ s, Customer.run env as = some (.ok s) ∧ s.trace = customerEvs env answered as := by
  have hs' : shortCustomer env orEmpty as := by
    refine ⟨hs.1, fun a n ha hn => ?_⟩
    obtain ⟨n', h3⟩ := h1 a ha
    rw [orEmpty_ok h3] at hn
    cases hn
    exact hs.2 a n ha h3
  obtain ⟨s, h3, h4⟩ := C122_exact env as hs'
  refine ⟨s, h3, ?_⟩
  rw [h4]
  simp only [customerEvs]
  cases ha : firstAnswer .concat as with
  | none => rfl
  | some a =>
    obtain ⟨n, h5⟩ := h1 a ha
    simp only [h5, orEmpty_ok h5]
    cases hb : firstAnswer .greeting (afterAnswer .concat as) with
    | none => rfl
    | some b =>
      obtain ⟨m, h6⟩ := h2 b hb
      simp only [h6, orEmpty_ok h6]

theorem handler_just {ρ : Type} {c : Codec ρ} {ok : Val → Prop} (hc : RecordOK c.fields c.encode c.field c.zero ok) {r : ρ}
    (hr : c.short r) {op : UInt32} {p : Pay} (hp : requestPay (c.encode (some r)) op = .ok p)
    (hn : (c.fields r).length < 2 ^ 32) {svc : ρ → StrMono} {x : Bytes} (hx : svc r = .just x) (hl : (str x).length < 2 ^ 32)
    {a : Answer} (ha : HandlerAnswers c svc p a) : answered a = .ok x := by
  obtain ⟨q, md, f0, h1, rfl⟩ := ha
  obtain ⟨-, f1, h2⟩ := request_decoded hc hr hp hn
  have h1 := h1 (max f0 f1) (by omega)
  obtain ⟨w, h3, h4⟩ := string_coded x [] md hl
  simp only [answerRequest, h2 (max f0 f1) (by omega), hx, StrMono.encoded, h3] at h1
  cases h1
  exact h4

theorem str_le (s : Bytes) : (str s).length ≤ s.length + 5 := by
  simp only [str, strHead, List.length_append]
  have h1 : ∀ n, (bigEndian 1 n).length = 1 := fun _ => rfl
  have h2 : ∀ n, (bigEndian 2 n).length = 2 := fun _ => rfl
  have h4 : ∀ n, (bigEndian 4 n).length = 4 := fun _ => rfl
  split
  · simp only [List.length_singleton]; omega
  · split
    · simp only [List.length_cons, h1]; omega
    · split
      · simp only [List.length_cons, h2]; omega
      · simp only [List.length_cons, h4]; omega

theorem strings_short (l r : Bytes) (h : l.length + r.length < 2 ^ 32 - 100) : stringsCodec.short ⟨l, r⟩ := by
  have h1 := str_le l
  have h2 := str_le r
  have h3 : (str (ascii "left")).length = 5 := by decide +kernel
  have h4 : (str (ascii "right")).length = 6 := by decide +kernel
  have h5 : (mapHead 2).length = 1 := rfl
  simp only [Codec.short, stringsCodec, stringsFields, fieldMap, fieldBytes, Val.enc, List.length_append, List.length_cons,
    List.length_nil, h3, h4, h5]
  omega

theorem name_short (n : Bytes) (h : n.length < 2 ^ 32 - 50) : nameCodec.short ⟨n⟩ := by
  have h1 := str_le n
  have h3 : (str (ascii "name")).length = 5 := by decide +kernel
  have h5 : (mapHead 1).length = 1 := rfl
  simp only [Codec.short, nameCodec, nameFields, fieldMap, fieldBytes, Val.enc, List.length_append, List.length_cons,
    List.length_nil, h3, h5]
  omega

/-- C122 for the modules of the example: if the calls are answered by the handlers of `Concat` and `SayHello`, the caller
of `NewCustomer` gets "Hello, " and both names. -/
theorem C122_greets (env : Env) (as : List (Which × Answer)) (a b : Answer)
    (hs : env.first.length + env.last.length < 2 ^ 32 - 100)
    (ha : firstAnswer .concat as = some a) (hb : firstAnswer .greeting (afterAnswer .concat as) = some b)
    (h1 : HandlerAnswers stringsCodec Customer.concat (concatRequest env) a)
    (h2 : HandlerAnswers nameCodec Customer.sayHello (helloRequest env (env.first ++ ascii " " ++ env.last)) b) :
    ∃ s, Customer.run env as = some (.ok s) ∧
      s.trace = [.called .concat (concatRequest env),
        .called .greeting (helloRequest env (env.first ++ ascii " " ++ env.last)),
        .success (ascii "Hello, " ++ (env.first ++ ascii " " ++ env.last))] := by
  have l1 : (ascii " ").length = 1 := by decide +kernel
  have l2 : (ascii "Hello, ").length = 7 := by decide +kernel
  have c1 := strings_short env.first env.last hs
  have l3 : (env.first ++ ascii " " ++ env.last).length = env.first.length + 1 + env.last.length := by
    simp only [List.length_append, l1]
  have c2 := name_short (env.first ++ ascii " " ++ env.last) (by rw [l3]; omega)
  have s1 : (str (env.first ++ ascii " " ++ env.last)).length < 2 ^ 32 := by
    have := str_le (env.first ++ ascii " " ++ env.last)
    omega
  have s2 : (str (ascii "Hello, " ++ (env.first ++ ascii " " ++ env.last))).length < 2 ^ 32 := by
    have := str_le (ascii "Hello, " ++ (env.first ++ ascii " " ++ env.last))
    rw [List.length_append, l2] at this
    omega
  have h3 : answered a = .ok (env.first ++ ascii " " ++ env.last) :=
    handler_just (c := stringsCodec) strings_ok c1 (concat_pay env c1) (show 2 < 2 ^ 32 by omega) rfl s1 h1
  have h4 : answered b = .ok (ascii "Hello, " ++ (env.first ++ ascii " " ++ env.last)) :=
    handler_just (c := nameCodec) name_ok c2 (hello_pay env _ c2) (show 1 < 2 ^ 32 by omega) rfl s2 h2
  obtain ⟨s, h5, h6⟩ := C122_partial env as
    ⟨c1, fun a' n h h' => by rw [ha] at h; cases h; rw [h3] at h'; cases h'; exact c2⟩
    (fun a' h => by rw [ha] at h; cases h; exact ⟨_, h3⟩) (fun b' h => by rw [hb] at h; cases h; exact ⟨_, h4⟩)
  refine ⟨s, h5, ?_⟩
  rw [h6]
  simp only [customerEvs, ha, hb, h3, h4]

/-! ## The violation -/

def env122 : Env := ⟨ascii "Ada", ascii "L", 3, 4⟩

theorem failed122 : ((Customer.run env122 [(.concat, .error "no such module"), (.greeting, .value ⟨str (ascii "Hello, "), []⟩)]).map
    fun | .ok s => s.trace.getLast? | _ => none) = some (some (.success (ascii "Hello, "))) := by decide +kernel

/-- C122 fails: if the call of `concat` fails, `sayHello` is called with the empty name, and the caller of `NewCustomer` is greeted by it
instead of getting the error. -/
theorem C122_violated : ¬ C122_statement := by
  intro h
  obtain ⟨s, h1, h2⟩ := h env122 [(.concat, .error "no such module"), (.greeting, .value ⟨str (ascii "Hello, "), []⟩)]
    ⟨strings_short _ _ (by decide +kernel), fun a n h h' => by cases h; cases h'⟩
  have h3 := failed122
  rw [h1] at h3
  simp only [Option.map_some, h2] at h3
  have h4 : (customerEvs env122 answered [(.concat, .error "no such module"),
      (.greeting, .value ⟨str (ascii "Hello, "), []⟩)]).getLast? = some (.error "no such module") := rfl
  rw [h4] at h3
  cases h3

/-! ## Examples -/

/-- Both handlers answer; a late second answer to the first call changes nothing. -/
example : ∃ a b, HandlerAnswers stringsCodec Customer.concat (concatRequest env122) a ∧
    HandlerAnswers nameCodec Customer.sayHello (helloRequest env122 (ascii "Ada L")) b ∧
    ∃ s, Customer.run env122 [(.greeting, .error "early"), (.concat, a), (.concat, .error "late"), (.greeting, b)] = some (.ok s) ∧
      s.trace = [.called .concat (concatRequest env122), .called .greeting (helloRequest env122 (ascii "Ada L")),
        .success (ascii "Hello, Ada L")] := by
  have c1 : stringsCodec.short ⟨env122.first, env122.last⟩ := strings_short _ _ (by decide +kernel)
  have c2 : nameCodec.short ⟨ascii "Ada L"⟩ := name_short _ (by decide +kernel)
  have e1 : env122.first ++ ascii " " ++ env122.last = ascii "Ada L" := by decide +kernel
  have e2 : ascii "Hello, " ++ ascii "Ada L" = ascii "Hello, Ada L" := by decide +kernel
  obtain ⟨-, f0, h1⟩ := request_decoded (c := stringsCodec) strings_ok c1 (concat_pay env122 c1) (show 2 < 2 ^ 32 by omega)
  obtain ⟨-, f1, h2⟩ := request_decoded (c := nameCodec) name_ok c2 (hello_pay env122 _ c2) (show 1 < 2 ^ 32 by omega)
  obtain ⟨w1, h3, -⟩ := string_coded (ascii "Ada L") [] [] (by decide +kernel)
  obtain ⟨w2, h4, -⟩ := string_coded (ascii "Hello, Ada L") [] [] (by decide +kernel)
  have a1 : HandlerAnswers stringsCodec Customer.concat (concatRequest env122) (.value ⟨w1, [7]⟩) := by
    refine ⟨⟨w1, []⟩, [7], f0, fun f hf => ?_, rfl⟩
    simp only [answerRequest, h1 f hf, Customer.concat, e1, StrMono.encoded, h3]
  have a2 : HandlerAnswers nameCodec Customer.sayHello (helloRequest env122 (ascii "Ada L")) (.value ⟨w2, []⟩) := by
    refine ⟨⟨w2, []⟩, [], f1, fun f hf => ?_, rfl⟩
    simp only [answerRequest, h2 f hf, Customer.sayHello, e2, StrMono.encoded, h4]
  refine ⟨_, _, a1, a2, ?_⟩
  have := C122_greets env122 [(.greeting, .error "early"), (.concat, .value ⟨w1, [7]⟩), (.concat, .error "late"),
    (.greeting, .value ⟨w2, []⟩)] _ _ (by decide +kernel) rfl rfl a1 (by rw [e1]; exact a2)
  rw [e1, e2] at this
  exact this

/-- C122_exact with a call that is never answered. -/
example : shortCustomer env122 orEmpty [(.concat, .error "x")] ∧
    customerEvs env122 orEmpty [(.concat, .error "x")] =
      [.called .concat (concatRequest env122), .called .greeting (helloRequest env122 [])] :=
  ⟨⟨strings_short _ _ (by decide +kernel), fun a n h h' => by cases h; cases h'; exact name_short _ (by decide +kernel)⟩, rfl⟩

end Verif.Props
