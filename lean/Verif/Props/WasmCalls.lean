import Verif.Props.WasmSim
import Verif.Props.SystemFnf
/-
Property C98: request/response and fire-and-forget over wasm, in both directions.
-/
set_option autoImplicit false
namespace Verif.Props
open Verif Frames Handler
open Verif.Invoke (Kind Registry getHandler)
open Verif.System (Sys Move)
open Verif.WasmRecv (Side)

section
variable {H : Type}

/-! ## Specification

A host and its guest are run (`Wasm.runSys`). End A is the host or the guest, as `side` says, and end B the other one.
After `pre`, end A calls an operation with payload `p`, things go on (`mid`), A subscribes to the mono the call
returned (`inst` are the callbacks it installs), and things go on (`post`). The call is stream number
`s0.a.objs.length` of A and has the id `callId s0.a`. `monoEvs` are the callbacks A's application sees,
`outcome 0 inst [sig]` those of a mono resolved with `sig` (C22). -/

/-- The run described above, ending in `s`. -/
def wasmCall (side : Side) (regA regB : Registry H) (pre : List Move) (s0 : Sys H) (p : Pay) (src : Src)
    (mid : List Move) (inst : Mono.Installed) (post : List Move) (s : Sys H) : Prop :=
  Wasm.runSys side regA regB pre = .ok s0 ∧
  Wasm.runSys side regA regB (pre ++ .atA (.call .rr p src) :: mid ++
    .atA (.subscribeMono s0.a.objs.length inst) :: post) = .ok s

/-- The same with a fire-and-forget call, which has nothing to subscribe to. -/
def wasmFnf (side : Side) (regA regB : Registry H) (pre : List Move) (s0 : Sys H) (p : Pay) (src : Src)
    (post : List Move) (s : Sys H) : Prop :=
  Wasm.runSys side regA regB pre = .ok s0 ∧
  Wasm.runSys side regA regB (pre ++ .atA (.call .fnf p src) :: post) = .ok s

/-- A request was run at this point of the history of an end on side `side`. -/
structure RanOn (side : Side) (reg : Registry H) (as as1 as2 : List Act) (t : Nat) (ret : Ret)
    (s1 : St H) (t1 : List (Handler.Ev H)) (k : Kind) (id : UInt32) (data md : Bytes) (n : UInt32) : Prop where
  split : as = as1 ++ .run t ret :: as2
  before : Wasm.run side reg as1 = .ok (s1, t1)
  task : s1.tasks[t]? = some (.request k id data md n)

/-- What became of the request/response request `id` with payload `p` at the end on side `side` with the exported
operations `reg`, by its history `as`. When it was run, it was rejected, or the operation it names was invoked,
returning `ret`; then the answer is what that mono has come to since (none: nothing yet). -/
inductive HandledOn (side : Side) (reg : Registry H) (id : UInt32) (p : Pay) (as : List Act) :
    Option (Mono.Sig Pay) → Prop
  | rejected (as1 as2 : List Act) (t : Nat) (ret : Ret) (s1 : St H) (t1 : List (Handler.Ev H)) (n : UInt32)
      (ran : RanOn side reg as as1 as2 t ret s1 t1 .rr id p.data p.metadata n)
      (bad : exported reg .rr p.metadata = none) :
      HandledOn side reg id p as
        (some (.error (some (if p.metadata.length < 8 then "Invalid metadata" else "not_found"))))
  | served (as1 as2 : List Act) (t : Nat) (ret : Ret) (s1 : St H) (t1 : List (Handler.Ev H)) (n : UInt32)
      (ran : RanOn side reg as as1 as2 t ret s1 t1 .rr id p.data p.metadata n)
      (good : (exported reg .rr p.metadata).isSome = true) :
      HandledOn side reg id p as (resolution ret.mono (answerSigs s1.objs.length as2))

/-- What has to become of a request on side `side`: a rejection if the metadata is shorter than 8 bytes or names
no exported operation, an invocation of that operation otherwise. The handlers of the guest get the metadata of
request/response and fire-and-forget without the first 8 bytes, those of the host get all of it. -/
def wasmVerdict (side : Side) (calls : List (Invoke.Call H)) (k : Kind) (id : UInt32) (data md : Bytes) : Verdict H :=
  if md.length < 8 then .rejected id
  else match (exportsOf k calls)[opIdOf md]? with
    | none => .rejected id
    | some (_, _, h) => .invoked k h id ⟨data, if side = .guest ∧ (k = .rr ∨ k = .fnf) then md.drop 8 else md⟩

/-! ## From one transport to the other -/

theorem wasm_run_prefix {side : Side} {reg : Registry H} {a b : List Act} {s : St H} {tr : List (Handler.Ev H)}
    (h : Wasm.run side reg (a ++ b) = .ok (s, tr)) :
    ∃ s1 t1 t2, Wasm.run side reg a = .ok (s1, t1) ∧ tr = t1 ++ t2 := by
  unfold Wasm.run at h ⊢
  rw [wasm_runFrom_append] at h
  obtain ⟨s1, t1, t2, h1, -, h3⟩ := andThen_ok h
  exact ⟨s1, t1, t2, h1, h3⟩

theorem ranOn {side : Side} {reg : Registry H} {as as1 as2 : List Act} {t : Nat} {ret : Ret}
    {s s1 : St H} {tr t1 : List (Handler.Ev H)} {k : Kind} {id : UInt32} {data md : Bytes} {n : UInt32}
    (hw : Wasm.run side reg as = .ok (s, tr)) (hf : ∀ f ∈ handedOver as, fits f)
    (h : RanAt reg (Wasm.Side.client side) as as1 as2 t ret s1 t1 k id data md n) :
    ∃ t1', RanOn side reg as as1 as2 t ret s1 t1' k id data md n := by
  have hs := h.split
  rw [hs] at hw hf
  obtain ⟨s1', t1', -, h1, -⟩ := wasm_run_prefix hw
  obtain ⟨t', h2, -⟩ := run_alike as1 h1 fun f hm => hf f (by rw [handedOver_append]; exact List.mem_append_left _ hm)
  have := h.before
  rw [h2] at this
  cases this
  exact ⟨t1', hs, h1, h.task⟩

/-- What a run of both sides has in common with one over rsocket. -/
structure OverRsocket (side : Side) (regA regB : Registry H) (ms : List Move) (s s' : Sys H) : Prop where
  run : System.run regA regB (Wasm.Side.client side) ms = .ok s'
  alike : SysAlike side s s'
  endA : Wasm.run side regA s.histA = .ok (s.a, s.trA)
  endB : Wasm.run (Wasm.Side.other side) regB s.histB = .ok (s.b, s.trB)
  fitsA : ∀ f ∈ handedOver s.histA, fits f
  fitsB : ∀ f ∈ handedOver s.histB, fits f

theorem overRsocket {side : Side} {regA regB : Registry H} {ms : List Move} {s : Sys H}
    (h : Wasm.runSys side regA regB ms = .ok s) : ∃ s', OverRsocket side regA regB ms s s' := by
  obtain ⟨s', h1, h2⟩ := runSys_alike ms h
  obtain ⟨h3, h4⟩ := runSys_ends ms h
  have hj := joined_run _ h1
  exact ⟨s', h1, h2, h3, h4, fun f hf => fitsA hj f (.inl (by rw [h2.histA]; exact hf)),
    fun f hf => fitsB hj f (.inl (by rw [h2.histB]; exact hf))⟩

section
variable {side : Side} {regA regB : Registry H} {ms : List Move} {s s' : Sys H}

theorem OverRsocket.tidy (h : OverRsocket side regA regB ms s s') (ht : Tidy s) : Tidy s' :=
  ⟨by rw [h.alike.histA]; exact ht.callsA, by rw [h.alike.histB]; exact ht.callsB,
    by rw [h.alike.histA]; exact ht.onceA, by rw [h.alike.histB]; exact ht.onceB⟩

theorem OverRsocket.settled (h : OverRsocket side regA regB ms s s') {x : UInt32} (hs : settled s x) : settled s' x := by
  obtain ⟨h1, h2, h3⟩ := hs
  exact ⟨h.alike.ab.trans h1, h.alike.ba.trans h2, by rw [h.alike.b]; exact h3⟩

theorem OverRsocket.monoEvs (h : OverRsocket side regA regB ms s s') (j : Nat) : monoEvs j s.trA = monoEvs j s'.trA :=
  h.alike.trA.filterMap _ (fun _ => rfl) (fun _ _ _ _ => rfl)

end

theorem handledOn {side : Side} {reg : Registry H} {as : List Act} {s : St H} {tr : List (Handler.Ev H)}
    {x : UInt32} {p : Pay} {r : Option (Mono.Sig Pay)}
    (hw : Wasm.run side reg as = .ok (s, tr)) (hf : ∀ f ∈ handedOver as, fits f)
    (h : Handled reg (Wasm.Side.client side) x p as r) : HandledOn side reg x p as r := by
  cases h with
  | rejected as1 as2 t ret s1 t1 n ran bad =>
    obtain ⟨t1', h⟩ := ranOn hw hf ran
    exact .rejected as1 as2 t ret s1 t1' n h bad
  | served as1 as2 t ret s1 t1 n ran good =>
    obtain ⟨t1', h⟩ := ranOn hw hf ran
    exact .served as1 as2 t ret s1 t1' n h good

/-! ## C98 -/

/-- C98: what the callbacks of a call see, at any point of any run, is nothing, or what the other side's application has
answered to this very call. -/
theorem C98_answer (side : Side) (regA regB : Registry H) (pre mid post : List Move) (s0 s : Sys H) (p : Pay)
    (src : Src) (inst : Mono.Installed) (h : wasmCall side regA regB pre s0 p src mid inst post s) (ht : Tidy s) :
    monoEvs s0.a.objs.length s.trA = [] ∨
    ∃ sig, HandledOn (Wasm.Side.other side) regB (callId s0.a) p s.histB (some sig) ∧
      monoEvs s0.a.objs.length s.trA = outcome 0 inst [overWire sig] := by
  obtain ⟨s0', h0⟩ := overRsocket h.1
  obtain ⟨s', h1⟩ := overRsocket h.2
  have e0 := h0.alike.a
  have := C87_answer regA regB (Wasm.Side.client side) pre mid post s0' s' p src inst
    ⟨h0.run, by rw [e0]; exact h1.run⟩ (h1.tidy ht)
  rw [e0, ← h1.monoEvs] at this
  rcases this with h2 | ⟨sig, h2, h3⟩
  · exact .inl h2
  · refine .inr ⟨sig, ?_, h3⟩
    rw [← other_client, h1.alike.histB] at h2
    exact handledOn h1.endB h1.fitsB h2

/-- C98: once nothing of it is under way, the callbacks have seen exactly what the other side's application has
answered, if it has. -/
theorem C98_completes (side : Side) (regA regB : Registry H) (pre mid post : List Move) (s0 s : Sys H) (p : Pay)
    (src : Src) (inst : Mono.Installed) (h : wasmCall side regA regB pre s0 p src mid inst post s) (ht : Tidy s)
    (hq : settled s (callId s0.a)) :
    ∃ r, HandledOn (Wasm.Side.other side) regB (callId s0.a) p s.histB r ∧
      monoEvs s0.a.objs.length s.trA = outcome 0 inst (r.map overWire).toList := by
  obtain ⟨s0', h0⟩ := overRsocket h.1
  obtain ⟨s', h1⟩ := overRsocket h.2
  have e0 := h0.alike.a
  obtain ⟨r, h2, h3⟩ := C87_completes regA regB (Wasm.Side.client side) pre mid post s0' s' p src inst
    ⟨h0.run, by rw [e0]; exact h1.run⟩ (h1.tidy ht) (by rw [e0]; exact h1.settled hq)
  rw [e0] at h2 h3
  rw [← h1.monoEvs] at h3
  refine ⟨r, ?_, h3⟩
  rw [← other_client, h1.alike.histB] at h2
  exact handledOn h1.endB h1.fitsB h2

/-! ## Invocations -/

/-- A verdict without the payload. -/
def Verdict.bare : Verdict H → Verdict H
  | .invoked k h id _ => .invoked k h id ⟨[], []⟩
  | v => v

theorem Verdict.bare_id (v : Verdict H) : v.bare.id = v.id := by cases v <;> rfl

theorem verdicts_alike {side : Side} {a a' : List (Handler.Ev H)} (h : Alike side a a') :
    (verdicts a).map Verdict.bare = (verdicts a').map Verdict.bare := by
  induction h with
  | nil => rfl
  | @same e l l' _ ih =>
    have key : ∀ l : List (Handler.Ev H), verdicts (e :: l) = verdicts [e] ++ verdicts l :=
      fun l => verdicts_append [e] l
    rw [key l, key l', List.map_append, List.map_append, ih]
  | refused m _ ih => exact ih
  | prefixed k hd id data md hs hk _ ih => simp only [verdicts, List.map_cons, ih]; rfl

theorem filter_bare (x : UInt32) (l : List (Verdict H)) :
    (l.filter fun v => decide (v.id = x)).map Verdict.bare = (l.map Verdict.bare).filter fun v => decide (v.id = x) := by
  induction l with
  | nil => rfl
  | cons v l ih =>
    simp only [List.filter_cons, List.map_cons, Verdict.bare_id]
    split
    · simp [ih]
    · exact ih

theorem mem_verdicts_invoked {k : Kind} {h : H} {id : UInt32} {p : Pay} (l : List (Handler.Ev H)) :
    .invoked k h id p ∈ verdicts l ↔ .invoked k h id p ∈ l := by
  induction l with
  | nil => simp [verdicts]
  | cons e l ih =>
    rw [show verdicts (e :: l) = verdicts [e] ++ verdicts l from verdicts_append [e] l, List.mem_append, ih]
    have : .invoked k h id p ∈ verdicts [e] ↔ Handler.Ev.invoked k h id p = e := by
      cases e with
      | invoked k' h' id' p' => simp [verdicts]
      | sent b f => cases b <;> cases f <;> simp [verdicts]
      | _ => simp [verdicts]
    rw [this, List.mem_cons]

theorem openVerdicts_requests (calls : List (Invoke.Call H)) (ts : List Task) :
    openVerdicts calls (requestsOf ts) = openVerdicts calls ts := by
  induction ts with
  | nil => rfl
  | cons t ts ih =>
    cases t with
    | request k id data md n => exact congrArg (_ :: ·) ih
    | _ => exact ih

/-- Only a request goroutine invokes handlers. -/
theorem invoked_run {calls : List (Invoke.Call H)} (hc : fewCalls calls) {s s' : St H} {a : Act}
    {e : List (Handler.Ev H)} (hr : s.reg = Invoke.run Registry.init calls)
    (h : settle s (Handler.step s a) = .ok (s', e)) (hv : verdicts e ≠ []) :
    ∃ t ret k id data md n, a = .run t ret ∧ s.tasks[t]? = some (.request k id data md n) := by
  have hacct := (acct_settle calls hc s a s' e h hr).2
  cases settle_shape _ _ _ _ h with
  | calm a s' e h1 h2 h3 h4 h5 h6 h7 h8 =>
    exfalso
    have hd : dueVerdicts calls [a] = [] := by
      cases a with
      | frame f r =>
        have h9 := h7 f r rfl
        cases f with
        | request v =>
          simp only [isRequestFrame] at h9
          simp only [dueVerdicts, ← requestKind_eq]
          cases hk : kindOfType v.frameType with
          | none => rfl
          | some k => rw [hk] at h9; cases h9
        | _ => rfl
      | _ => rfl
    rw [hd, List.append_nil, ← openVerdicts_requests, ← openVerdicts_requests calls s'.tasks, h2] at hacct
    have := hacct.length_eq
    rw [List.length_append] at this
    exact hv (List.length_eq_zero_iff.mp (by omega))
  | request => exact absurd rfl hv
  | serve t ret k id data md n s' e ht _ => exact ⟨t, ret, k, id, data, md, n, rfl, ht⟩
  | call k p input => exact absurd (by cases k <;> rfl) hv

theorem wasmServe_invoked {side : Side} {s s' : St H} {k k' : Kind} {id id' : UInt32} {data md : Bytes} {n : UInt32}
    {ret : Ret} {e : List (Handler.Ev H)} {hd : H} {p : Pay}
    (h : Wasm.serve side s k id data md n ret = .ok (s', e)) (hm : .invoked k' hd id' p ∈ e) :
    k' = k ∧ id' = id ∧ p = ⟨data, WasmRecv.handlerMeta side k md⟩ := by
  unfold Wasm.serve at h
  split at h
  · cases h; simp at hm
  · obtain ⟨op, -, h⟩ := bind_ok_inv h
    split at h
    · cases h; simp at hm
    · have key : ∀ (l : List (Handler.Ev H)), (∀ x ∈ l, ∃ i, x.obj = some i) → .invoked k' hd id' p ∉ l := by
        intro l hl hm
        obtain ⟨i, hi⟩ := hl _ hm
        cases hi
      have ho : ∀ j, ∀ x ∈ (if WasmRecv.registers side k then [(.opened id j : Handler.Ev H)] else []),
          ∃ i, x.obj = some i := by
        intro j x hx
        split at hx
        · simp at hx; subst hx; exact ⟨_, rfl⟩
        · cases hx
      dsimp only at h
      cases k with
      | rr =>
        dsimp only at h
        obtain ⟨es, he, h⟩ := bind_ok_inv h
        cases h
        rcases List.mem_cons.mp hm with hm | hm
        · cases hm; exact ⟨rfl, rfl, rfl⟩
        · exact absurd hm (key _ fun x hx => ⟨_, answerEvs_obj _ _ _ _ he x hx⟩)
      | _ =>
        cases h
        rcases List.mem_append.mp hm with hm | hm
        · exact absurd hm (key _ (ho _))
        · simp at hm; obtain ⟨rfl, rfl, rfl, rfl⟩ := hm; exact ⟨rfl, rfl, rfl⟩

/-- What a handler was invoked with comes from a request frame. -/
theorem invoked_origin {side : Side} {calls : List (Invoke.Call H)} (hc : fewCalls calls) (as : List Act) :
    ∀ {s : St H} {tr : List (Handler.Ev H)}, Wasm.run side (Invoke.run Registry.init calls) as = .ok (s, tr) →
    (∀ f ∈ handedOver as, fits f) → ∀ k hd id p, .invoked k hd id p ∈ tr →
    ∃ f, .request f ∈ handedOver as ∧ f.streamID = id ∧
      p = ⟨f.data, WasmRecv.handlerMeta side k f.metadata⟩ := by
  induction as using snoc_induction with
  | nil => intro s tr h _ k hd id p hm; cases h; cases hm
  | snoc as a ih =>
    intro s' tr h hf k hd id p hm
    have hf1 : ∀ f ∈ handedOver as, fits f := fun f q => hf f (by rw [handedOver_append]; exact List.mem_append_left _ q)
    obtain ⟨s, t, e, h1, h2, rfl⟩ := wasm_run_snoc_inv h
    rcases List.mem_append.mp hm with hm | hm
    · obtain ⟨f, q1, q2⟩ := ih h1 hf1 k hd id p hm
      exact ⟨f, by rw [handedOver_append]; exact List.mem_append_left _ q1, q2⟩
    · obtain ⟨tr', r1, -⟩ := run_alike as h1 hf1
      have hfa : ∀ f r, a = .frame f r → fits f := by
        rintro f r rfl
        exact hf f (by rw [handedOver_append]; exact List.mem_append_right _ (List.mem_singleton.mpr rfl))
      obtain ⟨e', r2, r3⟩ := step_alike hfa h2
      have hv : verdicts e' ≠ [] := by
        intro q
        have := verdicts_alike r3
        rw [q, List.map_nil, List.map_eq_nil_iff] at this
        have hm := (mem_verdicts_invoked e).mpr hm
        rw [this] at hm; cases hm
      obtain ⟨tk, ret, k', id', data, md, n, rfl, ht⟩ := invoked_run hc (reg_run as r1) r2 hv
      simp only [Wasm.step] at h2
      split at h2
      · cases h2
      rw [ht] at h2
      obtain ⟨rfl, rfl, rfl⟩ := wasmServe_invoked h2 hm
      obtain ⟨f, r, q1, q2, q3, rfl, rfl⟩ := task_origin as r1 _ _ _ _ _ (List.mem_of_getElem? ht)
      refine ⟨f, ?_, q3, rfl⟩
      rw [handedOver_append]
      exact List.mem_append_left _ (handedOver_mem q1)

theorem handlerMeta_eq (side : Side) (k : Kind) (md : Bytes) : WasmRecv.handlerMeta side k md =
    if side = .guest ∧ (k = .rr ∨ k = .fnf) then md.drop 8 else md := by
  cases side <;> cases k <;> simp [WasmRecv.handlerMeta]

/-- From the verdict over rsocket to the one over wasm. -/
theorem verdict_on {side : Side} {calls : List (Invoke.Call H)} (hc : fewCalls calls) {as : List Act}
    {s : St H} {tr tr' : List (Handler.Ev H)} (h : Wasm.run side (Invoke.run Registry.init calls) as = .ok (s, tr))
    (hf : ∀ f ∈ handedOver as, fits f) (ha : Alike side tr tr') {k : Kind} {x : UInt32} {data md : Bytes}
    (hsole : ∀ f, .request f ∈ handedOver as → f.streamID = x → f.data = data ∧ f.metadata = md) :
    ((verdicts tr').filter (fun v => decide (v.id = x)) = [] →
      (verdicts tr).filter (fun v => decide (v.id = x)) = []) ∧
    ((verdicts tr').filter (fun v => decide (v.id = x)) = [verdict calls k x data md] →
      (verdicts tr).filter (fun v => decide (v.id = x)) = [wasmVerdict side calls k x data md]) := by
  have he := filter_bare x (verdicts tr)
  rw [verdicts_alike ha, ← filter_bare] at he
  constructor
  · intro hq
    rw [hq] at he
    exact List.map_eq_nil_iff.mp he
  · intro hq
    rw [hq] at he
    cases hl : (verdicts tr).filter (fun v => decide (v.id = x)) with
    | nil => rw [hl] at he; cases he
    | cons v l =>
      rw [hl] at he
      have hl0 : l = [] := by
        simp only [List.map_cons, List.map_nil, List.cons.injEq, List.map_eq_nil_iff] at he
        exact he.2
      subst hl0
      simp only [List.map_cons, List.map_nil, List.cons.injEq, and_true] at he
      have hv : v ∈ (verdicts tr).filter (fun v => decide (v.id = x)) := by rw [hl]; simp
      have hvt := (List.mem_filter.mp hv).1
      congr 1
      unfold verdict at he
      unfold wasmVerdict
      have rej : v.bare = (.rejected x : Verdict H) → v = .rejected x := by
        intro q; cases v <;> simp [Verdict.bare] at q; exact congrArg _ q
      split
      · rename_i hm
        rw [if_pos hm] at he
        exact rej he
      · rename_i hm
        rw [if_neg hm] at he
        cases hop : (exportsOf k calls)[opIdOf md]? with
        | none => rw [hop] at he; exact rej he
        | some y =>
          obtain ⟨ns, opn, hd⟩ := y
          rw [hop] at he
          cases v with
          | rejected id => cases he
          | invoked k' h' id' p' =>
            simp only [Verdict.bare, Verdict.invoked.injEq, and_true] at he
            obtain ⟨rfl, rfl, rfl⟩ := he
            obtain ⟨f, q1, q2, q3⟩ := invoked_origin hc as h hf _ _ _ _ ((mem_verdicts_invoked tr).mp hvt)
            obtain ⟨q5, q6⟩ := hsole _ q1 q2
            rw [q3, q5, q6, handlerMeta_eq]

/-- C98: of a call, the other side has done nothing yet, or exactly one thing: rejected it, or invoked the operation it
names, once, with the payload of the call. Once nothing of it is under way, it has. -/
theorem C98_invoked (side : Side) (regA : Registry H) (callsB : List (Invoke.Call H)) (hc : fewCalls callsB)
    (pre mid post : List Move) (s0 s : Sys H) (p : Pay) (src : Src) (inst : Mono.Installed)
    (h : wasmCall side regA (Invoke.run Registry.init callsB) pre s0 p src mid inst post s) (ht : Tidy s) :
    let done := (verdicts s.trB).filter fun v => decide (v.id = callId s0.a)
    let due := wasmVerdict (Wasm.Side.other side) callsB .rr (callId s0.a) p.data p.metadata
    (done = [] ∨ done = [due]) ∧ (settled s (callId s0.a) → done = [due]) := by
  intro done due
  obtain ⟨s0', h0⟩ := overRsocket h.1
  obtain ⟨s', h1⟩ := overRsocket h.2
  have e0 := h0.alike.a
  have hrun : callRun regA (Invoke.run Registry.init callsB) (Wasm.Side.client side) pre s0' p src mid inst post s' :=
    ⟨h0.run, by rw [e0]; exact h1.run⟩
  have c := called hrun.1 hrun.2 (h1.tidy ht)
  have hsent := c.sent
  rw [c.joined.ab, withId_append, e0] at hsent
  obtain ⟨q1, q2⟩ := C87_invoked regA callsB hc (Wasm.Side.client side) pre mid post s0' s' p src inst hrun (h1.tidy ht)
  rw [e0] at q1 q2
  obtain ⟨r1, r2⟩ := verdict_on (k := .rr) (x := callId s0.a) (data := p.data) (md := p.metadata) hc h1.endB h1.fitsB
    h1.alike.trB (by
      intro g hg hx
      have : .request g ∈ withId (callId s0.a) (handedOver s'.histB) ++ withId (callId s0.a) s'.ab :=
        List.mem_append_left _ (List.mem_filter.mpr ⟨by rw [h1.alike.histB]; exact hg, decide_eq_true hx⟩)
      rw [hsent] at this
      cases List.mem_singleton.mp this
      exact ⟨rfl, rfl⟩)
  exact ⟨q1.elim (fun q => .inl (r1 q)) (fun q => .inr (r2 q)), fun hq => r2 (q2 (h1.settled hq))⟩

/-- C98: the same for fire-and-forget. -/
theorem C98_fnf (side : Side) (regA : Registry H) (callsB : List (Invoke.Call H)) (hc : fewCalls callsB)
    (pre post : List Move) (s0 s : Sys H) (p : Pay) (src : Src)
    (h : wasmFnf side regA (Invoke.run Registry.init callsB) pre s0 p src post s) (ht : Tidy s) :
    let done := (verdicts s.trB).filter fun v => decide (v.id = callId s0.a)
    let due := wasmVerdict (Wasm.Side.other side) callsB .fnf (callId s0.a) p.data p.metadata
    (done = [] ∨ done = [due]) ∧ (settled s (callId s0.a) → done = [due]) := by
  intro done due
  obtain ⟨s0', h0⟩ := overRsocket h.1
  obtain ⟨s', h1⟩ := overRsocket h.2
  have e0 := h0.alike.a
  have hrun : fnfRun regA (Invoke.run Registry.init callsB) (Wasm.Side.client side) pre s0' p src post s' :=
    ⟨h0.run, h1.run⟩
  obtain ⟨hJ, hsent⟩ := fnf_sent hrun (h1.tidy ht)
  rw [hJ.ab, withId_append, e0] at hsent
  obtain ⟨q1, q2⟩ := C92_invoked regA callsB hc (Wasm.Side.client side) pre post s0' s' p src hrun (h1.tidy ht)
  rw [e0] at q1 q2
  obtain ⟨r1, r2⟩ := verdict_on (k := .fnf) (x := callId s0.a) (data := p.data) (md := p.metadata) hc h1.endB h1.fitsB
    h1.alike.trB (by
      intro g hg hx
      have : .request g ∈ withId (callId s0.a) (handedOver s'.histB) ++ withId (callId s0.a) s'.ab :=
        List.mem_append_left _ (List.mem_filter.mpr ⟨by rw [h1.alike.histB]; exact hg, decide_eq_true hx⟩)
      rw [hsent] at this
      cases List.mem_singleton.mp this
      exact ⟨rfl, rfl⟩)
  exact ⟨q1.elim (fun q => .inl (r1 q)) (fun q => .inr (r2 q)), fun hq => r2 (q2 (h1.settled hq))⟩

/-! ## Examples -/

/-- What a goroutine of a side does (`Ret.kept`). -/
def retOn (side : Side) : Ret := ⟨.created, .created, Wasm.keeps side⟩

/-- After the subscription: the request goes over, the goroutine for it runs, B makes a call of its own, B's mono is
resolved, and the frames come back. -/
def wasmTrip (side : Side) : List Move :=
  [.toB noReact, .atB (.run 0 (retOn (Wasm.Side.other side))), .atB (.call .rr ⟨[1], eightZeros⟩ .created),
   .atB (.subscribeMono 1 ⟨true, true, true⟩), .atB (.answer 0 (.success ⟨[7], [8]⟩)), .toA noReact, .toA noReact]

def exports98 : List (Invoke.Call Unit) := [.exp .rr [1] [2] (), .exp .fnf [1] [3] ()]

def end98 (side : Side) : Sys Unit :=
  sysAfter (Wasm.runSys side oneHandler (Invoke.run Registry.init exports98)
    (.atA (.call .rr ⟨[5], eightZeros⟩ .created) :: [] ++ .atA (.subscribeMono 0 ⟨true, true, true⟩) :: wasmTrip side))

/-- The hypotheses of the theorems hold for it, whoever calls; the call succeeds with B's payload, and nothing is under
way at the end. -/
example (side : Side) : wasmCall side oneHandler (Invoke.run Registry.init exports98) []
      (.init oneHandler (Invoke.run Registry.init exports98) (Wasm.Side.client side)) ⟨[5], eightZeros⟩ .created []
      ⟨true, true, true⟩ (wasmTrip side) (end98 side) ∧
    Tidy (end98 side) ∧ fewCalls exports98 ∧
    settled (end98 side) (callId (St.init oneHandler (Wasm.Side.client side))) ∧
    monoEvs 0 (end98 side).trA = [.success 0 ⟨[7], [8]⟩, .fin 0 .complete] := by
  refine ⟨⟨rfl, by cases side <;> rfl⟩, tidy_of ?_ ?_ ?_ ?_, by show 2 < 2 ^ 32; omega, ?_, ?_⟩
  case refine_5 =>
    refine ⟨by cases side <;> decide +kernel, by cases side <;> decide +kernel, ?_⟩
    intro k d m n h
    have : (end98 side).b.tasks = [] := by cases side <;> rfl
    rw [this] at h
    cases h
  all_goals cases side <;> decide +kernel

def endFnf98 (side : Side) : Sys Unit :=
  sysAfter (Wasm.runSys side oneHandler (Invoke.run Registry.init exports98)
    (.atA (.call .fnf ⟨[5], eightZeros ++ [6]⟩ .created) ::
      [.toB noReact, .atB (.run 0 (retOn (Wasm.Side.other side)))]))

/-- The hypotheses of `C98_fnf` are met. The metadata arrives whole on the host only. -/
example (side : Side) : wasmFnf side oneHandler (Invoke.run Registry.init exports98) []
      (.init oneHandler (Invoke.run Registry.init exports98) (Wasm.Side.client side)) ⟨[5], eightZeros ++ [6]⟩ .created
      [.toB noReact, .atB (.run 0 (retOn (Wasm.Side.other side)))] (endFnf98 side) ∧
    Tidy (endFnf98 side) ∧
    verdicts (endFnf98 side).trB = [.invoked .fnf () (callId (St.init oneHandler (Wasm.Side.client side)))
      ⟨[5], if side = .host then [6] else eightZeros ++ [6]⟩] := by
  refine ⟨⟨rfl, by cases side <;> rfl⟩, tidy_of ?_ ?_ ?_ ?_, ?_⟩
  case refine_5 => cases side <;> rfl
  all_goals cases side <;> decide +kernel

end
end Verif.Props
