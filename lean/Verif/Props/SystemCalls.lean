import Verif.Props.System
/-
Property C87: request/response over a whole connection.
-/
set_option autoImplicit false
namespace Verif.Props
open Verif Frames Handler
open Verif.Invoke (Kind Registry getHandler)
open Verif.System (Sys Move)

section
variable {H : Type}

/-! ## Specification

A connection is run (`System.run`): after `pre`, end A calls an operation with payload `p`, things
go on (`mid`), A subscribes to the mono the call returned (`inst` are the callbacks it installs), and
things go on (`post`). The call is stream number `s0.a.objs.length` of A and has the id
`callId s0.a`. `monoEvs` are the callbacks A's application sees, `outcome 0 inst [sig]` those of a
mono resolved with `sig` (C22), and `Handled` says what B's application made of the request. -/

/-- The run described above, ending in `s`. -/
def callRun (regA regB : Registry H) (client : Bool) (pre : List Move) (s0 : Sys H) (p : Pay) (src : Src)
    (mid : List Move) (inst : Mono.Installed) (post : List Move) (s : Sys H) : Prop :=
  System.run regA regB client pre = .ok s0 ∧
  System.run regA regB client (pre ++ .atA (.call .rr p src) :: mid ++
    .atA (.subscribeMono s0.a.objs.length inst) :: post) = .ok s

/-- Nothing of the request `x` is under way: the wires are empty and B's goroutine for it has run. -/
def settled (s : Sys H) (x : UInt32) : Prop :=
  s.ab = [] ∧ s.ba = [] ∧ ∀ k data md n, .request k x data md n ∉ s.b.tasks

/-- The id of the request a verdict is about. -/
def Verdict.id : Verdict H → UInt32
  | .rejected id => id
  | .invoked _ _ id _ => id

/-! ## Proof -/

theorem filterMap_reply {r : Option (Mono.Sig Pay)} {x : UInt32} {l : List AnyFrame}
    (h : l = r.toList.flatMap (replyOf x)) (hr : ∀ sig, r = some sig → ∃ f, replyOf x sig = [f]) :
    l.filterMap (frameResult x) = (r.map overWire).toList := by
  subst h
  cases r with
  | none => rfl
  | some sig =>
    obtain ⟨f, hf⟩ := hr sig rfl
    have := (frameResult_reply x sig f (by rw [hf]; simp)).2
    simp [hf, this]

/-- C87: what the callbacks of a call see, at any point of any run of the connection, is nothing, or
what the peer's application has answered to this very call. -/
theorem C87_answer (regA regB : Registry H) (client : Bool) (pre mid post : List Move) (s0 s : Sys H) (p : Pay)
    (src : Src) (inst : Mono.Installed) (h : callRun regA regB client pre s0 p src mid inst post s) (ht : Tidy s) :
    monoEvs s0.a.objs.length s.trA = [] ∨
    ∃ sig, Handled regB (!client) (callId s0.a) p s.histB (some sig) ∧
      monoEvs s0.a.objs.length s.trA = outcome 0 inst [overWire sig] := by
  have c := called h.1 h.2 ht
  rw [c.seen]
  have hw : withId (callId s0.a) (sentFrames s.trB) =
      withId (callId s0.a) (handedOver s.histA) ++ withId (callId s0.a) s.ba := by
    rw [c.joined.ba, withId_append]
  rcases c.frames with ⟨r, h1, h2⟩ | ⟨h2, -⟩
  · rw [hw] at h2
    cases r with
    | none =>
      left
      rw [(List.append_eq_nil_iff.mp h2).1]; rfl
    | some sig =>
      obtain ⟨f, hf⟩ := handled_reply c.joined.b h1
      have h3 : ([sig].flatMap (replyOf (callId s0.a))) = [f] := by simp [hf]
      have h2 : _ = [f] := h2.trans h3
      cases hl : withId (callId s0.a) (handedOver s.histA) with
      | nil => left; rfl
      | cons g l =>
        right
        rw [hl] at h2
        have hgf : g = f := by simp at h2; exact h2.1
        have hln : l = [] := by
          have : l ++ withId (callId s0.a) s.ba = [] := by simpa [hgf] using h2
          exact (List.append_eq_nil_iff.mp this).1
        refine ⟨sig, h1, ?_⟩
        rw [hln, hgf]
        have := (frameResult_reply (callId s0.a) sig f (by rw [hf]; simp)).2
        simp [this]
  · left
    rw [hw] at h2
    rw [(List.append_eq_nil_iff.mp h2).1]; rfl

/-- C87: once nothing of it is under way, the callbacks have seen exactly what the peer's application
has answered, if it has. -/
theorem C87_completes (regA regB : Registry H) (client : Bool) (pre mid post : List Move) (s0 s : Sys H) (p : Pay)
    (src : Src) (inst : Mono.Installed) (h : callRun regA regB client pre s0 p src mid inst post s) (ht : Tidy s)
    (hq : settled s (callId s0.a)) :
    ∃ r, Handled regB (!client) (callId s0.a) p s.histB r ∧
      monoEvs s0.a.objs.length s.trA = outcome 0 inst (r.map overWire).toList := by
  have c := called h.1 h.2 ht
  obtain ⟨q1, q2, q3⟩ := hq
  have hw : withId (callId s0.a) (sentFrames s.trB) = withId (callId s0.a) (handedOver s.histA) := by
    rw [c.joined.ba, q2, List.append_nil]
  rcases c.frames with ⟨r, h1, h2⟩ | ⟨-, h2, h3⟩
  · refine ⟨r, h1, ?_⟩
    rw [c.seen, ← hw, filterMap_reply h2 fun sig hs => handled_reply c.joined.b (hs ▸ h1)]
  · exfalso
    have h4 : (.request (requestOf (callId s0.a) p) : AnyFrame) ∈ handedOver s.histB := by
      have : (.request (requestOf (callId s0.a) p) : AnyFrame) ∈ withId (callId s0.a) (sentFrames s.trA) := by
        rw [c.sent]; simp
      have := (List.mem_filter.mp this).1
      rw [c.joined.ab, q1, List.append_nil] at this
      exact this
    obtain ⟨r, h5⟩ := handedOver_of_mem h4
    have h6 : callId s0.a ∈ requestIds s.histB := by
      obtain ⟨a, b, hab⟩ := List.append_of_mem h5
      rw [hab, requestIds_append]
      refine List.mem_append_right _ ?_
      show callId s0.a ∈ (if (kindOfType (requestOf (callId s0.a) p).frameType).isSome then
        [callId s0.a] else []) ++ requestIds b
      have : (kindOfType (requestOf (callId s0.a) p).frameType).isSome = true := rfl
      rw [this]; simp
    have h7 : (false, callId s0.a) ∈ idsIn s.b s.trB := by
      rw [(ids_run _ _ _ _ _ c.joined.b).mem_iff]
      exact List.mem_append_right _ (List.mem_map.mpr ⟨_, h6, rfl⟩)
    unfold idsIn at h7
    simp only [List.mem_append, List.mem_map] at h7
    rcases h7 with ⟨o, h8, h9⟩ | ⟨t, h8, h9⟩ | ⟨f, h8, h9⟩
    · obtain ⟨i, hi, h10⟩ := List.mem_iff_getElem.mp h8
      exact h2 i o (by rw [List.getElem?_eq_getElem hi, h10]) (congrArg Prod.snd h9)
    · obtain ⟨h10, h11⟩ := List.mem_filter.mp h8
      cases t with
      | request k id data md n =>
        have : id = callId s0.a := congrArg Prod.snd h9
        subst this
        exact q3 _ _ _ _ h10
      | _ => cases h11
    · exact h3 f h8 (by rw [← looseKey_id]; exact congrArg Prod.snd h9)

/-- What one received frame has to lead to. -/
def dueOf (calls : List (Invoke.Call H)) : AnyFrame → List (Verdict H)
  | .request f => match requestKind f.frameType with
    | some k => [verdict calls k f.streamID f.data f.metadata]
    | none => []
  | _ => []

theorem verdict_id (calls : List (Invoke.Call H)) (k : Kind) (id : UInt32) (data md : Bytes) :
    (verdict calls k id data md).id = id := by
  unfold verdict
  split
  · rfl
  · split <;> rfl

theorem due_filter (calls : List (Invoke.Call H)) (x : UInt32) (as : List Act) :
    (dueVerdicts calls as).filter (fun v => decide (v.id = x)) = (withId x (handedOver as)).flatMap (dueOf calls) := by
  induction as with
  | nil => rfl
  | cons a as ih =>
    cases a with
    | frame f r =>
      have e1 : handedOver (.frame f r :: as) = f :: handedOver as := rfl
      have e2 : dueVerdicts calls (.frame f r :: as) = dueOf calls f ++ dueVerdicts calls as := by
        cases f <;> rfl
      rw [e1, e2, List.filter_append, ih, withId_cons]
      have e3 : ∀ v ∈ dueOf calls f, v.id = f.streamID := by
        intro v hv
        cases f with
        | request g =>
          simp only [dueOf] at hv
          split at hv
          · simp only [List.mem_singleton] at hv; subst hv; exact verdict_id _ _ _ _ _
          · cases hv
        | _ => cases hv
      by_cases hf : f.streamID = x
      · rw [if_pos hf, List.flatMap_cons]
        congr 1
        exact List.filter_eq_self.mpr fun v hv => by simp [e3 v hv, hf]
      · rw [if_neg hf]
        have : (dueOf calls f).filter (fun v => decide (v.id = x)) = [] :=
          List.filter_eq_nil_iff.mpr fun v hv => by simp [e3 v hv, hf]
        rw [this, List.nil_append]
    | _ => exact ih

theorem open_filter (calls : List (Invoke.Call H)) (x : UInt32) (ts : List Task)
    (h : ∀ k data md n, .request k x data md n ∉ ts) :
    (openVerdicts calls ts).filter (fun v => decide (v.id = x)) = [] := by
  induction ts with
  | nil => rfl
  | cons t ts ih =>
    have ih := ih fun k d m n hm => h k d m n (List.mem_cons_of_mem _ hm)
    cases t with
    | request k id data md n =>
      simp only [openVerdicts, List.filter_cons, verdict_id]
      have : id ≠ x := by rintro rfl; exact h k data md n (by simp)
      simp [this, ih]
    | _ => simpa [openVerdicts] using ih

/-- C87: at any point, the peer has done nothing with the request yet, or exactly one thing: rejected
it, or invoked the operation it names, once, with the payload of the call. -/
theorem C87_invoked (regA : Registry H) (callsB : List (Invoke.Call H)) (hc : fewCalls callsB) (client : Bool)
    (pre mid post : List Move) (s0 s : Sys H) (p : Pay) (src : Src) (inst : Mono.Installed)
    (h : callRun regA (Invoke.run Registry.init callsB) client pre s0 p src mid inst post s) (ht : Tidy s) :
    let done := (verdicts s.trB).filter fun v => decide (v.id = callId s0.a)
    (done = [] ∨ done = [verdict callsB .rr (callId s0.a) p.data p.metadata]) ∧
    (settled s (callId s0.a) → done = [verdict callsB .rr (callId s0.a) p.data p.metadata]) := by
  intro done
  have c := called h.1 h.2 ht
  have hp := (C56_accounted callsB hc _ _ _ _ c.joined.b).filter fun v => decide (v.id = callId s0.a)
  rw [due_filter, List.filter_append] at hp
  have hsent := c.sent
  rw [c.joined.ab, withId_append] at hsent
  have hdue : dueOf callsB (.request (requestOf (callId s0.a) p)) =
      [verdict callsB .rr (callId s0.a) p.data p.metadata] := rfl
  constructor
  · cases hl : withId (callId s0.a) (handedOver s.histB) with
    | nil =>
      rw [hl] at hp
      left
      exact (List.append_eq_nil_iff.mp hp.symm.eq_nil).1
    | cons g l =>
      rw [hl] at hp hsent
      have hg : g = .request (requestOf (callId s0.a) p) := by simp at hsent; exact hsent.1
      have hn : l = [] := by
        have : l ++ withId (callId s0.a) s.ab = [] := by simpa [hg] using hsent
        exact (List.append_eq_nil_iff.mp this).1
      rw [hg, hn, List.flatMap_cons, hdue] at hp
      simp only [List.flatMap_nil, List.append_nil] at hp
      have hp := List.perm_singleton.mp hp.symm
      cases hd : done with
      | nil => exact .inl rfl
      | cons v vs =>
        right
        have hd' : (verdicts s.trB).filter (fun v => decide (v.id = callId s0.a)) = v :: vs := hd
        rw [hd'] at hp
        simp at hp
        rw [hp.1, hp.2.1]
  · rintro ⟨q1, -, q3⟩
    rw [q1] at hsent
    have : withId (callId s0.a) ([] : List AnyFrame) = [] := rfl
    rw [this, List.append_nil] at hsent
    rw [hsent, open_filter _ _ _ q3, List.append_nil, List.flatMap_cons, hdue] at hp
    exact List.perm_singleton.mp hp.symm

/-- A message of bytes comes through unchanged (Go strings are byte sequences). -/
theorem strOf_bytesOf (e : String) (h : ∀ c ∈ e.toList, c.toNat < 256) : strOf (bytesOf e) = e := by
  unfold strOf bytesOf
  have : ∀ l : List Char, (∀ c ∈ l, c.toNat < 256) →
      (l.map fun c => UInt8.ofNat c.toNat).map (fun x => Char.ofNat x.toNat) = l := by
    intro l
    induction l with
    | nil => intro _; rfl
    | cons c l ih =>
      intro hl
      have h1 := hl c (by simp)
      simp only [List.map_cons, List.cons.injEq]
      refine ⟨?_, ih fun d hd => hl d (by simp [hd])⟩
      rw [UInt8.toNat_ofNat_of_lt' h1, Char.ofNat_toNat]
  rw [this _ h, String.ofList_toList]

theorem overWire_id (sig : Mono.Sig Pay)
    (h : ∀ e, sig = .error (some e) → ∀ c ∈ e.toList, c.toNat < 256) : overWire sig = sig := by
  cases sig with
  | error e =>
    cases e with
    | none => rfl
    | some e => simp only [overWire, strOf_bytesOf e (h e rfl)]
  | _ => rfl

/-! ## Examples -/

/-- After the subscription: the request goes over, B's goroutine for it runs, B makes a call of its
own, B's mono is resolved and then signalled again, and the frames come back. -/
def roundTrip : List Move :=
  [.toB noReact, .atB (.run 0 retCreated), .atB (.call .rr ⟨[1], eightZeros⟩ .created),
   .atB (.subscribeMono 1 ⟨true, true, true⟩), .atB (.answer 0 (.success ⟨[7], [8]⟩)),
   .atB (.answer 0 (.error (some "no"))), .toA noReact, .toA noReact]

def sysAfter (x : Go (Sys Unit)) : Sys Unit :=
  match x with | .ok s => s | _ => .init (fun _ => ⟨[], [], []⟩) (fun _ => ⟨[], [], []⟩) true

def called87 (md : Bytes) (post : List Move) : List Move :=
  [] ++ .atA (.call .rr ⟨[5], md⟩ .created) :: [] ++ .atA (.subscribeMono 0 ⟨true, true, true⟩) :: post

/-- The hypotheses of the theorems hold for it, and the call succeeds with B's payload. -/
example : callRun oneHandler oneHandler true [] (.init oneHandler oneHandler true) ⟨[5], eightZeros⟩ .created []
      ⟨true, true, true⟩ roundTrip (sysAfter (System.run oneHandler oneHandler true (called87 eightZeros roundTrip))) ∧
    Tidy (sysAfter (System.run oneHandler oneHandler true (called87 eightZeros roundTrip))) ∧
    monoEvs 0 (sysAfter (System.run oneHandler oneHandler true (called87 eightZeros roundTrip))).trA =
      [.success 0 ⟨[7], [8]⟩, .fin 0 .complete] := by
  refine ⟨⟨rfl, rfl⟩, ⟨by decide +kernel, by decide +kernel, ?_, ?_⟩, by decide +kernel⟩
  · intro j
    show subscriptionsTo j [_, .subscribeMono 0 _, _, _] ≤ 1
    cases j <;> simp [subscriptionsTo, subscribesTo]
  · intro j
    show subscriptionsTo j [_, _, _, .subscribeMono 1 _, _, _] ≤ 1
    match j with
    | 0 => decide
    | 1 => decide
    | j + 2 => simp [subscriptionsTo, subscribesTo]

/-- And nothing is under way at its end. -/
example : settled (sysAfter (System.run oneHandler oneHandler true (called87 eightZeros roundTrip))) 1 ∧
    callId (St.init oneHandler true) = 1 := by
  refine ⟨⟨by decide +kernel, by decide +kernel, ?_⟩, rfl⟩
  intro k d m n h
  exact absurd h (by show _ ∉ ([] : List Task); simp)

/-- A request without an operation id is rejected. -/
example : monoEvs 0 (sysAfter (System.run oneHandler oneHandler true
      (called87 [1] [.toB noReact, .atB (.run 0 retCreated), .toA noReact]))).trA =
    [.error 0 (some "Invalid metadata"), .fin 0 .error] := by decide +kernel

end
end Verif.Props
