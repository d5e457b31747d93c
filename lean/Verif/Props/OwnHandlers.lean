import Verif.Model.OwnHandlers
import Verif.Props.HandlerDispatch
import Verif.Props.WasmRecv
import Verif.Props.WasmBuffers
/-
Property C134 (handlers set on a connection).
-/
set_option autoImplicit false
namespace Verif.Props
open Verif Frames Handler
open Verif.Invoke (Kind Registry)
open Verif.OwnHandlers (Own)

section
variable {H : Type}

/-! ## The claim -/

/-- What has to become of a request if the handlers are those `find` finds, by kind and number. -/
def verdictBy (find : Kind → Nat → Option H) (k : Kind) (id : UInt32) (data md : Bytes) : Verdict H :=
  if md.length < 8 then .rejected id
  else match find k (opIdOf md) with
    | none => .rejected id
    | some h => .invoked k h id ⟨data, if k = .rr ∨ k = .fnf then md.drop 8 else md⟩

/-- The same for all requests received. -/
def dueBy (find : Kind → Nat → Option H) : List Act → List (Verdict H)
  | [] => []
  | .frame (.request f) _ :: as =>
    (match requestKind f.frameType with
      | some k => [verdictBy find k f.streamID f.data f.metadata]
      | none => []) ++ dueBy find as
  | _ :: as => dueBy find as

/-- The same for the requests that no goroutine has looked at yet. -/
def openBy (find : Kind → Nat → Option H) : List Task → List (Verdict H)
  | [] => []
  | .request k id data md _ :: ts => verdictBy find k id data md :: openBy find ts
  | _ :: ts => openBy find ts

/-- The exported operations. -/
def findExport (calls : List (Invoke.Call H)) (k : Kind) (i : Nat) : Option H :=
  ((exportsOf k calls)[i]?).map fun x => x.2.2

/-- The handlers set last on the connection. -/
def findSet (sets : List (Kind × UInt32 × H)) (k : Kind) (i : Nat) : Option H :=
  (sets.reverse.find? fun x => x.1 = k ∧ x.2.1.toNat = i).map fun x => x.2.2

/-- The application sets handlers, then the connection is used. -/
def setThenUse (sets : List (Kind × UInt32 × H)) (as : List Act) : List (OwnHandlers.Act H) :=
  sets.map (fun x => .set x.1 x.2.1 x.2.2) ++ as.map .act

end

/-- C134 in full: every request received is served once, by the handler set last on this connection for its kind and number, or by
the operation exported under the number if there is none, and rejected with one error if there is neither. -/
def C134_statement : Prop :=
  ∀ (H : Type) (calls : List (Invoke.Call H)) (client : Bool) (sets : List (Kind × UInt32 × H)) (as : List Act) (o : Own H)
    (tr : List (Handler.Ev H)), fewCalls calls →
    OwnHandlers.run (Invoke.run Registry.init calls) client (setThenUse sets as) = .ok (o, tr) →
      (dueBy (fun k i => (findSet sets k i).or (findExport calls k i)) as).Perm
        (verdicts tr ++ openBy (fun k i => (findSet sets k i).or (findExport calls k i)) o.st.tasks)

section
variable {H : Type}

/-! ## Proofs -/

theorem verdictBy_export (calls : List (Invoke.Call H)) (k : Kind) (id : UInt32) (data md : Bytes) :
    verdictBy (findExport calls) k id data md = verdict calls k id data md := by
  unfold verdictBy verdict findExport
  by_cases h : md.length < 8
  · rw [if_pos h, if_pos h]
  · rw [if_neg h, if_neg h]
    cases (exportsOf k calls)[opIdOf md]? <;> rfl

theorem dueBy_export (calls : List (Invoke.Call H)) (as : List Act) : dueBy (findExport calls) as = dueVerdicts calls as := by
  induction as with
  | nil => rfl
  | cons a as ih =>
    cases a
    case frame f r =>
      cases f
      case request f => simp only [dueBy, dueVerdicts, ih, verdictBy_export]; cases requestKind f.frameType <;> rfl
      all_goals simp only [dueBy, dueVerdicts, ih]
    all_goals simp only [dueBy, dueVerdicts, ih]

theorem openBy_export (calls : List (Invoke.Call H)) (ts : List Task) : openBy (findExport calls) ts = openVerdicts calls ts := by
  induction ts with
  | nil => rfl
  | cons t ts ih => cases t <;> simp only [openBy, openVerdicts, ih, verdictBy_export]

/-- What is left of a history without the calls that set handlers. -/
def withoutSets : List (OwnHandlers.Act H) → List Act
  | [] => []
  | .set _ _ _ :: as => withoutSets as
  | .act a :: as => a :: withoutSets as

theorem set_st {o o' : Own H} {k : Kind} {i : UInt32} {h : H} (hs : o.set k i h = .ok o') : o'.st = o.st := by
  cases k <;>
  · obtain ⟨l, _, h2⟩ := bind_ok_inv hs
    cases h2
    rfl

theorem own_runFrom (as : List (OwnHandlers.Act H)) : ∀ (o o' : Own H) (tr : List (Handler.Ev H)),
    OwnHandlers.runFrom o as = .ok (o', tr) → Handler.runFrom o.st (withoutSets as) = .ok (o'.st, tr) := by
  induction as with
  | nil =>
    intro o o' tr h
    cases h
    rfl
  | cons a as ih =>
    intro o o' tr h
    obtain ⟨r, h1, h⟩ := bind_ok_inv h
    obtain ⟨r', h2, h⟩ := bind_ok_inv h
    cases h
    have h2 := ih _ _ _ h2
    cases a with
    | set k i x =>
      obtain ⟨o1, h3, h4⟩ := bind_ok_inv h1
      cases h4
      rw [set_st h3] at h2
      exact h2
    | act a =>
      obtain ⟨q, h3, h4⟩ := bind_ok_inv h1
      cases h4
      simp only [withoutSets, Handler.runFrom, h3]
      simp only [Handler.andThen, h2]

/-- Handlers set on a connection change nothing: whatever is set and whenever, what can be observed and the state of all streams are
those of the same history without. -/
theorem C134_ignored (reg : Registry H) (client : Bool) (as : List (OwnHandlers.Act H)) (o : Own H) (tr : List (Handler.Ev H))
    (h : OwnHandlers.run reg client as = .ok (o, tr)) : Handler.run reg client (withoutSets as) = .ok (o.st, tr) :=
  own_runFrom as _ _ _ h

/-- C134, partial: every request received is served once by the operation exported under its number, or rejected with one error.
Missing: the handlers set on the connection, which are never asked for (`C134_ignored`). -/
theorem C134_partial (calls : List (Invoke.Call H)) (hc : fewCalls calls) (client : Bool) (as : List (OwnHandlers.Act H)) (o : Own H)
    (tr : List (Handler.Ev H)) (h : OwnHandlers.run (Invoke.run Registry.init calls) client as = .ok (o, tr)) :
    (dueBy (findExport calls) (withoutSets as)).Perm (verdicts tr ++ openBy (findExport calls) o.st.tasks) := by
  rw [dueBy_export, openBy_export]
  exact C56_accounted calls hc client _ _ _ (C134_ignored _ _ _ _ _ h)

theorem findSet_cons (k k' : Kind) (i : UInt32) (h : H) (sets : List (Kind × UInt32 × H)) (j : Nat) :
    findSet ((k', i, h) :: sets) k j = (findSet sets k j).or (if k' = k ∧ i.toNat = j then some h else none) := by
  simp only [findSet, List.reverse_cons, List.find?_append]
  cases (sets.reverse.find? fun x => x.1 = k ∧ x.2.1.toNat = j) with
  | some x => rfl
  | none =>
    by_cases hk : k' = k ∧ i.toNat = j
    · simp [hk]
    · rw [if_neg hk]
      simp [List.find?, hk]

/-- All four tables are shorter than 2^32. -/
def Own.short (o : Own H) : Prop :=
  o.rr.length < 2^32 ∧ o.fnf.length < 2^32 ∧ o.rs.length < 2^32 ∧ o.rc.length < 2^32

theorem own_set_ok (o : Own H) (ho : Own.short o) (k : Kind) (i : UInt32) (h : H) (hi : i ≠ 0xFFFFFFFF) :
    ∃ o', o.set k i h = .ok o' ∧ Own.short o' ∧ ∀ k' j, o'.get k' j = if k = k' ∧ i = j then some h else o.get k' j := by
  obtain ⟨h1, h2, h3, h4⟩ := ho
  cases k
  case rr =>
    obtain ⟨l, e, hl, hg⟩ := setHandler_ok o.rr i h hi h1
    refine ⟨{ o with rr := l }, by simp [Own.set, e], ⟨hl, h2, h3, h4⟩, fun k' j => ?_⟩
    cases k' <;> simp [Own.get, hg]
  case fnf =>
    obtain ⟨l, e, hl, hg⟩ := setHandler_ok o.fnf i h hi h2
    refine ⟨{ o with fnf := l }, by simp [Own.set, e], ⟨h1, hl, h3, h4⟩, fun k' j => ?_⟩
    cases k' <;> simp [Own.get, hg]
  case rs =>
    obtain ⟨l, e, hl, hg⟩ := setHandler_ok o.rs i h hi h3
    refine ⟨{ o with rs := l }, by simp [Own.set, e], ⟨h1, h2, hl, h4⟩, fun k' j => ?_⟩
    cases k' <;> simp [Own.get, hg]
  case rc =>
    obtain ⟨l, e, hl, hg⟩ := setHandler_ok o.rc i h hi h4
    refine ⟨{ o with rc := l }, by simp [Own.set, e], ⟨h1, h2, h3, hl⟩, fun k' j => ?_⟩
    cases k' <;> simp [Own.get, hg]

theorem own_sets (sets : List (Kind × UInt32 × H)) (hs : ∀ x ∈ sets, x.2.1 ≠ 0xFFFFFFFF) : ∀ o : Own H, Own.short o →
    ∃ o', OwnHandlers.runFrom o (sets.map fun x => .set x.1 x.2.1 x.2.2) = .ok (o', []) ∧
      ∀ k i, o'.get k i = (findSet sets k i.toNat).or (o.get k i) := by
  induction sets with
  | nil => exact fun o _ => ⟨o, rfl, fun k i => by simp [findSet]⟩
  | cons x sets ih =>
    intro o ho
    obtain ⟨k, i, h⟩ := x
    obtain ⟨o1, e1, s1, g1⟩ := own_set_ok o ho k i h (hs _ List.mem_cons_self)
    obtain ⟨o2, e2, g2⟩ := ih (fun x hx => hs x (List.mem_cons_of_mem _ hx)) o1 s1
    refine ⟨o2, ?_, fun k' j => ?_⟩
    · simp [OwnHandlers.runFrom, OwnHandlers.step, e1, e2]
    · rw [g2, g1, findSet_cons, Option.or_assoc]
      by_cases hk : k = k' ∧ i = j
      · rw [if_pos hk, if_pos ⟨hk.1, by rw [hk.2]⟩]; rfl
      · rw [if_neg hk, if_neg (fun h => hk ⟨h.1, UInt32.toNat_inj.1 h.2⟩)]; rfl

/-- The handlers that were set are kept, under every number but the last, and the functions nothing calls would find them. -/
theorem C134_kept (reg : Registry H) (client : Bool) (sets : List (Kind × UInt32 × H)) (hs : ∀ x ∈ sets, x.2.1 ≠ 0xFFFFFFFF) :
    ∃ o, OwnHandlers.run reg client (setThenUse sets []) = .ok (o, []) ∧ ∀ k i, o.get k i = findSet sets k i.toNat := by
  obtain ⟨o, h1, h2⟩ := own_sets sets hs (.init reg client) ⟨Nat.two_pow_pos 32, Nat.two_pow_pos 32, Nat.two_pow_pos 32,
    Nat.two_pow_pos 32⟩
  refine ⟨o, by simpa [setThenUse, OwnHandlers.run] using h1, fun k i => ?_⟩
  rw [h2]
  have : (Own.init reg client).get k i = none := by cases k <;> simp [Own.init, Own.get, WasmRecv.getHandler]
  rw [this, Option.or_none]

/-- Setting a handler under the last number crashes, as on a wasm host (C78). -/
theorem C134_last_number_violated (reg : Registry H) (client : Bool) (k : Kind) (h : H) (as : List (OwnHandlers.Act H)) :
    OwnHandlers.run reg client (.set k 0xFFFFFFFF h :: as) = .panic := by
  cases k <;> rfl

/-- A request/response request for operation 0, and its goroutine. -/
def oneRequest : List Act :=
  [.frame (.request ⟨4, 1, eightZeros, [5], false, false, 1⟩) noReact, .run 0 retCreated]

/-- A handler is set for operation 0 twice, another operation is exported under 0: the exported one is invoked. -/
example : (match OwnHandlers.run (Invoke.run Registry.init [.exp .rr [1] [2] 'x']) false
      (setThenUse [(.rr, 0, 'a'), (.rr, 0, 'b')] oneRequest) with
    | .ok (o, tr) => decide (o.get .rr 0 = some 'b') && decide (tr.take 1 = [.invoked .rr 'x' 1 ⟨[5], []⟩])
    | _ => false) = true := by decide +kernel

/-- C134 fails: a handler is set for operation 0 and the request for it is rejected. -/
theorem C134_violated : ¬ C134_statement := by
  intro h
  have e : ∃ o : Own Unit, OwnHandlers.run (Invoke.run Registry.init []) false (setThenUse [(.rr, 0, ())] oneRequest) =
      .ok (o, [.sent none (.error ⟨1, 0, bytesOf "not_found"⟩)]) ∧ o.st.tasks = [] := ⟨_, rfl, rfl⟩
  obtain ⟨o, h1, h2⟩ := e
  have := h Unit [] false [(.rr, 0, ())] oneRequest o _ (Nat.two_pow_pos 32) h1
  rw [h2] at this
  have := List.perm_singleton.1 this.symm
  cases this

end
end Verif.Props
