import Verif.Props.DemandSteps
import Verif.Props.Isolation
import Verif.Props.SystemInput
/-
Property C95: the demand of a stream's subscriber over a whole connection.
-/
set_option autoImplicit false
namespace Verif.Props
open Verif Frames Handler
open Verif.Invoke (Kind Registry getHandler)
open Verif.System (Sys Move)

section
variable {H : Type}

/-! ## Specification

A connection is run (`System.run`). Stream number `j` of end A is a call of a stream or channel operation, and
stream number `i` of end B, with the same id, is the flux B's handler has returned for it. `demands` is what A's
application requests of the stream, `asks` is what the source of B's flux is asked for. -/

/-- The two ends of one stream. -/
structure bothEnds (s : Sys H) (j i : Nat) (x : UInt32) : Prop where
  caller : ∃ req first c input sub, s.a.objs[j]? = some (.flux req first c input sub) ∧ req.streamID = x
  server : ∃ k out b inp, (k = .rs ∨ k = .rc) ∧ s.b.objs[i]? = some (.responder k x out b inp)

/-- A's application requests numbers of elements that fit the field of the frame. -/
def sensibleDemands (s : Sys H) (j : Nat) : Prop := ∀ n ∈ demands j s.trA, 0 ≤ n ∧ n < 4294967296

/-- B's source keeps to the protocol: it calls OnSubscribe at most once, and says an element only after it has
been asked for some. -/
structure politeSource (regB : Registry H) (client : Bool) (s : Sys H) (i : Nat) : Prop where
  once : s.histB.countP (isOnSub i) ≤ 1
  asked : ∀ b1 a b2, s.histB = b1 ++ a :: b2 → saysNext i a = true →
    ∀ s1 t1, Handler.run regB (!client) b1 = .ok (s1, t1) → asks i t1 ≠ []

/-- The stream goes on and nothing is under way: no frame is on its way to B, no goroutine of the stream is waiting at
either end, A has not seen the end of the stream, and B's source has called OnSubscribe. -/
structure demandSettled (s : Sys H) (j i : Nat) : Prop where
  wire : s.ab = []
  atA : waiting j s.a.tasks = []
  atB : ∀ t ∈ s.b.tasks, t.obj ≠ some i
  goesOn : ∃ req first input sub, s.a.objs[j]? = some (.flux req first false input sub)
  ready : ∃ k x f st b inp, s.b.objs[i]? = some (.responder k x (some (f, st)) b inp) ∧ st.hasRequest = true

/-- Each request for more elements is handed to B while B has the stream open. -/
def heardInTime (regB : Registry H) (client : Bool) (s : Sys H) (i : Nat) (x : UInt32) : Prop :=
  ∀ b1 f r b2, s.histB = b1 ++ .frame (.requestN f) r :: b2 → f.streamID = x →
    ∀ s1 t1, Handler.run regB (!client) b1 = .ok (s1, t1) → .opened x i ∈ t1 ∧ .closed x ∉ t1

/-- Every stream that is served is entered in the table of streams, as handler.go does (`Ret.kept`). -/
def allKept (as : List Act) : Prop := ∀ t ret, .run t ret ∈ as → ret.kept = true

def isKept : Act → Bool
  | .run _ ret => ret.kept
  | _ => true

theorem allKept_of {as : List Act} (h : as.all isKept = true) : allKept as :=
  fun _ _ hm => List.all_eq_true.mp h _ hm

/-- C95 as stated in English. -/
def C95_statement (H : Type) : Prop :=
  ∀ (regA regB : Registry H) (client : Bool) (ms : List Move) (s : Sys H),
    System.run regA regB client ms = .ok s → Tidy s →
    ∀ j i x, bothEnds s j i x → allKept s.histB → sensibleDemands s j → politeSource regB client s i →
      (asks i s.trB).sum ≤ (demands j s.trA).sum ∧
      (demandSettled s j i → (asks i s.trB).sum = (demands j s.trA).sum)

/-! ## The end that serves -/

theorem doRequest_nonneg {reg : Registry H} {client : Bool} (as : List Act) : ∀ {s : St H} {tr : List (Handler.Ev H)},
    Handler.run reg client as = .ok (s, tr) → ∀ j n, .doRequest j n ∈ s.tasks → 0 ≤ n := by
  induction as using snoc_induction with
  | nil => intro s tr h j n hm; cases h; cases hm
  | snoc as a ih =>
    intro s' tr h j n hm
    obtain ⟨s, t, e, h1, h2, rfl⟩ := run_snoc_inv _ _ _ _ _ _ h
    have ih := ih h1 j n
    cases task_step a h2 with
    | minor _ _ new tasks own =>
      rw [tasks] at hm
      rcases List.mem_append.mp hm with hm | hm
      · exact ih hm
      · cases own _ hm
    | asked f r i _ str same =>
      subst same
      rcases List.mem_append.mp hm with hm | hm
      · exact ih hm
      · simp only [List.mem_singleton, Task.doRequest.injEq] at hm; omega
    | request f r k hk =>
      rcases List.mem_append.mp hm with hm | hm
      · exact ih hm
      · simp at hm
    | subscribe t ret j' f n' _ task tasks =>
      rw [tasks] at hm
      rcases List.mem_append.mp hm with hm | hm
      · exact ih (List.mem_of_mem_eraseIdx hm)
      · simp at hm
    | stream t ret k id data md n' _ task objs tasks =>
      rw [tasks] at hm
      rcases List.mem_append.mp hm with hm | hm
      · exact ih (List.mem_of_mem_eraseIdx hm)
      · simp at hm
    | serve t ret k id data md n' _ task tasks objs =>
      rw [tasks] at hm
      exact ih (List.mem_of_mem_eraseIdx hm)
    | run t ret task _ new htask g1 g2 tasks own =>
      rw [tasks] at hm
      rcases List.mem_append.mp hm with hm | hm
      · exact ih (List.mem_of_mem_eraseIdx hm)
      · cases own _ hm

theorem request_credit {reg : Registry H} {client : Bool} (as : List Act) : ∀ {s : St H} {tr : List (Handler.Ev H)},
    Handler.run reg client as = .ok (s, tr) → ∀ k id data md n, .request k id data md n ∈ s.tasks →
    ∃ f r, .frame (.request f) r ∈ as ∧ f.streamID = id ∧ f.initialN = n := by
  induction as using snoc_induction with
  | nil => intro s tr h _ _ _ _ _ hm; cases h; cases hm
  | snoc as a ih =>
    intro s' tr h k id data md n hm
    obtain ⟨s, t, e, h1, h2, rfl⟩ := run_snoc_inv _ _ _ _ _ _ h
    have ih : .request k id data md n ∈ s.tasks → ∃ f r, .frame (.request f) r ∈ as ++ [a] ∧ f.streamID = id ∧ f.initialN = n := by
      intro hm
      obtain ⟨f, r, q1, q2⟩ := ih h1 k id data md n hm
      exact ⟨f, r, List.mem_append_left _ q1, q2⟩
    cases task_step a h2 with
    | minor _ _ new tasks own =>
      rw [tasks] at hm
      rcases List.mem_append.mp hm with hm | hm
      · exact ih hm
      · cases own _ hm
    | asked f r i _ str same =>
      subst same
      rcases List.mem_append.mp hm with hm | hm
      · exact ih hm
      · simp at hm
    | request f r k hk =>
      rcases List.mem_append.mp hm with hm | hm
      · exact ih hm
      · simp only [List.mem_singleton, Task.request.injEq] at hm
        exact ⟨f, r, by simp, hm.2.1.symm, hm.2.2.2.2.symm⟩
    | subscribe t ret j' f n' _ task tasks =>
      rw [tasks] at hm
      rcases List.mem_append.mp hm with hm | hm
      · exact ih (List.mem_of_mem_eraseIdx hm)
      · simp at hm
    | stream t ret k id data md n' _ task objs tasks =>
      rw [tasks] at hm
      rcases List.mem_append.mp hm with hm | hm
      · exact ih (List.mem_of_mem_eraseIdx hm)
      · simp at hm
    | serve t ret k id data md n' _ task tasks objs =>
      rw [tasks] at hm
      exact ih (List.mem_of_mem_eraseIdx hm)
    | run t ret task _ new htask g1 g2 tasks own =>
      rw [tasks] at hm
      rcases List.mem_append.mp hm with hm | hm
      · exact ih (List.mem_of_mem_eraseIdx hm)
      · cases own _ hm

/-- What a request goroutine leaves behind when it finds its operation. -/
theorem served_born {reg : Registry H} {client : Bool} {as1 : List Act} {t : Nat} {ret : Ret}
    {s1 s : St H} {t1 e : List (Handler.Ev H)} {k : Kind} {id : UInt32} {data md : Bytes} {n : UInt32} (hk : k ≠ .rr)
    (h1 : Handler.run reg client as1 = .ok (s1, t1)) (ht : s1.tasks[t]? = some (.request k id data md n))
    (hex : (exported reg k md).isSome = true) (hs : settle s1 (Handler.step s1 (.run t ret)) = .ok (s, e)) :
    s.objs = s1.objs ++ [.responder k id none false none] ∧
    (k = .fnf ∨ s.tasks = s1.tasks.eraseIdx t ++ [.subscribe s1.objs.length ret.flux n]) ∧ (∀ i, asks i e = []) ∧
    (ret.kept = true ∨ k = .rc → .opened id s1.objs.length ∈ e) := by
  have hreg := reg_run as1 h1
  have h3 : settle s1 (serve { s1 with tasks := s1.tasks.eraseIdx t } k id data md n ret) = .ok (s, e) := by
    simpa only [Handler.step, ht, runTask] using hs
  obtain ⟨hl, op, hd, ho, hh⟩ : ¬ md.length < 8 ∧ ∃ op hd, getU32 md = .ok op ∧ getHandler s1.reg k op = some hd := by
    rw [exported] at hex
    by_cases hl : md.length < 8
    · rw [if_pos hl] at hex; cases hex
    · rw [if_neg hl] at hex
      obtain ⟨op, q1, -⟩ := getU32_take md (by omega)
      obtain ⟨hd, q2⟩ := Option.isSome_iff_exists.mp hex
      rw [namedOp, q1] at q2
      exact ⟨hl, op, hd, q1, by rw [hreg]; exact q2⟩
  cases k with
  | rr => exact absurd rfl hk
  | fnf =>
    simp only [serve, if_neg hl, ho, Go.bind_ok, hh] at h3
    split at h3
    · cases h3
      exact ⟨register_objs _ _ _, .inl rfl, fun i => rfl, fun _ => by simp⟩
    · rename_i hk
      cases h3
      exact ⟨rfl, .inl rfl, fun i => rfl, fun h => absurd (h.resolve_right (by simp)) hk⟩
  | rs =>
    simp only [serve, if_neg hl, ho, Go.bind_ok, hh] at h3
    split at h3
    · cases h3
      refine ⟨by simp only [addTasks, register_objs], .inr ?_, fun i => rfl, fun _ => by simp⟩
      simp only [addTasks]
      congr 1
      unfold register
      split <;> rfl
    · rename_i hk
      cases h3
      exact ⟨rfl, .inr rfl, fun i => rfl, fun h => absurd h (by simpa using hk)⟩
  | rc =>
    simp only [serve, if_neg hl, ho, Go.bind_ok, hh] at h3
    split at h3
    · cases h3
      refine ⟨by simp only [addTasks, register_objs], .inr ?_, fun i => rfl, fun _ => by simp⟩
      simp only [addTasks]
      congr 1
      unfold register
      split <;> rfl
    · rename_i hk
      cases h3
      exact ⟨rfl, .inr rfl, fun i => rfl, fun h => absurd h (by simpa using hk)⟩

/-- The demand that reached the source of a flux a handler returned. -/
theorem served_asked {reg : Registry H} {client : Bool} {as : List Act} {s : St H} {tr : List (Handler.Ev H)} {i : Nat}
    {k : Kind} {x : UInt32} {out : Option (Src × Flux.State)} {b : Bool} {inp : Option Flux.State}
    (h : Handler.run reg client as = .ok (s, tr)) (hk : k = .rs ∨ k = .rc) (ho : s.objs[i]? = some (.responder k x out b inp))
    (hone : as.countP (isOnSub i) ≤ 1) :
    ∃ as1 a as2 f r, as = as1 ++ a :: as2 ∧ .frame (.request f) r ∈ as1 ∧ f.streamID = x ∧ System.isFrame a = false ∧
      (∀ b1 f r b2, as1 = b1 ++ .frame (.requestN f) r :: b2 → ∀ s1 t1, Handler.run reg client b1 = .ok (s1, t1) → .opened x i ∉ t1) ∧
      (asks i tr).sum + askWork i s.tasks + askPot (replySub (.responder k x out b inp)) ≤ f.initialN.toNat + moreCredit x as2 ∧
      ((∀ b1 a b2, as = b1 ++ a :: b2 → saysNext i a = true → ∀ s1 t1, Handler.run reg client b1 = .ok (s1, t1) → asks i t1 ≠ []) →
        (∀ b1 f r b2, as = b1 ++ .frame (.requestN f) r :: b2 → f.streamID = x →
          ∀ s1 t1, Handler.run reg client b1 = .ok (s1, t1) → getStream s1 x = some i) →
        (asks i tr).sum + askWork i s.tasks + askPot (replySub (.responder k x out b inp)) = f.initialN.toNat + moreCredit x as2) := by
  obtain ⟨as1, as2, t, ret, s1, t1, k', data, md, n, hr, hi, hex, htag⟩ := served_origin as h i _ ho rfl
  have hk' : k' ≠ .rr := by
    intro hc
    have := htag.mpr hc
    cases this
  obtain ⟨f, r, f1, f2, f3⟩ := request_credit as1 hr.before _ _ _ _ _ (List.mem_of_getElem? hr.task)
  have hsplit := hr.split
  have e1 : as = (as1 ++ [.run t ret]) ++ as2 := by rw [hsplit]; simp
  have hrun := h
  rw [e1] at hrun
  obtain ⟨s2, t2, h2⟩ : ∃ s2 t2, Handler.run reg client (as1 ++ [.run t ret]) = .ok (s2, t2) := by
    unfold Handler.run at hrun
    rw [handler_runFrom_append] at hrun
    obtain ⟨s2, t2, e2, q1, q2, -⟩ := andThen_ok hrun
    exact ⟨s2, t2, q1⟩
  obtain ⟨_, _, e, q1, q2, rfl⟩ := run_snoc_inv _ _ _ _ _ _ h2
  rw [hr.before] at q1; cases q1
  obtain ⟨b1, b2, b3, -⟩ := served_born hk' hr.before hr.task hex q2
  have hobj2 : s2.objs[i]? = some (.responder k' x none false none) := by
    rw [b1, hi]
    simp only [List.getElem?_append_right (Nat.le_refl _), Nat.sub_self]
    rfl
  have hhist : asks i t1 = [] ∧ tasksOf i s1.tasks = [] ∧ evsOf i t1 = [] := by
    rcases Handler.history reg client as1 s1 t1 hr.before i with ⟨-, z1, z2⟩ | ⟨_, _, _, o, _, _, z, -⟩
    · exact ⟨by rw [← asks_evsOf, z2]; rfl, z1, z2⟩
    · rw [hi] at z; simp at z
  -- the kind
  have hkk : k' = k := by
    have hrun2 := hrun
    unfold Handler.run at hrun2 h2
    rw [handler_runFrom_append, h2] at hrun2
    obtain ⟨_, _, e2, z1, z2, -⟩ := andThen_ok hrun2
    cases z1
    obtain ⟨o', z3, z4⟩ := (loc_runFrom i _ s2 _ _ z2).1 _ hobj2
    rw [ho] at z3; cases z3
    obtain ⟨_, _, _, z5⟩ := responder_kind_run (k := k') (id := x) z4 ⟨_, _, _, rfl⟩
    cases z5; rfl
  subst hkk
  have hnf : k' ≠ .fnf := by rcases hk with rfl | rfl <;> simp
  have htasks := b2.resolve_left hnf
  have hold : ∀ y ∈ s1.tasks.eraseIdx t, y.obj ≠ some i := by
    intro y hy hc
    have := tasksOf_mem (List.mem_of_mem_eraseIdx hy) hc
    rw [hhist.2.1] at this; cases this
  have hw : askWork i s2.tasks = n.toNat := by
    rw [htasks, askWork_append]
    have : askWork i (s1.tasks.eraseIdx t) = 0 := by
      have : ∀ l : List Task, (∀ y ∈ l, y.obj ≠ some i) → askWork i l = 0 := by
        intro l hl
        induction l with
        | nil => rfl
        | cons y l ih =>
          have z1 := ih fun z hz => hl z (List.mem_cons_of_mem _ hz)
          have z2 : askWeight i y = 0 := by
            have := hl y (by simp)
            cases y <;> simp [Task.obj, askWeight] at this ⊢ <;> (intro hc; exact absurd hc this)
          simp only [askWork, List.map_cons, List.sum_cons] at z1 ⊢
          omega
      exact this _ hold
    rw [this]
    simp [askWork, askWeight, hi]
  have hcount : s2.tasks.countP (isSubTask i) = 1 := by
    rw [htasks, List.countP_append]
    have : (s1.tasks.eraseIdx t).countP (isSubTask i) = 0 := by
      apply List.countP_eq_zero.mpr
      intro y hy hs
      cases y with
      | subscribe j g m =>
        have : j = i := by simpa [isSubTask] using hs
        subst this
        exact hold _ hy rfl
      | _ => cases hs
    rw [this]
    simp [isSubTask, hi]
  have hok : AskOk i s2 (replySub (.responder k' x none false none)) :=
    ⟨fun st hst => (by cases hst), doRequest_nonneg _ h2⟩
  have hc2 : as2.countP (isOnSub i) ≤ 1 := by
    rw [e1, List.countP_append] at hone; omega
  obtain ⟨o, A⟩ := budget_run h2 hobj2 hok (fun st hst => by cases hst) as2 hrun hc2
  have hoo := A.obj
  rw [ho] at hoo; cases hoo
  have hask2 : asks i (t1 ++ e) = [] := by rw [asks_append, hhist.1, b3]; rfl
  have start : (asks i (t1 ++ e)).sum + askWork i s2.tasks + askPot (replySub (.responder k' x none false none)) +
      moreCredit x as2 = f.initialN.toNat + moreCredit x as2 := by
    rw [hask2, hw, f3]; simp [askPot, replySub]
  refine ⟨as1, .run t ret, as2, f, r, hsplit, f1, f2, rfl, ?_, ?_, ?_⟩
  · intro b1 g r' b2 hb s3 t3 hs3 hop
    have hrun1 := hr.before
    rw [hb] at hrun1
    unfold Handler.run at hrun1 hs3
    rw [handler_runFrom_append, hs3] at hrun1
    obtain ⟨_, _, e2, z1, z2, rfl⟩ := andThen_ok hrun1
    cases z1
    have hm : Handler.Ev.opened x i ∈ evsOf i (t3 ++ e2) :=
      List.mem_filter.mpr ⟨List.mem_append_left _ hop, by simp [Handler.Ev.obj]⟩
    rw [hhist.2.2] at hm; cases hm
  · rw [← start]; exact A.le
  · intro g1 g2
    rw [← start]
    refine (A.eq ⟨fun st hst => (by cases hst), .inr ⟨hcount, rfl, rfl⟩⟩ hask2 ?_ ?_).2.2
    · intro c1 a c2 hc hs s3 t3 hr3
      exact g1 (as1 ++ [.run t ret] ++ c1) a c2 (by rw [e1, hc]; simp) hs s3 t3 hr3
    · intro c1 g r' c2 hc hx s3 t3 hr3
      exact g2 (as1 ++ [.run t ret] ++ c1) g r' c2 (by rw [e1, hc]; simp) hx s3 t3 hr3

/-! ## Credit on the wire -/

/-- The credit of the frames for stream `x`. -/
def creditOf (x : UInt32) (fs : List AnyFrame) : Nat := (((withId x fs).filter isGrant).map credit).sum

/-- The requests among them. -/
def requestsIn (x : UInt32) (fs : List AnyFrame) : List RequestPayload :=
  ((withId x fs).filter isGrant).filterMap fun | .request f => some f | _ => none

theorem creditOf_append (x : UInt32) (a b : List AnyFrame) : creditOf x (a ++ b) = creditOf x a + creditOf x b := by
  simp [creditOf, withId_append]

theorem moreCredit_nonneg (x : UInt32) (as : List Act) : 0 ≤ moreCredit x as := by
  induction as with
  | nil => exact Int.le_refl _
  | cons a as ih =>
    have : moreCredit x (a :: as) = moreCredit x [a] + moreCredit x as := moreCredit_append x [a] as
    rw [this]
    have : 0 ≤ moreCredit x [a] := by
      cases a with
      | frame f r =>
        cases f with
        | requestN f => simp only [moreCredit, List.map_cons, List.map_nil, List.sum_cons, List.sum_nil]; split <;> omega
        | _ => exact Int.le_refl _
      | _ => exact Int.le_refl _
    omega

/-- Credit comes with the request or later. -/
theorem credit_parts (x : UInt32) (as : List Act) :
    (creditOf x (handedOver as) : Int) =
      moreCredit x as + (((requestsIn x (handedOver as)).map fun f => f.initialN.toNat).sum : Nat) := by
  induction as with
  | nil => rfl
  | cons a as ih =>
    have h1 : moreCredit x (a :: as) = moreCredit x [a] + moreCredit x as := moreCredit_append x [a] as
    rw [h1]
    cases a with
    | frame f r =>
      have e1 : handedOver (.frame f r :: as) = f :: handedOver as := rfl
      have e2 : creditOf x (f :: handedOver as) = creditOf x [f] + creditOf x (handedOver as) := creditOf_append x [f] _
      have e3 : requestsIn x (f :: handedOver as) = requestsIn x [f] ++ requestsIn x (handedOver as) := by
        have : f :: handedOver as = [f] ++ handedOver as := rfl
        rw [requestsIn, this, withId_append, List.filter_append, List.filterMap_append]; rfl
      rw [e1, e2, e3, List.map_append, List.sum_append]
      have e4 : (creditOf x [f] : Int) = moreCredit x [.frame f r] + (((requestsIn x [f]).map fun f => f.initialN.toNat).sum : Nat) := by
        cases f with
        | requestN f =>
          by_cases hx : f.streamID = x <;>
            simp [creditOf, withId, List.filter, isGrant, credit, moreCredit, requestsIn, AnyFrame.streamID, hx]
        | request f =>
          by_cases hx : f.streamID = x <;>
            simp [creditOf, withId, List.filter, isGrant, credit, moreCredit, requestsIn, AnyFrame.streamID, hx]
        | payload f =>
          by_cases hx : f.streamID = x <;>
            simp [creditOf, withId, isGrant, moreCredit, requestsIn, AnyFrame.streamID, hx]
        | cancel f =>
          by_cases hx : f.streamID = x <;>
            simp [creditOf, withId, isGrant, moreCredit, requestsIn, AnyFrame.streamID, hx]
        | error f =>
          by_cases hx : f.streamID = x <;>
            simp [creditOf, withId, isGrant, moreCredit, requestsIn, AnyFrame.streamID, hx]
        | setup f =>
          by_cases hx : (AnyFrame.setup f).streamID = x <;>
            simp [creditOf, withId, isGrant, moreCredit, requestsIn, hx]
      omega
    | _ =>
      show (creditOf x (handedOver as) : Int) = 0 + moreCredit x as + (((requestsIn x (handedOver as)).map fun f => f.initialN.toNat).sum : Nat)
      omega

theorem requestsIn_mem {x : UInt32} {as : List Act} {f : RequestPayload} {r : React} (h : .frame (.request f) r ∈ as)
    (hx : f.streamID = x) : f ∈ requestsIn x (handedOver as) := by
  refine List.mem_filterMap.mpr ⟨.request f, List.mem_filter.mpr ⟨List.mem_filter.mpr ⟨handedOver_mem h, ?_⟩, rfl⟩, rfl⟩
  simp [AnyFrame.streamID, hx]

theorem sum_mem_le {l : List Nat} {n : Nat} (h : n ∈ l) : n ≤ l.sum := by
  induction l with
  | nil => cases h
  | cons m l ih =>
    rcases List.mem_cons.mp h with rfl | h
    · simp
    · have := ih h; simp; omega

theorem moreCredit_zero {x : UInt32} {as : List Act} (h : ∀ f r, .frame (.requestN f) r ∈ as → f.streamID ≠ x) :
    moreCredit x as = 0 := by
  induction as with
  | nil => rfl
  | cons a as ih =>
    have h1 : moreCredit x (a :: as) = moreCredit x [a] + moreCredit x as := moreCredit_append x [a] as
    rw [h1, ih fun f r hm => h f r (List.mem_cons_of_mem _ hm)]
    cases a with
    | frame f r =>
      cases f with
      | requestN f => simp [moreCredit, h f r (by simp)]
      | _ => rfl
    | _ => rfl

theorem sum_nonneg_int {l : List Int} (h : ∀ n ∈ l, 0 ≤ n) : 0 ≤ l.sum := by
  induction l with
  | nil => exact Int.le_refl _
  | cons n l ih =>
    have h1 := ih fun m hm => h m (List.mem_cons_of_mem _ hm)
    have h2 := h n (by simp)
    rw [List.sum_cons]; omega

/-- What A has granted, of what its application has requested. -/
theorem credit_sent {regA regB : Registry H} {client : Bool} {s : Sys H} (hJ : Joined regA regB client s) (ht : Tidy s) {j : Nat}
    {req : RequestPayload} {first c : Bool} {input : Option Input} {sub : Option Flux.State}
    (ho : s.a.objs[j]? = some (.flux req first c input sub)) (hn : sensibleDemands s j) :
    ∃ sv, ((withId req.streamID (sentFrames s.trA)).filter isGrant) = grants req sv ∧
      (creditOf req.streamID (sentFrames s.trA) : Int) = sv.sum ∧ sv.sum ≤ (demands j s.trA).sum ∧
      (c = false → waiting j s.a.tasks = [] → sv.sum = (demands j s.trA).sum) := by
  have hw := withId_of_obj req.streamID hJ.a (hJ.usesA ht _) ho rfl
  obtain ⟨-, sv, dr, h1, h2, h3⟩ := C61_grants_partial _ _ _ _ _ hJ.a j _ _ _ _ _ ho
  have hall : ∀ n ∈ sv ++ dr ++ waiting j s.a.tasks, 0 ≤ n ∧ n < 4294967296 := fun n hm => hn n (h2.mem_iff.mpr hm)
  have hsum := sum_perm h2
  rw [List.sum_append, List.sum_append] at hsum
  have hdr := sum_nonneg_int (l := dr) fun n hm => (hall n (by simp [hm])).1
  have hwt := sum_nonneg_int (l := waiting j s.a.tasks) fun n hm => (hall n (by simp [hm])).1
  refine ⟨sv, by rw [hw, h1], ?_, by omega, fun hc hq => ?_⟩
  · rw [creditOf, hw, h1]
    exact credit_grants req sv fun n hm => hall n (by simp [hm])
  · rw [h3 hc, hq] at hsum
    simp at hsum; omega

/-! ## The theorems -/

/-- C95: the source at the other end is never asked for more than the subscriber has requested. -/
theorem C95_bound_partial (regA regB : Registry H) (client : Bool) (ms : List Move) (s : Sys H)
    (h : System.run regA regB client ms = .ok s) (ht : Tidy s) (j i : Nat) (x : UInt32) (hb : bothEnds s j i x)
    (hn : sensibleDemands s j) (hone : s.histB.countP (isOnSub i) ≤ 1) :
    (asks i s.trB).sum ≤ (demands j s.trA).sum := by
  have hJ := joined_run _ h
  obtain ⟨⟨req, first, c, input, sub, ha, rfl⟩, k, out, b, inp, hk, hob⟩ := hb
  obtain ⟨sv, -, h1, h2, -⟩ := credit_sent hJ ht ha hn
  obtain ⟨as1, a, as2, f, r, q1, q2, q3, q4, q5, q6, -⟩ := served_asked hJ.b hk hob hone
  have hw : 0 ≤ askWork i s.b.tasks := by
    have hnn := doRequest_nonneg _ hJ.b
    refine sum_nonneg_int ?_
    intro n hm
    obtain ⟨t, ht, rfl⟩ := List.mem_map.mp hm
    cases t with
    | doRequest j n =>
      simp only [askWeight]
      split
      · exact hnn _ _ ht
      · exact Int.le_refl _
    | subscribe j f n => simp only [askWeight]; split <;> omega
    | firstRequest j f n => simp only [askWeight]; split <;> omega
    | _ => exact Int.le_refl _
  have hp : 0 ≤ askPot (replySub (.responder k req.streamID out b inp)) := by
    cases replySub (.responder k req.streamID out b inp) with
    | none => exact Int.le_refl _
    | some st => simp only [askPot]; split <;> omega
  have hparts := credit_parts req.streamID s.histB
  have hf : f.initialN.toNat ≤ ((requestsIn req.streamID (handedOver s.histB)).map fun f => f.initialN.toNat).sum :=
    sum_mem_le (List.mem_map.mpr ⟨f, requestsIn_mem (by rw [q1]; exact List.mem_append_left _ q2) q3, rfl⟩)
  have hmore : moreCredit req.streamID as2 ≤ moreCredit req.streamID s.histB := by
    have : s.histB = (as1 ++ [a]) ++ as2 := by rw [q1]; simp
    rw [this, moreCredit_append]
    have := moreCredit_nonneg req.streamID (as1 ++ [a])
    omega
  have hsent : creditOf req.streamID (sentFrames s.trA) = creditOf req.streamID (handedOver s.histB) + creditOf req.streamID s.ab := by
    rw [hJ.ab, creditOf_append]
  omega

/-- C95: once the stream is settled and goes on, the source has been asked for exactly as much as the subscriber
has requested, provided B had the stream open whenever more was requested. -/
theorem C95_exact_partial (regA regB : Registry H) (client : Bool) (ms : List Move) (s : Sys H)
    (h : System.run regA regB client ms = .ok s) (ht : Tidy s) (j i : Nat) (x : UInt32) (hb : bothEnds s j i x)
    (hn : sensibleDemands s j) (hp : politeSource regB client s i) (hs : demandSettled s j i)
    (hh : heardInTime regB client s i x) : (asks i s.trB).sum = (demands j s.trA).sum := by
  have hJ := joined_run _ h
  obtain ⟨⟨req, first, c, input, sub, ha, rfl⟩, k, out, b, inp, hk, hob⟩ := hb
  obtain ⟨g1, g2, g3, ⟨_, _, _, _, g4⟩, _, _, g, st, _, _, g5, g6⟩ := hs
  rw [ha] at g4; cases g4
  rw [hob] at g5; cases g5
  obtain ⟨sv, h0, h1, -, h2⟩ := credit_sent hJ ht ha hn
  have h2 := h2 rfl g2
  obtain ⟨as1, a, as2, f, r, q1, q2, q3, q4, q5, -, q6⟩ := served_asked hJ.b hk hob hp.once
  have hopen : (openedIds s.trB).Nodup := hJ.openedB ht
  have q6 := q6 hp.asked (by
    intro b1 f' r' b2 hb1 hx s1 t1 hr1
    obtain ⟨z1, z2⟩ := hh b1 f' r' b2 hb1 hx s1 t1 hr1
    refine getStream_live regB (!client) b1 s1 t1 hr1 _ _ ?_ z1 z2
    have hrun := hJ.b
    rw [hb1] at hrun
    unfold Handler.run at hrun hr1
    rw [handler_runFrom_append, hr1] at hrun
    obtain ⟨_, _, e2, z3, z4, z5⟩ := andThen_ok hrun
    cases z3
    rw [z5, openedIds_append] at hopen
    exact (List.nodup_append.mp hopen).1)
  have hw : askWork i s.b.tasks = 0 := by
    have : ∀ l : List Task, (∀ y ∈ l, y.obj ≠ some i) → askWork i l = 0 := by
      intro l hl
      induction l with
      | nil => rfl
      | cons y l ih =>
        have z1 := ih fun z hz => hl z (List.mem_cons_of_mem _ hz)
        have z2 : askWeight i y = 0 := by
          have := hl y (by simp)
          cases y <;> simp [Task.obj, askWeight] at this ⊢ <;> (intro hc; exact absurd hc this)
        simp only [askWork, List.map_cons, List.sum_cons] at z1 ⊢
        omega
    exact this _ g3
  have hpot : askPot (replySub (.responder k req.streamID (some (g, st)) b inp)) = 0 := by
    simp [askPot, replySub, g6]
  have hsent : creditOf req.streamID (sentFrames s.trA) = creditOf req.streamID (handedOver s.histB) := by
    rw [hJ.ab, g1, List.append_nil]
  have hreqs : requestsIn req.streamID (handedOver s.histB) = [f] := by
    have hm : f ∈ requestsIn req.streamID (handedOver s.histB) := requestsIn_mem (by rw [q1]; exact List.mem_append_left _ q2) q3
    rw [hJ.ab, g1, List.append_nil] at h0
    unfold requestsIn at hm ⊢
    rw [h0] at hm ⊢
    cases sv with
    | nil => cases hm
    | cons n ns =>
      have : (grants req (n :: ns)).filterMap (fun | .request f => some f | _ => none) = [{ req with initialN := u32 n }] := by
        simp only [grants, List.filterMap_cons]
        congr 1
        rw [List.filterMap_map]
        induction ns with
        | nil => rfl
        | cons m ns ih => simpa using ih
      rw [this] at hm ⊢
      rw [List.mem_singleton.mp hm]
  have hparts := credit_parts req.streamID s.histB
  rw [hreqs] at hparts
  have hone : moreCredit req.streamID as1 = 0 := by
    apply moreCredit_zero
    intro f' r' hm hx
    obtain ⟨b1, b2, hb1⟩ := List.append_of_mem hm
    have hrun := hJ.b
    have e1 : s.histB = b1 ++ (.frame (.requestN f') r' :: b2 ++ a :: as2) := by rw [q1, hb1]; simp
    rw [e1] at hrun
    unfold Handler.run at hrun
    rw [handler_runFrom_append] at hrun
    obtain ⟨s1, t1, e2, z3, z4, z5⟩ := andThen_ok hrun
    exact q5 b1 f' r' b2 hb1 s1 t1 z3 (hh b1 f' r' (b2 ++ a :: as2) (by rw [e1]; simp) hx s1 t1 z3).1
  have hmore : moreCredit req.streamID s.histB = moreCredit req.streamID as2 := by
    have e1 : s.histB = as1 ++ ([a] ++ as2) := by rw [q1]; rfl
    have e2 : moreCredit req.streamID [a] = 0 := by cases a <;> first | rfl | cases q4
    rw [e1, moreCredit_append, moreCredit_append, hone, e2]
    omega
  simp at hparts
  omega

end

/-! ## Concrete runs -/

section
variable {H : Type}

theorem split_cases {α : Type} {p q b1 b2 : List α} {a : α} (h : p ++ q = b1 ++ a :: b2) : a ∈ p ∨ p <+: b1 := by
  by_cases hl : p.length ≤ b1.length
  · right
    exact List.prefix_of_prefix_length_le (List.prefix_append p q) (h ▸ List.prefix_append b1 (a :: b2)) hl
  · left
    have h1 : (p ++ q)[b1.length]? = some a := by rw [h]; simp
    rw [List.getElem?_append_left (by omega)] at h1
    exact List.mem_of_getElem? h1

/-- Elements are said only after `p`, where the source has been asked. -/
theorem polite_of {regB : Registry H} {client : Bool} {s : Sys H} {i : Nat} (p q : List Act) (s1 : St H) (t1 : List (Handler.Ev H))
    (h1 : s.histB = p ++ q) (h2 : Handler.run regB (!client) p = .ok (s1, t1)) (h3 : p.any (saysNext i) = false)
    (h4 : asks i t1 ≠ []) (h5 : s.histB.countP (isOnSub i) ≤ 1) : politeSource regB client s i := by
  refine ⟨h5, fun b1 a b2 hb ha s2 t2 hr => ?_⟩
  rw [h1] at hb
  rcases split_cases hb with hm | ⟨c, rfl⟩
  · rw [List.any_eq_false] at h3
    exact absurd ha (h3 a hm)
  · unfold Handler.run at hr h2
    rw [handler_runFrom_append, h2] at hr
    obtain ⟨_, _, e2, z3, z4, rfl⟩ := andThen_ok hr
    cases z3
    rw [asks_append]
    intro hc
    exact h4 (List.append_eq_nil_iff.mp hc).1

/-- More is requested only after `p`, where the stream is open, and it stays so. -/
theorem heard_of {regB : Registry H} {client : Bool} {s : Sys H} {i : Nat} {x : UInt32} (p q : List Act) (s1 : St H)
    (t1 : List (Handler.Ev H)) (hrun : Handler.run regB (!client) s.histB = .ok (s.b, s.trB))
    (h1 : s.histB = p ++ q) (h2 : Handler.run regB (!client) p = .ok (s1, t1))
    (h3 : p.any (fun | .frame (.requestN _) _ => true | _ => false) = false)
    (h4 : .opened x i ∈ t1) (h5 : .closed x ∉ s.trB) : heardInTime regB client s i x := by
  intro b1 f r b2 hb hx s2 t2 hr
  have hrun := hrun
  rw [hb] at hrun
  rw [h1] at hb
  have hr0 := hr
  unfold Handler.run at hrun hr0
  rw [handler_runFrom_append, hr0] at hrun
  obtain ⟨_, _, e2, z3, z4, z5⟩ := andThen_ok hrun
  cases z3
  refine ⟨?_, fun hc => h5 (by rw [z5]; exact List.mem_append_left _ hc)⟩
  rcases split_cases hb with hm | ⟨c, rfl⟩
  · rw [List.any_eq_false] at h3
    exact absurd rfl (h3 _ hm)
  · unfold Handler.run at hr h2
    rw [handler_runFrom_append, h2] at hr
    obtain ⟨_, _, e3, y3, y4, rfl⟩ := andThen_ok hr
    cases y3
    exact List.mem_append_left _ h4

end

/-- A calls a stream operation, requests one element and then two more. -/
def demand95 : List Move :=
  [.atA (.call .rs ⟨[5], eightZeros⟩ .created), .atA (.subscribeFlux 0 ⟨true, true, true, true, true, false⟩ [.request 1]),
   .atA (.run 0 retCreated), .atA (.fluxCall 0 (.request 2)), .atA (.run 0 retCreated)]

/-- B serves the call before it is handed the second request. -/
def inTime95 : List Move := demand95 ++
  [.toB noReact, .atB (.run 0 retCreated), .atB (.run 0 retCreated), .atB (.run 0 retCreated), .atB (.out 0 (.onSubscribe true)),
   .atB (.out 0 (.next ⟨[7], []⟩)), .toB noReact, .atB (.run 0 retCreated), .atB (.out 0 (.next ⟨[8], []⟩)), .toA noReact]

/-- B is handed both before the goroutine serving the call has run. -/
def tooEarly95 : List Move := demand95 ++
  [.toB noReact, .toB noReact, .atB (.run 0 retCreated), .atB (.run 0 retCreated), .atB (.run 0 retCreated),
   .atB (.out 0 (.onSubscribe true))]

def end95 : Sys Unit := sysAfter (System.run oneHandler oneHandler true inTime95)
def lost95 : Sys Unit := sysAfter (System.run oneHandler oneHandler true tooEarly95)

/-- The hypotheses of both theorems hold for the first run, where the source is asked for one element, then two. -/
example : System.run oneHandler oneHandler true inTime95 = .ok end95 ∧ Tidy end95 ∧ bothEnds end95 0 0 1 ∧
    sensibleDemands end95 0 ∧ politeSource oneHandler true end95 0 ∧ demandSettled end95 0 0 ∧
    heardInTime oneHandler true end95 0 1 ∧ asks 0 end95.trB = [1, 2] ∧ demands 0 end95.trA = [1, 2] :=
  ⟨rfl, tidy_of (by decide +kernel) (by decide +kernel) (by decide +kernel) (by decide +kernel),
    ⟨⟨_, _, _, _, _, rfl, rfl⟩, _, _, _, _, .inl rfl, rfl⟩, by unfold sensibleDemands; decide +kernel,
    polite_of (end95.histB.take 5) (end95.histB.drop 5) _ _ rfl rfl (by decide +kernel) (by decide +kernel) (by decide +kernel),
    ⟨rfl, by decide +kernel, by decide +kernel, ⟨_, _, _, _, rfl⟩, _, _, _, _, _, _, rfl, rfl⟩,
    heard_of (end95.histB.take 2) (end95.histB.drop 2) _ _ (joined_run inTime95 (regA := oneHandler) (client := true) rfl).b rfl rfl
      (by decide +kernel) (by decide +kernel) (by decide +kernel), by decide +kernel, by decide +kernel⟩

/-- C95 fails: a request for more that arrives before the goroutine serving the call has registered the stream is lost. -/
theorem C95_lost_violated : asks 0 lost95.trB = [1] ∧ demands 0 lost95.trA = [1, 2] := by decide +kernel

theorem C95_violated : ¬ C95_statement Unit := by
  intro h
  have := (h oneHandler oneHandler true tooEarly95 lost95 rfl
    (tidy_of (by decide +kernel) (by decide +kernel) (by decide +kernel) (by decide +kernel)) 0 0 1
    ⟨⟨_, _, _, _, _, rfl, rfl⟩, _, _, _, _, .inl rfl, rfl⟩ (allKept_of (by decide +kernel)) (by unfold sensibleDemands; decide +kernel)
    (polite_of lost95.histB [] _ _ (by simp) (joined_run tooEarly95 (regA := oneHandler) (client := true) rfl).b
      (by decide +kernel) (by decide +kernel) (by decide +kernel))).2
    ⟨rfl, by decide +kernel, by decide +kernel, ⟨_, _, _, _, rfl⟩, _, _, _, _, _, _, rfl, rfl⟩
  rw [C95_lost_violated.1, C95_lost_violated.2] at this
  revert this; decide

end Verif.Props
