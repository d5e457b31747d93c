import Verif.Lemmas.HandlerShape
/-
Stream ids at one end of a connection: every id a peer asked for or that was given to a call belongs
to exactly one stream, one request still to be served, or one frame sent on behalf of no stream.
-/
set_option autoImplicit false
namespace Verif.Handler
open Verif Frames Invoke

section
variable {H : Type}

def Task.rkey : Task → Bool × UInt32
  | .request _ id .. => (false, id)
  | _ => (false, 0)

/-- Request frames sent on behalf of no stream are fire-and-forget calls; the others reject requests. -/
def looseKey : AnyFrame → Bool × UInt32
  | .request f => (true, f.streamID)
  | f => (false, f.streamID)

/-- The ids in use, with whether they belong to a call made at this end. -/
def idsIn (s : St H) (tr : List (Ev H)) : List (Bool × UInt32) :=
  s.objs.map Obj.key ++ ((requestsOf s.tasks).map Task.rkey ++ (looseFrames tr).map looseKey)

/-- The ids given to calls, from counter `c` on. -/
def callIds (client : Bool) : UInt64 → List Act → List UInt32
  | _, [] => []
  | c, .call .. :: as => (nextID client c).2 :: callIds client (nextID client c).1 as
  | c, _ :: as => callIds client c as

/-- The ids of the requests received. -/
def requestIds : List Act → List UInt32
  | [] => []
  | .frame (.request f) _ :: as =>
    (if (kindOfType f.frameType).isSome then [f.streamID] else []) ++ requestIds as
  | _ :: as => requestIds as

/-- Both, with whether they are ids of calls. -/
def dueKeys (client : Bool) (c : UInt64) (as : List Act) : List (Bool × UInt32) :=
  (callIds client c as).map (true, ·) ++ (requestIds as).map (false, ·)

theorem requestIds_append (a b : List Act) : requestIds (a ++ b) = requestIds a ++ requestIds b := by
  induction a with
  | nil => rfl
  | cons x a ih =>
    cases x with
    | frame f r => cases f <;> simp [requestIds, ih]
    | _ => simp [requestIds, ih]

/-- What running a request goroutine does. -/
inductive Served (s : St H) (k : Kind) (id : UInt32) (data md : Bytes) (ret : Ret) :
    St H → List (Ev H) → Prop
  | short (h : md.length < 8) : Served s k id data md ret s [.sent none (errorFrame id "Invalid metadata")]
  | unknown (op : UInt32) (h : ¬ md.length < 8) (ho : getU32 md = .ok op) (hn : getHandler s.reg k op = none) :
      Served s k id data md ret s [.sent none (errorFrame id "not_found")]
  | rr (op : UInt32) (hd : H) (es : List (Ev H)) (h : ¬ md.length < 8) (hk : k = .rr)
      (ho : getU32 md = .ok op) (hn : getHandler s.reg k op = some hd)
      (he : answerEvs s.objs.length id (monoSubscribe ret.mono).2 = .ok es) :
      Served s k id data md ret
        { s with objs := s.objs ++ [.answer id ret.mono (monoSubscribe ret.mono).1] }
        (.invoked .rr hd id ⟨data, md.drop 8⟩ :: es)
  | other (op : UInt32) (hd : H) (s' e) (h : ¬ md.length < 8) (hk : k ≠ .rr)
      (ho : getU32 md = .ok op) (hn : getHandler s.reg k op = some hd)
      (h1 : s'.objs = s.objs ++ [.responder k id none false none])
      (h2 : requestsOf s'.tasks = requestsOf s.tasks) (h3 : looseFrames e = [])
      (h4 : s'.reg = s.reg) (h5 : s'.client = s.client) (h6 : s'.streamIDs = s.streamIDs) :
      Served s k id data md ret s' e

theorem serve_served (s s' : St H) (k : Kind) (id : UInt32) (data md : Bytes) (n : UInt32) (ret : Ret)
    (e : List (Ev H)) (h : serve s k id data md n ret = .ok (s', e)) :
    Served s k id data md ret s' e := by
  unfold serve at h
  split at h
  · rename_i hl; cases h; exact .short hl
  · rename_i hl
    obtain ⟨op, ho, h⟩ := ok_of_bind h
    split at h
    · rename_i hn; cases h; exact .unknown op hl ho hn
    · rename_i hd hn
      dsimp only at h
      split at h
      · obtain ⟨es, he, h⟩ := ok_of_bind h
        cases h
        exact .rr op hd es hl rfl ho hn he
      · split at h
        · cases h
          obtain ⟨f1, f2, f3, f4, f5⟩ := register_fields
            { s with objs := s.objs ++ [.responder .fnf id none false none] } id s.objs.length
          exact .other op hd _ _ hl (by simp) ho hn f1 (by rw [f2]) rfl f3 f4 f5
        · cases h
          exact .other op hd _ _ hl (by simp) ho hn rfl rfl rfl rfl rfl rfl
      · rename_i k1 k2
        split at h
        · cases h
          obtain ⟨f1, f2, f3, f4, f5⟩ := register_fields
            { s with objs := s.objs ++ [.responder k id none false none] } id s.objs.length
          refine .other op hd _ _ hl (by intro e; exact k1 e) ho hn f1 ?_ rfl f3 f4 f5
          simp only [addTasks, requestsOf_append, f2]
          simp [requestsOf, Task.isRequest]
        · cases h
          refine .other op hd _ _ hl (by intro e; exact k1 e) ho hn rfl ?_ rfl rfl rfl rfl
          simp only [addTasks, requestsOf_append]
          simp [requestsOf, Task.isRequest]

/-- The id an action brings in. -/
def newIds (s : St H) : Act → List (Bool × UInt32)
  | .frame (.request f) _ => if (kindOfType f.frameType).isSome then [(false, f.streamID)] else []
  | .call .. => [(true, (nextID s.client s.streamIDs).2)]
  | _ => []

theorem requestsOf_perm {ts : List Task} {t : Nat} {task : Task} (h : ts[t]? = some task)
    (hr : task.isRequest = true) : (requestsOf ts).Perm (task :: requestsOf (ts.eraseIdx t)) := by
  have := (perm_eraseIdx ts t task h).filter Task.isRequest
  rw [List.filter_cons, if_pos hr] at this
  exact this

theorem ids_step {s s' : St H} {a : Act} {e : List (Ev H)} (h : Shape s a s' e) :
    (idsIn s' e).Perm (s.objs.map Obj.key ++ (requestsOf s.tasks).map Task.rkey ++ newIds s a) := by
  cases h with
  | calm _ _ _ h1 h2 h3 h4 h5 h6 h7 h8 =>
    have : newIds s a = [] := by
      cases a with
      | frame f r =>
        have := h7 f r rfl
        cases f with
        | request v => simp only [isRequestFrame] at this; simp [newIds, this]
        | _ => rfl
      | call k p i => exact absurd rfl (h8 k p i)
      | _ => rfl
    rw [this, idsIn, h1, h2, h3]
    simp
  | request f r k hk =>
    have e1 : requestsOf (s.tasks ++ [.request k f.streamID f.data f.metadata f.initialN]) =
        requestsOf s.tasks ++ [.request k f.streamID f.data f.metadata f.initialN] := by
      rw [requestsOf_append]; rfl
    simp only [idsIn, addTasks, e1]
    simp [newIds, hk, looseFrames, Task.rkey]
  | serve t ret k id data md n s' e ht h =>
    have hp := (requestsOf_perm ht rfl).map Task.rkey
    have hs := serve_served _ _ _ _ _ _ _ _ _ h
    simp only [List.map_cons, Task.rkey] at hp
    simp only [newIds, List.append_nil]
    cases hs with
    | short hl =>
      refine List.Perm.trans ?_ (hp.symm.append_left _)
      simp only [idsIn, looseFrames, errorFrame, List.filterMap_cons, List.filterMap_nil, List.map_cons,
        List.map_nil, looseKey, AnyFrame.streamID]
      exact List.perm_append_comm.append_left _
    | unknown op hl ho hn =>
      refine List.Perm.trans ?_ (hp.symm.append_left _)
      simp only [idsIn, looseFrames, errorFrame, List.filterMap_cons, List.filterMap_nil, List.map_cons,
        List.map_nil, looseKey, AnyFrame.streamID]
      exact List.perm_append_comm.append_left _
    | rr op hd es hl hk ho hn he =>
      refine List.Perm.trans ?_ (hp.symm.append_left _)
      have hq : looseFrames (.invoked .rr hd id ⟨data, md.drop 8⟩ :: es) = [] := by
        have := looseFrames_obj (answerEvs_obj _ _ _ _ he)
        simpa [looseFrames] using this
      simp [idsIn, hq, Obj.key, Obj.own, Obj.sid]
    | other op hd _ _ hl hk ho hn h1 h2 h3 h4 h5 h6 =>
      refine List.Perm.trans ?_ (hp.symm.append_left _)
      simp [idsIn, h1, h2, h3, Obj.key, Obj.own, Obj.sid]
  | call k p input =>
    simp only [newIds]
    cases k with
    | rr =>
      have : (call s .rr p input).2 = [] := rfl
      rw [this]
      simp only [idsIn, call, List.map_append, List.map_cons, List.map_nil, Obj.key, looseFrames,
        List.filterMap_nil, List.append_nil, List.append_assoc]
      exact List.perm_append_comm.append_left _
    | fnf =>
      simp [idsIn, call, looseFrames, looseKey]
    | rs =>
      have : (call s .rs p input).2 = [] := rfl
      rw [this]
      simp only [idsIn, call, List.map_append, List.map_cons, List.map_nil, Obj.key, looseFrames,
        List.filterMap_nil, List.append_nil, List.append_assoc]
      exact List.perm_append_comm.append_left _
    | rc =>
      have : (call s .rc p input).2 = [] := rfl
      rw [this]
      simp only [idsIn, call, List.map_append, List.map_cons, List.map_nil, Obj.key, looseFrames,
        List.filterMap_nil, List.append_nil, List.append_assoc]
      exact List.perm_append_comm.append_left _

/-- The counter after an action. -/
def nextCounter (s : St H) : Act → UInt64
  | .call .. => (nextID s.client s.streamIDs).1
  | _ => s.streamIDs

theorem counter_step {s s' : St H} {a : Act} {e : List (Ev H)} (h : Shape s a s' e) :
    s'.client = s.client ∧ s'.reg = s.reg ∧
    s'.streamIDs = nextCounter s a := by
  cases h with
  | calm _ _ _ h1 h2 h3 h4 h5 h6 h7 h8 =>
    refine ⟨h5, h4, ?_⟩
    cases a with
    | call k p i => exact absurd rfl (h8 k p i)
    | _ => exact h6
  | request f r k hk => exact ⟨rfl, rfl, rfl⟩
  | serve t ret k id data md n s' e ht h =>
    cases serve_served _ _ _ _ _ _ _ _ _ h with
    | other op hd _ _ hl hk ho hn h1 h2 h3 h4 h5 h6 => exact ⟨h5, h4, h6⟩
    | _ => exact ⟨rfl, rfl, rfl⟩
  | call k p input => cases k <;> exact ⟨rfl, rfl, rfl⟩

/-- One step of a history, taken apart. -/
theorem runFrom_cons_ok {s s' : St H} {a : Act} {as : List Act} {e : List (Ev H)}
    (h : runFrom s (a :: as) = .ok (s', e)) :
    ∃ s1 e1 e2, settle s (step s a) = .ok (s1, e1) ∧ runFrom s1 as = .ok (s', e2) ∧ e = e1 ++ e2 := by
  simp only [runFrom] at h
  unfold andThen at h
  cases hx : settle s (step s a) with
  | ok p =>
    obtain ⟨s1, e1⟩ := p
    rw [hx] at h
    simp only at h
    cases hy : runFrom s1 as with
    | ok q => obtain ⟨s2, e2⟩ := q; rw [hy] at h; cases h; exact ⟨s1, e1, e2, rfl, hy, rfl⟩
    | err m => rw [hy] at h; cases h
    | panic => rw [hy] at h; cases h
  | err m => rw [hx] at h; cases h
  | panic => rw [hx] at h; cases h

theorem ids_runFrom (as : List Act) : ∀ (s s' : St H) (e : List (Ev H)), runFrom s as = .ok (s', e) →
    (idsIn s' e).Perm (s.objs.map Obj.key ++ (requestsOf s.tasks).map Task.rkey ++
      (dueKeys s.client s.streamIDs as)) := by
  induction as with
  | nil => intro s s' e h; cases h; simp [idsIn, dueKeys, callIds, requestIds, looseFrames]
  | cons a as ih =>
    intro s s' e h
    obtain ⟨s1, e1, e2, h1, h2, rfl⟩ := runFrom_cons_ok h
    have hsh := settle_shape _ _ _ _ h1
    have p1 := ids_step hsh
    have p2 := ih s1 s' e2 h2
    obtain ⟨c1, -, c3⟩ := counter_step hsh
    have q : (idsIn s' (e1 ++ e2)).Perm (idsIn s' e2 ++ (looseFrames e1).map looseKey) := by
      simp only [idsIn, looseFrames_append, List.map_append, List.append_assoc]
      exact (List.perm_append_comm.append_left _).append_left _
    refine q.trans ((p2.append_right _).trans ?_)
    have e3 : (dueKeys s.client s.streamIDs (a :: as)).Perm
        (newIds s a ++ (dueKeys s1.client s1.streamIDs as)) := by
      rw [c1, c3]
      cases a with
      | frame f r =>
        cases f with
        | request v =>
          have : newIds s (.frame (.request v) r) =
              (if (kindOfType v.frameType).isSome then [v.streamID] else []).map (false, ·) := by
            simp only [newIds]; split <;> rfl
          simp only [dueKeys, callIds, requestIds, this, nextCounter, List.map_append]
          rw [← List.append_assoc, ← List.append_assoc]
          exact List.perm_append_comm.append_right _
        | _ => exact .refl _
      | _ => exact .refl _
    refine List.Perm.trans ?_ (e3.symm.append_left _)
    have p3 := p1.append_right (dueKeys s1.client s1.streamIDs as)
    rw [List.append_assoc _ (newIds s a)] at p3
    refine List.Perm.trans ?_ p3
    simp only [idsIn, List.append_assoc]
    refine List.Perm.append_left _ (List.Perm.append_left _ ?_)
    simpa [List.append_assoc] using (List.perm_append_comm
      (l₁ := dueKeys s1.client s1.streamIDs as)
      (l₂ := (looseFrames e1).map looseKey))

/-- After any history: the ids in use are those given to calls and those of the requests received,
each as often. -/
theorem ids_run (reg : Registry H) (client : Bool) (as : List Act) (s : St H) (tr : List (Ev H))
    (h : run reg client as = .ok (s, tr)) :
    (idsIn s tr).Perm (dueKeys client 0 as) := by
  simpa [St.init, requestsOf] using ids_runFrom as _ s tr h

/-! ## The ids of calls -/

/-- The number of calls made. -/
def callCount : List Act → Nat
  | [] => 0
  | .call .. :: as => callCount as + 1
  | _ :: as => callCount as

/-- Id number `n` of a side. -/
def idNo (client : Bool) (n : Nat) : UInt32 := UInt32.ofNat (if client then 2 * n + 1 else 2 * n + 2)

theorem callIds_eq (client : Bool)
    (hn : ∀ n, n < 2 ^ 30 - 1 → nextID client (UInt64.ofNat n) = (UInt64.ofNat (n + 1), idNo client n))
    (as : List Act) : ∀ n, n + callCount as < 2 ^ 30 →
    callIds client (UInt64.ofNat n) as = (List.range' n (callCount as)).map (idNo client) := by
  induction as with
  | nil => intro n _; rfl
  | cons a as ih =>
    intro n h
    cases a with
    | call k p i =>
      simp only [callCount] at h
      simp only [callIds, callCount, hn n (by omega), List.range'_succ, List.map_cons]
      rw [ih (n + 1) (by omega)]
    | _ => exact ih n h

end
end Verif.Handler
