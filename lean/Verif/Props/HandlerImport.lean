import Verif.Props.Handler
import Verif.Props.Operations
/-
C60 over the life of a connection: which table an import looks in (handler.go 127-134), and what a caller
gets for an operation the peer published in its setup frame.
-/
set_option autoImplicit false
namespace Verif.Props
open Verif Frames Invoke Handler

section
variable {H : Type}

/-- The operations list a connection uses: that of the first setup frame received that has a readable one. -/
def published : List Handler.Act → Option Operations.Table
  | [] => none
  | .frame (.setup v) _ :: as =>
    match Operations.fromBytes v.data with
    | .ok t => some t
    | _ => published as
  | _ :: as => published as

/-- The table is left alone. -/
def KeepsTable (s : St H) (x : Go (Handler.Out H)) : Prop := ∀ s' e, x = .ok (s', e) → s'.opTable = s.opTable

theorem keeps_ok (s s' : St H) (e : List (Handler.Ev H)) (h : s'.opTable = s.opTable) :
    KeepsTable s (.ok (s', e)) := by
  intro s2 e2 h2; cases h2; exact h

theorem keeps_panic (s : St H) : KeepsTable s .panic := by intro s2 e2 h; cases h

theorem keeps_bind {α : Type} (s : St H) (x : Go α) (f : α → Go (Handler.Out H)) (h : ∀ a, KeepsTable s (f a)) :
    KeepsTable s (x >>= f) := by
  intro s2 e2 h2
  obtain ⟨a, _, h3⟩ := bind_ok_inv h2
  exact h a s2 e2 h3

theorem keeps_andThen (s : St H) (x : Go (Handler.Out H)) (f : St H → Go (Handler.Out H)) (h1 : KeepsTable s x)
    (h : ∀ t, KeepsTable t (f t)) : KeepsTable s (andThen x f) := by
  intro s2 e2 h2
  unfold andThen at h2
  split at h2
  · rename_i t e
    split at h2
    · rename_i s3 e3 h4
      cases h2
      rw [h t _ _ h4, h1 _ _ rfl]
    · cases h2
    · cases h2
  · cases h2
  · cases h2

@[simp] theorem table_register (s : St H) (id : UInt32) (j : Nat) : (Handler.register s id j).opTable = s.opTable := by
  unfold Handler.register; split <;> rfl
@[simp] theorem table_remove (s : St H) (id : UInt32) : (Handler.remove s id).opTable = s.opTable := by
  unfold Handler.remove; split <;> rfl
@[simp] theorem table_setObj (s : St H) (j : Nat) (o : Obj) : (setObj s j o).opTable = s.opTable := rfl
@[simp] theorem table_addTasks (s : St H) (ts : List Task) : (addTasks s ts).opTable = s.opTable := rfl

theorem keeps_deliver (s : St H) (j : Nat) (op : Flux.Op Pay) : KeepsTable s (deliver s j op) := by
  unfold deliver
  split
  · exact keeps_ok _ _ _ rfl
  · split <;> exact keeps_ok _ _ _ rfl
  · dsimp only
    split <;> exact keeps_ok _ _ _ rfl
  · exact keeps_panic _

theorem keeps_closing (id : UInt32) (t : St H) : KeepsTable t (closing id t) := keeps_ok _ _ _ (by simp)

theorem keeps_dispatch (s : St H) (r : React) (f : AnyFrame) (str : Option Nat) (hf : ∀ v, f ≠ .setup v) :
    KeepsTable s (dispatch s r f str) := by
  cases f with
  | setup v => exact absurd rfl (hf v)
  | request v =>
    simp only [dispatch]
    split <;> exact keeps_ok _ _ _ rfl
  | requestN v =>
    cases str with
    | none => exact keeps_panic _
    | some j =>
      simp only [dispatch]
      split
      · exact keeps_ok _ _ _ rfl
      · exact keeps_panic _
  | cancel v =>
    cases str with
    | none => exact keeps_panic _
    | some j => exact keeps_andThen _ _ _ (keeps_deliver _ _ _) (keeps_closing _)
  | payload v =>
    cases str with
    | none => exact keeps_panic _
    | some j =>
      refine keeps_andThen _ _ _ ?_ fun t => ?_
      · split
        · exact keeps_deliver _ _ _
        · exact keeps_ok _ _ _ rfl
      · split
        · exact keeps_andThen _ _ _ (keeps_deliver _ _ _) (keeps_closing _)
        · exact keeps_ok _ _ _ rfl
  | error v =>
    cases str with
    | none => exact keeps_panic _
    | some j =>
      exact keeps_andThen _ _ _ (keeps_deliver _ _ _) fun t =>
        keeps_andThen _ _ _ (keeps_deliver _ _ _) (keeps_closing _)

theorem keeps_onOut (s s0 : St H) (j : Nat) (k : Kind) (id : UInt32) (f : Src) (b : Bool) (inp : Option Flux.State)
    (r : Flux.State × List (Flux.Ev Pay)) (h : s0.opTable = s.opTable) :
    KeepsTable s (onOut s0 j k id f b inp r) :=
  keeps_bind _ _ _ fun _ => keeps_ok _ _ _ h

theorem keeps_onInput (s : St H) (j : Nat) (req : RequestPayload) (a b : Bool) (f : Src) (sub : Option Flux.State)
    (r : Flux.State × List (Flux.Ev Pay)) : KeepsTable s (onInput s j req a b f sub r) :=
  keeps_bind _ _ _ fun _ => keeps_ok _ _ _ rfl

theorem keeps_serve (s : St H) (k : Kind) (id : UInt32) (data md : Bytes) (n : UInt32) (ret : Ret) :
    KeepsTable s (serve s k id data md n ret) := by
  unfold serve
  split
  · exact keeps_ok _ _ _ rfl
  · refine keeps_bind _ _ _ fun op => ?_
    split
    · exact keeps_ok _ _ _ rfl
    · cases k with
      | rr => exact keeps_bind _ _ _ fun _ => keeps_ok _ _ _ rfl
      | fnf => dsimp only; split <;> exact keeps_ok _ _ _ (by simp)
      | rs => dsimp only; split <;> exact keeps_ok _ _ _ (by simp [addTasks])
      | rc => dsimp only; split <;> exact keeps_ok _ _ _ (by simp [addTasks])

theorem keeps_runTask (s : St H) (ret : Ret) (t : Task) : KeepsTable s (runTask s ret t) := by
  cases t with
  | request k id data md n => exact keeps_serve _ _ _ _ _ _ _
  | subscribe j f n =>
    simp only [runTask]
    split
    · exact keeps_onOut _ _ _ _ _ _ _ _ _ rfl
    · exact keeps_panic _
  | firstRequest j f n =>
    simp only [runTask]
    split
    · split
      · exact keeps_panic _
      · exact keeps_onOut _ _ _ _ _ _ _ _ _ rfl
    · exact keeps_panic _
  | doRequest j n =>
    simp only [runTask]
    split
    · exact keeps_onOut _ _ _ _ _ _ _ _ _ rfl
    · split
      · exact keeps_panic _
      · exact keeps_onInput _ _ _ _ _ _ _ _
    · exact keeps_panic _
  | upRequest j n =>
    simp only [runTask]
    split
    · exact keeps_ok _ _ _ rfl
    · split
      · exact keeps_ok _ _ _ rfl
      · split <;> exact keeps_ok _ _ _ rfl
    · exact keeps_panic _
  | subscribeIn j =>
    simp only [runTask]
    split
    · exact keeps_onInput _ _ _ _ _ _ _ _
    · exact keeps_panic _

theorem keeps_step (s : St H) (a : Handler.Act) (ha : ∀ v r, a ≠ .frame (.setup v) r) :
    KeepsTable s (Handler.step s a) := by
  cases a with
  | frame f r =>
    have hf : ∀ v, f ≠ .setup v := fun v h => ha v r (by rw [h])
    simp only [Handler.step, handleFrame]
    split
    · split
      · split
        · intro s' e h; cases h
        · exact keeps_ok _ _ _ rfl
      · exact keeps_dispatch _ _ _ _ hf
    · exact keeps_dispatch _ _ _ _ hf
  | run t ret =>
    simp only [Handler.step]
    split
    · rename_i task _
      exact keeps_runTask { s with tasks := s.tasks.eraseIdx t } ret task
    · exact keeps_ok _ _ _ rfl
  | answer j sig =>
    simp only [Handler.step]
    split
    · exact keeps_bind _ _ _ fun _ => keeps_ok _ _ _ rfl
    · exact keeps_ok _ _ _ rfl
  | out j op =>
    simp only [Handler.step]
    split
    · split
      · exact keeps_ok _ _ _ rfl
      · exact keeps_onOut _ _ _ _ _ _ _ _ _ rfl
    · exact keeps_ok _ _ _ rfl
  | subscribeInp j inst start =>
    simp only [Handler.step]
    split <;> exact keeps_ok _ _ _ rfl
  | inpCall j c =>
    simp only [Handler.step]
    split <;> exact keeps_ok _ _ _ rfl
  | call k p input =>
    refine keeps_ok _ _ _ ?_
    cases k <;> rfl
  | subscribeMono j inst =>
    simp only [Handler.step]
    split <;> exact keeps_ok _ _ _ (by simp)
  | subscribeFlux j inst start =>
    simp only [Handler.step]
    split <;> exact keeps_ok _ _ _ (by simp)
  | fluxCall j c =>
    simp only [Handler.step]
    split <;> exact keeps_ok _ _ _ rfl
  | input j op =>
    simp only [Handler.step]
    split
    · split
      · exact keeps_ok _ _ _ rfl
      · exact keeps_onInput _ _ _ _ _ _ _ _
    · exact keeps_ok _ _ _ rfl

theorem keeps_settle (s : St H) (x : Go (Handler.Out H)) (h : KeepsTable s x) : KeepsTable s (settle s x) := by
  intro s' e h2
  cases x with
  | ok y => exact h s' e h2
  | err m => cases h2; rfl
  | panic => cases h2

theorem table_runFrom (as : List Handler.Act) : ∀ (s s' : St H) (tr : List (Handler.Ev H)),
    Handler.runFrom s as = .ok (s', tr) → s'.opTable = s.opTable.or (published as) := by
  induction as with
  | nil => intro s s' tr h; cases h; simp [published]
  | cons a as ih =>
    intro s s' tr h
    simp only [Handler.runFrom, andThen] at h
    split at h
    · rename_i t e h1
      split at h
      · rename_i s2 e2 h2
        cases h
        rw [ih _ _ _ h2]
        by_cases ha : ∃ v r, a = .frame (.setup v) r
        · obtain ⟨v, r, rfl⟩ := ha
          simp only [published]
          have e0 : Handler.step s (.frame (.setup v) r) = dispatch s r (.setup v) none := rfl
          rw [e0] at h1
          simp only [dispatch] at h1
          cases ht : s.opTable with
          | some t0 =>
            simp only [ht, Option.isNone_some, Bool.false_eq_true, if_false, settle] at h1
            cases h1
            simp [ht]
          | none =>
            simp only [ht, Option.isNone_none, if_true] at h1
            split at h1
            · rename_i t1 hb
              simp only [settle] at h1
              cases h1
              simp [hb]
            · rename_i hb
              simp only [settle] at h1
              cases h1
              simp [hb, ht]
            · cases h1
        · have hk := keeps_settle s _ (keeps_step s a (fun v r h => ha ⟨v, r, h⟩)) _ _ h1
          rw [hk]
          congr 1
          cases a with
          | frame f r =>
            cases f with
            | setup v => exact absurd ⟨v, r, rfl⟩ ha
            | _ => rfl
          | _ => rfl
      · cases h
      · cases h
    · cases h
    · cases h

/-- C60, the table: whatever happens on a connection, imports look in the operations list of the first
setup frame received that has a readable one (none before that). Missing, with `C60_import_partial`: telling
"not found" from index 0. -/
theorem C60_table_partial (reg : Registry H) (client : Bool) (as : List Handler.Act) (s : St H)
    (tr : List (Handler.Ev H)) (h : Handler.run reg client as = .ok (s, tr)) : s.opTable = published as := by
  rw [table_runFrom as _ _ _ h]
  rfl

/-- C60, end to end: the peer published its table `t` in a setup frame, the first of the connection; whatever
else happened before and since, importing an operation gives the index of the first export of that kind and name
in `t`, and 0 if there is none. Missing: telling "not found" from index 0. -/
theorem C60_published_partial (reg : Registry H) (client : Bool) (before after : List Handler.Act) (r : React)
    (t : Operations.Table) (v : Setup) (s : St H) (tr : List (Handler.Ev H)) (hok : ∀ o ∈ t, opOk o)
    (hsz : tableLength t < 2^32) (hw : Operations.toBytes t = .ok v.data)
    (hb : ∀ a ∈ before, ∀ v r, a ≠ .frame (.setup v) r)
    (h : Handler.run reg client (before ++ .frame (.setup v) r :: after) = .ok (s, tr)) (k : Kind) (ns op : Bytes) :
    (∀ (a b : Operations.Table) (o : Operations.Operation), t = a ++ o :: b → isExport k ns op o →
      (∀ o' ∈ a, ¬ isExport k ns op o') → importOp s.opTable k ns op = o.index) ∧
    ((∀ o ∈ t, ¬ isExport k ns op o) → importOp s.opTable k ns op = 0) := by
  have e : published (before ++ .frame (.setup v) r :: after) = some t := by
    clear h
    induction before with
    | nil =>
      obtain ⟨h1, h2⟩ := C15_table_roundtrip t hok hsz
      rw [hw, Go.ok.injEq] at h1
      simp only [List.nil_append, published, h1, h2]
    | cons a as ih =>
      have := ih fun a ha => hb a (List.mem_cons_of_mem _ ha)
      rw [← this]
      have ha := hb a List.mem_cons_self
      cases a with
      | frame f r =>
        cases f with
        | setup v => exact absurd rfl (ha v r)
        | _ => rfl
      | _ => rfl
  rw [C60_table_partial reg client _ s tr h, e]
  exact ⟨fun a b o ht ho ha => by rw [ht]; exact (C60_import_partial k ns op).1 a b o ho ha,
    (C60_import_partial k ns op).2.1 t⟩

end

/-- The bytes of a table. -/
def tableBytes (t : Operations.Table) : Bytes := match Operations.toBytes t with | .ok b => b | _ => []

/-- A call, two operations published, a second setup frame. -/
def importHistory : List Handler.Act :=
  [.call .fnf ⟨[], []⟩ .created,
   .frame (.setup ⟨0, 0, 0, 0, [], [], [], [], tableBytes [⟨3, 1, 1, [97], [98]⟩, ⟨4, 3, 1, [97], [99]⟩], false⟩) ⟨[], [], []⟩,
   .frame (.setup ⟨0, 0, 0, 0, [], [], [], [], tableBytes [⟨7, 1, 1, [97], [98]⟩], false⟩) ⟨[], [], []⟩]

example : (match Handler.run (H := Unit) Registry.init true importHistory with
    | .ok (s, _) => some (importOp s.opTable .rr [97] [98], importOp s.opTable .rs [97] [99])
    | _ => none) = some (3, 4) := by decide

end Verif.Props
