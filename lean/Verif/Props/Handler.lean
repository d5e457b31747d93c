import Verif.Model.Handler
import Verif.Props.Invoke
import Verif.Props.Lookup
import Verif.Props.WasmBuffers
/-
Properties C55, C56, C59, C60: the frame handler's stream tables and dispatch.
-/
set_option autoImplicit false
namespace Verif.Props
open Verif Frames Handler
open Verif.Invoke (Kind Registry)

section
variable {H : Type}

/-! ## Tables and traces -/

/-- The calls of registerStream and removeStream in a trace, for ids of one parity, as a history of
that table. -/
def tableOps (odd : Bool) : List (Handler.Ev H) → List (Lookup.Op Nat)
  | [] => []
  | .opened id j :: es =>
    if decide (id &&& 1 = 1) = odd then .add id j :: tableOps odd es else tableOps odd es
  | .closed id :: es =>
    if decide (id &&& 1 = 1) = odd then .remove id :: tableOps odd es else tableOps odd es
  | _ :: es => tableOps odd es

theorem tableOps_append (odd : Bool) (a b : List (Handler.Ev H)) :
    tableOps odd (a ++ b) = tableOps odd a ++ tableOps odd b := by
  induction a with
  | nil => rfl
  | cons e a ih => cases e <;> simp [tableOps, ih] <;> split <;> simp

/-- No table operation in these events. -/
def quiet (es : List (Handler.Ev H)) : Prop := ∀ odd, tableOps odd es = []

theorem quiet_append {a b : List (Handler.Ev H)} (ha : quiet a) (hb : quiet b) : quiet (a ++ b) := by
  intro odd; rw [tableOps_append, ha, hb]; rfl

theorem quiet_demandEvs (j : Nat) (id : UInt32) (wrap : Flux.Ev Pay → Handler.Ev H)
    (hw : ∀ e, quiet [wrap e]) (es : List (Flux.Ev Pay)) : quiet (demandEvs j id wrap es) := by
  have key : ∀ e es, quiet es → quiet (wrap e :: es) := fun e es h => quiet_append (hw e) h
  induction es with
  | nil => intro odd; rfl
  | cons e es ih =>
    cases e <;> simp only [demandEvs]
    all_goals first
      | exact key _ _ ih
      | exact key _ _ (fun odd => by simp only [tableOps]; exact ih odd)

theorem quiet_flux (j : Nat) (e : Flux.Ev Pay) : quiet [(.flux j e : Handler.Ev H)] := fun _ => rfl
theorem quiet_inp (j : Nat) (e : Flux.Ev Pay) : quiet [(.inp j e : Handler.Ev H)] := fun _ => rfl

theorem quiet_map_mono (j : Nat) (es : List (Mono.Ev Pay)) :
    quiet (es.map (.mono j : Mono.Ev Pay → Handler.Ev H)) := by
  intro odd
  induction es with
  | nil => rfl
  | cons e es ih => simpa [tableOps] using ih

theorem quiet_replyEv (j : Nat) (id : UInt32) (e : Flux.Ev Pay) (r : List (Handler.Ev H))
    (h : replyEv j id e = .ok r) : quiet r := by
  intro odd
  unfold replyEv at h
  split at h <;> cases h <;> rfl

theorem quiet_replyEvs (j : Nat) (id : UInt32) (es : List (Flux.Ev Pay)) :
    ∀ r : List (Handler.Ev H), replyEvs j id es = .ok r → quiet r := by
  induction es with
  | nil => intro r h; cases h; intro odd; rfl
  | cons e es ih =>
    intro r h
    simp only [replyEvs] at h
    obtain ⟨a, ha, h⟩ := bind_ok_inv h
    obtain ⟨b, hb, h⟩ := bind_ok_inv h
    cases h
    exact quiet_append (quiet_replyEv _ _ _ _ ha) (ih _ hb)

theorem quiet_answerEvs (j : Nat) (id : UInt32) (es : List (Mono.Ev Pay)) :
    ∀ r : List (Handler.Ev H), answerEvs j id es = .ok r → quiet r := by
  induction es with
  | nil => intro r h; cases h; intro odd; rfl
  | cons e es ih =>
    intro r h
    simp only [answerEvs] at h
    obtain ⟨a, ha, h⟩ := bind_ok_inv h
    obtain ⟨b, hb, h⟩ := bind_ok_inv h
    cases h
    refine quiet_append ?_ (ih _ hb)
    intro odd
    unfold answerEv at ha
    split at ha <;> cases ha <;> rfl

/-- The tables after `x`, started in `s`, are those of the trace. -/
def Tab (s : St H) (x : Go (Out H)) : Prop :=
  ∀ s' e, x = .ok (s', e) →
    s'.guestStreams = Lookup.run s.guestStreams (tableOps true e) ∧
    s'.hostStreams = Lookup.run s.hostStreams (tableOps false e)

theorem tab_quiet (s s' : St H) (e : List (Handler.Ev H)) (h1 : s'.guestStreams = s.guestStreams)
    (h2 : s'.hostStreams = s.hostStreams) (hq : quiet e) : Tab s (.ok (s', e)) := by
  intro t f h
  cases h
  rw [hq, hq]
  exact ⟨h1, h2⟩

theorem tab_mk {s s' t : St H} {e es : List (Handler.Ev H)}
    (h : (Go.ok (t, es) : Go (Out H)) = .ok (s', e)) (h1 : t.guestStreams = s.guestStreams)
    (h2 : t.hostStreams = s.hostStreams) (hq : quiet es) :
    s'.guestStreams = Lookup.run s.guestStreams (tableOps true e) ∧
    s'.hostStreams = Lookup.run s.hostStreams (tableOps false e) :=
  tab_quiet s t es h1 h2 hq s' e h

theorem lookup_run_append {S : Type} (l : Lookup.State S) (a b : List (Lookup.Op S)) :
    Lookup.run l (a ++ b) = Lookup.run (Lookup.run l a) b := by simp [Lookup.run]

theorem tab_andThen (s : St H) (x : Go (Out H)) (f : St H → Go (Out H)) (hx : Tab s x)
    (hf : ∀ s', Tab s' (f s')) : Tab s (andThen x f) := by
  intro s' e h
  unfold andThen at h
  cases x with
  | ok p =>
    obtain ⟨t, e1⟩ := p
    simp only at h
    have h1 := hx t e1 rfl
    cases hft : f t with
    | ok q =>
      rw [hft] at h
      obtain ⟨u, e2⟩ := q
      cases h
      have h2 := hf t _ _ hft
      rw [tableOps_append, tableOps_append, lookup_run_append, lookup_run_append, ← h1.1, ← h1.2]
      exact h2
    | err m => rw [hft] at h; cases h
    | panic => rw [hft] at h; cases h
  | err m => cases h
  | panic => cases h

theorem andThen_assoc (x : Go (Out H)) (f g : St H → Go (Out H)) :
    andThen (andThen x f) g = andThen x fun s => andThen (f s) g := by
  cases x with
  | ok p =>
    simp only [andThen]
    cases f p.1 with
    | ok q =>
      simp only
      cases g q.1 <;> simp
    | err m => rfl
    | panic => rfl
  | err m => rfl
  | panic => rfl

theorem handler_runFrom_append (as : List Act) : ∀ (s0 : St H) (b : List Act),
    runFrom s0 (as ++ b) = andThen (runFrom s0 as) fun s => runFrom s b := by
  induction as with
  | nil =>
    intro s0 b
    simp only [List.nil_append, runFrom, andThen]
    cases runFrom s0 b <;> simp
  | cons a as ih =>
    intro s0 b
    simp only [List.cons_append, runFrom, andThen_assoc]
    congr 1
    funext s
    exact ih s b

theorem tab_err (s : St H) (m : String) : Tab s (.err m) := by intro _ _ h; cases h
theorem tab_panic (s : St H) : Tab s .panic := by intro _ _ h; cases h

/-- The same tables. -/
def sameTables (s s' : St H) : Prop :=
  s'.guestStreams = s.guestStreams ∧ s'.hostStreams = s.hostStreams

theorem tab_of_same {s t : St H} {x : Go (Out H)} (h : sameTables s t) (hx : Tab t x) : Tab s x := by
  intro s' e he
  have := hx s' e he
  rw [h.1, h.2] at this
  exact this

theorem run_add {S : Type} (l : Lookup.State S) (id : UInt32) (j : S) :
    Lookup.run l [.add id j] = Lookup.add l id j := rfl
theorem run_remove {S : Type} (l : Lookup.State S) (id : UInt32) :
    Lookup.run l [.remove id] = Lookup.remove l id := rfl

theorem tab_register (s t : St H) (id : UInt32) (j : Nat) (e : List (Handler.Ev H)) (hq : quiet e)
    (ht : sameTables (register s id j) t) : Tab s (.ok (t, .opened id j :: e)) := by
  intro s' f h
  cases h
  unfold register at ht
  by_cases hp : id &&& 1 = 1
  · simp only [hp, if_true] at ht
    simp only [tableOps, hp, decide_true, if_true, run_add, hq true]
    simp only [ht.1, true_and]
    simp [hq false, Lookup.run, ht.2]
  · simp only [hp, if_false] at ht
    simp only [tableOps, hp, decide_false, if_true, hq false, run_add]
    simp only [ht.2, and_true]
    simp [hq true, Lookup.run, ht.1]

theorem tab_closing (id : UInt32) (s : St H) : Tab s (closing id s) := by
  intro s' f h
  cases h
  unfold remove
  by_cases hp : id &&& 1 = 1 <;>
  simp [tableOps, hp, run_remove, Lookup.run] <;> simp [Lookup.step]

theorem same_refl (s : St H) : sameTables s s := ⟨rfl, rfl⟩
theorem same_set (s : St H) (j : Nat) (o : Obj) : sameTables s (setObj s j o) := ⟨rfl, rfl⟩

theorem tab_deliver (s : St H) (j : Nat) (op : Flux.Op Pay) : Tab s (deliver s j op) := by
  unfold deliver
  split
  · exact tab_quiet _ _ _ rfl rfl (quiet_demandEvs _ _ _ (quiet_inp _) _)
  · split
    · exact tab_quiet _ _ _ rfl rfl (quiet_map_mono _ _)
    · exact tab_quiet _ _ _ rfl rfl (quiet_map_mono _ _)
    · exact tab_quiet _ _ _ rfl rfl (fun _ => rfl)
  · dsimp only
    split
    · exact tab_quiet _ _ _ rfl rfl (quiet_demandEvs _ _ _ (quiet_flux _) _)
    · exact tab_quiet _ _ _ rfl rfl (fun _ => rfl)
  · exact tab_panic s

theorem tab_nop (s : St H) : Tab s (.ok (s, [])) := tab_quiet _ _ _ rfl rfl (fun _ => rfl)

theorem tab_dispatch (s : St H) (r : React) (f : AnyFrame) (str : Option Nat) :
    Tab s (dispatch s r f str) := by
  unfold dispatch
  split
  · split
    · split
      · exact tab_quiet _ _ _ rfl rfl (fun _ => rfl)
      · exact tab_err _ _
      · exact tab_panic _
    · exact tab_nop _
  · split
    · exact tab_quiet _ _ _ rfl rfl (fun _ => rfl)
    · exact tab_nop _
  · split
    · exact tab_quiet _ _ _ rfl rfl (fun _ => rfl)
    · exact tab_panic _
  · exact tab_andThen _ _ _ (tab_deliver _ _ _) (tab_closing _)
  · refine tab_andThen _ _ _ ?_ ?_
    · split
      · exact tab_deliver _ _ _
      · exact tab_nop _
    · intro s'
      split
      · exact tab_andThen _ _ _ (tab_deliver _ _ _) (tab_closing _)
      · exact tab_nop _
  · exact tab_andThen _ _ _ (tab_deliver _ _ _)
      (fun s' => tab_andThen _ _ _ (tab_deliver _ _ _) (tab_closing _))
  · exact tab_panic _

theorem tab_handleFrame (s : St H) (f : AnyFrame) (r : React) : Tab s (handleFrame s f r) := by
  unfold handleFrame
  split
  · split
    · split
      · exact tab_err _ _
      · exact tab_nop _
    · exact tab_dispatch _ _ _ _
  · exact tab_dispatch _ _ _ _

theorem tab_onOut (s : St H) (j : Nat) (k : Kind) (id : UInt32) (f : Src) (b : Bool)
    (inp : Option Flux.State) (r : Flux.State × List (Flux.Ev Pay)) :
    Tab s (onOut s j k id f b inp r) := by
  intro s' e h
  unfold onOut at h
  obtain ⟨es, he, h⟩ := bind_ok_inv h
  exact tab_mk h rfl rfl (quiet_replyEvs _ _ _ _ he)

theorem tab_onInput (s : St H) (j : Nat) (req : RequestPayload) (a b : Bool) (f : Src)
    (sub : Option Flux.State) (r : Flux.State × List (Flux.Ev Pay)) :
    Tab s (onInput s j req a b f sub r) := by
  intro s' e h
  unfold onInput at h
  obtain ⟨es, he, h⟩ := bind_ok_inv h
  exact tab_mk h rfl rfl (quiet_replyEvs _ _ _ _ he)

theorem tab_serve (s : St H) (k : Kind) (id : UInt32) (data md : Bytes) (n : UInt32) (ret : Ret) :
    Tab s (serve s k id data md n ret) := by
  intro s' e h
  unfold serve at h
  split at h
  · exact tab_quiet _ _ _ rfl rfl (fun _ => rfl) _ _ h
  · obtain ⟨op, hop, h⟩ := bind_ok_inv h
    split at h
    · exact tab_quiet _ _ _ rfl rfl (fun _ => rfl) _ _ h
    · dsimp only at h
      split at h
      · obtain ⟨es, hes, h⟩ := bind_ok_inv h
        refine tab_mk h rfl rfl ?_
        intro odd
        simp only [tableOps]
        exact quiet_answerEvs _ _ _ _ hes odd
      · split at h
        · refine tab_of_same (t := { s with objs := s.objs ++ [.responder .fnf id none false none] })
            ⟨rfl, rfl⟩ (tab_register _ _ id _ _ (fun _ => rfl) (same_refl _)) _ _ h
        · exact tab_mk h rfl rfl fun _ => rfl
      · split at h
        · refine tab_of_same (t := { s with objs := s.objs ++ [.responder k id none false none] })
            ⟨rfl, rfl⟩ ?_ _ _ h
          exact tab_register _ _ id _ [_] (fun _ => rfl) ⟨rfl, rfl⟩
        · exact tab_mk h rfl rfl fun _ => rfl

theorem tab_runTask (s : St H) (ret : Ret) (t : Task) : Tab s (runTask s ret t) := by
  cases t with
  | request k id data md n => exact tab_serve _ _ _ _ _ _ _
  | subscribe j f n =>
    simp only [runTask]
    split
    · exact tab_of_same ⟨rfl, rfl⟩ (tab_onOut (addTasks s [.firstRequest j f n]) _ _ _ _ _ _ _)
    · exact tab_panic _
  | firstRequest j f n =>
    simp only [runTask]
    split
    · split
      · exact tab_panic _
      · exact tab_onOut _ _ _ _ _ _ _ _
    · exact tab_panic _
  | doRequest j n =>
    simp only [runTask]
    split
    · exact tab_onOut _ _ _ _ _ _ _ _
    · split
      · exact tab_panic _
      · exact tab_onInput _ _ _ _ _ _ _ _
    · exact tab_panic _
  | upRequest j n =>
    simp only [runTask]
    split
    · exact tab_quiet _ _ _ rfl rfl (fun _ => rfl)
    · split
      · exact tab_nop _
      · split
        · exact tab_quiet _ _ _ rfl rfl (fun _ => rfl)
        · exact tab_quiet _ _ _ rfl rfl (fun _ => rfl)
    · exact tab_panic _
  | subscribeIn j =>
    simp only [runTask]
    split
    · exact tab_onInput _ _ _ _ _ _ _ _
    · exact tab_panic _

theorem tab_step (s : St H) (a : Act) : Tab s (Handler.step s a) := by
  cases a with
  | frame f r => exact tab_handleFrame _ _ _
  | run t ret =>
    simp only [Handler.step]
    split
    · exact tab_of_same ⟨rfl, rfl⟩ (tab_runTask { s with tasks := s.tasks.eraseIdx t } _ _)
    · exact tab_nop _
  | answer j sig =>
    simp only [Handler.step]
    split
    · intro s' e h
      obtain ⟨es, he, h⟩ := bind_ok_inv h
      exact tab_mk h rfl rfl (quiet_answerEvs _ _ _ _ he)
    · exact tab_nop _
  | out j op =>
    simp only [Handler.step]
    split
    · split
      · exact tab_nop _
      · exact tab_onOut _ _ _ _ _ _ _ _
    · exact tab_nop _
  | subscribeInp j inst start =>
    simp only [Handler.step]
    split
    · exact tab_quiet _ _ _ rfl rfl (quiet_demandEvs _ _ _ (quiet_inp _) _)
    · exact tab_nop _
  | inpCall j c =>
    simp only [Handler.step]
    split
    · exact tab_quiet _ _ _ rfl rfl (quiet_demandEvs _ _ _ (quiet_inp _) _)
    · exact tab_nop _
  | call k p input =>
    simp only [Handler.step, Handler.call]
    cases k <;> exact tab_quiet _ _ _ rfl rfl (fun _ => rfl)
  | subscribeMono j inst =>
    simp only [Handler.step]
    split
    · exact tab_register _ _ _ _ _ (quiet_append (quiet_map_mono _ _) (fun _ => rfl)) ⟨rfl, rfl⟩
    · exact tab_nop _
  | subscribeFlux j inst start =>
    simp only [Handler.step]
    split
    · exact tab_register _ _ _ _ _ (quiet_demandEvs _ _ _ (quiet_flux _) _) ⟨rfl, rfl⟩
    · exact tab_nop _
  | fluxCall j c =>
    simp only [Handler.step]
    split
    · exact tab_quiet _ _ _ rfl rfl (quiet_demandEvs _ _ _ (quiet_flux _) _)
    · exact tab_nop _
  | input j op =>
    simp only [Handler.step]
    split
    · split
      · exact tab_nop _
      · exact tab_onInput _ _ _ _ _ _ _ _
    · exact tab_nop _

theorem tab_runFrom (as : List Act) : ∀ s : St H, Tab s (runFrom s as) := by
  induction as with
  | nil => exact fun s => tab_nop s
  | cons a as ih =>
    intro s
    unfold runFrom
    refine tab_andThen _ _ _ ?_ ih
    unfold settle
    split
    · exact tab_quiet _ _ _ rfl rfl (fun _ => rfl)
    · exact tab_step s a

/-- The stream tables are those of the history of registrations and removals. -/
theorem tables_run (reg : Registry H) (client : Bool) (as : List Act) (s : St H)
    (tr : List (Handler.Ev H)) (h : Handler.run reg client as = .ok (s, tr)) :
    s.guestStreams = Lookup.run .init (tableOps true tr) ∧
    s.hostStreams = Lookup.run .init (tableOps false tr) :=
  tab_runFrom as (.init reg client) s tr h

/-! ## C55 -/

/-- Frames that belong to an existing stream. -/
def streamFrame : AnyFrame → Bool
  | .requestN _ => true
  | .cancel _ => true
  | .payload _ => true
  | .error _ => true
  | _ => false

theorem lookup_ids {S : Type} (ops : List (Lookup.Op S)) :
    ∀ (p : Nat) (n : Lookup.Node S), (Lookup.run Lookup.State.init ops).heap[p]? = some n →
      Lookup.Op.add n.id n.stream ∈ ops := by
  induction ops using lookup_snoc_induction with
  | nil => intro p n h; simp [Lookup.run, Lookup.State.init] at h
  | snoc ops op ih =>
    intro p n h
    rw [lookup_run_append] at h
    generalize Lookup.run Lookup.State.init ops = l at h ih
    have old : ∀ (f : Lookup.Node S → Lookup.Node S) (q p : Nat) (n : Lookup.Node S)
        (heap : List (Lookup.Node S)), (∀ x, (f x).id = x.id ∧ (f x).stream = x.stream) →
        (heap.modify q f)[p]? = some n → ∃ n', heap[p]? = some n' ∧ n'.id = n.id ∧ n'.stream = n.stream := by
      intro f q p n heap hf hp
      rw [List.getElem?_modify] at hp
      split at hp
      · cases hh : heap[p]? with
        | none => rw [hh] at hp; cases hp
        | some x => rw [hh] at hp; cases hp; exact ⟨x, rfl, (hf x).1.symm, (hf x).2.symm⟩
      · cases hh : heap[p]? with
        | none => rw [hh] at hp; cases hp
        | some x => rw [hh] at hp; cases hp; exact ⟨x, rfl, rfl, rfl⟩
    have fin : ∀ (p : Nat) (n : Lookup.Node S),
        (∃ n', l.heap[p]? = some n' ∧ n'.id = n.id ∧ n'.stream = n.stream) →
        Lookup.Op.add n.id n.stream ∈ ops ++ [op] := by
      rintro p n ⟨n', h1, h2, h3⟩
      have hs := ih p n' h1
      rw [← h2, ← h3]; simp [hs]
    cases op with
    | add id s =>
      rw [run_add] at h
      unfold Lookup.add at h
      split at h
      · rw [List.getElem?_append] at h
        split at h
        · exact fin p n ⟨n, h, rfl, rfl⟩
        · rw [List.getElem?_singleton] at h
          split at h
          · cases h; simp
          · cases h
      · dsimp only at h
        rw [List.getElem?_append] at h
        split at h
        · exact fin p n (old (fun n => { n with next := some l.heap.length }) _ _ _ _ (fun _ => ⟨rfl, rfl⟩) h)
        · rw [List.getElem?_singleton] at h
          split at h
          · cases h; simp
          · cases h
    | remove id =>
      rw [run_remove] at h
      unfold Lookup.remove at h
      split at h
      · exact fin p n ⟨n, h, rfl, rfl⟩
      · split at h
        · exact fin p n ⟨n, h, rfl, rfl⟩
        · rename_i node _
          dsimp only at h
          obtain ⟨n1, h1, e1⟩ : ∃ n1, (match node.prev with
              | some p => l.heap.modify p fun n => { n with next := node.next }
              | none => l.heap)[p]? = some n1 ∧ n1.id = n.id ∧ n1.stream = n.stream := by
            split at h
            · exact old (fun n => { n with prev := node.prev }) _ _ _ _ (fun _ => ⟨rfl, rfl⟩) h
            · exact ⟨n, h, rfl, rfl⟩
          split at h1
          · obtain ⟨n2, h2, e2⟩ := old (fun n => { n with next := node.next }) _ _ _ _ (fun _ => ⟨rfl, rfl⟩) h1
            exact fin p n ⟨n2, h2, e2.1.trans e1.1, e2.2.trans e1.2⟩
          · exact fin p n ⟨n1, h1, e1⟩

theorem findFrom_id {S : Type} (heap : List (Lookup.Node S)) (id : UInt32) :
    ∀ (fuel : Nat) (q : Option Nat) (p : Nat), Lookup.findFrom heap id fuel q = some p →
      ∃ n, heap[p]? = some n ∧ n.id = id := by
  intro fuel
  induction fuel with
  | zero => intro q p h; simp [Lookup.findFrom] at h
  | succ fuel ih =>
    intro q p h
    cases q with
    | none => simp [Lookup.findFrom] at h
    | some q =>
      simp only [Lookup.findFrom] at h
      split at h
      · cases h
      · rename_i n hn
        split at h
        · cases h; exact ⟨n, hn, by assumption⟩
        · exact ih _ _ h

theorem get_never_added {S : Type} (ops : List (Lookup.Op S)) (id : UInt32)
    (h : ∀ s, .add id s ∉ ops) : Lookup.get (Lookup.run Lookup.State.init ops) id = none := by
  unfold Lookup.get
  cases hf : Lookup.find (Lookup.run Lookup.State.init ops) id with
  | none => rfl
  | some p =>
    obtain ⟨n, hn, hid⟩ := findFrom_id _ _ _ _ _ hf
    have hs := lookup_ids ops p n hn
    rw [hid] at hs
    exact absurd hs (h _)

theorem get_added {S : Type} (ops : List (Lookup.Op S)) (id : UInt32) (s : S)
    (h : Lookup.get (Lookup.run Lookup.State.init ops) id = some s) : .add id s ∈ ops := by
  unfold Lookup.get at h
  split at h
  · rename_i p hf
    obtain ⟨n, hn, hid⟩ := findFrom_id _ _ _ _ _ hf
    rw [hn] at h
    cases h
    have hs := lookup_ids ops p n hn
    rwa [hid] at hs
  · cases h

theorem mem_tableOps_add (odd : Bool) (id : UInt32) (j : Nat) (es : List (Handler.Ev H))
    (h : .add id j ∈ tableOps odd es) : .opened id j ∈ es := by
  induction es with
  | nil => simp [tableOps] at h
  | cons e es ih =>
    cases e <;> simp only [tableOps] at h
    case opened id' j' =>
      split at h
      · rcases List.mem_cons.mp h with e | e
        · cases e; simp
        · simp [ih e]
      · simp [ih h]
    case closed id' =>
      split at h
      · rcases List.mem_cons.mp h with e | e
        · cases e
        · simp [ih e]
      · simp [ih h]
    all_goals simp [ih h]

/-- A stream id under which nothing was ever registered is not registered. -/
theorem getStream_never_opened (reg : Registry H) (client : Bool) (as : List Act) (s : St H)
    (tr : List (Handler.Ev H)) (h : Handler.run reg client as = .ok (s, tr)) (id : UInt32)
    (hno : ∀ j, .opened id j ∉ tr) : getStream s id = none := by
  have ht := tables_run reg client as s tr h
  unfold getStream
  split
  · rw [ht.1]; exact get_never_added _ _ fun j hj => hno j (mem_tableOps_add _ _ _ _ hj)
  · rw [ht.2]; exact get_never_added _ _ fun j hj => hno j (mem_tableOps_add _ _ _ _ hj)

/-- C55: in every state, a frame for a stream that is not registered changes nothing and causes no
observable event; it is reported as an error, except for request-n frames. -/
theorem C55_unknown_stream (s : St H) (f : AnyFrame) (r : React) (hf : streamFrame f = true)
    (hs : getStream s f.streamID = none) :
    handleFrame s f r =
      if f.type = typeRequestN then .ok (s, []) else .err (notFound f.streamID) := by
  have ht : f.type ≥ typeRequestN := by
    cases f <;> simp [streamFrame] at hf <;> simp only [AnyFrame.type] <;> decide
  unfold handleFrame
  simp only [ht, if_true, hs]
  by_cases h : f.type = typeRequestN <;> simp [h]

/-- C55 over histories: after any history in which no stream was registered under `id`, such a
frame leaves the state as it is and its only trace is the error. -/
theorem C55_unused_id (reg : Registry H) (client : Bool) (as : List Act) (s : St H)
    (tr : List (Handler.Ev H)) (h : Handler.run reg client as = .ok (s, tr)) (f : AnyFrame) (r : React)
    (hf : streamFrame f = true) (hno : ∀ j, .opened f.streamID j ∉ tr) :
    Handler.run reg client (as ++ [.frame f r]) =
      .ok (s, tr ++ if f.type = typeRequestN then [] else [.refused (notFound f.streamID)]) := by
  have hs := getStream_never_opened reg client as s tr h f.streamID hno
  unfold Handler.run at h ⊢
  rw [handler_runFrom_append, h]
  simp only [andThen, runFrom, Handler.step]
  rw [C55_unknown_stream s f r hf hs]
  by_cases ht : f.type = typeRequestN <;> simp [ht, settle]

/-- An id never used: the connection has opened stream 1 only; a cancel for 7 is refused. -/
example : Handler.run (H := Unit) (fun _ => ⟨[()], [], []⟩) true
      [.call .rr ⟨[], []⟩ .created, .subscribeMono 0 ⟨true, true, true⟩, .frame (.cancel ⟨7⟩) ⟨[], [], []⟩] =
    match Handler.run (H := Unit) (fun _ => ⟨[()], [], []⟩) true
      [.call .rr ⟨[], []⟩ .created, .subscribeMono 0 ⟨true, true, true⟩] with
    | .ok (s, tr) => .ok (s, tr ++ [.refused (notFound 7)])
    | .err m => .err m
    | .panic => .panic := by rfl

/-! ## C56 -/

/-- The handler invocations in a trace. -/
def invocations (e : List (Handler.Ev H)) : List (Kind × H × UInt32 × Pay) :=
  e.filterMap fun | .invoked k h id p => some (k, h, id, p) | _ => none

/-- The answers to rejected requests in a trace. -/
def rejections (e : List (Handler.Ev H)) : List AnyFrame :=
  e.filterMap fun | .sent none (.error f) => some (.error f) | _ => none

/-- The operation id in the metadata of a request. -/
def opIdOf (md : Bytes) : Nat := beNat (md.take 4)

theorem getU32_take (md : Bytes) (h : 8 ≤ md.length) :
    ∃ op, getU32 md = .ok op ∧ op.toNat = opIdOf md := by
  match md, h with
  | a :: b :: c :: d :: r, _ =>
    refine ⟨_, rfl, ?_⟩
    have h1 := a.toNat_lt
    have h2 := b.toNat_lt
    have h3 := c.toNat_lt
    have h4 := d.toNat_lt
    simp only [opIdOf, beNat, List.take, List.foldl_cons, List.foldl_nil]
    rw [UInt32.toNat_ofNat_of_lt' (by simp [UInt32.size]; omega)]

theorem answerEvs_quiet (j : Nat) (id : UInt32) (es : List (Mono.Ev Pay)) :
    ∀ r : List (Handler.Ev H), answerEvs j id es = .ok r →
      invocations r = [] ∧ rejections r = [] := by
  induction es with
  | nil => intro r h; cases h; exact ⟨rfl, rfl⟩
  | cons e es ih =>
    intro r h
    simp only [answerEvs] at h
    obtain ⟨a, ha, h⟩ := bind_ok_inv h
    obtain ⟨b, hb, h⟩ := bind_ok_inv h
    cases h
    have := ih _ hb
    unfold invocations rejections at *
    unfold answerEv at ha
    split at ha <;> cases ha <;> simp [this]

/-- C56: a request frame starts exactly one goroutine for itself, with its own id, data and
metadata, and does nothing else. -/
theorem C56_dispatch (s : St H) (f : RequestPayload) (r : React) (k : Kind)
    (hk : f.frameType = match k with | .rr => 4 | .fnf => 5 | .rs => 6 | .rc => 7) :
    Handler.step s (.frame (.request f) r) =
      .ok ({ s with tasks := s.tasks ++ [.request k f.streamID f.data f.metadata f.initialN] }, []) := by
  have h1 : ¬ f.frameType ≥ typeRequestN := by rw [hk]; cases k <;> decide
  have h2 : kindOfType f.frameType = some k := by rw [hk]; cases k <;> decide
  simp only [Handler.step, handleFrame, AnyFrame.type, h1, if_false, dispatch, h2, addTasks]

/-- C56: the goroutine of a request with short metadata or without handler sends exactly one error
frame on the request's stream, and changes nothing. -/
theorem C56_rejected (calls : List (Invoke.Call H)) (hc : fewCalls calls) (s : St H)
    (hreg : s.reg = Invoke.run Registry.init calls) (t : Nat) (ret : Ret) (k : Kind) (id : UInt32)
    (data md : Bytes) (n : UInt32) (ht : s.tasks[t]? = some (.request k id data md n))
    (hbad : md.length < 8 ∨ (exportsOf k calls)[opIdOf md]? = none) :
    ∃ msg, Handler.step s (.run t ret) =
      .ok ({ s with tasks := s.tasks.eraseIdx t }, [.sent none (.error ⟨id, 0, msg⟩)]) := by
  simp only [Handler.step, ht, runTask, serve]
  by_cases hl : md.length < 8
  · simp only [hl, if_true]; exact ⟨_, rfl⟩
  · simp only [hl, if_false]
    obtain ⟨op, h1, h2⟩ := getU32_take md (by omega)
    have : (exportsOf k calls)[opIdOf md]? = none := hbad.resolve_left hl
    simp only [h1, Go.bind_ok, hreg, C18_handler_lookup calls hc, h2, this, Option.map_none]
    exact ⟨_, rfl⟩

/-- C56: otherwise exactly the handler exported under the operation id is invoked, once, with the
request's data and the metadata (without the first 8 bytes for request/response and
fire-and-forget), and no rejection is sent. -/
theorem C56_invoked (calls : List (Invoke.Call H)) (hc : fewCalls calls) (s : St H)
    (hreg : s.reg = Invoke.run Registry.init calls) (t : Nat) (ret : Ret) (k : Kind) (id : UInt32)
    (data md : Bytes) (n : UInt32) (ht : s.tasks[t]? = some (.request k id data md n))
    (hl : 8 ≤ md.length) (ns opn : Bytes) (h : H)
    (hh : (exportsOf k calls)[opIdOf md]? = some (ns, opn, h)) (s' : St H)
    (e : List (Handler.Ev H)) (hs : Handler.step s (.run t ret) = .ok (s', e)) :
    invocations e = [(k, h, id, ⟨data, if k = .rr ∨ k = .fnf then md.drop 8 else md⟩)] ∧
    rejections e = [] := by
  have hl' : ¬ md.length < 8 := by omega
  obtain ⟨op, h1, h2⟩ := getU32_take md (by omega)
  simp only [Handler.step, ht, runTask, serve, hl', if_false, h1, Go.bind_ok, hreg,
    C18_handler_lookup calls hc, h2, hh, Option.map_some] at hs
  cases k with
  | rr =>
    simp only at hs
    obtain ⟨es, he, hs⟩ := bind_ok_inv hs
    cases hs
    have := answerEvs_quiet _ _ _ _ he
    simp only [invocations, rejections, List.filterMap_cons] at this ⊢
    simp [this]
  | fnf => simp only at hs; split at hs <;> (cases hs; exact ⟨rfl, rfl⟩)
  | rs => simp only at hs; split at hs <;> (cases hs; exact ⟨rfl, rfl⟩)
  | rc => simp only at hs; split at hs <;> (cases hs; exact ⟨rfl, rfl⟩)

/-! ## C59 -/

/-- A frame that ends a stream. -/
def endsStream : AnyFrame → Bool
  | .cancel _ => true
  | .payload f => f.complete
  | .error _ => true
  | _ => false

/-- The ids under which streams were registered. -/
def openedIds (tr : List (Handler.Ev H)) : List UInt32 :=
  tr.filterMap fun | .opened id _ => some id | _ => none

/-- The stream registered as `j` under `id` is over: a frame ending it was received (the trace shows
`closed`, see `C59_ending_frame_closes`), or it answers a stream request and the frame ending it
was sent. -/
def streamEnded (tr : List (Handler.Ev H)) (id : UInt32) (j : Nat) : Prop :=
  .closed id ∈ tr ∨
  (∃ h p f, .invoked .rs h id p ∈ tr ∧ .sent (some j) f ∈ tr ∧ endsStream f = true)

/-- C59 as stated in English (for histories that use each stream id once). -/
def C59_statement (H : Type) : Prop :=
  ∀ (reg : Registry H) (client : Bool) (as : List Act) (s : St H) (tr : List (Handler.Ev H)),
    Handler.run reg client as = .ok (s, tr) → (openedIds tr).Nodup → ∀ id j, .opened id j ∈ tr →
      streamEnded tr id j → getStream s id = none

/-- A registry with one handler of each kind. -/
def oneHandler : Registry Unit := fun _ => ⟨[()], [], []⟩

def noReact : React := ⟨[], [], []⟩
def retCreated : Ret := ⟨.created, .created, true⟩
def eightZeros : Bytes := [0, 0, 0, 0, 0, 0, 0, 0]

/-- A stream request is received, served and completed by the handler. -/
def servedStream : List Act :=
  [.frame (.request ⟨6, 1, eightZeros, [], false, false, 5⟩) noReact, .run 0 retCreated,
   .run 0 retCreated, .run 0 retCreated, .out 0 .complete]

/-- A request/response call is made and answered. -/
def answeredCall : List Act :=
  [.call .rr ⟨[], []⟩ .created, .subscribeMono 0 ⟨true, true, true⟩,
   .frame (.payload ⟨1, [], [7], false, true, true⟩) noReact]

def traceOf (x : Go (Out H)) : List (Handler.Ev H) :=
  match x with | .ok (_, e) => e | _ => []
def streamAfter (x : Go (Out H)) (id : UInt32) : Option Nat :=
  match x with | .ok (s, _) => getStream s id | _ => none
def isPanic (x : Go (Out H)) : Bool := match x with | .panic => true | _ => false

/-- C59 fails: a stream request stays registered after its last frame was sent (nothing ever
removes it). -/
theorem C59_served_violated :
    traceOf (Handler.run oneHandler false servedStream) =
      [.opened 1 0, .invoked .rs () 1 ⟨[], eightZeros⟩,
       .sent (some 0) (.payload ⟨1, [], [], false, true, false⟩)] ∧
    streamAfter (Handler.run oneHandler false servedStream) 1 = some 0 := by
  decide +kernel

/-- C59 fails for requesters too: the first call of a connection stays registered after it was
answered (removing the first stream of the list does not unlink it). -/
theorem C59_answered_violated :
    traceOf (Handler.run oneHandler true answeredCall) =
      [.opened 1 0, .sent (some 0) (.request ⟨4, 1, [], [], false, true, 1⟩),
       .mono 0 (.success 0 ⟨[7], []⟩), .mono 0 (.fin 0 .complete), .closed 1] ∧
    streamAfter (Handler.run oneHandler true answeredCall) 1 = some 0 := by
  decide +kernel

theorem run_shape (x : Go (Out H)) (id : UInt32) (v : Nat) (h : streamAfter x id = some v) :
    ∃ s, x = .ok (s, traceOf x) ∧ getStream s id = some v := by
  cases x with
  | ok p => exact ⟨p.1, rfl, h⟩
  | err m => cases h
  | panic => cases h

theorem C59_forgotten_violated : ¬ C59_statement Unit := by
  intro h
  obtain ⟨s, h1, h2⟩ := run_shape _ _ _ C59_served_violated.2
  have := h oneHandler false servedStream s _ h1 (by rw [C59_served_violated.1]; decide) 1 0 (by rw [C59_served_violated.1]; simp)
    (Or.inr ⟨(), ⟨[], eightZeros⟩, .payload ⟨1, [], [], false, true, false⟩,
      by rw [C59_served_violated.1]; simp, by rw [C59_served_violated.1]; simp, rfl⟩)
  rw [h2] at this
  cases this

theorem tableOps_closed (id : UInt32) (a b : List (Handler.Ev H)) :
    tableOps (decide (id &&& 1 = 1)) (a ++ .closed id :: b) =
      tableOps (decide (id &&& 1 = 1)) a ++ .remove id :: tableOps (decide (id &&& 1 = 1)) b := by
  rw [tableOps_append]; simp [tableOps]

theorem registered_append {S : Type} (a b : List (Lookup.Op S)) :
    registered (a ++ b) = b.foldl (fun reg op => match op with
      | .add id s => reg ++ [(id, s)]
      | .remove id => reg.filter (·.1 ≠ id)) (registered a) := by
  simp only [registered, List.foldl_append]; rfl

theorem not_registered_after {S : Type} (id : UInt32) (b : List (Lookup.Op S))
    (hb : ∀ s, .add id s ∉ b) : ∀ reg : List (UInt32 × S), (∀ x ∈ reg, x.1 ≠ id) →
      ∀ x ∈ b.foldl (fun reg op => match op with
        | .add id s => reg ++ [(id, s)]
        | .remove id => reg.filter (·.1 ≠ id)) reg, x.1 ≠ id := by
  induction b with
  | nil => exact fun reg h => h
  | cons op b ih =>
    intro reg h
    rw [List.foldl_cons]
    refine ih (fun s hs => hb s (by simp [hs])) _ ?_
    cases op with
    | add id' s =>
      intro x hx
      rcases List.mem_append.mp hx with h' | h'
      · exact h x h'
      · simp at h'; subst h'
        intro e; exact hb s (by simp at e; simp [e])
    | remove id' => exact fun x hx => h x (List.mem_filter.mp hx).1

/-- C59 for the streams removeStream is called for, as long as the first stream ever registered in
the table of that parity is not itself removed and ids are not registered twice at a time: the
stream is no longer registered. Missing: requests being answered (never removed, see
`C59_served_violated`), and the first stream of each table (`C59_answered_violated`). -/
theorem C59_forgotten_partial (reg : Registry H) (client : Bool) (as : List Act) (s : St H)
    (a b : List (Handler.Ev H)) (id : UInt32)
    (h : Handler.run reg client as = .ok (s, a ++ .closed id :: b))
    (hno : ∀ j, .opened id j ∉ b) (first : UInt32) (j : Nat) (ops : List (Lookup.Op Nat))
    (hops : tableOps (decide (id &&& 1 = 1)) (a ++ .closed id :: b) = .add first j :: ops)
    (hfresh : freshAdds (.add first j :: ops)) (hfirst : .remove first ∉ ops) :
    getStream s id = none := by
  have ht := tables_run reg client as s _ h
  have key := (C21_lookup_partial first j ops hfresh hfirst).1 id
  rw [← hops, tableOps_closed] at key
  have hreg : streamOf (registered (tableOps (decide (id &&& 1 = 1)) a ++
      .remove id :: tableOps (decide (id &&& 1 = 1)) b)) id = none := by
    unfold streamOf
    rw [List.find?_eq_none.mpr, Option.map_none]
    intro x hx
    rw [registered_append, List.foldl_cons] at hx
    have := not_registered_after id (tableOps (decide (id &&& 1 = 1)) b)
      (fun s hs => hno s (mem_tableOps_add _ _ _ _ hs)) _
      (fun x hx => by simpa using (List.mem_filter.mp hx).2) x hx
    simpa using this
  rw [hreg, ← tableOps_closed] at key
  unfold getStream
  split
  · rename_i hp
    rw [ht.1]; simpa [hp] using key
  · rename_i hp
    rw [ht.2]; simpa [hp] using key

/-- Two calls are made, the second one is answered. -/
def secondAnswered : List Act :=
  [.call .rr ⟨[], []⟩ .created, .subscribeMono 0 ⟨true, true, true⟩,
   .call .rr ⟨[], []⟩ .created, .subscribeMono 1 ⟨true, true, true⟩,
   .frame (.payload ⟨3, [], [7], false, true, true⟩) noReact]

/-- The hypotheses of `C59_forgotten_partial` hold for it. -/
example : ∃ a, traceOf (Handler.run oneHandler true secondAnswered) = a ++ .closed 3 :: [] ∧
    tableOps true (a ++ .closed 3 :: []) = .add 1 0 :: [.add 3 1, .remove 3] ∧
    freshAdds [(.add 1 0 : Lookup.Op Nat), .add 3 1, .remove 3] ∧
    (.remove 1 : Lookup.Op Nat) ∉ [(.add 3 1 : Lookup.Op Nat), .remove 3] := by
  refine ⟨(traceOf (Handler.run oneHandler true secondAnswered)).dropLast, by decide +kernel,
    by decide +kernel, ?_, by decide +kernel⟩
  intro before after id s e
  match before, e with
  | [], e => rfl
  | [_], e =>
    simp only [List.cons_append, List.nil_append, List.cons.injEq] at e
    obtain ⟨rfl, h2, -⟩ := e
    cases h2; rfl
  | [_, _], e => simp at e
  | _ :: _ :: _ :: _, e => simp at e
example : streamAfter (Handler.run oneHandler true secondAnswered) 3 = none := by decide +kernel
example : streamAfter (Handler.run oneHandler true secondAnswered) 1 = some 0 := by decide +kernel

/-- Which frames remove the stream: a frame ending a registered stream always does (unless the
handler crashes). -/
theorem C59_ending_frame_closes (s s' : St H) (f : AnyFrame) (r : React)
    (e : List (Handler.Ev H)) (j : Nat) (hf : endsStream f = true)
    (hj : getStream s f.streamID = some j) (h : handleFrame s f r = .ok (s', e)) :
    .closed f.streamID ∈ e := by
  have close : ∀ (x : Go (Out H)) (id : UInt32) (s' : St H) (e : List (Handler.Ev H)),
      andThen x (closing id) = .ok (s', e) → .closed id ∈ e := by
    intro x id s' e h
    unfold andThen closing at h
    cases x with
    | ok p => simp only at h; cases h; simp
    | err m => cases h
    | panic => cases h
  have nested : ∀ (x : Go (Out H)) (g : St H → Go (Out H)) (id : UInt32) (s' : St H)
      (e : List (Handler.Ev H)),
      (∀ t s' e, g t = .ok (s', e) → .closed id ∈ e) → andThen x g = .ok (s', e) → .closed id ∈ e := by
    intro x g id s' e hg h
    unfold andThen at h
    cases x with
    | ok p =>
      simp only at h
      cases hg' : g p.1 with
      | ok q => rw [hg'] at h; cases h; simp [hg _ _ _ hg']
      | err m => rw [hg'] at h; cases h
      | panic => rw [hg'] at h; cases h
    | err m => cases h
    | panic => cases h
  have ht : f.type ≥ typeRequestN := by
    cases f <;> simp [endsStream] at hf <;> simp only [AnyFrame.type] <;> decide
  unfold handleFrame at h
  simp only [ht, if_true, hj] at h
  cases f with
  | setup v => simp [endsStream] at hf
  | request v => simp [endsStream] at hf
  | requestN v => simp [endsStream] at hf
  | cancel v => exact close _ _ _ _ h
  | payload v =>
    simp only [endsStream] at hf
    simp only [dispatch, hf, if_true] at h
    exact nested _ _ _ _ _ (fun t s' e h => close _ _ _ _ h) h
  | error v => exact nested _ _ _ _ _ (fun t s' e h => close _ _ _ _ h) h

/-! ## C60 -/

/-- An export of that kind and name. -/
def isExport (k : Kind) (ns op : Bytes) (o : Operations.Operation) : Prop :=
  o.direction = 1 ∧ o.type = (match k with | .rr => 1 | .fnf => 2 | .rs => 3 | .rc => 4) ∧
    o.ns = ns ∧ o.operation = op

/-- C60 as stated in English: the result is the index of the export, and some test on the result
tells whether there was one. -/
def C60_statement : Prop :=
  ∃ failed : UInt32 → Bool, ∀ (t : Operations.Table) (k : Kind) (ns op : Bytes),
    (∀ o ∈ t, isExport k ns op o → (∀ o' ∈ t, isExport k ns op o' → o' = o) →
      importOp (some t) k ns op = o.index ∧ failed (importOp (some t) k ns op) = false) ∧
    ((∀ o ∈ t, ¬ isExport k ns op o) → failed (importOp (some t) k ns op) = true)

/-- C60 fails: 0 stands for "not found" but is also the index of the first export. -/
theorem C60_import_violated : ¬ C60_statement := by
  rintro ⟨failed, h⟩
  have h1 := ((h [⟨0, 1, 1, [97], [98]⟩] .rr [97] [98]).1 _ (List.mem_singleton.mpr rfl)
    ⟨rfl, rfl, rfl, rfl⟩ (by simp)).2
  have h2 := (h [⟨0, 1, 1, [97], [98]⟩] .rr [97] [99]).2 (by simp [isExport])
  have e1 : importOp (some [⟨0, 1, 1, [97], [98]⟩]) .rr [97] [98] = 0 := by decide
  have e2 : importOp (some [⟨0, 1, 1, [97], [98]⟩]) .rr [97] [99] = 0 := by decide
  rw [e1] at h1
  rw [e2, h1] at h2
  cases h2

/-- C60 without the failure report: the import of an existing export returns its index (of the
first one if there are several), that of a missing export, or with no table received, returns 0.
Missing: telling "not found" from index 0. -/
theorem C60_import_partial (k : Kind) (ns op : Bytes) :
    (∀ (a b : Operations.Table) (o : Operations.Operation), isExport k ns op o →
      (∀ o' ∈ a, ¬ isExport k ns op o') → importOp (some (a ++ o :: b)) k ns op = o.index) ∧
    (∀ t : Operations.Table, (∀ o ∈ t, ¬ isExport k ns op o) → importOp (some t) k ns op = 0) ∧
    importOp none k ns op = 0 := by
  have ht : k.type = (match k with | .rr => 1 | .fnf => 2 | .rs => 3 | .rc => 4) := by
    cases k <;> rfl
  have e : ∀ o : Operations.Operation, (decide (o.direction = Operations.exportDir ∧
      o.type = k.type ∧ o.ns = ns ∧ o.operation = op) = true) ↔ isExport k ns op o := by
    intro o
    rw [decide_eq_true_eq, ht]; rfl
  refine ⟨?_, ?_, rfl⟩
  · intro a b o ho ha
    unfold importOp
    rw [Option.getD_some, List.find?_append, List.find?_eq_none.mpr (fun x hx => by
      rw [e]; exact ha x hx), Option.none_or, List.find?_cons_of_pos (a := o) ((e o).mpr ho)]
  · intro t ht
    unfold importOp
    rw [Option.getD_some, List.find?_eq_none.mpr (fun x hx => by rw [e]; exact ht x hx)]

example : importOp (some [⟨4, 2, 1, [97], [98]⟩, ⟨5, 1, 2, [97], [98]⟩, ⟨6, 1, 1, [97], [98]⟩]) .rr
    [97] [98] = 6 := by decide

end
end Verif.Props
