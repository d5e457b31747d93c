import Verif.Props.SystemEnd
import Verif.Props.Small
/-
Which stream ids one end of a connection uses for what: request frames carry fresh ids of the end's
own parity, and each id has one source of frames.
-/
set_option autoImplicit false
namespace Verif.Props
open Verif Frames Handler
open Verif.Invoke (Kind Registry)

section
variable {H : Type}

/-! ## Registrations and removals -/

/-- Registers and removes nothing. -/
def NoReg (x : Go (Out H)) : Prop :=
  ∀ s' e, x = .ok (s', e) → ∀ ev ∈ e, (∀ id i, ev ≠ .opened id i) ∧ ∀ id, ev ≠ .closed id

theorem noreg_err (m : String) : NoReg (.err m : Go (Out H)) := by intro _ _ h; cases h
theorem noreg_panic : NoReg (.panic : Go (Out H)) := by intro _ _ h; cases h
theorem noreg_nop (s : St H) : NoReg (.ok (s, [])) := by intro _ _ h; cases h; simp
theorem noreg_plain {s : St H} {e : List (Handler.Ev H)} (id i : UInt32) (k : Nat) (hp : Plain id e)
    (ho : ∀ ev ∈ e, ev.obj = some k) : NoReg (.ok (s, e)) := by
  intro _ _ h; cases h
  intro ev hev
  refine ⟨?_, ?_⟩
  · rintro i k rfl; exact hp.opened _ _ hev
  · rintro id rfl; have := ho _ hev; cases this

theorem noreg_of_ok {x : Go (Out H)} (h : ∀ s e, x = .ok (s, e) → NoReg (.ok (s, e))) : NoReg x :=
  fun s e hx => h s e hx s e rfl

theorem noreg_demand {s : St H} (j : Nat) (id : UInt32) (wrap : Flux.Ev Pay → Handler.Ev H)
    (hw : ∀ e, Plain id [wrap e]) (ho : ∀ e, (wrap e).obj = some j) (l : List (Flux.Ev Pay)) :
    NoReg (.ok (s, demandEvs j id wrap l)) :=
  noreg_plain id 0 j (plain_demandEvs _ _ _ hw _) (demandEvs_obj _ _ _ ho _)

theorem noreg_monos {s : St H} (j : Nat) (l : List (Mono.Ev Pay)) :
    NoReg (.ok (s, l.map (.mono j))) := by
  intro _ _ h; cases h; simp

theorem noreg_deliver (s : St H) (j : Nat) (op : Flux.Op Pay) : NoReg (deliver s j op) := by
  unfold deliver
  split
  · exact noreg_demand _ _ _ (fun e => by constructor <;> simp) (fun _ => rfl) _
  · split
    · exact noreg_monos _ _
    · exact noreg_monos _ _
    · exact noreg_nop _
  · rename_i sub _
    cases sub with
    | some st => exact noreg_demand _ _ _ (fun e => by constructor <;> simp) (fun _ => rfl) _
    | none => exact noreg_nop _
  · exact noreg_panic

theorem noreg_onOut (s : St H) (j : Nat) (k : Kind) (id : UInt32) (f : Src) (b : Bool)
    (inp : Option Flux.State) (r : Flux.State × List (Flux.Ev Pay)) : NoReg (onOut s j k id f b inp r) := by
  apply noreg_of_ok
  intro s' e h
  obtain ⟨hr, rfl⟩ := onOut_ok h
  exact noreg_plain id 0 j (plain_replyEvs _ _ _ _ hr) (replyEvs_obj _ _ _ _ hr)

theorem noreg_onInput (s : St H) (j : Nat) (req : RequestPayload) (a b : Bool) (f : Src)
    (sub : Option Flux.State) (r : Flux.State × List (Flux.Ev Pay)) :
    NoReg (onInput s j req a b f sub r) := by
  apply noreg_of_ok
  intro s' e h
  obtain ⟨hr, rfl⟩ := onInput_ok h
  exact noreg_plain req.streamID 0 j (plain_replyEvs _ _ _ _ hr) (replyEvs_obj _ _ _ _ hr)

/-- What `HandleFrame` registers (nothing) and removes (the stream of the frame). -/
def Removes (id : UInt32) (x : Go (Out H)) : Prop :=
  ∀ s' e, x = .ok (s', e) → ∀ ev ∈ e, (∀ id i, ev ≠ .opened id i) ∧ ∀ id', ev = .closed id' → id' = id

theorem removes_noreg {id : UInt32} {x : Go (Out H)} (h : NoReg x) : Removes id x :=
  fun s e hx ev hev => ⟨(h s e hx ev hev).1, fun id' he => absurd he ((h s e hx ev hev).2 id')⟩

theorem removes_andThen {id : UInt32} {x : Go (Out H)} {f : St H → Go (Out H)} (hx : Removes id x)
    (hf : ∀ s, Removes id (f s)) : Removes id (andThen x f) := by
  intro s' e h
  obtain ⟨s1, e1, e2, h1, h2, rfl⟩ := andThen_ok h
  intro ev hev
  rcases List.mem_append.mp hev with h | h
  · exact hx _ _ h1 ev h
  · exact hf _ _ _ h2 ev h

theorem removes_closing (id : UInt32) (s : St H) : Removes id (closing id s) := by
  intro _ _ h; cases h; simp

theorem removes_dispatch (s : St H) (r : React) (f : AnyFrame) (str : Option Nat) :
    Removes f.streamID (dispatch s r f str) := by
  unfold dispatch
  split
  · split
    · split
      · exact removes_noreg (noreg_nop _)
      · exact removes_noreg (noreg_err _)
      · exact removes_noreg noreg_panic
    · exact removes_noreg (noreg_nop _)
  · split
    · exact removes_noreg (noreg_nop _)
    · exact removes_noreg (noreg_nop _)
  · split
    · exact removes_noreg (noreg_nop _)
    · exact removes_noreg noreg_panic
  · exact removes_andThen (removes_noreg (noreg_deliver _ _ _)) (fun s => removes_closing _ s)
  · refine removes_andThen ?_ ?_
    · split
      · exact removes_noreg (noreg_deliver _ _ _)
      · exact removes_noreg (noreg_nop _)
    · intro s
      split
      · exact removes_andThen (removes_noreg (noreg_deliver _ _ _)) (fun s => removes_closing _ s)
      · exact removes_noreg (noreg_nop _)
  · refine removes_andThen (removes_noreg (noreg_deliver _ _ _)) fun s => ?_
    exact removes_andThen (removes_noreg (noreg_deliver _ _ _)) (fun s => removes_closing _ s)
  · exact removes_noreg noreg_panic

theorem removes_handleFrame (s : St H) (f : AnyFrame) (r : React) :
    Removes f.streamID (handleFrame s f r) := by
  unfold handleFrame
  split
  · split
    · split
      · exact removes_noreg (noreg_err _)
      · exact removes_noreg (noreg_nop _)
    · exact removes_dispatch _ _ _ _
  · exact removes_dispatch _ _ _ _

/-- What the events of a step say about registrations and removals. -/
structure Regs (s : St H) (a : Act) (s' : St H) (e : List (Handler.Ev H)) : Prop where
  closed : ∀ id, .closed id ∈ e → ∃ f r, a = .frame f r ∧ f.streamID = id
  opened : ∀ id i, .opened id i ∈ e → (subscribesTo i a = true) ∨
    (∃ o, s'.objs[i]? = some o ∧ objTag o ≠ 2)
  count : (openedIds e).length ≤ 1

theorem regs_noreg {s s' : St H} {a : Act} {e : List (Handler.Ev H)} {x : Go (Out H)} (h : NoReg x)
    (hx : x = .ok (s', e)) : Regs s a s' e := by
  refine ⟨fun id hid => absurd rfl ((h _ _ hx _ hid).2 id), fun id i hid => absurd rfl ((h _ _ hx _ hid).1 id i), ?_⟩
  have : openedIds e = [] := by
    apply List.filterMap_eq_nil_iff.mpr
    intro ev hev
    have := (h _ _ hx _ hev).1
    cases ev with
    | opened id i => exact absurd rfl (this id i)
    | _ => rfl
  rw [this]; exact Nat.zero_le _

theorem noreg_runTask (s : St H) (ret : Ret) (task : Task) (ht : task.isRequest = false) :
    NoReg (runTask s ret task) := by
  cases task with
  | request k id data md n => cases ht
  | subscribe i f n =>
    simp only [runTask]
    split
    · exact noreg_onOut _ _ _ _ _ _ _ _
    · exact noreg_panic
  | firstRequest i f n =>
    simp only [runTask]
    split
    · split
      · exact noreg_panic
      · exact noreg_onOut _ _ _ _ _ _ _ _
    · exact noreg_panic
  | doRequest i n =>
    simp only [runTask]
    split
    · exact noreg_onOut _ _ _ _ _ _ _ _
    · split
      · exact noreg_panic
      · exact noreg_onInput _ _ _ _ _ _ _ _
    · exact noreg_panic
  | upRequest i n =>
    simp only [runTask]
    split
    · intro _ _ h; cases h; simp
    · split
      · exact noreg_nop _
      · split
        · intro _ _ h; cases h; simp
        · intro _ _ h; cases h; simp
    · exact noreg_panic
  | subscribeIn i =>
    simp only [runTask]
    split
    · exact noreg_onInput _ _ _ _ _ _ _ _
    · exact noreg_panic

theorem regs_step (s s' : St H) (a : Act) (e : List (Handler.Ev H))
    (h : Handler.step s a = .ok (s', e)) : Regs s a s' e := by
  cases a with
  | frame f r =>
    have := removes_handleFrame s f r s' e h
    refine ⟨fun id hid => ⟨f, r, rfl, ((this _ hid).2 id rfl).symm⟩, fun id i hid => absurd rfl ((this _ hid).1 id i), ?_⟩
    have : openedIds e = [] := by
      apply List.filterMap_eq_nil_iff.mpr
      intro ev hev
      have := (this _ hev).1
      cases ev with
      | opened id i => exact absurd rfl (this id i)
      | _ => rfl
    rw [this]; exact Nat.zero_le _
  | run t ret =>
    simp only [Handler.step] at h
    split at h
    · rename_i task ht
      rcases (Bool.eq_false_or_eq_true task.isRequest).symm with hr | hr
      · exact regs_noreg (noreg_runTask _ ret task hr) h
      · cases task with
        | request k id data md n =>
          simp only [runTask] at h
          unfold serve at h
          split at h
          · cases h; exact ⟨by simp, by simp, by simp [openedIds]⟩
          · obtain ⟨op, ho, h⟩ := bind_ok_inv h
            split at h
            · cases h; exact ⟨by simp, by simp, by simp [openedIds]⟩
            · rename_i hd hn
              dsimp only at h
              split at h
              · obtain ⟨es, he, h⟩ := bind_ok_inv h
                cases h
                have hp := plain_answerEvs _ _ _ _ he
                have hob := answerEvs_obj _ _ _ _ he
                have h1 := (plain_counts hp).1
                refine ⟨?_, ?_, ?_⟩
                · intro id hm
                  rcases List.mem_cons.mp hm with hm | hm
                  · cases hm
                  · have := hob _ hm; cases this
                · intro id i hm
                  rcases List.mem_cons.mp hm with hm | hm
                  · cases hm
                  · exact absurd hm (hp.opened _ _)
                · simp only [openedIds] at h1 ⊢; simp [h1]
              · split at h
                · cases h
                  refine ⟨by simp, ?_, by simp [openedIds]⟩
                  intro id i hm
                  simp at hm
                  obtain ⟨rfl, rfl⟩ := hm
                  refine .inr ⟨_, by rw [register_objs]; exact List.getElem?_concat_length, by simp [objTag]⟩
                · cases h
                  exact ⟨by simp, by simp, by simp [openedIds]⟩
              · split at h
                · cases h
                  refine ⟨by simp, ?_, by simp [openedIds]⟩
                  intro id i hm
                  simp at hm
                  obtain ⟨rfl, rfl⟩ := hm
                  refine .inr ⟨_, by simp only [addTasks]; rw [register_objs]; exact List.getElem?_concat_length, by simp [objTag]⟩
                · cases h
                  exact ⟨by simp, by simp, by simp [openedIds]⟩
        | _ => cases hr
    · exact regs_noreg (noreg_nop s) h
  | answer i sig =>
    refine regs_noreg (x := Handler.step s (.answer i sig)) ?_ h
    simp only [Handler.step]
    split
    · apply noreg_of_ok
      intro s' e h
      obtain ⟨es, he, h⟩ := bind_ok_inv h
      cases h
      exact noreg_plain _ 0 i (plain_answerEvs _ _ _ _ he) (answerEvs_obj _ _ _ _ he)
    · exact noreg_nop _
  | out i op =>
    refine regs_noreg (x := Handler.step s (.out i op)) ?_ h
    simp only [Handler.step]
    split
    · split
      · exact noreg_nop _
      · exact noreg_onOut _ _ _ _ _ _ _ _
    · exact noreg_nop _
  | subscribeInp i inst start =>
    refine regs_noreg (x := Handler.step s (.subscribeInp i inst start)) ?_ h
    simp only [Handler.step]
    split
    · exact noreg_demand _ _ _ (fun e => by constructor <;> simp) (fun _ => rfl) _
    · exact noreg_nop _
  | inpCall i c =>
    refine regs_noreg (x := Handler.step s (.inpCall i c)) ?_ h
    simp only [Handler.step]
    split
    · exact noreg_demand _ _ _ (fun e => by constructor <;> simp) (fun _ => rfl) _
    · exact noreg_nop _
  | call k p input =>
    have h' : call s k p input = (s', e) := Go.ok.inj h
    have e2 : e = (call s k p input).2 := by rw [h']
    subst e2
    cases k <;> exact ⟨by simp [call], by simp [call], by simp [call, openedIds]⟩
  | subscribeMono i inst =>
    simp only [Handler.step] at h
    split at h
    · rename_i req proc ho
      cases h
      refine ⟨by simp, ?_, ?_⟩
      · intro id k hm
        simp at hm
        left
        simp [subscribesTo, hm.2]
      · have := (plain_counts (plain_mono (H := H) 0 i (proc.step (.subscribe inst)).2)).1
        rw [← List.singleton_append, openedIds_append, openedIds_append, this]
        simp [openedIds]
    · exact regs_noreg (noreg_nop s) h
  | subscribeFlux i inst start =>
    simp only [Handler.step] at h
    split at h
    · rename_i req first c input ho
      cases h
      have hl : i < s.objs.length := (List.getElem?_eq_some_iff.mp ho).1
      have hp := plain_demandEvs (H := H) i req.streamID (.flux i) (fun e => by constructor <;> simp)
        (Flux.runFrom (.init inst []) [.onSubscribe true, .start start]).2
      have hob := demandEvs_obj (H := H) i req.streamID (.flux i) (fun _ => rfl)
        (Flux.runFrom (.init inst []) [.onSubscribe true, .start start]).2
      refine ⟨?_, ?_, ?_⟩
      · intro id hm
        rcases List.mem_cons.mp hm with hm | hm
        · cases hm
        · have := hob _ hm; cases this
      · intro id k hm
        rcases List.mem_cons.mp hm with hm | hm
        · cases hm
          right
          refine ⟨.flux req first c input (some (Flux.runFrom (.init inst [])
            [(.onSubscribe true : Flux.Op Pay), .start start]).1), ?_, by simp [objTag]⟩
          simp only [addTasks, setObj, register_objs]
          rw [List.getElem?_set_self hl]
        · exact absurd hm (hp.opened _ _)
      · have h1 := (plain_counts hp).1
        simp only [openedIds] at h1 ⊢
        simp [h1]
    · exact regs_noreg (noreg_nop s) h
  | fluxCall i c =>
    refine regs_noreg (x := Handler.step s (.fluxCall i c)) ?_ h
    simp only [Handler.step]
    split
    · exact noreg_demand _ _ _ (fun e => by constructor <;> simp) (fun _ => rfl) _
    · exact noreg_nop _
  | input i op =>
    refine regs_noreg (x := Handler.step s (.input i op)) ?_ h
    simp only [Handler.step]
    split
    · split
      · exact noreg_nop _
      · exact noreg_onInput _ _ _ _ _ _ _ _
    · exact noreg_nop _

theorem regs_settle (s s' : St H) (a : Act) (e : List (Handler.Ev H))
    (h : settle s (Handler.step s a) = .ok (s', e)) : Regs s a s' e := by
  cases hx : Handler.step s a with
  | ok p => rw [hx] at h; cases h; exact regs_step _ _ _ _ hx
  | panic => rw [hx] at h; cases h
  | err m => rw [hx] at h; cases h; exact ⟨by simp, by simp, by simp [openedIds]⟩

/-- The number of times a mono was subscribed. -/
def subscriptionsTo (j : Nat) (as : List Act) : Nat := as.countP (subscribesTo j)

theorem run_snoc_inv (reg : Registry H) (client : Bool) (as : List Act) (a : Act) (s' : St H)
    (tr : List (Handler.Ev H)) (h : Handler.run reg client (as ++ [a]) = .ok (s', tr)) :
    ∃ s t e, Handler.run reg client as = .ok (s, t) ∧ settle s (Handler.step s a) = .ok (s', e) ∧
      tr = t ++ e := by
  unfold Handler.run at h ⊢
  rw [handler_runFrom_append] at h
  obtain ⟨s, t, e, h1, h2, rfl⟩ := andThen_ok h
  simp only [runFrom] at h2
  obtain ⟨s2, e1, e2, h3, h4, rfl⟩ := andThen_ok h2
  cases h4
  exact ⟨s, t, e1, h1, h3, by simp⟩

theorem openedIds_evsOf_le (j : Nat) (e : List (Handler.Ev H)) :
    (openedIds (evsOf j e)).length ≤ (openedIds e).length :=
  (List.Sublist.filterMap _ List.filter_sublist).length_le

/-- A mono is registered at most as often as it was subscribed. -/
theorem mono_opened (reg : Registry H) (client : Bool) (as : List Act) : ∀ (s : St H)
    (tr : List (Handler.Ev H)) (_ : Handler.run reg client as = .ok (s, tr)) (j : Nat)
    (req : RequestPayload) (proc : Mono.Proc Pay) (_ : s.objs[j]? = some (.mono req proc)),
    (openedIds (evsOf j tr)).length ≤ subscriptionsTo j as := by
  induction as using snoc_induction with
  | nil => intro s tr h j req proc hj; cases h; simp [St.init] at hj
  | snoc as a ih =>
    intro s' tr h j req proc hj
    obtain ⟨s, t, e, h1, h2, rfl⟩ := run_snoc_inv _ _ _ _ _ _ h
    have hr := regs_settle _ _ _ _ h2
    rw [evsOf_append, openedIds_append, List.length_append]
    have hsub : (openedIds (evsOf j e)).length ≤ if subscribesTo j a then 1 else 0 := by
      split
      · exact Nat.le_trans (openedIds_evsOf_le j e) hr.count
      · rename_i hn
        have : openedIds (evsOf j e) = [] := by
          apply List.filterMap_eq_nil_iff.mpr
          intro ev hev
          obtain ⟨h3, h4⟩ := List.mem_filter.mp hev
          cases ev with
          | opened id i =>
            simp [Handler.Ev.obj] at h4
            subst h4
            rcases hr.opened id i h3 with h5 | ⟨o, h5, h6⟩
            · exact absurd h5 hn
            · rw [hj] at h5; cases h5; exact absurd rfl h6
          | _ => rfl
        rw [this]; exact Nat.zero_le _
    have hold : (openedIds (evsOf j t)).length ≤ subscriptionsTo j as := by
      have hloc := loc_settle j s _ (loc_step j s a) s' e h2
      cases ho : s.objs[j]? with
      | none =>
        rcases k_history reg client as s t h1 j with ⟨-, h3⟩ | ⟨o, h3, -⟩
        · rw [h3]; exact Nat.zero_le _
        · rw [ho] at h3; cases h3
      | some o =>
        obtain ⟨o', h3, h4⟩ := hloc.1 o ho
        rw [hj] at h3; cases h3
        have := tag_run h4
        cases o with
        | mono req' proc' => exact ih s t h1 j req' proc' ho
        | _ => cases this
    have : subscriptionsTo j (as ++ [a]) = subscriptionsTo j as + if subscribesTo j a then 1 else 0 := by
      unfold subscriptionsTo
      rw [List.countP_append, List.countP_cons, List.countP_nil, Nat.zero_add]
    rw [this]
    exact Nat.add_le_add hold hsub

theorem closed_received (reg : Registry H) (client : Bool) (as : List Act) : ∀ (s : St H)
    (tr : List (Handler.Ev H)) (_ : Handler.run reg client as = .ok (s, tr)) (id : UInt32)
    (_ : .closed id ∈ tr), ∃ f r, .frame f r ∈ as ∧ f.streamID = id := by
  induction as using snoc_induction with
  | nil => intro s tr h id hc; cases h; cases hc
  | snoc as a ih =>
    intro s' tr h id hc
    obtain ⟨s, t, e, h1, h2, rfl⟩ := run_snoc_inv _ _ _ _ _ _ h
    rcases List.mem_append.mp hc with hc | hc
    · obtain ⟨f, r, h3, h4⟩ := ih s t h1 id hc
      exact ⟨f, r, List.mem_append_left _ h3, h4⟩
    · obtain ⟨f, r, rfl, h4⟩ := (regs_settle _ _ _ _ h2).closed id hc
      exact ⟨f, r, by simp, h4⟩

/-! ## Ids of calls -/

theorem nextID_eq (client : Bool) (n : Nat) (h : n < 2 ^ 30 - 1) :
    nextID client (UInt64.ofNat n) = (UInt64.ofNat (n + 1), idNo client n) := by
  have hs : UInt64.ofNat n + 1 = UInt64.ofNat (n + 1) := by
    simp [UInt64.ofNat_add]
  cases client with
  | true =>
    have h1 := clientStep_eq n (by omega)
    have h2 : (StreamIds.clientStep (UInt64.ofNat n)).1 = UInt64.ofNat (n + 1) := hs
    simp only [nextID, if_true]
    generalize hx : StreamIds.clientStep (UInt64.ofNat n) = x at h1 h2
    obtain ⟨a, b⟩ := x
    simp only at h1 h2
    subst h1 h2
    simp only [idNo, if_true, Prod.mk.injEq, true_and]
    rw [Nat.mod_eq_of_lt (by omega)]
  | false =>
    have h1 := serverStep_eq n (by omega)
    have h2 : (StreamIds.serverStep (UInt64.ofNat n)).1 = UInt64.ofNat (n + 1) := hs
    simp only [nextID]
    rw [if_neg (by simp)]
    generalize hx : StreamIds.serverStep (UInt64.ofNat n) = x at h1 h2
    obtain ⟨a, b⟩ := x
    simp only at h1 h2
    subst h1 h2
    simp only [idNo, Prod.mk.injEq, true_and]
    rw [if_neg (by simp), Nat.mod_eq_of_lt (by omega)]
    rfl

/-- The id is one of those an end (`client` or not) gives to its calls. -/
def ownId (client : Bool) (id : UInt32) : Bool := (decide (id.toNat % 2 = 1)) == client

theorem ownId_not (client : Bool) (id : UInt32) (h : ownId client id = true) : ownId (!client) id = false := by
  unfold ownId at h ⊢
  cases client <;> simp at h ⊢ <;> omega

theorem idNo_toNat (client : Bool) (n : Nat) (h : n < 2 ^ 30 - 1) :
    (idNo client n).toNat = if client then 2 * n + 1 else 2 * n + 2 := by
  unfold idNo
  rw [UInt32.toNat_ofNat_of_lt' (by show _ < 2 ^ 32; split <;> omega)]

theorem callIds_own (client : Bool) (as : List Act) (hc : callCount as < 2 ^ 30) :
    (callIds client 0 as).Nodup ∧ ∀ x ∈ callIds client 0 as, ownId client x = true := by
  have h := callIds_eq client (fun n hn => nextID_eq client n hn) as 0 (by omega)
  have h0 : (UInt64.ofNat 0) = 0 := rfl
  rw [h0] at h
  rw [h]
  constructor
  · rw [List.nodup_iff_pairwise_ne, List.pairwise_map]
    refine List.Pairwise.imp_of_mem ?_ (List.nodup_iff_pairwise_ne.mp List.nodup_range')
    intro a b ha hb hne he
    simp [List.mem_range'] at ha hb
    have := congrArg UInt32.toNat he
    rw [idNo_toNat client a (by omega), idNo_toNat client b (by omega)] at this
    split at this <;> omega
  · intro x hx
    obtain ⟨n, hn, rfl⟩ := List.mem_map.mp hx
    simp [List.mem_range'] at hn
    unfold ownId
    rw [idNo_toNat client n (by omega)]
    cases client <;> simp <;> omega

/-! ## One source per id -/

theorem index_unique {α : Type} {p : α → Bool} : ∀ {l : List α}, (l.filter p).length ≤ 1 →
    ∀ {i j : Nat} {a b : α}, l[i]? = some a → p a = true → l[j]? = some b → p b = true → i = j
  | [], _, i, j, a, b, h, _, _, _ => by simp at h
  | x :: l, hl, i, j, a, b, hi, ha, hj, hb => by
    by_cases hx : p x = true
    · have hz : l.filter p = [] := by
        rw [List.filter_cons, if_pos hx] at hl
        exact List.length_eq_zero_iff.mp (by simpa using hl)
      have none : ∀ (k : Nat) (c : α), l[k]? = some c → p c = true → False := by
        intro k c hk hc
        have : c ∈ l.filter p := List.mem_filter.mpr ⟨List.mem_of_getElem? hk, hc⟩
        rw [hz] at this; cases this
      cases i with
      | zero =>
        cases j with
        | zero => rfl
        | succ j => exact (none j b (by simpa using hj) hb).elim
      | succ i => exact (none i a (by simpa using hi) ha).elim
    · rw [List.filter_cons, if_neg hx] at hl
      cases i with
      | zero => simp at hi; subst hi; exact absurd ha hx
      | succ i =>
        cases j with
        | zero => simp at hj; subst hj; exact absurd hb hx
        | succ j =>
          have := index_unique hl (by simpa using hi) ha (by simpa using hj) hb
          omega

/-- Who is behind a frame: a stream, or nobody. -/
def framesFrom (tr : List (Handler.Ev H)) : Option Nat → List AnyFrame
  | some j => framesBy j tr
  | none => looseFrames tr

theorem frames_source (P : AnyFrame → Bool) (b0 : Option Nat) (tr : List (Handler.Ev H))
    (h : ∀ b f, .sent b f ∈ tr → P f = true → b = b0) :
    (sentFrames tr).filter P = (framesFrom tr b0).filter P := by
  induction tr with
  | nil => cases b0 <;> rfl
  | cons e tr ih =>
    have ih := ih fun b f hm hp => h b f (List.mem_cons_of_mem _ hm) hp
    cases e with
    | sent b f =>
      rcases (Bool.eq_false_or_eq_true (P f)).symm with hp | hp
      · have e1 : sentFrames (.sent b f :: tr) = f :: sentFrames tr := rfl
        rw [e1, List.filter_cons, if_neg (by simp [hp]), ih]
        cases b0 with
        | none =>
          cases b with
          | none => simp [framesFrom, looseFrames, hp]
          | some i => simp [framesFrom, looseFrames]
        | some j =>
          cases b with
          | none => simp [framesFrom, framesBy]
          | some i =>
            by_cases hi : i = j
            · simp [framesFrom, framesBy, hi, hp]
            · simp [framesFrom, framesBy, hi]
      · have hb := h b f (List.mem_cons_self ..) hp
        subst hb
        have e1 : sentFrames (.sent b f :: tr) = f :: sentFrames tr := rfl
        rw [e1, List.filter_cons, if_pos hp, ih]
        cases b with
        | none => simp [framesFrom, looseFrames, hp]
        | some i => simp [framesFrom, framesBy, hp]
    | _ =>
      have e1 : ∀ x, sentFrames (x :: tr) = (match x with | Handler.Ev.sent _ f => [f] | _ => []) ++ sentFrames tr := by
        intro x; cases x <;> rfl
      rw [e1]
      cases b0 with
      | none => simpa [framesFrom, looseFrames] using ih
      | some j => simpa [framesFrom, framesBy] using ih

theorem looseFrames_mem {f : AnyFrame} {tr : List (Handler.Ev H)} (h : .sent none f ∈ tr) :
    f ∈ looseFrames tr := List.mem_filterMap.mpr ⟨_, h, rfl⟩

theorem looseFrames_sent {f : AnyFrame} {tr : List (Handler.Ev H)} (h : f ∈ looseFrames tr) :
    .sent none f ∈ tr := by
  obtain ⟨e, h1, h2⟩ := List.mem_filterMap.mp h
  cases e with
  | sent b g =>
    cases b with
    | none => simp at h2; subst h2; exact h1
    | some i => cases h2
  | _ => cases h2

theorem looseKey_id (f : AnyFrame) : (looseKey f).2 = f.streamID := by cases f <;> rfl

/-- How often a key is in use. -/
def uses (P : Bool × UInt32 → Bool) (s : St H) (tr : List (Handler.Ev H)) : Nat :=
  ((idsIn s tr).filter P).length

theorem uses_parts (P : Bool × UInt32 → Bool) (s : St H) (tr : List (Handler.Ev H)) :
    uses P s tr = (s.objs.filter fun o => P o.key).length +
      (((requestsOf s.tasks).filter fun t => P t.rkey).length +
       ((looseFrames tr).filter fun f => P (looseKey f)).length) := by
  simp only [uses, idsIn, List.filter_append, List.length_append, List.filter_map, List.length_map]
  rfl

theorem mem_filter_pos {α : Type} {l : List α} {p : α → Bool} {a : α} (h : a ∈ l) (hp : p a = true) :
    1 ≤ (l.filter p).length :=
  List.length_pos_of_mem (List.mem_filter.mpr ⟨h, hp⟩)

/-- If a key is used once only, all frames sent for it have one source. -/
theorem one_source {P : Bool × UInt32 → Bool} {reg : Registry H} {client : Bool} {as : List Act}
    {s : St H} {tr : List (Handler.Ev H)} (_h : Handler.run reg client as = .ok (s, tr))
    (hu : uses P s tr ≤ 1) (Q : AnyFrame → Bool)
    (hl : ∀ f ∈ looseFrames tr, Q f = true → P (looseKey f) = true)
    (ho : ∀ j f o, .sent (some j) f ∈ tr → s.objs[j]? = some o → Q f = true → P o.key = true)
    (hso : ∀ j f, .sent (some j) f ∈ tr → ∃ o, s.objs[j]? = some o) :
    ∃ b0, ∀ b f, .sent b f ∈ tr → Q f = true → b = b0 := by
  rw [uses_parts] at hu
  by_cases hx : ∃ b f, .sent b f ∈ tr ∧ Q f = true
  · obtain ⟨b0, f0, h0, hq0⟩ := hx
    refine ⟨b0, fun b f hb hq => ?_⟩
    have some_ok : ∀ j f, .sent (some j) f ∈ tr → Q f = true → ∃ o, s.objs[j]? = some o ∧ P o.key = true := by
      intro j f h1 h2
      obtain ⟨o, h3⟩ := hso j f h1
      exact ⟨o, h3, ho j f o h1 h3 h2⟩
    have pos_obj : ∀ j f, .sent (some j) f ∈ tr → Q f = true → 1 ≤ (s.objs.filter fun o => P o.key).length := by
      intro j f h1 h2
      obtain ⟨o, h3, h4⟩ := some_ok j f h1 h2
      exact mem_filter_pos (p := fun o => P o.key) (List.mem_of_getElem? h3) h4
    have pos_loose : ∀ f, .sent none f ∈ tr → Q f = true →
        1 ≤ ((looseFrames tr).filter fun f => P (looseKey f)).length := by
      intro f h1 h2
      exact mem_filter_pos (p := fun f => P (looseKey f)) (looseFrames_mem h1) (hl f (looseFrames_mem h1) h2)
    cases b0 with
    | none =>
      cases b with
      | none => rfl
      | some j => have := pos_obj j f hb hq; have := pos_loose f0 h0 hq0; omega
    | some i =>
      cases b with
      | none => have := pos_obj i f0 h0 hq0; have := pos_loose f hb hq; omega
      | some j =>
        obtain ⟨o, h3, h4⟩ := some_ok j f hb hq
        obtain ⟨o', h5, h6⟩ := some_ok i f0 h0 hq0
        have := index_unique (p := fun o => P o.key) (by omega) h3 h4 h5 h6
        rw [this]
  · exact ⟨none, fun b f h1 h2 => absurd ⟨b, f, h1, h2⟩ hx⟩

/-! ## Request frames -/

/-- The ids of the request frames in a list of frames. -/
def requestFrameIds (fs : List AnyFrame) : List UInt32 := (fs.filter isReq).map AnyFrame.streamID

/-- No mono is subscribed twice. -/
def subscribedOnce (as : List Act) : Prop := ∀ j, subscriptionsTo j as ≤ 1

theorem uses_due (P : Bool × UInt32 → Bool) {reg : Registry H} {client : Bool} {as : List Act}
    {s : St H} {tr : List (Handler.Ev H)} (h : Handler.run reg client as = .ok (s, tr)) :
    uses P s tr = ((callIds client 0 as).filter fun x => P (true, x)).length +
      ((requestIds as).filter fun x => P (false, x)).length := by
  have := ((ids_run reg client as s tr h).filter P).length_eq
  rw [uses, this, dueKeys, List.filter_append, List.length_append, List.filter_map, List.filter_map,
    List.length_map, List.length_map]
  rfl

theorem nodup_filter_le {l : List UInt32} (h : l.Nodup) (x : UInt32) :
    (l.filter fun y => decide (y = x)).length ≤ 1 := by
  have h2 := h.filter (fun y => decide (y = x))
  have h3 : ∀ y ∈ l.filter (fun y => decide (y = x)), y = x := by
    intro y hy; simpa using (List.mem_filter.mp hy).2
  generalize l.filter (fun y => decide (y = x)) = m at h2 h3
  match m, h2, h3 with
  | [], _, _ => simp
  | [_], _, _ => simp
  | a :: b :: m, h2, h3 =>
    have e1 := h3 a (by simp); have e2 := h3 b (by simp)
    rw [e1, e2] at h2; simp at h2

theorem uses_own (x : UInt32) {reg : Registry H} {client : Bool} {as : List Act}
    {s : St H} {tr : List (Handler.Ev H)} (h : Handler.run reg client as = .ok (s, tr))
    (hc : callCount as < 2 ^ 30) : uses (fun k => decide (k = (true, x))) s tr ≤ 1 := by
  rw [uses_due _ h]
  have h2 := nodup_filter_le (callIds_own client as hc).1 x
  have h3 : ((requestIds as).filter fun y => decide ((false, y) = (true, x))) = [] := by
    apply List.filter_eq_nil_iff.mpr; intro a _; simp
  rw [h3]
  simpa using h2

theorem mem_requestIds_of_key {reg : Registry H} {client : Bool} {as : List Act}
    {s : St H} {tr : List (Handler.Ev H)} (h : Handler.run reg client as = .ok (s, tr)) (k : Bool × UInt32)
    (hk : k ∈ idsIn s tr) : (k.1 = true ∧ k.2 ∈ callIds client 0 as) ∨ (k.1 = false ∧ k.2 ∈ requestIds as) := by
  have := (ids_run reg client as s tr h).mem_iff.mp hk
  unfold dueKeys at this
  rcases List.mem_append.mp this with h | h
  · obtain ⟨x, hx, rfl⟩ := List.mem_map.mp h; exact .inl ⟨rfl, hx⟩
  · obtain ⟨x, hx, rfl⟩ := List.mem_map.mp h; exact .inr ⟨rfl, hx⟩

theorem sent_source {tr : List (Handler.Ev H)} {f : AnyFrame} (h : f ∈ sentFrames tr) :
    ∃ b, .sent b f ∈ tr := by
  obtain ⟨e, h1, h2⟩ := List.mem_filterMap.mp h
  cases e with
  | sent b g => simp at h2; subst h2; exact ⟨b, h1⟩
  | _ => cases h2

theorem sent_mem {tr : List (Handler.Ev H)} {b : Option Nat} {f : AnyFrame} (h : .sent b f ∈ tr) :
    f ∈ sentFrames tr := List.mem_filterMap.mpr ⟨_, h, rfl⟩

theorem obj_key_mem {s : St H} {tr : List (Handler.Ev H)} {j : Nat} {o : Obj} (h : s.objs[j]? = some o) :
    o.key ∈ idsIn s tr :=
  List.mem_append_left _ (List.mem_map.mpr ⟨o, List.mem_of_getElem? h, rfl⟩)

theorem loose_key_mem {s : St H} {tr : List (Handler.Ev H)} {f : AnyFrame} (h : f ∈ looseFrames tr) :
    looseKey f ∈ idsIn s tr :=
  List.mem_append_right _ (List.mem_append_right _ (List.mem_map.mpr ⟨f, h, rfl⟩))

theorem looseKey_req {f : AnyFrame} (h : isReq f = true) : looseKey f = (true, f.streamID) := by
  cases f <;> simp [isReq] at h; rfl

/-- Request frames carry ids given to calls. -/
theorem request_ids_own {reg : Registry H} {client : Bool} {as : List Act}
    {s : St H} {tr : List (Handler.Ev H)} (h : Handler.run reg client as = .ok (s, tr))
    (hc : callCount as < 2 ^ 30) (f : AnyFrame) (hf : f ∈ sentFrames tr) (hr : isReq f = true) :
    ownId client f.streamID = true := by
  obtain ⟨b, hb⟩ := sent_source hf
  have key : (true, f.streamID) ∈ idsIn s tr := by
    cases b with
    | none => rw [← looseKey_req hr]; exact loose_key_mem (looseFrames_mem hb)
    | some j =>
      obtain ⟨o, h1, h2, h3⟩ := sent_history reg client as s tr h j f hb
      have : o.key = (true, f.streamID) := by rw [h2]; exact Prod.ext (h3 hr) rfl
      rw [← this]; exact obj_key_mem h1
  rcases mem_requestIds_of_key h _ key with ⟨-, h2⟩ | ⟨h2, -⟩
  · exact (callIds_own client as hc).2 _ h2
  · cases h2

theorem framesBy_req_count (j : Nat) (tr : List (Handler.Ev H)) :
    ((framesBy j tr).filter isReq).length = ((evsOf j tr).filter isReqEv).length := by
  rw [← framesBy_evsOf]
  have : ∀ l : List (Handler.Ev H), (∀ e ∈ l, e.obj = some j) →
      ((framesBy j l).filter isReq).length = (l.filter isReqEv).length := by
    intro l
    induction l with
    | nil => intro _; rfl
    | cons e l ih =>
      intro hl
      have ih := ih fun x hx => hl x (List.mem_cons_of_mem _ hx)
      have he := hl e (List.mem_cons_self ..)
      rw [framesBy_cons, List.filter_append, List.length_append, ih, List.filter_cons]
      cases e with
      | sent b f =>
        simp only [Handler.Ev.obj] at he
        subst he
        have : framesBy j [(.sent (some j) f : Handler.Ev H)] = [f] := by simp [framesBy]
        rw [this]
        rcases (Bool.eq_false_or_eq_true (isReq f)).symm with hq | hq <;> simp [isReqEv, hq]
        omega
      | _ => simp [framesBy, isReqEv]
  exact this _ fun e he => by simpa using (List.mem_filter.mp he).2

/-- Request frames carry different ids. -/
theorem request_ids_nodup {reg : Registry H} {client : Bool} {as : List Act}
    {s : St H} {tr : List (Handler.Ev H)} (h : Handler.run reg client as = .ok (s, tr))
    (hc : callCount as < 2 ^ 30) (hs : subscribedOnce as) : (requestFrameIds (sentFrames tr)).Nodup := by
  rw [List.nodup_iff_count]
  intro x
  rw [requestFrameIds, List.count_eq_countP, List.countP_map, List.countP_filter, List.countP_eq_length_filter]
  have hu := uses_own x h hc
  let Q : AnyFrame → Bool := fun f => isReq f && decide (f.streamID = x)
  have hQ : ((sentFrames tr).filter fun a => ((fun x_1 => x_1 == x) ∘ AnyFrame.streamID) a && isReq a) =
      (sentFrames tr).filter Q := by
    congr 1; funext f; simp [Q, Bool.and_comm, Bool.beq_eq_decide_eq]
  rw [hQ]
  obtain ⟨b0, hb0⟩ := one_source h hu Q
    (by
      intro f hf hq
      simp [Q] at hq
      rw [looseKey_req hq.1, hq.2]; simp)
    (by
      intro j f o hj ho hq
      simp [Q] at hq
      obtain ⟨o', h1, h2, h3⟩ := sent_history reg client as s tr h j f hj
      rw [ho] at h1; cases h1
      have : o.key = (true, x) := by rw [← hq.2, h2]; exact Prod.ext (h3 hq.1) rfl
      simp [this])
    (fun j f hj => by obtain ⟨o, h1, -⟩ := sent_history reg client as s tr h j f hj; exact ⟨o, h1⟩)
  rw [frames_source Q b0 tr hb0]
  cases b0 with
  | none =>
    have h1 : ((looseFrames tr).filter Q).length ≤
        ((looseFrames tr).filter fun f => decide (looseKey f = (true, x))).length := by
      rw [← List.countP_eq_length_filter, ← List.countP_eq_length_filter]
      apply List.countP_mono_left
      intro f hf hq
      simp [Q] at hq
      simp [looseKey_req hq.1, hq.2]
    rw [uses_parts] at hu
    simp only [framesFrom]
    exact Nat.le_trans h1 (by omega)
  | some j =>
    have h1 : ((framesBy j tr).filter Q).length ≤ ((framesBy j tr).filter isReq).length := by
      rw [← List.countP_eq_length_filter, ← List.countP_eq_length_filter]
      apply List.countP_mono_left
      intro f hf hq
      simp [Q] at hq
      exact hq.1
    simp only [framesFrom]
    refine Nat.le_trans h1 ?_
    rw [framesBy_req_count]
    rcases k_history reg client as s tr h j with ⟨-, h3⟩ | ⟨o, h3, h4⟩
    · rw [h3]; simp
    · have hcount := h4.counts
      cases o with
      | answer => simp only [countsOk] at hcount; omega
      | responder => simp only [countsOk] at hcount; omega
      | mono req proc =>
        simp only [countsOk] at hcount
        rw [hcount]
        exact Nat.le_trans (mono_opened reg client as s tr h j req proc h3) (hs j)
      | flux req first c input sub =>
        simp only [countsOk] at hcount
        have := hcount.2
        split at this <;> omega

end
end Verif.Props
