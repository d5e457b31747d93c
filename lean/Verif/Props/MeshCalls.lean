import Verif.Model.MeshSystem
import Verif.Props.WasmCalls
import Verif.Props.MeshSubs
import Verif.Props.MsgpackSkipEnds
import Verif.Props.Mesh
/-
Property C121: calls from one module of a mesh to another.
-/
set_option autoImplicit false
namespace Verif.Props
open Verif Frames Handler
open Verif.Invoke (Kind Registry getHandler)
open Verif.System (Sys Move)
open Verif.WasmRecv (Side)
open Verif.MeshSystem (MSys MMove Link)

section
variable {H : Type}

/-! ## The two ends of a connection change places -/

def swapSys (s : Sys H) : Sys H := ⟨s.b, s.a, s.ba, s.ab, s.histB, s.histA, s.trB, s.trA⟩

def swapMove : Move → Move
  | .atA a => .atB a
  | .atB a => .atA a
  | .toA r => .toB r
  | .toB r => .toA r

theorem other_other (side : Side) : Wasm.Side.other (Wasm.Side.other side) = side := by cases side <;> rfl

theorem stepSys_swap {side : Side} {s s' : Sys H} {m : Move} (h : Wasm.stepSys side s m = .ok s') :
    Wasm.stepSys (Wasm.Side.other side) (swapSys s) (swapMove m) = .ok (swapSys s') := by
  cases m with
  | atA act =>
    simp only [Wasm.stepSys, swapMove] at h ⊢
    split
    · rename_i hf; rw [if_pos hf] at h; cases h; rfl
    · rename_i hf
      rw [if_neg hf] at h
      simp only [Wasm.moveA, Wasm.moveB, other_other, swapSys] at h ⊢
      revert h
      cases Wasm.step side s.a act with
      | ok r => obtain ⟨a, e⟩ := r; intro h; cases h; rfl
      | err m => intro h; cases h
      | panic => intro h; cases h
  | atB act =>
    simp only [Wasm.stepSys, swapMove] at h ⊢
    split
    · rename_i hf; rw [if_pos hf] at h; cases h; rfl
    · rename_i hf
      rw [if_neg hf] at h
      simp only [Wasm.moveA, Wasm.moveB, swapSys] at h ⊢
      revert h
      cases Wasm.step (Wasm.Side.other side) s.b act with
      | ok r => obtain ⟨a, e⟩ := r; intro h; cases h; rfl
      | err m => intro h; cases h
      | panic => intro h; cases h
  | toA r =>
    simp only [Wasm.stepSys, swapMove] at h ⊢
    have : (swapSys s).ab = s.ba := rfl
    rw [this]
    cases hb : s.ba with
    | nil => rw [hb] at h; cases h; rfl
    | cons f fs =>
      rw [hb] at h
      simp only [Wasm.moveA, Wasm.moveB, other_other, swapSys] at h ⊢
      revert h
      cases Wasm.step side s.a (.frame f r) with
      | ok r => obtain ⟨a, e⟩ := r; intro h; cases h; rfl
      | err m => intro h; cases h
      | panic => intro h; cases h
  | toB r =>
    simp only [Wasm.stepSys, swapMove] at h ⊢
    have : (swapSys s).ba = s.ab := rfl
    rw [this]
    cases hb : s.ab with
    | nil => rw [hb] at h; cases h; rfl
    | cons f fs =>
      rw [hb] at h
      simp only [Wasm.moveA, Wasm.moveB, swapSys] at h ⊢
      revert h
      cases Wasm.step (Wasm.Side.other side) s.b (.frame f r) with
      | ok r => obtain ⟨a, e⟩ := r; intro h; cases h; rfl
      | err m => intro h; cases h
      | panic => intro h; cases h

theorem runSysFrom_swap {side : Side} (ms : List Move) : ∀ {s s' : Sys H}, Wasm.runSysFrom side s ms = .ok s' →
    Wasm.runSysFrom (Wasm.Side.other side) (swapSys s) (ms.map swapMove) = .ok (swapSys s') := by
  induction ms with
  | nil => intro s s' h; cases h; rfl
  | cons m ms ih =>
    intro s s' h
    simp only [Wasm.runSysFrom, List.map_cons] at h ⊢
    cases hm : Wasm.stepSys side s m with
    | ok t => rw [hm] at h; rw [stepSys_swap hm]; exact ih h
    | err e => rw [hm] at h; cases h
    | panic => rw [hm] at h; cases h

theorem runSys_swap {side : Side} {regA regB : Registry H} {ms : List Move} {s : Sys H}
    (h : Wasm.runSys side regA regB ms = .ok s) :
    Wasm.runSys (Wasm.Side.other side) regB regA (ms.map swapMove) = .ok (swapSys s) := by
  have := runSysFrom_swap ms h
  unfold Wasm.runSys
  have e : swapSys (.init regA regB (Wasm.Side.client side)) = (.init regB regA (Wasm.Side.client (Wasm.Side.other side)) : Sys H) := by
    cases side <;> rfl
  rwa [e] at this

/-! ## One step of a module -/

/-- What has the host do this. -/
def causes (s : Sys H) (m : Move) (act : Act) : Prop :=
  m = .atA act ∧ System.isFrame act = false ∨ ∃ f r fs, act = .frame f r ∧ m = .toA r ∧ s.ba = f :: fs

/-- What a step of a module does to its host: nothing that is seen, or one action. -/
theorem stepSys_host {s s' : Sys H} {m : Move} (h : Wasm.stepSys .host s m = .ok s') :
    (s'.histA = s.histA ∧ s'.trA = s.trA ∧ s'.a = s.a) ∨
    ∃ act e, s'.histA = s.histA ++ [act] ∧ s'.trA = s.trA ++ e ∧ Wasm.step .host s.a act = .ok (s'.a, e) ∧
      causes s m act := by
  have mA : ∀ {l act}, Wasm.moveA .host { s with ba := l } act = .ok s' →
      s'.histA = s.histA ++ [act] ∧ ∃ e, s'.trA = s.trA ++ e ∧ Wasm.step .host s.a act = .ok (s'.a, e) := by
    intro l act h
    unfold Wasm.moveA at h
    dsimp only at h
    split at h
    · rename_i a e he; cases h; exact ⟨rfl, e, rfl, he⟩
    · cases h
    · cases h
  have mB : ∀ {l act}, Wasm.moveB .host { s with ab := l } act = .ok s' →
      s'.histA = s.histA ∧ s'.trA = s.trA ∧ s'.a = s.a := by
    intro l act h
    unfold Wasm.moveB at h
    dsimp only at h
    split at h
    · cases h; exact ⟨rfl, rfl, rfl⟩
    · cases h
    · cases h
  cases m with
  | atA act =>
    simp only [Wasm.stepSys] at h
    split at h
    · cases h; exact .inl ⟨rfl, rfl, rfl⟩
    · rename_i hf
      obtain ⟨h1, e, h2, h3⟩ := mA (l := s.ba) h
      exact .inr ⟨act, e, h1, h2, h3, .inl ⟨rfl, by simpa using hf⟩⟩
  | atB act =>
    simp only [Wasm.stepSys] at h
    split at h
    · cases h; exact .inl ⟨rfl, rfl, rfl⟩
    · exact .inl (mB (l := s.ab) h)
  | toA r =>
    simp only [Wasm.stepSys] at h
    split at h
    · cases h; exact .inl ⟨rfl, rfl, rfl⟩
    · rename_i f fs hb
      obtain ⟨h1, e, h2, h3⟩ := mA h
      exact .inr ⟨_, e, h1, h2, h3, .inr ⟨f, r, fs, rfl, rfl, hb⟩⟩
  | toB r =>
    simp only [Wasm.stepSys] at h
    split at h
    · cases h; exact .inl ⟨rfl, rfl, rfl⟩
    · exact .inl (mB h)

/-- The same, with what is added to the history and the trace of the host. -/
theorem stepSys_host' {s s' : Sys H} {m : Move} (h : Wasm.stepSys .host s m = .ok s') :
    ∃ l e, s'.histA = s.histA ++ l ∧ s'.trA = s.trA ++ e ∧ ((l = [] ∧ e = [] ∧ s'.a = s.a) ∨
      ∃ act, l = [act] ∧ Wasm.step .host s.a act = .ok (s'.a, e) ∧ causes s m act) := by
  rcases stepSys_host h with ⟨h1, h2, h3⟩ | ⟨act, e, h1, h2, h3, h4⟩
  · exact ⟨[], [], by simp [h1], by simp [h2], .inl ⟨rfl, rfl, h3⟩⟩
  · exact ⟨[act], e, h1, h2, .inr ⟨act, rfl, h3, h4⟩⟩

/-- What is known of the host of a module. -/
structure HostAt (reg : Registry H) (x : Sys H) : Prop where
  run : Wasm.run .host reg x.histA = .ok (x.a, x.trA)
  fits : ∀ f ∈ handedOver x.histA, fits f

theorem hostAt {regA regB : Registry H} {ms : List Move} {x : Sys H} (h : Wasm.runSys .host regA regB ms = .ok x) :
    HostAt regA x := by
  obtain ⟨x', o⟩ := overRsocket h
  exact ⟨o.endA, o.fitsA⟩

theorem HostAt.reg {reg : Registry H} {x : Sys H} (h : HostAt reg x) : x.a.reg = reg := by
  obtain ⟨tr', h1, -⟩ := run_alike _ h.run h.fits
  exact reg_run _ h1

/-- Streams stay, with their ids. -/
theorem wasm_obj_kept {s s' : St H} {act : Act} {e : List (Handler.Ev H)} (hf : ∀ f r, act = .frame f r → fits f)
    (h : Wasm.step .host s act = .ok (s', e)) (j : Nat) (o : Obj) (ho : s.objs[j]? = some o) :
    ∃ o', s'.objs[j]? = some o' ∧ o'.key = o.key := by
  obtain ⟨e', h1, -⟩ := step_alike hf h
  obtain ⟨o', h2, h3⟩ := (loc_settle j s _ (loc_step j s act) s' e' h1).1 o ho
  exact ⟨o', h2, key_run h3⟩

theorem lastFits {as : List Act} {a : Act} (h : ∀ f ∈ handedOver (as ++ [a]), fits f) : ∀ f r, a = .frame f r → fits f := by
  rintro f r rfl
  exact h f (by rw [handedOver_append]; exact List.mem_append_right _ (List.mem_singleton.mpr rfl))

theorem sys_obj_kept {reg : Registry H} {s s' : Sys H} {m : Move} (hh : HostAt reg s')
    (h : Wasm.stepSys .host s m = .ok s') (j : Nat) (o : Obj) (ho : s.a.objs[j]? = some o) :
    ∃ o', s'.a.objs[j]? = some o' ∧ o'.key = o.key := by
  obtain ⟨l, e, h1, h2, ⟨rfl, rfl, h3⟩ | ⟨act, rfl, h3, h4⟩⟩ := stepSys_host' h
  · exact ⟨o, by rw [h3]; exact ho, rfl⟩
  · have := hh.fits
    rw [h1] at this
    exact wasm_obj_kept (lastFits this) h3 j o ho

theorem sys_objs_grow {reg : Registry H} {s s' : Sys H} {m : Move} (hh : HostAt reg s')
    (h : Wasm.stepSys .host s m = .ok s') : s.a.objs.length ≤ s'.a.objs.length := by
  rcases Nat.eq_zero_or_pos s.a.objs.length with h0 | h0
  · omega
  · have hl : s.a.objs.length - 1 < s.a.objs.length := by omega
    obtain ⟨o', ho, -⟩ := sys_obj_kept hh h _ _ (List.getElem?_eq_getElem hl)
    have := (List.getElem?_eq_some_iff.mp ho).1
    omega

/-! ## Steps that call no callback -/

/-- What the callbacks of a flux are told. -/
def toldSig : Flux.Ev Pay → Option StreamSig
  | .next p => some (.element p)
  | .complete => some .complete
  | .error e => some (.error e)
  | _ => none

/-- Nothing that a mono, a flux or a source is told or does. -/
def dull : Handler.Ev H → Prop
  | .mono _ _ => False
  | .flux _ _ => False
  | .src _ _ => False
  | _ => True

/-- No callback is called and no source is asked. -/
structure Calm (e : List (Handler.Ev H)) : Prop where
  mono : ∀ j, monoEvs j e = []
  flux : ∀ j, (fluxEvs j e).filterMap toldSig = []
  asks : ∀ j, asks j e = []

theorem dull_evs {e : List (Handler.Ev H)} (h : ∀ x ∈ e, dull x) (j : Nat) :
    monoEvs j e = [] ∧ fluxEvs j e = [] ∧ asks j e = [] := by
  refine ⟨?_, ?_, ?_⟩ <;>
  · apply List.filterMap_eq_nil_iff.mpr
    intro x hx
    have := h x hx
    cases x with
    | mono => exact this.elim
    | flux => exact this.elim
    | src => exact this.elim
    | _ => rfl

theorem dull_calm {e : List (Handler.Ev H)} (h : ∀ x ∈ e, dull x) : Calm e :=
  ⟨fun j => (dull_evs h j).1, fun j => by rw [(dull_evs h j).2.1]; rfl, fun j => (dull_evs h j).2.2⟩

theorem answerEvs_dull (j : Nat) (id : UInt32) (es : List (Mono.Ev Pay)) :
    ∀ r : List (Handler.Ev H), answerEvs j id es = .ok r → ∀ e ∈ r, dull e := by
  induction es with
  | nil => intro r h; cases h; intro e he; cases he
  | cons x es ih =>
    intro r h
    simp only [answerEvs] at h
    obtain ⟨a, ha, h⟩ := bind_ok_inv h
    obtain ⟨b, hb, h⟩ := bind_ok_inv h
    cases h
    intro e he
    rcases List.mem_append.mp he with he | he
    · unfold answerEv at ha
      split at ha
      · cases ha; simp at he; subst he; trivial
      · cases ha
      · cases ha; simp at he; subst he; trivial
      · cases ha; cases he
    · exact ih b hb e he

theorem dull_answer {s s' : St H} {j : Nat} {sig : Mono.Sig Pay} {e : List (Handler.Ev H)}
    (h : Wasm.step .host s (.answer j sig) = .ok (s', e)) : ∀ x ∈ e, dull x := by
  simp only [Wasm.step, Handler.step] at h
  split at h
  · obtain ⟨es, h1, h⟩ := bind_ok_inv h
    cases h
    exact answerEvs_dull _ _ _ _ h1
  · cases h; intro x hx; cases hx

theorem dull_call {s s' : St H} {k : Kind} {p : Pay} {src : Src} {e : List (Handler.Ev H)}
    (h : Wasm.step .host s (.call k p src) = .ok (s', e)) : ∀ x ∈ e, dull x := by
  simp only [Wasm.step, Handler.step] at h
  cases k <;> cases h <;> intro x hx
  · cases hx
  · cases List.mem_singleton.mp hx; trivial
  · cases hx
  · cases hx

theorem dull_run {s s' : St H} {t : Nat} {ret : Ret} {k : Kind} {id n : UInt32} {data md : Bytes}
    {e : List (Handler.Ev H)} (ht : s.tasks[t]? = some (.request k id data md n))
    (h : Wasm.step .host s (.run t ret) = .ok (s', e)) : ∀ x ∈ e, dull x := by
  simp only [Wasm.step] at h
  split at h
  · cases h
  rw [ht] at h
  dsimp only at h
  unfold Wasm.serve at h
  split at h
  · cases h; intro x hx; cases List.mem_singleton.mp hx; trivial
  · obtain ⟨op, -, h⟩ := bind_ok_inv h
    split at h
    · cases h; intro x hx; cases List.mem_singleton.mp hx; trivial
    · dsimp only at h
      cases k with
      | rr =>
        dsimp only at h
        obtain ⟨es, he, h⟩ := bind_ok_inv h
        cases h
        intro x hx
        rcases List.mem_cons.mp hx with rfl | hx
        · trivial
        · first
            | exact answerEvs_dull _ _ _ _ he x hx
            | (rcases List.mem_cons.mp hx with rfl | hx
               · trivial
               · exact answerEvs_dull _ _ _ _ he x hx)
      | _ =>
        cases h
        intro x hx
        rcases List.mem_append.mp hx with hx | hx
        · split at hx
          · cases List.mem_singleton.mp hx; trivial
          · cases hx
        · cases List.mem_singleton.mp hx; trivial

theorem dull_subscribe {s s' : St H} {j : Nat} {inst : Mono.Installed} {req : RequestPayload}
    {e : List (Handler.Ev H)} (hj : s.objs[j]? = some (.mono req .init))
    (h : Wasm.step .host s (.subscribeMono j inst) = .ok (s', e)) : ∀ x ∈ e, dull x := by
  simp only [Wasm.step, Handler.step, hj] at h
  cases h
  have : (Mono.Proc.init.step (T := Pay) (.subscribe inst)).2 = [] := rfl
  rw [this]
  intro x hx
  change x ∈ [_, _] at hx
  rcases List.mem_cons.mp hx with rfl | hx
  · trivial
  · cases List.mem_singleton.mp hx; trivial

/-- The flux of a call of the mesh is subscribed to. -/
theorem dull_subscribeFlux {s s' : St H} {j : Nat} {req : RequestPayload} {first c : Bool} {input : Option Input}
    {e : List (Handler.Ev H)} (hj : s.objs[j]? = some (.flux req first c input none))
    (h : Wasm.step .host s (.subscribeFlux j replyInst []) = .ok (s', e)) : (∀ x ∈ e, dull x) ∧ meshSub s' j := by
  have hl : j < s.objs.length := (List.getElem?_eq_some_iff.mp hj).1
  simp only [Wasm.step, Handler.step, hj] at h
  have : (Flux.runFrom (T := Pay) (.init replyInst []) [.onSubscribe true, .start []]).2 = [] := rfl
  rw [this] at h
  cases h
  refine ⟨?_, ⟨req, first, c, input, (Flux.runFrom (T := Pay) (.init replyInst []) [.onSubscribe true, .start []]).1, ?_, rfl, rfl⟩⟩
  · intro x hx
    cases List.mem_singleton.mp hx; trivial
  · simp only [addTasks, setObj]
    rw [List.getElem?_set_self]
    · rw [register_objs]; exact hl

/-- What the host returned is subscribed to. -/
theorem run_subscribe {s s' : St H} {j t : Nat} {n : UInt32} {k : Kind} {id : UInt32} {out : Option (Src × Flux.State)}
    {b : Bool} {inp : Option Flux.State} {e : List (Handler.Ev H)} (ht : s.tasks[t]? = some (.subscribe j .created n))
    (hj : s.objs[j]? = some (.responder k id out b inp))
    (h : Wasm.step .host s (.run t ⟨.created, .created, false⟩) = .ok (s', e)) :
    e = [] ∧ s'.objs = s.objs.set j (.responder k id (some (.created, .init replyInst [])) b inp) := by
  simp only [Wasm.step] at h
  split at h
  · cases h
  rw [ht] at h
  simp only [runTask, addTasks, hj, onOut, subscribeSrc, throughMap] at h
  cases h
  exact ⟨rfl, rfl⟩

/-- Its source calls OnSubscribe. -/
theorem out_onSubscribe {s s' : St H} {j : Nat} {k : Kind} {id : UInt32} {b : Bool} {inp : Option Flux.State}
    {e : List (Handler.Ev H)} (hj : s.objs[j]? = some (.responder k id (some (.created, .init replyInst [])) b inp))
    (h : Wasm.step .host s (.out j (.onSubscribe true)) = .ok (s', e)) :
    e = [] ∧ ∀ i, i ≠ j → s'.objs[i]? = s.objs[i]? := by
  simp only [Wasm.step, Handler.step, hj] at h
  split at h
  · cases h; exact ⟨rfl, fun _ _ => rfl⟩
  · simp only [onOut, throughMap] at h
    cases h
    refine ⟨rfl, fun i hi => ?_⟩
    simp only [setObj]
    rw [List.getElem?_set_ne (fun h => hi h.symm)]

theorem call_keeps {s s' : St H} {k : Kind} {p : Pay} {src : Src} {e : List (Handler.Ev H)}
    (h : Wasm.step .host s (.call k p src) = .ok (s', e)) :
    s'.tasks = s.tasks ∧ ∀ (j : Nat) (o : Obj), s.objs[j]? = some o → s'.objs[j]? = some o := by
  have : ∀ (o' : Obj) (j : Nat) (o : Obj), s.objs[j]? = some o → (s.objs ++ [o'])[j]? = some o := by
    intro o' j o ho
    rw [List.getElem?_append_left (List.getElem?_eq_some_iff.mp ho).1]; exact ho
  simp only [Wasm.step, Handler.step] at h
  cases k <;> cases h
  · exact ⟨rfl, fun j o ho => this _ j o ho⟩
  · exact ⟨rfl, fun j o ho => ho⟩
  · exact ⟨rfl, fun j o ho => this _ j o ho⟩
  · exact ⟨rfl, fun j o ho => this _ j o ho⟩

/-- Nothing that is passed on calls a callback. -/
theorem calm_out {s s' : St H} {j : Nat} {op : SrcOp} {e : List (Handler.Ev H)} (hr : ∀ o, s.objs[j]? = some o → replyObj o)
    (hop : ∀ c, op ≠ .onSubscribe c) (h : Wasm.step .host s (.out j op) = .ok (s', e)) : Calm e := by
  have h0 := h
  simp only [Wasm.step, Handler.step] at h
  split at h
  · rename_i k id f st b inp ho
    split at h
    · cases h; exact dull_calm (fun x hx => by cases hx)
    · simp only [onOut] at h
      obtain ⟨es, h1, h⟩ := bind_ok_inv h
      cases h
      refine ⟨fun i => ?_, fun i => by rw [fluxEvs_replyEvs _ _ _ _ _ h1]; rfl, fun i => asks_out hr hop h0 i⟩
      have : ∀ (l : List (Flux.Ev Pay)) (r : List (Handler.Ev H)), replyEvs j id l = .ok r → monoEvs i r = [] := by
        intro l
        induction l with
        | nil => intro r h; cases h; rfl
        | cons x l ih =>
          intro r h
          simp only [replyEvs] at h
          obtain ⟨a, ha, h⟩ := bind_ok_inv h
          obtain ⟨b, hb, h⟩ := bind_ok_inv h
          cases h
          rw [monoEvs_append, ih _ hb, List.append_nil]
          unfold replyEv at ha
          split at ha <;> cases ha <;> rfl
      exact this _ _ h1
  · cases h; exact dull_calm (fun x hx => by cases hx)

theorem calm_request {s s' : St H} {j : Nat} {n : Int} {e : List (Handler.Ev H)}
    (h : Wasm.step .host s (.fluxCall j (.request n)) = .ok (s', e)) : Calm e := by
  simp only [Wasm.step, Handler.step] at h
  split at h
  · rename_i req first c input st ho
    simp only [onFlux] at h
    cases h
    simp only [Flux.step, Flux.call]
    split
    · refine ⟨fun i => rfl, fun i => ?_, fun i => rfl⟩
      by_cases hi : j = i <;> simp [demandEvs, fluxEvs, toldSig, hi]
    · exact dull_calm (fun x hx => by cases hx)
  · cases h; exact dull_calm (fun x hx => by cases hx)

/-! ## What is known during a run -/

/-- A request that a host has run (`RanOn`). -/
structure RunRec (H : Type) where
  as1 : List Act
  as2 : List Act
  t : Nat
  ret : Ret
  s1 : St H
  t1 : List (Handler.Ev H)
  k : Kind
  id : UInt32
  data : Bytes
  md : Bytes
  n : UInt32

def RunRec.on (r : RunRec H) (reg : Registry H) (as : List Act) : Prop :=
  RanOn .host reg as r.as1 r.as2 r.t r.ret r.s1 r.t1 r.k r.id r.data r.md r.n

def RunRec.grow (r : RunRec H) (l : List Act) : RunRec H := { r with as2 := r.as2 ++ l }

theorem RunRec.on_grow {r : RunRec H} {reg : Registry H} {as : List Act} (h : r.on reg as) (l : List Act) :
    (r.grow l).on reg (as ++ l) :=
  ⟨by show _ = r.as1 ++ Act.run r.t r.ret :: (r.as2 ++ l); rw [h.split]; simp, h.before, h.task⟩

/-- A request in a longer history was there before, or is the last thing that happened. -/
theorem RunRec.on_snoc {r : RunRec H} {reg : Registry H} {as : List Act} {a : Act} (h : r.on reg (as ++ [a])) :
    (∃ r0 : RunRec H, r0.on reg as ∧ r = r0.grow [a]) ∨ (r.as1 = as ∧ a = .run r.t r.ret) := by
  have hs := h.split
  rcases List.eq_nil_or_concat r.as2 with hn | ⟨as2, b, hb⟩
  · rw [hn] at hs
    obtain ⟨h1, h2⟩ := List.append_inj' hs rfl
    cases h2
    exact .inr ⟨h1.symm, rfl⟩
  · rw [List.concat_eq_append] at hb
    rw [hb, ← List.cons_append, ← List.append_assoc] at hs
    obtain ⟨h1, h2⟩ := List.append_inj' hs rfl
    cases h2
    refine .inl ⟨{ r with as2 := as2 }, ⟨h1, h.before, h.task⟩, ?_⟩
    unfold RunRec.grow
    rw [← hb]

/-- A request for an operation the mesh has linked to `d`. -/
structure RunFor (dest : H → Option Mesh.Dest) (reg : Registry H) (r : RunRec H) (d : Mesh.Dest) : Prop where
  kind : r.k ≠ .rc
  dest : (exported reg r.k r.md).bind dest = some d

/-- What is still to be done by the host of module `c`. -/
def dueAt (q : List (Nat × Act)) (c : Nat) : List Act := q.filterMap fun x => if x.1 = c then some x.2 else none

/-- What is passed on is nothing else than this. -/
def passable : Act → Prop
  | .answer _ _ => True
  | .out _ op => ∀ c, op ≠ .onSubscribe c
  | .fluxCall _ (.request _) => True
  | _ => False

/-- The payload that is passed on: the index of the export replaces the index of the import. -/
def sentPay (d : Mesh.Dest) (data md : Bytes) : Pay := ⟨data, be32 d.index ++ md.drop 4⟩

/-- What is known of a stream that was passed on: `j` is the stream of the call. -/
structure StreamFor (host : Nat → Registry H) (s : MSys H) (q : List (Nat × Act)) (i : Nat) (r : RunRec H) (d : Mesh.Dest)
    (l : Link) (j : Nat) : Prop where
  out : ∃ as3 as4 t' ret' s3 t3 n', r.as2 = as3 ++ .run t' ret' :: as4 ∧
    Wasm.run .host (host i) (r.as1 ++ .run r.t r.ret :: as3) = .ok (s3, t3) ∧
    s3.tasks[t']? = some (.subscribe r.s1.objs.length r.ret.flux n') ∧
    outSigs l.answer as4 ++ outSigs l.answer (dueAt q i) = (fluxEvs j (s.inst d.inst).trA).filterMap toldSig ∧
    ∃ as5, as4 = .out l.answer (.onSubscribe true) :: as5
  opened : ∃ b1 b2 s3 t3 req, (s.inst d.inst).histA = b1 ++ .subscribeFlux j replyInst [] :: b2 ∧
    Wasm.run .host (host d.inst) b1 = .ok (s3, t3) ∧ s3.objs[j]? = some (.flux req true false none none)
  calm : .cancelled ∉ fluxEvs j (s.inst d.inst).trA
  sub : meshSub (s.inst d.inst).a j
  dem : demands j (s.inst d.inst).trA ++ requestsOn j (dueAt q d.inst) = asks l.answer (s.inst i).trA
  once : (s.inst i).histA.countP (isOnSub l.answer) ≤ 1

/-- The link `l` is for the request `r` of module `i`. -/
structure LinkFor (host guest : Nat → Registry H) (s : MSys H) (q : List (Nat × Act)) (i : Nat)
    (r : RunRec H) (d : Mesh.Dest) (l : Link) : Prop where
  mem : l ∈ s.links
  caller : l.caller = i
  request : l.request = r.id
  answer : l.answer = r.s1.objs.length
  target : l.target = d.inst
  created : r.ret = ⟨.created, .created, false⟩
  rr : r.k = .rr → ∃ pre s0 mid post,
    wasmCall .host (host d.inst) (guest d.inst) pre s0 (sentPay d r.data r.md) .created mid answerInst post (s.inst d.inst) ∧
    l.call = some s0.a.objs.length ∧ l.id = callId s0.a ∧
    answerSigs l.answer r.as2 ++ answerSigs l.answer (dueAt q i) =
      (monoEvs s0.a.objs.length (s.inst d.inst).trA).filterMap MeshSystem.told
  fnf : r.k = .fnf → l.call = none ∧ ∃ pre s0 post,
    wasmFnf .host (host d.inst) (guest d.inst) pre s0 (sentPay d r.data r.md) .created post (s.inst d.inst) ∧
    l.id = callId s0.a
  rs : r.k = .rs → ∃ pre s0 mid post,
    wasmStream .host (host d.inst) (guest d.inst) pre s0 .rs (sentPay d r.data r.md) .created mid replyInst [] post
      (s.inst d.inst) ∧
    l.call = some s0.a.objs.length ∧ l.id = callId s0.a ∧ StreamFor host s q i r d l s0.a.objs.length

/-- What holds at every point of a run, but for the requests in `ex`. -/
structure MeshRun (dest : H → Option Mesh.Dest) (host guest : Nat → Registry H) (ex : Nat → List Act → Prop)
    (s : MSys H) (q : List (Nat × Act)) : Prop where
  reach : ∀ k, ∃ ms, Wasm.runSys .host (host k) (guest k) ms = .ok (s.inst k)
  keys : ∀ l ∈ s.links, ∃ o, (s.inst l.caller).a.objs[l.answer]? = some o ∧ o.key = (false, l.request)
  distinct : s.links.Pairwise fun l l' => ¬ (l.caller = l'.caller ∧ l.answer = l'.answer)
  ids : ∀ k, ((s.links.filter fun l => l.target == k).map (·.id)).Sublist (callIds false 0 (s.inst k).histA)
  born : ∀ l ∈ s.links, ∀ j, l.call = some j → j < (s.inst l.target).a.objs.length
  calls : s.links.Pairwise fun l l' => ∀ j, ¬ (l.target = l'.target ∧ l.call = some j ∧ l'.call = some j)
  fresh : ∀ k j, (s.inst k).a.objs.length ≤ j → (s.inst k).histA.countP (isOnSub j) = 0
  queue : ∀ x ∈ q, passable x.2
  all : ∀ i r d, r.on (host i) (s.inst i).histA → RunFor dest (host i) r d → ¬ ex i r.as1 →
    ∃ l, LinkFor host guest s q i r d l
  each : ∀ l ∈ s.links, ∃ r d, r.on (host l.caller) (s.inst l.caller).histA ∧ RunFor dest (host l.caller) r d ∧
    LinkFor host guest s q l.caller r d l

/-- What a step of module `i` means for a link: `la` and `e` are what its host did and what was seen. -/
structure Passes (s : MSys H) (i : Nat) (st' : St H) (q q' : List (Nat × Act)) (la : List Act) (e : List (Handler.Ev H))
    (l : Link) (j : Nat) : Prop where
  mono : answerSigs l.answer (if l.caller = i then la else []) ++ answerSigs l.answer (dueAt q' l.caller) =
    answerSigs l.answer (dueAt q l.caller) ++ if l.target = i then (monoEvs j e).filterMap MeshSystem.told else []
  flux : outSigs l.answer (if l.caller = i then la else []) ++ outSigs l.answer (dueAt q' l.caller) =
    outSigs l.answer (dueAt q l.caller) ++ if l.target = i then (fluxEvs j e).filterMap toldSig else []
  sub : l.target = i → meshSub (s.inst i).a j → meshSub st' j ∧ .cancelled ∉ fluxEvs j e
  dem : (l.target = i → meshSub (s.inst i).a j) →
    (if l.target = i then demands j e else []) ++ requestsOn j (dueAt q' l.target) =
    requestsOn j (dueAt q l.target) ++ if l.caller = i then asks l.answer e else []
  once : l.caller = i → la.countP (isOnSub l.answer) = 0

/-! ## Steps -/

theorem wasmCall_snoc {side : Side} {regA regB : Registry H} {pre mid post : List Move} {s0 x x' : Sys H} {p : Pay}
    {src : Src} {inst : Mono.Installed} {m : Move} (h : wasmCall side regA regB pre s0 p src mid inst post x)
    (hs : Wasm.stepSys side x m = .ok x') : wasmCall side regA regB pre s0 p src mid inst (post ++ [m]) x' := by
  refine ⟨h.1, ?_⟩
  have := h.2
  unfold Wasm.runSys at this ⊢
  rw [← List.cons_append, ← List.append_assoc, runSysFrom_append, this]
  simp only [Wasm.runSysFrom, hs]

theorem wasmFnf_snoc {side : Side} {regA regB : Registry H} {pre post : List Move} {s0 x x' : Sys H} {p : Pay}
    {src : Src} {m : Move} (h : wasmFnf side regA regB pre s0 p src post x)
    (hs : Wasm.stepSys side x m = .ok x') : wasmFnf side regA regB pre s0 p src (post ++ [m]) x' := by
  refine ⟨h.1, ?_⟩
  have := h.2
  unfold Wasm.runSys at this ⊢
  rw [← List.cons_append, ← List.append_assoc, runSysFrom_append, this]
  simp only [Wasm.runSysFrom, hs]

theorem wasmStream_snoc {side : Side} {regA regB : Registry H} {pre mid post : List Move} {s0 x x' : Sys H} {k : Kind} {p : Pay}
    {src : Src} {inst : Flux.Installed} {start : List Flux.Call} {m : Move}
    (h : wasmStream side regA regB pre s0 k p src mid inst start post x) (hs : Wasm.stepSys side x m = .ok x') :
    wasmStream side regA regB pre s0 k p src mid inst start (post ++ [m]) x' := by
  refine ⟨h.kind, h.before, h.once, ?_⟩
  have := h.whole
  unfold Wasm.runSys at this ⊢
  rw [← List.cons_append, ← List.append_assoc, runSysFrom_append, this]
  simp only [Wasm.runSysFrom, hs]

theorem runSys_then {side : Side} {regA regB : Registry H} {ms : List Move} {x x' : Sys H} {m : Move}
    (h : Wasm.runSys side regA regB ms = .ok x) (hs : Wasm.stepSys side x m = .ok x') :
    Wasm.runSys side regA regB (ms ++ [m]) = .ok x' := by
  unfold Wasm.runSys at h ⊢
  rw [runSysFrom_append, h]
  simp only [Wasm.runSysFrom, hs]

theorem stepIn_ok {s s' : MSys H} {i : Nat} {m : Move} (h : MeshSystem.stepIn s i m = .ok s') :
    ∃ x, Wasm.stepSys .host (s.inst i) m = .ok x ∧ s' = s.set i x := by
  unfold MeshSystem.stepIn at h
  split at h
  · rename_i x hx; cases h; exact ⟨x, hx, rfl⟩
  · cases h
  · cases h

theorem set_same (s : MSys H) (i : Nat) (x : Sys H) : (s.set i x).inst i = x := by simp [MSys.set]

theorem set_other (s : MSys H) {i k : Nat} (x : Sys H) (h : k ≠ i) : (s.set i x).inst k = s.inst k := by
  simp [MSys.set, h]

section
variable {dest : H → Option Mesh.Dest} {host guest : Nat → Registry H} {ex : Nat → List Act → Prop}
  {s : MSys H} {q q' : List (Nat × Act)}

theorem link_lift {i : Nat} {m : Move} {x : Sys H} (hx : Wasm.stepSys .host (s.inst i) m = .ok x)
    {la : List Act} {e : List (Handler.Ev H)} (hl : x.histA = (s.inst i).histA ++ la) (ht : x.trA = (s.inst i).trA ++ e)
    {c : Nat} {r : RunRec H} {d : Mesh.Dest} {l : Link} (h : LinkFor host guest s q c r d l)
    (hq : ∀ j, l.call = some j → Passes s i x.a q q' la e l j) :
    LinkFor host guest (s.set i x) q' c (r.grow (if c = i then la else [])) d l := by
  have hc := h.caller
  have hd := h.target
  subst hc
  refine ⟨h.mem, rfl, h.request, h.answer, h.target, h.created, ?_, ?_, ?_⟩
  · intro hk
    obtain ⟨pre, s0, mid, post, h1, h2, h3, h4⟩ := h.rr hk
    have h5 := (hq _ h2).mono
    rw [hd] at h5
    have hs : answerSigs l.answer (r.grow (if l.caller = i then la else [])).as2 ++ answerSigs l.answer (dueAt q' l.caller) =
        (monoEvs s0.a.objs.length (s.inst d.inst).trA).filterMap MeshSystem.told ++
        if d.inst = i then (monoEvs s0.a.objs.length e).filterMap MeshSystem.told else [] := by
      show answerSigs l.answer (r.as2 ++ _) ++ _ = _
      rw [answerSigs_append, List.append_assoc, h5, ← List.append_assoc, h4]
    by_cases hd : d.inst = i
    · subst hd
      refine ⟨pre, s0, mid, post ++ [m], ?_, h2, h3, ?_⟩
      · rw [set_same]; exact wasmCall_snoc h1 hx
      · rw [set_same, ht, monoEvs_append, List.filterMap_append, hs, if_pos rfl]
    · refine ⟨pre, s0, mid, post, ?_, h2, h3, ?_⟩
      · rw [set_other _ _ hd]; exact h1
      · rw [set_other _ _ hd, hs, if_neg hd, List.append_nil]
  · intro hk
    obtain ⟨h1, pre, s0, post, h2, h3⟩ := h.fnf hk
    by_cases hd : d.inst = i
    · subst hd
      exact ⟨h1, pre, s0, post ++ [m], by rw [set_same]; exact wasmFnf_snoc h2 hx, h3⟩
    · exact ⟨h1, pre, s0, post, by rw [set_other _ _ hd]; exact h2, h3⟩
  · intro hk
    obtain ⟨pre, s0, mid, post, h1, h2, h3, h4⟩ := h.rs hk
    have P := hq _ h2
    have hflux := P.flux
    have hdem := P.dem (fun h => by have := h4.sub; rwa [← hd, h] at this)
    have hsub := P.sub
    rw [hd] at hflux hdem hsub
    obtain ⟨as3, as4, t', ret', s3, t3, n', o1, o2, o3, o4, as5, o5⟩ := h4.out
    have hopen : ∃ b1 b2 s3 t3 req, ((s.set i x).inst d.inst).histA = b1 ++ .subscribeFlux s0.a.objs.length replyInst [] :: b2 ∧
        Wasm.run .host (host d.inst) b1 = .ok (s3, t3) ∧
        s3.objs[s0.a.objs.length]? = some (.flux req true false none none) := by
      obtain ⟨b1, b2, s3, t3, req, p1, p2, p3⟩ := h4.opened
      by_cases hd : d.inst = i
      · subst hd; exact ⟨b1, b2 ++ la, s3, t3, req, by rw [set_same, hl, p1]; simp, p2, p3⟩
      · exact ⟨b1, b2, s3, t3, req, by rw [set_other _ _ hd]; exact p1, p2, p3⟩
    have hout : ∃ as3 as4 t' ret' s3 t3 n', (r.grow (if l.caller = i then la else [])).as2 = as3 ++ .run t' ret' :: as4 ∧
        Wasm.run .host (host l.caller) (r.as1 ++ .run r.t r.ret :: as3) = .ok (s3, t3) ∧
        s3.tasks[t']? = some (.subscribe r.s1.objs.length r.ret.flux n') ∧
        outSigs l.answer as4 ++ outSigs l.answer (dueAt q' l.caller) =
          (fluxEvs s0.a.objs.length ((s.set i x).inst d.inst).trA).filterMap toldSig ∧
        ∃ as5, as4 = .out l.answer (.onSubscribe true) :: as5 := by
      refine ⟨as3, as4 ++ (if l.caller = i then la else []), t', ret', s3, t3, n', ?_, o2, o3, ?_, _, by rw [o5]; rfl⟩
      · show r.as2 ++ _ = _
        rw [o1, List.append_assoc, List.cons_append]
      · rw [outSigs_append, List.append_assoc, hflux, ← List.append_assoc, o4]
        by_cases hd : d.inst = i
        · subst hd; rw [set_same, ht, fluxEvs_append, List.filterMap_append, if_pos rfl]
        · rw [set_other _ _ hd, if_neg hd, List.append_nil]
    have hD : demands s0.a.objs.length ((s.set i x).inst d.inst).trA ++ requestsOn s0.a.objs.length (dueAt q' d.inst) =
        asks l.answer ((s.set i x).inst l.caller).trA := by
      have e1 : demands s0.a.objs.length ((s.set i x).inst d.inst).trA = demands s0.a.objs.length (s.inst d.inst).trA ++
          if d.inst = i then demands s0.a.objs.length e else [] := by
        by_cases hd : d.inst = i
        · subst hd; rw [set_same, ht, demands_append, if_pos rfl]
        · rw [set_other _ _ hd, if_neg hd, List.append_nil]
      have e2 : asks l.answer ((s.set i x).inst l.caller).trA = asks l.answer (s.inst l.caller).trA ++
          if l.caller = i then asks l.answer e else [] := by
        by_cases hc : l.caller = i
        · rw [hc, set_same, ht, asks_append, if_pos rfl]
        · rw [set_other _ _ hc, if_neg hc, List.append_nil]
      rw [e1, e2, List.append_assoc, hdem, ← List.append_assoc, h4.dem]
    have hO : ((s.set i x).inst l.caller).histA.countP (isOnSub l.answer) ≤ 1 := by
      have := h4.once
      by_cases hc : l.caller = i
      · have h0 := P.once hc
        rw [hc] at this ⊢
        rw [set_same, hl, List.countP_append, h0]; exact this
      · rw [set_other _ _ hc]; exact this
    by_cases hd : d.inst = i
    · subst hd
      obtain ⟨q1, q2⟩ := hsub rfl h4.sub
      refine ⟨pre, s0, mid, post ++ [m], ?_, h2, h3, hout, hopen, ?_, ?_, hD, hO⟩
      · rw [set_same]; exact wasmStream_snoc h1 hx
      · rw [set_same, ht, fluxEvs_append, List.mem_append, not_or]; exact ⟨h4.calm, q2⟩
      · rw [set_same]; exact q1
    · refine ⟨pre, s0, mid, post, ?_, h2, h3, hout, hopen, ?_, ?_, hD, hO⟩
      · rw [set_other _ _ hd]; exact h1
      · rw [set_other _ _ hd]; exact h4.calm
      · rw [set_other _ _ hd]; exact h4.sub

theorem callIds_prefix (client : Bool) (as : List Act) : ∀ (c : UInt64) (b : List Act),
    ∃ l, callIds client c (as ++ b) = callIds client c as ++ l := by
  induction as with
  | nil => intro c b; exact ⟨_, rfl⟩
  | cons a as ih =>
    intro c b
    cases a with
    | call k p src =>
      obtain ⟨l, h⟩ := ih (nextID client c).1 b
      exact ⟨l, by simp only [List.cons_append, callIds, h]⟩
    | _ =>
      obtain ⟨l, h⟩ := ih c b
      exact ⟨l, by simpa only [List.cons_append, callIds] using h⟩

/-- The handler a request names. -/
theorem destOf_eq (dest : H → Option Mesh.Dest) (reg : Registry H) (k : Kind) (md : Bytes) :
    MeshSystem.destOf dest reg k md = (exported reg k md).bind dest := by
  unfold MeshSystem.destOf exported
  split
  · rfl
  · rename_i h
    obtain ⟨op, h1, -⟩ := getU32_take md (by omega)
    simp only [namedOp, h1]

/-- A step of one module. -/
theorem meshRun_step (I : MeshRun dest host guest ex s q) {i : Nat} {m : Move} {x : Sys H}
    (hx : Wasm.stepSys .host (s.inst i) m = .ok x)
    (hrun : ∀ t ret, m = .atA (.run t ret) → (MeshSystem.taskDest dest (s.inst i).a t).isSome = true →
      ex i (s.inst i).histA)
    (hqueue : ∀ y ∈ q', passable y.2)
    (hq : ∀ la e, x.histA = (s.inst i).histA ++ la → x.trA = (s.inst i).trA ++ e →
      (∀ j, x.a.objs.length ≤ j → la.countP (isOnSub j) = 0) ∧
      ∀ l ∈ s.links, ∀ j, l.call = some j → Passes s i x.a q q' la e l j) :
    MeshRun dest host guest ex (s.set i x) q' := by
  obtain ⟨la, e, h1, h2, h3⟩ := stepSys_host' hx
  obtain ⟨ms, hms⟩ := I.reach i
  have hms' := runSys_then hms hx
  have hH := hostAt hms
  have hH' := hostAt hms'
  have lift : ∀ {c : Nat} {r : RunRec H} {d : Mesh.Dest} {l : Link}, LinkFor host guest s q c r d l →
      LinkFor host guest (s.set i x) q' c (r.grow (if c = i then la else [])) d l := by
    intro c r d l hl
    exact link_lift hx h1 h2 hl fun j hj => (hq la e h1 h2).2 l hl.mem j hj
  have hlen := sys_objs_grow hH' hx
  refine ⟨?_, ?_, I.distinct, ?_, ?_, I.calls, ?_, hqueue, ?_, ?_⟩
  · intro k
    by_cases hk : k = i
    · subst hk; exact ⟨_, by rw [set_same]; exact hms'⟩
    · rw [set_other _ _ hk]; exact I.reach k
  · intro l hl
    obtain ⟨o, ho, hk⟩ := I.keys l hl
    by_cases hc : l.caller = i
    · rw [hc] at ho ⊢
      rw [set_same]
      obtain ⟨o', h4, h5⟩ := sys_obj_kept hH' hx _ _ ho
      exact ⟨o', h4, h5.trans hk⟩
    · rw [set_other _ _ hc]; exact ⟨o, ho, hk⟩
  · intro k
    by_cases hk : k = i
    · subst hk
      rw [set_same, h1]
      obtain ⟨z, hz⟩ := callIds_prefix false (s.inst k).histA 0 la
      rw [hz]
      exact (I.ids k).trans (List.sublist_append_left _ _)
    · rw [set_other _ _ hk]; exact I.ids k
  · intro l hl j hj
    have := I.born l hl j hj
    by_cases hc : l.target = i
    · rw [hc] at this ⊢
      rw [set_same]; omega
    · rw [set_other _ _ hc]; exact this
  · intro k j hj
    by_cases hk : k = i
    · subst hk
      rw [set_same] at hj ⊢
      rw [h1, List.countP_append, I.fresh k j (by omega), (hq la e h1 h2).1 j hj]
    · rw [set_other _ _ hk] at hj ⊢
      exact I.fresh k j hj
  · intro c r d hr hd hex
    by_cases hc : c = i
    · subst hc
      rw [set_same, h1] at hr
      rcases h3 with ⟨rfl, -, -⟩ | ⟨a, rfl, h4, h5⟩
      · rw [List.append_nil] at hr
        obtain ⟨l, hl⟩ := I.all c r d hr hd hex
        have := lift hl
        rw [if_pos rfl] at this
        unfold RunRec.grow at this
        rw [List.append_nil] at this
        exact ⟨l, this⟩
      · rcases RunRec.on_snoc hr with ⟨r0, q1, rfl⟩ | ⟨q1, rfl⟩
        · obtain ⟨l, hl⟩ := I.all c r0 d q1 ⟨hd.kind, hd.dest⟩ hex
          have := lift hl
          rw [if_pos rfl] at this
          exact ⟨l, this⟩
        · exfalso
          rcases h5 with ⟨h5, -⟩ | ⟨f, rc, fs, h5, -⟩
          · apply hex
            rw [q1]
            refine hrun _ _ h5 ?_
            have hb := hr.before
            rw [q1, hH.run] at hb
            have hs1 : (s.inst c).a = r.s1 := (Prod.mk.inj (Go.ok.inj hb)).1
            have htask := hr.task
            rw [← hs1] at htask
            unfold MeshSystem.taskDest
            rw [htask]
            simp only
            rw [destOf_eq, hH.reg, hd.dest]
            rfl
          · cases h5
    · rw [set_other _ _ hc] at hr
      obtain ⟨l, hl⟩ := I.all c r d hr hd hex
      have := lift hl
      rw [if_neg hc] at this
      unfold RunRec.grow at this
      rw [List.append_nil] at this
      exact ⟨l, this⟩
  · intro l hl
    obtain ⟨r, d, q1, q2, q3⟩ := I.each l hl
    refine ⟨_, d, ?_, ?_, lift q3⟩
    · by_cases hc : l.caller = i
      · rw [hc] at q1 ⊢
        rw [set_same, h1, if_pos rfl]
        exact RunRec.on_grow q1 la
      · rw [set_other _ _ hc, if_neg hc]
        have := RunRec.on_grow q1 []
        rwa [List.append_nil] at this
    · exact ⟨q2.kind, q2.dest⟩

theorem dueFor_append (q q' : List (Nat × Act)) (c : Nat) : dueAt (q ++ q') c = dueAt q c ++ dueAt q' c := by simp [dueAt]

theorem dueFor_cons (c : Nat) (a : Act) (q : List (Nat × Act)) (k : Nat) :
    dueAt ((c, a) :: q) k = (if k = c then [a] else []) ++ dueAt q k := by
  by_cases h : k = c
  · subst h; simp [dueAt]
  · have : ¬ c = k := fun h' => h h'.symm
    simp [dueAt, h, this]

/-- Something that is read off what is done, action by action. -/
structure Reads {β : Type} (G : List Act → List β) : Prop where
  nil : G [] = []
  append : ∀ a b, G (a ++ b) = G a ++ G b

theorem reads_answers (j : Nat) : Reads (answerSigs j) := ⟨rfl, answerSigs_append j⟩
theorem reads_outs (j : Nat) : Reads (outSigs j) := ⟨rfl, outSigs_append j⟩
theorem reads_requests (j : Nat) : Reads (requestsOn j) := ⟨rfl, requestsOn_append j⟩

theorem Reads.none {β : Type} {G : List Act → List β} (h : Reads G) (c : Nat) : ∀ (q : List (Nat × Act)),
    (∀ x ∈ q, G [x.2] = []) → G (dueAt q c) = []
  | [], _ => h.nil
  | (k, a) :: q, hq => by
    rw [dueFor_cons, h.append, Reads.none h c q (fun x hx => hq x (List.mem_cons_of_mem _ hx)), List.append_nil]
    split
    · exact hq _ (List.mem_cons_self ..)
    · exact h.nil

/-- Of what is passed on, a link gets what the callbacks of its own call were told. -/
theorem due_links {β : Type} {G : Nat → List Act → List β} (hG : ∀ j, Reads (G j)) {links : List Link}
    (hd : links.Pairwise fun l l' => ¬ (l.caller = l'.caller ∧ l.answer = l'.answer))
    (P : Link → Bool) (mk : Nat → Act) (v : List β) (hmk : ∀ i j, G j [mk i] = if i = j then v else []) (l : Link)
    (hl : l ∈ links) :
    G l.answer (dueAt ((links.filter P).map fun l => (l.caller, mk l.answer)) l.caller) = if P l then v else [] := by
  induction links with
  | nil => cases hl
  | cons l0 ls ih =>
    rw [List.pairwise_cons] at hd
    rcases List.mem_cons.mp hl with rfl | hm
    · have hnone : ∀ ls : List Link, (∀ l' ∈ ls, ¬ (l.caller = l'.caller ∧ l.answer = l'.answer)) →
          G l.answer (dueAt (ls.map fun l => (l.caller, mk l.answer)) l.caller) = [] := by
        intro ls
        induction ls with
        | nil => intro _; exact (hG _).nil
        | cons l' ls ih' =>
          intro hall
          rw [List.map_cons, dueFor_cons, (hG _).append, ih' (fun x hx => hall x (List.mem_cons_of_mem _ hx)), List.append_nil]
          have := hall l' (List.mem_cons_self ..)
          split
          · rename_i hc
            rw [hmk, if_neg (fun h => this ⟨hc, h.symm⟩)]
          · exact (hG _).nil
      have hn := hnone (ls.filter P) (fun l' hl' => hd.1 l' (List.mem_filter.mp hl').1)
      rw [List.filter_cons]
      split
      · rw [List.map_cons, dueFor_cons, (hG _).append, hn, if_pos rfl, hmk, if_pos rfl, List.append_nil]
      · exact hn
    · rw [List.filter_cons]
      split
      · rw [List.map_cons, dueFor_cons, (hG _).append, ih hd.2 hm]
        have : G l.answer (if l.caller = l0.caller then [mk l0.answer] else []) = [] := by
          split
          · rename_i hc
            rw [hmk, if_neg (fun h => hd.1 l hm ⟨hc.symm, h⟩)]
          · exact (hG _).nil
        rw [this]; rfl
      · exact ih hd.2 hm

/-- What a source was asked for is asked for on the call of its link. -/
theorem due_asked {links : List Link}
    (hd : links.Pairwise fun l l' => ∀ j, ¬ (l.target = l'.target ∧ l.call = some j ∧ l'.call = some j))
    (P : Link → Bool) (n : Int) (l : Link) (hl : l ∈ links) (j : Nat) (hj : l.call = some j) :
    requestsOn j (dueAt ((links.filter P).filterMap fun l => MeshSystem.asked l (.upRequest n)) l.target) =
      if P l then [n] else [] := by
  have one : ∀ (l' : Link), (∀ j', ¬ (l'.target = l.target ∧ l'.call = some j' ∧ l.call = some j')) →
      ∀ q, requestsOn j (dueAt ((MeshSystem.asked l' (.upRequest n)).toList ++ q) l.target) = requestsOn j (dueAt q l.target) := by
    intro l' h' q
    unfold MeshSystem.asked
    cases hc : l'.call with
    | none => rfl
    | some j' =>
      show requestsOn j (dueAt ((l'.target, .fluxCall j' (.request n)) :: q) l.target) = _
      rw [dueFor_cons, requestsOn_append]
      split
      · rename_i ht
        have : ¬ j' = j := by
          intro h
          subst h
          exact h' j' ⟨ht.symm, hc, hj⟩
        simp [requestsOn, this]
      · rfl
  have cons : ∀ (l' : Link) (ls : List Link), ((l' :: ls).filterMap fun l => MeshSystem.asked l (.upRequest n)) =
      (MeshSystem.asked l' (.upRequest n)).toList ++ ls.filterMap fun l => MeshSystem.asked l (.upRequest n) := by
    intro l' ls
    rw [List.filterMap_cons]
    cases MeshSystem.asked l' (.upRequest n) <;> rfl
  induction links with
  | nil => cases hl
  | cons l0 ls ih =>
    rw [List.pairwise_cons] at hd
    rcases List.mem_cons.mp hl with rfl | hm
    · have hnone : ∀ ls : List Link, (∀ l' ∈ ls, ∀ j, ¬ (l.target = l'.target ∧ l.call = some j ∧ l'.call = some j)) →
          requestsOn j (dueAt (ls.filterMap fun l => MeshSystem.asked l (.upRequest n)) l.target) = [] := by
        intro ls
        induction ls with
        | nil => intro _; rfl
        | cons l' ls ih' =>
          intro hall
          rw [cons, one l' (fun j' h => hall l' (List.mem_cons_self ..) j' ⟨h.1.symm, h.2.2, h.2.1⟩)]
          exact ih' (fun x hx => hall x (List.mem_cons_of_mem _ hx))
      have hn := hnone (ls.filter P) (fun l' hl' => hd.1 l' (List.mem_filter.mp hl').1)
      rw [List.filter_cons]
      split
      · rw [cons]
        simp only [MeshSystem.asked, hj, Option.map_some, Option.toList_some]
        show requestsOn j (dueAt ((l.target, .fluxCall j (.request n)) :: _) l.target) = _
        rw [dueFor_cons, requestsOn_append]
        have hn' : requestsOn j (dueAt ([] ++ (ls.filter P).filterMap fun l => MeshSystem.asked l (.upRequest n)) l.target) = [] := hn
        rw [if_pos rfl]
        refine Eq.trans (congrArg _ hn') ?_
        simp [requestsOn]
      · exact hn
    · rw [List.filter_cons]
      split
      · rw [cons, one l0 (fun j' h => hd.1 l hm j' ⟨h.1, h.2.1, h.2.2⟩)]
        exact ih hd.2 hm
      · exact ih hd.2 hm

theorem passedOn_cons (links : List Link) (k : Nat) (x : Handler.Ev H) (e : List (Handler.Ev H)) :
    MeshSystem.passedOn links k (x :: e) = MeshSystem.passedOn links k [x] ++ MeshSystem.passedOn links k e := by
  simp [MeshSystem.passedOn]

/-- What is passed on because of one thing that was observed. -/
theorem passedOn_one (links : List Link) (k : Nat) (x : Handler.Ev H) :
    (∃ j e sig, x = .mono j e ∧ MeshSystem.told e = some sig ∧ MeshSystem.passedOn links k [x] =
      (links.filter fun l => l.target == k && l.call == some j).map fun l => (l.caller, .answer l.answer sig)) ∨
    (∃ j e op, x = .flux j e ∧ MeshSystem.toldFlux e = some op ∧ MeshSystem.passedOn links k [x] =
      (links.filter fun l => l.target == k && l.call == some j).map fun l => (l.caller, .out l.answer op)) ∨
    (∃ j n, x = .src j (.upRequest n) ∧ MeshSystem.passedOn links k [x] =
      (links.filter fun l => l.caller == k && l.answer == j).filterMap fun l => MeshSystem.asked l (.upRequest n)) ∨
    (MeshSystem.passedOn links k [x] = [] ∧ (∀ j e, x = .mono j e → MeshSystem.told e = none) ∧
      (∀ j e, x = .flux j e → MeshSystem.toldFlux e = none) ∧ ∀ j n, x ≠ .src j (.upRequest n)) := by
  cases x with
  | mono j e =>
    cases he : MeshSystem.told e with
    | none =>
      refine .inr (.inr (.inr ⟨by simp [MeshSystem.passedOn, he], fun j' e' h => by cases h; exact he, fun _ _ h => (by cases h),
        fun _ _ h => (by cases h)⟩))
    | some sig => exact .inl ⟨j, e, sig, rfl, he, by simp [MeshSystem.passedOn, he]⟩
  | flux j e =>
    cases he : MeshSystem.toldFlux e with
    | none =>
      refine .inr (.inr (.inr ⟨by simp [MeshSystem.passedOn, he], fun _ _ h => (by cases h), fun j' e' h => by cases h; exact he,
        fun _ _ h => (by cases h)⟩))
    | some op => exact .inr (.inl ⟨j, e, op, rfl, he, by simp [MeshSystem.passedOn, he]⟩)
  | src j e =>
    cases e with
    | upRequest n => exact .inr (.inr (.inl ⟨j, n, rfl, by simp [MeshSystem.passedOn]⟩))
    | _ =>
      refine .inr (.inr (.inr ⟨?_, fun _ _ h => (by cases h), fun _ _ h => (by cases h), fun _ _ h => (by cases h)⟩))
      simp [MeshSystem.passedOn, MeshSystem.asked]
  | _ =>
    exact .inr (.inr (.inr ⟨rfl, fun _ _ h => (by cases h), fun _ _ h => (by cases h), fun _ _ h => (by cases h)⟩))

theorem toldFlux_next {e : Flux.Ev Pay} {op : SrcOp} (h : MeshSystem.toldFlux e = some op) :
    (∀ c, op ≠ .onSubscribe c) ∧ toldSig e = some (match op with
      | .next p => .element p | .complete => .complete | .error e => .error e | .onSubscribe _ => .complete) ∧
    ∀ i j, outSigs j [.out i op] = if i = j then (toldSig e).toList else [] := by
  cases e <;> cases h
  all_goals
    refine ⟨fun c h => (by cases h), rfl, fun i j => ?_⟩
    by_cases hij : i = j <;> simp [outSigs, srcSigs, toldSig, hij]

theorem toldFlux_none {e : Flux.Ev Pay} (h : MeshSystem.toldFlux e = none) : toldSig e = none := by
  cases e <;> first | rfl | cases h

theorem passedOn_passable (links : List Link) (k : Nat) : ∀ (e : List (Handler.Ev H)),
    ∀ y ∈ MeshSystem.passedOn links k e, passable y.2
  | [], y, hy => by cases hy
  | x :: e, y, hy => by
    rw [passedOn_cons] at hy
    rcases List.mem_append.mp hy with hy | hy
    · rcases passedOn_one links k x with ⟨j, ev, sig, rfl, h1, h2⟩ | ⟨j, ev, op, rfl, h1, h2⟩ | ⟨j, n, rfl, h2⟩ | ⟨h2, -⟩
      · rw [h2] at hy
        obtain ⟨l, -, rfl⟩ := List.mem_map.mp hy
        trivial
      · rw [h2] at hy
        obtain ⟨l, -, rfl⟩ := List.mem_map.mp hy
        exact (toldFlux_next h1).1
      · rw [h2] at hy
        obtain ⟨l, -, hl⟩ := List.mem_filterMap.mp hy
        unfold MeshSystem.asked at hl
        simp only [Option.map_eq_some_iff] at hl
        obtain ⟨j', -, rfl⟩ := hl
        trivial
      · rw [h2] at hy; cases hy
    · exact passedOn_passable links k e y hy

section
variable {links : List Link} (hd : links.Pairwise fun l l' => ¬ (l.caller = l'.caller ∧ l.answer = l'.answer)) (k : Nat)
  (l : Link) (hl : l ∈ links) (j : Nat) (hj : l.call = some j)
include hd hl hj

theorem passed_answers (e : List (Handler.Ev H)) : answerSigs l.answer (dueAt (MeshSystem.passedOn links k e) l.caller) =
    if l.target = k then (monoEvs j e).filterMap MeshSystem.told else [] := by
  induction e with
  | nil => simp [MeshSystem.passedOn, dueAt, answerSigs, monoEvs]
  | cons x e ih =>
    have hm : monoEvs j (x :: e) = monoEvs j [x] ++ monoEvs j e := monoEvs_append j [x] e
    rw [passedOn_cons, dueFor_append, answerSigs_append, ih, hm, List.filterMap_append]
    have key : answerSigs l.answer (dueAt (MeshSystem.passedOn links k [x]) l.caller) =
        if l.target = k then (monoEvs j [x]).filterMap MeshSystem.told else [] := by
      rcases passedOn_one links k x with ⟨j', ev, sig, rfl, h1, h2⟩ | ⟨j', ev, op, rfl, h1, h2⟩ | ⟨j', n, rfl, h2⟩ | ⟨h2, h3, -⟩
      · rw [h2, due_links (G := answerSigs) reads_answers hd _ (fun a => .answer a sig) [sig]
          (fun i j => by by_cases h : i = j <;> simp [answerSigs, h]) l hl, hj]
        by_cases ht : l.target = k
        · by_cases hi : j' = j
          · subst hi; simp [ht, monoEvs, h1]
          · have : ¬ j = j' := fun h => hi h.symm
            simp [ht, hi, this, monoEvs]
        · simp [ht]
      · rw [h2, (reads_answers _).none]
        · simp [monoEvs]
        · intro y hy; obtain ⟨l', -, rfl⟩ := List.mem_map.mp hy; rfl
      · rw [h2, (reads_answers _).none]
        · simp [monoEvs]
        · intro y hy
          obtain ⟨l', -, h⟩ := List.mem_filterMap.mp hy
          unfold MeshSystem.asked at h
          simp only [Option.map_eq_some_iff] at h
          obtain ⟨j'', -, rfl⟩ := h
          rfl
      · rw [h2]
        have : (monoEvs j [x]).filterMap MeshSystem.told = [] := by
          cases x with
          | mono i ev =>
            have := h3 i ev rfl
            simp only [monoEvs, List.filterMap_cons, List.filterMap_nil]
            by_cases hi : i = j <;> simp [hi, this]
          | _ => rfl
        rw [this]
        simp [dueAt, answerSigs]
    rw [key]
    split <;> rfl

theorem passed_outs (e : List (Handler.Ev H)) : outSigs l.answer (dueAt (MeshSystem.passedOn links k e) l.caller) =
    if l.target = k then (fluxEvs j e).filterMap toldSig else [] := by
  induction e with
  | nil => simp [MeshSystem.passedOn, dueAt, outSigs, fluxEvs]
  | cons x e ih =>
    have hm : fluxEvs j (x :: e) = fluxEvs j [x] ++ fluxEvs j e := fluxEvs_append j [x] e
    rw [passedOn_cons, dueFor_append, outSigs_append, ih, hm, List.filterMap_append]
    have key : outSigs l.answer (dueAt (MeshSystem.passedOn links k [x]) l.caller) =
        if l.target = k then (fluxEvs j [x]).filterMap toldSig else [] := by
      rcases passedOn_one links k x with ⟨j', ev, sig, rfl, h1, h2⟩ | ⟨j', ev, op, rfl, h1, h2⟩ | ⟨j', n, rfl, h2⟩ | ⟨h2, -, h3, -⟩
      · rw [h2, (reads_outs _).none]
        · simp [fluxEvs]
        · intro y hy; obtain ⟨l', -, rfl⟩ := List.mem_map.mp hy; rfl
      · obtain ⟨-, h4, h5⟩ := toldFlux_next h1
        rw [h2, due_links (G := outSigs) reads_outs hd _ (fun a => .out a op) (toldSig ev).toList h5 l hl, hj]
        by_cases ht : l.target = k
        · by_cases hi : j' = j
          · subst hi; simp [ht, fluxEvs, h4]
          · have : ¬ j = j' := fun h => hi h.symm
            simp [ht, hi, this, fluxEvs]
        · simp [ht]
      · rw [h2, (reads_outs _).none]
        · simp [fluxEvs]
        · intro y hy
          obtain ⟨l', -, h⟩ := List.mem_filterMap.mp hy
          unfold MeshSystem.asked at h
          simp only [Option.map_eq_some_iff] at h
          obtain ⟨j'', -, rfl⟩ := h
          rfl
      · rw [h2]
        have : (fluxEvs j [x]).filterMap toldSig = [] := by
          cases x with
          | flux i ev =>
            have := toldFlux_none (h3 i ev rfl)
            simp only [fluxEvs, List.filterMap_cons, List.filterMap_nil]
            by_cases hi : i = j <;> simp [hi, this]
          | _ => rfl
        rw [this]
        simp [dueAt, outSigs]
    rw [key]
    split <;> rfl

omit hd in
theorem passed_asks (hd : links.Pairwise fun l l' => ∀ j, ¬ (l.target = l'.target ∧ l.call = some j ∧ l'.call = some j))
    (e : List (Handler.Ev H)) : requestsOn j (dueAt (MeshSystem.passedOn links k e) l.target) =
    if l.caller = k then asks l.answer e else [] := by
  induction e with
  | nil => simp [MeshSystem.passedOn, dueAt, requestsOn, asks]
  | cons x e ih =>
    have hm : asks l.answer (x :: e) = asks l.answer [x] ++ asks l.answer e := asks_append _ [x] e
    rw [passedOn_cons, dueFor_append, requestsOn_append, ih, hm]
    have key : requestsOn j (dueAt (MeshSystem.passedOn links k [x]) l.target) =
        if l.caller = k then asks l.answer [x] else [] := by
      rcases passedOn_one links k x with ⟨j', ev, sig, rfl, h1, h2⟩ | ⟨j', ev, op, rfl, h1, h2⟩ | ⟨j', n, rfl, h2⟩ | ⟨h2, -, -, h3⟩
      · rw [h2, (reads_requests _).none]
        · simp [asks]
        · intro y hy; obtain ⟨l', -, rfl⟩ := List.mem_map.mp hy; rfl
      · rw [h2, (reads_requests _).none]
        · simp [asks]
        · intro y hy; obtain ⟨l', -, rfl⟩ := List.mem_map.mp hy; rfl
      · rw [h2, due_asked hd _ n l hl j hj]
        by_cases ht : l.caller = k
        · by_cases hi : j' = l.answer
          · simp [ht, asks, hi]
          · have : ¬ l.answer = j' := fun h => hi h.symm
            simp [ht, hi, this, asks]
        · simp [ht]
      · rw [h2]
        have : asks l.answer [x] = [] := by
          cases x with
          | src i ev =>
            cases ev with
            | upRequest n => exact absurd rfl (h3 i n)
            | _ => rfl
          | _ => rfl
        rw [this]
        simp [dueAt, requestsOn]
    rw [key]
    split <;> rfl

end

theorem not_linked {P : Link → Bool} (h : (!(s.links.any P)) = true) {l : Link} (hl : l ∈ s.links) : P l = false := by
  simp only [Bool.not_eq_true', List.any_eq_false] at h
  simpa using h l hl

/-- Something happens in a module that the mesh does not do: what the callbacks are told is to be passed on. -/
theorem meshRun_act (I : MeshRun dest host guest (fun _ _ => False) s []) {i : Nat} {m : Move} {x : Sys H}
    (hx : Wasm.stepSys .host (s.inst i) m = .ok x) (ha : MeshSystem.allowed dest s i m = true) :
    MeshRun dest host guest (fun _ _ => False) (s.set i x)
      (MeshSystem.passedOn s.links i (x.trA.drop (s.inst i).trA.length)) := by
  have hH' : HostAt (host i) x := by
    obtain ⟨ms, hms⟩ := I.reach i
    exact Props.hostAt (runSys_then hms hx)
  have hlen := sys_objs_grow hH' hx
  refine meshRun_step I hx ?_ (passedOn_passable _ _ _) fun la e h1 h2 => ⟨fun j hj => ?_, fun l hl j hj => ?_⟩
  · rintro t ret rfl hs
    simp only [MeshSystem.allowed, Option.isNone_iff_eq_none] at ha
    rw [ha] at hs; cases hs
  · obtain ⟨la', e', h3, h4, h5⟩ := stepSys_host' hx
    have : la' = la := List.append_cancel_left (h3.symm.trans h1)
    subst this
    rcases h5 with ⟨rfl, -, -⟩ | ⟨a, rfl, -, h6⟩
    · rfl
    · rcases h6 with ⟨rfl, -⟩ | ⟨f, r, fs, rfl, -⟩
      · cases a with
        | out j' op =>
          simp only [MeshSystem.allowed, Bool.and_eq_true, decide_eq_true_eq] at ha
          have : ¬ j' = j := by omega
          cases op <;> simp [isOnSub, this]
        | input j' op =>
          simp only [MeshSystem.allowed, Bool.and_eq_true, decide_eq_true_eq] at ha
          have : ¬ j' = j := by omega
          cases op <;> simp [isOnSub, this]
        | _ => rfl
      · rfl
  · obtain ⟨la', e', h3, h4, h5⟩ := stepSys_host' hx
    have : la' = la := List.append_cancel_left (h3.symm.trans h1)
    subst this
    have : e' = e := List.append_cancel_left (h4.symm.trans h2)
    subst this
    have hread : l.caller = i → answerSigs l.answer la' = [] ∧ outSigs l.answer la' = [] ∧
        la'.countP (isOnSub l.answer) = 0 := by
      intro hc
      rcases h5 with ⟨rfl, -, -⟩ | ⟨a, rfl, -, ⟨rfl, -⟩ | ⟨f, r, fs, rfl, -⟩⟩
      · exact ⟨rfl, rfl, rfl⟩
      · cases a with
        | answer j' sig =>
          have := not_linked ha hl
          have : ¬ j' = l.answer := fun h => by simp [hc, h] at this
          exact ⟨by simp [answerSigs, this], rfl, rfl⟩
        | out j' op =>
          simp only [MeshSystem.allowed, Bool.and_eq_true] at ha
          have := not_linked ha.2 hl
          have : ¬ j' = l.answer := fun h => by simp [hc, h] at this
          exact ⟨rfl, by simp [outSigs, this], by cases op <;> simp [isOnSub, this]⟩
        | input j' op =>
          simp only [MeshSystem.allowed, Bool.and_eq_true] at ha
          have := not_linked ha.2 hl
          have : ¬ j' = l.answer := fun h => by simp [hc, h] at this
          exact ⟨rfl, rfl, by cases op <;> simp [isOnSub, this]⟩
        | _ => exact ⟨rfl, rfl, rfl⟩
      · exact ⟨rfl, rfl, rfl⟩
    have hsub : l.target = i → meshSub (s.inst i).a j → Minded j x.a e' [] := by
      intro ht hs
      rcases h5 with ⟨-, rfl, h6⟩ | ⟨a, rfl, h6, h7⟩
      · exact Minded.none (by rw [h6]; exact hs) rfl
      · have hfits := hH'.fits
        rw [h1] at hfits
        have hreq : requestsOn j [a] = [] ∧ a ≠ .fluxCall j .cancel := by
          rcases h7 with ⟨rfl, -⟩ | ⟨f, r, fs, rfl, -⟩
          · cases a with
            | fluxCall j' c =>
              have := not_linked ha hl
              have : ¬ j' = j := fun h => by simp [ht, hj, h] at this
              refine ⟨by cases c <;> simp [requestsOn, this], fun h => ?_⟩
              cases h; exact this rfl
            | _ => exact ⟨rfl, fun h => by cases h⟩
          · exact ⟨rfl, fun h => by cases h⟩
        have := quiet_step (s' := x.a) hs (lastFits hfits) ?_ hreq.2 h6
        · rw [hreq.1] at this; exact this
        · rintro f r rfl hg
          rcases h7 with ⟨-, h7⟩ | ⟨f', r', fs, h7, rfl, hba⟩
          · cases h7
          · cases h7
            simp only [MeshSystem.allowed, Bool.or_eq_true, hba, List.head?_cons, Option.bind_some, hg, Option.any_some] at ha
            rcases ha with ha | ha
            · exact ha
            · have := not_linked ha hl
              simp [ht, hj] at this
    rw [h2, List.drop_left]
    refine ⟨?_, ?_, fun ht hs => ⟨(hsub ht hs).sub, (hsub ht hs).calm⟩, fun hs => ?_, fun hc => (hread hc).2.2⟩
    · rw [passed_answers I.distinct i l hl j hj]
      have : answerSigs l.answer (if l.caller = i then la' else []) = [] := by
        split
        · rename_i hc; exact (hread hc).1
        · rfl
      rw [this]; rfl
    · rw [passed_outs I.distinct i l hl j hj]
      have : outSigs l.answer (if l.caller = i then la' else []) = [] := by
        split
        · rename_i hc; exact (hread hc).2.1
        · rfl
      rw [this]; rfl
    · rw [passed_asks i l hl j hj I.calls]
      have : (if l.target = i then demands j e' else []) = [] := by
        split
        · rename_i ht; exact (hsub ht (hs ht)).asked
        · rfl
      rw [this]; rfl

/-- The next thing is passed on. -/
theorem meshRun_pass {c : Nat} {a : Act} (I : MeshRun dest host guest ex s ((c, a) :: q)) {x : Sys H}
    (hx : Wasm.stepSys .host (s.inst c) (.atA a) = .ok x) :
    MeshRun dest host guest ex (s.set c x) q := by
  have hp : passable a := I.queue _ (List.mem_cons_self ..)
  have hH : HostAt (host c) (s.inst c) := by
    obtain ⟨ms, hms⟩ := I.reach c
    exact Props.hostAt hms
  have hfr : System.isFrame a = false ∧ (∀ t ret, a ≠ .run t ret) ∧ (∀ j, isOnSub j a = false) ∧ ∀ j, a ≠ .fluxCall j .cancel := by
    cases a with
    | answer => exact ⟨rfl, fun _ _ h => (by cases h), fun _ => rfl, fun _ h => (by cases h)⟩
    | out j' op =>
      refine ⟨rfl, fun _ _ h => (by cases h), fun _ => ?_, fun _ h => (by cases h)⟩
      cases op with
      | onSubscribe c => exact absurd rfl (hp c)
      | _ => rfl
    | fluxCall j' cl =>
      cases cl with
      | request n => exact ⟨rfl, fun _ _ h => (by cases h), fun _ => rfl, fun _ h => (by cases h)⟩
      | cancel => exact hp.elim
    | _ => exact hp.elim
  have hstep : ∃ e, x.histA = (s.inst c).histA ++ [a] ∧ x.trA = (s.inst c).trA ++ e ∧
      Wasm.step .host (s.inst c).a a = .ok (x.a, e) := by
    simp only [Wasm.stepSys, hfr.1, Bool.false_eq_true, if_false, Wasm.moveA] at hx
    split at hx
    · rename_i st e he; cases hx; exact ⟨e, rfl, rfl, he⟩
    · cases hx
    · cases hx
  obtain ⟨e0, hl0, ht0, he⟩ := hstep
  have hcalm : Calm e0 := by
    cases a with
    | answer => exact dull_calm (dull_answer he)
    | out j' op =>
      obtain ⟨tr', h1, -⟩ := run_alike _ hH.run hH.fits
      exact calm_out (fun o ho => replyObj_history h1 ho) hp he
    | fluxCall j' cl =>
      cases cl with
      | request n => exact calm_request he
      | cancel => exact hp.elim
    | _ => exact hp.elim
  refine meshRun_step I hx (fun t ret h => by cases h; exact absurd rfl (hfr.2.1 t ret))
    (fun y hy => I.queue y (List.mem_cons_of_mem _ hy)) fun la e h1 h2 => ?_
  have e1 : la = [a] := List.append_cancel_left (h1.symm.trans hl0)
  have e2 : e = e0 := List.append_cancel_left (h2.symm.trans ht0)
  subst e1 e2
  have hon : ∀ j, [a].countP (isOnSub j) = 0 := by
    intro j; simp [hfr.2.2.1 j]
  refine ⟨fun j _ => hon j, fun l hl j hj => ?_⟩
  have hsub : meshSub (s.inst c).a j → Minded j x.a e (requestsOn j [a]) := by
    intro hs
    refine quiet_step hs ?_ ?_ (hfr.2.2.2 j) he
    · rintro f r rfl; cases hfr.1
    · rintro f r rfl; cases hfr.1
  refine ⟨?_, ?_, fun _ hs => ⟨(hsub hs).sub, (hsub hs).calm⟩, fun hs => ?_, fun _ => hon _⟩
  · rw [dueFor_cons, answerSigs_append, hcalm.mono]
    simp
  · rw [dueFor_cons, outSigs_append, hcalm.flux]
    simp
  · rw [dueFor_cons, requestsOn_append, hcalm.asks]
    have : (if l.target = c then demands j e else []) = requestsOn j (if l.target = c then [a] else []) := by
      split
      · rename_i ht; exact (hsub (hs ht)).asked
      · rfl
    rw [this]
    simp

theorem meshRun_passOn (q : List (Nat × Act)) : ∀ {s s' : MSys H}, MeshRun dest host guest ex s q →
    MeshSystem.passOn s q = .ok s' → MeshRun dest host guest ex s' [] := by
  induction q with
  | nil => intro s s' I h; cases h; exact I
  | cons y q ih =>
    obtain ⟨c, a⟩ := y
    intro s s' I h
    simp only [MeshSystem.passOn] at h
    obtain ⟨s1, h1, h⟩ := bind_ok_inv h
    obtain ⟨x, hx, rfl⟩ := stepIn_ok h1
    exact ih (meshRun_pass I hx) h

/-! ## A request is passed on -/

theorem callIds_from {reg : Registry H} {client : Bool} (as : List Act) : ∀ {st : St H} {tr : List (Handler.Ev H)},
    Handler.run reg client as = .ok (st, tr) → st.client = client ∧ ∀ b, callIds client 0 (as ++ b) =
      callIds client 0 as ++ callIds client st.streamIDs b := by
  induction as using snoc_induction with
  | nil => intro st tr h; cases h; exact ⟨rfl, fun b => rfl⟩
  | snoc as a ih =>
    intro st' tr h
    obtain ⟨st, t, e, h1, h2, rfl⟩ := run_snoc_inv _ _ _ _ _ _ h
    obtain ⟨h3, -, h4⟩ := counter_step (settle_shape _ _ _ _ h2)
    obtain ⟨h5, h6⟩ := ih h1
    refine ⟨h3.trans h5, fun b => ?_⟩
    rw [List.append_assoc, h6, h6 [a], h4, List.append_assoc]
    congr 1
    cases a with
    | call k p src => simp only [List.singleton_append, callIds, nextCounter, h5]
    | _ => simp only [List.singleton_append, callIds, nextCounter, List.nil_append]

theorem HostAt.calls {reg : Registry H} {x : Sys H} (h : HostAt reg x) (k : Kind) (p : Pay) (src : Src) (b : List Act)
    (hb : ∀ c, callIds false c b = []) :
    callIds false 0 (x.histA ++ .call k p src :: b) = callIds false 0 x.histA ++ [callId x.a] := by
  obtain ⟨tr', h1, -⟩ := run_alike _ h.run h.fits
  obtain ⟨h2, h3⟩ := callIds_from _ h1
  have h3 : ∀ b, callIds false 0 (x.histA ++ b) = callIds false 0 x.histA ++ callIds false x.a.streamIDs b := h3
  rw [h3]
  simp only [callIds, hb, callId]
  rw [show x.a.client = false from h2]

theorem HostAt.unborn' {reg : Registry H} {x : Sys H} (h : HostAt reg x) {j : Nat} (hj : x.a.objs.length ≤ j) :
    fluxEvs j x.trA = [] ∧ asks j x.trA = [] := by
  obtain ⟨tr', h1, h2⟩ := run_alike _ h.run h.fits
  rw [fluxEvs_alike h2, asks_alike h2]
  rcases k_history _ _ _ _ _ h1 j with ⟨-, q⟩ | ⟨o, q, -⟩
  · rw [← fluxEvs_evsOf, ← asks_evsOf, q]; exact ⟨rfl, rfl⟩
  · rw [List.getElem?_eq_none hj] at q; cases q

theorem HostAt.unborn {reg : Registry H} {x : Sys H} (h : HostAt reg x) {j : Nat} (hj : x.a.objs.length ≤ j) :
    monoEvs j x.trA = [] := by
  obtain ⟨tr', h1, h2⟩ := run_alike _ h.run h.fits
  rw [show monoEvs j x.trA = monoEvs j tr' from h2.filterMap _ (fun _ => rfl) (fun _ _ _ _ => rfl)]
  rcases k_history _ _ _ _ _ h1 j with ⟨-, q⟩ | ⟨o, q, -⟩
  · apply List.filterMap_eq_nil_iff.mpr
    intro e he
    cases e with
    | mono i ev =>
      dsimp only
      split
      · rename_i hi
        subst hi
        have : .mono i ev ∈ evsOf i tr' := List.mem_filter.mpr ⟨he, by simp [Handler.Ev.obj]⟩
        rw [q] at this; cases this
      · rfl
    | _ => rfl
  · rw [List.getElem?_eq_none hj] at q; cases q

/-- A served request has a stream. -/
theorem run_served {st st' : St H} {t : Nat} {ret : Ret} {k : Kind} {id n : UInt32} {data md : Bytes}
    {e : List (Handler.Ev H)} (ht : st.tasks[t]? = some (.request k id data md n)) (hk : k ≠ .rc)
    (hg : (exported st.reg k md).isSome = true) (h : Wasm.step .host st (.run t ret) = .ok (st', e)) :
    ∃ o, st'.objs = st.objs ++ [o] ∧ o.key = (false, id) ∧ (k = .rs → o = .responder .rs id none false none ∧
      st'.tasks[st'.tasks.length - 1]? = some (.subscribe st.objs.length ret.flux n)) := by
  simp only [Wasm.step] at h
  split at h
  · cases h
  rw [ht] at h
  dsimp only at h
  unfold Wasm.serve at h
  unfold exported namedOp at hg
  split at h
  · rename_i hm; rw [if_pos hm] at hg; cases hg
  · rename_i hm
    rw [if_neg hm] at hg
    obtain ⟨op, hop, h⟩ := bind_ok_inv h
    rw [hop] at hg
    dsimp only at hg
    split at h
    · rename_i hn; rw [hn] at hg; cases hg
    · dsimp only at h
      cases k with
      | rr =>
        dsimp only at h
        obtain ⟨es, he, h⟩ := bind_ok_inv h
        cases h
        exact ⟨_, rfl, rfl, fun h => (by cases h)⟩
      | fnf =>
        cases h
        exact ⟨_, rfl, rfl, fun h => (by cases h)⟩
      | rs =>
        cases h
        exact ⟨_, rfl, rfl, fun _ => ⟨rfl, by simp [addTasks, WasmRecv.registers]⟩⟩
      | rc => exact absurd rfl hk

theorem stepIn_hist {s s' : MSys H} {i : Nat} {a : Act} (ha : System.isFrame a = false)
    (h : MeshSystem.stepIn s i (.atA a) = .ok s') :
    s'.links = s.links ∧ (∀ k, (s'.inst k).histA = (s.inst k).histA ++ (if k = i then [a] else [])) ∧
    ∃ e, Wasm.step .host (s.inst i).a a = .ok ((s'.inst i).a, e) ∧ (s'.inst i).trA = (s.inst i).trA ++ e := by
  obtain ⟨x, hx, rfl⟩ := stepIn_ok h
  simp only [Wasm.stepSys, ha, Bool.false_eq_true, if_false, Wasm.moveA] at hx
  split at hx
  · rename_i st e he
    cases hx
    refine ⟨rfl, fun k => ?_, e, ?_, ?_⟩
    · by_cases hk : k = i
      · subst hk; rw [set_same, if_pos rfl]
      · rw [set_other _ _ hk, if_neg hk, List.append_nil]
    · rw [set_same]; exact he
    · rw [set_same]
  · cases hx
  · cases hx

theorem MeshRun.hostAt (I : MeshRun dest host guest ex s q) (k : Nat) : HostAt (host k) (s.inst k) := by
  obtain ⟨ms, h⟩ := I.reach k
  exact Props.hostAt h

theorem stepIn_other {s s' : MSys H} {i k : Nat} {m : Move} (h : MeshSystem.stepIn s i m = .ok s') (hk : k ≠ i) :
    s'.inst k = s.inst k := by
  obtain ⟨x, hx, rfl⟩ := stepIn_ok h
  exact set_other _ _ hk

/-- A step of a host that calls no callback and answers nothing. -/
theorem meshRun_hush (I : MeshRun dest host guest ex s []) {s' : MSys H} {i : Nat} {a : Act}
    (ha : System.isFrame a = false) (h : MeshSystem.stepIn s i (.atA a) = .ok s')
    (hrun : ∀ t ret, a = .run t ret → (MeshSystem.taskDest dest (s.inst i).a t).isSome = true → ex i (s.inst i).histA)
    (hread : (∀ j, answerSigs j [a] = []) ∧ (∀ j, outSigs j [a] = []) ∧ ∀ j c, a ≠ .fluxCall j c)
    (hon : ∀ j, isOnSub j a = true → j < (s.inst i).a.objs.length ∧ ∀ l ∈ s.links, l.caller = i → l.answer ≠ j)
    (hush : ∀ st e, Wasm.step .host (s.inst i).a a = .ok (st, e) → ∀ x ∈ e, dull x) :
    MeshRun dest host guest ex s' [] := by
  obtain ⟨-, h1, e, h2, h3⟩ := stepIn_hist ha h
  obtain ⟨x, hx, rfl⟩ := stepIn_ok h
  rw [set_same] at h2 h3
  have hH' : HostAt (host i) x := by
    obtain ⟨ms, hms⟩ := I.reach i
    exact Props.hostAt (runSys_then hms hx)
  have hlen := sys_objs_grow hH' hx
  refine meshRun_step I hx (fun t ret h => hrun t ret (by cases h; rfl)) (fun y hy => by cases hy) fun la e' q1 q2 => ?_
  have e1 : e' = e := List.append_cancel_left (q2.symm.trans h3)
  have q3 := h1 i
  rw [set_same, if_pos rfl] at q3
  have e2 : la = [a] := List.append_cancel_left (q1.symm.trans q3)
  subst e1 e2
  have hd := hush _ _ h2
  have hcalm := dull_calm hd
  have count : ∀ j, isOnSub j a = false → [a].countP (isOnSub j) = 0 := fun j hj => by simp [hj]
  refine ⟨fun j hj => count j ?_, fun l hl j hj => ?_⟩
  · cases hb : isOnSub j a with
    | false => rfl
    | true => have := (hon j hb).1; omega
  · have hreq : requestsOn j [a] = [] := by
      cases a with
      | fluxCall j' c => exact absurd rfl (hread.2.2 j' c)
      | _ => rfl
    have hsub : meshSub (s.inst i).a j → Minded j x.a e' [] := by
      intro hs
      have := quiet_step (j := j) hs (s' := x.a) (e := e') (a := a) ?_ ?_ (hread.2.2 j _) h2
      · rw [hreq] at this; exact this
      · rintro f r rfl; cases ha
      · rintro f r rfl; cases ha
    have hb : ∀ c : Prop, [Decidable c] → ∀ {β : Type} {G : List Act → List β}, Reads G → G [a] = [] →
        G (if c then [a] else []) = [] := by
      intro c _ β G hG hn
      split
      · exact hn
      · exact hG.nil
    refine ⟨?_, ?_, fun _ hs => ⟨(hsub hs).sub, (hsub hs).calm⟩, fun hs => ?_, fun hc => count _ ?_⟩
    · rw [hb _ (reads_answers _) (hread.1 _), hcalm.mono]; simp
    · rw [hb _ (reads_outs _) (hread.2.1 _), hcalm.flux]; simp
    · rw [hcalm.asks]
      have : (if l.target = i then demands j e' else []) = [] := by
        split
        · rename_i ht; exact (hsub (hs ht)).asked
        · rfl
      rw [this]
      simp
    · cases hb : isOnSub l.answer a with
      | false => rfl
      | true => exact absurd rfl ((hon _ hb).2 l hl hc)

theorem stepIn_grow {s' : MSys H} (I' : MeshRun dest host guest ex s' q') {i : Nat} {m : Move}
    (h : MeshSystem.stepIn s i m = .ok s') (k : Nat) : (s.inst k).a.objs.length ≤ (s'.inst k).a.objs.length := by
  have hH := I'.hostAt k
  obtain ⟨x, hx, rfl⟩ := stepIn_ok h
  by_cases hk : k = i
  · subst hk
    rw [set_same] at hH ⊢
    exact sys_objs_grow hH hx
  · rw [set_other _ _ hk]; exact Nat.le_refl _

theorem stepIn_kept {s' : MSys H} (I' : MeshRun dest host guest ex s' q')
    {i : Nat} {m : Move} (h : MeshSystem.stepIn s i m = .ok s') (k j : Nat) (o : Obj)
    (ho : (s.inst k).a.objs[j]? = some o) : ∃ o', (s'.inst k).a.objs[j]? = some o' ∧ o'.key = o.key := by
  have hH := I'.hostAt k
  obtain ⟨x, hx, rfl⟩ := stepIn_ok h
  by_cases hk : k = i
  · subst hk
    rw [set_same] at hH ⊢
    exact sys_obj_kept hH hx j o ho
  · rw [set_other _ _ hk]; exact ⟨o, ho, rfl⟩

/-- The link of a request that was passed on is noted. -/
theorem meshRun_link (I0 : MeshRun dest host guest (fun _ _ => False) s [])
    {s3 : MSys H} {i : Nat} (I3 : MeshRun dest host guest (fun c as1 => c = i ∧ as1 = (s.inst i).histA) s3 [])
    (hl : s3.links = s.links) {t : Nat} {ret : Ret} {rest : List Act}
    (hh : (s3.inst i).histA = (s.inst i).histA ++ .run t ret :: rest)
    {k : Kind} {id n : UInt32} {data md : Bytes} (ht : (s.inst i).a.tasks[t]? = some (.request k id data md n))
    {d : Mesh.Dest} (hk : k ≠ .rc) (hd : (exported (host i) k md).bind dest = some d) (l : Link)
    (hnew : ∀ j, l.call = some j → (s.inst d.inst).a.objs.length ≤ j ∧ j < (s3.inst d.inst).a.objs.length)
    (hkey : ∃ o, (s3.inst i).a.objs[l.answer]? = some o ∧ o.key = (false, id))
    (hids : ((s.links.filter fun l => l.target == d.inst).map (·.id) ++ [l.id]).Sublist
      (callIds false 0 (s3.inst d.inst).histA))
    (hlink : LinkFor host guest { s3 with links := s3.links ++ [l] } [] i
      ⟨(s.inst i).histA, rest, t, ret, (s.inst i).a, (s.inst i).trA, k, id, data, md, n⟩ d l) :
    MeshRun dest host guest (fun _ _ => False) { s3 with links := s3.links ++ [l] } [] := by
  have more : ∀ {c r d l'}, LinkFor host guest s3 [] c r d l' →
      LinkFor host guest { s3 with links := s3.links ++ [l] } [] c r d l' := by
    intro c r d l' h
    refine ⟨List.mem_append_left _ h.mem, h.caller, h.request, h.answer, h.target, h.created, h.rr, h.fnf, fun hk => ?_⟩
    obtain ⟨pre, s0, mid, post, q1, q2, q3, q4⟩ := h.rs hk
    exact ⟨pre, s0, mid, post, q1, q2, q3, q4.out, q4.opened, q4.calm, q4.sub, q4.dem, q4.once⟩
  have hran : RunRec.on ⟨(s.inst i).histA, rest, t, ret, (s.inst i).a, (s.inst i).trA, k, id, data, md, n⟩ (host i)
      (s3.inst i).histA := ⟨hh, (I0.hostAt i).run, ht⟩
  refine ⟨I3.reach, ?_, ?_, ?_, ?_, ?_, I3.fresh, I3.queue, ?_, ?_⟩
  · intro l' hl'
    rcases List.mem_append.mp hl' with hl' | hl'
    · exact I3.keys l' hl'
    · cases List.mem_singleton.mp hl'
      rw [hlink.caller, hlink.request]
      exact hkey
  · show (s3.links ++ [l]).Pairwise _
    rw [List.pairwise_append]
    refine ⟨I3.distinct, List.pairwise_singleton _ _, ?_⟩
    intro l' hl' l'' hl''
    cases List.mem_singleton.mp hl''
    rintro ⟨h1, h2⟩
    obtain ⟨o, h3, -⟩ := I0.keys l' (by rw [← hl]; exact hl')
    have h4 := (List.getElem?_eq_some_iff.mp h3).1
    rw [h1, h2, hlink.caller, hlink.answer] at h4
    exact absurd h4 (Nat.lt_irrefl _)
  · intro c
    show (((s3.links ++ [l]).filter _).map _).Sublist _
    rw [List.filter_append, List.map_append]
    by_cases hc : c = d.inst
    · subst hc
      rw [hl]
      have : [l].filter (fun l => l.target == d.inst) = [l] := by simp [hlink.target]
      rw [this]
      exact hids
    · have : [l].filter (fun l => l.target == c) = [] := by
        have : ¬ d.inst = c := fun h => hc h.symm
        simp [hlink.target, this]
      rw [this, List.map_nil, List.append_nil]
      exact I3.ids c
  · intro l' hl' j hj
    rcases List.mem_append.mp hl' with hl' | hl'
    · exact I3.born l' hl' j hj
    · cases List.mem_singleton.mp hl'
      rw [hlink.target]
      exact (hnew j hj).2
  · show (s3.links ++ [l]).Pairwise _
    rw [List.pairwise_append]
    refine ⟨I3.calls, List.pairwise_singleton _ _, ?_⟩
    intro l' hl' l'' hl'' j
    cases List.mem_singleton.mp hl''
    rintro ⟨h1, h2, h3⟩
    have h4 := I0.born l' (by rw [← hl]; exact hl') j h2
    have h5 := (hnew j h3).1
    rw [h1, hlink.target] at h4
    omega
  · intro c r d' hr hd' _
    by_cases hex : c = i ∧ r.as1 = (s.inst i).histA
    · obtain ⟨rfl, h1⟩ := hex
      have hs := hr.split
      rw [hh, h1] at hs
      have hs := List.append_cancel_left hs
      simp only [List.cons.injEq, Act.run.injEq] at hs
      obtain ⟨⟨h2, h3⟩, h4⟩ := hs
      have hb := hr.before
      rw [h1, (I0.hostAt c).run] at hb
      have hb := Prod.mk.inj (Go.ok.inj hb)
      have htask := hr.task
      rw [← hb.1, ← h2, ht] at htask
      simp only [Option.some.injEq, Task.request.injEq] at htask
      obtain ⟨h5, h6, h7, h8, h9⟩ := htask
      have : r = ⟨(s.inst c).histA, rest, t, ret, (s.inst c).a, (s.inst c).trA, k, id, data, md, n⟩ := by
        obtain ⟨a1, a2, a3, a4, a5, a6, a7, a8, a9, a10, a11⟩ := r
        simp only at h1 h2 h3 h4 h5 h6 h7 h8 h9 hb
        obtain ⟨hb1, hb2⟩ := hb
        subst h1 h2 h3 h4 h5 h6 h7 h8 h9 hb1 hb2
        rfl
      subst this
      have := hd'.dest
      simp only at this
      rw [hd] at this
      cases this
      exact ⟨l, hlink⟩
    · obtain ⟨l', hl'⟩ := I3.all c r d' hr hd' hex
      exact ⟨l', more hl'⟩
  · intro l' hl'
    rcases List.mem_append.mp hl' with hl' | hl'
    · obtain ⟨r, d', q1, q2, q3⟩ := I3.each l' hl'
      exact ⟨r, d', q1, q2, more q3⟩
    · cases List.mem_singleton.mp hl'
      refine ⟨⟨(s.inst i).histA, rest, t, ret, (s.inst i).a, (s.inst i).trA, k, id, data, md, n⟩, d, ?_, ⟨?_, ?_⟩, ?_⟩
      · rw [hlink.caller]; exact hran
      · exact hk
      · rw [hlink.caller]; exact hd
      · rw [hlink.caller]; exact hlink

theorem MeshRun.weaken (I : MeshRun dest host guest (fun _ _ => False) s q) : MeshRun dest host guest ex s q :=
  ⟨I.reach, I.keys, I.distinct, I.ids, I.born, I.calls, I.fresh, I.queue,
    fun i r d h1 h2 _ => I.all i r d h1 h2 (fun h => h), I.each⟩

theorem putIndex_ok {reg : Registry H} {k : Kind} {md : Bytes} {d : Mesh.Dest}
    (h : (exported reg k md).bind dest = some d) (n : UInt32) :
    Mesh.putIndex n (some md) = .ok (some (be32 n ++ md.drop 4)) := by
  have : ¬ md.length < 4 := by
    intro hm
    unfold exported at h
    rw [if_pos (by omega)] at h
    cases h
  simp only [Mesh.putIndex, if_neg this]

/-- The host runs the request. -/
theorem forward_run (I : MeshRun dest host guest (fun _ _ => False) s []) {i t : Nat} {s1 : MSys H} {k : Kind}
    {id n : UInt32} {data md : Bytes} {d : Mesh.Dest} (ht : (s.inst i).a.tasks[t]? = some (.request k id data md n))
    (hk : k ≠ .rc) (hd : (exported (host i) k md).bind dest = some d) {ret : Ret}
    (h : MeshSystem.stepIn s i (.atA (.run t ret)) = .ok s1) :
    MeshRun dest host guest (fun c as1 => c = i ∧ as1 = (s.inst i).histA) s1 [] ∧
    ∃ o, (s1.inst i).a.objs[(s.inst i).a.objs.length]? = some o ∧ o.key = (false, id) ∧
      (s1.inst i).a.objs.length = (s.inst i).a.objs.length + 1 ∧
      (k = .rs → o = .responder .rs id none false none ∧
      (s1.inst i).a.tasks[(s1.inst i).a.tasks.length - 1]? = some (.subscribe (s.inst i).a.objs.length ret.flux n)) := by
  refine ⟨meshRun_hush I.weaken rfl h (fun _ _ _ _ => ⟨rfl, rfl⟩) ⟨fun _ => rfl, fun _ => rfl, fun _ _ h => by cases h⟩
    (fun _ h => by cases h) (fun st e he => dull_run ht he), ?_⟩
  obtain ⟨-, -, e, h1, -⟩ := stepIn_hist rfl h
  have hg : (exported (s.inst i).a.reg k md).isSome = true := by
    rw [(I.hostAt i).reg]
    cases he : exported (host i) k md with
    | none => rw [he] at hd; cases hd
    | some x => rfl
  obtain ⟨o, h2, h3, h4⟩ := run_served ht hk hg h1
  exact ⟨o, by rw [h2]; simp, h3, by rw [h2]; simp, h4⟩

theorem meshRun_forward_rs (I : MeshRun dest host guest (fun _ _ => False) s []) {i t : Nat} {s' : MSys H}
    {id n : UInt32} {data md : Bytes} {d : Mesh.Dest} (hts : (s.inst i).a.tasks[t]? = some (.request .rs id data md n))
    (hdest : (exported (host i) .rs md).bind dest = some d)
    (h : (do
      let s1 ← MeshSystem.stepIn s i (.atA (.run t ⟨.created, .created, false⟩))
      let h := (s1.inst d.inst).a
      let s2 ← MeshSystem.stepIn s1 d.inst (.atA (.call .rs ⟨data, be32 d.index ++ md.drop 4⟩ .created))
      let s3 ← MeshSystem.stepIn s2 i (.atA (.run ((s2.inst i).a.tasks.length - 1) ⟨.created, .created, false⟩))
      let s4 ← MeshSystem.stepIn s3 i (.atA (.out (s.inst i).a.objs.length (.onSubscribe true)))
      let s5 ← MeshSystem.stepIn s4 d.inst (.atA (.subscribeFlux h.objs.length replyInst []))
      .ok { s5 with links := s5.links ++
        [⟨i, id, (s.inst i).a.objs.length, d.inst, (nextID h.client h.streamIDs).2, some h.objs.length⟩] } : Go (MSys H)) = .ok s') :
    MeshRun dest host guest (fun _ _ => False) s' [] := by
  obtain ⟨s1, h1, h⟩ := bind_ok_inv h
  obtain ⟨s2, h2, h⟩ := bind_ok_inv h
  obtain ⟨s3, h3, h⟩ := bind_ok_inv h
  obtain ⟨s4, h4, h⟩ := bind_ok_inv h
  obtain ⟨s5, h5, h⟩ := bind_ok_inv h
  cases h
  obtain ⟨I1, o, ho, hkey, hlen1, hrs⟩ := forward_run I hts (fun h => by cases h) hdest h1
  obtain ⟨rfl, htask1⟩ := hrs rfl
  obtain ⟨l1, t1, e1, w1, r1⟩ := stepIn_hist rfl h1
  obtain ⟨l2, t2, e2, w2, r2⟩ := stepIn_hist rfl h2
  obtain ⟨l3, t3, e3, w3, r3⟩ := stepIn_hist rfl h3
  obtain ⟨l4, t4, e4, w4, r4⟩ := stepIn_hist rfl h4
  obtain ⟨l5, t5, e5, w5, r5⟩ := stepIn_hist rfl h5
  have I2 := meshRun_hush I1 rfl h2 (fun _ _ h => by cases h)
    ⟨fun _ => rfl, fun _ => rfl, fun _ _ h => by cases h⟩ (fun _ h => by cases h) (fun st e he => dull_call he)
  -- the stream that answers, and what its goroutine does next
  have htask2 : (s2.inst i).a.tasks[(s2.inst i).a.tasks.length - 1]? =
      some (.subscribe (s.inst i).a.objs.length .created n) := by
    by_cases hi : i = d.inst
    · subst hi; rw [(call_keeps w2).1]; exact htask1
    · rw [stepIn_other h2 hi]; exact htask1
  have ho2 : (s2.inst i).a.objs[(s.inst i).a.objs.length]? = some (.responder .rs id none false none) := by
    by_cases hi : i = d.inst
    · subst hi; exact (call_keeps w2).2 _ _ ho
    · rw [stepIn_other h2 hi]; exact ho
  obtain ⟨z3, o3⟩ := run_subscribe htask2 ho2 w3
  have hl2 : (s.inst i).a.objs.length < (s2.inst i).a.objs.length := (List.getElem?_eq_some_iff.mp ho2).1
  have ho3 : (s3.inst i).a.objs[(s.inst i).a.objs.length]? =
      some (.responder .rs id (some (.created, .init replyInst [])) false none) := by
    rw [o3, List.getElem?_set_self hl2]
  obtain ⟨z4, o4⟩ := out_onSubscribe ho3 w4
  subst z3 z4
  have I3 := meshRun_hush I2 rfl h3 (fun t' ret' h hs => by
      cases h
      unfold MeshSystem.taskDest at hs
      rw [htask2] at hs
      cases hs) ⟨fun _ => rfl, fun _ => rfl, fun _ _ h => by cases h⟩ (fun _ h => by cases h)
    (fun st e he => by rw [w3] at he; cases he; intro x hx; cases hx)
  have I4 := meshRun_hush I3 rfl h4 (fun _ _ h => by cases h)
    ⟨fun _ => rfl, fun j => by simp [outSigs, srcSigs], fun _ _ h => by cases h⟩ (fun j hj => by
      have hj : (s.inst i).a.objs.length = j := by simpa [isOnSub] using hj
      subst hj
      refine ⟨(List.getElem?_eq_some_iff.mp ho3).1, fun l hl hc hans => ?_⟩
      obtain ⟨o, h6, -⟩ := I.keys l (by rw [← l1, ← l2, ← l3]; exact hl)
      have := (List.getElem?_eq_some_iff.mp h6).1
      rw [hc, hans] at this
      omega)
    (fun st e he => by rw [w4] at he; cases he; intro x hx; cases hx)
  -- the call
  have hnew : (s2.inst d.inst).a.objs[(s1.inst d.inst).a.objs.length]? =
      some (.flux ⟨typeRequestStream, callId (s1.inst d.inst).a, be32 d.index ++ md.drop 4, data, false, false, requestMax⟩
        true false none none) := by
    simp only [Wasm.step, Handler.step] at w2
    have := (Prod.mk.inj (Go.ok.inj w2)).1
    rw [← this]
    show (_ ++ _)[_]? = _
    rw [List.getElem?_append_right (Nat.le_refl _), Nat.sub_self]
    rfl
  have hnew4 : (s4.inst d.inst).a.objs[(s1.inst d.inst).a.objs.length]? =
      some (.flux ⟨typeRequestStream, callId (s1.inst d.inst).a, be32 d.index ++ md.drop 4, data, false, false, requestMax⟩
        true false none none) := by
    by_cases hi : d.inst = i
    · subst hi
      rw [o4 _ (by omega), o3, List.getElem?_set_ne (by omega)]
      exact hnew
    · rw [stepIn_other h4 hi, stepIn_other h3 hi]; exact hnew
  obtain ⟨hdull5, hsub5⟩ := dull_subscribeFlux hnew4 w5
  have I5 := meshRun_hush I4 rfl h5 (fun _ _ h => by cases h)
    ⟨fun _ => rfl, fun _ => rfl, fun _ _ h => by cases h⟩ (fun _ h => by cases h)
    (fun st e he => by rw [w5] at he; cases he; exact hdull5)
  have ld : (s1.inst d.inst).a.objs.length < (s5.inst d.inst).a.objs.length := by
    have := stepIn_grow I5 h5 d.inst
    have := (List.getElem?_eq_some_iff.mp hnew4).1
    omega
  refine meshRun_link (ret := ⟨.created, .created, false⟩) (rest :=
      (if i = d.inst then [.call .rs ⟨data, be32 d.index ++ md.drop 4⟩ .created] else []) ++
      .run ((s2.inst i).a.tasks.length - 1) ⟨.created, .created, false⟩ ::
      .out (s.inst i).a.objs.length (.onSubscribe true) ::
      (if i = d.inst then [.subscribeFlux (s1.inst d.inst).a.objs.length replyInst []] else []))
    I I5 (l5.trans (l4.trans (l3.trans (l2.trans l1)))) ?_ hts (fun h => by cases h) hdest _ ?_ ?_ ?_ ?_
  · rw [t5, t4, t3, t2, t1, if_pos rfl]
    split <;> simp
  · intro j hj
    cases hj
    exact ⟨stepIn_grow I1 h1 _, ld⟩
  · obtain ⟨o2', q1, q2⟩ := stepIn_kept I2 h2 _ _ _ ho
    obtain ⟨o3', q3, q4⟩ := stepIn_kept I3 h3 _ _ _ q1
    obtain ⟨o4', q5, q6⟩ := stepIn_kept I4 h4 _ _ _ q3
    obtain ⟨o5', q7, q8⟩ := stepIn_kept I5 h5 _ _ _ q5
    exact ⟨o5', q7, q8.trans (q6.trans (q4.trans (q2.trans hkey)))⟩
  · rw [t5, t4, t3, t2, if_pos rfl, if_pos rfl]
    have : (s1.inst d.inst).histA ++ [.call .rs ⟨data, be32 d.index ++ md.drop 4⟩ .created] ++
        (if d.inst = i then [.run ((s2.inst i).a.tasks.length - 1) ⟨.created, .created, false⟩] else []) ++
        (if d.inst = i then [.out (s.inst i).a.objs.length (.onSubscribe true)] else []) ++
        [.subscribeFlux (s1.inst d.inst).a.objs.length replyInst []] =
        (s1.inst d.inst).histA ++ .call .rs ⟨data, be32 d.index ++ md.drop 4⟩ .created ::
        ((if d.inst = i then [.run ((s2.inst i).a.tasks.length - 1) ⟨.created, .created, false⟩,
          .out (s.inst i).a.objs.length (.onSubscribe true)] else []) ++
        [.subscribeFlux (s1.inst d.inst).a.objs.length replyInst []]) := by
      split <;> simp
    rw [this, (I1.hostAt d.inst).calls _ _ _ _ (fun c => by split <;> rfl)]
    refine List.Sublist.append ?_ (List.Sublist.refl _)
    have := I1.ids d.inst
    rwa [l1] at this
  · refine ⟨List.mem_append_right _ (List.mem_singleton.mpr rfl), rfl, rfl, rfl, rfl, rfl, fun hk => (by cases hk),
      fun hk => (by cases hk), fun _ => ?_⟩
    obtain ⟨ms, hms⟩ := I1.reach d.inst
    -- what was seen so far
    have hflux : fluxEvs (s1.inst d.inst).a.objs.length (s5.inst d.inst).trA = [] := by
      have e4 : (s4.inst d.inst).trA = (s2.inst d.inst).trA := by
        by_cases hi : d.inst = i
        · subst hi; rw [r4, r3, List.append_nil, List.append_nil]
        · rw [stepIn_other h4 hi, stepIn_other h3 hi]
      rw [r5, e4, r2, fluxEvs_append, fluxEvs_append, ((I1.hostAt d.inst).unborn' (Nat.le_refl _)).1,
        (dull_evs (dull_call w2) _).2.1, (dull_evs hdull5 _).2.1]
      rfl
    have hasks : asks (s.inst i).a.objs.length (s5.inst i).trA = [] := by
      have b1 : asks (s.inst i).a.objs.length (s1.inst i).trA = [] := by
        rw [r1, asks_append, ((I.hostAt i).unborn' (Nat.le_refl _)).2, (dull_evs (dull_run hts w1) _).2.2]; rfl
      have b2 : asks (s.inst i).a.objs.length (s2.inst i).trA = [] := by
        by_cases hi : i = d.inst
        · subst hi; rw [r2, asks_append, b1, (dull_evs (dull_call w2) _).2.2]; rfl
        · rw [stepIn_other h2 hi]; exact b1
      have b4 : asks (s.inst i).a.objs.length (s4.inst i).trA = [] := by
        rw [r4, r3, List.append_nil, List.append_nil]; exact b2
      by_cases hi : i = d.inst
      · subst hi; rw [r5, asks_append, b4, (dull_evs hdull5 _).2.2]; rfl
      · rw [stepIn_other h5 hi]; exact b4
    have hcount : (s5.inst i).histA.countP (isOnSub (s.inst i).a.objs.length) ≤ 1 := by
      rw [t5, t4, t3, t2, t1, if_pos rfl, if_pos rfl, if_pos rfl]
      simp only [List.countP_append, I.fresh i _ (Nat.le_refl _)]
      split <;> simp [isOnSub]
    refine ⟨ms, s1.inst d.inst, if i = d.inst then
        [.atA (.run ((s2.inst i).a.tasks.length - 1) ⟨.created, .created, false⟩),
          .atA (.out (s.inst i).a.objs.length (.onSubscribe true))] else [], [], ⟨.inl rfl, hms, ?_, ?_⟩, rfl, rfl,
      ⟨if i = d.inst then [.call .rs ⟨data, be32 d.index ++ md.drop 4⟩ .created] else [],
        .out (s.inst i).a.objs.length (.onSubscribe true) ::
        (if i = d.inst then [.subscribeFlux (s1.inst d.inst).a.objs.length replyInst []] else []),
        (s2.inst i).a.tasks.length - 1, ⟨.created, .created, false⟩, (s2.inst i).a, (s2.inst i).trA, n, rfl, ?_, htask2, ?_, _, rfl⟩,
      ⟨(s4.inst d.inst).histA, [], _, _, _, by rw [t5, if_pos rfl], (I4.hostAt d.inst).run, hnew4⟩, ?_, hsub5, ?_, hcount⟩
    · intro inst start hm
      split at hm
      · simp at hm
      · cases hm
    · obtain ⟨x2, q2, e2⟩ := stepIn_ok h2
      obtain ⟨x3, q3, e3⟩ := stepIn_ok h3
      obtain ⟨x4, q4, e4⟩ := stepIn_ok h4
      obtain ⟨x5, q5, e5⟩ := stepIn_ok h5
      have f5 : s5.inst d.inst = x5 := by rw [e5, set_same]
      have f2 : s2.inst d.inst = x2 := by rw [e2, set_same]
      show Wasm.runSys .host _ _ _ = .ok (s5.inst d.inst)
      rw [f5]
      have b2 := runSys_then hms q2
      by_cases hi : i = d.inst
      · subst hi
        simp only [if_true]
        have f3 : s3.inst d.inst = x3 := by rw [e3, set_same]
        have f4 : s4.inst d.inst = x4 := by rw [e4, set_same]
        rw [f2] at q3
        rw [f3] at q4
        rw [f4] at q5
        have b3 := runSys_then b2 q3
        rw [← f2] at b3
        have b4 := runSys_then b3 q4
        have b5 := runSys_then b4 q5
        simp only [List.append_assoc, List.cons_append, List.nil_append] at b5 ⊢
        exact b5
      · have hi' : d.inst ≠ i := fun h => hi h.symm
        rw [stepIn_other h4 hi', stepIn_other h3 hi', f2] at q5
        have b5 := runSys_then b2 q5
        simp only [if_neg hi, List.append_assoc, List.cons_append, List.nil_append] at b5 ⊢
        exact b5
    · have hb := (I2.hostAt i).run
      rw [t2, t1, if_pos rfl] at hb
      simpa using hb
    · show outSigs (s.inst i).a.objs.length _ ++ outSigs _ (dueAt [] _) = _
      rw [hflux]
      split <;> simp [outSigs, srcSigs, dueAt]
    · rw [hflux]; simp
    · show demands _ (s5.inst d.inst).trA ++ requestsOn _ (dueAt [] _) = asks (s.inst i).a.objs.length (s5.inst i).trA
      rw [hasks, demands_fluxEvs, hflux]
      rfl

theorem meshRun_forward (I : MeshRun dest host guest (fun _ _ => False) s []) {i t : Nat} {s' : MSys H}
    (h : MeshSystem.forward dest s i t = .ok s') : MeshRun dest host guest (fun _ _ => False) s' [] := by
  unfold MeshSystem.forward at h
  split at h
  · rename_i k id data md n d hts hd
    have hdest : (exported (host i) k md).bind dest = some d := by
      unfold MeshSystem.taskDest at hd
      rw [hts] at hd
      simp only at hd
      rwa [destOf_eq, (I.hostAt i).reg] at hd
    cases k with
    | rr =>
      simp only [putIndex_ok hdest, Go.bind_ok, Option.getD_some] at h
      obtain ⟨s1, h1, h⟩ := bind_ok_inv h
      obtain ⟨s2, h2, h⟩ := bind_ok_inv h
      obtain ⟨s3, h3, h⟩ := bind_ok_inv h
      cases h
      obtain ⟨I1, o, ho, hkey, -, -⟩ := forward_run I hts (fun h => by cases h) hdest h1
      have I2 := meshRun_hush I1 rfl h2 (fun _ _ h => by cases h)
        ⟨fun _ => rfl, fun _ => rfl, fun _ _ h => by cases h⟩ (fun _ h => by cases h) (fun st e he => dull_call he)
      obtain ⟨l1, t1, e1, w1, -⟩ := stepIn_hist rfl h1
      obtain ⟨l2, t2, e2, w2, r2⟩ := stepIn_hist rfl h2
      have hnew : (s2.inst d.inst).a.objs[(s1.inst d.inst).a.objs.length]? =
          some (.mono (requestOf (callId (s1.inst d.inst).a) (sentPay d data md)) .init) := by
        simp only [Wasm.step, Handler.step] at w2
        have := (Prod.mk.inj (Go.ok.inj w2)).1
        rw [← this]
        show (_ ++ _)[_]? = _
        rw [List.getElem?_append_right (Nat.le_refl _), Nat.sub_self]
        rfl
      have I3 := meshRun_hush I2 rfl h3 (fun _ _ h => by cases h)
        ⟨fun _ => rfl, fun _ => rfl, fun _ _ h => by cases h⟩ (fun _ h => by cases h) (fun st e he => dull_subscribe hnew he)
      obtain ⟨l3, t3, e3, w3, r3⟩ := stepIn_hist rfl h3
      refine meshRun_link (ret := ⟨.created, .created, false⟩) (rest := if i = d.inst then
          [.call .rr ⟨data, be32 d.index ++ md.drop 4⟩ .created, .subscribeMono (s1.inst d.inst).a.objs.length answerInst]
          else []) I I3 (l3.trans (l2.trans l1)) ?_ hts (fun h => by cases h) hdest _ ?_ ?_ ?_ ?_
      · rw [t3, t2, t1, if_pos rfl]
        split <;> simp
      · rintro j hj
        cases hj
        refine ⟨stepIn_grow I1 h1 _, ?_⟩
        have := stepIn_grow I3 h3 d.inst
        have := (List.getElem?_eq_some_iff.mp hnew).1
        omega
      · obtain ⟨o2, q1, q2⟩ := stepIn_kept I2 h2 _ _ _ ho
        obtain ⟨o3, q3, q4⟩ := stepIn_kept I3 h3 _ _ _ q1
        exact ⟨o3, q3, q4.trans (q2.trans hkey)⟩
      · have hb : ∀ c, callIds false c [.subscribeMono (s1.inst d.inst).a.objs.length answerInst] = [] := fun c => rfl
        rw [t3, t2, if_pos rfl, if_pos rfl, List.append_assoc]
        show List.Sublist _ (callIds false 0 ((s1.inst d.inst).histA ++ .call _ _ _ :: [_]))
        rw [(I1.hostAt d.inst).calls _ _ _ _ hb]
        refine List.Sublist.append ?_ (List.Sublist.refl _)
        have := I1.ids d.inst
        rwa [l1] at this
      · refine ⟨List.mem_append_right _ (List.mem_singleton.mpr rfl), rfl, rfl, rfl, rfl, rfl, fun _ => ?_,
          fun hk => (by cases hk), fun hk => (by cases hk)⟩
        obtain ⟨ms, hms⟩ := I1.reach d.inst
        refine ⟨ms, s1.inst d.inst, [], [], ⟨hms, ?_⟩, rfl, rfl, ?_⟩
        · obtain ⟨x2, q2, e2⟩ := stepIn_ok h2
          obtain ⟨x3, q3, e3⟩ := stepIn_ok h3
          subst e2 e3
          rw [set_same] at q3
          show Wasm.runSys .host _ _ (ms ++ [_] ++ [_]) = .ok (((s1.set d.inst x2).set d.inst x3).inst d.inst)
          rw [set_same]
          exact runSys_then (runSys_then hms q2) q3
        · have hb : answerSigs (s.inst i).a.objs.length (if i = d.inst then
              [.call .rr ⟨data, be32 d.index ++ md.drop 4⟩ .created,
                .subscribeMono (s1.inst d.inst).a.objs.length answerInst] else []) = [] := by
            split <;> rfl
          show answerSigs (s.inst i).a.objs.length _ ++ answerSigs _ (dueAt [] _) = _
          rw [hb]
          show [] = _
          rw [r3, r2, monoEvs_append, monoEvs_append, (I1.hostAt d.inst).unborn (Nat.le_refl _),
            (dull_evs (dull_call w2) _).1, (dull_evs (dull_subscribe hnew w3) _).1]
          rfl
    | fnf =>
      simp only [putIndex_ok hdest, Go.bind_ok, Option.getD_some] at h
      obtain ⟨s1, h1, h⟩ := bind_ok_inv h
      obtain ⟨s2, h2, h⟩ := bind_ok_inv h
      cases h
      obtain ⟨I1, o, ho, hkey, -, -⟩ := forward_run I hts (fun h => by cases h) hdest h1
      have I2 := meshRun_hush I1 rfl h2 (fun _ _ h => by cases h)
        ⟨fun _ => rfl, fun _ => rfl, fun _ _ h => by cases h⟩ (fun _ h => by cases h) (fun st e he => dull_call he)
      obtain ⟨l1, t1, e1, w1, -⟩ := stepIn_hist rfl h1
      obtain ⟨l2, t2, e2, w2, r2⟩ := stepIn_hist rfl h2
      refine meshRun_link (ret := ⟨.created, .created, false⟩) (rest := if i = d.inst then
          [.call .fnf ⟨data, be32 d.index ++ md.drop 4⟩ .created] else []) I I2 (l2.trans l1) ?_ hts (fun h => by cases h) hdest _ ?_ ?_ ?_ ?_
      · rw [t2, t1, if_pos rfl]
        split <;> simp
      · rintro j hj
        cases hj
      · obtain ⟨o2, q1, q2⟩ := stepIn_kept I2 h2 _ _ _ ho
        exact ⟨o2, q1, q2.trans hkey⟩
      · rw [t2, if_pos rfl]
        rw [(I1.hostAt d.inst).calls _ _ _ _ (fun c => rfl)]
        refine List.Sublist.append ?_ (List.Sublist.refl _)
        have := I1.ids d.inst
        rwa [l1] at this
      · refine ⟨List.mem_append_right _ (List.mem_singleton.mpr rfl), rfl, rfl, rfl, rfl, rfl, fun hk => (by cases hk),
          fun _ => ⟨rfl, ?_⟩, fun hk => (by cases hk)⟩
        obtain ⟨ms, hms⟩ := I1.reach d.inst
        refine ⟨ms, s1.inst d.inst, [], ⟨hms, ?_⟩, rfl⟩
        obtain ⟨x2, q2, e2⟩ := stepIn_ok h2
        subst e2
        show Wasm.runSys .host _ _ (ms ++ [_]) = .ok ((s1.set d.inst x2).inst d.inst)
        rw [set_same]
        exact runSys_then hms q2
    | rs => exact meshRun_forward_rs I hts hdest (by
        simp only [putIndex_ok hdest, Go.bind_ok, Option.getD_some] at h; exact h)
    | rc => cases h; exact I
  · cases h; exact I

theorem meshRun_other (I : MeshRun dest host guest (fun _ _ => False) s []) {i : Nat} {m : Move} {s' : MSys H}
    (h : MeshSystem.step dest s (.other i m) = .ok s') : MeshRun dest host guest (fun _ _ => False) s' [] := by
  simp only [MeshSystem.step] at h
  split at h
  · rename_i ha
    unfold MeshSystem.act at h
    obtain ⟨s1, h1, h⟩ := bind_ok_inv h
    obtain ⟨x, hx, rfl⟩ := stepIn_ok h1
    rw [set_same] at h
    exact meshRun_passOn _ (meshRun_act I hx ha) h
  · cases h; exact I

theorem meshRun_init : MeshRun dest host guest (fun _ _ => False) (.init host guest) [] := by
  refine ⟨fun k => ⟨[], rfl⟩, fun l hl => (by cases hl), List.Pairwise.nil, fun k => List.nil_sublist _,
    fun l hl => (by cases hl), List.Pairwise.nil, fun k j _ => rfl, fun x hx => (by cases hx), ?_, fun l hl => (by cases hl)⟩
  intro i r d hr
  have := hr.split
  simp [MSys.init, System.Sys.init] at this

theorem meshRun_runFrom (ms : List MMove) : ∀ {s s' : MSys H}, MeshRun dest host guest (fun _ _ => False) s [] →
    MeshSystem.runFrom dest s ms = .ok s' → MeshRun dest host guest (fun _ _ => False) s' [] := by
  induction ms with
  | nil => intro s s' I h; cases h; exact I
  | cons m ms ih =>
    intro s s' I h
    simp only [MeshSystem.runFrom] at h
    obtain ⟨s1, h1, h⟩ := bind_ok_inv h
    refine ih ?_ h
    cases m with
    | other i m => exact meshRun_other I h1
    | forward i t => exact meshRun_forward I h1

theorem meshRun_run {ms : List MMove} (h : MeshSystem.run dest host guest ms = .ok s) :
    MeshRun dest host guest (fun _ _ => False) s [] := meshRun_runFrom ms meshRun_init h

/-! ## What happens in one module -/

/-- Every module goes from one state to the other by itself; what its guest does is in `ms`. -/
def Moves (ms : List MMove) (s s' : MSys H) : Prop :=
  ∀ k, ∃ l, Wasm.runSysFrom .host (s.inst k) l = .ok (s'.inst k) ∧ ∀ a, .atB a ∈ l → .other k (.atB a) ∈ ms

theorem Moves.refl (ms : List MMove) (s : MSys H) : Moves ms s s := fun _ => ⟨[], rfl, fun _ h => (by cases h)⟩

theorem Moves.trans {ms : List MMove} {s s' s'' : MSys H} (h : Moves ms s s') (h' : Moves ms s' s'') : Moves ms s s'' := by
  intro k
  obtain ⟨l, h1, q1⟩ := h k
  obtain ⟨l', h2, q2⟩ := h' k
  exact ⟨l ++ l', by rw [runSysFrom_append, h1]; exact h2, fun a ha => (List.mem_append.mp ha).elim (q1 a) (q2 a)⟩

theorem Moves.mono {ms ms' : List MMove} {s s' : MSys H} (h : Moves ms s s') (hs : ∀ m ∈ ms, m ∈ ms') : Moves ms' s s' := by
  intro k
  obtain ⟨l, h1, q1⟩ := h k
  exact ⟨l, h1, fun a ha => hs _ (q1 a ha)⟩

theorem moves_stepIn {ms : List MMove} {s s' : MSys H} {i : Nat} {m : Move} (h : MeshSystem.stepIn s i m = .ok s')
    (hm : ∀ a, m = .atB a → .other i (.atB a) ∈ ms) : Moves ms s s' := by
  obtain ⟨x, hx, rfl⟩ := stepIn_ok h
  intro k
  by_cases hk : k = i
  · subst hk
    exact ⟨[m], by rw [set_same]; simp only [Wasm.runSysFrom, hx], fun a ha => hm a (List.mem_singleton.mp ha).symm⟩
  · exact ⟨[], by rw [set_other _ _ hk]; rfl, fun a ha => (by cases ha)⟩

theorem moves_atA {ms : List MMove} {s s' : MSys H} {i : Nat} {a : Act} (h : MeshSystem.stepIn s i (.atA a) = .ok s') :
    Moves ms s s' := moves_stepIn h fun a ha => (by cases ha)

theorem moves_passOn {ms : List MMove} (q : List (Nat × Act)) : ∀ {s s' : MSys H}, MeshSystem.passOn s q = .ok s' →
    Moves ms s s' := by
  induction q with
  | nil => intro s s' h; cases h; exact .refl _ _
  | cons y q ih =>
    obtain ⟨c, a⟩ := y
    intro s s' h
    simp only [MeshSystem.passOn] at h
    obtain ⟨s1, h1, h⟩ := bind_ok_inv h
    exact (moves_atA h1).trans (ih h)

theorem moves_links {ms : List MMove} {s s' : MSys H} {l : List Link} (h : Moves ms s s') : Moves ms s { s' with links := l } := h

theorem moves_step {s s' : MSys H} {m : MMove} (h : MeshSystem.step dest s m = .ok s') : Moves [m] s s' := by
  cases m with
  | other i m =>
    simp only [MeshSystem.step] at h
    split at h
    · unfold MeshSystem.act at h
      obtain ⟨s1, h1, h⟩ := bind_ok_inv h
      exact (moves_stepIn h1 fun a ha => by rw [ha]; exact List.mem_singleton.mpr rfl).trans (moves_passOn _ h)
    · cases h; exact .refl _ _
  | forward i t =>
    simp only [MeshSystem.step, MeshSystem.forward] at h
    split at h
    · rename_i k id data md n d hts hd
      cases k with
      | rr =>
        dsimp only at h
        obtain ⟨md', -, h⟩ := bind_ok_inv h
        obtain ⟨s1, h1, h⟩ := bind_ok_inv h
        obtain ⟨s2, h2, h⟩ := bind_ok_inv h
        obtain ⟨s3, h3, h⟩ := bind_ok_inv h
        cases h
        exact moves_links ((moves_atA h1).trans ((moves_atA h2).trans (moves_atA h3)))
      | fnf =>
        dsimp only at h
        obtain ⟨md', -, h⟩ := bind_ok_inv h
        obtain ⟨s1, h1, h⟩ := bind_ok_inv h
        obtain ⟨s2, h2, h⟩ := bind_ok_inv h
        cases h
        exact moves_links ((moves_atA h1).trans (moves_atA h2))
      | rs =>
        dsimp only at h
        obtain ⟨md', -, h⟩ := bind_ok_inv h
        obtain ⟨s1, h1, h⟩ := bind_ok_inv h
        obtain ⟨s2, h2, h⟩ := bind_ok_inv h
        obtain ⟨s3, h3, h⟩ := bind_ok_inv h
        obtain ⟨s4, h4, h⟩ := bind_ok_inv h
        obtain ⟨s5, h5, h⟩ := bind_ok_inv h
        cases h
        exact moves_links ((moves_atA h1).trans ((moves_atA h2).trans ((moves_atA h3).trans
          ((moves_atA h4).trans (moves_atA h5)))))
      | rc => cases h; exact .refl _ _
    · cases h; exact .refl _ _

theorem moves_runFrom (ms : List MMove) : ∀ {s s' : MSys H}, MeshSystem.runFrom dest s ms = .ok s' → Moves ms s s' := by
  induction ms with
  | nil => intro s s' h; cases h; exact .refl _ _
  | cons m ms ih =>
    intro s s' h
    simp only [MeshSystem.runFrom] at h
    obtain ⟨s1, h1, h⟩ := bind_ok_inv h
    exact ((moves_step h1).mono fun x hx => by cases List.mem_singleton.mp hx; exact List.mem_cons_self ..).trans
      ((ih h).mono fun x hx => List.mem_cons_of_mem _ hx)

theorem mesh_append (ms : List MMove) : ∀ {s s' : MSys H} {b : List MMove}, MeshSystem.runFrom dest s (ms ++ b) = .ok s' →
    ∃ t, MeshSystem.runFrom dest s ms = .ok t ∧ MeshSystem.runFrom dest t b = .ok s' := by
  induction ms with
  | nil => intro s s' b h; exact ⟨s, rfl, h⟩
  | cons m ms ih =>
    intro s s' b h
    simp only [List.cons_append, MeshSystem.runFrom] at h
    obtain ⟨s1, h1, h⟩ := bind_ok_inv h
    obtain ⟨t, h2, h3⟩ := ih h
    exact ⟨t, by simp only [MeshSystem.runFrom, h1, Go.bind_ok, h2], h3⟩

/-- A step of a guest is nothing but that. -/
theorem step_atB {s s' : MSys H} {i : Nat} {a : Act} (h : MeshSystem.step dest s (.other i (.atB a)) = .ok s') :
    Wasm.stepSys .host (s.inst i) (.atB a) = .ok (s'.inst i) := by
  simp only [MeshSystem.step, MeshSystem.allowed, if_true, MeshSystem.act] at h
  obtain ⟨s1, h1, h⟩ := bind_ok_inv h
  obtain ⟨x, hx, rfl⟩ := stepIn_ok h1
  have ht : x.trA = (s.inst i).trA := by
    simp only [Wasm.stepSys] at hx
    split at hx
    · cases hx; rfl
    · unfold Wasm.moveB at hx
      split at hx
      · cases hx; rfl
      · cases hx
      · cases hx
  rw [set_same, ht, List.drop_length] at h
  cases h
  rw [set_same]
  exact hx

end

/-! ## Specification

The modules of a mesh run (`MeshSystem.run`); module `i` has the handlers `host i` on its host and `guest i` on its guest,
and `dest` tells which handlers are destinations of the mesh: an export of another (or the same) module.

After `pre`, the guest of module `i` calls an import with payload `p`, things go on everywhere (`mid`), it subscribes to
the mono the call returned (`inst` are the callbacks it installs), and things go on (`post`). The call is stream number
`(s0.inst i).b.objs.length` of the guest and has the id `callId (s0.inst i).b`. -/

def meshCall (dest : H → Option Mesh.Dest) (host guest : Nat → Registry H) (i : Nat) (pre : List MMove) (s0 : MSys H) (p : Pay)
    (src : Src) (mid : List MMove) (inst : Mono.Installed) (post : List MMove) (s : MSys H) : Prop :=
  MeshSystem.run dest host guest pre = .ok s0 ∧
  MeshSystem.run dest host guest (pre ++ .other i (.atB (.call .rr p src)) :: mid ++
    .other i (.atB (.subscribeMono (s0.inst i).b.objs.length inst)) :: post) = .ok s

/-- The same with a fire-and-forget call. -/
def meshFnf (dest : H → Option Mesh.Dest) (host guest : Nat → Registry H) (i : Nat) (pre : List MMove) (s0 : MSys H) (p : Pay)
    (src : Src) (post : List MMove) (s : MSys H) : Prop :=
  MeshSystem.run dest host guest pre = .ok s0 ∧
  MeshSystem.run dest host guest (pre ++ .other i (.atB (.call .fnf p src)) :: post) = .ok s

/-- The import the metadata `md` names is linked to `d`. -/
def goesTo (dest : H → Option Mesh.Dest) (reg : Registry H) (k : Kind) (md : Bytes) (d : Mesh.Dest) : Prop :=
  (exported reg k md).bind dest = some d

/-- Request `x` of the guest of module `i` was passed on as request `y` to the guest of module `k`. -/
def passedAs (s : MSys H) (i : Nat) (x : UInt32) (k : Nat) (y : UInt32) : Prop :=
  ∃ l ∈ s.links, l.caller = i ∧ l.request = x ∧ l.target = k ∧ l.id = y

/-- No frame is under way in the module, and its host has no goroutine for request `x` of its guest. -/
def askedAll (m : Sys H) (x : UInt32) : Prop :=
  m.ab = [] ∧ m.ba = [] ∧ ∀ k data md n, .request k x data md n ∉ m.a.tasks

/-! ## From the mesh to a connection -/

theorem swap_tidy {x : Sys H} (h : Tidy x) : Tidy (swapSys x) := ⟨h.callsB, h.callsA, h.onceB, h.onceA⟩

theorem guest_call {dest : H → Option Mesh.Dest} {host guest : Nat → Registry H} {i : Nat} {pre mid post : List MMove}
    {s0 s : MSys H} {p : Pay} {src : Src} {inst : Mono.Installed}
    (h : meshCall dest host guest i pre s0 p src mid inst post s) :
    ∃ pre' mid' post', wasmCall .guest (guest i) (host i) pre' (swapSys (s0.inst i)) p src mid' inst post'
      (swapSys (s.inst i)) := by
  obtain ⟨h0, h⟩ := h
  obtain ⟨pre', hp⟩ := (meshRun_run h0).reach i
  obtain ⟨s1, h1, h⟩ := mesh_append _ h
  obtain ⟨s0', h2, h1⟩ := mesh_append _ h1
  rw [show MeshSystem.runFrom dest (.init host guest) pre = .ok s0 from h0] at h2
  cases h2
  simp only [MeshSystem.runFrom] at h h1
  obtain ⟨s2, h2, h1⟩ := bind_ok_inv h1
  obtain ⟨s3, h3, h⟩ := bind_ok_inv h
  obtain ⟨mid', hm, -⟩ := moves_runFrom _ h1 i
  obtain ⟨post', hq, -⟩ := moves_runFrom _ h i
  have r1 := step_atB h2
  have r2 := step_atB h3
  refine ⟨pre'.map swapMove, mid'.map swapMove, post'.map swapMove, runSys_swap hp, ?_⟩
  have : Wasm.runSys .host (host i) (guest i) (pre' ++ .atB (.call .rr p src) :: mid' ++
      .atB (.subscribeMono (s0.inst i).b.objs.length inst) :: post') = .ok (s.inst i) := by
    unfold Wasm.runSys at hp ⊢
    rw [runSysFrom_append, runSysFrom_append, hp]
    simp only [Wasm.runSysFrom, r1, hm, r2, hq]
  have := runSys_swap this
  simp only [List.map_append, List.map_cons, swapMove] at this
  exact this

theorem guest_fnf {dest : H → Option Mesh.Dest} {host guest : Nat → Registry H} {i : Nat} {pre post : List MMove}
    {s0 s : MSys H} {p : Pay} {src : Src} (h : meshFnf dest host guest i pre s0 p src post s) :
    ∃ pre' post', wasmFnf .guest (guest i) (host i) pre' (swapSys (s0.inst i)) p src post' (swapSys (s.inst i)) := by
  obtain ⟨h0, h⟩ := h
  obtain ⟨pre', hp⟩ := (meshRun_run h0).reach i
  obtain ⟨s0', h2, h⟩ := mesh_append _ h
  rw [show MeshSystem.runFrom dest (.init host guest) pre = .ok s0 from h0] at h2
  cases h2
  simp only [MeshSystem.runFrom] at h
  obtain ⟨s2, h2, h⟩ := bind_ok_inv h
  obtain ⟨post', hq, -⟩ := moves_runFrom _ h i
  have r1 := step_atB h2
  refine ⟨pre'.map swapMove, post'.map swapMove, runSys_swap hp, ?_⟩
  have : Wasm.runSys .host (host i) (guest i) (pre' ++ .atB (.call .fnf p src) :: post') = .ok (s.inst i) := by
    unfold Wasm.runSys at hp ⊢
    rw [runSysFrom_append, hp]
    simp only [Wasm.runSysFrom, r1, hq]
  have := runSys_swap this
  simp only [List.map_append, List.map_cons, swapMove] at this
  exact this

theorem overWire_twice (sig : Mono.Sig Pay) : overWire (overWire sig) = overWire sig := by
  apply overWire_id
  intro e he c hc
  cases sig with
  | error e' =>
    cases e' with
    | none => cases he
    | some e' =>
      simp only [overWire, Mono.Sig.error.injEq, Option.some.injEq] at he
      subst he
      simp only [strOf, String.toList_ofList, List.mem_map] at hc
      obtain ⟨b, -, rfl⟩ := hc
      have hb := b.toNat_lt
      have hv : b.toNat.isValidChar := .inl (by omega)
      simp only [Char.ofNat, dif_pos hv]
      exact hb
  | _ => cases he

/-- A request the guest of a module made is run with the payload of the call. -/
theorem sole_payload {reg : Registry H} {as : List Act} {x : UInt32} {g : RequestPayload} {k : Kind} {st : St H}
    {tr : List (Handler.Ev H)} (h : Wasm.run .host reg as = .ok (st, tr)) (hf : ∀ f ∈ handedOver as, fits f)
    (hg : ∀ f ∈ handedOver as, f.streamID = x → f = .request g) (hk : kindOfType g.frameType = some k)
    {r : RunRec H} (hr : r.on reg as) (hx : r.id = x) : r.k = k ∧ r.data = g.data ∧ r.md = g.metadata := by
  have hs := hr.split
  have hf1 : ∀ f ∈ handedOver r.as1, fits f := fun f hm => hf f (by
    rw [hs, handedOver_append]; exact List.mem_append_left _ hm)
  obtain ⟨tr', h1, -⟩ := run_alike _ hr.before hf1
  obtain ⟨f, rc, q1, q2, q3, q4, q5⟩ := task_origin _ h1 _ _ _ _ _ (List.mem_of_getElem? hr.task)
  have := hg (.request f) (by rw [hs, handedOver_append]; exact List.mem_append_left _ (handedOver_mem q1)) (q3.trans hx)
  cases this
  rw [hk] at q2
  cases q2
  exact ⟨rfl, q4.symm, q5.symm⟩

section
variable {dest : H → Option Mesh.Dest} {host guest : Nat → Registry H} {i : Nat} {pre mid post : List MMove}
    {s0 s : MSys H} {p : Pay} {src : Src} {inst : Mono.Installed}

theorem call_payload (h : meshCall dest host guest i pre s0 p src mid inst post s) (ht : Tidy (s.inst i))
    {r : RunRec H} (hr : r.on (host i) (s.inst i).histA) (hx : r.id = callId (s0.inst i).b) :
    r.k = .rr ∧ r.data = p.data ∧ r.md = p.metadata := by
  obtain ⟨pre', mid', post', hw⟩ := guest_call h
  obtain ⟨s0', h0⟩ := overRsocket hw.1
  obtain ⟨s', h1⟩ := overRsocket hw.2
  have e0 := h0.alike.a
  have c := called h0.run (by rw [e0]; exact h1.run) (h1.tidy (swap_tidy ht))
  have hsent := c.sent
  rw [c.joined.ab, withId_append, e0] at hsent
  have hH := (meshRun_run h.2).hostAt i
  exact sole_payload (g := requestOf (callId (s0.inst i).b) p) (k := .rr) hH.run hH.fits (fun f hf hfx => by
    have : f ∈ withId (callId (s0.inst i).b) (handedOver s'.histB) ++ withId (callId (s0.inst i).b) s'.ab :=
      List.mem_append_left _ (List.mem_filter.mpr ⟨by rw [h1.alike.histB]; exact hf, decide_eq_true hfx⟩)
    rw [show withId (callId (s0.inst i).b) (handedOver s'.histB) ++ withId (callId (s0.inst i).b) s'.ab = _ from hsent] at this
    exact List.mem_singleton.mp this) rfl hr hx

theorem fnf_payload (h : meshFnf dest host guest i pre s0 p src post s) (ht : Tidy (s.inst i))
    {r : RunRec H} (hr : r.on (host i) (s.inst i).histA) (hx : r.id = callId (s0.inst i).b) :
    r.k = .fnf ∧ r.data = p.data ∧ r.md = p.metadata := by
  obtain ⟨pre', post', hw⟩ := guest_fnf h
  obtain ⟨s0', h0⟩ := overRsocket hw.1
  obtain ⟨s', h1⟩ := overRsocket hw.2
  have e0 := h0.alike.a
  have hrun : fnfRun (guest i) (host i) (Wasm.Side.client .guest) pre' s0' p src post' s' := ⟨h0.run, h1.run⟩
  obtain ⟨hJ, hsent⟩ := fnf_sent hrun (h1.tidy (swap_tidy ht))
  rw [hJ.ab, withId_append, e0] at hsent
  have hH := (meshRun_run h.2).hostAt i
  exact sole_payload (g := fnfRequest (callId (s0.inst i).b) p) (k := .fnf) hH.run hH.fits (fun f hf hfx => by
    have : f ∈ withId (callId (s0.inst i).b) (handedOver s'.histB) ++ withId (callId (s0.inst i).b) s'.ab :=
      List.mem_append_left _ (List.mem_filter.mpr ⟨by rw [h1.alike.histB]; exact hf, decide_eq_true hfx⟩)
    rw [show withId (callId (s0.inst i).b) (handedOver s'.histB) ++ withId (callId (s0.inst i).b) s'.ab = _ from hsent] at this
    exact List.mem_singleton.mp this) rfl hr hx

theorem resolution_cancel (m : MonoSrc) (l : List (Mono.Sig Pay)) : resolution m l ≠ some .cancel := by
  unfold resolution
  split
  all_goals first
    | (intro h; cases h; done)
    | (rename_i tx q _; cases tx q <;> (intro h; cases h))

theorem handled_cancel {side : Side} {reg : Registry H} {x : UInt32} {p : Pay} {as : List Act} {r : Option (Mono.Sig Pay)}
    (h : HandledOn side reg x p as r) : r ≠ some .cancel := by
  cases h with
  | rejected => intro h; cases h
  | served => exact resolution_cancel _ _

/-- What the callbacks of the call of the mesh are told is what the mono of the host comes to. -/
theorem told_outcome (sig : Option (Mono.Sig Pay)) (h : sig ≠ some .cancel) :
    resolution .created ((outcome 0 answerInst (sig.map overWire).toList).filterMap MeshSystem.told) = sig.map overWire := by
  cases sig with
  | none => rfl
  | some x =>
    cases x with
    | success v => rfl
    | error e => cases e <;> rfl
    | cancel => exact absurd rfl h

/-- What became of the request in the caller's host, in terms of the call of the mesh. -/
theorem served_link (h : meshCall dest host guest i pre s0 p src mid inst post s) {d : Mesh.Dest}
    (hd : goesTo dest (host i) .rr p.metadata d) {res : Option (Mono.Sig Pay)}
    (hr : HandledOn .host (host i) (callId (s0.inst i).b) p (s.inst i).histA res) :
    ∃ y, passedAs s i (callId (s0.inst i).b) d.inst y ∧ ∃ pre' s0' mid' post',
      wasmCall .host (host d.inst) (guest d.inst) pre' s0' (sentPay d p.data p.metadata) .created mid' answerInst post'
        (s.inst d.inst) ∧ y = callId s0'.a ∧
      res = resolution .created ((monoEvs s0'.a.objs.length (s.inst d.inst).trA).filterMap MeshSystem.told) := by
  have I := meshRun_run h.2
  cases hr with
  | rejected as1 as2 t ret s1 t1 n ran bad => unfold goesTo at hd; rw [bad] at hd; cases hd
  | served as1 as2 t ret s1 t1 n ran good =>
    obtain ⟨l, hl⟩ := I.all i ⟨as1, as2, t, ret, s1, t1, .rr, _, p.data, p.metadata, n⟩ d ran
      ⟨fun h => (by cases h), hd⟩ (fun h => h)
    obtain ⟨pre', s0', mid', post', h1, h2, h3, h4⟩ := hl.rr rfl
    refine ⟨l.id, ⟨l, hl.mem, hl.caller, hl.request, hl.target, rfl⟩, pre', s0', mid', post', h1, h3, ?_⟩
    rw [← h4]
    have e1 := hl.created
    have e2 := hl.answer
    simp only at e1 e2
    rw [e1, e2]
    simp [dueAt, answerSigs]

/-! ## C121 -/

/-- C121: what the callbacks of a call through the mesh see, at any point of any run, is nothing, or what the guest of the
module that exports the operation has answered to the request this call was passed on as. -/
theorem C121_answer (dest : H → Option Mesh.Dest) (host guest : Nat → Registry H) (i : Nat) (pre mid post : List MMove)
    (s0 s : MSys H) (p : Pay) (src : Src) (inst : Mono.Installed) (d : Mesh.Dest)
    (h : meshCall dest host guest i pre s0 p src mid inst post s) (hd : goesTo dest (host i) .rr p.metadata d)
    (ht : ∀ k, Tidy (s.inst k)) :
    monoEvs (s0.inst i).b.objs.length (s.inst i).trB = [] ∨
    ∃ y sig, passedAs s i (callId (s0.inst i).b) d.inst y ∧
      HandledOn .guest (guest d.inst) y ⟨p.data, be32 d.index ++ p.metadata.drop 4⟩ (s.inst d.inst).histB (some sig) ∧
      monoEvs (s0.inst i).b.objs.length (s.inst i).trB = outcome 0 inst [overWire sig] := by
  obtain ⟨pre', mid', post', hw⟩ := guest_call h
  rcases C98_answer .guest _ _ _ _ _ _ _ _ _ _ hw (swap_tidy (ht i)) with h1 | ⟨sig, h1, h2⟩
  · exact .inl h1
  · obtain ⟨y, h3, pre2, s02, mid2, post2, h4, h5, h6⟩ := served_link h hd h1
    rcases C98_answer .host _ _ _ _ _ _ _ _ _ _ h4 (ht d.inst) with h7 | ⟨sig', h7, h8⟩
    · rw [h7] at h6; cases h6
    · rw [h8] at h6
      have hs : sig = overWire sig' := Option.some.inj (h6.trans (told_outcome (some sig') (handled_cancel h7)))
      refine .inr ⟨y, sig', h3, by rw [h5]; exact h7, ?_⟩
      rw [hs, overWire_twice] at h2
      exact h2

/-- C121: once nothing of it is under way in the caller's module, the call was passed on; and once nothing of it is under
way in the other module, either, the callbacks have seen exactly what the guest there has answered, if it has. -/
theorem C121_completes (dest : H → Option Mesh.Dest) (host guest : Nat → Registry H) (i : Nat) (pre mid post : List MMove)
    (s0 s : MSys H) (p : Pay) (src : Src) (inst : Mono.Installed) (d : Mesh.Dest)
    (h : meshCall dest host guest i pre s0 p src mid inst post s) (hd : goesTo dest (host i) .rr p.metadata d)
    (ht : ∀ k, Tidy (s.inst k)) (hq : askedAll (s.inst i) (callId (s0.inst i).b)) :
    ∃ y, passedAs s i (callId (s0.inst i).b) d.inst y ∧ (settled (s.inst d.inst) y →
      ∃ r, HandledOn .guest (guest d.inst) y ⟨p.data, be32 d.index ++ p.metadata.drop 4⟩ (s.inst d.inst).histB r ∧
        monoEvs (s0.inst i).b.objs.length (s.inst i).trB = outcome 0 inst (r.map overWire).toList) := by
  obtain ⟨pre', mid', post', hw⟩ := guest_call h
  obtain ⟨res, h1, h2⟩ := C98_completes .guest _ _ _ _ _ _ _ _ _ _ hw (swap_tidy (ht i)) ⟨hq.2.1, hq.1, hq.2.2⟩
  obtain ⟨y, h3, pre2, s02, mid2, post2, h4, h5, h6⟩ := served_link h hd h1
  refine ⟨y, h3, fun hy => ?_⟩
  rw [h5] at hy
  obtain ⟨r, h7, h8⟩ := C98_completes .host _ _ _ _ _ _ _ _ _ _ h4 (ht d.inst) hy
  refine ⟨r, by rw [h5]; exact h7, ?_⟩
  rw [h8, told_outcome _ (handled_cancel h7)] at h6
  subst h6
  rw [Option.map_map, show overWire ∘ overWire = overWire from funext overWire_twice] at h2
  exact h2

theorem answerEvs_verdicts (j : Nat) (id : UInt32) (es : List (Mono.Ev Pay)) :
    ∀ r : List (Handler.Ev H), answerEvs j id es = .ok r → verdicts r = [] := by
  induction es with
  | nil => intro r h; cases h; rfl
  | cons x es ih =>
    intro r h
    simp only [answerEvs] at h
    obtain ⟨a, ha, h⟩ := bind_ok_inv h
    obtain ⟨b, hb, h⟩ := bind_ok_inv h
    cases h
    rw [verdicts_append, ih b hb, List.append_nil]
    unfold answerEv at ha
    split at ha <;> cases ha <;> rfl

/-- Running a request rejects or invokes for this request. -/
theorem serve_verdict {side : Side} {st st' : St H} {k : Kind} {id n : UInt32} {data md : Bytes} {ret : Ret}
    {e : List (Handler.Ev H)} (h : Wasm.serve side st k id data md n ret = .ok (st', e)) :
    ∀ v ∈ verdicts e, v.id = id := by
  unfold Wasm.serve at h
  split at h
  · cases h; intro v hv; simp [verdicts, errorFrame] at hv; subst hv; rfl
  · obtain ⟨op, -, h⟩ := bind_ok_inv h
    split at h
    · cases h; intro v hv; simp [verdicts, errorFrame] at hv; subst hv; rfl
    · dsimp only at h
      cases k with
      | rr =>
        dsimp only at h
        obtain ⟨es, he, h⟩ := bind_ok_inv h
        cases h
        intro v hv
        simp only [verdicts, answerEvs_verdicts _ _ _ _ he, List.mem_singleton] at hv
        subst hv; rfl
      | _ =>
        cases h
        intro v hv
        rw [verdicts_append] at hv
        have : ∀ b : Bool, verdicts (if b then [(.opened id st.objs.length : Handler.Ev H)] else []) = [] := by
          intro b; cases b <;> rfl
        rw [this] at hv
        simp only [verdicts, List.nil_append, List.mem_singleton] at hv
        subst hv; rfl

/-- What was rejected or invoked was a request that was run. -/
theorem verdict_ran {calls : List (Invoke.Call H)} (hc : fewCalls calls) (as : List Act) :
    ∀ {st : St H} {tr : List (Handler.Ev H)}, Wasm.run .host (Invoke.run Registry.init calls) as = .ok (st, tr) →
    (∀ f ∈ handedOver as, fits f) → ∀ v ∈ verdicts tr,
    ∃ r : RunRec H, r.on (Invoke.run Registry.init calls) as ∧ r.id = v.id := by
  induction as using snoc_induction with
  | nil => intro st tr h _ v hv; cases h; cases hv
  | snoc as a ih =>
    intro st' tr h hf v hv
    have hf1 : ∀ f ∈ handedOver as, fits f := fun f q => hf f (by rw [handedOver_append]; exact List.mem_append_left _ q)
    obtain ⟨st, t, e, h1, h2, rfl⟩ := wasm_run_snoc_inv h
    rw [verdicts_append] at hv
    rcases List.mem_append.mp hv with hv | hv
    · obtain ⟨r, q1, q2⟩ := ih h1 hf1 v hv
      exact ⟨r.grow [a], RunRec.on_grow q1 [a], q2⟩
    · obtain ⟨tr', r1, -⟩ := run_alike as h1 hf1
      obtain ⟨e', r2, r3⟩ := step_alike (lastFits hf) h2
      have hne : verdicts e' ≠ [] := by
        intro q
        have := verdicts_alike r3
        rw [q, List.map_nil, List.map_eq_nil_iff] at this
        rw [this] at hv; cases hv
      obtain ⟨tk, ret, k, id, data, md, n, rfl, htk⟩ := invoked_run hc (reg_run as r1) r2 hne
      refine ⟨⟨as, [], tk, ret, st, t, k, id, data, md, n⟩, ⟨rfl, h1, htk⟩, ?_⟩
      simp only [Wasm.step] at h2
      split at h2
      · cases h2
      rw [htk] at h2
      exact (serve_verdict h2 v hv).symm

/-- What the guest of the target has done with a request that was passed on. -/
theorem link_verdict (hg : Nat → List (Invoke.Call H)) (hguest : ∀ k, guest k = Invoke.run Registry.init (hg k))
    (hc : ∀ k, fewCalls (hg k)) {ms : List MMove} (hrun : MeshSystem.run dest host guest ms = .ok s)
    (ht : ∀ k, Tidy (s.inst k)) {x : UInt32} {k0 : Kind} {data md : Bytes} {d : Mesh.Dest}
    (hd : goesTo dest (host i) k0 md d)
    (hpay : ∀ r : RunRec H, r.on (host i) (s.inst i).histA → r.id = x → r.k = k0 ∧ r.data = data ∧ r.md = md)
    (hk0 : k0 = .rr ∨ k0 = .fnf) {k : Nat} {y : UInt32} (hy : passedAs s i x k y) :
    k = d.inst ∧
    let done := (verdicts (s.inst k).trB).filter fun v => decide (v.id = y)
    let due := wasmVerdict .guest (hg k) k0 y data (be32 d.index ++ md.drop 4)
    (done = [] ∨ done = [due]) ∧ (settled (s.inst k) y → done = [due]) := by
  have I := meshRun_run hrun
  obtain ⟨l, hl, rfl, rfl, rfl, rfl⟩ := hy
  obtain ⟨r, d', h1, h2, h3⟩ := I.each l hl
  obtain ⟨rfl, rfl, rfl⟩ := hpay r h1 h3.request.symm
  have := h2.dest
  unfold goesTo at hd
  rw [hd] at this
  cases this
  refine ⟨h3.target, ?_⟩
  rw [h3.target]
  have hgd := hguest d.inst
  rcases hk0 with hk | hk
  · obtain ⟨pre', s0', mid', post', q1, q2, q3, q4⟩ := h3.rr hk
    rw [hk, q3]
    rw [hgd] at q1
    exact C98_invoked .host _ _ (hc d.inst) _ _ _ _ _ _ _ _ q1 (ht d.inst)
  · obtain ⟨-, pre', s0', post', q1, q3⟩ := h3.fnf hk
    rw [hk, q3]
    rw [hgd] at q1
    exact C98_fnf .host _ _ (hc d.inst) _ _ _ _ _ _ q1 (ht d.inst)

/-- C121: wherever a call was passed on to, that is the module that exports the operation, and of the request it was passed
on as, the guest there has done nothing yet, or exactly one thing: invoked its operation, once, with the payload of the
call. Once nothing of it is under way there, it has. -/
theorem C121_invoked (dest : H → Option Mesh.Dest) (host : Nat → Registry H) (exports : Nat → List (Invoke.Call H))
    (hc : ∀ k, fewCalls (exports k)) (i : Nat) (pre mid post : List MMove)
    (s0 s : MSys H) (p : Pay) (src : Src) (inst : Mono.Installed) (d : Mesh.Dest)
    (h : meshCall dest host (fun k => Invoke.run Registry.init (exports k)) i pre s0 p src mid inst post s)
    (hd : goesTo dest (host i) .rr p.metadata d) (ht : ∀ k, Tidy (s.inst k)) (k : Nat) (y : UInt32)
    (hy : passedAs s i (callId (s0.inst i).b) k y) :
    k = d.inst ∧
    let done := (verdicts (s.inst k).trB).filter fun v => decide (v.id = y)
    let due := wasmVerdict .guest (exports k) .rr y p.data (be32 d.index ++ p.metadata.drop 4)
    (done = [] ∨ done = [due]) ∧ (settled (s.inst k) y → done = [due]) :=
  link_verdict exports (fun _ => rfl) hc h.2 ht hd (fun r hr hx => call_payload h (ht i) hr hx) (.inl rfl) hy

/-- C121: the same for fire-and-forget; and once nothing of the call is under way in the caller's module, it was passed
on. -/
theorem C121_fnf (dest : H → Option Mesh.Dest) (imports exports : Nat → List (Invoke.Call H))
    (hc : ∀ k, fewCalls (exports k)) (hi : ∀ k, fewCalls (imports k)) (i : Nat) (pre post : List MMove)
    (s0 s : MSys H) (p : Pay) (src : Src) (d : Mesh.Dest)
    (h : meshFnf dest (fun k => Invoke.run Registry.init (imports k)) (fun k => Invoke.run Registry.init (exports k)) i pre
      s0 p src post s)
    (hd : goesTo dest (Invoke.run Registry.init (imports i)) .fnf p.metadata d) (ht : ∀ k, Tidy (s.inst k)) :
    (∀ k y, passedAs s i (callId (s0.inst i).b) k y →
      k = d.inst ∧
      let done := (verdicts (s.inst k).trB).filter fun v => decide (v.id = y)
      let due := wasmVerdict .guest (exports k) .fnf y p.data (be32 d.index ++ p.metadata.drop 4)
      (done = [] ∨ done = [due]) ∧ (settled (s.inst k) y → done = [due])) ∧
    (askedAll (s.inst i) (callId (s0.inst i).b) → ∃ y, passedAs s i (callId (s0.inst i).b) d.inst y) := by
  refine ⟨fun k y hy => link_verdict (host := fun k => Invoke.run Registry.init (imports k)) exports (fun _ => rfl) hc h.2 ht hd
    (fun r hr hx => fnf_payload h (ht i) hr hx) (.inr rfl) hy, fun hq => ?_⟩
  obtain ⟨pre', post', hw⟩ := guest_fnf h
  have h1 := (C98_fnf .guest _ (imports i) (hi i) _ _ _ _ _ _ hw (swap_tidy (ht i))).2 ⟨hq.2.1, hq.1, hq.2.2⟩
  obtain ⟨v, hv, hvx⟩ : ∃ v ∈ verdicts (s.inst i).trA, v.id = callId (s0.inst i).b := by
    have h2 := List.mem_singleton.mpr (rfl : wasmVerdict (Wasm.Side.other .guest) (imports i) .fnf
      (callId (swapSys (s0.inst i)).a) p.data p.metadata = _)
    rw [← h1] at h2
    obtain ⟨q1, q2⟩ := List.mem_filter.mp h2
    exact ⟨_, q1, of_decide_eq_true q2⟩
  have I := meshRun_run h.2
  have hH := I.hostAt i
  obtain ⟨r, h2, h3⟩ := verdict_ran (hi i) _ hH.run hH.fits v hv
  obtain ⟨h4, h5, h6⟩ := fnf_payload h (ht i) h2 (h3.trans hvx)
  obtain ⟨l, hl⟩ := I.all i r d h2 ⟨(by rw [h4]; intro h; cases h), by rw [h4, h6]; exact hd⟩ (fun h => h)
  exact ⟨l.id, l, hl.mem, hl.caller, hl.request.trans (h3.trans hvx), hl.target, rfl⟩

theorem pairwise_mem {α : Type} {R : α → α → Prop} : ∀ {l : List α}, l.Pairwise R → ∀ {a b : α}, a ∈ l → b ∈ l →
    a = b ∨ R a b ∨ R b a
  | x :: l, h, a, b, ha, hb => by
    obtain ⟨h1, h2⟩ := List.pairwise_cons.mp h
    rcases List.mem_cons.mp ha with q1 | q1 <;> rcases List.mem_cons.mp hb with q2 | q2
    · exact .inl (q1.trans q2.symm)
    · exact .inr (.inl (q1 ▸ h1 _ q2))
    · exact .inr (.inr (q2 ▸ h1 _ q1))
    · exact pairwise_mem h2 q1 q2

/-- C121: a request is passed on once, and no two requests are passed on as the same one. -/
theorem C121_one (dest : H → Option Mesh.Dest) (host guest : Nat → Registry H) (ms : List MMove) (s : MSys H)
    (h : MeshSystem.run dest host guest ms = .ok s) (ht : ∀ k, Tidy (s.inst k)) (i i' k k' : Nat) (x x' y y' : UInt32)
    (h1 : passedAs s i x k y) (h2 : passedAs s i' x' k' y') : (i = i' ∧ x = x') ↔ (k = k' ∧ y = y') := by
  have I := meshRun_run h
  obtain ⟨l, hl, rfl, rfl, rfl, rfl⟩ := h1
  obtain ⟨l', hl', rfl, rfl, rfl, rfl⟩ := h2
  suffices (l.caller = l'.caller ∧ l.request = l'.request → l = l') ∧ (l.target = l'.target ∧ l.id = l'.id → l = l') from
    ⟨fun q => by rw [this.1 q]; exact ⟨rfl, rfl⟩, fun q => by rw [this.2 q]; exact ⟨rfl, rfl⟩⟩
  constructor
  · rintro ⟨hc, hr⟩
    obtain ⟨o, q1, q2⟩ := I.keys l hl
    obtain ⟨o', q3, q4⟩ := I.keys l' hl'
    rw [← hc] at q3
    obtain ⟨ms', hms⟩ := I.reach l.caller
    obtain ⟨t', ov⟩ := overRsocket hms
    have hu := (joined_run _ ov.run).usesA (ov.tidy (ht l.caller)) l.request
    rw [uses_parts, ov.alike.a] at hu
    have ha : l.answer = l'.answer := index_unique (p := fun o : Obj => decide (o.key.2 = l.request)) (by omega)
      q1 (by simp [q2]) q3 (by simp [q4, hr])
    rcases pairwise_mem I.distinct hl hl' with q | q | q
    · exact q
    · exact (q ⟨hc, ha⟩).elim
    · exact (q ⟨hc.symm, ha.symm⟩).elim
  · rintro ⟨hc, hr⟩
    have h3 := (callIds_own false (s.inst l.target).histA (ht _).callsA).1.sublist (I.ids l.target)
    have m1 : l ∈ s.links.filter fun x => x.target == l.target := List.mem_filter.mpr ⟨hl, by simp⟩
    have m2 : l' ∈ s.links.filter fun x => x.target == l.target := List.mem_filter.mpr ⟨hl', by simp [hc]⟩
    rcases pairwise_mem (List.pairwise_map.mp h3) m1 m2 with q | q | q
    · exact q
    · exact (q hr).elim
    · exact (q hr.symm).elim

/-! ## Where the destinations come from -/

/-- The handlers of the hosts are those the mesh has set: import `x` of kind `k` of module `i` has the destination the
tables of the mesh say, if any. -/
def handlersOf (dest : H → Option Mesh.Dest) (host : Nat → Registry H) (st : Mesh.St) : Prop :=
  ∀ i k x, (getHandler (host i) k x).bind dest = Mesh.callImport st i k x

theorem handlersOf_tables {dest : H → Option Mesh.Dest} {host : Nat → Registry H} {st : Mesh.St}
    (h : ∀ i k, (host i k).handlers.map dest = st.tables i k) : handlersOf dest host st := by
  intro i k x
  unfold getHandler Mesh.callImport WasmRecv.getHandler
  rw [← h i k, List.length_map, List.getElem?_map]
  split
  · rfl
  · cases (host i k).handlers[x.toNat]? <;> rfl

/-- C121: for modules loaded one after the other, a call through an import goes to an export of the same name if there is
one; and wherever a call goes, there is an import and an export of one name. -/
theorem C121_names (ms : List (Bytes × Operations.Table)) (hw : WellFormed ms) :
    ∃ st, Mesh.load ms = .ok st ∧ ∀ (dest : H → Option Mesh.Dest) (host : Nat → Registry H), handlersOf dest host st →
      (∀ i op k more, Imports ms i op → op.type = kindNumber k → (∃ j e, Exports ms j e ∧ SameName op e) →
        4 ≤ more.length → ∃ j e, Exports ms j e ∧ SameName op e ∧
          goesTo dest (host i) k (be32 op.index ++ more) ⟨j, e.index⟩) ∧
      (∀ i k md d, goesTo dest (host i) k md d → ∃ op e more, md = be32 op.index ++ more ∧ Imports ms i op ∧
        op.type = kindNumber k ∧ Exports ms d.inst e ∧ SameName op e ∧ e.index = d.index) := by
  obtain ⟨st, h1, h2, h3, -⟩ := C66_names_partial ms hw
  refine ⟨st, h1, fun dest host hh => ⟨fun i op k more a1 a2 a3 a4 => ?_, fun i k md d a1 => ?_⟩⟩
  · obtain ⟨j, e, b1, b2, b3⟩ := h2 i op k a1 a2 a3
    refine ⟨j, e, b1, b2, ?_⟩
    have hl : ¬ (be32 op.index ++ more).length < 8 := by
      rw [List.length_append, show (be32 op.index).length = 4 from rfl]; omega
    have hn : namedOp (be32 op.index ++ more) = op.index := by rw [namedOp, getU32_be32]
    rw [goesTo, exported, if_neg hl, hn, hh, b3]
  · unfold goesTo exported at a1
    split at a1
    · cases a1
    · rename_i hl
      rw [hh] at a1
      obtain ⟨op, e, b1, b2, b3, b4, b5, b6⟩ := h3 _ _ _ _ a1
      obtain ⟨n, hn⟩ := getU32_ok md (by omega)
      obtain ⟨more, hm⟩ := getU32_inv hn
      refine ⟨op, e, more, ?_, b1, b2, b4, b5, b6⟩
      have : namedOp md = n := by rw [namedOp, hn]
      rw [b3, this, Spec.be32_eq]
      exact hm

/-! ## Examples -/

/-- Module 0 exports `1.2` (request/response) and `1.3` (fire-and-forget); module 1 imports both. -/
def modules121 : List (Bytes × Operations.Table) :=
  [([7], [⟨0, 1, 1, [1], [2]⟩, ⟨0, 2, 1, [1], [3]⟩]), ([8], [⟨0, 1, 2, [1], [2]⟩, ⟨0, 2, 2, [1], [3]⟩])]

def imports121 : Nat → List (Invoke.Call (Option Mesh.Dest))
  | 1 => [.exp .rr [1] [2] (some ⟨0, 0⟩), .exp .fnf [1] [3] (some ⟨0, 0⟩)]
  | _ => []

def exports121 : Nat → List (Invoke.Call (Option Mesh.Dest))
  | 0 => [.exp .rr [1] [2] none, .exp .fnf [1] [3] none]
  | _ => []

def hosts121 (k : Nat) : Registry (Option Mesh.Dest) := Invoke.run Registry.init (imports121 k)
def guests121 (k : Nat) : Registry (Option Mesh.Dest) := Invoke.run Registry.init (exports121 k)

def meshAfter (x : Go (MSys (Option Mesh.Dest))) : MSys (Option Mesh.Dest) :=
  match x with | .ok s => s | _ => .init hosts121 guests121

def loaded121 : Mesh.St := match Mesh.load modules121 with | .ok s => s | _ => .init

theorem modules121_has {i : Nat} {op : Operations.Operation} (h : Imports modules121 i op) :
    i = 1 ∧ (op = ⟨0, 1, 2, [1], [2]⟩ ∨ op = ⟨0, 2, 2, [1], [3]⟩) := by
  obtain ⟨⟨f, t, h1, h2⟩, h3⟩ := h
  match i, h1 with
  | 0, h1 =>
    cases h1
    simp only [List.mem_cons, List.not_mem_nil, or_false] at h2
    rcases h2 with rfl | rfl <;> cases h3
  | 1, h1 =>
    cases h1
    simp only [List.mem_cons, List.not_mem_nil, or_false] at h2
    exact ⟨rfl, h2⟩

/-- The hypotheses of `C121_names` are met. -/
example : WellFormed modules121 ∧ Mesh.load modules121 = .ok loaded121 ∧ handlersOf id hosts121 loaded121 := by
  refine ⟨⟨?_, ?_, ?_⟩, rfl, handlersOf_tables ?_⟩
  · intro i op h
    rcases (modules121_has h).2 with rfl | rfl
    · exact ⟨.rr, rfl⟩
    · exact ⟨.fnf, rfl⟩
  · intro i op h
    rcases (modules121_has h).2 with rfl | rfl <;> decide
  · intro i op op' h h' ht _
    rcases (modules121_has h).2 with rfl | rfl <;> rcases (modules121_has h').2 with rfl | rfl <;>
      first | exact ⟨rfl, rfl⟩ | cases ht
  · intro i k
    match i with
    | 0 => cases k <;> rfl
    | 1 => cases k <;> rfl
    | i + 2 => cases k <;> rfl

theorem tidy_few {s : Sys H} (h1 : callCount s.histA < 2 ^ 30) (h2 : callCount s.histB < 2 ^ 30)
    (h3 : s.histA.countP isMonoSub ≤ 1) (h4 : s.histB.countP isMonoSub ≤ 1) : Tidy s := by
  have once : ∀ (as : List Act), as.countP isMonoSub ≤ 1 → subscribedOnce as := by
    intro as h j
    refine Nat.le_trans (List.countP_mono_left ?_) h
    intro a _ hs
    cases a with
    | subscribeMono i inst => rfl
    | _ => cases hs
  exact ⟨h1, h2, once _ h3, once _ h4⟩

/-- What the handlers of the guests return. -/
def ret121 : Ret := ⟨.created, .created, true⟩

/-- The guest of module 1 makes the call and subscribes; the request reaches its host, is passed on to the guest of module
0 and is answered there, and the answer comes back. -/
def post121 : List MMove :=
  [.other 1 (.toA noReact), .forward 1 0, .other 0 (.toB noReact), .other 0 (.atB (.run 0 ret121)),
   .other 0 (.atB (.answer 0 (.success ⟨[7], [8]⟩))), .other 0 (.toA noReact), .other 1 (.toB noReact)]

def end121 : MSys (Option Mesh.Dest) :=
  meshAfter (MeshSystem.run id hosts121 guests121 ([] ++ .other 1 (.atB (.call .rr ⟨[5], eightZeros ++ [6]⟩ .created)) :: [] ++
    .other 1 (.atB (.subscribeMono 0 ⟨true, true, true⟩)) :: post121))

/-- The hypotheses of `C121_answer`, `C121_completes`, `C121_invoked` and `C121_one` are met, and the caller gets the answer. -/
example : meshCall id hosts121 guests121 1 [] (.init hosts121 guests121) ⟨[5], eightZeros ++ [6]⟩ .created [] ⟨true, true, true⟩
      post121 end121 ∧
    goesTo id (hosts121 1) .rr (eightZeros ++ [6]) ⟨0, 0⟩ ∧ (∀ k, Tidy (end121.inst k)) ∧ (∀ k, fewCalls (exports121 k)) ∧
    askedAll (end121.inst 1) 1 ∧ passedAs end121 1 1 0 2 ∧ settled (end121.inst 0) 2 ∧
    monoEvs 0 (end121.inst 1).trB = [.success 0 ⟨[7], [8]⟩, .fin 0 .complete] ∧
    verdicts (end121.inst 0).trB = [.invoked .rr none 2 ⟨[5], [6]⟩] := by
  refine ⟨⟨rfl, rfl⟩, rfl, ?_, ?_, ?_, ⟨⟨1, 1, 0, 0, 2, some 0⟩, .head _, rfl, rfl, rfl, rfl⟩, ?_, rfl, rfl⟩
  · intro k
    match k with
    | 0 => exact tidy_few (by decide +kernel) (by decide +kernel) (by decide +kernel) (by decide +kernel)
    | 1 => exact tidy_few (by decide +kernel) (by decide +kernel) (by decide +kernel) (by decide +kernel)
    | k + 2 =>
      have h1 : (end121.inst (k + 2)).histA = [] := rfl
      have h2 : (end121.inst (k + 2)).histB = [] := rfl
      exact tidy_few (by rw [h1]; decide) (by rw [h2]; decide) (by rw [h1]; decide) (by rw [h2]; decide)
  · intro k
    match k with
    | 0 => show 2 < 2 ^ 32; omega
    | k + 1 => show 0 < 2 ^ 32; omega
  · refine ⟨rfl, rfl, fun k data md n h => ?_⟩
    have : (end121.inst 1).a.tasks = [] := rfl
    rw [this] at h; cases h
  · refine ⟨rfl, rfl, fun k data md n h => ?_⟩
    have : (end121.inst 0).b.tasks = [] := rfl
    rw [this] at h; cases h

def postFnf121 : List MMove :=
  [.other 1 (.toA noReact), .forward 1 0, .other 0 (.toB noReact), .other 0 (.atB (.run 0 ret121))]

def endFnf121 : MSys (Option Mesh.Dest) :=
  meshAfter (MeshSystem.run id hosts121 guests121 ([] ++ .other 1 (.atB (.call .fnf ⟨[5], eightZeros ++ [6]⟩ .created)) ::
    postFnf121))

/-- The hypotheses of `C121_fnf` are met. -/
example : meshFnf id hosts121 guests121 1 [] (.init hosts121 guests121) ⟨[5], eightZeros ++ [6]⟩ .created postFnf121 endFnf121 ∧
    goesTo id (hosts121 1) .fnf (eightZeros ++ [6]) ⟨0, 0⟩ ∧ (∀ k, Tidy (endFnf121.inst k)) ∧ (∀ k, fewCalls (imports121 k)) ∧
    askedAll (endFnf121.inst 1) 1 ∧ passedAs endFnf121 1 1 0 2 ∧
    verdicts (endFnf121.inst 0).trB = [.invoked .fnf none 2 ⟨[5], [6]⟩] := by
  refine ⟨⟨rfl, rfl⟩, rfl, ?_, ?_, ?_, ⟨⟨1, 1, 0, 0, 2, none⟩, .head _, rfl, rfl, rfl, rfl⟩, rfl⟩
  · intro k
    match k with
    | 0 => exact tidy_few (by decide +kernel) (by decide +kernel) (by decide +kernel) (by decide +kernel)
    | 1 => exact tidy_few (by decide +kernel) (by decide +kernel) (by decide +kernel) (by decide +kernel)
    | k + 2 =>
      have h1 : (endFnf121.inst (k + 2)).histA = [] := rfl
      have h2 : (endFnf121.inst (k + 2)).histB = [] := rfl
      exact tidy_few (by rw [h1]; decide) (by rw [h2]; decide) (by rw [h1]; decide) (by rw [h2]; decide)
  · intro k
    match k with
    | 0 => show 0 < 2 ^ 32; omega
    | 1 => show 2 < 2 ^ 32; omega
    | k + 2 => show 0 < 2 ^ 32; omega
  · refine ⟨rfl, rfl, fun k data md n h => ?_⟩
    have : (endFnf121.inst 1).a.tasks = [] := rfl
    rw [this] at h; cases h

end
end

end Verif.Props
