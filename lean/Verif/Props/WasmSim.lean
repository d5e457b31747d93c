import Verif.Model.Wasm
import Verif.Props.Isolation
/-
A connection over wasm is like one over rsocket (`Verif/Model/System.lean`): each run of the one is a run of the
other, with the same frames and the same callbacks, if that one may leave streams out of its tables (`Ret.kept`).
-/
set_option autoImplicit false
namespace Verif.Props
open Verif Frames Handler
open Verif.Invoke (Kind Registry getHandler)
open Verif.System (Sys Move)
open Verif.WasmRecv (Side)

section
variable {H : Type}

/-! ## The requests an end sends -/

/-- The request of a stream of one's own. -/
def reqOf : Obj → Option RequestPayload
  | .mono req _ => some req
  | .flux req .. => some req
  | _ => none

def goodFrame (P : RequestPayload → Prop) : AnyFrame → Prop
  | .request g => P g
  | .setup _ => False
  | _ => True

theorem goodFrame_reply {P : RequestPayload → Prop} {f : AnyFrame} (h : isReply f = true) : goodFrame P f := by
  cases f <;> first | trivial | cases h

def GoodInv (P : RequestPayload → Prop) (j : Nat) (o : Obj) (es : List (Handler.Ev H)) : Prop :=
  (∀ req, reqOf o = some req → P req) ∧ ∀ f ∈ framesBy j es, goodFrame P f

theorem goodReq_step {P : RequestPayload → Prop} (hP : ∀ req n, P req → P { req with initialN := n })
    {j : Nat} {o o' : Obj} {ts ts' : List Task} {es es' : List (Handler.Ev H)}
    (hs : CStep j o ts o' ts' es') (inv : GoodInv P j o es) : GoodInv P j o' (es ++ es') := by
  obtain ⟨h1, h2⟩ := inv
  have reply : ∀ {id l} {r : List (Handler.Ev H)}, replyEvs j id l = .ok r → ∀ f ∈ framesBy j r, goodFrame P f := by
    intro id l r hr f hf
    rw [framesBy_replyEvs j id l r hr] at hf
    exact goodFrame_reply (isReply_signalFrame _ _ f hf)
  have demand : ∀ {id} {wrap : Flux.Ev Pay → Handler.Ev H} {l}, (∀ e, framesBy j [wrap e] = []) →
      ∀ f ∈ framesBy j (demandEvs j id wrap l), goodFrame P f := by
    intro id wrap l hw f hf
    rw [framesBy_demandEvs j _ _ hw _ f hf]; trivial
  have key : ∀ {o'' : Obj}, (∀ req, reqOf o'' = some req → P req) → (∀ f ∈ framesBy j es', goodFrame P f) →
      GoodInv P j o'' (es ++ es') := by
    intro o'' q1 q3
    refine ⟨q1, fun f hf => ?_⟩
    rw [framesBy_append] at hf
    rcases List.mem_append.mp hf with hf | hf
    · exact h2 f hf
    · exact q3 f hf
  cases hs
  case answer id m st sig h =>
    refine key h1 fun f hf => ?_
    rw [framesBy_answerEvs j _ _ _ h] at hf
    exact goodFrame_reply (isReply_outcomeFrame _ _ f hf)
  case outSub h => exact key h1 fun f hf => reply h f hf
  case outFirst h => exact key h1 fun f hf => reply h f hf
  case outReq h => exact key h1 fun f hf => reply h f hf
  case out h => exact key h1 fun f hf => reply h f hf
  case inp => exact key h1 (demand fun _ => rfl)
  case inpSub => exact key h1 (demand fun _ => rfl)
  case inpUp =>
    refine key h1 fun f hf => ?_
    simp [framesBy] at hf
    subst hf; trivial
  case monoOp req proc op hop =>
    refine key h1 fun f hf => ?_
    rw [(monoMap_quiet j _).1] at hf; cases hf
  case monoSub req proc inst =>
    refine key h1 fun f hf => ?_
    rw [framesBy_append, framesBy_cons, (monoMap_quiet j _).1] at hf
    have : f = .request req := by simpa [framesBy] using hf
    subst this; exact h1 _ rfl
  case fluxOp => exact key h1 (demand fun _ => rfl)
  case fluxIdle => exact key h1 fun f hf => by cases hf
  case fluxSub =>
    refine key h1 fun f hf => ?_
    rw [framesBy_cons] at hf
    exact demand (fun _ => rfl) f hf
  case upDone => exact key h1 fun f hf => by cases hf
  case upFirst req input sub n _ =>
    have h3 := hP req (u32 n) (h1 _ rfl)
    refine key (fun r hr => by cases hr; exact h3) fun f hf => ?_
    simp [framesBy] at hf
    subst hf; exact h3
  case upLater =>
    refine key h1 fun f hf => ?_
    simp [framesBy] at hf
    subst hf; trivial
  case inputSub h => exact key h1 fun f hf => reply h f hf
  case inputReq h => exact key h1 fun f hf => reply h f hf
  case input h => exact key h1 fun f hf => reply h f hf
  case asked => exact key h1 fun f hf => by cases hf

theorem goodReq_run {P : RequestPayload → Prop} (hP : ∀ req n, P req → P { req with initialN := n })
    {j : Nat} {o o' : Obj} {ts ts' : List Task} {es0 es : List (Handler.Ev H)}
    (inv : GoodInv P j o es0) (h : CRun j o ts o' ts' es) : GoodInv P j o' (es0 ++ es) := by
  induction h with
  | refl => simpa using inv
  | perm _ _ _ _ _ _ ih => exact ih
  | step _ _ _ _ _ _ _ hs ih => rw [← List.append_assoc]; exact goodReq_step hP hs ih

/-- A request comes from a call and announces no fragments. -/
def fromCall (as : List Act) (req : RequestPayload) : Prop :=
  req.follows = false ∧ ∃ k p src, .call k p src ∈ as ∧ kindOfType req.frameType = some k

theorem fromCall_more {as : List Act} (b : List Act) {req : RequestPayload} (h : fromCall as req) :
    fromCall (as ++ b) req := by
  obtain ⟨h1, k, p, src, h2, h3⟩ := h
  exact ⟨h1, k, p, src, List.mem_append_left _ h2, h3⟩

theorem reqOf_born {j : Nat} {o : Obj} {ts : List Task} {es : List (Handler.Ev H)} (h : Born j o ts es) :
    ∀ f ∈ framesBy j es, isReply f = true := by
  cases h with
  | answer id m _ h =>
    intro f hf
    rw [framesBy_answerEvs j _ _ _ h] at hf
    exact isReply_outcomeFrame _ _ f hf
  | fnf _ _ he => intro f hf; rw [framesBy_born he] at hf; cases hf
  | stream _ _ _ _ _ _ he => intro f hf; rw [framesBy_born (he.imp_right And.right)] at hf; cases hf
  | _ => intro f hf; cases hf

/-- The streams of an end are those of its calls. -/
theorem requests_from_calls {reg : Registry H} {client : Bool} (as : List Act) : ∀ {s : St H}
    {tr : List (Handler.Ev H)}, Handler.run reg client as = .ok (s, tr) → ∀ (i : Nat) (o : Obj),
    s.objs[i]? = some o → ∀ req, reqOf o = some req → fromCall as req := by
  induction as using snoc_induction with
  | nil => intro s tr h i o ho; cases h; simp [St.init] at ho
  | snoc as a ih =>
    intro s' tr h i o ho req hreq
    obtain ⟨s, t, e, h1, h2, rfl⟩ := run_snoc_inv _ _ _ _ _ _ h
    cases hold : s.objs[i]? with
    | some o0 =>
      obtain ⟨o', h3, h4⟩ := (loc_settle i s _ (loc_step i s a) s' e h2).1 o0 hold
      rw [ho] at h3; cases h3
      have h5 := goodReq_run (H := H) (P := fromCall (as ++ [a])) (fun _ _ h => h) (es0 := [])
        ⟨fun r hr => fromCall_more _ (ih h1 i o0 hold r hr), fun f hf => by cases hf⟩ h4
      exact h5.1 req hreq
    | none =>
      have hlen : s.objs.length ≤ i := List.getElem?_eq_none_iff.mp hold
      have last : ∀ (x : Obj), s'.objs = s.objs ++ [x] → o = x := by
        intro x hx
        rw [hx, List.getElem?_append_right hlen] at ho
        cases hz : i - s.objs.length with
        | zero => rw [hz] at ho; simp at ho; exact ho.symm
        | succ m => rw [hz] at ho; simp at ho
      have same : s'.objs = s.objs → False := by
        intro hx; rw [hx, hold] at ho; cases ho
      cases settle_shape _ _ _ _ h2 with
      | calm _ _ _ c1 =>
        exfalso
        have h3 := congrArg List.length c1
        simp only [List.length_map] at h3
        have := (List.getElem?_eq_some_iff.mp ho).1
        omega
      | request f r k hk => exact (same rfl).elim
      | serve t0 ret k id data md n _ _ ht hserve =>
        exfalso
        cases serve_served _ _ _ _ _ _ _ _ _ hserve with
        | short => exact same rfl
        | unknown => exact same rfl
        | rr => cases last _ rfl; cases hreq
        | other op hd _ _ g1 g2 g3 g4 g5 => cases last _ g5; cases hreq
      | call k p src =>
        have hm : Act.call k p src ∈ as ++ [.call k p src] := by simp
        cases k
        · cases last _ rfl; cases hreq; exact ⟨rfl, _, _, _, hm, rfl⟩
        · exact (same rfl).elim
        · cases last _ rfl; cases hreq; exact ⟨rfl, _, _, _, hm, rfl⟩
        · cases last _ rfl; cases hreq; exact ⟨rfl, _, _, _, hm, rfl⟩

/-- Loose frames are errors and fire-and-forget calls. -/
theorem loose_good {reg : Registry H} {client : Bool} (as : List Act) : ∀ {s : St H}
    {tr : List (Handler.Ev H)}, Handler.run reg client as = .ok (s, tr) → ∀ f ∈ looseFrames tr,
    goodFrame (fromCall as) f := by
  induction as using snoc_induction with
  | nil => intro s tr h f hf; cases h; simp [looseFrames] at hf
  | snoc as a ih =>
    intro s' tr h f hf
    obtain ⟨s, t, e, h1, h2, rfl⟩ := run_snoc_inv _ _ _ _ _ _ h
    rw [looseFrames_append] at hf
    rcases List.mem_append.mp hf with hf | hf
    · have := ih h1 f hf
      cases f <;> first | exact fromCall_more _ this | exact this
    · cases settle_shape _ _ _ _ h2 with
      | calm _ _ _ c1 c2 c3 => rw [c3] at hf; cases hf
      | request => cases hf
      | serve t0 ret k id data md n _ _ ht hserve =>
        cases serve_served _ _ _ _ _ _ _ _ _ hserve with
        | short hl => simp [looseFrames] at hf; subst hf; trivial
        | unknown op hl ho hn => simp [looseFrames] at hf; subst hf; trivial
        | rr op hd es g1 g2 g3 g4 he =>
          have := looseFrames_obj (answerEvs_obj _ _ _ _ he)
          have h5 : looseFrames (.invoked .rr hd id ⟨data, md.drop 8⟩ :: es) = [] := by
            simpa [looseFrames] using this
          rw [h5] at hf; cases hf
        | other op hd _ _ g1 g2 g3 g4 g5 g6 g7 => rw [g7] at hf; cases hf
      | call k p input =>
        cases k
        case fnf =>
          simp [call, looseFrames] at hf
          subst hf
          exact ⟨rfl, _, p, input, by simp, rfl⟩
        all_goals cases hf

theorem sent_good {reg : Registry H} {client : Bool} {as : List Act} {s : St H}
    {tr : List (Handler.Ev H)} (h : Handler.run reg client as = .ok (s, tr)) {f : AnyFrame} (hf : f ∈ sentFrames tr) :
    goodFrame (fromCall as) f := by
  obtain ⟨b, hb⟩ := sent_source hf
  cases b with
  | none => exact loose_good as h f (List.mem_filterMap.mpr ⟨_, hb, rfl⟩)
  | some j =>
    have hm : f ∈ framesBy j tr := framesBy_mem hb
    rcases Handler.history reg client as s tr h j with ⟨h1, -, h3⟩ | ⟨o0, ts0, es0, o, es, hb, ho', hr, he⟩
    · rw [framesBy_nil_of_evsOf h3] at hm; cases hm
    · -- every request it sends is one its object once had
      have base : GoodInv (fun q => q.follows = false ∧ ∀ req, reqOf o = some req → q.frameType = req.frameType) j o0 es0 := by
        refine ⟨fun req hreq => ⟨?_, fun r hr' => ?_⟩, fun f hf => goodFrame_reply (reqOf_born hb f hf)⟩
        · cases hb <;> cases hreq <;> rfl
        · have h6 := goodReq_run (H := H) (P := fun q => q.frameType = req.frameType) (fun _ _ h => h) (es0 := [])
            ⟨fun q hq => by rw [hreq] at hq; cases hq; rfl, fun f hf => by cases hf⟩ hr
          exact (h6.1 r hr').symm
      have h7 := (goodReq_run (fun _ _ h => h) base hr).2 f (by rw [← he, framesBy_evsOf]; exact hm)
      cases f with
      | request g =>
        have hown : o.own = true := by
          obtain ⟨o', h8, h9, h10⟩ := sent_history reg client as s tr h j _ (framesBy_sent hm)
          rw [ho'] at h8; cases h8
          exact h10 rfl
        obtain ⟨req, hreq⟩ : ∃ req, reqOf o = some req := by
          cases o
          · cases hown
          · cases hown
          · exact ⟨_, rfl⟩
          · exact ⟨_, rfl⟩
        obtain ⟨q1, k, p, src, q2, q3⟩ := requests_from_calls as h j o ho' req hreq
        exact ⟨h7.1, k, p, src, q2, by rw [h7.2 req hreq]; exact q3⟩
      | setup _ => exact h7
      | _ => trivial

/-! ## One end -/

/-- A frame both transports take in alike. -/
def fits : AnyFrame → Prop
  | .setup _ => False
  | .request v => v.follows = false
  | _ => True

/-- Traces of an end over wasm (first) and over rsocket (second): the same, but that errors of HandleFrame
are not noted over wasm, and that the handlers of a host get the routing prefix, too. -/
inductive Alike (side : Side) : List (Handler.Ev H) → List (Handler.Ev H) → Prop
  | nil : Alike side [] []
  | same (e) {l l'} (h : Alike side l l') : Alike side (e :: l) (e :: l')
  | refused (m) {l l'} (h : Alike side l l') : Alike side l (.refused m :: l')
  | prefixed (k hd id data md) {l l'} (hs : side = .host) (hk : k = .rr ∨ k = .fnf) (h : Alike side l l') :
      Alike side (.invoked k hd id ⟨data, md⟩ :: l) (.invoked k hd id ⟨data, md.drop 8⟩ :: l')

theorem Alike.refl (side : Side) (l : List (Handler.Ev H)) : Alike side l l := by
  induction l with
  | nil => exact .nil
  | cons e l ih => exact .same e ih

theorem Alike.append {side : Side} {a a' b b' : List (Handler.Ev H)} (h : Alike side a a') (h' : Alike side b b') :
    Alike side (a ++ b) (a' ++ b') := by
  induction h with
  | nil => exact h'
  | same e _ ih => exact .same e ih
  | refused m _ ih => exact .refused m ih
  | prefixed k hd id data md hs hk _ ih => exact .prefixed k hd id data md hs hk ih

/-- What is told of events other than these two is the same. -/
theorem Alike.filterMap {side : Side} {a a' : List (Handler.Ev H)} (h : Alike side a a') {α : Type}
    (g : Handler.Ev H → Option α) (h1 : ∀ m, g (.refused m) = none) (h2 : ∀ k hd id p, g (.invoked k hd id p) = none) :
    a.filterMap g = a'.filterMap g := by
  induction h with
  | nil => rfl
  | same e _ ih => simp only [List.filterMap_cons, ih]
  | refused m _ ih => simp only [List.filterMap_cons, h1, ih]
  | prefixed k hd id data md hs hk _ ih => simp only [List.filterMap_cons, h2, ih]

theorem Alike.filter {side : Side} {a a' : List (Handler.Ev H)} (h : Alike side a a') 
    (g : Handler.Ev H → Bool) (h1 : ∀ m, g (.refused m) = false) (h2 : ∀ k hd id p, g (.invoked k hd id p) = false) :
    a.filter g = a'.filter g := by
  induction h with
  | nil => rfl
  | same e _ ih => simp only [List.filter_cons, ih]
  | refused m _ ih => simp [List.filter_cons, h1, ih]
  | prefixed k hd id data md hs hk _ ih => simp [List.filter_cons, h2, ih]

theorem serve_alike {side : Side} {s s' : St H} {k : Kind} {id : UInt32} {data md : Bytes} {n : UInt32} {ret : Ret}
    {e : List (Handler.Ev H)} (hk : ret.kept = Wasm.keeps side) (h : Wasm.serve side s k id data md n ret = .ok (s', e)) :
    ∃ e', serve s k id data md n ret = .ok (s', e') ∧ Alike side e e' := by
  unfold Wasm.serve at h
  unfold serve
  split at h
  · cases h; rename_i hl; rw [if_pos hl]; exact ⟨_, rfl, .refl _ _⟩
  · rename_i hl
    rw [if_neg hl]
    obtain ⟨op, h1, h2⟩ := ok_of_bind h
    have hb : ∀ {α β : Type} (a : α) (f : α → Go β), (Go.ok a >>= f) = f a := fun _ _ => rfl
    rw [h1]
    simp only [hb]
    cases hg : getHandler s.reg k op with
    | none => simp only [hg] at h2; cases h2; exact ⟨_, rfl, .refl _ _⟩
    | some hd =>
      simp only [hg] at h2
      dsimp only
      cases k with
      | rr =>
        obtain ⟨es, h3, h4⟩ := ok_of_bind h2
        cases h4
        refine ⟨_, by show (answerEvs _ _ _ >>= _) = _; rw [h3]; rfl, ?_⟩
        cases side with
        | host => exact .prefixed _ _ _ _ _ rfl (.inl rfl) (.refl _ _)
        | guest => exact .refl _ _
      | fnf =>
        dsimp only
        rw [hk]
        cases side with
        | host => cases h2; exact ⟨_, rfl, .prefixed _ _ _ _ _ rfl (.inr rfl) .nil⟩
        | guest => cases h2; exact ⟨_, rfl, .refl _ _⟩
      | rs =>
        dsimp only
        rw [hk]
        cases side <;> (cases h2; exact ⟨_, rfl, .refl _ _⟩)
      | rc =>
        dsimp only
        rw [hk]
        cases side <;> (cases h2; exact ⟨_, rfl, .refl _ _⟩)

theorem recv_alike {side : Side} {s s' : St H} {f : AnyFrame} {r : React} {e : List (Handler.Ev H)} (hf : fits f)
    (h : Wasm.recv s f r = .ok (s', e)) :
    ∃ e', settle s (handleFrame s f r) = .ok (s', e') ∧ Alike side e e' := by
  unfold Wasm.recv at h
  unfold handleFrame
  split at h
  · rename_i ht
    rw [if_pos ht]
    split at h
    · rename_i hg
      cases h
      rw [hg]
      dsimp only
      split
      · exact ⟨_, rfl, .refused _ .nil⟩
      · exact ⟨_, rfl, .nil⟩
    · rename_i j hg
      rw [hg]
      dsimp only
      rw [h]
      exact ⟨_, rfl, .refl _ _⟩
  · rename_i ht
    rw [if_neg ht]
    split at h
    · rename_i v
      rw [if_neg (by rw [show v.follows = false from hf]; simp)] at h
      rw [h]
      exact ⟨_, rfl, .refl _ _⟩
    · rename_i hn
      exfalso
      cases f with
      | setup v => exact hf
      | request v => exact hn v rfl
      | requestN v => exact ht (by show typeRequestN ≥ typeRequestN; decide)
      | cancel v => exact ht (by show typeCancel ≥ typeRequestN; decide)
      | payload v => exact ht (by show typePayload ≥ typeRequestN; decide)
      | error v => exact ht (by show typeError ≥ typeRequestN; decide)

/-- One step over wasm is one over rsocket. -/
theorem step_alike {side : Side} {s s' : St H} {a : Act} {e : List (Handler.Ev H)}
    (hf : ∀ f r, a = .frame f r → fits f)
    (h : Wasm.step side s a = .ok (s', e)) :
    ∃ e', settle s (Handler.step s a) = .ok (s', e') ∧ Alike side e e' := by
  cases a with
  | frame f r => exact recv_alike (hf f r rfl) h
  | run t ret =>
    simp only [Wasm.step] at h
    split at h
    · cases h
    rename_i hkept
    have hkept : ret.kept = Wasm.keeps side := by simpa using hkept
    simp only [Handler.step]
    cases htk : s.tasks[t]? with
    | none => rw [htk] at h; cases h; exact ⟨_, rfl, .nil⟩
    | some task =>
      rw [htk] at h
      cases task with
      | request k id data md n =>
        obtain ⟨e', h1, h2⟩ := serve_alike hkept h
        exact ⟨e', by dsimp only [runTask]; rw [h1]; rfl, h2⟩
      | _ => 
        dsimp only at h ⊢
        rw [h]
        exact ⟨_, rfl, .refl _ _⟩
  | _ =>
    simp only [Wasm.step] at h
    rw [h]
    exact ⟨_, rfl, .refl _ _⟩

theorem wasm_runFrom_append (side : Side) (as : List Act) : ∀ (s0 : St H) (b : List Act),
    Wasm.runFrom side s0 (as ++ b) = andThen (Wasm.runFrom side s0 as) fun s => Wasm.runFrom side s b := by
  induction as with
  | nil =>
    intro s0 b
    simp only [List.nil_append, Wasm.runFrom, andThen]
    cases Wasm.runFrom side s0 b <;> simp
  | cons a as ih =>
    intro s0 b
    simp only [List.cons_append, Wasm.runFrom]
    cases hx : Wasm.step side s0 a with
    | ok p =>
      simp only [andThen]
      rw [ih]
      cases Wasm.runFrom side p.1 as with
      | ok q =>
        simp only [andThen]
        cases Wasm.runFrom side q.1 b <;> simp
      | err m => rfl
      | panic => rfl
    | err m => rfl
    | panic => rfl

theorem wasm_run_snoc_inv {side : Side} {reg : Registry H} {as : List Act} {a : Act} {s' : St H}
    {tr : List (Handler.Ev H)} (h : Wasm.run side reg (as ++ [a]) = .ok (s', tr)) :
    ∃ s t e, Wasm.run side reg as = .ok (s, t) ∧ Wasm.step side s a = .ok (s', e) ∧ tr = t ++ e := by
  unfold Wasm.run at h ⊢
  rw [wasm_runFrom_append] at h
  obtain ⟨s, t, e, h1, h2, rfl⟩ := andThen_ok h
  obtain ⟨s2, t2, e2, h3, h4, rfl⟩ := andThen_ok h2
  cases h4
  exact ⟨s, t, t2, h1, h3, by simp⟩

theorem wasm_run_snoc {side : Side} {reg : Registry H} {as : List Act} {a : Act} {s s' : St H}
    {tr e : List (Handler.Ev H)} (h : Wasm.run side reg as = .ok (s, tr)) (hs : Wasm.step side s a = .ok (s', e)) :
    Wasm.run side reg (as ++ [a]) = .ok (s', tr ++ e) := by
  unfold Wasm.run at h ⊢
  rw [wasm_runFrom_append, h]
  simp only [andThen, Wasm.runFrom, hs, List.append_nil]

/-- A history over wasm is one over rsocket, in which the end is in the same state. -/
theorem run_alike {side : Side} {reg : Registry H} (as : List Act) : ∀ {s : St H} {tr : List (Handler.Ev H)},
    Wasm.run side reg as = .ok (s, tr) → (∀ f ∈ handedOver as, fits f) →
    ∃ tr', Handler.run reg (Wasm.Side.client side) as = .ok (s, tr') ∧ Alike side tr tr' := by
  induction as using snoc_induction with
  | nil => intro s tr h _; cases h; exact ⟨_, rfl, .nil⟩
  | snoc as a ih =>
    intro s' tr h hf
    obtain ⟨s, t, e, h1, h2, rfl⟩ := wasm_run_snoc_inv h
    obtain ⟨t', h3, h4⟩ := ih h1 fun f hm => hf f (by rw [handedOver_append]; exact List.mem_append_left _ hm)
    obtain ⟨e', h5, h6⟩ := step_alike (fun f r hfr => hf f (by subst hfr; rw [handedOver_append]; simp [handedOver])) h2
    exact ⟨t' ++ e', handler_run_snoc _ _ _ _ _ _ _ _ h3 h5, h4.append h6⟩

/-! ## Both ends -/

/-- A connection over wasm (first) and one over rsocket (second) in the same state. -/
structure SysAlike (side : Side) (s s' : Sys H) : Prop where
  a : s'.a = s.a
  b : s'.b = s.b
  ab : s'.ab = s.ab
  ba : s'.ba = s.ba
  histA : s'.histA = s.histA
  histB : s'.histB = s.histB
  trA : Alike side s.trA s'.trA
  trB : Alike (Wasm.Side.other side) s.trB s'.trB

theorem fits_of_good {f : AnyFrame} {as : List Act} (hg : goodFrame (fromCall as) f) : fits f := by
  cases f with
  | setup v => exact hg
  | request v => exact hg.1
  | _ => trivial

theorem wire_alike {side : Side} {e e' : List (Handler.Ev H)} (h : Alike side e e') : System.wire e = System.wire e' :=
  h.filterMap _ (fun _ => rfl) (fun _ _ _ _ => rfl)

theorem other_client (side : Side) : Wasm.Side.client (Wasm.Side.other side) = !Wasm.Side.client side := by
  cases side <;> rfl

/-- All frames handed to an end, and all on their way to it, fit. -/
theorem fitsA {client : Bool} {regA regB : Registry H} {s : Sys H} (hj : Joined regA regB client s) :
    ∀ f, f ∈ handedOver s.histA ∨ f ∈ s.ba → fits f :=
  fun f hf => fits_of_good (as := s.histB) (sent_good hj.b (by rw [hj.ba]; exact List.mem_append.mpr hf))

theorem fitsB {client : Bool} {regA regB : Registry H} {s : Sys H} (hj : Joined regA regB client s) :
    ∀ f, f ∈ handedOver s.histB ∨ f ∈ s.ab → fits f :=
  fun f hf => fits_of_good (as := s.histA) (sent_good hj.a (by rw [hj.ab]; exact List.mem_append.mpr hf))

theorem moveA_alike {side : Side} {regA regB : Registry H} {s s' t : Sys H} {act : Act} (rest : List AnyFrame)
    (hj : Joined regA regB (Wasm.Side.client side) s') (hs : SysAlike side s s')
    (hq : ∀ f r, act = .frame f r → f ∈ s'.ba)
    (h : Wasm.moveA side { s with ba := rest } act = .ok t) :
    ∃ t', System.moveA { s' with ba := rest } act = .ok t' ∧ SysAlike side t t' := by
  unfold Wasm.moveA at h
  dsimp only at h
  split at h
  · rename_i a e he
    cases h
    rw [← hs.a] at he
    obtain ⟨e', h1, h2⟩ := step_alike (fun f r hf => fitsA hj f (.inr (hq f r hf))) he
    refine ⟨_, by unfold System.moveA; dsimp only; rw [h1], ?_⟩
    exact ⟨rfl, hs.b, by dsimp only; rw [hs.ab, wire_alike h2], rfl, by dsimp only; rw [hs.histA], hs.histB,
      hs.trA.append h2, hs.trB⟩
  · cases h
  · cases h

theorem moveB_alike {side : Side} {regA regB : Registry H} {s s' t : Sys H} {act : Act} (rest : List AnyFrame)
    (hj : Joined regA regB (Wasm.Side.client side) s') (hs : SysAlike side s s')
    (hq : ∀ f r, act = .frame f r → f ∈ s'.ab)
    (h : Wasm.moveB side { s with ab := rest } act = .ok t) :
    ∃ t', System.moveB { s' with ab := rest } act = .ok t' ∧ SysAlike side t t' := by
  unfold Wasm.moveB at h
  dsimp only at h
  split at h
  · rename_i b e he
    cases h
    rw [← hs.b] at he
    obtain ⟨e', h1, h2⟩ := step_alike (fun f r hf => fitsB hj f (.inr (hq f r hf))) he
    refine ⟨_, by unfold System.moveB; dsimp only; rw [h1], ?_⟩
    exact ⟨hs.a, rfl, rfl, by dsimp only; rw [hs.ba, wire_alike h2], hs.histA, by dsimp only; rw [hs.histB],
      hs.trA, hs.trB.append h2⟩
  · cases h
  · cases h

theorem no_frame_act {act : Act} (h : ¬ System.isFrame act = true) : ∀ f r, act ≠ .frame f r := by
  rintro f r rfl; exact h rfl

theorem stepSys_alike {side : Side} {regA regB : Registry H} {s s' t : Sys H} (m : Move)
    (hj : Joined regA regB (Wasm.Side.client side) s') (hs : SysAlike side s s')
    (h : Wasm.stepSys side s m = .ok t) :
    ∃ t', System.step s' m = .ok t' ∧ SysAlike side t t' := by
  cases m with
  | atA act =>
    simp only [Wasm.stepSys] at h
    simp only [System.step]
    split at h
    · rename_i hf; cases h; rw [if_pos hf]; exact ⟨_, rfl, hs⟩
    · rename_i hf
      rw [if_neg hf]
      have := moveA_alike (act := act) s.ba hj hs (fun f r e => absurd e (no_frame_act hf f r)) h
      rwa [← hs.ba] at this
  | atB act =>
    simp only [Wasm.stepSys] at h
    simp only [System.step]
    split at h
    · rename_i hf; cases h; rw [if_pos hf]; exact ⟨_, rfl, hs⟩
    · rename_i hf
      rw [if_neg hf]
      have := moveB_alike (act := act) s.ab hj hs (fun f r e => absurd e (no_frame_act hf f r)) h
      rwa [← hs.ab] at this
  | toA r =>
    simp only [Wasm.stepSys] at h
    simp only [System.step]
    rw [hs.ba]
    split at h
    · rename_i hf; cases h; simp only [hf]; exact ⟨_, rfl, hs⟩
    · rename_i f fs hf
      simp only [hf]
      exact moveA_alike fs hj hs (fun g r e => by cases e; rw [hs.ba, hf]; simp) h
  | toB r =>
    simp only [Wasm.stepSys] at h
    simp only [System.step]
    rw [hs.ab]
    split at h
    · rename_i hf; cases h; simp only [hf]; exact ⟨_, rfl, hs⟩
    · rename_i f fs hf
      simp only [hf]
      exact moveB_alike fs hj hs (fun g r e => by cases e; rw [hs.ab, hf]; simp) h

/-- The histories only grow. -/
theorem runSysFrom_append {side : Side} (ms : List Move) : ∀ (s : Sys H) (b : List Move),
    Wasm.runSysFrom side s (ms ++ b) = (match Wasm.runSysFrom side s ms with
      | .ok t => Wasm.runSysFrom side t b
      | .err e => .err e
      | .panic => .panic) := by
  induction ms with
  | nil => intro s b; rfl
  | cons m ms ih =>
    intro s b
    simp only [List.cons_append, Wasm.runSysFrom]
    cases Wasm.stepSys side s m with
    | ok t => exact ih t b
    | err e => rfl
    | panic => rfl

theorem system_runFrom_append (ms : List Move) : ∀ (s : Sys H) (b : List Move),
    System.runFrom s (ms ++ b) = (match System.runFrom s ms with
      | .ok t => System.runFrom t b
      | .err e => .err e
      | .panic => .panic) := by
  induction ms with
  | nil => intro s b; rfl
  | cons m ms ih =>
    intro s b
    simp only [List.cons_append, System.runFrom]
    cases System.step s m with
    | ok t => exact ih t b
    | err e => rfl
    | panic => rfl

theorem runSys_snoc_inv {side : Side} {regA regB : Registry H} {ms : List Move} {m : Move} {t : Sys H}
    (h : Wasm.runSys side regA regB (ms ++ [m]) = .ok t) :
    ∃ s, Wasm.runSys side regA regB ms = .ok s ∧ Wasm.stepSys side s m = .ok t := by
  unfold Wasm.runSys at h ⊢
  rw [runSysFrom_append] at h
  split at h
  · rename_i s hs
    refine ⟨s, hs, ?_⟩
    simp only [Wasm.runSysFrom] at h
    split at h
    · rename_i hx; rw [hx]; exact h
    · cases h
    · cases h
  · cases h
  · cases h

/-- A run of a connection over wasm is a run of a connection over rsocket. -/
theorem runSys_alike {side : Side} {regA regB : Registry H} (ms : List Move) : ∀ {s : Sys H},
    Wasm.runSys side regA regB ms = .ok s →
    ∃ s', System.run regA regB (Wasm.Side.client side) ms = .ok s' ∧ SysAlike side s s' := by
  induction ms using snoc_induction with
  | nil => intro s h; cases h; exact ⟨_, rfl, rfl, rfl, rfl, rfl, rfl, rfl, .nil, .nil⟩
  | snoc ms m ih =>
    intro t h
    obtain ⟨s, h1, h2⟩ := runSys_snoc_inv h
    obtain ⟨s', h3, h4⟩ := ih h1
    obtain ⟨t', h5, h6⟩ := stepSys_alike m (joined_run _ h3) h4 h2
    refine ⟨t', ?_, h6⟩
    unfold System.run at h3 ⊢
    rw [system_runFrom_append, h3]
    simp only [System.runFrom, h5]

/-- Each end runs on its own. -/
theorem runSys_ends {side : Side} {regA regB : Registry H} (ms : List Move) : ∀ {s : Sys H},
    Wasm.runSys side regA regB ms = .ok s →
    Wasm.run side regA s.histA = .ok (s.a, s.trA) ∧ Wasm.run (Wasm.Side.other side) regB s.histB = .ok (s.b, s.trB) := by
  induction ms using snoc_induction with
  | nil =>
    intro s h; cases h
    refine ⟨rfl, ?_⟩
    show Wasm.runFrom _ _ _ = _
    rw [other_client]; rfl
  | snoc ms m ih =>
    intro t h
    obtain ⟨s, h1, h2⟩ := runSys_snoc_inv h
    obtain ⟨hA, hB⟩ := ih h1
    have mA : ∀ {l act}, Wasm.moveA side { s with ba := l } act = .ok t →
        Wasm.run side regA t.histA = .ok (t.a, t.trA) ∧ Wasm.run (Wasm.Side.other side) regB t.histB = .ok (t.b, t.trB) := by
      intro l act h
      unfold Wasm.moveA at h
      dsimp only at h
      split at h
      · rename_i a e he; cases h; exact ⟨wasm_run_snoc hA he, hB⟩
      · cases h
      · cases h
    have mB : ∀ {l act}, Wasm.moveB side { s with ab := l } act = .ok t →
        Wasm.run side regA t.histA = .ok (t.a, t.trA) ∧ Wasm.run (Wasm.Side.other side) regB t.histB = .ok (t.b, t.trB) := by
      intro l act h
      unfold Wasm.moveB at h
      dsimp only at h
      split at h
      · rename_i a e he; cases h; exact ⟨hA, wasm_run_snoc hB he⟩
      · cases h
      · cases h
    cases m with
    | atA act =>
      simp only [Wasm.stepSys] at h2
      split at h2
      · cases h2; exact ⟨hA, hB⟩
      · exact mA (l := s.ba) h2
    | atB act =>
      simp only [Wasm.stepSys] at h2
      split at h2
      · cases h2; exact ⟨hA, hB⟩
      · exact mB (l := s.ab) h2
    | toA r =>
      simp only [Wasm.stepSys] at h2
      split at h2
      · cases h2; exact ⟨hA, hB⟩
      · exact mA h2
    | toB r =>
      simp only [Wasm.stepSys] at h2
      split at h2
      · cases h2; exact ⟨hA, hB⟩
      · exact mB h2

end
end Verif.Props
