import Verif.Model.TcpSystem
import Verif.Props.TcpConn
import Verif.Props.WasmSim
/-
Property C109: two ends connected by TCP get each other's frames.
-/
set_option autoImplicit false
namespace Verif.Props
open Verif Frames Handler
open Verif.Invoke (Kind Registry)

section
variable {H : Type}

/-! ## Specification -/

/-- All frames handed over at an end were sent by the other, in this order, and nothing in between was left out. -/
def unchanged (t : TcpSystem.Sys H) : Prop :=
  handedOver t.histB <+: (sentFrames t.trA).map frameSeen ∧ handedOver t.histA <+: (sentFrames t.trB).map frameSeen

/-- Only TCP and the receivers are busy. -/
def transfer : TcpSystem.Move → Bool
  | .carryAB _ | .carryBA _ | .readA | .readB => true
  | _ => false

/-- Everything sent and not handed over yet can still come in: once TCP has carried all of it, the receivers read
exactly the missing frames. -/
def canArrive (t : TcpSystem.Sys H) : Prop :=
  ∃ ms t', (∀ m ∈ ms, transfer m = true) ∧ TcpSystem.runFrom t ms = .ok t' ∧
    handedOver t.histB ++ t'.ab.queue = (sentFrames t.trA).map frameSeen ∧
    handedOver t.histA ++ t'.ba.queue = (sentFrames t.trB).map frameSeen

/-- What an end does in a move, as far as it goes on above the transport (`none`: nothing). -/
def inEnd (t : TcpSystem.Sys H) : TcpSystem.Move → Option (Go (St H × List (Handler.Ev H)))
  | .atA act => if System.isFrame act then none else some (settle t.a (Handler.step t.a act))
  | .atB act => if System.isFrame act then none else some (settle t.b (Handler.step t.b act))
  | .toA r => match t.ba.queue with
    | [] => none
    | f :: _ => some (settle t.a (Handler.step t.a (.frame f r)))
  | .toB r => match t.ab.queue with
    | [] => none
    | f :: _ => some (settle t.b (Handler.step t.b (.frame f r)))
  | _ => none

/-- The frames it sends in doing so. -/
def sendsNow (t : TcpSystem.Sys H) (m : TcpSystem.Move) : List AnyFrame :=
  match inEnd t m with
  | some (.ok (_, e)) => sentFrames e
  | _ => []

/-- The transport itself does not crash. -/
def transportHolds (t : TcpSystem.Sys H) : Prop :=
  ∀ m, TcpSystem.step t m = .panic → inEnd t m = some .panic

/-- C109 as stated in English. -/
def C109_statement (H : Type) : Prop :=
  ∀ (regA regB : Registry H) (client : Bool) (ms : List TcpSystem.Move) (t : TcpSystem.Sys H),
    TcpSystem.run regA regB client ms = .ok t → unchanged t ∧ canArrive t ∧ transportHolds t

/-- No frame sent so far has 4 GiB or more. -/
def below4G (tr : List (Handler.Ev H)) : Prop := ∀ f ∈ sentFrames tr, bodySize f + 13 < 2 ^ 32

/-- What an end is told: the frame as it is seen by the receiver. -/
def seenAct : Act → Act
  | .frame f r => .frame (frameSeen f) r
  | a => a

/-! ## The frames an end sends -/

theorem ordinary_replyEvs (j : Nat) (id : UInt32) (l : List (Flux.Ev Pay)) :
    ∀ r : List (Handler.Ev H), replyEvs j id l = .ok r → ∀ b f, .sent b f ∈ r → Ordinary f := by
  induction l with
  | nil => intro r h; cases h; simp
  | cons x l ih =>
    intro r h
    simp only [replyEvs] at h
    obtain ⟨a, ha, h⟩ := bind_ok_inv h
    obtain ⟨b, hb, h⟩ := bind_ok_inv h
    cases h
    intro o f hf
    rcases List.mem_append.mp hf with hf | hf
    · unfold replyEv at ha
      split at ha <;> cases ha <;> simp [errorFrame] at hf <;> (obtain ⟨-, rfl⟩ := hf; trivial)
    · exact ih _ hb o f hf

theorem ordinary_answerEvs (j : Nat) (id : UInt32) (l : List (Mono.Ev Pay)) :
    ∀ r : List (Handler.Ev H), answerEvs j id l = .ok r → ∀ b f, .sent b f ∈ r → Ordinary f := by
  induction l with
  | nil => intro r h; cases h; simp
  | cons x l ih =>
    intro r h
    simp only [answerEvs] at h
    obtain ⟨a, ha, h⟩ := bind_ok_inv h
    obtain ⟨b, hb, h⟩ := bind_ok_inv h
    cases h
    intro o f hf
    rcases List.mem_append.mp hf with hf | hf
    · unfold answerEv at ha
      split at ha <;> cases ha <;> simp [errorFrame] at hf <;> (obtain ⟨-, rfl⟩ := hf; trivial)
    · exact ih _ hb o f hf

theorem ordinary_demandEvs (j : Nat) (id : UInt32) (wrap : Flux.Ev Pay → Handler.Ev H)
    (hw : ∀ e b f, wrap e ≠ .sent b f) (l : List (Flux.Ev Pay)) :
    ∀ b f, .sent b f ∈ demandEvs j id wrap l → Ordinary f := by
  induction l with
  | nil => intro b f h; cases h
  | cons x l ih =>
    intro b f h
    cases x <;> simp only [demandEvs, List.mem_cons] at h
    case upCancel =>
      rcases h with h | h | h
      · exact absurd h.symm (hw _ _ _)
      · cases h; trivial
      · exact ih b f h
    all_goals
      rcases h with h | h
      · exact absurd h.symm (hw _ _ _)
      · exact ih b f h

/-- The request of a call. -/
def ownRequest : Obj → Prop
  | .mono req _ => req.frameType = typeRequestResponse ∧ req.follows = false ∧ req.initialN = 1
  | .flux req .. => (req.frameType = typeRequestStream ∨ req.frameType = typeRequestChannel) ∧ req.follows = false
  | _ => True

theorem ordinary_step {j : Nat} {o o' : Obj} {ts ts' : List Task} {es : List (Handler.Ev H)}
    (ho : ownRequest o) (h : CStep j o ts o' ts' es) :
    ownRequest o' ∧ ∀ b f, .sent b f ∈ es → Ordinary f := by
  cases h with
  | answer id m st _ sig _ h => exact ⟨ho, ordinary_answerEvs _ _ _ _ h⟩
  | outSub k id out b inp f n ts _ h => exact ⟨ho, ordinary_replyEvs _ _ _ _ h⟩
  | outFirst k id g st b inp f n _ _ hf h => exact ⟨ho, ordinary_replyEvs _ _ _ _ h⟩
  | outReq k id f st inp n _ _ h => exact ⟨ho, ordinary_replyEvs _ _ _ _ h⟩
  | out k id f st b inp _ _ op hf h => exact ⟨ho, ordinary_replyEvs _ _ _ _ h⟩
  | inp k id out b st ts op _ => exact ⟨ho, ordinary_demandEvs _ _ _ (by simp) _⟩
  | inpSub id out b ts inst start => exact ⟨ho, ordinary_demandEvs _ _ _ (by simp) _⟩
  | inpUp k id out b inp n => exact ⟨ho, by intro b f h; simp at h; obtain ⟨-, rfl⟩ := h; trivial⟩
  | monoOp req proc _ op hop => exact ⟨ho, by intro b f h; simp at h⟩
  | monoSub req proc _ inst =>
    refine ⟨ho, fun b f h => ?_⟩
    simp at h
    obtain ⟨-, rfl⟩ := h
    exact ⟨.inl ho.1, ho.2.1, fun _ _ => ho.2.2⟩
  | fluxOp req first c input st ts op _ => exact ⟨ho, ordinary_demandEvs _ _ _ (by simp) _⟩
  | fluxIdle req first c input _ op => exact ⟨ho, by simp⟩
  | fluxSub req first c input ts inst start =>
    refine ⟨ho, fun b f h => ?_⟩
    rcases List.mem_cons.mp h with h | h
    · cases h
    · exact ordinary_demandEvs _ _ _ (by simp) _ _ _ h
  | upDone req first input sub n => exact ⟨ho, by simp⟩
  | upFirst req input sub n ts =>
    refine ⟨ho, fun b f h => ?_⟩
    simp at h
    obtain ⟨-, rfl⟩ := h
    exact ⟨ho.1.elim (fun h => .inr (.inr (.inl h))) (fun h => .inr (.inr (.inr h))), ho.2,
      fun h1 h2 => (ho.1.elim h1 h2).elim⟩
  | upLater req input sub n => exact ⟨ho, by intro b f h; simp at h; obtain ⟨-, rfl⟩ := h; trivial⟩
  | inputSub req first c f sub _ _ h => exact ⟨ho, ordinary_replyEvs _ _ _ _ h⟩
  | inputReq req first c f st sub n _ _ hf h => exact ⟨ho, ordinary_replyEvs _ _ _ _ h⟩
  | input req first c f st sub _ _ op hf h => exact ⟨ho, ordinary_replyEvs _ _ _ _ h⟩
  | asked _ ts n => exact ⟨ho, by simp⟩

theorem ordinary_crun {j : Nat} {o o' : Obj} {ts ts' : List Task} {es : List (Handler.Ev H)}
    (ho : ownRequest o) (h : CRun j o ts o' ts' es) :
    ownRequest o' ∧ ∀ b f, .sent b f ∈ es → Ordinary f := by
  induction h with
  | refl => exact ⟨ho, by simp⟩
  | perm _ _ _ _ _ _ ih => exact ih
  | step _ _ _ _ _ _ _ hs ih =>
    obtain ⟨h1, h2⟩ := ordinary_step ih.1 hs
    exact ⟨h1, fun b f h => (List.mem_append.mp h).elim (ih.2 b f) (h2 b f)⟩

theorem ordinary_born {j : Nat} {o : Obj} {ts : List Task} {es : List (Handler.Ev H)} (h : Born j o ts es) :
    ownRequest o ∧ ∀ b f, .sent b f ∈ es → Ordinary f := by
  cases h with
  | answer id m _ h => exact ⟨trivial, ordinary_answerEvs _ _ _ _ h⟩
  | fnf id _ he => exact ⟨trivial, by rcases he with rfl | rfl <;> simp⟩
  | stream k id f n _ hk he => exact ⟨trivial, by rcases he with rfl | ⟨-, rfl⟩ <;> simp⟩
  | mono id p => exact ⟨⟨rfl, rfl, rfl⟩, by simp⟩
  | rs id p => exact ⟨⟨.inl rfl, rfl⟩, by simp⟩
  | rc id p input => exact ⟨⟨.inr rfl, rfl⟩, by simp⟩

/-- Frames without a stream: rejections and fire-and-forget requests. -/
theorem ordinary_loose {s s' : St H} {a : Act} {e : List (Handler.Ev H)} (h : Shape s a s' e) :
    ∀ f ∈ looseFrames e, Ordinary f := by
  cases h with
  | calm a s' e h1 h2 h3 => rw [h3]; simp
  | request => intro f h; cases h
  | serve t ret k id data md n s' e ht h =>
    have hs := serve_served _ _ _ _ _ _ _ _ _ h
    cases hs with
    | short => intro f h; simp [looseFrames] at h; subst h; trivial
    | unknown => intro f h; simp [looseFrames] at h; subst h; trivial
    | rr op hd es _ _ _ _ he =>
      have : looseFrames (.invoked .rr hd id ⟨data, md.drop 8⟩ :: es) = looseFrames es := rfl
      rw [this, looseFrames_obj (answerEvs_obj _ _ _ _ he)]
      simp
    | other _ _ _ _ _ _ _ _ _ _ h3 => rw [h3]; simp
  | call k p input =>
    intro f h
    cases k <;> simp [call, looseFrames] at h
    subst h
    exact ⟨.inr (.inl rfl), rfl, fun _ _ => rfl⟩

theorem sent_ordinary {reg : Registry H} {client : Bool} {as : List Act} {s : St H} {tr : List (Handler.Ev H)}
    (h : Handler.run reg client as = .ok (s, tr)) : ∀ f ∈ sentFrames tr, Ordinary f := by
  intro f hf
  obtain ⟨b, hb⟩ := sent_source hf
  cases b with
  | some j =>
    have hm : .sent (some j) f ∈ evsOf j tr := List.mem_filter.mpr ⟨hb, by simp [Handler.Ev.obj]⟩
    rcases Handler.history reg client as s tr h j with ⟨-, -, h3⟩ | ⟨o0, ts0, es0, o, es, hbn, -, hr, he⟩
    · rw [h3] at hm; cases hm
    · rw [he] at hm
      obtain ⟨h1, h2⟩ := ordinary_born hbn
      exact (List.mem_append.mp hm).elim (h2 _ f) ((ordinary_crun h1 hr).2 _ f)
  | none =>
    have hl := looseFrames_mem hb
    clear hf hb
    induction as using snoc_induction generalizing s tr with
    | nil => cases h; cases hl
    | snoc as a ih =>
      obtain ⟨s1, t, e, h1, h2, rfl⟩ := run_snoc_inv _ _ _ _ _ _ h
      rw [looseFrames_append] at hl
      exact (List.mem_append.mp hl).elim (ih h1) (ordinary_loose (settle_shape _ _ _ _ h2) f)

/-! ## Their ids -/

theorem masked_lt (v : UInt64) : (StreamIds.maskStreamID &&& v).toUInt32.toNat < 2 ^ 31 := by
  have h : (StreamIds.maskStreamID &&& v).toNat ≤ StreamIds.maskStreamID.toNat := by
    rw [UInt64.toNat_and]; exact Nat.and_le_left
  have hm : StreamIds.maskStreamID.toNat < 2 ^ 31 := by decide
  have : (StreamIds.maskStreamID &&& v).toUInt32.toNat = (StreamIds.maskStreamID &&& v).toNat % 2 ^ 32 :=
    UInt64.toNat_toUInt32 _
  omega

theorem nextID_lt (client : Bool) (p : UInt64) : (nextID client p).2.toNat < 2 ^ 31 := by
  have hc : ∀ p q r, StreamIds.clientStep p = (q, some r) → r.1.toNat < 2 ^ 31 := by
    intro p q r h
    simp only [StreamIds.clientStep] at h
    split at h <;> cases h
    exact masked_lt _
  have hs : ∀ p q r, StreamIds.serverStep p = (q, some r) → r.1.toNat < 2 ^ 31 := by
    intro p q r h
    simp only [StreamIds.serverStep] at h
    split at h <;> cases h
    exact masked_lt _
  unfold nextID
  dsimp only
  cases client <;> simp only [Bool.false_eq_true, if_true, if_false]
  all_goals
    split
    · first | exact hc _ _ _ ‹_› | exact hs _ _ _ ‹_›
    · split
      · first | exact hc _ _ _ ‹_› | exact hs _ _ _ ‹_›
      · show (0 : UInt32).toNat < 2 ^ 31; decide

theorem callIds_lt (client : Bool) (as : List Act) : ∀ c, ∀ x ∈ callIds client c as, x.toNat < 2 ^ 31 := by
  induction as with
  | nil => intro c x h; cases h
  | cons a as ih =>
    intro c x h
    cases a <;> simp only [callIds, List.mem_cons] at h
    case call =>
      rcases h with rfl | h
      · exact nextID_lt _ _
      · exact ih _ _ h
    all_goals exact ih _ _ h

theorem ordinary_looseKey {f : AnyFrame} : (looseKey f).2 = f.streamID := by cases f <;> rfl

/-- An end only uses ids below 2^31, if its peer does. -/
theorem sent_ids {reg : Registry H} {client : Bool} {as : List Act} {s : St H} {tr : List (Handler.Ev H)}
    (h : Handler.run reg client as = .ok (s, tr)) (hr : ∀ x ∈ requestIds as, x.toNat < 2 ^ 31) :
    ∀ f ∈ sentFrames tr, f.streamID.toNat < 2 ^ 31 := by
  intro f hf
  obtain ⟨b, hb⟩ := sent_source hf
  have key : ∃ k ∈ idsIn s tr, k.2 = f.streamID := by
    cases b with
    | none => exact ⟨_, loose_key_mem (looseFrames_mem hb), ordinary_looseKey⟩
    | some j =>
      obtain ⟨o, h1, h2, -⟩ := sent_history reg client as s tr h j f hb
      exact ⟨_, obj_key_mem h1, h2.symm⟩
  obtain ⟨k, hk, he⟩ := key
  rw [← he]
  rcases mem_requestIds_of_key h _ hk with ⟨-, h2⟩ | ⟨-, h2⟩
  · exact callIds_lt _ _ _ _ h2
  · exact hr _ h2

theorem sent_request_ids {reg : Registry H} {client : Bool} {as : List Act} {s : St H} {tr : List (Handler.Ev H)}
    (h : Handler.run reg client as = .ok (s, tr)) :
    ∀ x ∈ requestFrameIds (sentFrames tr), x.toNat < 2 ^ 31 := by
  intro x hx
  obtain ⟨f, hf, rfl⟩ := List.mem_map.mp hx
  obtain ⟨hf, hr⟩ := List.mem_filter.mp hf
  obtain ⟨b, hb⟩ := sent_source hf
  have key : (true, f.streamID) ∈ idsIn s tr := by
    cases b with
    | none => rw [← looseKey_req hr]; exact loose_key_mem (looseFrames_mem hb)
    | some j =>
      obtain ⟨o, h1, h2, h3⟩ := sent_history reg client as s tr h j f hb
      have : o.key = (true, f.streamID) := by rw [h2]; exact Prod.ext (h3 hr) rfl
      rw [← this]; exact obj_key_mem h1
  rcases mem_requestIds_of_key h _ key with ⟨-, h2⟩ | ⟨h2, -⟩
  · exact callIds_lt _ _ _ _ h2
  · cases h2

/-- All frames on a connection have ids below 2^31 and are ordinary. -/
theorem connection_frames {regA regB : Registry H} {client : Bool} {s : System.Sys H}
    (hj : Joined regA regB client s) :
    (∀ f ∈ sentFrames s.trA, Ordinary f ∧ f.streamID.toNat < 2 ^ 31) ∧
    (∀ f ∈ sentFrames s.trB, Ordinary f ∧ f.streamID.toNat < 2 ^ 31) := by
  have sub : ∀ {as : List Act} {fs q : List AnyFrame}, fs = handedOver as ++ q →
      (∀ x ∈ requestFrameIds fs, x.toNat < 2 ^ 31) → ∀ x ∈ requestIds as, x.toNat < 2 ^ 31 := by
    intro as fs q he h x hx
    refine h x ?_
    rw [he]
    exact (((List.sublist_append_left _ _).filter _).map _).subset ((requestIds_sublist as).subset hx)
  exact ⟨fun f hf => ⟨sent_ordinary hj.a f hf, sent_ids hj.a (sub hj.ba (sent_request_ids hj.b)) f hf⟩,
    fun f hf => ⟨sent_ordinary hj.b f hf, sent_ids hj.b (sub hj.ab (sent_request_ids hj.a)) f hf⟩⟩

/-! ## One direction of the connection -/

/-- A frame that is written and read correctly. -/
structure Fine (f : AnyFrame) : Prop where
  ordinary : Ordinary f
  id : f.streamID.toNat < 2 ^ 31
  body : bodySize f + 13 < 2 ^ 32

/-- The frames in flight are those read and not handled, followed by those whose bytes are under way. -/
structure PipeFits (p : TcpSystem.Pipe) (fs : List AnyFrame) (done rest : List AnyFrame) : Prop where
  split : fs = done ++ rest
  queue : p.queue = done.map frameSeen
  alive : p.ended = false
  scn : ScnOK p.scn
  segs : ∀ b ∈ p.segs, b ≠ []
  bytes : p.scn.data ++ p.segs.flatten ++ p.out = rest.flatMap fun f => framed (frameWire f)
  fine : ∀ f ∈ rest, Fine f ∧ f.size.toNat < 2 ^ 24

theorem pipe_init : PipeFits .init [] [] [] :=
  ⟨rfl, rfl, rfl, new_ok.1, (fun b h => by cases h), by
    show Scanner.new.data ++ [] ++ [] = []
    rw [new_ok.2]; rfl, by simp⟩

theorem pipe_carry {p : TcpSystem.Pipe} {fs done rest : List AnyFrame} (h : PipeFits p fs done rest) (n : Nat) :
    PipeFits (p.carry n) fs done rest := by
  unfold TcpSystem.Pipe.carry
  split
  · exact h
  · rename_i hn
    refine ⟨h.split, h.queue, h.alive, h.scn, ?_, ?_, h.fine⟩
    · intro b hb
      rcases List.mem_append.mp hb with hb | hb
      · exact h.segs b hb
      · simp at hb; subst hb; exact hn
    · show p.scn.data ++ (p.segs ++ [p.out.take n]).flatten ++ p.out.drop n = _
      rw [← h.bytes]
      simp [List.append_assoc]

theorem pipe_send {fs done : List AnyFrame} (gs : List AnyFrame) : ∀ {p p' : TcpSystem.Pipe} {rest : List AnyFrame},
    PipeFits p fs done rest → (∀ f ∈ gs, Fine f) → p.send gs = .ok p' →
    PipeFits p' (fs ++ gs) done (rest ++ gs) := by
  induction gs generalizing fs with
  | nil => intro p p' rest h _ hs; cases hs; simpa using h
  | cons g gs ih =>
    intro p p' rest h hf hs
    simp only [TcpSystem.Pipe.send] at hs
    obtain ⟨b, hb, hs⟩ := bind_ok_inv hs
    have hg := hf g (List.mem_cons_self ..)
    have hz := pack_small hb
    have hp := (pack_parse hg.ordinary hg.id hg.body hz).1
    rw [hp] at hb
    cases hb
    have : PipeFits { p with out := p.out ++ framed (frameWire g) } (fs ++ [g]) done (rest ++ [g]) := by
      refine ⟨by rw [h.split, List.append_assoc], h.queue, h.alive, h.scn, h.segs, ?_, ?_⟩
      · show p.scn.data ++ p.segs.flatten ++ (p.out ++ _) = _
        rw [← List.append_assoc, h.bytes]; simp
      · intro f hf
        rcases List.mem_append.mp hf with hf | hf
        · exact h.fine f hf
        · simp at hf; subst hf; exact ⟨hg, hz⟩
    have := ih this (fun f h => hf f (List.mem_cons_of_mem _ h)) hs
    simpa using this

theorem send_panics {p : TcpSystem.Pipe} (gs : List AnyFrame) (hf : ∀ f ∈ gs, Fine f) :
    p.send gs = .panic ↔ ∃ f ∈ gs, 2 ^ 24 ≤ (frameWire f).length := by
  induction gs generalizing p with
  | nil => simp [TcpSystem.Pipe.send]
  | cons g gs ih =>
    have hg := hf g (List.mem_cons_self ..)
    have hl := size_eq_length hg.ordinary hg.body
    by_cases hz : g.size.toNat < 2 ^ 24
    · simp only [TcpSystem.Pipe.send, (pack_parse hg.ordinary hg.id hg.body hz).1, Go.bind_ok,
        ih fun f h => hf f (List.mem_cons_of_mem _ h)]
      refine ⟨fun ⟨f, h1, h2⟩ => ⟨f, List.mem_cons_of_mem _ h1, h2⟩, fun ⟨f, h1, h2⟩ => ?_⟩
      rcases List.mem_cons.mp h1 with rfl | h1
      · omega
      · exact ⟨f, h1, h2⟩
    · have : TcpConn.pack g = .panic := pack_large (by omega)
      simp only [TcpSystem.Pipe.send, this]
      exact ⟨fun _ => ⟨g, List.mem_cons_self .., by omega⟩, fun _ => rfl⟩

theorem send_ok {p : TcpSystem.Pipe} (gs : List AnyFrame) (hf : ∀ f ∈ gs, Fine f)
    (h : ¬ ∃ f ∈ gs, 2 ^ 24 ≤ (frameWire f).length) : ∃ p', p.send gs = .ok p' := by
  induction gs generalizing p with
  | nil => exact ⟨_, rfl⟩
  | cons g gs ih =>
    have hg := hf g (List.mem_cons_self ..)
    have hl := size_eq_length hg.ordinary hg.body
    have hz : g.size.toNat < 2 ^ 24 := by
      refine Nat.lt_of_not_le fun hc => h ⟨g, List.mem_cons_self .., ?_⟩
      omega
    simp only [TcpSystem.Pipe.send, (pack_parse hg.ordinary hg.id hg.body hz).1, Go.bind_ok]
    exact ih (fun f h => hf f (List.mem_cons_of_mem _ h)) fun ⟨f, h1, h2⟩ => h ⟨f, List.mem_cons_of_mem _ h1, h2⟩

theorem pieces_map (segs : List Bytes) : TcpSystem.pieces (segs.map .data) = segs := by
  induction segs with
  | nil => rfl
  | cons b segs ih =>
    show b :: TcpSystem.pieces (segs.map .data) = _
    rw [ih]

/-- A `Read` of the next frame, if all of it has arrived. -/
theorem pipe_read_frame {p : TcpSystem.Pipe} {fs done rest : List AnyFrame} {f : AnyFrame}
    (h : PipeFits p fs done (f :: rest))
    (hc : (framed (frameWire f)).length ≤ (p.scn.data ++ p.segs.flatten).length) :
    ∃ p', p.read = .ok p' ∧ PipeFits p' fs (done ++ [f]) rest ∧ p'.out = p.out := by
  obtain ⟨hf, hz⟩ := h.fine f (List.mem_cons_self ..)
  obtain ⟨-, hp, h6, h24⟩ := pack_parse hf.ordinary hf.id hf.body hz
  have hb := h.bytes
  rw [List.flatMap_cons] at hb
  have hd : p.scn.data ++ p.segs.flatten = framed (frameWire f) ++
      (p.scn.data ++ p.segs.flatten).drop (framed (frameWire f)).length := by
    have ht := congrArg (List.take (framed (frameWire f)).length) hb
    rw [List.take_append_of_le_length hc, List.take_left] at ht
    rw [← ht, List.length_take, Nat.min_eq_left hc, List.take_append_drop]
  obtain ⟨s', segs', v, e1, e2, e3, e4, e5, e6⟩ := scan_frame (by omega) h24 (p.segs.flatten.length + 2) p.scn p.segs []
    h.scn h.segs hd (by omega)
  refine ⟨{ p with segs := segs', scn := s', queue := p.queue ++ [frameSeen f] }, ?_, ?_, rfl⟩
  · unfold TcpSystem.Pipe.read
    rw [h.alive]
    simp only [List.append_nil] at e1
    have hr : Scanner.read (p.segs.flatten.length + 2) p.scn (p.segs.map .data) =
        some (s', segs'.map .data, .inl ⟨v.gen, v.off + 3, v.len - 3⟩) := by
      unfold Scanner.read
      simp only [e1]
      rw [if_neg (by omega)]
    rw [hr]
    simp only [e5, hp, pieces_map]
    rfl
  · refine ⟨by rw [h.split]; simp, by rw [h.queue]; simp, h.alive, e2, e3, ?_, fun g hg => h.fine g (List.mem_cons_of_mem _ hg)⟩
    show s'.data ++ segs'.flatten ++ p.out = _
    rw [e6]
    rw [hd, List.append_assoc] at hb
    exact List.append_cancel_left hb

/-- A `Read` returns the next frame or waits. -/
theorem pipe_read {p : TcpSystem.Pipe} {fs done rest : List AnyFrame} (h : PipeFits p fs done rest) :
    ∃ p' done' rest', p.read = .ok p' ∧ PipeFits p' fs done' rest' := by
  have wait : ∀ part, Incomplete part → p.scn.data ++ p.segs.flatten = part → p.read = .ok p := by
    intro part hp he
    obtain ⟨s', es, e⟩ := scan_tail hp .wait (p.segs.flatten.length + 2) p.scn p.segs h.scn h.segs he (by omega)
    unfold TcpSystem.Pipe.read
    rw [h.alive]
    simp only [List.append_nil] at e
    rw [e]
    rfl
  have hb := h.bytes
  cases rest with
  | nil =>
    refine ⟨p, done, [], wait [] ⟨[0], by decide, by decide, List.nil_prefix, by decide⟩ ?_, h⟩
    simp only [List.flatMap_nil, List.append_eq_nil_iff] at hb
    rw [hb.1.1, hb.1.2]; rfl
  | cons f rest =>
    by_cases hc : (framed (frameWire f)).length ≤ (p.scn.data ++ p.segs.flatten).length
    · obtain ⟨p', h1, h2, -⟩ := pipe_read_frame h hc
      exact ⟨p', _, _, h1, h2⟩
    · obtain ⟨hf, hz⟩ := h.fine f (List.mem_cons_self ..)
      obtain ⟨-, -, h6, h24⟩ := pack_parse hf.ordinary hf.id hf.body hz
      refine ⟨p, done, f :: rest, wait _ ⟨frameWire f, by omega, h24, ?_, by omega⟩ rfl, h⟩
      have h1 : p.scn.data ++ p.segs.flatten <+: framed (frameWire f) ++ rest.flatMap fun f => framed (frameWire f) :=
        ⟨p.out, by rw [hb]; rfl⟩
      exact List.prefix_of_prefix_length_le h1 (List.prefix_append _ _) (by omega)

/-! ## The whole connection -/

/-- A frame is handled like the frame that was sent. -/
theorem handle_seen {f : AnyFrame} (ho : Ordinary f) (s : St H) (r : React) :
    handleFrame s (frameSeen f) r = handleFrame s f r := by
  cases f with
  | request f =>
    have hn : (requestSeen f).initialN = f.initialN := by
      simp only [requestSeen]
      split
      · rfl
      · rename_i h
        exact (ho.2.2 (fun h1 => h (.inl h1)) (fun h1 => h (.inr h1))).symm
    have ht : (AnyFrame.request (requestSeen f)).type = (AnyFrame.request f).type := rfl
    unfold handleFrame
    simp only [frameSeen, ht]
    have hd : ∀ o, dispatch s r (.request (requestSeen f)) o = dispatch s r (.request f) o := by
      intro o
      simp only [dispatch, hn]
      cases o <;> rfl
    simp only [hd]
    rfl
  | _ => rfl

theorem step_seen {act : Act} (ho : ∀ f ∈ handedOver [act], Ordinary f) (s : St H) :
    Handler.step s (seenAct act) = Handler.step s act := by
  cases act with
  | frame f r => exact handle_seen (ho f (by simp [handedOver])) s r
  | _ => rfl

/-- A state of the connection down to the bytes and one in which frames are handed over directly. -/
structure SameSys (t : TcpSystem.Sys H) (s : System.Sys H) : Prop where
  a : t.a = s.a
  b : t.b = s.b
  trA : t.trA = s.trA
  trB : t.trB = s.trB
  histA : t.histA = s.histA.map seenAct
  histB : t.histB = s.histB.map seenAct
  ab : ∃ done rest, PipeFits t.ab s.ab done rest
  ba : ∃ done rest, PipeFits t.ba s.ba done rest

theorem same_moveA {regA regB : Registry H} {client : Bool} {t t' : TcpSystem.Sys H} {s : System.Sys H} {act : Act}
    {ba0 : List AnyFrame} (hj : Joined regA regB client { s with ba := ba0 }) (hba : ba0 = handedOver [act] ++ s.ba)
    (hs : SameSys t s) (hb : below4G t'.trA) (h : TcpSystem.moveA t (seenAct act) = .ok t') :
    ∃ s', System.moveA s act = .ok s' ∧ Joined regA regB client s' ∧ SameSys t' s' := by
  have ho : ∀ f ∈ handedOver [act], Ordinary f := by
    intro f hf
    refine ((connection_frames hj).2 f ?_).1
    rw [hj.ba, hba]
    simp [hf]
  unfold TcpSystem.moveA at h
  rw [step_seen ho, hs.a] at h
  split at h
  · rename_i a e he
    obtain ⟨ab, hab, h⟩ := bind_ok_inv h
    cases h
    have hm : System.moveA s act = .ok { s with a := a, ab := s.ab ++ System.wire e, histA := s.histA ++ [act], trA := s.trA ++ e } := by
      unfold System.moveA
      rw [he]
    have hj' := joined_moveA (s := { s with ba := ba0 }) act s.ba hj hba hm
    refine ⟨_, hm, hj', ⟨rfl, hs.b, by show _ ++ e = _ ++ e; rw [hs.trA], hs.trB, ?_, hs.histB, ?_, hs.ba⟩⟩
    · show t.histA ++ [seenAct act] = _
      rw [hs.histA]; simp
    · obtain ⟨done, rest, hp⟩ := hs.ab
      refine ⟨done, _, pipe_send (System.wire e) hp (fun f hf => ?_) hab⟩
      have h1 : f ∈ sentFrames (s.trA ++ e) := by rw [sentFrames_append]; exact List.mem_append_right _ hf
      have h2 := (connection_frames hj').1 f h1
      refine ⟨h2.1, h2.2, hb f ?_⟩
      show f ∈ sentFrames (t.trA ++ e)
      rw [hs.trA]; exact h1
  · cases h
  · cases h

theorem same_moveB {regA regB : Registry H} {client : Bool} {t t' : TcpSystem.Sys H} {s : System.Sys H} {act : Act}
    {ab0 : List AnyFrame} (hj : Joined regA regB client { s with ab := ab0 }) (hab0 : ab0 = handedOver [act] ++ s.ab)
    (hs : SameSys t s) (hb : below4G t'.trB) (h : TcpSystem.moveB t (seenAct act) = .ok t') :
    ∃ s', System.moveB s act = .ok s' ∧ Joined regA regB client s' ∧ SameSys t' s' := by
  have ho : ∀ f ∈ handedOver [act], Ordinary f := by
    intro f hf
    refine ((connection_frames hj).1 f ?_).1
    rw [hj.ab, hab0]
    simp [hf]
  unfold TcpSystem.moveB at h
  rw [step_seen ho, hs.b] at h
  split at h
  · rename_i b e he
    obtain ⟨ba, hba, h⟩ := bind_ok_inv h
    cases h
    have hm : System.moveB s act = .ok { s with b := b, ba := s.ba ++ System.wire e, histB := s.histB ++ [act], trB := s.trB ++ e } := by
      unfold System.moveB
      rw [he]
    have hj' := joined_moveB (s := { s with ab := ab0 }) act s.ab hj hab0 hm
    refine ⟨_, hm, hj', ⟨hs.a, rfl, hs.trA, by show _ ++ e = _ ++ e; rw [hs.trB], hs.histA, ?_, hs.ab, ?_⟩⟩
    · show t.histB ++ [seenAct act] = _
      rw [hs.histB]; simp
    · obtain ⟨done, rest, hp⟩ := hs.ba
      refine ⟨done, _, pipe_send (System.wire e) hp (fun f hf => ?_) hba⟩
      have h1 : f ∈ sentFrames (s.trB ++ e) := by rw [sentFrames_append]; exact List.mem_append_right _ hf
      have h2 := (connection_frames hj').2 f h1
      refine ⟨h2.1, h2.2, hb f ?_⟩
      show f ∈ sentFrames (t.trB ++ e)
      rw [hs.trB]; exact h1
  · cases h
  · cases h

theorem pipe_pop {p : TcpSystem.Pipe} {fs done rest q : List AnyFrame} {g : AnyFrame} (h : PipeFits p fs done rest)
    (hq : p.queue = g :: q) : ∃ f fs' done', fs = f :: fs' ∧ g = frameSeen f ∧
      PipeFits { p with queue := q } fs' done' rest := by
  have h1 := h.queue
  rw [hq] at h1
  cases done with
  | nil => cases h1
  | cons f done =>
    simp only [List.map_cons, List.cons.injEq] at h1
    exact ⟨f, done ++ rest, done, h.split, h1.1, ⟨rfl, h1.2, h.alive, h.scn, h.segs, h.bytes, h.fine⟩⟩

theorem seenAct_notFrame {act : Act} (h : ¬ System.isFrame act = true) : seenAct act = act ∧ handedOver [act] = [] :=
  ⟨by cases act <;> first | rfl | exact absurd rfl h, handedOver_no_frame (by simpa using h)⟩

theorem same_step {regA regB : Registry H} {client : Bool} {t t' : TcpSystem.Sys H} {s : System.Sys H}
    (m : TcpSystem.Move) (hj : Joined regA regB client s) (hs : SameSys t s) (ha : below4G t'.trA) (hb : below4G t'.trB)
    (h : TcpSystem.step t m = .ok t') :
    ∃ ms s', System.runFrom s ms = .ok s' ∧ SameSys t' s' ∧ ∀ act, .atA act ∈ ms → m = .atA act := by
  have none : ∀ act, System.Move.atA act ∈ [] → m = .atA act := fun _ h => by cases h
  cases m with
  | atA act =>
    simp only [TcpSystem.step] at h
    split at h
    · cases h; exact ⟨[], s, rfl, hs, none⟩
    · rename_i hf
      obtain ⟨h1, h2⟩ := seenAct_notFrame hf
      rw [← h1] at h
      obtain ⟨s', h3, -, h4⟩ := same_moveA hj (by rw [h2]; rfl) hs ha h
      exact ⟨[.atA act], s', by simp only [System.runFrom, System.step, if_neg hf, h3], h4, fun x hx => by simp at hx; rw [hx]⟩
  | atB act =>
    simp only [TcpSystem.step] at h
    split at h
    · cases h; exact ⟨[], s, rfl, hs, none⟩
    · rename_i hf
      obtain ⟨h1, h2⟩ := seenAct_notFrame hf
      rw [← h1] at h
      obtain ⟨s', h3, -, h4⟩ := same_moveB hj (by rw [h2]; rfl) hs hb h
      exact ⟨[.atB act], s', by simp only [System.runFrom, System.step, if_neg hf, h3], h4, fun x hx => by simp at hx⟩
  | carryAB n =>
    cases h
    obtain ⟨d, r, hp⟩ := hs.ab
    exact ⟨[], s, rfl, ⟨hs.a, hs.b, hs.trA, hs.trB, hs.histA, hs.histB, ⟨_, _, pipe_carry hp n⟩, hs.ba⟩, none⟩
  | carryBA n =>
    cases h
    obtain ⟨d, r, hp⟩ := hs.ba
    exact ⟨[], s, rfl, ⟨hs.a, hs.b, hs.trA, hs.trB, hs.histA, hs.histB, hs.ab, ⟨_, _, pipe_carry hp n⟩⟩, none⟩
  | readB =>
    obtain ⟨d, r, hp⟩ := hs.ab
    obtain ⟨p', d', r', h1, h2⟩ := pipe_read hp
    simp only [TcpSystem.step, h1, Go.bind_ok] at h
    cases h
    exact ⟨[], s, rfl, ⟨hs.a, hs.b, hs.trA, hs.trB, hs.histA, hs.histB, ⟨_, _, h2⟩, hs.ba⟩, none⟩
  | readA =>
    obtain ⟨d, r, hp⟩ := hs.ba
    obtain ⟨p', d', r', h1, h2⟩ := pipe_read hp
    simp only [TcpSystem.step, h1, Go.bind_ok] at h
    cases h
    exact ⟨[], s, rfl, ⟨hs.a, hs.b, hs.trA, hs.trB, hs.histA, hs.histB, hs.ab, ⟨_, _, h2⟩⟩, none⟩
  | toA r =>
    simp only [TcpSystem.step] at h
    split at h
    · cases h; exact ⟨[], s, rfl, hs, none⟩
    · rename_i g q hq
      obtain ⟨d, rest, hp⟩ := hs.ba
      obtain ⟨f, fs', done', h1, rfl, h2⟩ := pipe_pop hp hq
      obtain ⟨s', h3, -, h4⟩ := same_moveA (t := { t with ba := { t.ba with queue := q } }) (s := { s with ba := fs' }) (ba0 := s.ba) (act := .frame f r) hj h1
        ⟨hs.a, hs.b, hs.trA, hs.trB, hs.histA, hs.histB, hs.ab, ⟨_, _, h2⟩⟩ ha h
      exact ⟨[.toA r], s', by simp only [System.runFrom, System.step, h1, h3], h4, fun x hx => by simp at hx⟩
  | toB r =>
    simp only [TcpSystem.step] at h
    split at h
    · cases h; exact ⟨[], s, rfl, hs, none⟩
    · rename_i g q hq
      obtain ⟨d, rest, hp⟩ := hs.ab
      obtain ⟨f, fs', done', h1, rfl, h2⟩ := pipe_pop hp hq
      obtain ⟨s', h3, -, h4⟩ := same_moveB (t := { t with ab := { t.ab with queue := q } }) (s := { s with ab := fs' }) (ab0 := s.ab) (act := .frame f r) hj h1
        ⟨hs.a, hs.b, hs.trA, hs.trB, hs.histA, hs.histB, ⟨_, _, h2⟩, hs.ba⟩ hb h
      exact ⟨[.toB r], s', by simp only [System.runFrom, System.step, h1, h3], h4, fun x hx => by simp at hx⟩

/-- What was observed stays observed. -/
theorem tcp_step_grows {t t' : TcpSystem.Sys H} {m : TcpSystem.Move} (h : TcpSystem.step t m = .ok t') :
    t.trA <+: t'.trA ∧ t.trB <+: t'.trB := by
  have mA : ∀ {u : TcpSystem.Sys H} {act}, TcpSystem.moveA u act = .ok t' → u.trA <+: t'.trA ∧ u.trB <+: t'.trB := by
    intro u act h
    unfold TcpSystem.moveA at h
    split at h
    · obtain ⟨ab, -, h⟩ := bind_ok_inv h
      cases h
      exact ⟨List.prefix_append _ _, List.prefix_refl _⟩
    · cases h
    · cases h
  have mB : ∀ {u : TcpSystem.Sys H} {act}, TcpSystem.moveB u act = .ok t' → u.trA <+: t'.trA ∧ u.trB <+: t'.trB := by
    intro u act h
    unfold TcpSystem.moveB at h
    split at h
    · obtain ⟨ab, -, h⟩ := bind_ok_inv h
      cases h
      exact ⟨List.prefix_refl _, List.prefix_append _ _⟩
    · cases h
    · cases h
  have same : t' = t → t.trA <+: t'.trA ∧ t.trB <+: t'.trB := by
    rintro rfl; exact ⟨List.prefix_refl _, List.prefix_refl _⟩
  cases m with
  | atA act =>
    simp only [TcpSystem.step] at h
    split at h
    · cases h; exact same rfl
    · exact mA h
  | atB act =>
    simp only [TcpSystem.step] at h
    split at h
    · cases h; exact same rfl
    · exact mB h
  | carryAB n => cases h; exact ⟨List.prefix_refl _, List.prefix_refl _⟩
  | carryBA n => cases h; exact ⟨List.prefix_refl _, List.prefix_refl _⟩
  | readB =>
    obtain ⟨p, -, h⟩ := bind_ok_inv h
    cases h; exact ⟨List.prefix_refl _, List.prefix_refl _⟩
  | readA =>
    obtain ⟨p, -, h⟩ := bind_ok_inv h
    cases h; exact ⟨List.prefix_refl _, List.prefix_refl _⟩
  | toA r =>
    simp only [TcpSystem.step] at h
    split at h
    · cases h; exact same rfl
    · have := mA h; exact this
  | toB r =>
    simp only [TcpSystem.step] at h
    split at h
    · cases h; exact same rfl
    · have := mB h; exact this

theorem tcp_run_grows (ms : List TcpSystem.Move) : ∀ {t t' : TcpSystem.Sys H}, TcpSystem.runFrom t ms = .ok t' →
    t.trA <+: t'.trA ∧ t.trB <+: t'.trB := by
  induction ms with
  | nil => intro t t' h; cases h; exact ⟨List.prefix_refl _, List.prefix_refl _⟩
  | cons m ms ih =>
    intro t t' h
    obtain ⟨u, h1, h2⟩ := bind_ok_inv h
    exact ⟨(tcp_step_grows h1).1.trans (ih h2).1, (tcp_step_grows h1).2.trans (ih h2).2⟩

theorem below4G_prefix {a b : List (Handler.Ev H)} (h : a <+: b) (hb : below4G b) : below4G a := by
  obtain ⟨c, rfl⟩ := h
  exact fun f hf => hb f (by rw [sentFrames_append]; exact List.mem_append_left _ hf)

/-- Any moves, and what end A does by itself in them. -/
theorem same_run_own {regA regB : Registry H} {client : Bool} (ms : List TcpSystem.Move) :
    ∀ {t t' : TcpSystem.Sys H} {s : System.Sys H}, Joined regA regB client s → SameSys t s →
    below4G t'.trA → below4G t'.trB → TcpSystem.runFrom t ms = .ok t' →
    ∃ ms' s', System.runFrom s ms' = .ok s' ∧ SameSys t' s' ∧ ∀ act, .atA act ∈ ms' → .atA act ∈ ms := by
  induction ms with
  | nil => intro t t' s _ hs _ _ h; cases h; exact ⟨[], s, rfl, hs, fun _ h => by cases h⟩
  | cons m ms ih =>
    intro t t' s hj hs ha hb h
    obtain ⟨u, h1, h2⟩ := bind_ok_inv h
    have hg := tcp_run_grows ms h2
    obtain ⟨ms1, s1, e1, e2, f1⟩ := same_step m hj hs (below4G_prefix hg.1 ha) (below4G_prefix hg.2 hb) h1
    obtain ⟨ms2, s2, e3, e4, f2⟩ := ih (joined_runFrom ms1 hj e1) e2 ha hb h2
    refine ⟨ms1 ++ ms2, s2, by rw [system_runFrom_append, e1]; exact e3, e4, fun act hm => ?_⟩
    rcases List.mem_append.mp hm with hm | hm
    · rw [f1 act hm]; exact List.mem_cons_self
    · exact List.mem_cons_of_mem _ (f2 act hm)

theorem same_run {regA regB : Registry H} {client : Bool} (ms : List TcpSystem.Move)
    {t t' : TcpSystem.Sys H} {s : System.Sys H} (hj : Joined regA regB client s) (hs : SameSys t s)
    (ha : below4G t'.trA) (hb : below4G t'.trB) (h : TcpSystem.runFrom t ms = .ok t') :
    ∃ ms' s', System.runFrom s ms' = .ok s' ∧ SameSys t' s' := by
  obtain ⟨ms', s', h1, h2, -⟩ := same_run_own ms hj hs ha hb h
  exact ⟨ms', s', h1, h2⟩

theorem same_init (regA regB : Registry H) (client : Bool) :
    SameSys (.init regA regB client) (System.Sys.init regA regB client) :=
  ⟨rfl, rfl, rfl, rfl, rfl, rfl, ⟨_, _, pipe_init⟩, ⟨_, _, pipe_init⟩⟩

/-- A run down to the bytes is a run in which frames are handed over directly. -/
theorem tcp_same {regA regB : Registry H} {client : Bool} {ms : List TcpSystem.Move} {t : TcpSystem.Sys H}
    (h : TcpSystem.run regA regB client ms = .ok t) (ha : below4G t.trA) (hb : below4G t.trB) :
    ∃ ms' s, System.run regA regB client ms' = .ok s ∧ SameSys t s :=
  same_run ms (joined_run [] rfl) (same_init _ _ _) ha hb h

theorem handedOver_seen (as : List Act) : handedOver (as.map seenAct) = (handedOver as).map frameSeen := by
  induction as with
  | nil => rfl
  | cons a as ih =>
    have h1 : ∀ l, handedOver (a :: l) = handedOver [a] ++ handedOver l := fun l => handedOver_append [a] l
    rw [List.map_cons, h1, List.map_append, ← ih, ← List.singleton_append (x := seenAct a), handedOver_append]
    congr 1
    cases a <;> rfl

/-- C109, if no frame has 4 GiB or more: every end is handed the frames the other sent, unchanged, in order,
without a gap, however TCP cuts the bytes into pieces. -/
theorem C109_unchanged_partial (regA regB : Registry H) (client : Bool) (ms : List TcpSystem.Move) (t : TcpSystem.Sys H)
    (h : TcpSystem.run regA regB client ms = .ok t) (ha : below4G t.trA) (hb : below4G t.trB) : unchanged t := by
  obtain ⟨ms', s, h1, h2⟩ := tcp_same h ha hb
  have hj := joined_run _ h1
  refine ⟨?_, ?_⟩
  · rw [h2.histB, handedOver_seen, h2.trA, hj.ab, List.map_append]; exact List.prefix_append _ _
  · rw [h2.histA, handedOver_seen, h2.trB, hj.ba, List.map_append]; exact List.prefix_append _ _

/-- C109: the same runs of the two ends are possible if frames are handed over directly. -/
theorem C109_same_partial (regA regB : Registry H) (client : Bool) (ms : List TcpSystem.Move) (t : TcpSystem.Sys H)
    (h : TcpSystem.run regA regB client ms = .ok t) (ha : below4G t.trA) (hb : below4G t.trB) :
    ∃ ms' s, System.run regA regB client ms' = .ok s ∧ t.a = s.a ∧ t.b = s.b ∧ t.trA = s.trA ∧ t.trB = s.trB ∧
      t.histA = s.histA.map seenAct ∧ t.histB = s.histB.map seenAct := by
  obtain ⟨ms', s, h1, h2⟩ := tcp_same h ha hb
  exact ⟨ms', s, h1, h2.a, h2.b, h2.trA, h2.trB, h2.histA, h2.histB⟩

theorem tcp_runFrom_append (ms : List TcpSystem.Move) : ∀ {t u v : TcpSystem.Sys H} {l : List TcpSystem.Move},
    TcpSystem.runFrom t ms = .ok u → TcpSystem.runFrom u l = .ok v → TcpSystem.runFrom t (ms ++ l) = .ok v := by
  induction ms with
  | nil => intro t u v l h1 h2; cases h1; exact h2
  | cons m ms ih =>
    intro t u v l h1 h2
    obtain ⟨w, h3, h4⟩ := bind_ok_inv h1
    show (TcpSystem.step t m >>= fun s => TcpSystem.runFrom s (ms ++ l)) = _
    rw [h3]
    exact ih h4 h2

theorem pipe_carried {p : TcpSystem.Pipe} : (p.carry p.out.length).out = [] := by
  unfold TcpSystem.Pipe.carry
  split
  · rename_i h; simpa using h
  · show p.out.drop _ = []; simp

theorem readB_all (rest : List AnyFrame) : ∀ {t : TcpSystem.Sys H} {fs done : List AnyFrame},
    PipeFits t.ab fs done rest → t.ab.out = [] →
    ∃ p, TcpSystem.runFrom t (List.replicate rest.length .readB) = .ok { t with ab := p } ∧ PipeFits p fs fs [] := by
  induction rest with
  | nil =>
    intro t fs done h _
    have : fs = done := by rw [h.split]; simp
    exact ⟨t.ab, rfl, by rw [this] at h ⊢; exact h⟩
  | cons f rest ih =>
    intro t fs done h ho
    have hl := congrArg List.length h.bytes
    rw [ho, List.append_nil, List.flatMap_cons, List.length_append (as := framed _)] at hl
    obtain ⟨p', h1, h2, h3⟩ := pipe_read_frame h (by omega)
    obtain ⟨p, h4, h5⟩ := ih (t := { t with ab := p' }) h2 (by rw [← ho]; exact h3)
    refine ⟨p, ?_, h5⟩
    show (TcpSystem.step t .readB >>= fun s => TcpSystem.runFrom s _) = _
    simp only [TcpSystem.step, h1, Go.bind_ok]
    exact h4

theorem readA_all (rest : List AnyFrame) : ∀ {t : TcpSystem.Sys H} {fs done : List AnyFrame},
    PipeFits t.ba fs done rest → t.ba.out = [] →
    ∃ p, TcpSystem.runFrom t (List.replicate rest.length .readA) = .ok { t with ba := p } ∧ PipeFits p fs fs [] := by
  induction rest with
  | nil =>
    intro t fs done h _
    have : fs = done := by rw [h.split]; simp
    exact ⟨t.ba, rfl, by rw [this] at h ⊢; exact h⟩
  | cons f rest ih =>
    intro t fs done h ho
    have hl := congrArg List.length h.bytes
    rw [ho, List.append_nil, List.flatMap_cons, List.length_append (as := framed _)] at hl
    obtain ⟨p', h1, h2, h3⟩ := pipe_read_frame h (by omega)
    obtain ⟨p, h4, h5⟩ := ih (t := { t with ba := p' }) h2 (by rw [← ho]; exact h3)
    refine ⟨p, ?_, h5⟩
    show (TcpSystem.step t .readA >>= fun s => TcpSystem.runFrom s _) = _
    simp only [TcpSystem.step, h1, Go.bind_ok]
    exact h4

/-- C109, if no frame has 4 GiB or more: nothing that was sent is lost. -/
theorem C109_arrives_partial (regA regB : Registry H) (client : Bool) (ms : List TcpSystem.Move) (t : TcpSystem.Sys H)
    (h : TcpSystem.run regA regB client ms = .ok t) (ha : below4G t.trA) (hb : below4G t.trB) : canArrive t := by
  obtain ⟨ms', s, h1, h2⟩ := tcp_same h ha hb
  have hj := joined_run _ h1
  obtain ⟨d1, r1, p1⟩ := h2.ab
  obtain ⟨d2, r2, p2⟩ := h2.ba
  obtain ⟨q1, e1, f1⟩ := readB_all r1 (t := { t with ab := t.ab.carry t.ab.out.length })
    (pipe_carry p1 _) pipe_carried
  obtain ⟨q2, e2, f2⟩ := readA_all r2 (t := { t with ab := q1, ba := t.ba.carry t.ba.out.length })
    (pipe_carry p2 _) pipe_carried
  refine ⟨(.carryAB t.ab.out.length :: List.replicate r1.length .readB) ++
    (.carryBA t.ba.out.length :: List.replicate r2.length .readA), { t with ab := q1, ba := q2 }, ?_, ?_, ?_, ?_⟩
  · intro m hm
    simp only [List.mem_append, List.mem_cons, List.mem_replicate] at hm
    rcases hm with (rfl | ⟨-, rfl⟩) | (rfl | ⟨-, rfl⟩) <;> rfl
  · exact tcp_runFrom_append _ e1 e2
  · show handedOver t.histB ++ q1.queue = _
    rw [f1.queue, h2.histB, handedOver_seen, h2.trA, hj.ab, List.map_append]
  · show handedOver t.histA ++ q2.queue = _
    rw [f2.queue, h2.histA, handedOver_seen, h2.trB, hj.ba, List.map_append]

theorem moveA_panics {t : TcpSystem.Sys H} {act : Act} :
    TcpSystem.moveA t act = .panic ↔ settle t.a (Handler.step t.a act) = .panic ∨
      ∃ r, settle t.a (Handler.step t.a act) = .ok r ∧ t.ab.send (sentFrames r.2) = .panic := by
  unfold TcpSystem.moveA
  cases h : settle t.a (Handler.step t.a act) with
  | ok r =>
    obtain ⟨a, e⟩ := r
    dsimp only
    rw [wire_eq]
    cases hs : t.ab.send (sentFrames e) <;> simp [hs] <;> rfl
  | err m => simp
  | panic => simp

theorem moveB_panics {t : TcpSystem.Sys H} {act : Act} :
    TcpSystem.moveB t act = .panic ↔ settle t.b (Handler.step t.b act) = .panic ∨
      ∃ r, settle t.b (Handler.step t.b act) = .ok r ∧ t.ba.send (sentFrames r.2) = .panic := by
  unfold TcpSystem.moveB
  cases h : settle t.b (Handler.step t.b act) with
  | ok r =>
    obtain ⟨b, e⟩ := r
    dsimp only
    rw [wire_eq]
    cases hs : t.ba.send (sentFrames e) <;> simp [hs] <;> rfl
  | err m => simp
  | panic => simp

theorem fine_moveA {regA regB : Registry H} {client : Bool} {s : System.Sys H} {act : Act} {rest : List AnyFrame}
    (hj : Joined regA regB client s) (hba : s.ba = handedOver [act] ++ rest) {r : St H × List (Handler.Ev H)}
    (h : settle s.a (Handler.step s.a (seenAct act)) = .ok r) (hb : ∀ f ∈ sentFrames r.2, bodySize f + 13 < 2 ^ 32) :
    ∀ f ∈ sentFrames r.2, Fine f := by
  have ho : ∀ f ∈ handedOver [act], Ordinary f := by
    intro f hf
    refine ((connection_frames hj).2 f ?_).1
    rw [hj.ba, hba]
    simp [hf]
  rw [step_seen ho] at h
  obtain ⟨a, e⟩ := r
  have hj' := joined_moveA act rest hj hba (s' := ⟨a, s.b, s.ab ++ System.wire e, rest, s.histA ++ [act], s.histB, s.trA ++ e, s.trB⟩)
     (by unfold System.moveA; rw [h])
  intro f hf
  have h2 := (connection_frames hj').1 f (by
    show f ∈ sentFrames (s.trA ++ e)
    rw [sentFrames_append]; exact List.mem_append_right _ hf)
  exact ⟨h2.1, h2.2, hb f hf⟩

theorem fine_moveB {regA regB : Registry H} {client : Bool} {s : System.Sys H} {act : Act} {rest : List AnyFrame}
    (hj : Joined regA regB client s) (hab : s.ab = handedOver [act] ++ rest) {r : St H × List (Handler.Ev H)}
    (h : settle s.b (Handler.step s.b (seenAct act)) = .ok r) (hb : ∀ f ∈ sentFrames r.2, bodySize f + 13 < 2 ^ 32) :
    ∀ f ∈ sentFrames r.2, Fine f := by
  have ho : ∀ f ∈ handedOver [act], Ordinary f := by
    intro f hf
    refine ((connection_frames hj).1 f ?_).1
    rw [hj.ab, hab]
    simp [hf]
  rw [step_seen ho] at h
  obtain ⟨b, e⟩ := r
  have hj' := joined_moveB act rest hj hab (s' := ⟨s.a, b, rest, s.ba ++ System.wire e, s.histA, s.histB ++ [act], s.trA, s.trB ++ e⟩)
     (by unfold System.moveB; rw [h])
  intro f hf
  have h2 := (connection_frames hj').2 f (by
    show f ∈ sentFrames (s.trB ++ e)
    rw [sentFrames_append]; exact List.mem_append_right _ hf)
  exact ⟨h2.1, h2.2, hb f hf⟩

theorem panic_iff_aux {x : Go (St H × List (Handler.Ev H))} {p : TcpSystem.Pipe}
    (hf : ∀ r, x = .ok r → ∀ f ∈ sentFrames r.2, Fine f) :
    (x = .panic ∨ ∃ r, x = .ok r ∧ p.send (sentFrames r.2) = .panic) ↔
      (x = .panic ∨ ∃ f ∈ (match some x with | some (.ok (_, e)) => sentFrames e | _ => []),
        2 ^ 24 ≤ (frameWire f).length) := by
  cases x with
  | ok r =>
    obtain ⟨a, e⟩ := r
    have := send_panics (p := p) (sentFrames e) (hf _ rfl)
    simp [this]
  | err m => simp
  | panic => simp

/-- C109, if no frame has 4 GiB or more: sending crashes exactly if a frame has 16 MiB or more. -/
theorem C109_crash_partial (regA regB : Registry H) (client : Bool) (ms : List TcpSystem.Move) (t : TcpSystem.Sys H)
    (h : TcpSystem.run regA regB client ms = .ok t) (ha : below4G t.trA) (hb : below4G t.trB) (m : TcpSystem.Move)
    (hm : ∀ f ∈ sendsNow t m, bodySize f + 13 < 2 ^ 32) :
    TcpSystem.step t m = .panic ↔
      inEnd t m = some .panic ∨ ∃ f ∈ sendsNow t m, 2 ^ 24 ≤ (frameWire f).length := by
  obtain ⟨ms', s, h1, h2⟩ := tcp_same h ha hb
  have hj := joined_run _ h1
  unfold sendsNow at hm ⊢
  cases m with
  | atA act =>
    simp only [inEnd, TcpSystem.step] at hm ⊢
    split
    · simp
    · rename_i hf
      rw [if_neg hf] at hm
      obtain ⟨e1, e2⟩ := seenAct_notFrame hf
      rw [moveA_panics, panic_iff_aux (fun r hr => ?_)]
      · simp
      · rw [hr] at hm
        rw [h2.a, ← e1] at hr
        exact fine_moveA hj (by rw [e2]; rfl) hr hm
  | atB act =>
    simp only [inEnd, TcpSystem.step] at hm ⊢
    split
    · simp
    · rename_i hf
      rw [if_neg hf] at hm
      obtain ⟨e1, e2⟩ := seenAct_notFrame hf
      rw [moveB_panics, panic_iff_aux (fun r hr => ?_)]
      · simp
      · rw [hr] at hm
        rw [h2.b, ← e1] at hr
        exact fine_moveB hj (by rw [e2]; rfl) hr hm
  | carryAB n => simp [inEnd, TcpSystem.step]
  | carryBA n => simp [inEnd, TcpSystem.step]
  | readB =>
    obtain ⟨d, r, hp⟩ := h2.ab
    obtain ⟨p', -, -, e1, -⟩ := pipe_read hp
    simp [inEnd, TcpSystem.step, e1]
  | readA =>
    obtain ⟨d, r, hp⟩ := h2.ba
    obtain ⟨p', -, -, e1, -⟩ := pipe_read hp
    simp [inEnd, TcpSystem.step, e1]
  | toA r =>
    simp only [inEnd, TcpSystem.step] at hm ⊢
    cases hq : t.ba.queue with
    | nil => simp
    | cons g q =>
      rw [hq] at hm
      obtain ⟨d, rest, hp⟩ := h2.ba
      obtain ⟨f, fs', done', e1, rfl, -⟩ := pipe_pop hp hq
      rw [moveA_panics]
      dsimp only
      rw [panic_iff_aux (fun x hr => ?_)]
      · simp
      · simp only [hr] at hm
        rw [h2.a] at hr
        exact fine_moveA (act := .frame f r) hj e1 hr hm
  | toB r =>
    simp only [inEnd, TcpSystem.step] at hm ⊢
    cases hq : t.ab.queue with
    | nil => simp
    | cons g q =>
      rw [hq] at hm
      obtain ⟨d, rest, hp⟩ := h2.ab
      obtain ⟨f, fs', done', e1, rfl, -⟩ := pipe_pop hp hq
      rw [moveB_panics]
      dsimp only
      rw [panic_iff_aux (fun x hr => ?_)]
      · simp
      · simp only [hr] at hm
        rw [h2.b] at hr
        exact fine_moveB (act := .frame f r) hj e1 hr hm

end
/-! ## Concrete runs -/

def tcpAfter (x : Go (TcpSystem.Sys Unit)) : TcpSystem.Sys Unit :=
  match x with | .ok t => t | _ => .init oneHandler oneHandler true

theorem tcp_ok {x : Go (TcpSystem.Sys Unit)} (h : (match x with | .ok _ => true | _ => false) = true) :
    x = .ok (tcpAfter x) := by
  cases x <;> first | rfl | cases h

/-- A calls B and B answers. The request arrives in three pieces, and B tries to read it after each of them. -/
def moves109 : List TcpSystem.Move :=
  [.atA (.call .rr ⟨[1, 2], eightZeros⟩ .created), .atA (.subscribeMono 0 ⟨true, true, true⟩),
   .carryAB 2, .readB, .toB noReact, .carryAB 5, .readB, .carryAB 100, .readB, .toB noReact,
   .atB (.run 0 retCreated), .atB (.answer 0 (.success ⟨[7], []⟩)),
   .carryBA 100, .readA]

def end109 : TcpSystem.Sys Unit := tcpAfter (TcpSystem.run oneHandler oneHandler true moves109)

example : TcpSystem.run oneHandler oneHandler true moves109 = .ok end109 ∧ below4G end109.trA ∧ below4G end109.trB ∧
    (handedOver end109.histB).length = 1 ∧ end109.ba.queue.length = 1 ∧ end109.ab.queue = [] ∧
    (sentFrames end109.trA).length = 1 ∧ (sentFrames end109.trB).length = 1 :=
  ⟨tcp_ok (by decide +kernel), by unfold below4G; decide +kernel, by unfold below4G; decide +kernel, by decide +kernel,
    by decide +kernel, by decide +kernel, by decide +kernel, by decide +kernel⟩

/-- Handling the answer, A sends nothing, and nothing crashes. -/
example : sendsNow end109 (.toA noReact) = [] ∧ (inEnd end109 (.toA noReact)).isSome := by decide +kernel

/-! ## Frames that are too large -/

/-- A fire-and-forget request of the client, its first. -/
def fnf109 (data : Bytes) : AnyFrame := .request ⟨typeRequestFNF, 1, [], data, false, true, 1⟩

/-- C109 fails: an end that sends 16 MiB crashes, though without the transport it would not. -/
theorem C109_large_violated (data : Bytes) (h : data.length = 2 ^ 24) :
    TcpSystem.step (.init oneHandler oneHandler true) (.atA (.call .fnf ⟨data, []⟩ .created)) = .panic ∧
    inEnd (.init oneHandler oneHandler true) (.atA (.call .fnf ⟨data, []⟩ .created)) ≠ some .panic := by
  have hs : sentFrames (call (.init oneHandler true) .fnf ⟨data, []⟩ .created).2 = [fnf109 data] := rfl
  have hp : TcpConn.pack (fnf109 data) = .panic := by
    refine pack_large ?_
    show 2 ^ 24 ≤ (RequestPayload.size ⟨typeRequestFNF, 1, [], data, false, true, 1⟩).toNat
    simp [RequestPayload.size, hasInitialN, typeRequestFNF, typeRequestStream, typeRequestChannel, h]
  refine ⟨?_, by intro h; cases h⟩
  show TcpSystem.moveA (.init oneHandler oneHandler true) (.call .fnf ⟨data, []⟩ .created) = .panic
  rw [moveA_panics]
  refine .inr ⟨_, rfl, ?_⟩
  show TcpSystem.Pipe.send _ [fnf109 data] = _
  simp only [TcpSystem.Pipe.send, hp]
  rfl

theorem huge_pack (data : Bytes) (h : data.length = 2 ^ 32) :
    TcpConn.pack (fnf109 data) = .ok (framed (frameWire (fnf109 []))) := by
  have hs : (fnf109 data).size = 6 := by
    show RequestPayload.size ⟨typeRequestFNF, 1, [], data, false, true, 1⟩ = 6
    simp [RequestPayload.size, hasInitialN, typeRequestFNF, typeRequestStream, typeRequestChannel, h]
  unfold TcpConn.pack
  rw [hs]
  have he : (fnf109 data).encode (List.replicate (6 : UInt32).toNat 0) = .ok (frameWire (fnf109 [])) := by
    show RequestPayload.encode ⟨typeRequestFNF, 1, [], data, false, true, 1⟩ (List.replicate 6 0) = _
    have h1 : putHeader ⟨[], List.replicate 6 0⟩ 1 typeRequestFNF
        (RequestPayload.flags ⟨typeRequestFNF, 1, [], data, false, true, 1⟩) = .ok ⟨frameWire (fnf109 []), []⟩ := by
      show putHeader ⟨[], List.replicate 6 0⟩ 1 typeRequestFNF
        (RequestPayload.flags ⟨typeRequestFNF, 1, [], [], false, true, 1⟩) = _
      have : ∀ c : Cur, c.done = frameWire (fnf109 []) → c.rest = [] → c = ⟨frameWire (fnf109 []), []⟩ := by
        intro ⟨a, b⟩ h1 h2; cases h1; cases h2; rfl
      have h2 : putHeader ⟨[], List.replicate 6 0⟩ 1 typeRequestFNF
        (RequestPayload.flags ⟨typeRequestFNF, 1, [], [], false, true, 1⟩) = .ok ⟨headerBytes 1 typeRequestFNF
          (RequestPayload.flags ⟨typeRequestFNF, 1, [], [], false, true, 1⟩), []⟩ := rfl
      rw [h2]
      exact congrArg Go.ok (this _ (by decide +kernel) rfl)
    unfold RequestPayload.encode
    simp only [h1, Go.bind_ok]
    show Go.ok ((⟨frameWire (fnf109 []), []⟩ : Cur).copy data).all = _
    simp [Cur.copy, Cur.all]
  rw [he]
  rfl

/-- After the request was sent. -/
def sent109 (data : Bytes) (p : TcpSystem.Pipe) : TcpSystem.Sys Unit :=
  ⟨(call (.init oneHandler true) .fnf ⟨data, []⟩ .created).1, .init oneHandler false, p, .init,
    [.call .fnf ⟨data, []⟩ .created], [], [.sent none (fnf109 data)], []⟩

/-- After a request was handled. -/
def handled109 (data : Bytes) (p : TcpSystem.Pipe) : TcpSystem.Sys Unit :=
  { sent109 data p with
    b := addTasks (.init oneHandler false) [.request .fnf 1 [] [] 1], histB := [.frame (fnf109 []) noReact] }

theorem huge_sent {data : Bytes} {p : TcpSystem.Pipe} (hs : TcpSystem.Pipe.init.send [fnf109 data] = .ok p) :
    TcpSystem.step (.init oneHandler oneHandler true) (.atA (.call .fnf ⟨data, []⟩ .created)) = .ok (sent109 data p) := by
  show (TcpSystem.Pipe.init.send [fnf109 data] >>= fun ab => _) = _
  rw [hs]
  rfl

theorem huge_handled {data : Bytes} {q : TcpSystem.Pipe} (hq : q.queue = [fnf109 []]) :
    TcpSystem.step (sent109 data q) (.toB noReact) = .ok (handled109 data { q with queue := [] }) := by
  have : (sent109 data q).ab.queue = [fnf109 []] := hq
  simp only [TcpSystem.step, this]
  rfl

/-- C109 fails: of a frame with 4 GiB all data is silently dropped. -/
theorem C109_huge_violated (data : Bytes) (h : data.length = 2 ^ 32) :
    ∃ ms t, TcpSystem.run oneHandler oneHandler true ms = .ok t ∧ sentFrames t.trA = [fnf109 data] ∧
      handedOver t.histB = [fnf109 []] := by
  have hf : Fine (fnf109 []) := ⟨⟨.inr (.inl rfl), rfl, fun _ _ => rfl⟩, by decide, by decide⟩
  obtain ⟨p, hp⟩ := send_ok (p := .init) [fnf109 []] (by simpa using hf) (by
    intro ⟨f, h1, h2⟩
    have hf : f = fnf109 [] := by simpa using h1
    rw [hf] at h2
    revert h2
    decide)
  have hs : TcpSystem.Pipe.init.send [fnf109 data] = .ok p := by
    rw [← hp]
    simp only [TcpSystem.Pipe.send, huge_pack data h, (pack_parse hf.ordinary hf.id hf.body (by decide)).1]
  have hp : PipeFits p [fnf109 []] [] [fnf109 []] := pipe_send [fnf109 []] pipe_init (by simpa using hf) hp
  obtain ⟨q, e1, f1⟩ := readB_all [fnf109 []] (t := sent109 data (p.carry p.out.length))
    (fs := [fnf109 []]) (done := []) (pipe_carry hp p.out.length) pipe_carried
  refine ⟨.atA (.call .fnf ⟨data, []⟩ .created) :: .carryAB p.out.length :: (List.replicate 1 .readB ++ [.toB noReact]),
    handled109 data { q with queue := [] }, ?_, rfl, rfl⟩
  show (TcpSystem.step _ _ >>= fun s => TcpSystem.runFrom s _) = _
  rw [huge_sent hs]
  refine tcp_runFrom_append (List.replicate 1 .readB) e1 ?_
  show (TcpSystem.step (sent109 data q) _ >>= fun s => TcpSystem.runFrom s _) = _
  rw [huge_handled f1.queue]
  rfl

theorem C109_violated : ¬ C109_statement Unit := by
  intro hc
  have hl : (List.replicate (2 ^ 24) (0 : UInt8)).length = 2 ^ 24 := List.length_replicate
  generalize List.replicate (2 ^ 24) (0 : UInt8) = data at hl
  have h := C109_large_violated data hl
  exact h.2 ((hc oneHandler oneHandler true [] _ rfl).2.2 _ h.1)

/-- Not only because of the crashes. -/
theorem C109_unchanged_violated : ¬ ∀ (ms : List TcpSystem.Move) (t : TcpSystem.Sys Unit),
    TcpSystem.run oneHandler oneHandler true ms = .ok t → unchanged t := by
  intro hc
  have hl : (List.replicate (2 ^ 32) (0 : UInt8)).length = 2 ^ 32 := List.length_replicate
  generalize List.replicate (2 ^ 32) (0 : UInt8) = data at hl
  obtain ⟨ms, t, h1, h2, h3⟩ := C109_huge_violated data hl
  have := (hc ms t h1).1
  rw [h2, h3] at this
  have h4 := List.IsPrefix.eq_of_length this rfl
  have : (fnf109 []) = frameSeen (fnf109 data) := by simpa using h4
  have hd : ([] : Bytes) = data := by
    simp only [fnf109, frameSeen, requestSeen, AnyFrame.request.injEq, RequestPayload.mk.injEq] at this
    exact this.2.2.2.1
  rw [← hd] at hl
  simp at hl

end Verif.Props
