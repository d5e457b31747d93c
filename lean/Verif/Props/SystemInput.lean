import Verif.Props.InputSeen
/-
Property C94: the input of a channel over a whole connection.
-/
set_option autoImplicit false
namespace Verif.Props
open Verif Frames Handler
open Verif.Invoke (Kind Registry getHandler)
open Verif.System (Sys Move)

section
variable {H : Type}

/-! ## Specification

A connection is run (`System.run`): after `pre`, end A calls a channel operation with payload `p` and the input
`src`, things go on (`mid`), the handler of end B serves the call as its stream number `i` and subscribes to the
input it was given, installing the callbacks `inst` and calling `start` from inside OnSubscribe, and things go on
(`post`). The call is stream number `s0.a.objs.length` of A and has the id `callId s0.a`. `inpEvs` is what B's
handler sees of the input, `InputSaid` is what A's application has said on it. -/

/-- The run described above, ending in `s`. `channel` says that `i` is the channel as B knows it, with an
input nobody has subscribed to yet. -/
structure inputRun (regA regB : Registry H) (client : Bool) (pre : List Move) (s0 : Sys H) (p : Pay)
    (src : Src) (mid : List Move) (s1 : Sys H) (i : Nat) (inst : Flux.Installed) (start : List Flux.Call)
    (post : List Move) (s : Sys H) : Prop where
  before : System.run regA regB client pre = .ok s0
  call : System.run regA regB client (pre ++ .atA (.call .rc p src) :: mid) = .ok s1
  channel : ∃ out b, s1.b.objs[i]? = some (.responder .rc (callId s0.a) out b none)
  whole : System.run regA regB client (pre ++ .atA (.call .rc p src) :: mid ++
    .atB (.subscribeInp i inst start) :: post) = .ok s

/-- A does not cancel the output of the channel `x` (that completes the input at B). -/
def outputKept (s : Sys H) (x : UInt32) : Prop := .cancel ⟨x⟩ ∉ System.wire s.trA

/-- What A's application has said on the input of the call by the end of the run. -/
def saidOnInput (regA : Registry H) (client : Bool) (s0 s : Sys H) (p : Pay) (src : Src) (r : List StreamSig) : Prop :=
  ∃ rest, s.histA = s0.histA ++ .call .rc p src :: rest ∧
    InputSaid regA client (s0.histA ++ [.call .rc p src]) s0.a.objs.length src rest r

/-- What B's handler sees of the input is the beginning of what A's application has said on it. -/
def inputFaithful (regA : Registry H) (client : Bool) (s0 s : Sys H) (p : Pay) (src : Src) (i : Nat)
    (inst : Flux.Installed) : Prop :=
  ∃ r, saidOnInput regA client s0 s p src r ∧ ∃ seen, seen <+: cutAtEnd r ∧
    fluxSignals (inpEvs i s.trB) = (seen.map sigOverWire).flatMap (sigCalls inst)

/-! ## Proof -/

theorem Joined.openedB {regA regB : Registry H} {client : Bool} {s : Sys H} (hj : Joined regA regB client s)
    (ht : Tidy s) : (openedIds s.trB).Nodup := by
  obtain ⟨h1, h2⟩ := peer_ids hj.a ht.callsA ht.onceA s.histB s.ab hj.ab
  exact opened_nodup hj.b ht.callsB ht.onceB h1 h2

theorem isLast_sigs {f : AnyFrame} {x : UInt32} (h : f.streamID = x) (hl : isLast f = true) : frameSigs x f ≠ [] := by
  subst h
  cases f with
  | payload v => simp only [isLast] at hl; simp [frameSigs, AnyFrame.streamID, hl]
  | error v => simp [frameSigs, AnyFrame.streamID]
  | cancel v => simp [frameSigs, AnyFrame.streamID]
  | _ => cases hl

/-- Everything the theorems need. -/
structure InputCalled (regA : Registry H) (client : Bool) (s0 s : Sys H) (p : Pay) (src : Src) (i : Nat)
    (inst : Flux.Installed) (r : List StreamSig) : Prop where
  said : saidOnInput regA client s0 s p src r
  came : cutAtEnd (arrivals (callId s0.a) s.histB) <+: (cutAtEnd r).map sigOverWire
  all : s.ab = [] → cutAtEnd (arrivals (callId s0.a) s.histB) = (cutAtEnd r).map sigOverWire
  part : ∃ q, q <+: cutAtEnd (arrivals (callId s0.a) s.histB) ∧ fluxSignals (inpEvs i s.trB) = q.flatMap (sigCalls inst)
  whole : .cancelled ∉ inpEvs i s.trB →
    fluxCallbacks (inpEvs i s.trB) = (cutAtEnd (arrivals (callId s0.a) s.histB)).flatMap (sigCallbacks inst)

theorem input_called {regA regB : Registry H} {client : Bool} {pre mid post : List Move} {p : Pay} {src : Src}
    {i : Nat} {inst : Flux.Installed} {start : List Flux.Call} {s0 s1 s : Sys H}
    (h : inputRun regA regB client pre s0 p src mid s1 i inst start post s) (ht : Tidy s)
    (hk : outputKept s (callId s0.a)) (hearly : arrivals (callId s0.a) s1.histB = []) :
    ∃ r, InputCalled regA client s0 s p src i inst r := by
  obtain ⟨h0, hcall, ⟨out, b, hobj⟩, h⟩ := h
  have hJ := joined_run _ h
  have hJ0 := joined_run _ h0
  have hJ1 := joined_run _ hcall
  obtain ⟨s1', h1, h2⟩ := sys_append_ok _ _ h
  have e1 : s1' = s1 := by
    have : System.runFrom (.init regA regB client) (pre ++ .atA (.call .rc p src) :: mid) = .ok s1 := hcall
    rw [this] at h1; cases h1; rfl
  subst e1
  obtain ⟨s0', h3, h4⟩ := sys_append_ok _ _ h1
  rw [show System.runFrom (.init regA regB client) pre = .ok s0 from h0] at h3
  cases h3
  obtain ⟨s2, h5, h6⟩ := sys_cons_ok h4
  obtain ⟨s3, h7, h8⟩ := sys_cons_ok h2
  have hJ2 := joined_step _ hJ0 h5
  generalize hjd : s0.a.objs.length = j
  -- the call
  simp only [System.step, System.isFrame, Bool.false_eq_true, if_false, System.moveA, Handler.step, settle] at h5
  have h5 := (Go.ok.inj h5).symm
  have ho2 : s2.a.objs[j]? = some (.flux (fluxRequest .rc (callId s0.a) p requestMax) true false (some (.fresh src)) none) := by
    rw [h5]
    show (s0.a.objs ++ _)[j]? = _
    rw [List.getElem?_append_right (by omega), hjd, Nat.sub_self]
    rfl
  have hh2 : s2.histA = s0.histA ++ [.call .rc p src] := by rw [h5]
  obtain ⟨⟨rest1, hr1⟩, -⟩ := hist_runFrom _ h6
  obtain ⟨⟨rest2, hr2⟩, -⟩ := hist_runFrom _ h2
  have hhistA : s.histA = s0.histA ++ .call .rc p src :: (rest1 ++ rest2) := by rw [hr2, hr1, hh2]; simp
  -- what A sends for it
  have hrunA := hJ.a
  rw [hhistA] at hrunA
  obtain ⟨r, hsaid, hnone, hfr⟩ := input_sent hJ0.a hrunA
  rw [hjd] at hsaid hfr
  have hid : (nextID s0.a.client s0.a.streamIDs).2 = callId s0.a := rfl
  rw [hid] at hfr
  have hrunA2 : Handler.run regA client (s2.histA ++ (rest1 ++ rest2)) = .ok (s.a, s.trA) := by
    rw [hh2]; simpa using hrunA
  have hrunA3 := hJ2.a
  unfold Handler.run at hrunA2 hrunA3
  rw [handler_runFrom_append, hrunA3] at hrunA2
  obtain ⟨_, _, t2, q1, q2, -⟩ := andThen_ok hrunA2
  cases q1
  obtain ⟨o', q4, q5⟩ := (loc_runFrom j _ s2.a _ _ q2).1 _ ho2
  obtain ⟨n, f, c, ip, sub, rfl⟩ := flux_req_run (req := fluxRequest .rc (callId s0.a) p requestMax) q5
    ⟨requestMax, true, false, _, none, rfl⟩
  have hsent := withId_of_obj (callId s0.a) hJ.a (hJ.usesA ht _) q4 rfl
  rw [← hsent] at hfr
  have hsig : (withId (callId s0.a) (sentFrames s.trA)).flatMap (frameSigs (callId s0.a)) = r.map sigOverWire := by
    have g1 : .cancel ⟨callId s0.a⟩ ∉ withId (callId s0.a) (sentFrames s.trA) := fun hm => hk (List.mem_filter.mp hm).1
    rw [sigs_of_replies _ _ g1 (fun f hf => by simpa [withId] using (List.mem_filter.mp hf).2), hfr, sigs_of_frames _ r hnone]
  rw [hJ.ab, withId_append, List.flatMap_append, ← arrivals_handedOver] at hsig
  -- the subscription
  simp only [System.step, System.isFrame, Bool.false_eq_true, if_false] at h7
  obtain ⟨-, after, hafter⟩ := hist_runFrom _ h8
  have hh3 : s3.histB = s1'.histB ++ [.subscribeInp i inst start] := by
    unfold System.moveB at h7
    split at h7
    · cases h7; rfl
    · cases h7
    · cases h7
  have hhistB : s.histB = s1'.histB ++ .subscribeInp i inst start :: after := by rw [hafter, hh3]; simp
  have hrunB := hJ.b
  have hrunB1 := hJ1.b
  have hclosed : .closed (callId s0.a) ∉ s1'.trB := by
    intro hm
    obtain ⟨g, rr, g1, g2, g3⟩ := closed_ended _ hrunB1 _ hm
    have := List.flatMap_eq_nil_iff.mp hearly _ g1
    exact isLast_sigs g2 g3 this
  rw [hhistB] at hrunB
  unfold Handler.run at hrunB hrunB1
  rw [handler_runFrom_append, hrunB1] at hrunB
  obtain ⟨_, _, t3, p1, p2, p3⟩ := andThen_ok hrunB
  cases p1
  have hopened : (openedIds (s1'.trB ++ t3)).Nodup := by rw [← p3]; exact hJ.openedB ht
  obtain ⟨r1, r2, r3⟩ := input_received regB (!client) s1'.histB after s1'.b s.b s1'.trB t3 i _ out b inst start
    hJ1.b hobj hclosed p2 hopened
  have hrec : arrivals (callId s0.a) s.histB = arrivals (callId s0.a) after := by
    rw [hhistB, arrivals_append, hearly]; rfl
  have hev : inpEvs i s.trB = inpEvs i t3 := by rw [p3, inpEvs_append, r1]; rfl
  refine ⟨r, ⟨rest1 ++ rest2, hhistA, hjd ▸ hsaid⟩, ?_, ?_, ?_, ?_⟩
  · rw [← cutAtEnd_wire, ← hsig]; exact cutAtEnd_prefix _ _
  · intro hb
    rw [hb] at hsig
    rw [← cutAtEnd_wire, ← hsig]
    congr 1
    exact (List.append_nil _).symm
  · rw [hev, hrec]; exact r2
  · rw [hev, hrec]; exact r3

/-! ## The theorems -/

/-- C94: what the handler of a channel sees of its input, at any point of any run of the connection, is the
beginning of what the caller's application has said on that input, in that order and without gaps, provided that
the caller does not cancel the output and that nothing arrived before the handler subscribed. -/
theorem C94_input_partial (regA regB : Registry H) (client : Bool) (pre mid post : List Move) (s0 s1 s : Sys H) (p : Pay)
    (src : Src) (i : Nat) (inst : Flux.Installed) (start : List Flux.Call)
    (h : inputRun regA regB client pre s0 p src mid s1 i inst start post s) (ht : Tidy s)
    (hk : outputKept s (callId s0.a)) (hearly : arrivals (callId s0.a) s1.histB = []) :
    inputFaithful regA client s0 s p src i inst := by
  obtain ⟨r, c⟩ := input_called h ht hk hearly
  obtain ⟨q, q1, q2⟩ := c.part
  obtain ⟨seen, h4, rfl⟩ := map_prefix_inv sigOverWire (q1.trans c.came)
  exact ⟨r, c.said, seen, h4, q2⟩

/-- C94: once nothing is under way to it, a handler that has not cancelled its input has seen exactly what the
caller's application has said on it, up to the end of the input. -/
theorem C94_completes_partial (regA regB : Registry H) (client : Bool) (pre mid post : List Move) (s0 s1 s : Sys H)
    (p : Pay) (src : Src) (i : Nat) (inst : Flux.Installed) (start : List Flux.Call)
    (h : inputRun regA regB client pre s0 p src mid s1 i inst start post s) (ht : Tidy s)
    (hk : outputKept s (callId s0.a)) (hearly : arrivals (callId s0.a) s1.histB = [])
    (hc : .cancelled ∉ inpEvs i s.trB) (hq : s.ab = []) :
    ∃ r, saidOnInput regA client s0 s p src r ∧
      fluxCallbacks (inpEvs i s.trB) = ((cutAtEnd r).map sigOverWire).flatMap (sigCallbacks inst) := by
  obtain ⟨r, c⟩ := input_called h ht hk hearly
  exact ⟨r, c.said, by rw [c.whole hc, c.all hq]⟩

/-- C94 in full: the same whatever the caller does and however soon the input speaks. -/
def C94_statement : Prop :=
  ∀ (regA regB : Registry Unit) (client : Bool) (pre mid post : List Move) (s0 s1 s : Sys Unit) (p : Pay)
    (src : Src) (i : Nat) (inst : Flux.Installed) (start : List Flux.Call),
    inputRun regA regB client pre s0 p src mid s1 i inst start post s → Tidy s →
    inputFaithful regA client s0 s p src i inst

/-! ## Examples -/

def called94 (mid post : List Move) : List Move :=
  [] ++ .atA (.call .rc ⟨[5], eightZeros⟩ .created) :: mid ++
    .atB (.subscribeInp 0 ⟨true, true, true, true, true, false⟩ [.request 3]) :: post

/-- A subscribes to the output and asks for three elements, the request goes over and is served; meanwhile
A subscribes to the input. -/
def served94 : List Move :=
  [.atA (.subscribeFlux 0 ⟨true, true, true, true, true, false⟩ [.request 3]), .atA (.run 0 retCreated), .toB noReact,
   .atB (.run 0 retCreated), .atB (.run 0 retCreated), .atA (.run 0 retCreated)]

/-- B asks for three elements; the input gives two and is complete. -/
def input94 : List Move :=
  [.atB (.run 1 retCreated), .toA noReact, .atA (.run 0 retCreated), .atA (.input 0 (.next ⟨[7], [8]⟩)), .toB noReact,
   .atB (.out 0 (.next ⟨[1], []⟩)), .atA (.input 0 (.next ⟨[6], []⟩)), .atA (.input 0 .complete), .toB noReact, .toB noReact]

def mid94 : Sys Unit := sysAfter (System.run oneHandler oneHandler true ([] ++ .atA (.call .rc ⟨[5], eightZeros⟩ .created) :: served94))
def end94 : Sys Unit := sysAfter (System.run oneHandler oneHandler true (called94 served94 input94))

/-- The hypotheses of the theorems hold for it, and the handler sees two elements and the completion. -/
example : inputRun oneHandler oneHandler true [] (.init oneHandler oneHandler true) ⟨[5], eightZeros⟩ .created served94 mid94
      0 ⟨true, true, true, true, true, false⟩ [.request 3] input94 end94 ∧ Tidy end94 ∧
    outputKept end94 (callId (St.init oneHandler true)) ∧ arrivals (callId (St.init oneHandler true)) mid94.histB = [] ∧
    .cancelled ∉ inpEvs 0 end94.trB ∧ end94.ab = [] ∧
    fluxCallbacks (inpEvs 0 end94.trB) = [.next ⟨[7], [8]⟩, .next ⟨[6], []⟩, .complete, .fin .complete] :=
  ⟨⟨rfl, rfl, ⟨_, _, rfl⟩, rfl⟩, tidy_of (by decide +kernel) (by decide +kernel) (by decide +kernel) (by decide +kernel),
    by unfold outputKept; decide +kernel, by decide +kernel, by decide +kernel, by decide +kernel, by decide +kernel⟩

/-- A cancels the output after the first element of the input. -/
def cancelOut94 : List Move :=
  [.atA (.input 0 (.next ⟨[7], [8]⟩)), .atA (.fluxCall 0 .cancel), .toB noReact, .toB noReact]

def endCancel94 : Sys Unit := sysAfter (System.run oneHandler oneHandler true (called94 served94 cancelOut94))

/-- A subscribes to the input, which speaks before the goroutine serving the request has run. -/
def early94 : List Move :=
  [.atA (.subscribeFlux 0 ⟨true, true, true, true, true, false⟩ [.request 3]), .atA (.run 0 retCreated),
   .atA (.run 0 retCreated), .atA (.input 0 (.next ⟨[7], [8]⟩)), .atA (.input 0 (.next ⟨[6], []⟩)),
   .toB noReact, .toB noReact, .atB (.run 0 retCreated), .atB (.run 0 retCreated)]

def midEarly94 : Sys Unit := sysAfter (System.run oneHandler oneHandler true ([] ++ .atA (.call .rc ⟨[5], eightZeros⟩ .created) :: early94))
def endEarly94 : Sys Unit := sysAfter (System.run oneHandler oneHandler true (called94 early94 [.toB noReact]))

/-- What has been said on an input that is not a failed flux was said by its source. -/
theorem saidOnInput_mem {regA : Registry Unit} {client : Bool} {s0 s : Sys Unit} {p : Pay} {r : List StreamSig}
    (h : saidOnInput regA client s0 s p .created r) {y : StreamSig} (hy : y ∈ r) : y ∈ inputSigs s0.a.objs.length s.histA := by
  obtain ⟨rest, h1, h2⟩ := h
  cases h2 with
  | waiting => cases hy
  | subscribed as3 as4 t ret s3 t3 split =>
    have := cutAtEnd_mem (show y ∈ cutAtEnd (inputSigs s0.a.objs.length as4) from hy)
    rw [h1, split]
    simp only [inputSigs, List.mem_flatMap] at this ⊢
    obtain ⟨a, h3, h4⟩ := this
    exact ⟨a, by simp [h3], h4⟩

/-- The handler is told that its input is complete, which the caller's application has not said, although the
input speaks only after the handler subscribed: the caller cancelled the output. -/
theorem C94_cancel_violated : ¬ ∀ (regA regB : Registry Unit) (client : Bool) (pre mid post : List Move) (s0 s1 s : Sys Unit)
    (p : Pay) (src : Src) (i : Nat) (inst : Flux.Installed) (start : List Flux.Call),
    inputRun regA regB client pre s0 p src mid s1 i inst start post s → Tidy s →
    arrivals (callId s0.a) s1.histB = [] → inputFaithful regA client s0 s p src i inst := by
  intro h
  obtain ⟨r, h1, seen, h2, h3⟩ := h oneHandler oneHandler true [] served94 cancelOut94 (.init oneHandler oneHandler true) mid94
    endCancel94 ⟨[5], eightZeros⟩ .created 0 ⟨true, true, true, true, true, false⟩ [.request 3]
    ⟨rfl, rfl, ⟨_, _, rfl⟩, rfl⟩ (tidy_of (by decide +kernel) (by decide +kernel) (by decide +kernel) (by decide +kernel))
    (by decide +kernel)
  have hs : fluxSignals (inpEvs 0 endCancel94.trB) = [.next ⟨[7], [8]⟩, .complete] := by decide +kernel
  have hc : Flux.Ev.complete ∈ (seen.map sigOverWire).flatMap
      (sigCalls ⟨true, true, true, true, true, false⟩) := by rw [← h3, hs]; simp
  obtain ⟨y, h4, h5⟩ := List.mem_flatMap.mp hc
  obtain ⟨z, h6, rfl⟩ := List.mem_map.mp h4
  have h7 := saidOnInput_mem h1 (cutAtEnd_mem (h2.subset h6))
  have h8 : inputSigs (Sys.init oneHandler oneHandler true).a.objs.length endCancel94.histA = [.element ⟨[7], [8]⟩] := by
    decide +kernel
  rw [h8] at h7
  simp only [List.mem_singleton] at h7
  subst h7
  simp [sigOverWire, sigCalls] at h5

theorem C94_violated : ¬ C94_statement :=
  fun h => C94_cancel_violated fun regA regB client pre mid post s0 s1 s p src i inst start h1 h2 _ =>
    h regA regB client pre mid post s0 s1 s p src i inst start h1 h2

/-- The handler misses the first element and sees the second one, although the caller does not cancel: the first one
arrived before the goroutine serving the request had run. -/
theorem C94_early_violated : ¬ ∀ (regA regB : Registry Unit) (client : Bool) (pre mid post : List Move) (s0 s1 s : Sys Unit)
    (p : Pay) (src : Src) (i : Nat) (inst : Flux.Installed) (start : List Flux.Call),
    inputRun regA regB client pre s0 p src mid s1 i inst start post s → Tidy s →
    outputKept s (callId s0.a) → inputFaithful regA client s0 s p src i inst := by
  intro h
  obtain ⟨r, ⟨rest, h0, h1⟩, seen, h2, h3⟩ := h oneHandler oneHandler true [] early94 [.toB noReact] (.init oneHandler oneHandler true)
    midEarly94 endEarly94 ⟨[5], eightZeros⟩ .created 0 ⟨true, true, true, true, true, false⟩ [.request 3]
    ⟨rfl, rfl, ⟨_, _, rfl⟩, rfl⟩ (tidy_of (by decide +kernel) (by decide +kernel) (by decide +kernel) (by decide +kernel))
    (by unfold outputKept; decide +kernel)
  have hs : fluxSignals (inpEvs 0 endEarly94.trB) = [.next ⟨[6], []⟩] := by decide +kernel
  rw [hs] at h3
  have hh : endEarly94.histA = (Sys.init oneHandler oneHandler true).histA ++ .call .rc ⟨[5], eightZeros⟩ .created ::
      [.subscribeFlux 0 ⟨true, true, true, true, true, false⟩ [.request 3], .run 0 retCreated, .run 0 retCreated,
       .input 0 (.next ⟨[7], [8]⟩), .input 0 (.next ⟨[6], []⟩)] := rfl
  rw [hh] at h0
  have h0 := (List.cons.inj (List.append_cancel_left h0)).2
  have hr : r = [] ∨ r = [.element ⟨[7], [8]⟩, .element ⟨[6], []⟩] := by
    cases h1 with
    | waiting => exact .inl rfl
    | subscribed as3 as4 t ret s3 t3 split =>
      right
      rw [← h0] at split
      have : inputSigs 0 as4 = [.element ⟨[7], [8]⟩, .element ⟨[6], []⟩] := by
        match as3, split with
        | [], split => simp at split
        | [a], split => simp at split; rw [← split.2.2]; rfl
        | [a, b], split => simp at split; rw [← split.2.2.2]; rfl
        | [a, b, c], split => simp at split
        | [a, b, c, d], split => simp at split
        | a :: b :: c :: d :: e :: l, split => simp at split
      show cutAtEnd (inputSigs 0 as4) = _
      rw [this]; rfl
  rcases hr with rfl | rfl
  · rw [List.prefix_nil.mp h2] at h3; cases h3
  · match seen, h2 with
    | [], _ => cases h3
    | a :: l, h2 =>
      obtain ⟨rfl, -⟩ := List.cons_prefix_cons.mp h2
      simp [sigOverWire, sigCalls] at h3

end
end Verif.Props
