import Verif.Props.SystemStreams
/-
Property C92: fire-and-forget over a whole connection.
-/
set_option autoImplicit false
namespace Verif.Props
open Verif Frames Handler
open Verif.Invoke (Kind Registry getHandler)
open Verif.System (Sys Move)

section
variable {H : Type}

/-! ## Specification -/

/-- A connection is run: after `pre`, end A makes a fire-and-forget call with payload `p` (its id is
`callId s0.a`), and things go on (`post`). -/
def fnfRun (regA regB : Registry H) (client : Bool) (pre : List Move) (s0 : Sys H) (p : Pay) (src : Src)
    (post : List Move) (s : Sys H) : Prop :=
  System.run regA regB client pre = .ok s0 ∧
  System.run regA regB client (pre ++ .atA (.call .fnf p src) :: post) = .ok s

/-! ## Proof -/

/-- The frame of a fire-and-forget call. -/
def fnfRequest (x : UInt32) (p : Pay) : RequestPayload := ⟨typeRequestFNF, x, p.metadata, p.data, false, true, 1⟩

/-- A frame sent on behalf of no stream is the only one with its id. -/
theorem withId_loose {reg : Registry H} {client : Bool} {as : List Act} {s : St H} {tr : List (Handler.Ev H)}
    (h : Handler.run reg client as = .ok (s, tr)) {f : AnyFrame}
    (hu : uses (fun k => decide (k.2 = f.streamID)) s tr ≤ 1) (hf : .sent none f ∈ tr) :
    withId f.streamID (sentFrames tr) = [f] := by
  obtain ⟨b0, h0⟩ := id_source f.streamID h hu
  have hb := h0 none f hf rfl
  subst hb
  have h1 : withId f.streamID (sentFrames tr) = withId f.streamID (looseFrames tr) :=
    frames_source (fun g => decide (g.streamID = f.streamID)) none tr
      (fun b g hg hq => h0 b g hg (by simpa using hq))
  rw [h1]
  have hm : f ∈ withId f.streamID (looseFrames tr) := List.mem_filter.mpr ⟨looseFrames_mem hf, by simp⟩
  have hl : (withId f.streamID (looseFrames tr)).length ≤ 1 := by
    rw [uses_parts] at hu
    have : (fun g : AnyFrame => decide ((looseKey g).2 = f.streamID)) = fun g => decide (g.streamID = f.streamID) := by
      funext g; rw [looseKey_id]
    rw [this] at hu
    unfold withId
    omega
  match hw : withId f.streamID (looseFrames tr), hl, hm with
  | [g], _, hm => rw [List.mem_singleton.mp hm]

theorem trA_extends {regA regB : Registry H} {client : Bool} (ms : List Move) {s s' : Sys H}
    (hj : Joined regA regB client s) (h : System.runFrom s ms = .ok s') : ∃ t, s'.trA = s.trA ++ t := by
  have hj' := joined_runFrom ms hj h
  obtain ⟨⟨more, hm⟩, -⟩ := hist_runFrom ms h
  have h1 := hj'.a
  have h2 := hj.a
  rw [hm] at h1
  unfold Handler.run at h1 h2
  rw [handler_runFrom_append, h2] at h1
  obtain ⟨_, _, t2, q1, -, q3⟩ := andThen_ok h1
  cases q1
  exact ⟨t2, q3⟩

theorem fnf_sent {regA regB : Registry H} {client : Bool} {pre post : List Move} {s0 s : Sys H} {p : Pay} {src : Src}
    (h : fnfRun regA regB client pre s0 p src post s) (ht : Tidy s) :
    Joined regA regB client s ∧
    withId (callId s0.a) (sentFrames s.trA) = [.request (fnfRequest (callId s0.a) p)] := by
  obtain ⟨h0, h⟩ := h
  have hJ := joined_run _ h
  have hJ0 := joined_run _ h0
  obtain ⟨s0', h1, h2⟩ := sys_append_ok _ _ h
  rw [show System.runFrom (.init regA regB client) pre = .ok s0 from h0] at h1
  cases h1
  obtain ⟨s1, h3, h4⟩ := sys_cons_ok h2
  have hJ1 := joined_step _ hJ0 h3
  obtain ⟨t, h5⟩ := trA_extends _ hJ1 h4
  simp only [System.step, System.isFrame, Bool.false_eq_true, if_false, System.moveA, Handler.step, settle] at h3
  have h3 := (Go.ok.inj h3).symm
  have hm : .sent none (.request (fnfRequest (callId s0.a) p)) ∈ s.trA := by
    rw [h5, h3]
    refine List.mem_append_left _ (List.mem_append_right _ ?_)
    exact List.mem_singleton.mpr rfl
  exact ⟨hJ, withId_loose (f := .request (fnfRequest (callId s0.a) p)) hJ.a (hJ.usesA ht _) hm⟩

/-- C92: at any point after a fire-and-forget call, the peer has done nothing with it yet, or exactly one
thing: rejected it, or invoked the operation it names, once, with the payload of the call. Once the wire is
empty and the peer's goroutine for it has run, it has. -/
theorem C92_invoked (regA : Registry H) (callsB : List (Invoke.Call H)) (hc : fewCalls callsB) (client : Bool)
    (pre post : List Move) (s0 s : Sys H) (p : Pay) (src : Src)
    (h : fnfRun regA (Invoke.run Registry.init callsB) client pre s0 p src post s) (ht : Tidy s) :
    let done := (verdicts s.trB).filter fun v => decide (v.id = callId s0.a)
    (done = [] ∨ done = [verdict callsB .fnf (callId s0.a) p.data p.metadata]) ∧
    (settled s (callId s0.a) → done = [verdict callsB .fnf (callId s0.a) p.data p.metadata]) := by
  intro done
  obtain ⟨hJ, hsent⟩ := fnf_sent h ht
  have hp := (C56_accounted callsB hc _ _ _ _ hJ.b).filter fun v => decide (v.id = callId s0.a)
  rw [due_filter, List.filter_append] at hp
  rw [hJ.ab, withId_append] at hsent
  have hdue : dueOf callsB (.request (fnfRequest (callId s0.a) p)) =
      [verdict callsB .fnf (callId s0.a) p.data p.metadata] := rfl
  constructor
  · cases hl : withId (callId s0.a) (handedOver s.histB) with
    | nil =>
      rw [hl] at hp
      left
      exact (List.append_eq_nil_iff.mp hp.symm.eq_nil).1
    | cons g l =>
      rw [hl] at hp hsent
      have hg : g = .request (fnfRequest (callId s0.a) p) := by simp at hsent; exact hsent.1
      have hn : l = [] := by
        have : l ++ withId (callId s0.a) s.ab = [] := by simpa [hg] using hsent
        exact (List.append_eq_nil_iff.mp this).1
      rw [hg, hn, List.flatMap_cons, hdue] at hp
      simp only [List.flatMap_nil, List.append_nil] at hp
      have hp := List.perm_singleton.mp hp.symm
      cases hd : done with
      | nil => exact .inl rfl
      | cons v vs =>
        right
        have hd' : (verdicts s.trB).filter (fun v => decide (v.id = callId s0.a)) = v :: vs := hd
        rw [hd'] at hp
        simp at hp
        rw [hp.1, hp.2.1]
  · rintro ⟨q1, -, q3⟩
    rw [q1] at hsent
    have : withId (callId s0.a) ([] : List AnyFrame) = [] := rfl
    rw [this, List.append_nil] at hsent
    rw [hsent, open_filter _ _ _ q3, List.append_nil, List.flatMap_cons, hdue] at hp
    exact List.perm_singleton.mp hp.symm

/-! ## Example -/

def oneExport : List (Invoke.Call Unit) := [.exp .fnf [1] [2] ()]

def fnf92 : List Move :=
  [.atA (.call .rr ⟨[1], eightZeros⟩ .created), .toB noReact, .atA (.subscribeMono 0 ⟨true, true, true⟩), .toB noReact,
   .toB noReact, .atB (.run 0 retCreated), .atB (.run 0 retCreated), .toA noReact]

def end92 : Sys Unit :=
  sysAfter (System.run oneHandler (Invoke.run Registry.init oneExport) true
    ([] ++ .atA (.call .fnf ⟨[5], eightZeros ++ [6]⟩ .created) :: fnf92))

/-- The hypotheses of `C92_invoked` are met: beside a request the peer refuses, the call is invoked. -/
example : fnfRun oneHandler (Invoke.run Registry.init oneExport) true []
      (.init oneHandler (Invoke.run Registry.init oneExport) true) ⟨[5], eightZeros ++ [6]⟩ .created fnf92 end92 ∧
    Tidy end92 ∧ fewCalls oneExport ∧ settled end92 (callId (St.init oneHandler true)) ∧
    verdict oneExport .fnf 1 [5] (eightZeros ++ [6]) = .invoked .fnf () 1 ⟨[5], [6]⟩ := by
  refine ⟨⟨rfl, rfl⟩, ⟨by decide +kernel, by decide +kernel, ?_, ?_⟩, by show 1 < 2 ^ 32; omega,
    ⟨by decide +kernel, by decide +kernel, ?_⟩, ?_⟩
  · intro j
    match j with
    | 0 => decide +kernel
    | j + 1 =>
      have h : subscriptionsTo (j + 1) end92.histA = 0 := rfl
      omega
  · intro j
    have h : subscriptionsTo j end92.histB = 0 := rfl
    omega
  · intro k d m n h
    exact absurd h (by show _ ∉ []; simp)
  · have h : (exportsOf .fnf oneExport)[opIdOf (eightZeros ++ [6])]? = some ([1], [2], ()) := by decide +kernel
    have h' : (eightZeros ++ [6]).length = 9 := by decide +kernel
    have h'' : (eightZeros ++ [6]).drop 8 = [6] := by decide +kernel
    simp only [verdict, h, h', h'']
    rfl

end
end Verif.Props
