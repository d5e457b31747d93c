import Verif.Model.HostClose
/-
Properties C63, C64: closing a host instance.
-/
set_option autoImplicit false
namespace Verif.Props
open Verif HostClose
open Verif.Invoke (Kind)

/-! ## Statements -/

/-- Nothing is left to do: every goroutine has finished and no request waits or is being handled. -/
def allDone (s : HostClose.St) : Prop :=
  s.queue = [] ∧ ∀ p ∈ s.procs, p.running = false ∧ p.todo = [] ∧ p.inp = []

/-- C63 as stated in English. `Close` is called in the state `s` and has returned or not in `s'`:
it has not returned unless every request running at the call has been answered, and if nothing is left
to do, `Close` does not wait any longer. -/
def C63_statement : Prop :=
  ∀ (before after : List HostClose.Act) (s s' : HostClose.St), HostClose.run before = .ok s →
    s.closer = .idle → HostClose.runFrom s (.close :: after) = .ok s' →
    (s'.closer = .done → ∀ i < s.procs.length, ∀ p, s'.procs[i]? = some p → p.req.kind ≠ .fnf →
      p.answered = true) ∧
    (allDone s' → s'.closer = .waiting → s'.closedCh = true)

/-- C64 as stated in English. -/
def C64_statement : Prop := ∀ as : List HostClose.Act, HostClose.run as ≠ .panic

/-! ## Witnesses -/

def goodReq (k : Kind) : Req := ⟨k, true, true⟩

def stOf (as : List HostClose.Act) : HostClose.St := match HostClose.run as with | .ok s => s | _ => .init

/-- Close waits for ever: a stream request without handler was rejected, its error frame sent, and
nothing is left to do. -/
def hangs : List HostClose.Act := [.arrive ⟨.rs, true, false⟩, .recv, .thread 0 .out]

theorem C63_hang_violated : HostClose.run (hangs ++ [.close, .close]) =
    .ok (stOf (hangs ++ [.close, .close])) ∧ allDone (stOf (hangs ++ [.close, .close])) ∧
    (stOf (hangs ++ [.close, .close])).closer = .waiting ∧
    (stOf (hangs ++ [.close, .close])).closedCh = false := by
  refine ⟨by decide +kernel, ⟨by decide +kernel, by decide +kernel⟩, by decide +kernel, by decide +kernel⟩

/-- The same after a request with short metadata. -/
theorem C63_hang_metadata_violated :
    (stOf [.arrive ⟨.rr, false, true⟩, .recv, .thread 0 .out, .close, .close]).closer = .waiting ∧
    allDone (stOf [.arrive ⟨.rr, false, true⟩, .recv, .thread 0 .out, .close, .close]) ∧
    (stOf [.arrive ⟨.rr, false, true⟩, .recv, .thread 0 .out, .close, .close]).closedCh = false := by
  refine ⟨by decide +kernel, ⟨by decide +kernel, by decide +kernel⟩, by decide +kernel⟩

/-- Close returns early: the first request is answered and its goroutine has found the counter at zero;
a second request is received; Close starts to wait; the first goroutine sees the flag and lets Close go. -/
def early : List HostClose.Act :=
  [.arrive (goodReq .rr), .recv, .answer 0, .thread 0 .out, .thread 0 .out,
   .arrive (goodReq .rr), .recv]
def earlyAfter : List HostClose.Act := [.close, .thread 0 .out, .close, .close, .close]

theorem C63_early_violated : ¬ C63_statement := by
  intro h
  have := (h early earlyAfter (stOf early) (stOf (early ++ .close :: earlyAfter)) (by decide +kernel)
    (by decide +kernel) (by decide +kernel)).1 (by decide +kernel) 1 (by decide +kernel)
    ⟨goodReq .rr, true, [], [], false⟩ (by decide +kernel) (by decide)
  cases this

/-- Close returns early also because cancelling the input of a channel counts as answering it. -/
theorem C63_cancel_violated :
    (stOf [.arrive (goodReq .rc), .recv, .cancelIn 0, .close, .close, .thread 0 .inp, .thread 0 .inp,
      .thread 0 .inp, .close, .close, .close]).closer = .done ∧
    ((stOf [.arrive (goodReq .rc), .recv, .cancelIn 0, .close, .close, .thread 0 .inp, .thread 0 .inp,
      .thread 0 .inp, .close, .close, .close]).procs.map (·.answered)) = [false] := by
  decide +kernel

/-- C64 fails: two requests find the counter at zero before Close starts and see its flag afterwards. -/
theorem C64_double_close_violated : HostClose.run
    [.arrive (goodReq .rr), .recv, .answer 0, .thread 0 .out, .thread 0 .out,
     .arrive (goodReq .rr), .recv, .answer 1, .thread 1 .out, .thread 1 .out,
     .close, .thread 0 .out, .thread 1 .out] = .panic := by decide +kernel

/-- C64 fails: a channel handler cancels its input and ends its output while Close waits. -/
theorem C64_cancel_violated : HostClose.run
    [.arrive (goodReq .rc), .recv, .close, .close, .cancelIn 0, .thread 0 .inp, .thread 0 .inp, .thread 0 .inp,
     .answer 0, .thread 0 .out, .thread 0 .out, .thread 0 .out] = .panic := by decide +kernel

/-- C64 fails: a fire-and-forget request without handler is rejected after Close. -/
theorem C64_send_violated : HostClose.run
    [.arrive ⟨.fnf, true, false⟩, .recv, .close, .close, .close, .thread 0 .out] = .panic := by
  decide +kernel

/-- C64 fails: a request queued when Close is called is answered after Close. -/
theorem C64_late_violated : HostClose.run
    [.arrive (goodReq .rr), .close, .close, .close, .close, .recv, .answer 0, .thread 0 .out] = .panic := by
  decide +kernel

/-- C64 fails: the guest sends a frame after Close. -/
theorem C64_arrive_violated : HostClose.run [.close, .close, .close, .close, .arrive (goodReq .rr)] = .panic := by
  decide +kernel

theorem C64_violated : ¬ C64_statement := fun h => h _ C64_double_close_violated

/-! ## The counter -/

/-- The request has been counted and not given back. -/
def held (p : Proc) : Bool :=
  counted p.req.kind && (p.running || p.todo.contains .dec || !p.req.metaOK ||
    (!p.req.found && p.req.kind == .rs))

/-- The forms a request can have. -/
def wfOut (p : Proc) : Prop :=
  (p.todo = [] ∧ (p.running = true ∨ p.answered = true ∨ p.req.kind = .fnf)) ∨
  (p.todo = [.send] ∧ p.running = true) ∨
  (p.todo = [.sendEnd, .dec] ∧ p.running = false) ∨
  (p.todo = [.sendEnd] ∧ p.running = false ∧ (held p = true ∨ p.req.kind = .fnf)) ∨
  (p.todo = [.dec] ∧ p.running = false ∧ p.answered = true) ∨
  (p.todo = [.chk] ∧ p.running = false ∧ p.answered = true)

def wfInp (p : Proc) : Prop :=
  p.inp = [] ∨ p.inp = [.send] ∨ p.inp = [.send, .dec] ∨ p.inp = [.dec] ∨ p.inp = [.chk]

structure wfProc (p : Proc) : Prop where
  out : wfOut p
  inp : wfInp p
  running : p.running = true → counted p.req.kind = true ∧ p.req.metaOK = true ∧ p.req.found = true
  ends : .dec ∈ p.todo → counted p.req.kind = true ∧ p.req.metaOK = true ∧ (p.req.found = true ∨ p.req.kind ≠ .rs)

def isCancelIn : HostClose.Act → Bool
  | .cancelIn _ => true
  | _ => false

/-- Some goroutine has found the counter at zero and not yet looked at the flag. -/
def pendingChk (s : HostClose.St) : Prop := ∃ p ∈ s.procs, .chk ∈ p.todo ∨ .chk ∈ p.inp

structure CInv (s : HostClose.St) : Prop where
  procs : ∀ p ∈ s.procs, wfProc p
  le : s.active ≤ s.procs.countP held
  closed : s.closedCh = true → s.closing = true
  idle : s.closer = .idle → s.closing = false
  busy : s.closer ≠ .idle → s.closing = true
  sendC : s.sendClosed = true ↔ s.closer = .closeRecv ∨ s.closer = .done
  recvC : s.recvClosed = true ↔ s.closer = .done
  wait : s.closer = .waiting → s.active > 0 ∨ s.closedCh = true ∨ pendingChk s

theorem countP_set' {α : Type} (f : α → Bool) (l : List α) (i : Nat) (a b : α) (h : l[i]? = some a) :
    (l.set i b).countP f + (if f a then 1 else 0) = l.countP f + (if f b then 1 else 0) := by
  obtain ⟨hi, rfl⟩ := List.getElem?_eq_some_iff.mp h
  rw [List.countP_set hi]
  have : f l[i] = true → 0 < l.countP f := fun hf => List.countP_pos_iff.mpr ⟨_, List.getElem_mem hi, hf⟩
  split <;> split <;> rename_i h1 h2 <;> simp_all <;> omega

theorem mem_set_of {α : Type} {l : List α} {i : Nat} {b x : α} (h : x ∈ l.set i b) : x = b ∨ x ∈ l := by
  rcases List.mem_or_eq_of_mem_set h with h | h
  · exact .inr h
  · exact .inl h

theorem pending_set {s : HostClose.St} {i : Nat} {p q : Proc} (hp : s.procs[i]? = some p)
    (hk : .chk ∈ p.todo ∨ .chk ∈ p.inp → .chk ∈ q.todo ∨ .chk ∈ q.inp) (h : pendingChk s)
    {s' : HostClose.St} (hs : s'.procs = s.procs.set i q) : pendingChk s' := by
  obtain ⟨x, hx, hc⟩ := h
  obtain ⟨j, hj, rfl⟩ := List.getElem_of_mem hx
  by_cases hij : i = j
  · subst hij
    obtain ⟨hl, e⟩ := List.getElem?_eq_some_iff.mp hp
    rw [e] at hc
    exact ⟨q, by rw [hs]; exact List.mem_set hl q, hk hc⟩
  · refine ⟨s.procs[j], ?_, hc⟩
    rw [hs]
    have : (s.procs.set i q)[j]? = some s.procs[j] := by
      rw [List.getElem?_set_ne hij]; exact List.getElem?_eq_getElem hj
    exact List.mem_of_getElem? this

theorem serve_wf (r : Req) : wfProc (serve r) ∧ (held (serve r) = counted r.kind) := by
  obtain ⟨k, m, f⟩ := r
  cases k <;> cases m <;> cases f <;>
    (refine ⟨⟨?_, ?_, ?_, ?_⟩, ?_⟩ <;> simp [serve, wfOut, wfInp, held, counted])

/-- What a step that concerns only request `i` must do. -/
theorem cinv_set {s : HostClose.St} (h : CInv s) (i : Nat) (p q : Proc) (d : Int) (c : Bool)
    (hp : s.procs[i]? = some p) (hq : wfProc q)
    (hd : d + (if held p then 1 else 0) ≤ (if held q then 1 else 0))
    (hc : s.closedCh = true → c = true) (hc' : c = true → s.closing = true)
    (hw : s.active > 0 → s.active + d > 0 ∨ .chk ∈ q.todo ∨ .chk ∈ q.inp)
    (hk : s.closing = true → .chk ∈ p.todo ∨ .chk ∈ p.inp → c = true ∨ .chk ∈ q.todo ∨ .chk ∈ q.inp) :
    CInv { s with active := s.active + d, closedCh := c, procs := s.procs.set i q } := by
  have hl : i < s.procs.length := (List.getElem?_eq_some_iff.mp hp).1
  refine ⟨?_, ?_, hc', h.idle, h.busy, h.sendC, h.recvC, ?_⟩
  · intro x hx
    rcases mem_set_of hx with rfl | hx
    · exact hq
    · exact h.procs x hx
  · have := countP_set' held s.procs i p q hp
    have h2 := h.le
    simp only
    split at this <;> split at this <;> rename_i h3 h4 <;> simp only [h3, h4, if_true, if_false, Bool.false_eq_true] at hd <;> omega
  · intro hwt
    have hcl := h.busy (by simp only at hwt; rw [hwt]; simp)
    rcases h.wait hwt with h1 | h1 | h1
    · rcases hw h1 with h2 | h2
      · exact .inl h2
      · exact .inr (.inr ⟨q, List.mem_set hl q, h2⟩)
    · exact .inr (.inl (hc h1))
    · cases hcc : c with
      | true => exact .inr (.inl rfl)
      | false =>
        refine .inr (.inr (pending_set hp (fun hx => ?_) h1 rfl))
        rcases hk hcl hx with h2 | h2
        · rw [hcc] at h2; cases h2
        · exact h2

/-- A step of one request: its new form, the change of the counter, whether it sends, and whether the
completion channel is closed by it. -/
inductive PStep (s : HostClose.St) : Proc → Proc → Int → Bool → Prop
  | next (r l e) : PStep s ⟨r, true, [], l, e⟩ ⟨r, true, [.send], l, e⟩ 0 false
  | answer (r l e) : PStep s ⟨r, true, [], l, e⟩ ⟨r, false, [.sendEnd, .dec], l, e⟩ 0 false
  | requestIn (r b t e) : PStep s ⟨r, b, t, [], e⟩ ⟨r, b, t, [.send], e⟩ 0 false
  | cancelIn (r b t e) : PStep s ⟨r, b, t, [], e⟩ ⟨r, b, t, [.send, .dec], e⟩ 0 false
  | outSend (r b t l e) : PStep s ⟨r, b, .send :: t, l, e⟩ ⟨r, b, t, l, e⟩ 0 false
  | outEnd (r b t l e) : PStep s ⟨r, b, .sendEnd :: t, l, e⟩ ⟨r, b, t, l, true⟩ 0 false
  | outDec (r b t l e) (h : ¬ s.active - 1 ≤ 0) : PStep s ⟨r, b, .dec :: t, l, e⟩ ⟨r, b, t, l, e⟩ (-1) false
  | outZero (r b t l e) (h : s.active - 1 ≤ 0) :
      PStep s ⟨r, b, .dec :: t, l, e⟩ ⟨r, b, .chk :: t, l, e⟩ (-1) false
  | outChk (r b t l e) (h : s.closing = false) : PStep s ⟨r, b, .chk :: t, l, e⟩ ⟨r, b, t, l, e⟩ 0 false
  | outClose (r b t l e) (h : s.closing = true) (h' : s.closedCh = false) :
      PStep s ⟨r, b, .chk :: t, l, e⟩ ⟨r, b, t, l, e⟩ 0 true
  | inpSend (r b t l e) : PStep s ⟨r, b, t, .send :: l, e⟩ ⟨r, b, t, l, e⟩ 0 false
  | inpEnd (r b t l e) : PStep s ⟨r, b, t, .sendEnd :: l, e⟩ ⟨r, b, t, l, true⟩ 0 false
  | inpDec (r b t l e) (h : ¬ s.active - 1 ≤ 0) : PStep s ⟨r, b, t, .dec :: l, e⟩ ⟨r, b, t, l, e⟩ (-1) false
  | inpZero (r b t l e) (h : s.active - 1 ≤ 0) :
      PStep s ⟨r, b, t, .dec :: l, e⟩ ⟨r, b, t, .chk :: l, e⟩ (-1) false
  | inpChk (r b t l e) (h : s.closing = false) : PStep s ⟨r, b, t, .chk :: l, e⟩ ⟨r, b, t, l, e⟩ 0 false
  | inpClose (r b t l e) (h : s.closing = true) (h' : s.closedCh = false) :
      PStep s ⟨r, b, t, .chk :: l, e⟩ ⟨r, b, t, l, e⟩ 0 true

/-- The state after a step of request `i`. -/
def afterP (s : HostClose.St) (i : Nat) (q : Proc) (d : Int) (c : Bool) : HostClose.St :=
  { s with active := s.active + d, closedCh := s.closedCh || c, procs := s.procs.set i q }

theorem after_zero (s : HostClose.St) (i : Nat) (q : Proc) : setProc s i q = afterP s i q 0 false := by
  simp [setProc, afterP]

def isInput : HostClose.Act → Bool
  | .cancelIn _ => true
  | .requestIn _ => true
  | _ => false

/-- Every step of a goroutine or callback of a request is a `PStep`. -/
theorem step_cases (s s' : HostClose.St) (a : HostClose.Act) (h : HostClose.step s a = .ok s') :
    s' = s ∨ (∃ r, a = .arrive r ∧ s.recvClosed = false ∧ s' = { s with queue := s.queue ++ [r] }) ∨
    (∃ r q, a = .recv ∧ s.queue = r :: q ∧ s' = { s with queue := q, active := if counted r.kind then s.active + 1 else s.active, procs := s.procs ++ [serve r] }) ∨
    (∃ i p q d c, s.procs[i]? = some p ∧ PStep s p q d c ∧ s' = afterP s i q d c ∧
      (isCancelIn a = false → q.inp.length ≤ 1 ∨ q.inp.length ≤ p.inp.length) ∧
      (isInput a = false → p.inp = [] → q.inp = [])) ∨
    (a = .close ∧ closeStep s = .ok s') := by
  have at1 : ∀ i (p : Proc) at_ rest, s.procs[i]? = some p → p.todo = at_ :: rest →
      atom s i p setOut at_ rest = .ok s' → ∃ q d c, PStep s p q d c ∧ s' = afterP s i q d c ∧ q.inp = p.inp := by
    intro i p at_ rest hp ht h
    obtain ⟨r, b, t, l, e⟩ := p
    cases ht
    cases at_ with
    | send =>
      simp only [atom] at h
      split at h
      · cases h
      · cases h; exact ⟨_, _, _, .outSend .., after_zero .., rfl⟩
    | sendEnd =>
      simp only [atom] at h
      split at h
      · cases h
      · cases h; exact ⟨_, _, _, .outEnd .., after_zero .., rfl⟩
    | dec =>
      simp only [atom] at h
      cases h
      by_cases hz : s.active - 1 ≤ 0
      · rw [if_pos hz]; exact ⟨_, _, _, .outZero _ _ _ _ _ hz, by simp [setProc, afterP, setOut, Int.sub_eq_add_neg], rfl⟩
      · rw [if_neg hz]; exact ⟨_, _, _, .outDec _ _ _ _ _ hz, by simp [setProc, afterP, setOut, Int.sub_eq_add_neg], rfl⟩
    | chk =>
      simp only [atom] at h
      split at h
      · rename_i hc
        split at h
        · cases h
        · rename_i hcc
          cases h
          exact ⟨_, _, _, .outClose _ _ _ _ _ hc (by simpa using hcc), by simp [setProc, afterP, setOut], rfl⟩
      · rename_i hc
        cases h; exact ⟨_, _, _, .outChk _ _ _ _ _ (by simpa using hc), after_zero .., rfl⟩
  have at2 : ∀ i (p : Proc) at_ rest, s.procs[i]? = some p → p.inp = at_ :: rest →
      atom s i p setInp at_ rest = .ok s' → ∃ q d c, PStep s p q d c ∧ s' = afterP s i q d c ∧
        q.inp.length ≤ p.inp.length := by
    intro i p at_ rest hp ht h
    obtain ⟨r, b, t, l, e⟩ := p
    cases ht
    cases at_ with
    | send =>
      simp only [atom] at h
      split at h
      · cases h
      · cases h; exact ⟨_, _, _, .inpSend .., after_zero .., by simp⟩
    | sendEnd =>
      simp only [atom] at h
      split at h
      · cases h
      · cases h; exact ⟨_, _, _, .inpEnd .., after_zero .., by simp⟩
    | dec =>
      simp only [atom] at h
      cases h
      by_cases hz : s.active - 1 ≤ 0
      · rw [if_pos hz]; exact ⟨_, _, _, .inpZero _ _ _ _ _ hz, by simp [setProc, afterP, setInp, Int.sub_eq_add_neg], by simp⟩
      · rw [if_neg hz]; exact ⟨_, _, _, .inpDec _ _ _ _ _ hz, by simp [setProc, afterP, setInp, Int.sub_eq_add_neg], by simp⟩
    | chk =>
      simp only [atom] at h
      split at h
      · rename_i hc
        split at h
        · cases h
        · rename_i hcc
          cases h
          exact ⟨_, _, _, .inpClose _ _ _ _ _ hc (by simpa using hcc), by simp [setProc, afterP, setInp], by simp⟩
      · rename_i hc
        cases h; exact ⟨_, _, _, .inpChk _ _ _ _ _ (by simpa using hc), after_zero .., by simp⟩
  cases a with
  | arrive r =>
    simp only [HostClose.step] at h
    split at h
    · cases h
    · rename_i hr; cases h; exact .inr (.inl ⟨r, rfl, by simpa using hr, rfl⟩)
  | recv =>
    simp only [HostClose.step] at h
    split at h
    · cases h; exact .inl rfl
    · rename_i r q hq; cases h; exact .inr (.inr (.inl ⟨r, q, rfl, hq, rfl⟩))
  | next i =>
    simp only [HostClose.step] at h
    split at h
    · rename_i p hp
      cases h
      split
      · rename_i hc
        obtain ⟨r, b, t, l, e⟩ := p
        simp only [Bool.and_eq_true, List.isEmpty_iff] at hc
        obtain ⟨⟨rfl, rfl⟩, -⟩ := hc
        exact .inr (.inr (.inr (.inl ⟨i, _, _, _, _, hp, .next .., after_zero .., fun _ => .inr (Nat.le_refl _), fun _ h => h⟩)))
      · exact .inl rfl
    · cases h; exact .inl rfl
  | answer i =>
    simp only [HostClose.step] at h
    split at h
    · rename_i p hp
      cases h
      split
      · rename_i hc
        obtain ⟨r, b, t, l, e⟩ := p
        simp only [Bool.and_eq_true, List.isEmpty_iff] at hc
        obtain ⟨rfl, rfl⟩ := hc
        exact .inr (.inr (.inr (.inl ⟨i, _, _, _, _, hp, .answer .., after_zero .., fun _ => .inr (Nat.le_refl _), fun _ h => h⟩)))
      · exact .inl rfl
    · cases h; exact .inl rfl
  | requestIn i =>
    simp only [HostClose.step] at h
    split at h
    · rename_i p hp
      cases h
      split
      · rename_i hc
        obtain ⟨r, b, t, l, e⟩ := p
        simp only [Bool.and_eq_true, List.isEmpty_iff] at hc
        obtain ⟨⟨⟨rfl, -⟩, -⟩, -⟩ := hc
        exact .inr (.inr (.inr (.inl ⟨i, _, _, _, _, hp, .requestIn .., after_zero .., fun _ => .inl (by simp), fun h => by cases h⟩)))
      · exact .inl rfl
    · cases h; exact .inl rfl
  | cancelIn i =>
    simp only [HostClose.step] at h
    split at h
    · rename_i p hp
      cases h
      split
      · rename_i hc
        obtain ⟨r, b, t, l, e⟩ := p
        simp only [Bool.and_eq_true, List.isEmpty_iff] at hc
        obtain ⟨⟨⟨rfl, -⟩, -⟩, -⟩ := hc
        exact .inr (.inr (.inr (.inl ⟨i, _, _, _, _, hp, .cancelIn .., after_zero .., (fun h => by cases h), (fun h => by cases h)⟩)))
      · exact .inl rfl
    · cases h; exact .inl rfl
  | thread i side =>
    cases side with
    | out =>
      simp only [HostClose.step] at h
      split at h
      · rename_i p hp
        split at h
        · cases h; exact .inl rfl
        · rename_i at_ rest ht
          obtain ⟨q, d, c, h1, h2, h3⟩ := at1 i p at_ rest hp ht h
          exact .inr (.inr (.inr (.inl ⟨i, p, q, d, c, hp, h1, h2, fun _ => .inr (by rw [h3]; exact Nat.le_refl _), fun _ h => h3.trans h⟩)))
      · cases h; exact .inl rfl
    | inp =>
      simp only [HostClose.step] at h
      split at h
      · rename_i p hp
        split at h
        · cases h; exact .inl rfl
        · rename_i at_ rest ht
          obtain ⟨q, d, c, h1, h2, h3⟩ := at2 i p at_ rest hp ht h
          exact .inr (.inr (.inr (.inl ⟨i, p, q, d, c, hp, h1, h2, fun _ => .inr h3, fun _ h => by
            rw [h] at ht; cases ht⟩)))
      · cases h; exact .inl rfl
  | close => exact .inr (.inr (.inr (.inr ⟨rfl, h⟩)))

/-- Requests keep their form. -/
theorem pstep_wf {s : HostClose.St} {p q : Proc} {d : Int} {c : Bool} (h : PStep s p q d c) (hp : wfProc p) :
    wfProc q ∧ (d = 0 ∧ held q = held p ∨ d = -1 ∧ .dec ∈ p.inp ∧ held q = held p ∨ d = -1 ∧ held p = true ∧ held q = false) := by
  obtain ⟨h1, h2, h3, h4⟩ := hp
  cases h with
  | next r l e =>
    refine ⟨⟨.inr (.inl ⟨rfl, rfl⟩), h2, h3, by simp⟩, .inl ⟨rfl, by simp [held]⟩⟩
  | answer r l e =>
    have := h3 rfl
    refine ⟨⟨.inr (.inr (.inl ⟨rfl, rfl⟩)), h2, by simp, fun _ => ⟨this.1, this.2.1, .inl this.2.2⟩⟩, .inl ⟨rfl, by simp [held]⟩⟩
  | requestIn r b t e => exact ⟨⟨h1, .inr (.inl rfl), h3, h4⟩, .inl ⟨rfl, by simp [held]⟩⟩
  | cancelIn r b t e => exact ⟨⟨h1, .inr (.inr (.inl rfl)), h3, h4⟩, .inl ⟨rfl, by simp [held]⟩⟩
  | outSend r b t l e =>
    simp [wfOut] at h1
    obtain ⟨rfl, rfl⟩ := h1
    exact ⟨⟨.inl ⟨rfl, .inl rfl⟩, h2, h3, by simp⟩, .inl ⟨rfl, by simp [held]⟩⟩
  | outEnd r b t l e =>
    simp [wfOut] at h1
    rcases h1 with ⟨rfl, rfl⟩ | ⟨rfl, rfl, h1⟩
    · exact ⟨⟨.inr (.inr (.inr (.inr (.inl ⟨rfl, rfl, rfl⟩)))), h2, h3, fun _ => h4 (by simp)⟩, .inl ⟨rfl, by simp [held]⟩⟩
    · exact ⟨⟨.inl ⟨rfl, .inr (.inl rfl)⟩, h2, h3, by simp⟩, .inl ⟨rfl, by simp [held]⟩⟩
  | outDec r b t l e h =>
    simp [wfOut] at h1
    obtain ⟨rfl, rfl, rfl⟩ := h1
    have := h4 (by simp)
    have hh : held ⟨r, false, [.dec], l, true⟩ = true ∧ held ⟨r, false, [], l, true⟩ = false := by
      simp only at this
      rcases this with ⟨h5, h6, h7 | h7⟩ <;> simp [held, h5, h6, h7]
    exact ⟨⟨.inl ⟨rfl, .inr (.inl rfl)⟩, h2, h3, by simp⟩, .inr (.inr ⟨rfl, hh⟩)⟩
  | outZero r b t l e h =>
    simp [wfOut] at h1
    obtain ⟨rfl, rfl, rfl⟩ := h1
    have := h4 (by simp)
    have hh : held ⟨r, false, [.dec], l, true⟩ = true ∧ held ⟨r, false, [.chk], l, true⟩ = false := by
      simp only at this
      rcases this with ⟨h5, h6, h7 | h7⟩ <;> simp [held, h5, h6, h7]
    exact ⟨⟨.inr (.inr (.inr (.inr (.inr ⟨rfl, rfl, rfl⟩)))), h2, h3, by simp⟩, .inr (.inr ⟨rfl, hh⟩)⟩
  | outChk r b t l e h =>
    simp [wfOut] at h1
    obtain ⟨rfl, rfl, rfl⟩ := h1
    exact ⟨⟨.inl ⟨rfl, .inr (.inl rfl)⟩, h2, h3, by simp⟩, .inl ⟨rfl, by simp [held]⟩⟩
  | outClose r b t l e h =>
    simp [wfOut] at h1
    obtain ⟨rfl, rfl, rfl⟩ := h1
    exact ⟨⟨.inl ⟨rfl, .inr (.inl rfl)⟩, h2, h3, by simp⟩, .inl ⟨rfl, by simp [held]⟩⟩
  | inpSend r b t l e =>
    simp [wfInp] at h2
    refine ⟨⟨h1, ?_, h3, h4⟩, .inl ⟨rfl, by simp [held]⟩⟩
    rcases h2 with rfl | rfl
    · exact .inl rfl
    · exact .inr (.inr (.inr (.inl rfl)))
  | inpEnd r b t l e => simp [wfInp] at h2
  | inpDec r b t l e h =>
    simp [wfInp] at h2
    subst h2
    exact ⟨⟨h1, .inl rfl, h3, h4⟩, .inr (.inl ⟨rfl, by simp, rfl⟩)⟩
  | inpZero r b t l e h =>
    simp [wfInp] at h2
    subst h2
    exact ⟨⟨h1, .inr (.inr (.inr (.inr rfl))), h3, h4⟩, .inr (.inl ⟨rfl, by simp, rfl⟩)⟩
  | inpChk r b t l e h =>
    simp [wfInp] at h2
    subst h2
    exact ⟨⟨h1, .inl rfl, h3, h4⟩, .inl ⟨rfl, by simp [held]⟩⟩
  | inpClose r b t l e h =>
    simp [wfInp] at h2
    subst h2
    exact ⟨⟨h1, .inl rfl, h3, h4⟩, .inl ⟨rfl, by simp [held]⟩⟩

theorem pstep_keep {s : HostClose.St} {p q : Proc} {d : Int} {c : Bool} (h : PStep s p q d c) :
    (p.answered = true → q.answered = true) ∧ q.req = p.req := by
  cases h <;> exact ⟨by simp, rfl⟩

/-- A goroutine that finds the counter at zero goes on to look at the flag. -/
theorem pstep_wait {s : HostClose.St} {p q : Proc} {d : Int} {c : Bool} (h : PStep s p q d c) :
    (s.active > 0 → s.active + d > 0 ∨ .chk ∈ q.todo ∨ .chk ∈ q.inp) ∧
    (s.closing = true → .chk ∈ p.todo ∨ .chk ∈ p.inp → c = true ∨ .chk ∈ q.todo ∨ .chk ∈ q.inp) ∧
    (c = true → s.closing = true ∧ s.closedCh = false ∧ (.chk ∈ p.todo ∨ .chk ∈ p.inp)) := by
  cases h <;> refine ⟨?_, ?_, ?_⟩ <;> simp_all <;> omega

theorem cinv_step (s s' : HostClose.St) (a : HostClose.Act) (hs : CInv s) (h : HostClose.step s a = .ok s') :
    CInv s' := by
  rcases step_cases s s' a h with rfl | ⟨r, -, -, rfl⟩ | ⟨r, q, -, -, rfl⟩ | ⟨i, p, q, d, c, hp, hq, rfl, -⟩ | ⟨-, h⟩
  · exact hs
  · exact ⟨hs.procs, hs.le, hs.closed, hs.idle, hs.busy, hs.sendC, hs.recvC, hs.wait⟩
  · have hw := serve_wf r
    refine ⟨?_, ?_, hs.closed, hs.idle, hs.busy, hs.sendC, hs.recvC, ?_⟩
    · intro x hx
      rcases List.mem_append.mp hx with hx | hx
      · exact hs.procs x hx
      · rw [List.mem_singleton.mp hx]; exact hw.1
    · have := hs.le
      simp only [List.countP_append, List.countP_cons, List.countP_nil, hw.2]
      split <;> omega
    · intro hwt
      rcases hs.wait hwt with h1 | h1 | ⟨x, hx, h1⟩
      · left; simp only; split <;> omega
      · exact .inr (.inl h1)
      · exact .inr (.inr ⟨x, List.mem_append.mpr (.inl hx), h1⟩)
  · have hpm := List.mem_of_getElem? hp
    have h1 := pstep_wf hq (hs.procs p hpm)
    have h2 := pstep_wait hq
    refine cinv_set hs i p q d (s.closedCh || c) hp h1.1 ?_ (by intro h; simp [h]) ?_ h2.1 ?_
    · rcases h1.2 with ⟨rfl, h3⟩ | ⟨rfl, -, h3⟩ | ⟨rfl, h3, h4⟩
      · rw [h3]; omega
      · rw [h3]; omega
      · simp [h3, h4]
    · intro h
      rcases Bool.or_eq_true _ _ |>.mp h with h | h
      · exact hs.closed h
      · exact (h2.2.2 h).1
    · intro h3 h4
      rcases h2.2.1 h3 h4 with h | h
      · exact .inl (by simp [h])
      · exact .inr h
  · unfold closeStep at h
    have hi := hs.idle; have hb := hs.busy; have hsc := hs.sendC; have hrc := hs.recvC; have hw := hs.wait
    have hcl := hs.closed
    split at h
    · rename_i hc
      cases h
      exact ⟨hs.procs, hs.le, fun _ => rfl, by simp, by simp, by simpa [hc] using hsc, by simpa [hc] using hrc, by simp⟩
    · rename_i hc
      cases h
      refine ⟨hs.procs, hs.le, hcl, ?_, fun _ => hb (by simp [hc]), ?_, ?_, ?_⟩
      · simp only; split <;> simp
      · simp only; split <;> simpa [hc] using hsc
      · simp only; split <;> simpa [hc] using hrc
      · simp only; split
        · rename_i ha; exact fun _ => .inl ha
        · simp
    · rename_i hc
      cases h
      split
      · exact ⟨hs.procs, hs.le, hcl, by simp, fun _ => hb (by simp [hc]), by simpa [hc] using hsc, by simpa [hc] using hrc, by simp⟩
      · exact hs
    · rename_i hc
      split at h
      · cases h
      · cases h
        exact ⟨hs.procs, hs.le, hcl, by simp, fun _ => hb (by simp [hc]), by simp, by simpa [hc] using hrc, by simp⟩
    · rename_i hc
      split at h
      · cases h
      · cases h
        exact ⟨hs.procs, hs.le, hcl, by simp, fun _ => hb (by simp [hc]), by simpa [hc] using hsc, by simp, by simp⟩
    · cases h; exact hs

theorem cinv_init : CInv .init :=
  ⟨by simp [HostClose.St.init], by simp [HostClose.St.init], by simp [HostClose.St.init], fun _ => rfl,
   by simp [HostClose.St.init], by simp [HostClose.St.init], by simp [HostClose.St.init], by simp [HostClose.St.init]⟩

theorem cinv_runFrom : ∀ (as : List HostClose.Act) (s s' : HostClose.St), CInv s →
    HostClose.runFrom s as = .ok s' → CInv s' := by
  intro as
  induction as with
  | nil => intro s s' hs h; cases h; exact hs
  | cons a as ih =>
    intro s s' hs h
    simp only [HostClose.runFrom] at h
    split at h
    · rename_i t ht
      exact ih t s' (cinv_step s t a hs ht) h
    · rename_i hr
      exact absurd h (hr _)

/-! ## C63: no hang -/

/-- The request is one that is given back when it ends: not one that is rejected because of its metadata,
nor a stream request without handler. -/
def givenBack (r : Req) : Prop := r.kind = .fnf ∨ (r.metaOK = true ∧ (r.found = true ∨ r.kind ≠ .rs))

/-- C63, no hang: in every history, whatever the interleaving, once nothing is left to do Close does not
wait. Only histories with a request rejected because of its metadata or with a rejected stream request
are excluded (see the witnesses). -/
theorem C63_no_hang_partial (as : List HostClose.Act) (s : HostClose.St) (h : HostClose.run as = .ok s)
    (hg : ∀ p ∈ s.procs, givenBack p.req) (hd : allDone s) (hw : s.closer = .waiting) :
    s.closedCh = true := by
  have hs := cinv_runFrom as _ _ cinv_init h
  rcases hs.wait hw with h1 | h1 | ⟨p, hp, h1⟩
  · exfalso
    have h0 : s.procs.countP held = 0 := by
      rw [List.countP_eq_zero]
      intro p hp hh
      obtain ⟨h2, h3, h4⟩ := hd.2 p hp
      rcases hg p hp with h5 | ⟨h5, h6⟩
      · simp [held, h5, counted] at hh
      · rcases h6 with h6 | h6 <;> simp [held, h2, h3, h5, h6] at hh
    have := hs.le
    omega
  · exact h1
  · obtain ⟨h2, h3, h4⟩ := hd.2 p hp
    rw [h3, h4] at h1; simp at h1

/-- … and then it returns within three steps of its own. -/
theorem C63_returns (as : List HostClose.Act) (s : HostClose.St) (h : HostClose.run as = .ok s)
    (hw : s.closer = .waiting) (hc : s.closedCh = true) :
    ∃ s', HostClose.runFrom s [.close, .close, .close] = .ok s' ∧ s'.closer = .done := by
  have hs := cinv_runFrom as _ _ cinv_init h
  have h1 : s.sendClosed = false := by
    cases hx : s.sendClosed with
    | false => rfl
    | true => have := hs.sendC.mp hx; simp [hw] at this
  have h2 : s.recvClosed = false := by
    cases hx : s.recvClosed with
    | false => rfl
    | true => have := hs.recvC.mp hx; simp [hw] at this
  exact ⟨_, by simp [HostClose.runFrom, HostClose.step, closeStep, hw, hc, h1, h2]; rfl, rfl⟩

/-! ## Exact counting -/

/-- As long as no channel handler cancels its input the counter is exact. -/
structure EInv (s : HostClose.St) : Prop extends CInv s where
  eq : s.active = s.procs.countP held
  inp : ∀ p ∈ s.procs, p.inp = [] ∨ p.inp = [.send]

theorem einv_step (s s' : HostClose.St) (a : HostClose.Act) (hs : EInv s) (h : HostClose.step s a = .ok s')
    (ha : isCancelIn a = false) : EInv s' := by
  have hc := cinv_step s s' a hs.toCInv h
  rcases step_cases s s' a h with rfl | ⟨r, -, -, rfl⟩ | ⟨r, q, -, -, rfl⟩ | ⟨i, p, q, d, c, hp, hq, rfl, hl, -⟩ | ⟨-, h⟩
  · exact hs
  · exact ⟨hc, hs.eq, hs.inp⟩
  · have hw := serve_wf r
    refine ⟨hc, ?_, ?_⟩
    · have := hs.eq
      simp only [List.countP_append, List.countP_cons, List.countP_nil, hw.2]
      split <;> omega
    · intro x hx
      rcases List.mem_append.mp hx with hx | hx
      · exact hs.inp x hx
      · rw [List.mem_singleton.mp hx]
        left
        unfold serve; split
        · rfl
        · split
          · split <;> rfl
          · split <;> rfl
  · have hpm := List.mem_of_getElem? hp
    have h1 := pstep_wf hq (hs.procs p hpm)
    have hpi := hs.inp p hpm
    refine ⟨hc, ?_, ?_⟩
    · have h2 := countP_set' held s.procs i p q hp
      have := hs.eq
      simp only [afterP]
      rcases h1.2 with ⟨rfl, h3⟩ | ⟨rfl, h3, -⟩ | ⟨rfl, h3, h4⟩
      · rw [h3] at h2; omega
      · rcases hpi with e | e <;> rw [e] at h3 <;> simp at h3
      · simp only [h3, h4, if_true, if_false, Bool.false_eq_true] at h2; omega
    · intro x hx
      rcases mem_set_of hx with rfl | hx
      · have hlen := hl ha
        have hxi : x.inp.length ≤ 1 := by
          rcases hpi with e | e <;> rw [e] at hlen <;> rcases hlen with h | h <;> exact Nat.le_trans h (by simp)
        have hxw := h1.1.inp
        unfold wfInp at hxw
        cases hq <;> simp_all
      · exact hs.inp x hx
  · refine ⟨hc, ?_, ?_⟩
    all_goals
      have hk : s'.procs = s.procs ∧ s'.active = s.active := by
        unfold closeStep at h
        split at h
        · cases h; exact ⟨rfl, rfl⟩
        · cases h; exact ⟨rfl, rfl⟩
        · cases h; split <;> exact ⟨rfl, rfl⟩
        · split at h
          · cases h
          · cases h; exact ⟨rfl, rfl⟩
        · split at h
          · cases h
          · cases h; exact ⟨rfl, rfl⟩
        · cases h; exact ⟨rfl, rfl⟩
    · rw [hk.1, hk.2]; exact hs.eq
    · rw [hk.1]; exact hs.inp

theorem einv_runFrom : ∀ (as : List HostClose.Act) (s s' : HostClose.St), EInv s →
    (∀ a ∈ as, isCancelIn a = false) → HostClose.runFrom s as = .ok s' → EInv s' := by
  intro as
  induction as with
  | nil => intro s s' hs _ h; cases h; exact hs
  | cons a as ih =>
    intro s s' hs ha h
    simp only [HostClose.runFrom] at h
    split at h
    · rename_i t ht
      exact ih t s' (einv_step s t a hs ht (ha a (by simp))) (fun b hb => ha b (by simp [hb])) h
    · rename_i hr
      exact absurd h (hr _)

theorem einv_init : EInv .init := ⟨cinv_init, by simp [HostClose.St.init], by simp [HostClose.St.init]⟩

/-! ## C63: no early return -/

/-- A request that is not answered holds the counter. -/
theorem held_of_unanswered {p : Proc} (h : wfProc p) (hk : p.req.kind ≠ .fnf) (ha : p.answered = false) :
    held p = true := by
  have hc : counted p.req.kind = true := by cases hkk : p.req.kind <;> simp [counted]; exact hk hkk
  rcases h.out with ⟨-, h1 | h1 | h1⟩ | ⟨-, h1⟩ | ⟨h1, -⟩ | ⟨-, -, h1 | h1⟩ | ⟨-, -, h1⟩ | ⟨-, -, h1⟩
  · simp [held, hc, h1]
  · rw [ha] at h1; cases h1
  · exact absurd h1 hk
  · simp [held, hc, h1]
  · simp [held, hc, h1]
  · exact h1
  · exact absurd h1 hk
  · rw [ha] at h1; cases h1
  · rw [ha] at h1; cases h1

/-- The first `n` requests are answered. -/
def firstAnswered (n : Nat) (s : HostClose.St) : Prop :=
  ∀ i < n, ∀ p, s.procs[i]? = some p → p.req.kind ≠ .fnf → p.answered = true

theorem answered_of_zero {s : HostClose.St} (h : EInv s) (h0 : s.active ≤ 0) (n : Nat) : firstAnswered n s := by
  intro i _ p hp hk
  have hpm := List.mem_of_getElem? hp
  cases ha : p.answered with
  | true => rfl
  | false =>
    have := List.countP_pos_iff.mpr ⟨p, hpm, held_of_unanswered (h.procs p hpm) hk ha⟩
    have := h.eq
    omega

/-- Close is past waiting. -/
def past (c : Closer) : Prop := c = .closeSend ∨ c = .closeRecv ∨ c = .done

structure AInv (n : Nat) (s : HostClose.St) : Prop extends EInv s where
  len : n ≤ s.procs.length
  called : s.closer ≠ .idle
  ans : s.closedCh = true ∨ past s.closer ∨ pendingChk s → firstAnswered n s

theorem ainv_step (n : Nat) (s s' : HostClose.St) (a : HostClose.Act) (hs : AInv n s)
    (h : HostClose.step s a = .ok s') (ha : isCancelIn a = false) : AInv n s' := by
  have he := einv_step s s' a hs.toEInv h ha
  rcases step_cases s s' a h with rfl | ⟨r, -, -, rfl⟩ | ⟨r, q, -, -, rfl⟩ | ⟨i, p, q, d, c, hp, hq, rfl, hl, -⟩ | ⟨-, h⟩
  · exact hs
  · exact ⟨he, hs.len, hs.called, hs.ans⟩
  · refine ⟨he, by simp; have := hs.len; omega, hs.called, ?_⟩
    intro hx
    have hold : firstAnswered n s := by
      apply hs.ans
      rcases hx with h1 | h1 | ⟨x, hx, h1⟩
      · exact .inl h1
      · exact .inr (.inl h1)
      · rcases List.mem_append.mp hx with hx | hx
        · exact .inr (.inr ⟨x, hx, h1⟩)
        · exfalso
          rw [List.mem_singleton.mp hx] at h1
          revert h1
          unfold serve
          split
          · simp
          · split
            · split <;> simp
            · split <;> simp
    intro i hi p hp
    have := hs.len
    simp only at hp
    rw [List.getElem?_append_left (by omega)] at hp
    exact hold i hi p hp
  · have hlt : i < s.procs.length := (List.getElem?_eq_some_iff.mp hp).1
    refine ⟨he, by simp [afterP]; exact hs.len, hs.called, ?_⟩
    intro hx
    by_cases hz : s.active + d ≤ 0
    · exact answered_of_zero he hz n
    · have hold : firstAnswered n s := by
        apply hs.ans
        rcases hx with h1 | h1 | ⟨x, hx, h1⟩
        · simp only [afterP, Bool.or_eq_true] at h1
          rcases h1 with h1 | h1
          · exact .inl h1
          · exact .inr (.inr ⟨p, List.mem_of_getElem? hp, ((pstep_wait hq).2.2 h1).2.2⟩)
        · exact .inr (.inl h1)
        · simp only [afterP] at hx
          rcases mem_set_of hx with rfl | hx
          · refine .inr (.inr ⟨p, List.mem_of_getElem? hp, ?_⟩)
            have hw := (hs.procs p (List.mem_of_getElem? hp)).out
            have hi := (hs.procs p (List.mem_of_getElem? hp)).inp
            cases hq <;> simp_all [wfOut, wfInp] <;> omega
          · exact .inr (.inr ⟨x, hx, h1⟩)
      intro j hj x hx hk
      simp only [afterP] at hx
      by_cases hij : i = j
      · subst hij
        rw [List.getElem?_set_self hlt] at hx; cases hx
        have := pstep_keep hq
        exact this.1 (hold i hj p hp (by rw [← this.2]; exact hk))
      · rw [List.getElem?_set_ne hij] at hx
        exact hold j hj x hx hk
  · unfold closeStep at h
    split at h
    · rename_i hc; exact absurd hc hs.called
    · cases h
      refine ⟨he, hs.len, by simp only; split <;> simp, ?_⟩
      intro hx
      by_cases hz : s.active > 0
      · apply hs.ans
        rcases hx with h1 | h1 | h1
        · exact .inl h1
        · simp [if_pos hz, past] at h1
        · exact .inr (.inr h1)
      · exact answered_of_zero hs.toEInv (by omega) n
    · cases h
      split
      · rename_i hcc
        rw [if_pos hcc] at he
        exact ⟨he, hs.len, by simp, fun _ => hs.ans (.inl hcc)⟩
      · exact hs
    · rename_i hc
      split at h
      · cases h
      · cases h; exact ⟨he, hs.len, by simp, fun _ => hs.ans (.inr (.inl (.inl hc)))⟩
    · rename_i hc
      split at h
      · cases h
      · cases h; exact ⟨he, hs.len, by simp, fun _ => hs.ans (.inr (.inl (.inr (.inl hc))))⟩
    · cases h; exact hs

theorem ainv_runFrom (n : Nat) : ∀ (as : List HostClose.Act) (s s' : HostClose.St), AInv n s →
    (∀ a ∈ as, isCancelIn a = false) → HostClose.runFrom s as = .ok s' → AInv n s' := by
  intro as
  induction as with
  | nil => intro s s' hs _ h; cases h; exact hs
  | cons a as ih =>
    intro s s' hs ha h
    simp only [HostClose.runFrom] at h
    split at h
    · rename_i t ht
      exact ih t s' (ainv_step n s t a hs ht (ha a (by simp))) (fun b hb => ha b (by simp [hb])) h
    · rename_i hr
      exact absurd h (hr _)

/-- C63, no early return: Close does not return while a request that was running when it was called is
unanswered. Excluded: a channel handler cancels its input, and a goroutine is just between finding the
counter at zero and looking at the flag when Close is called (see the witnesses). -/
theorem C63_no_early_return_partial (before after : List HostClose.Act) (s s' : HostClose.St)
    (hb : ∀ a ∈ before, isCancelIn a = false) (ha : ∀ a ∈ after, isCancelIn a = false)
    (h : HostClose.run before = .ok s) (hi : s.closer = .idle) (hc : ¬ pendingChk s)
    (h' : HostClose.runFrom s (.close :: after) = .ok s') (hd : s'.closer = .done) :
    ∀ i < s.procs.length, ∀ p, s'.procs[i]? = some p → p.req.kind ≠ .fnf → p.answered = true := by
  have he := einv_runFrom before _ _ einv_init hb h
  simp only [HostClose.runFrom] at h'
  split at h'
  · rename_i t ht
    have he' := einv_step _ _ _ he ht rfl
    simp only [HostClose.step, closeStep, hi] at ht
    cases ht
    have := ainv_runFrom s.procs.length after _ s' ⟨he', Nat.le_refl _, by simp, ?_⟩ ha h'
    · exact this.ans (.inr (.inl (.inr (.inr hd))))
    · rintro (h1 | h1 | h1)
      · have := he.closed h1
        rw [he.idle hi] at this; cases this
      · simp [past] at h1
      · exact absurd h1 hc
  · rename_i hr
    exact absurd h' (hr _)

/-! ## C64 -/

def isClose : HostClose.Act → Bool
  | .close => true
  | _ => false

/-- What may happen while or after an orderly Close: nothing arrives, and channel inputs are left alone. -/
def orderly : HostClose.Act → Bool
  | .arrive _ => false
  | a => !isInput a

/-- The state before, during and after an orderly Close. -/
structure QInv (s : HostClose.St) : Prop extends EInv s where
  queue : s.queue = []
  noInp : ∀ p ∈ s.procs, p.inp = []
  work : ∀ p ∈ s.procs, p.running = true ∨ (p.todo ≠ [] ∧ p.todo ≠ [.chk]) → held p = true
  zero : s.closedCh = true ∨ past s.closer ∨ pendingChk s → s.active ≤ 0
  one : s.procs.countP (fun p => p.todo.contains .chk) + (if s.closedCh then 1 else 0) ≤ 1

theorem not_held_of_zero {s : HostClose.St} (h : EInv s) (h0 : s.active ≤ 0) (p : Proc) (hp : p ∈ s.procs) :
    held p = false := by
  cases hh : held p with
  | false => rfl
  | true =>
    have := List.countP_pos_iff.mpr ⟨p, hp, hh⟩
    have := h.eq
    omega

theorem qinv_no_panic (s : HostClose.St) (a : HostClose.Act) (hs : QInv s) (ha : orderly a = true) :
    HostClose.step s a ≠ .panic := by
  have hsend : ∀ p ∈ s.procs, p.running = true ∨ (p.todo ≠ [] ∧ p.todo ≠ [.chk]) → s.sendClosed = false := by
    intro p hp hw
    cases hsc : s.sendClosed with
    | false => rfl
    | true =>
      have := hs.zero (.inr (.inl (by rcases hs.sendC.mp hsc with h | h <;> simp [past, h])))
      have := not_held_of_zero hs.toEInv this p hp
      rw [hs.work p hp hw] at this; cases this
  cases a with
  | arrive r => cases ha
  | recv => simp [HostClose.step, hs.queue]
  | next i => simp only [HostClose.step]; split <;> simp
  | answer i => simp only [HostClose.step]; split <;> simp
  | requestIn i => cases ha
  | cancelIn i => cases ha
  | thread i side =>
    cases side with
    | out =>
      simp only [HostClose.step]
      split
      · rename_i p hp
        have hpm := List.mem_of_getElem? hp
        split
        · simp
        · rename_i at_ rest ht
          cases at_ with
          | send => simp [atom, hsend p hpm (.inr (by simp [ht]))]
          | sendEnd => simp [atom, hsend p hpm (.inr (by simp [ht]))]
          | dec => simp [atom]
          | chk =>
            simp only [atom]
            split
            · split
              · rename_i hcc
                have h1 := hs.one
                have : 0 < s.procs.countP (fun p => p.todo.contains .chk) :=
                  List.countP_pos_iff.mpr ⟨p, hpm, by simp [ht]⟩
                rw [if_pos hcc] at h1
                omega
              · simp
            · simp
      · simp
    | inp =>
      simp only [HostClose.step]
      split
      · rename_i p hp
        rw [hs.noInp p (List.mem_of_getElem? hp)]
        simp
      · simp
  | close =>
    simp only [HostClose.step, closeStep]
    split
    · simp
    · simp
    · simp
    · rename_i hc
      split
      · rename_i h; have := hs.sendC.mp h; simp [hc] at this
      · simp
    · rename_i hc
      split
      · rename_i h; have := hs.recvC.mp h; simp [hc] at this
      · simp
    · simp

theorem qinv_step (s s' : HostClose.St) (a : HostClose.Act) (hs : QInv s) (h : HostClose.step s a = .ok s')
    (ha : orderly a = true) : QInv s' := by
  have hci : isCancelIn a = false := by cases a <;> first | rfl | cases ha
  have hin : isInput a = false := by cases a <;> first | rfl | cases ha
  have he := einv_step s s' a hs.toEInv h hci
  rcases step_cases s s' a h with rfl | ⟨r, rfl, -, -⟩ | ⟨r, q, -, hq, -⟩ | ⟨i, p, q, d, c, hp, hq, rfl, -, hl⟩ | ⟨-, h⟩
  · exact hs
  · cases ha
  · rw [hs.queue] at hq; cases hq
  · have hpm := List.mem_of_getElem? hp
    have hpi := hs.noInp p hpm
    have hqi := hl hin hpi
    have hw := pstep_wf hq (hs.procs p hpm)
    have hwork := hs.work p hpm
    have hd : d ≤ 0 := by rcases hw.2 with ⟨rfl, -⟩ | ⟨rfl, -⟩ | ⟨rfl, -⟩ <;> simp
    have hout := (hs.procs p hpm).out
    refine ⟨he, hs.queue, ?_, ?_, ?_, ?_⟩
    · intro x hx
      rcases mem_set_of hx with rfl | hx
      · exact hqi
      · exact hs.noInp x hx
    · intro x hx
      rcases mem_set_of hx with rfl | hx
      · intro hxw
        rcases hw.2 with ⟨-, h3⟩ | ⟨-, h3, -⟩ | ⟨rfl, h3, h4⟩
        · rw [h3]
          apply hwork
          cases hq <;> simp_all [wfOut]
        · rw [hpi] at h3; simp at h3
        · exfalso
          cases hq <;> simp_all [wfOut]
      · exact hs.work x hx
    · intro hx
      simp only [afterP]
      by_cases hz : s.active + d ≤ 0
      · exact hz
      · have : s.active ≤ 0 := by
          apply hs.zero
          rcases hx with h1 | h1 | ⟨x, hx, h1⟩
          · simp only [afterP, Bool.or_eq_true] at h1
            rcases h1 with h1 | h1
            · exact .inl h1
            · exact .inr (.inr ⟨p, hpm, ((pstep_wait hq).2.2 h1).2.2⟩)
          · exact .inr (.inl h1)
          · simp only [afterP] at hx
            rcases mem_set_of hx with rfl | hx
            · refine .inr (.inr ⟨p, hpm, ?_⟩)
              cases hq <;> simp_all [wfOut] <;> omega
            · exact .inr (.inr ⟨x, hx, h1⟩)
        omega
    · have h2 := countP_set' (fun p => p.todo.contains .chk) s.procs i p q hp
      have h1 := hs.one
      simp only [afterP]
      by_cases hdec : d = 0
      · subst hdec
        cases hq <;> simp_all [wfOut] <;> omega
      · have hheld : held p = true := by
          rcases hw.2 with ⟨rfl, -⟩ | ⟨-, h3, -⟩ | ⟨-, h3, -⟩
          · exact absurd rfl hdec
          · rw [hpi] at h3; simp at h3
          · exact h3
        have hpos : ¬ s.active ≤ 0 := fun h0 => by
          rw [not_held_of_zero hs.toEInv h0 p hpm] at hheld; cases hheld
        have hncl : s.closedCh = false := by
          cases hcc : s.closedCh with
          | false => rfl
          | true => exact absurd (hs.zero (.inl hcc)) hpos
        have hnp : s.procs.countP (fun p => p.todo.contains .chk) = 0 := by
          rw [List.countP_eq_zero]
          intro x hx hc
          exact hpos (hs.zero (.inr (.inr ⟨x, hx, .inl (by simpa using hc)⟩)))
        have hcf : c = false := by cases hq <;> first | rfl | exact absurd rfl hdec
        rw [hnp] at h2
        subst hcf
        show _ + (if (s.closedCh || false) = true then 1 else 0) ≤ 1
        simp only [hncl, Bool.or_self, Bool.false_eq_true, if_false]
        split at h2 <;> split at h2 <;> omega
  · have hk : s'.procs = s.procs ∧ s'.active = s.active ∧ s'.queue = s.queue ∧ s'.closedCh = s.closedCh ∧
        (past s'.closer → past s.closer ∨ s.closedCh = true ∨ s.active ≤ 0) := by
      unfold closeStep at h
      split at h
      · cases h; exact ⟨rfl, rfl, rfl, rfl, by simp [past]⟩
      · cases h; refine ⟨rfl, rfl, rfl, rfl, ?_⟩
        simp only; split
        · simp [past]
        · intro _; exact .inr (.inr (by omega))
      · cases h; split
        · rename_i hcc; exact ⟨rfl, rfl, rfl, rfl, fun _ => .inr (.inl hcc)⟩
        · exact ⟨rfl, rfl, rfl, rfl, .inl⟩
      · rename_i hc; split at h
        · cases h
        · cases h; exact ⟨rfl, rfl, rfl, rfl, fun _ => .inl (.inl hc)⟩
      · rename_i hc; split at h
        · cases h
        · cases h; exact ⟨rfl, rfl, rfl, rfl, fun _ => .inl (.inr (.inl hc))⟩
      · cases h; exact ⟨rfl, rfl, rfl, rfl, .inl⟩
    obtain ⟨k1, k2, k3, k4, k6⟩ := hk
    refine ⟨he, k3.trans hs.queue, by rw [k1]; exact hs.noInp, by rw [k1]; exact hs.work, ?_, by rw [k1, k4]; exact hs.one⟩
    rw [k2, k4]
    rintro (h1 | h1 | ⟨x, hx, h1⟩)
    · exact hs.zero (.inl h1)
    · rcases k6 h1 with h1 | h1 | h1
      · exact hs.zero (.inr (.inl h1))
      · exact hs.zero (.inl h1)
      · exact h1
    · rw [k1] at hx; exact hs.zero (.inr (.inr ⟨x, hx, h1⟩))

theorem close_no_err (s : HostClose.St) (a : HostClose.Act) (e : String) : HostClose.step s a ≠ .err e := by
  have hat : ∀ i p set at_ rest, atom s i p set at_ rest ≠ .err e := by
    intro i p set at_ rest
    cases at_ <;> simp only [atom] <;> (try split) <;> (try split) <;> simp
  cases a with
  | arrive r => simp only [HostClose.step]; split <;> simp
  | recv => simp only [HostClose.step]; split <;> simp
  | next i => simp only [HostClose.step]; split <;> simp
  | answer i => simp only [HostClose.step]; split <;> simp
  | requestIn i => simp only [HostClose.step]; split <;> simp
  | cancelIn i => simp only [HostClose.step]; split <;> simp
  | thread i side =>
    cases side <;> simp only [HostClose.step] <;> split <;> (try split) <;> first | exact hat _ _ _ _ _ | simp
  | close => simp only [HostClose.step, closeStep]; split <;> (try split) <;> simp

theorem qinv_runFrom : ∀ (as : List HostClose.Act) (s : HostClose.St), QInv s →
    (∀ a ∈ as, orderly a = true) → ∃ s', HostClose.runFrom s as = .ok s' ∧ QInv s' := by
  intro as
  induction as with
  | nil => intro s hs _; exact ⟨s, rfl, hs⟩
  | cons a as ih =>
    intro s hs ha
    have hn := qinv_no_panic s a hs (ha a (by simp))
    have hno := close_no_err s a
    simp only [HostClose.runFrom]
    cases hst : HostClose.step s a with
    | ok t => exact ih t (qinv_step s t a hs hst (ha a (by simp))) fun b hb => ha b (by simp [hb])
    | err e => exact absurd hst (hno e)
    | panic => exact absurd hst hn

/-- A moment at which no goroutine is between two steps and no frame is queued. -/
theorem qinv_quiet (before : List HostClose.Act) (s : HostClose.St)
    (hb : ∀ a ∈ before, isCancelIn a = false) (h : HostClose.run before = .ok s) (hi : s.closer = .idle)
    (hq : s.queue = []) (hp : ∀ p ∈ s.procs, p.todo = [] ∧ p.inp = []) : QInv s := by
  have he := einv_runFrom before _ _ einv_init hb h
  have hcc : s.closedCh = false := by
    cases hx : s.closedCh with
    | false => rfl
    | true => have := he.closed hx; rw [he.idle hi] at this; cases this
  have hnone : ∀ p ∈ s.procs, ¬ (.chk ∈ p.todo ∨ .chk ∈ p.inp) := by
    intro p hpm; rw [(hp p hpm).1, (hp p hpm).2]; simp
  refine ⟨he, hq, fun p hpm => (hp p hpm).2, ?_, ?_, ?_⟩
  · intro p hpm hw
    rw [(hp p hpm).1] at hw
    simp at hw
    simp [held, hw, (he.procs p hpm).running hw]
  · rintro (h1 | h1 | ⟨x, hx, h1⟩)
    · rw [hcc] at h1; cases h1
    · rw [hi] at h1; simp [past] at h1
    · exact absurd h1 (hnone x hx)
  · have : s.procs.countP (fun p => p.todo.contains .chk) = 0 := by
      rw [List.countP_eq_zero]
      intro x hx hc
      exact hnone x hx (.inl (by simpa using hc))
    show _ + (if s.closedCh = true then 1 else 0) ≤ 1
    rw [this, hcc]; simp

/-- C64: an orderly Close never crashes, whatever the interleaving. At some moment any number of requests of any kind are
being handled, but none of their goroutines is between two steps and no frame is queued; no channel handler has cancelled its
input; and from then on no further request arrives and channel inputs are left alone. Elements may still be emitted and
requests answered in every order, and Close may be called at any time. -/
theorem C64_orderly_close_partial (before after : List HostClose.Act) (s : HostClose.St)
    (hb : ∀ a ∈ before, isCancelIn a = false) (h : HostClose.run before = .ok s) (hi : s.closer = .idle)
    (hq : s.queue = []) (hp : ∀ p ∈ s.procs, p.todo = [] ∧ p.inp = [])
    (ha : ∀ a ∈ after, orderly a = true) : HostClose.runFrom s after ≠ .panic := by
  obtain ⟨s', hr, -⟩ := qinv_runFrom after _ (qinv_quiet before s hb h hi hq hp) ha
  rw [hr]; simp

/-- Before Close is called nothing crashes. -/
theorem C64_before_close (as : List HostClose.Act) (h : ∀ a ∈ as, isClose a = false) :
    HostClose.run as ≠ .panic := by
  have key : ∀ (as : List HostClose.Act) (s : HostClose.St), (∀ a ∈ as, isClose a = false) → CInv s → s.closer = .idle →
      HostClose.runFrom s as ≠ .panic := by
    intro as
    induction as with
    | nil => intro s _ _ _ h; cases h
    | cons a as ih =>
      intro s ha hs hi
      have hsc : s.sendClosed = false := by
        cases hx : s.sendClosed with
        | false => rfl
        | true => have := hs.sendC.mp hx; simp [hi] at this
      have hrc : s.recvClosed = false := by
        cases hx : s.recvClosed with
        | false => rfl
        | true => have := hs.recvC.mp hx; simp [hi] at this
      have hcl := hs.idle hi
      have hat : ∀ i p set at_ rest, ∃ t, atom s i p set at_ rest = .ok t ∧ t.closer = s.closer := by
        intro i p set at_ rest
        cases at_ <;> simp [atom, hsc, hcl, setProc]
      have hstep : ∃ t, HostClose.step s a = .ok t ∧ t.closer = .idle := by
        cases a with
        | arrive r => simp [HostClose.step, hrc, hi]
        | recv => simp only [HostClose.step]; split <;> simp [hi]
        | next i => simp only [HostClose.step]; split <;> first | (split <;> simp [hi, setProc]) | simp [hi]
        | answer i => simp only [HostClose.step]; split <;> first | (split <;> simp [hi, setProc]) | simp [hi]
        | requestIn i => simp only [HostClose.step]; split <;> first | (split <;> simp [hi, setProc]) | simp [hi]
        | cancelIn i => simp only [HostClose.step]; split <;> first | (split <;> simp [hi, setProc]) | simp [hi]
        | thread i side =>
          cases side with
          | out =>
            simp only [HostClose.step]
            split
            · split
              · simp [hi]
              · obtain ⟨t, h1, h2⟩ := hat i _ setOut _ _
                exact ⟨t, h1, h2.trans hi⟩
            · simp [hi]
          | inp =>
            simp only [HostClose.step]
            split
            · split
              · simp [hi]
              · obtain ⟨t, h1, h2⟩ := hat i _ setInp _ _
                exact ⟨t, h1, h2.trans hi⟩
            · simp [hi]
        | close => have := ha .close (by simp); cases this
      obtain ⟨t, h1, h2⟩ := hstep
      simp only [HostClose.runFrom, h1]
      exact ih t (fun b hb => ha b (by simp [hb])) (cinv_step s t a hs h1) h2
  exact key as _ h cinv_init rfl

/-! ## Cases -/

/-- Two requests are being handled, one of them a stream; Close is called; the stream emits an element and
ends, the other is answered, interleaved with Close; Close returns. -/
def closeBefore : List HostClose.Act :=
  [.arrive (goodReq .rr), .arrive (goodReq .rs), .recv, .recv, .next 1, .thread 1 .out]
def closeAfter : List HostClose.Act :=
  [.close, .next 1, .answer 0, .thread 0 .out, .thread 1 .out, .answer 1, .close, .thread 1 .out, .thread 0 .out,
   .thread 1 .out, .thread 1 .out, .close, .close, .close]

example : (∀ a ∈ closeBefore, isCancelIn a = false) ∧ HostClose.run closeBefore = .ok (stOf closeBefore) ∧
    (stOf closeBefore).closer = .idle ∧ (stOf closeBefore).queue = [] ∧
    (∀ p ∈ (stOf closeBefore).procs, p.todo = [] ∧ p.inp = []) ∧
    ((stOf closeBefore).procs.map (·.running)) = [true, true] ∧ (∀ a ∈ closeAfter, orderly a = true) := by
  decide +kernel

example : (stOf (closeBefore ++ .close :: closeAfter)).closer = .done ∧
    (stOf (closeBefore ++ .close :: closeAfter)).procs.map (·.answered) = [true, true] := by decide +kernel

/-- Close waits, the last request is answered, nothing is left to do. -/
example : allDone (stOf [.arrive (goodReq .rc), .recv, .close, .close, .answer 0, .thread 0 .out, .thread 0 .out,
      .thread 0 .out]) ∧
    (stOf [.arrive (goodReq .rc), .recv, .close, .close, .answer 0, .thread 0 .out, .thread 0 .out,
      .thread 0 .out]).closer = .waiting ∧
    (∀ p ∈ (stOf [.arrive (goodReq .rc), .recv, .close, .close, .answer 0, .thread 0 .out, .thread 0 .out,
      .thread 0 .out]).procs, p.req.kind = .rc) := by
  refine ⟨⟨by decide +kernel, by decide +kernel⟩, by decide +kernel, by decide +kernel⟩

end Verif.Props
