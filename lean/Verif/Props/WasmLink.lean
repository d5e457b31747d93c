import Verif.Model.WasmLink
/-
Property C101: what host and guest send each other gets there, and goes on getting there.
-/
set_option autoImplicit false
namespace Verif.Props
open Verif.WasmLink

section
variable {α β : Type}

/-! ## Specification -/

/-- Nothing will ever happen again: no goroutine can make a step, whatever it is about to do. -/
def linkStuck (s : Link α β) : Prop := ∀ e : Ev α β, WasmLink.step s e = s

/-- Nothing is under way: both queues are empty and both loops wait for the next frame. -/
structure linkIdle (s : Link α β) : Prop where
  sendQ : s.sendQ = []
  recvQ : s.recvQ = []
  sender : s.sender = none
  receiver : s.receiver = none

/-- The two loops of the instance. -/
inductive Loop where
  | send
  | recv
  deriving DecidableEq

/-- A loop runs, where the guest answers each frame `f` it is called with by sending `reply f`, and no callback sends
anything from inside `recvOne`. -/
def loopEv (reply : α → List β) (s : Link α β) : Loop → Ev α β
  | .send => .sender (match s.sendQ with | [] => [] | f :: _ => reply f)
  | .recv => .receiver []

def loops (reply : α → List β) (s : Link α β) : List Loop → Link α β
  | [] => s
  | l :: ls => loops reply (WasmLink.step s (loopEv reply s l)) ls

/-- C101 as stated in English: all that is sent is handed over in order, each frame once, and traffic never stops for
good. -/
def C101_statement (α β : Type) : Prop :=
  ∀ (es : List (Ev α β)) (s : Link α β), WasmLink.run .init es = s →
    s.toGuest <+: s.accepted ∧ s.handled <+: s.said ∧ ¬ linkStuck s

/-! ## Order -/

/-- What the guest's current call has left to send. -/
def leftToSay (s : Link α β) : List β := s.sender.getD []

structure LinkInv (s : Link α β) : Prop where
  out : s.toGuest ++ s.sendQ = s.accepted
  back : s.handled ++ s.recvQ ++ leftToSay s = s.said
  sendCap : s.sendQ.length ≤ cap
  recvCap : s.recvQ.length ≤ cap

theorem link_push {s : Link α β} (h : LinkInv s) (f : α) (done : Link α β → Link α β)
    (hd : ∀ s, LinkInv s → LinkInv (done s)) : LinkInv (WasmLink.push s f done) := by
  unfold WasmLink.push
  split
  · rename_i hlt
    refine hd _ ⟨?_, h.back, ?_, h.recvCap⟩
    · simp [← h.out]
    · simp; omega
  · exact h

theorem link_step {s : Link α β} (h : LinkInv s) (e : Ev α β) : LinkInv (WasmLink.step s e) := by
  have hb := h.back
  unfold leftToSay at hb
  cases e with
  | other f => exact link_push h f _ fun _ h => h
  | sender out =>
    simp only [WasmLink.step]
    split
    · rename_i hs
      rw [hs] at hb
      split
      · exact h
      · rename_i f q hq
        refine ⟨?_, ?_, ?_, h.recvCap⟩
        · rw [← h.out, hq]; simp
        · simp only [leftToSay, Option.getD_some, ← hb, Option.getD_none, List.append_nil]
        · have := h.sendCap; rw [hq] at this; simp at this; show q.length ≤ cap; omega
    · rename_i hs
      rw [hs] at hb
      exact ⟨h.out, hb, h.sendCap, h.recvCap⟩
    · rename_i g gs hs
      rw [hs] at hb
      split
      · refine ⟨h.out, by simpa [leftToSay] using hb, h.sendCap, by simp; omega⟩
      · exact h
  | receiver out =>
    simp only [WasmLink.step]
    split
    · split
      · exact h
      · rename_i g q hq
        rw [hq] at hb
        refine ⟨h.out, by simpa [leftToSay] using hb, h.sendCap, ?_⟩
        have := h.recvCap; rw [hq] at this; simp at this; show q.length ≤ cap; omega
    · exact ⟨h.out, h.back, h.sendCap, h.recvCap⟩
    · exact link_push h _ _ fun _ h => ⟨h.out, h.back, h.sendCap, h.recvCap⟩

theorem link_run (es : List (Ev α β)) : ∀ {s : Link α β}, LinkInv s → LinkInv (WasmLink.run s es) := by
  induction es with
  | nil => intro s h; exact h
  | cons e es ih => intro s h; exact ih (link_step h e)

theorem link_init : LinkInv (Link.init : Link α β) := ⟨rfl, rfl, by simp [Link.init, cap], by simp [Link.init, cap]⟩

/-- C101: the guest is called with the frames of the host in the order in which SendFrame took them, each once, and the
host handles those of the guest in the order in which the guest sends them, each once; the difference is what waits
in the queues, of which there are at most 100 each, and what the guest has left to send. -/
theorem C101_order (es : List (Ev α β)) (s : Link α β) (h : WasmLink.run .init es = s) :
    s.accepted = s.toGuest ++ s.sendQ ∧ s.said = s.handled ++ s.recvQ ++ leftToSay s ∧
    s.sendQ.length ≤ 100 ∧ s.recvQ.length ≤ 100 := by
  have := link_run es (link_init (α := α) (β := β))
  rw [h] at this
  exact ⟨this.out.symm, this.back.symm, this.sendCap, this.recvCap⟩

/-! ## When traffic stops -/

/-- Each loop waits for the other: the guest, called by `sendLoop`, has more to send and `recvCh` is full, and a callback
run by `recvLoop` has more to send and `sendCh` is full. -/
structure deadlocked (s : Link α β) : Prop where
  guest : ∃ g gs, s.sender = some (g :: gs)
  recvFull : s.recvQ.length = 100
  callback : ∃ f fs, s.receiver = some (f :: fs)
  sendFull : s.sendQ.length = 100

/-- C101: traffic stops for good exactly when each loop waits for the other. -/
theorem C101_stuck_partial [Inhabited α] (es : List (Ev α β)) (s : Link α β) (h : WasmLink.run .init es = s) :
    linkStuck s ↔ deadlocked s := by
  obtain ⟨-, -, h1, h2⟩ := C101_order es s h
  constructor
  · intro hst
    have hsend : s.sendQ.length = 100 := by
      have := hst (.other default)
      simp only [WasmLink.step, WasmLink.push] at this
      split at this
      · have := congrArg (fun s => s.sendQ.length) this
        simp at this
      · rename_i hc; simp only [cap] at hc; omega
    have hg : (∃ g gs, s.sender = some (g :: gs)) ∧ s.recvQ.length = 100 := by
      have := hst (.sender [])
      simp only [WasmLink.step] at this
      split at this
      · rename_i hs
        split at this
        · rename_i hq; rw [hq] at hsend; cases hsend
        · have := congrArg Link.sender this
          rw [hs] at this; cases this
      · rename_i hs
        have := congrArg Link.sender this
        rw [hs] at this; cases this
      · rename_i g gs hs
        refine ⟨⟨g, gs, hs⟩, ?_⟩
        split at this
        · have := congrArg (fun s => s.recvQ.length) this
          simp at this
        · rename_i hc; simp only [cap] at hc; omega
    refine ⟨hg.1, hg.2, ?_, hsend⟩
    have := hst (.receiver [])
    simp only [WasmLink.step] at this
    split at this
    · rename_i hs
      split at this
      · rename_i hq; rw [hq] at hg; cases hg.2
      · have := congrArg Link.receiver this
        rw [hs] at this; cases this
    · rename_i hs
      have := congrArg Link.receiver this
      rw [hs] at this; cases this
    · rename_i f fs hs
      exact ⟨f, fs, hs⟩
  · rintro ⟨⟨g, gs, q1⟩, q2, ⟨f, fs, q3⟩, q4⟩ e
    cases e <;> simp [WasmLink.step, WasmLink.push, q1, q2, q3, q4, cap]

theorem busy_run (es : List (Ev α β)) : ∀ {s : Link α β}, (s.receiver ≠ none → s.handled ≠ []) →
    (WasmLink.run s es).receiver ≠ none → (WasmLink.run s es).handled ≠ [] := by
  induction es with
  | nil => intro s h; exact h
  | cons e es ih =>
    intro s h
    refine ih ?_
    cases e with
    | other f => simp only [WasmLink.step, WasmLink.push]; split <;> exact h
    | sender out =>
      simp only [WasmLink.step]
      split
      · split <;> exact h
      · exact h
      · split <;> exact h
    | receiver out =>
      simp only [WasmLink.step]
      split
      · split
        · exact h
        · intro _; simp
      · intro hc; exact absurd rfl hc
      · rename_i hs
        have h' := h (by rw [hs]; simp)
        simp only [WasmLink.push]
        split
        · intro _; exact h'
        · exact h

/-- C101: traffic does not stop for good as long as the guest has sent no more than 101 frames. -/
theorem C101_few_partial [Inhabited α] (es : List (Ev α β)) (s : Link α β) (h : WasmLink.run .init es = s)
    (hf : s.said.length ≤ 101) : ¬ linkStuck s := by
  intro hst
  obtain ⟨⟨g, gs, q1⟩, q2, ⟨f, fs, q3⟩, q4⟩ := (C101_stuck_partial es s h).mp hst
  obtain ⟨-, h2, -, -⟩ := C101_order es s h
  have hh := busy_run es (s := (Link.init : Link α β)) (fun hc => absurd rfl hc)
  rw [h, q3] at hh
  have hh : 0 < s.handled.length := List.length_pos_iff.mpr (hh (by simp))
  rw [h2] at hf
  simp [leftToSay, q1] at hf
  omega

/-! ## Callbacks that send nothing -/

/-- The work that is left. -/
def linkWork (reply : α → List β) (s : Link α β) : Nat :=
  (s.sendQ.map fun f => 2 + 3 * (reply f).length).sum + (match s.sender with | none => 0 | some gs => 1 + 3 * gs.length) +
  2 * s.recvQ.length + (match s.receiver with | none => 0 | some _ => 1)

/-- No callback has anything left to send. -/
def calm (s : Link α β) : Prop := s.receiver = none ∨ s.receiver = some []

theorem calm_step {s : Link α β} (h : calm s) (e : Ev α β) (he : ∀ out, e = .receiver out → out = []) :
    calm (WasmLink.step s e) := by
  cases e with
  | other f => simp only [WasmLink.step, WasmLink.push]; split <;> exact h
  | sender out =>
    simp only [WasmLink.step]
    split
    · split <;> exact h
    · exact h
    · split <;> exact h
  | receiver out =>
    have := he out rfl
    subst this
    simp only [WasmLink.step]
    split
    · split
      · exact h
      · exact .inr rfl
    · exact .inl rfl
    · rename_i hs; rcases h with h | h <;> rw [h] at hs <;> cases hs

theorem work_step (reply : α → List β) {s : Link α β} (h : calm s) (l : Loop) :
    WasmLink.step s (loopEv reply s l) = s ∨
    linkWork reply (WasmLink.step s (loopEv reply s l)) < linkWork reply s := by
  cases l with
  | send =>
    simp only [loopEv, WasmLink.step]
    split
    · rename_i hs
      split
      · exact .inl rfl
      · rename_i f q hq
        right
        simp only [linkWork, hq, hs, List.map_cons, List.sum_cons]
        omega
    · rename_i hs
      right
      simp only [linkWork, hs, List.length_nil]
      omega
    · rename_i g gs hs
      split
      · right
        simp only [linkWork, hs, List.length_append, List.length_cons, List.length_nil]
        omega
      · exact .inl rfl
  | recv =>
    simp only [loopEv, WasmLink.step]
    split
    · rename_i hs
      split
      · exact .inl rfl
      · rename_i f q hq
        right
        simp only [linkWork, hq, hs, List.length_cons]
        omega
    · rename_i hs
      right
      simp only [linkWork, hs]
      omega
    · rename_i hs; rcases h with h | h <;> rw [h] at hs <;> cases hs

/-- If neither loop can do anything, nothing is under way. -/
theorem idle_of_still (reply : α → List β) {s : Link α β} (h : calm s)
    (hall : ∀ l, WasmLink.step s (loopEv reply s l) = s) : linkIdle s := by
  have hr := hall .recv
  have hs := hall .send
  simp only [loopEv, WasmLink.step] at hr hs
  rcases h with hc | hc
  · simp only [hc] at hr
    have hq : s.recvQ = [] := by
      split at hr
      · assumption
      · have := congrArg Link.receiver hr; rw [hc] at this; cases this
    cases hsd : s.sender with
    | none =>
      refine ⟨?_, hq, hsd, hc⟩
      simp only [hsd] at hs
      split at hs
      · assumption
      · have := congrArg Link.sender hs; rw [hsd] at this; cases this
    | some gs =>
      cases gs with
      | nil =>
        simp only [hsd] at hs
        have := congrArg Link.sender hs; rw [hsd] at this; cases this
      | cons g gs =>
        simp only [hsd, hq] at hs
        have := congrArg Link.recvQ hs
        simp [cap, hq] at this
  · simp only [hc] at hr
    have := congrArg Link.receiver hr; rw [hc] at this; cases this

theorem calm_loops (reply : α → List β) (ls : List Loop) : ∀ {s : Link α β}, calm s → calm (loops reply s ls) := by
  induction ls with
  | nil => intro s h; exact h
  | cons l ls ih =>
    intro s h
    exact ih (calm_step h _ fun out ho => by cases l <;> cases ho; rfl)

theorem loops_append (reply : α → List β) (a b : List Loop) : ∀ s : Link α β,
    loops reply s (a ++ b) = loops reply (loops reply s a) b := by
  induction a with
  | nil => intro s; rfl
  | cons l a ih => intro s; exact ih _

theorem loops_work (reply : α → List β) (ls : List Loop) : ∀ {s : Link α β}, calm s →
    loops reply s ls = s ∧ (∀ l ∈ ls, WasmLink.step s (loopEv reply s l) = s) ∨
    linkWork reply (loops reply s ls) < linkWork reply s := by
  induction ls with
  | nil => intro s _; exact .inl ⟨rfl, fun l h => by cases h⟩
  | cons l ls ih =>
    intro s h
    have hc : calm (WasmLink.step s (loopEv reply s l)) := calm_step h _ fun out ho => by cases l <;> cases ho; rfl
    rcases work_step reply h l with h1 | h1
    · rcases ih h with ⟨h2, h3⟩ | h2
      · left
        refine ⟨?_, fun l' hl => ?_⟩
        · simp only [loops]; rw [h1]; exact h2
        · rcases List.mem_cons.mp hl with rfl | hl
          · exact h1
          · exact h3 l' hl
      · right
        simp only [loops]; rw [h1]; exact h2
    · right
      simp only [loops]
      rcases ih hc with ⟨h2, -⟩ | h2
      · rw [h2]; exact h1
      · omega

theorem idle_stays (reply : α → List β) (ls : List Loop) {s : Link α β} (h : linkIdle s) : loops reply s ls = s := by
  induction ls with
  | nil => rfl
  | cons l ls ih =>
    have : WasmLink.step s (loopEv reply s l) = s := by
      cases l <;> simp [loopEv, WasmLink.step, h.sendQ, h.recvQ, h.sender, h.receiver]
    simp only [loops]
    rw [this]; exact ih

theorem rounds_idle (reply : α → List β) (rounds : List (List Loop)) (hr : ∀ r ∈ rounds, ∀ l, l ∈ r) :
    ∀ {s : Link α β}, calm s → linkWork reply s ≤ rounds.length → linkIdle (loops reply s rounds.flatten) := by
  induction rounds with
  | nil =>
    intro s hc hw
    refine idle_of_still reply hc fun l => ?_
    rcases work_step reply hc l with h | h
    · exact h
    · simp at hw; omega
  | cons r rounds ih =>
    intro s hc hw
    rw [List.flatten_cons, loops_append]
    rcases loops_work reply r hc with ⟨h1, h2⟩ | h1
    · have hi := idle_of_still reply hc fun l => h2 l (hr r (by simp) l)
      rw [h1, idle_stays reply _ hi]; exact hi
    · refine ih (fun r' h => hr r' (List.mem_cons_of_mem _ h)) (calm_loops reply r hc) ?_
      simp at hw; omega

theorem loops_eq_run (reply : α → List β) (ls : List Loop) : ∀ s : Link α β,
    ∃ es, loops reply s ls = WasmLink.run s es := by
  induction ls with
  | nil => intro s; exact ⟨[], rfl⟩
  | cons l ls ih =>
    intro s
    obtain ⟨es, h⟩ := ih (WasmLink.step s (loopEv reply s l))
    exact ⟨loopEv reply s l :: es, h⟩

theorem run_link_append (a b : List (Ev α β)) : ∀ s : Link α β,
    WasmLink.run s (a ++ b) = WasmLink.run (WasmLink.run s a) b := by
  induction a with
  | nil => intro s; rfl
  | cons e a ih => intro s; exact ih _

theorem loops_accepted (reply : α → List β) (ls : List Loop) : ∀ {s : Link α β}, calm s →
    (loops reply s ls).accepted = s.accepted := by
  induction ls with
  | nil => intro s _; rfl
  | cons l ls ih =>
    intro s h
    have hc : calm (WasmLink.step s (loopEv reply s l)) := calm_step h _ fun out ho => by cases l <;> cases ho; rfl
    rw [loops, ih hc]
    cases l with
    | send =>
      simp only [loopEv, WasmLink.step]
      split
      · split <;> rfl
      · rfl
      · split <;> rfl
    | recv =>
      simp only [loopEv, WasmLink.step]
      split
      · split <;> rfl
      · rfl
      · rename_i hs; rcases h with h | h <;> rw [h] at hs <;> cases hs

/-- C101: if no callback sends anything from inside `recvOne`, all gets through: however much waits in the queues, and
whatever the guest sends in answer, let both loops run, in whatever order, often enough. Then
the guest was called with every frame of the host, and every frame of the guest was handled. -/
theorem C101_flows_partial (es : List (Ev α β)) (s : Link α β) (h : WasmLink.run .init es = s)
    (hes : ∀ out, .receiver out ∈ es → out = []) (reply : α → List β) :
    ∃ n, ∀ rounds : List (List Loop), (∀ r ∈ rounds, ∀ l, l ∈ r) → n ≤ rounds.length →
      ∃ s', loops reply s rounds.flatten = s' ∧ s'.accepted = s.accepted ∧ s'.toGuest = s.accepted ∧ s'.handled = s'.said := by
  have hc : calm s := by
    have : ∀ (es : List (Ev α β)) (s0 : Link α β), (∀ out, .receiver out ∈ es → out = []) → calm s0 → calm (WasmLink.run s0 es) := by
      intro es
      induction es with
      | nil => intro s0 _ h; exact h
      | cons e es ih =>
        intro s0 hes h
        exact ih _ (fun out hm => hes out (List.mem_cons_of_mem _ hm))
          (calm_step h e fun out he => hes out (by rw [he]; simp))
    rw [← h]; exact this es _ hes (.inl rfl)
  refine ⟨linkWork reply s, fun rounds hr hn => ⟨_, rfl, ?_⟩⟩
  have hi := rounds_idle reply rounds hr hc hn
  have ha := loops_accepted reply rounds.flatten hc
  obtain ⟨es', he⟩ := loops_eq_run reply rounds.flatten s
  obtain ⟨o1, o2, -, -⟩ := C101_order (es ++ es') (loops reply s rounds.flatten) (by rw [run_link_append, h, he])
  rw [hi.sendQ, List.append_nil] at o1
  rw [hi.recvQ, leftToSay, hi.sender, List.append_nil, Option.getD_none, List.append_nil] at o2
  exact ⟨ha, by rw [← o1]; exact ha, o2.symm⟩

end

/-! ## Concrete runs -/

/-- The host asks for a stream (frame 0), and the guest answers with 202 elements before it returns. -/
def elements101 : List Nat := List.range 202

/-- The stream is asked for, and the guest starts to send. -/
def ask101 : List (Ev Nat Nat) := [.other 0, .sender elements101]

/-- The guest sends an element, and the host's subscriber sends a frame of its own for it, from inside its callback. -/
def element101 : List (Ev Nat Nat) := [.sender [], .receiver [1], .receiver [], .receiver []]

/-- 100 times that; then the subscriber waits, and the guest goes on until it waits, too. -/
def jam101 : List (Ev Nat Nat) :=
  ask101 ++ (List.replicate 100 element101).flatten ++ [.sender [], .receiver [1]] ++ List.replicate 100 (.sender [])

/-- C101 fails: a subscriber that makes a call for each element of a stream of the guest brings all traffic between
the two to a stop for good. -/
theorem C101_jam_violated : deadlocked (WasmLink.run .init jam101) ∧
    (WasmLink.run .init jam101).handled = List.range 101 ∧ (WasmLink.run .init jam101).toGuest = [0] := by
  refine ⟨⟨⟨201, [], ?_⟩, ?_, ⟨1, [], ?_⟩, ?_⟩, ?_, ?_⟩ <;> decide +kernel

/-- 102 frames of the guest are enough for that (`C101_few_partial`), if others send meanwhile. -/
example : let s := WasmLink.run .init ([.other 0, .sender (List.range 102)] ++ List.replicate 100 (.other 1) ++
      [.sender [], .receiver [1]] ++ List.replicate 100 (.sender []))
    s.said.length = 102 ∧ deadlocked s := by
  refine ⟨by decide +kernel, ⟨101, [], ?_⟩, ?_, ⟨1, [], ?_⟩, ?_⟩ <;> decide +kernel

theorem C101_violated : ¬ C101_statement Nat Nat := fun h =>
  (h jam101 _ rfl).2.2 ((C101_stuck_partial jam101 _ rfl).mpr C101_jam_violated.1)

/-- The same stream with a subscriber that sends nothing: all of it arrives. -/
example : let s := WasmLink.run .init (ask101 ++ List.replicate 60 (.sender []))
    s.recvQ.length = 60 ∧ (∀ out, .receiver out ∈ ask101 ++ List.replicate 60 (.sender []) → out = []) ∧
    (loops (fun _ => []) s ((List.replicate 405 [Loop.send, Loop.recv]).flatten)).handled = elements101 := by
  refine ⟨by decide +kernel, ?_, by decide +kernel⟩
  intro out h
  simp [ask101] at h

end Verif.Props
