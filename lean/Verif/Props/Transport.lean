import Verif.Model.Transport
import Verif.Props.Unbounded
import Verif.Props.Scanner
/-
Properties C50 (concurrent senders) and C53 (setup first, order of handling).
-/
set_option autoImplicit false
namespace Verif.Props
open Verif Transport

/-! ## C50 -/

/-- All senders have sent everything. -/
def AllSent (n : Net) : Prop := ∀ s ∈ n.senders, s = ⟨.idle, []⟩

/-- What went out consists of whole frames: all of them, in some order. -/
def WholeFrames (frames : List (List Bytes)) (out : Bytes) : Prop :=
  ∃ order : List Bytes, order.Perm frames.flatten ∧ out = order.flatMap framed

/-- C50 in full: however the senders are scheduled, the peer gets whole frames. -/
def C50_statement : Prop :=
  ∀ (frames : List (List Bytes)) (sched : List Nat), (∀ l ∈ frames, ∀ f ∈ l, f.length < 2^24) →
    AllSent ((Net.init frames).run sched) → WholeFrames frames ((Net.init frames).run sched).w.out

/-- C50 fails: two senders of one frame each; the lengths go out first, then the frames. -/
theorem C50_interleave_violated : ¬ C50_statement := by
  intro h
  obtain ⟨order, hp, ho⟩ := h [[[1]], [[2, 2]]] [0, 1, 0, 1, 0, 1] (by decide)
    (by unfold AllSent; decide)
  have hout : ((Net.init [[[1]], [[2, 2]]]).run [0, 1, 0, 1, 0, 1]).w.out =
      [0, 0, 1, 0, 0, 2, 1, 2, 2] := by decide
  rw [hout] at ho
  have hm : order = [[1], [2, 2]] ∨ order = [[2, 2], [1]] := by
    have hl : order.length = 2 := by simpa using hp.length_eq
    match order, hl with
    | [a, b], _ =>
      have ha : a ∈ [[1], [2, 2]] := hp.subset (by simp)
      have hb : b ∈ [[1], [2, 2]] := hp.subset (by simp)
      have h1 : [1] ∈ [a, b] := hp.symm.subset (by simp)
      have h2 : [2, 2] ∈ [a, b] := hp.symm.subset (by simp)
      simp at ha hb h1 h2
      rcases ha with rfl | rfl <;> rcases hb with rfl | rfl <;> simp at h1 h2 ⊢
  rcases hm with rfl | rfl <;> exact absurd ho (by decide)

/-- A schedule in which nobody else runs between the length of a frame and the frame: a sender
with nothing to do is passed over, a sender writes a whole frame, or a sender flushes. -/
inductive Undivided : Net → List Nat → Prop where
  | nil (n : Net) : Undivided n []
  | pass (n : Net) (i : Nat) (is : List Nat) :
      n.senders[i]? = none ∨ n.senders[i]? = some ⟨.idle, []⟩ → Undivided (n.step i) is →
      Undivided n (i :: is)
  | frame (n : Net) (i : Nat) (f : Bytes) (fs : List Bytes) (is : List Nat) :
      n.senders[i]? = some ⟨.idle, f :: fs⟩ → Undivided ((n.step i).step i) is →
      Undivided n (i :: i :: is)
  | flush (n : Net) (i : Nat) (fs : List Bytes) (is : List Nat) :
      n.senders[i]? = some ⟨.flush, fs⟩ → Undivided (n.step i) is → Undivided n (i :: is)

theorem write_total (w : Writer) (p : Bytes) :
    (w.write p).out ++ (w.write p).buf = w.out ++ w.buf ++ p := by
  unfold Writer.write
  split
  · simp
  · split
    · rename_i h; simp [h]
    · split
      · simp [List.append_assoc]
      · simp

theorem flatMap_get {σ β : Type} (g : σ → List β) : ∀ (l : List σ) (i : Nat) (s : σ),
    l[i]? = some s → (l.flatMap g).Perm (g s ++ (l.eraseIdx i).flatMap g)
  | [], i, s, h => by simp at h
  | a :: l, 0, s, h => by simp at h; subst h; simp
  | a :: l, i + 1, s, h => by
    have ih := flatMap_get g l i s (by simpa using h)
    simp only [List.flatMap_cons, List.eraseIdx_cons_succ]
    refine (List.Perm.append_left _ ih).trans ?_
    rw [← List.append_assoc, ← List.append_assoc]
    exact List.Perm.append_right _ List.perm_append_comm

theorem flatMap_set {σ β : Type} (g : σ → List β) : ∀ (l : List σ) (i : Nat) (s s' : σ),
    l[i]? = some s → ((l.set i s').flatMap g).Perm (g s' ++ (l.eraseIdx i).flatMap g)
  | [], i, s, s', h => by simp at h
  | a :: l, 0, s, s', h => by simp
  | a :: l, i + 1, s, s', h => by
    have ih := flatMap_set g l i s s' (by simpa using h)
    simp only [List.flatMap_cons, List.eraseIdx_cons_succ, List.set_cons_succ]
    refine (List.Perm.append_left _ ih).trans ?_
    rw [← List.append_assoc, ← List.append_assoc]
    exact List.Perm.append_right _ List.perm_append_comm

/-- Between frames: everything written so far is whole frames, and unflushed bytes have a sender
that will flush them. -/
structure NetInv (all : List Bytes) (n : Net) : Prop where
  whole : ∃ order : List Bytes, (order ++ n.senders.flatMap Sender.todo).Perm all ∧
    n.w.out ++ n.w.buf = order.flatMap framed
  stage : ∀ s ∈ n.senders, s.stage = .idle ∨ s.stage = .flush
  flush : n.w.buf ≠ [] → ∃ s ∈ n.senders, s.stage = .flush

theorem netInv_pass {all : List Bytes} {n : Net} {i : Nat}
    (h : n.senders[i]? = none ∨ n.senders[i]? = some ⟨.idle, []⟩) : n.step i = n := by
  rcases h with h | h
  · simp [Net.step, h]
  · have hi := List.getElem?_eq_some_iff.mp h
    obtain ⟨hi, he⟩ := hi
    simp only [Net.step, h, send]
    rw [← he, List.set_getElem_self hi]

theorem netInv_frame {all : List Bytes} {n : Net} {i : Nat} {f : Bytes} {fs : List Bytes}
    (hn : NetInv all n) (h : n.senders[i]? = some ⟨.idle, f :: fs⟩) :
    NetInv all ((n.step i).step i) := by
  have hlt : i < n.senders.length := (List.getElem?_eq_some_iff.mp h).1
  have h2 : (n.step i).step i =
      ⟨(n.w.write (be24 (UInt32.ofNat f.length))).write f, n.senders.set i ⟨.flush, fs⟩⟩ := by
    simp only [Net.step, h, send, List.getElem?_set_self hlt, List.set_set]
  rw [h2]
  obtain ⟨order, hp, ho⟩ := hn.whole
  refine ⟨⟨order ++ [f], ?_, ?_⟩, ?_, ?_⟩
  · refine List.Perm.trans ?_ hp
    rw [List.append_assoc]
    refine List.Perm.append_left _ ?_
    refine (List.Perm.append_left _ (flatMap_set Sender.todo _ i _ ⟨.flush, fs⟩ h)).trans ?_
    exact (flatMap_get Sender.todo _ i _ h).symm
  · show (Writer.write _ f).out ++ (Writer.write _ f).buf = _
    rw [write_total, write_total, ho]
    simp [framed]
  · intro s hs
    rcases List.mem_or_eq_of_mem_set hs with hs | rfl
    · exact hn.stage s hs
    · exact .inr rfl
  · intro _
    exact ⟨⟨.flush, fs⟩, List.mem_set hlt _, rfl⟩

theorem netInv_flush {all : List Bytes} {n : Net} {i : Nat} {fs : List Bytes}
    (hn : NetInv all n) (h : n.senders[i]? = some ⟨.flush, fs⟩) : NetInv all (n.step i) := by
  have h2 : n.step i = ⟨n.w.flush, n.senders.set i ⟨.idle, fs⟩⟩ := by
    simp only [Net.step, h, send]
  rw [h2]
  obtain ⟨order, hp, ho⟩ := hn.whole
  refine ⟨⟨order, ?_, ?_⟩, ?_, ?_⟩
  · refine List.Perm.trans ?_ hp
    refine List.Perm.append_left _ ?_
    exact (flatMap_set Sender.todo _ i _ ⟨.idle, fs⟩ h).trans (flatMap_get Sender.todo _ i _ h).symm
  · simp [Writer.flush, ho]
  · intro s hs
    rcases List.mem_or_eq_of_mem_set hs with hs | rfl
    · exact hn.stage s hs
    · exact .inl rfl
  · intro hb; exact absurd rfl hb

theorem netInv_run {all : List Bytes} {n : Net} {sched : List Nat} (hu : Undivided n sched)
    (hn : NetInv all n) : NetInv all (n.run sched) := by
  induction hu with
  | nil n => exact hn
  | pass n i is h _ ih => exact ih (by rw [netInv_pass (all := all) h]; exact hn)
  | frame n i f fs is h _ ih => exact ih (netInv_frame hn h)
  | flush n i fs is h _ ih => exact ih (netInv_flush hn h)

theorem netInv_init (frames : List (List Bytes)) : NetInv frames.flatten (Net.init frames) := by
  refine ⟨⟨[], ?_, rfl⟩, ?_, fun h => absurd rfl h⟩
  · rw [List.nil_append]
    simp [Net.init, List.flatMap_map, List.flatMap_id']
  · intro s hs
    simp only [Net.init, List.mem_map] at hs
    obtain ⟨_, _, rfl⟩ := hs
    exact .inl rfl

/-- C50, partial: schedules in which no other sender runs between the length of a frame and the
frame itself. Missing: all other schedules (nothing in the code excludes them). -/
theorem C50_interleave_partial (frames : List (List Bytes)) (sched : List Nat)
    (hu : Undivided (Net.init frames) sched) (hs : AllSent ((Net.init frames).run sched)) :
    WholeFrames frames ((Net.init frames).run sched).w.out := by
  obtain ⟨⟨order, hp, ho⟩, hst, hf⟩ := netInv_run hu (netInv_init frames)
  generalize (Net.init frames).run sched = n at *
  have hb : n.w.buf = [] := by
    by_cases hb : n.w.buf = []
    · exact hb
    · obtain ⟨s, hm, he⟩ := hf hb
      rw [hs s hm] at he
      cases he
  have ht : n.senders.flatMap Sender.todo = [] := by
    rw [List.flatMap_eq_nil_iff]
    intro s hm
    rw [hs s hm]
  rw [ht, List.append_nil] at hp
  rw [hb, List.append_nil] at ho
  exact ⟨order, hp, ho⟩

/-- The hypotheses are met: two senders, the second one runs between the frames of the first. -/
example : WholeFrames [[[1], [3]], [[2, 2]]]
    ((Net.init [[[1], [3]], [[2, 2]]]).run [0, 0, 1, 1, 0, 0, 0, 1, 0]).w.out := by
  refine C50_interleave_partial _ _ ?_ (by unfold AllSent; decide)
  refine .frame _ 0 _ _ _ rfl (.frame _ 1 _ _ _ rfl (.flush _ 0 _ _ rfl (.frame _ 0 _ _ _ rfl
    (.flush _ 1 _ _ rfl (.flush _ 0 _ _ rfl (.nil _))))))

/-- C50, partial: a single sender. Any number of its frames arrive whole, in order. -/
theorem C50_single_sender_partial (frames : List Bytes) (sched : List Nat)
    (hs : AllSent ((Net.init [frames]).run sched)) :
    ((Net.init [frames]).run sched).w.out = frames.flatMap framed := by
  have key : ∀ (sched : List Nat) (n : Net) (s : Sender), n.senders = [s] →
      AllSent (n.run sched) → (n.w.buf ≠ [] → s.stage ≠ .idle) →
      (n.run sched).w.out = n.w.out ++ n.w.buf ++
        (match s.stage with | .length f => f | _ => []) ++ s.todo.flatMap framed := by
    intro sched
    induction sched with
    | nil =>
      intro n s hn ha hb
      have h : s = ⟨.idle, []⟩ := ha s (by simp [Net.run, hn])
      subst h
      have hb : n.w.buf = [] := by
        by_cases h : n.w.buf = []
        · exact h
        · exact absurd rfl (hb h)
      simp [Net.run, hb]
    | cons i is ih =>
      intro n s hn ha hb
      have hr : n.run (i :: is) = (n.step i).run is := rfl
      rw [hr] at ha ⊢
      rcases Nat.eq_zero_or_pos i with rfl | hi
      · have hst : n.step 0 = ⟨(send n.w s).1, [(send n.w s).2]⟩ := by simp [Net.step, hn]
        rw [hst] at ha ⊢
        obtain ⟨stage, todo⟩ := s
        cases stage with
        | idle =>
          cases todo with
          | nil =>
            rw [ih _ _ rfl ha (by simpa [send] using hb)]
            simp [send]
          | cons f fs =>
            rw [ih _ _ rfl ha (by simp [send])]
            simp only [send, write_total]
            simp [framed]
        | length f =>
          rw [ih _ _ rfl ha (by simp [send])]
          simp only [send, write_total]
          simp
        | flush =>
          rw [ih _ _ rfl ha (by simp [send, Writer.flush])]
          simp [send, Writer.flush]
      · have hst : n.step i = n := by
          have : n.senders[i]? = none := by rw [hn]; simp; omega
          simp [Net.step, this]
        rw [hst] at ha ⊢
        exact ih n s hn ha hb
  have := key sched (Net.init [frames]) ⟨.idle, frames⟩ rfl hs (by simp [Net.init])
  simpa [Net.init] using this

example : ((Net.init [[[1], [3, 4]]]).run [0, 0, 0, 0, 0, 0]).w.out = [0, 0, 1, 1, 0, 0, 2, 3, 4] :=
  C50_single_sender_partial [[1], [3, 4]] [0, 0, 0, 0, 0, 0] (by unfold AllSent; decide)

/-! ## C53 -/

variable {α : Type}

/-- What holds of a connection at every moment. -/
structure ConnInv (isSetup : α → Bool) (server : Bool) (all : List α) (c : Conn α) : Prop where
  q : Inv c.q
  input : c.got ++ c.input = all
  before : c.r = .first ∨ c.r = .readingFirst → server = true ∧ c.got = []
  main : c.handled ++ (c.q.chan.toList ++ c.q.backlog) = c.got ∨
    (server = true ∧ c.handled = [] ∧ c.q.chan.toList ++ c.q.backlog = [] ∧
      (∃ f, c.got = [f] ∧ isSetup f = false) ∧ (c.r = .dispose ∨ c.r = .wait ∨ c.r = .returned))
  setup : server = true → (c.got = [] ∧ c.r ≠ .select ∧ c.r ≠ .reading) ∨ ∃ f fs, c.got = f :: fs ∧
    (isSetup f = true ∨ c.handled = [] ∧ c.q.chan.toList ++ c.q.backlog = [] ∧ (c.r = .dispose ∨ c.r = .wait ∨ c.r = .returned))
  disp : c.q.disposed = true ↔ c.r = .wait ∨ c.r = .returned
  ready : c.h ≠ .load → Ready c.q
  fin : c.h = .finished → c.q.chan.toList ++ c.q.backlog = [] ∧ c.q.closed = true ∧ c.q.disposed = true
  ret : c.r = .returned → c.h = .finished

theorem connInv_init (isSetup : α → Bool) (server : Bool) (all : List α) :
    ConnInv isSetup server all (Conn.init server all) := by
  refine ⟨inv_init, rfl, ?_, .inl rfl, ?_, ?_, ?_, ?_, ?_⟩
  · cases server <;> simp [Conn.init]
  · rintro rfl; simp [Conn.init]
  · cases server <;> simp [Conn.init, Unbounded.init]
  · intro _ _; simp [Conn.init, Unbounded.init]
  · intro h; cases h
  · cases server <;> (intro h; cases h)

theorem recv_ready {s : Unbounded.St α} (h : Ready s) (hv : ∀ t, (Unbounded.recv s).2 ≠ .val t) :
    (Unbounded.recv s).1 = s := by
  unfold Unbounded.recv at hv ⊢
  cases hc : s.chan with
  | some t => simp [hc] at hv
  | none => cases s.closed <;> simp

theorem connInv_step (isSetup : α → Bool) (server : Bool) (all : List α) (c : Conn α) (e : Ev)
    (h : ConnInv isSetup server all c) :
    ∃ c', c.step isSetup e = .ok c' ∧ ConnInv isSetup server all c' := by
  cases e with
  | cancel => exact ⟨_, rfl, ⟨h.q, h.input, h.before, h.main, h.setup, h.disp, h.ready, h.fin, h.ret⟩⟩
  | readEnd =>
    cases hr : c.r with
    | readingFirst =>
      refine ⟨{ c with r := .dispose }, by simp [Conn.step, hr], h.q, h.input, by simp, ?_, ?_, ?_, h.ready, h.fin, by simp⟩
      · rcases h.main with hm | ⟨_, _, _, _, hm⟩
        · exact .inl hm
        · simp [hr] at hm
      · intro _; exact .inl ⟨(h.before (.inr hr)).2, by simp, by simp⟩
      · have := h.disp; rw [hr] at this; simpa using this
    | reading =>
      refine ⟨{ c with r := .dispose }, by simp [Conn.step, hr], h.q, h.input, by simp, ?_, ?_, ?_, h.ready, h.fin, by simp⟩
      · rcases h.main with hm | ⟨_, _, _, _, hm⟩
        · exact .inl hm
        · simp [hr] at hm
      · intro hs
        rcases h.setup hs with ⟨_, hg, hg'⟩ | ⟨f, fs, hg, hc | ⟨_, _, hc⟩⟩
        · simp [hr] at hg hg'
        · exact .inr ⟨f, fs, hg, .inl hc⟩
        · simp [hr] at hc
      · have := h.disp; rw [hr] at this; simpa using this
    | first => exact ⟨c, by simp [Conn.step, hr], h⟩
    | select => exact ⟨c, by simp [Conn.step, hr], h⟩
    | dispose => exact ⟨c, by simp [Conn.step, hr], h⟩
    | wait => exact ⟨c, by simp [Conn.step, hr], h⟩
    | returned => exact ⟨c, by simp [Conn.step, hr], h⟩
  | reader fail =>
    simp only [Conn.step, readerStep]
    cases hr : c.r with
    | first =>
      obtain ⟨hsv, hg⟩ := h.before (.inl hr)
      have hd := h.disp; rw [hr] at hd
      refine ⟨_, rfl, h.q, h.input, fun _ => ⟨hsv, hg⟩, ?_, fun _ => .inl ⟨hg, ?_, ?_⟩, ?_, h.ready, h.fin, ?_⟩
      · rcases h.main with hm | ⟨_, _, _, _, hm⟩
        · exact .inl hm
        · simp [hr] at hm
      · cases hc : c.ctx <;> simp [hc]
      · cases hc : c.ctx <;> simp [hc]
      · show c.q.disposed = true ↔ _
        cases c.ctx <;> simpa using hd
      · cases hc : c.ctx <;> simp [hc]
    | readingFirst =>
      obtain ⟨hsv, hg⟩ := h.before (.inr hr)
      have hd := h.disp; rw [hr] at hd
      have hdf : c.q.disposed = false := by simpa using hd
      have hm : c.handled ++ (c.q.chan.toList ++ c.q.backlog) = [] := by
        rcases h.main with hm | ⟨_, _, _, _, hm⟩
        · rw [hm, hg]
        · simp [hr] at hm
      have hm' := List.append_eq_nil_iff.mp hm
      have hi := h.input
      rw [hg] at hi
      cases hin : c.input with
      | nil => exact ⟨c, rfl, h⟩
      | cons f fs =>
        have hnf : c.h ≠ .finished := fun hf => by simp [(h.fin hf).2.2] at hdf
        simp only
        split
        · rename_i hsf
          refine ⟨_, rfl, h.q, ?_, ?_, .inl ?_, ?_, ?_, h.ready, h.fin, ?_⟩
          · show (c.got ++ [f]) ++ fs = all
            rw [hg, ← hi, hin]; rfl
          · cases fail <;> simp
          · show (c.handled ++ [f]) ++ _ = c.got ++ [f]
            rw [hm'.1, hm'.2, hg]; rfl
          · intro _; exact .inr ⟨f, [], by show c.got ++ [f] = _; rw [hg]; rfl, .inl hsf⟩
          · show c.q.disposed = true ↔ _
            cases fail <;> simp [hdf]
          · cases fail <;> simp
        · rename_i hsf
          have hsf : isSetup f = false := by simpa using hsf
          refine ⟨_, rfl, h.q, ?_, by simp, .inr ⟨hsv, hm'.1, hm'.2, ⟨f, ?_, hsf⟩, .inl rfl⟩, ?_, ?_,
            h.ready, h.fin, by simp⟩
          · show (c.got ++ [f]) ++ fs = all
            rw [hg, ← hi, hin]; rfl
          · show c.got ++ [f] = _; rw [hg]; rfl
          · intro _; exact .inr ⟨f, [], by show c.got ++ [f] = _; rw [hg]; rfl, .inr ⟨hm'.1, hm'.2, .inl rfl⟩⟩
          · show c.q.disposed = true ↔ _
            simp [hdf]
    | select =>
      have hd := h.disp; rw [hr] at hd
      refine ⟨_, rfl, h.q, h.input, ?_, ?_, ?_, ?_, h.ready, h.fin, ?_⟩
      · show (if _ then _ else _) = _ ∨ _ → _
        split <;> simp
      · rcases h.main with hm | ⟨_, _, _, _, hm⟩
        · exact .inl hm
        · simp [hr] at hm
      · intro hs
        rcases h.setup hs with ⟨_, hg, hg'⟩ | ⟨f, fs, hg, hc | ⟨_, _, hc⟩⟩
        · simp [hr] at hg hg'
        · exact .inr ⟨f, fs, hg, .inl hc⟩
        · simp [hr] at hc
      · show c.q.disposed = true ↔ (if _ then _ else _) = _ ∨ (if _ then _ else _) = _
        split <;> simpa using hd
      · show (if _ then _ else _) = _ → _
        split <;> simp
    | reading =>
      have hd := h.disp; rw [hr] at hd
      have hdf : c.q.disposed = false := by simpa using hd
      cases hin : c.input with
      | nil => exact ⟨c, rfl, h⟩
      | cons f fs =>
        obtain ⟨q', b, hp, hqi, hb, hqd, hq, _⟩ := put_spec c.q f h.q
        rw [hdf] at hb hqd
        have hbt : b = true := by simpa using hb
        have hnf : c.h ≠ .finished := fun hf => by simp [(h.fin hf).2.2] at hdf
        have hm : c.handled ++ (c.q.chan.toList ++ c.q.backlog) = c.got := by
          rcases h.main with hm | ⟨_, _, _, _, hm⟩
          · exact hm
          · simp [hr] at hm
        simp only [hp, Go.bind_ok]
        refine ⟨_, rfl, hqi, ?_, by simp, .inl ?_, ?_, ?_, ?_, ?_, by simp⟩
        · show (c.got ++ [f]) ++ fs = all
          rw [← h.input, hin]; simp
        · show c.handled ++ (q'.chan.toList ++ q'.backlog) = c.got ++ [f]
          rw [hq, hbt, ← hm]; simp
        · intro hs
          rcases h.setup hs with ⟨_, _, hg⟩ | ⟨f', fs', hg, hc | ⟨_, _, hc⟩⟩
          · exact absurd hr hg
          · exact .inr ⟨f', fs' ++ [f], by show c.got ++ [f] = _; rw [hg]; rfl, .inl hc⟩
          · simp [hr] at hc
        · show q'.disposed = true ↔ _
          simp [hqd]
        · intro hl
          have hst : Unbounded.step c.q (.put f) = .ok (q', .put b) := by simp [Unbounded.step, hp]
          exact (step_ready c.q q' _ _ h.q hst).2 (by simp) (h.ready hl)
        · intro hf; exact absurd hf hnf
    | dispose =>
      have hd := h.disp; rw [hr] at hd
      have hdf : c.q.disposed = false := by simpa using hd
      have hnf : c.h ≠ .finished := fun hf => by simp [(h.fin hf).2.2] at hdf
      obtain ⟨hqi, hqc, hqb, hqd⟩ := dispose_inv c.q h.q
      refine ⟨_, rfl, hqi, h.input, by simp, ?_, ?_, by simp [hqd], ?_, ?_, by simp⟩
      · rw [hqc, hqb]
        rcases h.main with hm | ⟨h1, h2, h3, h4, _⟩
        · exact .inl hm
        · exact .inr ⟨h1, h2, h3, h4, .inr (.inl rfl)⟩
      · intro hs
        rcases h.setup hs with ⟨hg, _⟩ | ⟨f, fs, hg, hc | ⟨hc, hq0, _⟩⟩
        · exact .inl ⟨hg, by simp, by simp⟩
        · exact .inr ⟨f, fs, hg, .inl hc⟩
        · exact .inr ⟨f, fs, hg, .inr ⟨hc, by rw [hqc, hqb]; exact hq0, .inr (.inl rfl)⟩⟩
      · intro hl
        have hst : Unbounded.step c.q .dispose = .ok (Unbounded.dispose c.q, .dispose) := rfl
        exact (step_ready c.q _ _ _ h.q hst).2 (by simp) (h.ready hl)
      · intro hf; exact absurd hf hnf
    | wait =>
      have hd := h.disp; rw [hr] at hd
      have hdt : c.q.disposed = true := by simpa using hd
      by_cases hf : c.h = .finished
      · simp only [hf, if_true]
        refine ⟨_, rfl, h.q, h.input, by simp, ?_, ?_, by simp [hdt], ?_, ?_, fun _ => rfl⟩
        · rcases h.main with hm | ⟨h1, h2, h3, h4, _⟩
          · exact .inl hm
          · exact .inr ⟨h1, h2, h3, h4, .inr (.inr rfl)⟩
        · intro hs
          rcases h.setup hs with ⟨hg, _⟩ | ⟨f, fs, hg, hc | ⟨hc, hq0, _⟩⟩
          · exact .inl ⟨hg, by simp, by simp⟩
          · exact .inr ⟨f, fs, hg, .inl hc⟩
          · exact .inr ⟨f, fs, hg, .inr ⟨hc, hq0, .inr (.inr rfl)⟩⟩
        · exact fun _ => h.ready (by rw [hf]; simp)
        · exact fun _ => h.fin hf
      · simp only [hf, if_false]
        refine ⟨c, ?_, h⟩
        rw [← hr]
    | returned => exact ⟨c, rfl, h⟩
  | handler fail =>
    simp only [Conn.step, handlerStep]
    cases hh : c.h with
    | finished => exact ⟨c, rfl, h⟩
    | load =>
      obtain ⟨q', n, hl, hqi, hqd, hq, hready⟩ := load_spec c.q h.q
      simp only [hl, Go.bind_ok]
      refine ⟨_, rfl, hqi, h.input, h.before, ?_, ?_, ?_, fun _ => hready, by simp, ?_⟩
      · rcases h.main with hm | hm
        · left; show c.handled ++ (q'.chan.toList ++ q'.backlog) = _
          rw [hq]; exact hm
        · right; show _ ∧ _ ∧ q'.chan.toList ++ q'.backlog = [] ∧ _
          rw [hq]; exact hm
      · show server = true → _ ∨ ∃ f fs, _ ∧ (_ ∨ _ ∧ q'.chan.toList ++ q'.backlog = [] ∧ _)
        rw [hq]; exact h.setup
      · show q'.disposed = true ↔ _
        rw [hqd]; exact h.disp
      · intro hr; have := h.ret hr; rw [hh] at this; cases this
    | recv =>
      have hri := recv_inv c.q h.q
      have hrd := h.ready (by rw [hh]; simp)
      generalize hg : Unbounded.recv c.q = x at hri
      obtain ⟨q', o⟩ := x
      obtain ⟨hqi, hqb, hqd, hqc⟩ := hri
      cases o with
      | wait => exact ⟨c, rfl, h⟩
      | closed =>
        have hcl : c.q.chan = none ∧ c.q.closed = true := by
          unfold Unbounded.recv at hg
          cases hc : c.q.chan with
          | some t => simp [hc] at hg
          | none =>
            rw [hc] at hg
            cases hcl : c.q.closed with
            | true => exact ⟨rfl, rfl⟩
            | false => simp [hcl] at hg
        have hin := h.q.closed hcl.2
        refine ⟨_, rfl, h.q, h.input, h.before, h.main, h.setup, h.disp, fun _ => hrd, fun _ => ?_, fun _ => rfl⟩
        refine ⟨?_, hcl.2, hin.1⟩
        rw [hcl.1, (hrd hcl.1).1]; rfl
      | val f =>
        simp only at hqc hqb hqd
        refine ⟨_, rfl, hqi, h.input, h.before, .inl ?_, ?_, ?_, by simp, by simp, ?_⟩
        · show (c.handled ++ [f]) ++ (q'.chan.toList ++ q'.backlog) = c.got
          rcases h.main with hm | ⟨_, _, hm, _⟩
          · rw [← hm, hqc, hqb]; simp
          · rw [hqc] at hm; simp at hm
        · intro hs
          rcases h.setup hs with hc | ⟨f', fs, hg', hc⟩
          · exact .inl hc
          · refine .inr ⟨f', fs, hg', ?_⟩
            rcases hc with hc | ⟨_, hm, _⟩
            · exact .inl hc
            · rw [hqc] at hm; simp at hm
        · show q'.disposed = true ↔ _
          rw [hqd]; exact h.disp
        · intro hr; have := h.ret hr; rw [hh] at this; cases this

theorem connInv_run (isSetup : α → Bool) (server : Bool) (all : List α) (es : List Ev) :
    ∀ c : Conn α, ConnInv isSetup server all c →
      ∃ c', c.run isSetup es = .ok c' ∧ ConnInv isSetup server all c' := by
  induction es with
  | nil => intro c h; exact ⟨c, rfl, h⟩
  | cons e es ih =>
    intro c h
    obtain ⟨c1, h1, h2⟩ := connInv_step isSetup server all c e h
    obtain ⟨c2, h3, h4⟩ := ih c1 h2
    exact ⟨c2, by simp [Conn.run, h1, h3], h4⟩

/-- C53: in every execution (nothing panics) the frames handed to the handler are the frames read
from the connection, in order and each once, up to those still queued; on a server nothing is
handed over unless the first frame is a setup frame; and when `Start` has returned every frame that
was read has been handed over (unless it is the first one of a server and not a setup frame). -/
theorem C53_setup_first (isSetup : α → Bool) (server : Bool) (all : List α) (es : List Ev) :
    ∃ c, (Conn.init server all).run isSetup es = .ok c ∧
      c.got <+: all ∧ c.handled <+: c.got ∧
      (server = true → c.handled ≠ [] → ∃ f rest, all = f :: rest ∧ isSetup f = true) ∧
      (c.r = .returned → c.handled = c.got ∨
        server = true ∧ c.handled = [] ∧ ∃ f rest, all = f :: rest ∧ isSetup f = false) := by
  obtain ⟨c, hr, h⟩ := connInv_run isSetup server all es _ (connInv_init isSetup server all)
  refine ⟨c, hr, ⟨_, h.input⟩, ?_, ?_, ?_⟩
  · rcases h.main with hm | ⟨_, hm, _⟩
    · exact ⟨_, hm⟩
    · rw [hm]; exact List.nil_prefix
  · intro hs hne
    rcases h.setup hs with ⟨hg, _⟩ | ⟨f, fs, hg, hc | ⟨hc, _⟩⟩
    · rcases h.main with hm | ⟨_, hm, _⟩
      · rw [hg] at hm; exact absurd (List.append_eq_nil_iff.mp hm).1 hne
      · exact absurd hm hne
    · exact ⟨f, fs ++ c.input, by rw [← h.input, hg]; rfl, hc⟩
    · exact absurd hc hne
  · intro hret
    rcases h.main with hm | ⟨hs, hm, _, ⟨f, hg, hf⟩, _⟩
    · rw [(h.fin (h.ret hret)).1, List.append_nil] at hm
      exact .inl hm
    · exact .inr ⟨hs, hm, f, c.input, by rw [← h.input, hg]; rfl, hf⟩

/-- A server connection: the setup frame (0) and two more are handled, the context ends it. -/
example : (Conn.init true [0, 5, 6, 7]).run (· == 0)
      [.reader false, .reader false, .reader false, .reader false, .reader false, .reader false,
       .handler true, .handler false, .cancel, .reader false, .reader false, .handler false,
       .handler false, .handler false, .reader false] =
    .ok ⟨⟨none, true, [], true⟩, .returned, .finished, true, true, [7], [0, 5, 6], [0, 5, 6]⟩ := rfl

/-- A server connection whose first frame is not a setup frame. -/
example : (Conn.init true [5, 0]).run (· == 0)
      [.reader false, .reader false, .reader false, .handler false, .reader false] =
    .ok ⟨⟨none, true, [], true⟩, .returned, .finished, false, false, [0], [5], []⟩ := rfl

theorem finished_run (isSetup : α → Bool) (c : Conn α) (hh : c.h = .finished) :
    ∀ n, c.run isSetup (List.replicate n (.handler false)) = .ok c := by
  intro n
  induction n with
  | zero => rfl
  | succ n ih =>
    rw [List.replicate_succ]
    simp only [Conn.run, Conn.step, handlerStep, hh, Go.bind_ok, ih]

/-- The handler goroutine alone, from any moment after the reader gave up: it finishes. -/
theorem handler_finishes (isSetup : α → Bool) (server : Bool) (all : List α) :
    ∀ (n : Nat) (c : Conn α), ConnInv isSetup server all c → c.q.disposed = true → c.r = .wait →
      2 * (c.q.chan.toList ++ c.q.backlog).length + (if c.h = .load then 1 else 0) < n →
      ∃ c', c.run isSetup (List.replicate n (.handler false)) = .ok c' ∧ c'.h = .finished ∧
        c'.r = .wait := by
  intro n
  induction n with
  | zero => intro c _ _ _ h; exact absurd h (Nat.not_lt_zero _)
  | succ n ih =>
    intro c hc hd hr hn
    rw [List.replicate_succ]
    simp only [Conn.run, Conn.step, handlerStep]
    cases hh : c.h with
    | finished =>
      exact ⟨c, finished_run isSetup c hh n, hh, hr⟩
    | load =>
      obtain ⟨c1, h1, h2⟩ := connInv_step isSetup server all c (.handler false) hc
      obtain ⟨q', k, hl, hqi, hqd, hq, hready⟩ := load_spec c.q hc.q
      simp only [Conn.step, handlerStep, hh, hl, Go.bind_ok] at h1 ⊢
      cases h1
      refine ih _ h2 ?_ hr ?_
      · show q'.disposed = true
        rw [hqd]; exact hd
      · show 2 * (q'.chan.toList ++ q'.backlog).length + (if HPhase.recv = .load then 1 else 0) < n
        rw [hq]
        rw [if_pos hh] at hn
        rw [if_neg (by simp)]
        omega
    | recv =>
      obtain ⟨c1, h1, h2⟩ := connInv_step isSetup server all c (.handler false) hc
      have hri := recv_inv c.q hc.q
      have hrd := hc.ready (by rw [hh]; simp)
      simp only [Conn.step, handlerStep, hh] at h1
      generalize hg : Unbounded.recv c.q = x at hri h1
      obtain ⟨q', o⟩ := x
      obtain ⟨hqi, hqb, hqd, hqc⟩ := hri
      rw [hh] at hn
      cases o with
      | wait =>
        exfalso
        unfold Unbounded.recv at hg
        cases hcn : c.q.chan with
        | some t => simp [hcn] at hg
        | none =>
          have := (hrd hcn).2 hd
          simp [hcn, this] at hg
      | closed =>
        simp only [Go.bind_ok] at h1 ⊢
        exact ⟨_, finished_run isSetup _ rfl n, rfl, hr⟩
      | val f =>
        simp only [Go.bind_ok] at h1 ⊢
        cases h1
        refine ih _ h2 ?_ hr ?_
        · show q'.disposed = true
          rw [← hd]; exact hqd
        · show 2 * (q'.chan.toList ++ q'.backlog).length + (if HPhase.load = .load then 1 else 0) < n
          simp only at hqc hqb
          rw [if_neg (by simp)] at hn
          rw [hqc, ← hqb] at hn
          simp at hn ⊢
          omega

theorem run_append (isSetup : α → Bool) (es es' : List Ev) : ∀ c : Conn α,
    c.run isSetup (es ++ es') = (c.run isSetup es) >>= fun c => c.run isSetup es' := by
  induction es with
  | nil => intro c; rfl
  | cons e es ih =>
    intro c
    simp only [List.cons_append, Conn.run]
    cases c.step isSetup e with
    | ok c' => simp only [Go.bind_ok]; exact ih c'
    | err e => rfl
    | panic => rfl

/-- C53: nothing that was read is left behind. Whenever `Start` has stopped reading and waits for
the handler goroutine, that goroutine finishes by itself (as long as `HandleFrame` returns),
`Start` then returns, and by `C53_setup_first` everything read has been handed over. -/
theorem C53_drains (isSetup : α → Bool) (server : Bool) (all : List α) (es : List Ev) (c : Conn α)
    (hr : (Conn.init server all).run isSetup es = .ok c) (hw : c.r = .wait) :
    ∃ n c', (Conn.init server all).run isSetup
        (es ++ (List.replicate n (.handler false) ++ [.reader false])) = .ok c' ∧ c'.r = .returned := by
  obtain ⟨c0, hr0, h⟩ := connInv_run isSetup server all es _ (connInv_init isSetup server all)
  rw [hr] at hr0
  cases hr0
  have hd := h.disp.mpr (.inl hw)
  obtain ⟨n, hn⟩ : ∃ n, 2 * (c.q.chan.toList ++ c.q.backlog).length +
    (if c.h = .load then 1 else 0) < n := ⟨_, Nat.lt_succ_self _⟩
  obtain ⟨c', h1, h2, h3⟩ := handler_finishes isSetup server all n c h hd hw hn
  refine ⟨n, { c' with r := .returned }, ?_, rfl⟩
  rw [run_append, hr]
  simp only [Go.bind_ok]
  rw [run_append, h1]
  simp [Conn.run, Conn.step, readerStep, h2, h3]

/-- The hypothesis is met: `Start` waits while two frames are still queued. -/
example : (Conn.init false [5, 6, 7]).run (· == 0)
      [.reader false, .reader false, .reader false, .reader false, .cancel, .reader false,
       .reader false] =
    .ok ⟨⟨some 5, false, [6], true⟩, .wait, .recv, false, true, [7], [5, 6], []⟩ := rfl

end Verif.Props
