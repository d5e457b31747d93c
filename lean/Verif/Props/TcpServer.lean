import Verif.Model.TcpServer
/-
Properties C80 (closing a TCP server) and C81 (finished connections are forgotten).
-/
set_option autoImplicit false
namespace Verif.Props
open Verif
open Verif.TcpServer (Srv Ev Fate Lis Loop)

/-! ## Statements -/

/-- The accept loop is not in the middle of dealing with a connection. -/
def Settled (s : Srv) : Prop := (∀ i, s.loop ≠ .got i) ∧ s.loop ≠ .refusing

/-- `Listen` returns if the goroutine it runs in gets to run. -/
def ListenReturns (s : Srv) : Prop :=
  ∃ n ok, (TcpServer.runFrom s (List.replicate n .loop)).loop = .returned ok

/-- C80 as stated in English: after `Close`, the listener and all connections are closed, and `Listen`, if
it was called, returns. -/
def C80_statement : Prop :=
  ∀ es : List Ev, .close ∈ es → Settled (TcpServer.run es) →
    (TcpServer.run es).lis ≠ .opened ∧ (∀ c ∈ (TcpServer.run es).conns, c.opened = false) ∧
    ((TcpServer.run es).loop ≠ .idle → ListenReturns (TcpServer.run es))

/-- C81 as stated in English: a connection that was served and has ended is not in the server's table. -/
def C81_statement : Prop :=
  ∀ (es : List Ev) (i : Nat) (m : List Nat), (TcpServer.run es).m = some m →
    (TcpServer.run es).conns[i]? = some ⟨false, .served⟩ → i ∉ m

/-! ## Witnesses -/

/-- `Close` before `Listen`: the server listens all the same, nobody can close the listener any more, and
connections of peers are accepted, not served and not closed. -/
theorem C80_close_first_violated :
    TcpServer.run [.close, .listen true, .connect, .loop, .loop, .connect, .loop, .loop, .close] =
      ⟨true, .opened, some [], [⟨true, .refused⟩, ⟨true, .refused⟩], .accepting, false⟩ := by
  decide +kernel

/-- In this situation `Listen` never returns by itself. -/
theorem listen_hangs (n : Nat) (s : Srv) (h1 : s.loop = .accepting) (h2 : s.lis = .opened) :
    TcpServer.runFrom s (List.replicate n .loop) = s := by
  induction n with
  | zero => rfl
  | succ n ih =>
    rw [List.replicate_succ, TcpServer.runFrom]
    have : TcpServer.step s .loop = s := by
      simp [TcpServer.step, TcpServer.loopStep, h1, h2]
    rw [this, ih]

theorem C80_listen_hangs_violated : ¬ ListenReturns (TcpServer.run [.close, .listen true]) := by
  rintro ⟨n, ok, h⟩
  rw [listen_hangs n _ (by decide +kernel) (by decide +kernel)] at h
  revert h; revert ok
  decide +kernel

/-- `Close` while the accept loop has just got a connection: it stays open. -/
theorem C80_race_violated :
    TcpServer.run [.listen true, .connect, .close, .loop, .loop, .loop, .loop] =
      ⟨true, .closed, none, [⟨true, .refused⟩], .returned true, false⟩ := by
  decide +kernel

theorem C80_violated : ¬ C80_statement := by
  intro h
  have := (h [.listen true, .connect, .close, .loop, .loop, .loop, .loop] (by decide)
    (by rw [C80_race_violated]; exact ⟨fun i hi => (by cases hi), by decide⟩)).2.1 ⟨true, .refused⟩
    (by decide +kernel)
  cases this

/-- A connection that ended stays in the table. -/
theorem C81_violated : ¬ C81_statement := by
  intro h
  exact h [.listen true, .connect, .loop, .connEnd 0] 0 [0] (by decide +kernel) (by decide +kernel)
    (by decide)

/-! ## What holds -/

/-- `rem i`: the acceptor took connection `i` out of the table. -/
structure SInv (rem : Nat → Prop) (s : Srv) : Prop where
  fresh : s.lis = .none → (s.loop = .idle ∨ s.loop = .returned false) ∧ s.conns = []
  done : s.done = true → s.lis = .closed ∨ s.lis = .none ∧ s.loop = .returned false
  undone : s.done = false → s.lis ≠ .closed ∧ s.m.isSome = true
  table : ∀ (i : Nat) (c : TcpServer.Conn), s.conns[i]? = some c → c.opened = true → c.fate = .served →
    (∃ l, s.m = some l ∧ i ∈ l) ∨ rem i
  pending : ∀ (i : Nat) (c : TcpServer.Conn), s.conns[i]? = some c → c.fate = .pending → s.loop = .got i
  got : ∀ i, s.loop = .got i → ∃ c, s.conns[i]? = some c ∧ c.fate = .pending
  refused : ∀ (i : Nat) (c : TcpServer.Conn), s.conns[i]? = some c → c.fate = .refused →
    s.done = true ∧ ∀ j, s.loop ≠ .got j
  single : ∀ (i j : Nat) (ci cj : TcpServer.Conn), s.conns[i]? = some ci → s.conns[j]? = some cj →
    ci.fate = .refused → cj.fate = .refused → i = j
  deferred : s.loop = .refusing → s.done = true
  open' : s.loop = .accepting ∨ s.loop = .deferred → s.lis ≠ .none
  idle : s.loop = .idle → s.lis = .none
  gone : s.lis = .closed → s.m = none

theorem closeConn_get (cs : List TcpServer.Conn) (i j : Nat) :
    (TcpServer.closeConn cs i)[j]? = cs[j]?.map (fun c => if i = j then { c with opened := false } else c) := by
  unfold TcpServer.closeConn
  rw [List.getElem?_modify]
  by_cases h : i = j <;> simp [h]

theorem closeConns_get (l : List Nat) : ∀ (cs : List TcpServer.Conn) (j : Nat),
    (l.foldl TcpServer.closeConn cs)[j]? =
      cs[j]?.map (fun c => if j ∈ l then { c with opened := false } else c) := by
  induction l with
  | nil => intro cs j; simp
  | cons a l ih =>
    intro cs j
    rw [List.foldl_cons, ih, closeConn_get]
    cases cs[j]? with
    | none => rfl
    | some c =>
      simp only [Option.map_some, List.mem_cons]
      congr 1
      by_cases h1 : a = j <;> by_cases h2 : j ∈ l <;> simp [h1, h2] <;> (intro h; exact absurd h.symm h1)

theorem setFate_get (cs : List TcpServer.Conn) (i j : Nat) (f : Fate) :
    (TcpServer.setFate cs i f)[j]? = cs[j]?.map (fun c => if i = j then { c with fate := f } else c) := by
  unfold TcpServer.setFate
  rw [List.getElem?_modify]
  by_cases h : i = j <;> simp [h]

/-- Closing keeps the invariant unless nothing was started. -/
theorem sinv_close {rem : Nat → Prop} {s : Srv} (h : SInv rem s)
    (hi : s.lis ≠ .none ∨ s.loop = .returned false) : SInv rem (TcpServer.close s) := by
  unfold TcpServer.close
  split
  · exact h
  · rename_i hd
    split
    · rename_i hl
      have hlr : s.loop = .returned false := by
        rcases hi with hi | hi
        · exact absurd hl hi
        · exact hi
      have hc := (h.fresh hl).2
      exact ⟨h.fresh, fun _ => .inr ⟨hl, hlr⟩, fun hf => by simp at hf, h.table, h.pending, h.got,
        fun i c hic _ => by simp [hc] at hic, h.single, fun hr => by simp [hlr] at hr, h.open', h.idle, h.gone⟩
    · rename_i hl
      have key : ∀ (i : Nat) (c : TcpServer.Conn), ((s.m.getD []).foldl TcpServer.closeConn s.conns)[i]? = some c →
          ∃ c', s.conns[i]? = some c' ∧ c.fate = c'.fate ∧
            (c.opened = true → c'.opened = true ∧ i ∉ s.m.getD []) := by
        intro i c hc
        rw [closeConns_get] at hc
        cases hg : s.conns[i]? with
        | none => simp [hg] at hc
        | some c' =>
          simp only [hg, Option.map_some, Option.some.injEq] at hc
          subst hc
          refine ⟨c', rfl, ?_, ?_⟩
          · split <;> rfl
          · split <;> simp_all
      constructor
      · intro hn; simp at hn
      · intro _; exact .inl rfl
      · intro hf; simp at hf
      · intro i c hc ho hs
        obtain ⟨c', hc', hf, hop⟩ := key i c hc
        obtain ⟨h1, h2⟩ := hop ho
        rcases h.table i c' hc' h1 (hf ▸ hs) with ⟨l, hl1, hl2⟩ | hr
        · simp [hl1] at h2; exact absurd hl2 h2
        · exact .inr hr
      · intro i c hc hp
        obtain ⟨c', hc', hf, -⟩ := key i c hc
        exact h.pending i c' hc' (hf ▸ hp)
      · intro i hg
        obtain ⟨c, hc, hp⟩ := h.got i hg
        refine ⟨if i ∈ s.m.getD [] then { c with opened := false } else c, ?_, ?_⟩
        · show ((s.m.getD []).foldl TcpServer.closeConn s.conns)[i]? = _
          rw [closeConns_get, hc]; rfl
        · split <;> exact hp
      · intro i c hc hp
        obtain ⟨c', hc', hf, -⟩ := key i c hc
        exact ⟨rfl, (h.refused i c' hc' (hf ▸ hp)).2⟩
      · intro i j ci cj hci hcj h1 h2
        obtain ⟨ci', hci', hfi, -⟩ := key i ci hci
        obtain ⟨cj', hcj', hfj, -⟩ := key j cj hcj
        exact h.single i j ci' cj' hci' hcj' (hfi ▸ h1) (hfj ▸ h2)
      · intro _; rfl
      · intro _ hc; cases hc
      · intro hx; exact absurd (h.idle hx) hl
      · intro _; rfl

/-- Moving the accept loop on. -/
theorem sinv_loop {rem : Nat → Prop} {s : Srv} (h : SInv rem s) (l : Loop) (hg : ∀ i, s.loop ≠ .got i)
    (hl : ∀ i, l ≠ .got i) (hr : l ≠ .refusing) (hi : l ≠ .idle) (hn : s.lis ≠ .none) : SInv rem { s with loop := l } :=
  ⟨fun hf => absurd hf hn, fun hd => (h.done hd).elim .inl (fun hx => absurd hx.1 hn), h.undone, h.table,
    fun i c hc hp => absurd (h.pending i c hc hp) (hg i), fun i hi => absurd hi (hl i),
    fun i c hc hp => ⟨(h.refused i c hc hp).1, hl⟩, h.single, fun hx => absurd hx hr, fun _ => hn,
    fun hx => absurd hx hi, h.gone⟩

theorem close_lis (s : Srv) (h : s.lis ≠ .none) : (TcpServer.close s).lis ≠ .none := by
  unfold TcpServer.close
  by_cases hd : s.done = true
  · rw [if_pos hd]; exact h
  · rw [if_neg hd]
    split
    · rename_i hn; exact absurd hn h
    · exact fun hc => by cases hc

theorem close_loop (s : Srv) : (TcpServer.close s).loop = s.loop := by
  unfold TcpServer.close
  split
  · rfl
  · split <;> rfl

theorem close_done (s : Srv) : (TcpServer.close s).done = true := by
  unfold TcpServer.close
  split
  · assumption
  · split <;> rfl

theorem got_lis {rem : Nat → Prop} {s : Srv} (h : SInv rem s) (i : Nat) (hl : s.loop = .got i) : s.lis ≠ .none := by
  intro hn
  rcases (h.fresh hn).1 with hx | hx <;> rw [hl] at hx <;> cases hx

theorem refusing_lis {rem : Nat → Prop} {s : Srv} (h : SInv rem s) (hl : s.loop = .refusing) : s.lis ≠ .none := by
  intro hn
  rcases (h.fresh hn).1 with hx | hx <;> rw [hl] at hx <;> cases hx

/-- The step after `Accept` returned a connection. -/
theorem sinv_got {rem : Nat → Prop} {s : Srv} (h : SInv rem s) (i : Nat) (hl : s.loop = .got i) :
    SInv rem (TcpServer.loopStep s) := by
  have hn := got_lis h i hl
  obtain ⟨c0, hc0, hp0⟩ := h.got i hl
  have key : ∀ (f : Fate) (j : Nat) (c : TcpServer.Conn), (TcpServer.setFate s.conns i f)[j]? = some c →
      (j = i ∧ c = { c0 with fate := f }) ∨ (j ≠ i ∧ s.conns[j]? = some c) := by
    intro f j c hc
    rw [setFate_get] at hc
    by_cases hij : i = j
    · subst hij
      simp [hc0] at hc
      exact .inl ⟨rfl, hc.symm⟩
    · refine .inr ⟨fun h => hij h.symm, ?_⟩
      cases hg : s.conns[j]? with
      | none => simp [hg] at hc
      | some c' => simp [hg, hij] at hc; rw [hc]
  have hnr : ∀ (j : Nat) (c : TcpServer.Conn), s.conns[j]? = some c → c.fate ≠ .refused := fun j c hc hr =>
    (h.refused j c hc hr).2 i hl
  unfold TcpServer.loopStep
  rw [hl]
  dsimp only
  unfold TcpServer.put
  by_cases hd : s.done = true
  · rw [if_pos hd]
    simp only [Bool.false_eq_true, if_false]
    constructor
    · intro hx; exact absurd hx hn
    · intro _; exact (h.done hd).elim .inl (fun hx => absurd hx.1 hn)
    · intro hf; rw [hd] at hf; cases hf
    · intro j c hc ho hs
      rcases key .refused j c hc with ⟨rfl, rfl⟩ | ⟨-, hc'⟩
      · cases hs
      · exact h.table j c hc' ho hs
    · intro j c hc hp
      rcases key .refused j c hc with ⟨rfl, rfl⟩ | ⟨hj, hc'⟩
      · cases hp
      · have := h.pending j c hc' hp
        rw [hl] at this; cases this; exact absurd rfl hj
    · intro j hj; cases hj
    · intro j c hc hr
      refine ⟨hd, fun k hk => by cases hk⟩
    · intro j k cj ck hcj hck h1 h2
      rcases key .refused j cj hcj with ⟨rfl, rfl⟩ | ⟨hj, hc'⟩
      · rcases key .refused k ck hck with ⟨rfl, rfl⟩ | ⟨hk, hc''⟩
        · rfl
        · exact absurd h2 (hnr k ck hc'')
      · exact absurd h1 (hnr j cj hc')
    · intro _; exact hd
    · intro _; exact hn
    · intro hx; cases hx
    · exact h.gone
  · rw [if_neg hd]
    have hu := h.undone (by simpa using hd)
    obtain ⟨m, hm⟩ := Option.isSome_iff_exists.mp hu.2
    rw [hm]
    simp only [if_true]
    constructor
    · intro hx; exact absurd hx hn
    · intro hx; exact absurd hx hd
    · intro _; exact ⟨hu.1, rfl⟩
    · intro j c hc ho hs
      rcases key .served j c hc with ⟨rfl, rfl⟩ | ⟨-, hc'⟩
      · exact .inl ⟨_, rfl, List.mem_cons_self⟩
      · rcases h.table j c hc' ho hs with ⟨l, h1, h2⟩ | hr
        · rw [hm] at h1; cases h1
          exact .inl ⟨_, rfl, List.mem_cons_of_mem _ h2⟩
        · exact .inr hr
    · intro j c hc hp
      rcases key .served j c hc with ⟨rfl, rfl⟩ | ⟨hj, hc'⟩
      · cases hp
      · have := h.pending j c hc' hp
        rw [hl] at this; cases this; exact absurd rfl hj
    · intro j hj; cases hj
    · intro j c hc hr
      rcases key .served j c hc with ⟨rfl, rfl⟩ | ⟨hj, hc'⟩
      · cases hr
      · exact absurd hr (hnr j c hc')
    · intro j k cj ck hcj hck h1 h2
      rcases key .served j cj hcj with ⟨rfl, rfl⟩ | ⟨hj, hc'⟩
      · cases h1
      · exact absurd h1 (hnr j cj hc')
    · intro hx; cases hx
    · intro _; exact hn
    · intro hx; cases hx
    · intro hx; exact absurd hx hu.1

theorem sinv_step {rem : Nat → Prop} {s : Srv} (h : SInv rem s) (e : Ev)
    (he : e = .close → s.lis ≠ .none ∨ s.loop = .returned false) (hr : ∀ i, e = .remove i → rem i) :
    SInv rem (TcpServer.step s e) := by
  cases e with
  | listen ok =>
    simp only [TcpServer.step]
    split
    · rename_i hl
      have hn := h.idle hl
      have hc := (h.fresh hn).2
      have hd : s.done = false := by
        cases hd : s.done with
        | false => rfl
        | true =>
          rcases h.done hd with hx | ⟨-, hx⟩
          · rw [hn] at hx; cases hx
          · rw [hl] at hx; cases hx
      have hu := h.undone hd
      split
      · refine ⟨fun hx => (by cases hx), fun hx => ?_, fun _ => ⟨fun hx => (by cases hx), hu.2⟩, ?_, ?_, fun i hx => (by cases hx), ?_,
          ?_, fun hx => (by cases hx), fun _ hx => (by cases hx), fun hx => (by cases hx),
          fun hx => (by cases hx)⟩
        · rw [hd] at hx; cases hx
        all_goals simp [hc]
      · refine ⟨fun _ => ⟨.inr rfl, hc⟩, fun hx => ?_, fun _ => hu, ?_, ?_, fun i hx => (by cases hx), ?_,
          ?_, fun hx => (by cases hx), fun hx => (by simp at hx), fun hx => (by cases hx),
          fun hx => absurd hx hu.1⟩
        · rw [hd] at hx; cases hx
        all_goals simp [hc]
    · exact h
  | connect =>
    simp only [TcpServer.step]
    split
    · rename_i hl
      obtain ⟨hl, ho⟩ := hl
      have hd : s.done = false := by
        cases hd : s.done with
        | false => rfl
        | true =>
          rcases h.done hd with hx | ⟨-, hx⟩
          · rw [ho] at hx; cases hx
          · rw [hl] at hx; cases hx
      have hserved : ∀ (i : Nat) (c : TcpServer.Conn), s.conns[i]? = some c → c.fate = .served := by
        intro i c hc
        cases hf : c.fate with
        | pending => have := h.pending i c hc hf; rw [hl] at this; cases this
        | served => rfl
        | refused => have := (h.refused i c hc hf).1; rw [hd] at this; cases this
      have key : ∀ (i : Nat) (c : TcpServer.Conn), (s.conns ++ [(⟨true, .pending⟩ : TcpServer.Conn)])[i]? = some c →
          s.conns[i]? = some c ∨ (i = s.conns.length ∧ c = ⟨true, .pending⟩) := by
        intro i c hc
        rw [List.getElem?_append] at hc
        split at hc
        · exact .inl hc
        · rename_i hi
          cases hk : i - s.conns.length with
          | zero => rw [hk] at hc; simp at hc; exact .inr ⟨by omega, hc.symm⟩
          | succ k => rw [hk] at hc; simp at hc
      constructor
      · intro hx; change s.lis = _ at hx; rw [ho] at hx; cases hx
      · intro hx; change s.done = _ at hx; rw [hd] at hx; cases hx
      · exact h.undone
      · intro i c hc h1 h2
        rcases key i c hc with hc' | ⟨-, rfl⟩
        · exact h.table i c hc' h1 h2
        · cases h2
      · intro i c hc hp
        rcases key i c hc with hc' | ⟨rfl, rfl⟩
        · rw [hserved i c hc'] at hp; cases hp
        · rfl
      · intro i hi
        cases hi
        exact ⟨⟨true, .pending⟩, by simp, rfl⟩
      · intro i c hc hp
        rcases key i c hc with hc' | ⟨rfl, rfl⟩
        · rw [hserved i c hc'] at hp; cases hp
        · cases hp
      · intro i j ci cj hci hcj h1 h2
        rcases key i ci hci with hc' | ⟨rfl, rfl⟩
        · rw [hserved i ci hc'] at h1; cases h1
        · cases h1
      · intro hx; cases hx
      · intro hx; simp at hx
      · intro hx; cases hx
      · exact h.gone
    · exact h
  | eof =>
    simp only [TcpServer.step]
    split
    · rename_i hl
      exact sinv_loop h _ (by simp [hl]) (by simp) (by simp) (by simp) (h.open' (.inl hl))
    · exact h
  | acceptErr => exact h
  | loop =>
    simp only [TcpServer.step]
    cases hl : s.loop with
    | idle => simpa [TcpServer.loopStep, hl] using h
    | accepting =>
      simp only [TcpServer.loopStep, hl]
      split
      · exact sinv_loop h _ (by simp [hl]) (by simp) (by simp) (by simp) (h.open' (.inl hl))
      · exact h
    | got i => exact sinv_got h i hl
    | refusing =>
      have hn := refusing_lis h hl
      simp only [TcpServer.loopStep, hl]
      exact sinv_loop (sinv_close h (.inl hn)) _ (by simp [close_loop, hl]) (by simp) (by simp) (by simp)
        (close_lis s hn)
    | deferred =>
      have hn := h.open' (.inr hl)
      simp only [TcpServer.loopStep, hl]
      exact sinv_loop (sinv_close h (.inl hn)) _ (by simp [close_loop, hl]) (by simp) (by simp) (by simp)
        (close_lis s hn)
    | returned ok => simpa [TcpServer.loopStep, hl] using h
  | close => exact sinv_close h (he rfl)
  | cancel => exact ⟨h.1, h.2, h.3, h.4, h.5, h.6, h.7, h.8, h.9, h.10, h.11, h.12⟩
  | daemon =>
    simp only [TcpServer.step]
    split
    · rename_i hx; exact sinv_close h (.inl hx.2)
    · exact h
  | connEnd i =>
    simp only [TcpServer.step]
    split
    · rename_i c hc
      split
      · have key : ∀ (j : Nat) (d : TcpServer.Conn), (TcpServer.closeConn s.conns i)[j]? = some d →
            ∃ d', s.conns[j]? = some d' ∧ d.fate = d'.fate ∧ (d.opened = true → d'.opened = true) := by
          intro j d hd
          rw [closeConn_get] at hd
          cases hg : s.conns[j]? with
          | none => simp [hg] at hd
          | some d' =>
            simp only [hg, Option.map_some, Option.some.injEq] at hd
            subst hd
            refine ⟨d', rfl, ?_, ?_⟩ <;> split <;> simp
        have keyr : ∀ (j : Nat) (d' : TcpServer.Conn), s.conns[j]? = some d' →
            ∃ d, (TcpServer.closeConn s.conns i)[j]? = some d ∧ d.fate = d'.fate := by
          intro j d' hd
          refine ⟨if i = j then { d' with opened := false } else d', ?_, ?_⟩
          · rw [closeConn_get, hd]; rfl
          · split <;> rfl
        constructor
        · intro hx
          have := (h.fresh hx).2
          rw [this] at hc; simp at hc
        · exact h.done
        · exact h.undone
        · intro j d hd h1 h2
          obtain ⟨d', hd', hf, ho⟩ := key j d hd
          exact h.table j d' hd' (ho h1) (hf ▸ h2)
        · intro j d hd hp
          obtain ⟨d', hd', hf, ho⟩ := key j d hd
          exact h.pending j d' hd' (hf ▸ hp)
        · intro j hj
          obtain ⟨d', hd', hp⟩ := h.got j hj
          obtain ⟨d, hd, hf⟩ := keyr j d' hd'
          exact ⟨d, hd, hf.trans hp⟩
        · intro j d hd hp
          obtain ⟨d', hd', hf, ho⟩ := key j d hd
          exact h.refused j d' hd' (hf ▸ hp)
        · intro j k cj ck hcj hck h1 h2
          obtain ⟨d', hd', hf, -⟩ := key j cj hcj
          obtain ⟨e', he', hf', -⟩ := key k ck hck
          exact h.single j k d' e' hd' he' (hf ▸ h1) (hf' ▸ h2)
        · exact h.deferred
        · exact h.open'
        · exact h.idle
        · exact h.gone
      · exact h
    · exact h
  | remove i =>
    refine ⟨h.1, h.2, fun hx => ⟨(h.undone hx).1, ?_⟩, ?_, h.5, h.6, h.7, h.8, h.9, h.10, h.11, fun hx => ?_⟩
    · have := (h.undone hx).2
      simpa [TcpServer.step] using this
    · intro j c hc h1 h2
      rcases h.table j c hc h1 h2 with ⟨l, hl, hm⟩ | hx
      · by_cases hij : j = i
        · subst hij; exact .inr (hr j rfl)
        · refine .inl ⟨l.filter (· ≠ i), by simp [TcpServer.step, hl], ?_⟩
          simp [hm, hij]
      · exact .inr hx
    · simp [TcpServer.step, h.gone hx]

theorem sinv_init (rem : Nat → Prop) : SInv rem .init := by
  constructor <;> simp [TcpServer.Srv.init]

theorem srv_done_step (s : Srv) (e : Ev) (h : s.done = true) : (TcpServer.step s e).done = true := by
  have hc := close_done s
  cases e <;> simp only [TcpServer.step, TcpServer.loopStep] <;> (repeat' split) <;>
    simp_all [TcpServer.put]

theorem srv_loop_step (s : Srv) (e : Ev) (h : s.loop ≠ .idle) : (TcpServer.step s e).loop ≠ .idle := by
  have hc := close_loop s
  cases e <;> simp only [TcpServer.step, TcpServer.loopStep] <;> (repeat' split) <;>
    simp_all [TcpServer.put]

theorem srv_runFrom_append (s : Srv) (a b : List Ev) :
    TcpServer.runFrom s (a ++ b) = TcpServer.runFrom (TcpServer.runFrom s a) b := by
  induction a generalizing s with
  | nil => rfl
  | cons e a ih => exact ih _

theorem sinv_run {rem : Nat → Prop} (es : List Ev) : ∀ s : Srv, SInv rem s →
    (.close ∈ es → s.loop ≠ .idle) → (∀ i, .remove i ∈ es → rem i) → SInv rem (TcpServer.runFrom s es) := by
  induction es with
  | nil => intro s h _ _; exact h
  | cons e es ih =>
    intro s h hc hr
    refine ih _ (sinv_step h e ?_ ?_) ?_ ?_
    · rintro rfl
      by_cases hn : s.lis = .none
      · rcases (h.fresh hn).1 with hx | hx
        · exact absurd hx (hc List.mem_cons_self)
        · exact .inr hx
      · exact .inl hn
    · rintro i rfl; exact hr i List.mem_cons_self
    · intro hx; exact srv_loop_step s e (hc (List.mem_cons_of_mem _ hx))
    · intro i hi; exact hr i (List.mem_cons_of_mem _ hi)

theorem srv_done_run (es : List Ev) : ∀ s : Srv, s.done = true ∨ .close ∈ es →
    (TcpServer.runFrom s es).done = true := by
  induction es with
  | nil => intro s h; simp at h; exact h
  | cons e es ih =>
    intro s h
    refine ih _ ?_
    rcases h with h | h
    · exact .inl (srv_done_step s e h)
    · rcases List.mem_cons.mp h with rfl | h
      · exact .inl (close_done s)
      · exact .inr h

theorem srv_loop_run (es : List Ev) : ∀ s : Srv, s.loop ≠ .idle → (TcpServer.runFrom s es).loop ≠ .idle := by
  induction es with
  | nil => intro s h; exact h
  | cons e es ih => intro s h; exact ih _ (srv_loop_step s e h)

/-- A closed server whose listener is closed leaves the accept loop. -/
theorem srv_listen_returns (s : Srv) (hd : s.done = true) (hl : s.lis = .closed) (hi : s.loop ≠ .idle) :
    ∃ ok, (TcpServer.runFrom s [.loop, .loop, .loop, .loop]).loop = .returned ok := by
  obtain ⟨done, lis, m, conns, loop, ctx⟩ := s
  dsimp only at hd hl hi
  subst hd hl
  cases loop with
  | idle => exact absurd rfl hi
  | accepting => exact ⟨true, by simp [TcpServer.runFrom, TcpServer.step, TcpServer.loopStep, TcpServer.close]⟩
  | got i => exact ⟨true, by simp [TcpServer.runFrom, TcpServer.step, TcpServer.loopStep, TcpServer.close, TcpServer.put]⟩
  | refusing => exact ⟨true, by simp [TcpServer.runFrom, TcpServer.step, TcpServer.loopStep, TcpServer.close]⟩
  | deferred => exact ⟨true, by simp [TcpServer.runFrom, TcpServer.step, TcpServer.loopStep, TcpServer.close]⟩
  | returned ok => exact ⟨ok, by simp [TcpServer.runFrom, TcpServer.step, TcpServer.loopStep]⟩

/-- C80, what holds if `Close` is called after `Listen` opened its listener, whatever happens before, in
between and afterwards: the listener is closed, `Listen` returns, every served connection is closed that
the acceptor has not taken out of the table itself, and at most one connection was not served.
Missing: that connection stays open (`C80_race_violated`), and nothing at all is closed if `Close` comes
first (`C80_close_first_partial`). -/
theorem C80_partial (es₁ es₂ : List Ev) (h₁ : .close ∉ es₁) (h₂ : .close ∈ es₂) (s : Srv)
    (hs : s = TcpServer.run (es₁ ++ .listen true :: es₂)) :
    s.lis ≠ .opened ∧
    (∃ ok, (TcpServer.runFrom s [.loop, .loop, .loop, .loop]).loop = .returned ok) ∧
    (∀ (i : Nat) (c : TcpServer.Conn), s.conns[i]? = some c → c.fate = .served →
      .remove i ∉ es₁ ++ es₂ → c.opened = false) ∧
    (∀ (i j : Nat) (ci cj : TcpServer.Conn), s.conns[i]? = some ci → s.conns[j]? = some cj →
      ci.fate ≠ .served → cj.fate ≠ .served → i = j) := by
  let rem : Nat → Prop := fun i => .remove i ∈ es₁ ++ es₂
  have hi1 : SInv rem (TcpServer.run es₁) := sinv_run es₁ _ (sinv_init rem) (fun hx => absurd hx h₁)
    (fun i hi => List.mem_append_left _ hi)
  have hi2 : SInv rem (TcpServer.step (TcpServer.run es₁) (.listen true)) :=
    sinv_step hi1 _ (fun hx => by cases hx) (fun i hx => by cases hx)
  have hlp : (TcpServer.step (TcpServer.run es₁) (.listen true)).loop ≠ .idle := by
    simp only [TcpServer.step]
    split
    · intro hx; simp at hx
    · assumption
  have hs' : s = TcpServer.runFrom (TcpServer.step (TcpServer.run es₁) (.listen true)) es₂ := by
    rw [hs, TcpServer.run, srv_runFrom_append]; rfl
  have hi3 : SInv rem s := by
    rw [hs']
    exact sinv_run es₂ _ hi2 (fun _ => hlp) (fun i hi => List.mem_append_right _ hi)
  have hd : s.done = true := by rw [hs']; exact srv_done_run es₂ _ (.inr h₂)
  have hlp' : s.loop ≠ .idle := by rw [hs']; exact srv_loop_run es₂ _ hlp
  refine ⟨?_, ?_, ?_, ?_⟩
  · rcases hi3.done hd with h | ⟨h, -⟩ <;> rw [h] <;> simp
  · rcases hi3.done hd with h | ⟨h, hr⟩
    · exact srv_listen_returns s hd h hlp'
    · exact ⟨false, by simp [TcpServer.runFrom, TcpServer.step, TcpServer.loopStep, hr]⟩
  · intro i c hc hf hr
    rcases (Bool.eq_false_or_eq_true c.opened).symm with ho | ho
    · exact ho
    · exfalso
      rcases hi3.table i c hc ho hf with ⟨l, hl, -⟩ | hx
      · rcases hi3.done hd with h | ⟨h, -⟩
        · rw [hi3.gone h] at hl; cases hl
        · rw [(hi3.fresh h).2] at hc; simp at hc
      · exact hr hx
  · intro i j ci cj hci hcj h1 h2
    have ho : ∀ (k : Nat) (c : TcpServer.Conn), s.conns[k]? = some c → c.fate ≠ .served →
        s.loop = .got k ∨ c.fate = .refused := by
      intro k c hc hf
      cases hk : c.fate with
      | pending => exact .inl (hi3.pending k c hc hk)
      | served => exact absurd hk hf
      | refused => exact .inr rfl
    rcases ho i ci hci h1 with hi | hi <;> rcases ho j cj hcj h2 with hj | hj
    · rw [hi] at hj; cases hj; rfl
    · exact absurd hi ((hi3.refused j cj hcj hj).2 i)
    · exact absurd hj ((hi3.refused i ci hci hi).2 j)
    · exact hi3.single i j ci cj hci hcj hi hj

/-- The hypotheses of `C80_partial` are met by a server with one served and one refused connection. -/
example : (.close : Ev) ∉ ([.cancel] : List Ev) ∧ (.close : Ev) ∈ ([.connect, .loop, .connect, .close] : List Ev) ∧
    TcpServer.run ([.cancel] ++ .listen true :: [.connect, .loop, .connect, .close]) =
      ⟨true, .closed, none, [⟨false, .served⟩, ⟨true, .pending⟩], .got 1, true⟩ := by decide +kernel

/-- A server on which `Close` was called before `Listen`. -/
structure ClosedFirst (s : Srv) : Prop where
  done : s.done = true
  lis : s.lis = .opened
  conns : ∀ c ∈ s.conns, c.opened = true ∧ c.fate ≠ .served

theorem closedFirst_step (s : Srv) (e : Ev) (h : ClosedFirst s) (hl : s.loop ≠ .idle) :
    ClosedFirst (TcpServer.step s e) := by
  have hcl : TcpServer.close s = s := by simp [TcpServer.close, h.done]
  cases e with
  | listen ok => simp [TcpServer.step, hl, h]
  | connect =>
    simp only [TcpServer.step]
    split
    · refine ⟨h.done, h.lis, fun c hc => ?_⟩
      rcases List.mem_append.mp hc with hc | hc
      · exact h.conns c hc
      · simp at hc; subst hc; simp
    · exact h
  | eof =>
    simp only [TcpServer.step]
    split
    · exact ⟨h.done, h.lis, h.conns⟩
    · exact h
  | acceptErr => exact h
  | loop =>
    simp only [TcpServer.step, TcpServer.loopStep]
    cases hp : s.loop with
    | idle => exact h
    | accepting => simp [h.lis, h]
    | got i =>
      simp only [TcpServer.put, h.done, if_true, Bool.false_eq_true, if_false]
      refine ⟨rfl, h.lis, fun c hc => ?_⟩
      obtain ⟨j, hj⟩ := List.getElem?_of_mem hc
      dsimp only at hj
      rw [setFate_get] at hj
      cases hg : s.conns[j]? with
      | none => simp [hg] at hj
      | some c' =>
        have := h.conns c' (List.mem_of_getElem? hg)
        simp only [hg, Option.map_some, Option.some.injEq] at hj
        subst hj
        split
        · exact ⟨this.1, by simp⟩
        · exact this
    | refusing => rw [hcl]; exact ⟨h.done, h.lis, h.conns⟩
    | deferred => rw [hcl]; exact ⟨h.done, h.lis, h.conns⟩
    | returned ok => exact h
  | close => simp only [TcpServer.step, hcl]; exact h
  | cancel => exact ⟨h.done, h.lis, h.conns⟩
  | daemon =>
    simp only [TcpServer.step, hcl]
    split <;> exact h
  | connEnd i =>
    simp only [TcpServer.step]
    split
    · rename_i c hc
      rw [if_neg (h.conns c (List.mem_of_getElem? hc)).2]
      exact h
    · exact h
  | remove i => exact ⟨h.done, h.lis, h.conns⟩

/-- C80, how it fails: if `Close` is called before `Listen`, `Listen` opens its listener all the same, and
whatever happens afterwards, `Close` included, the listener stays open, no connection is served and none is
closed. -/
theorem C80_close_first_partial (es₁ es₂ : List Ev) (h₁ : ∀ ok, .listen ok ∉ es₁) (h₂ : .close ∈ es₁) (s : Srv)
    (hs : s = TcpServer.run (es₁ ++ .listen true :: es₂)) :
    s.lis = .opened ∧ ∀ c ∈ s.conns, c.opened = true ∧ c.fate ≠ .served := by
  have hpre : ∀ (es : List Ev) (t : Srv), (∀ ok, .listen ok ∉ es) → t.loop = .idle → t.lis = .none →
      t.conns = [] → (TcpServer.runFrom t es).loop = .idle ∧ (TcpServer.runFrom t es).lis = .none ∧
        (TcpServer.runFrom t es).conns = [] := by
    intro es
    induction es with
    | nil => intro t _ h1 h2 h3; exact ⟨h1, h2, h3⟩
    | cons e es ih =>
      intro t hn h1 h2 h3
      have hn' : ∀ ok, .listen ok ∉ es := fun ok hx => hn ok (List.mem_cons_of_mem _ hx)
      have hne : ∀ ok, e ≠ .listen ok := fun ok hx => hn ok (hx ▸ List.mem_cons_self)
      have key : (TcpServer.step t e).loop = .idle ∧ (TcpServer.step t e).lis = .none ∧
          (TcpServer.step t e).conns = [] := by
        cases e with
        | listen ok => exact absurd rfl (hne ok)
        | close =>
          simp only [TcpServer.step, TcpServer.close, if_pos h2]
          split
          · exact ⟨h1, h2, h3⟩
          · exact ⟨h1, h2, h3⟩
        | connEnd i => simp [TcpServer.step, h1, h2, h3]
        | _ => simp [TcpServer.step, TcpServer.loopStep, h1, h2, h3]
      exact ih _ hn' key.1 key.2.1 key.2.2
  obtain ⟨p1, p2, p3⟩ := hpre es₁ .init h₁ rfl rfl rfl
  have hd : (TcpServer.run es₁).done = true := srv_done_run es₁ _ (.inr h₂)
  have hstep : TcpServer.step (TcpServer.run es₁) (.listen true) =
      { TcpServer.run es₁ with lis := .opened, loop := .accepting } := by
    simp only [TcpServer.step, TcpServer.run, p1, if_true]
  have hcf : ClosedFirst (TcpServer.step (TcpServer.run es₁) (.listen true)) := by
    rw [hstep]
    refine ⟨hd, rfl, fun c hc => ?_⟩
    simp only [TcpServer.run, p3] at hc
    cases hc
  have hall : ∀ (es : List Ev) (t : Srv), ClosedFirst t → t.loop ≠ .idle → ClosedFirst (TcpServer.runFrom t es) := by
    intro es
    induction es with
    | nil => intro t h _; exact h
    | cons e es ih => intro t h hl; exact ih _ (closedFirst_step t e h hl) (srv_loop_step t e hl)
  have hs' : s = TcpServer.runFrom (TcpServer.step (TcpServer.run es₁) (.listen true)) es₂ := by
    rw [hs, TcpServer.run, srv_runFrom_append]; rfl
  have := hall es₂ _ hcf (by rw [hstep]; simp)
  rw [← hs'] at this
  exact ⟨this.lis, this.conns⟩

/-- `Close` first, then `Listen` and two connections: the first is refused but not closed, the second is next. -/
example : (∀ ok, (.listen ok : Ev) ∉ [Ev.connect, .close]) ∧ (.close : Ev) ∈ [Ev.connect, .close] ∧
    TcpServer.run ([.connect, .close] ++ .listen true :: [.connect, .loop, .loop, .connect, .close]) =
      ⟨true, .opened, some [], [⟨true, .refused⟩, ⟨true, .pending⟩], .got 1, false⟩ := by
  refine ⟨fun ok => by simp, by decide, by decide +kernel⟩

/-- Closing twice is the same as closing once. -/
theorem C80_idempotent_partial (s : Srv) : TcpServer.close (TcpServer.close s) = TcpServer.close s := by
  have h := close_done s
  generalize TcpServer.close s = t at h ⊢
  simp [TcpServer.close, h]

/-! ## C81 -/

/-- The table before `Close`: the served connections, whether they have ended or not. -/
structure SrvTab (s : Srv) : Prop where
  lt : ∀ i, s.loop = .got i → ∃ c, s.conns[i]? = some c ∧ c.fate = .pending
  tab : ∀ m, s.m = some m → ∀ i, i ∈ m ↔ ∃ c, s.conns[i]? = some c ∧ c.fate = .served

theorem tab_conns {s : Srv} (h : SrvTab s) (cs : List TcpServer.Conn)
    (hc : ∀ (i : Nat) (f : Fate), (∃ c : TcpServer.Conn, cs[i]? = some c ∧ c.fate = f) ↔
      ∃ c : TcpServer.Conn, s.conns[i]? = some c ∧ c.fate = f) :
    SrvTab { s with conns := cs } :=
  ⟨fun i hi => (hc i _).mpr (h.lt i hi), fun m hm i => (h.tab m hm i).trans (hc i _).symm⟩

theorem tab_close {s : Srv} (h : SrvTab s) : SrvTab (TcpServer.close s) := by
  unfold TcpServer.close
  split
  · exact h
  · split
    · exact ⟨h.lt, h.tab⟩
    · refine ⟨fun i hi => ?_, fun m hm => by cases hm⟩
      obtain ⟨c, hc, hp⟩ := h.lt i hi
      refine ⟨if i ∈ s.m.getD [] then { c with opened := false } else c, ?_, ?_⟩
      · show ((s.m.getD []).foldl TcpServer.closeConn s.conns)[i]? = _
        rw [closeConns_get, hc]; rfl
      · split <;> exact hp

theorem srvtab_step {s : Srv} (h : SrvTab s) (e : Ev) (hr : ∀ i, e ≠ .remove i) : SrvTab (TcpServer.step s e) := by
  cases e with
  | listen ok =>
    simp only [TcpServer.step]
    split
    · split
      · exact ⟨fun i hi => (by cases hi), h.tab⟩
      · exact ⟨fun i hi => (by cases hi), h.tab⟩
    · exact h
  | connect =>
    simp only [TcpServer.step]
    split
    · refine ⟨fun i hi => ?_, fun m hm i => ?_⟩
      · cases hi; exact ⟨⟨true, .pending⟩, by simp, rfl⟩
      · refine (h.tab m hm i).trans ⟨?_, ?_⟩
        · rintro ⟨c, hc, hf⟩
          have := (List.getElem?_eq_some_iff.mp hc).1
          exact ⟨c, by dsimp only; rw [List.getElem?_append_left this]; exact hc, hf⟩
        · rintro ⟨c, hc, hf⟩
          dsimp only at hc
          rw [List.getElem?_append] at hc
          split at hc
          · exact ⟨c, hc, hf⟩
          · cases hk : i - s.conns.length with
            | zero => rw [hk] at hc; simp at hc; subst hc; cases hf
            | succ k => rw [hk] at hc; simp at hc
    · exact h
  | eof =>
    simp only [TcpServer.step]
    split
    · exact ⟨fun i hi => (by cases hi), h.tab⟩
    · exact h
  | acceptErr => exact h
  | loop =>
    simp only [TcpServer.step, TcpServer.loopStep]
    cases hp : s.loop with
    | idle => exact h
    | accepting =>
      dsimp only
      split
      · exact ⟨fun i hi => (by cases hi), h.tab⟩
      · exact h
    | got i =>
      obtain ⟨c0, hc0, hp0⟩ := h.lt i hp
      have key : ∀ (f : Fate) (j : Nat), j ≠ i → ((∃ c, (TcpServer.setFate s.conns i f)[j]? = some c ∧
          c.fate = .served) ↔ ∃ c, s.conns[j]? = some c ∧ c.fate = .served) := by
        intro f j hj
        rw [setFate_get]
        have hij : i ≠ j := fun h => hj h.symm
        cases s.conns[j]? <;> simp [hij]
      have keyi : ∀ f : Fate, (TcpServer.setFate s.conns i f)[i]? = some { c0 with fate := f } := by
        intro f; rw [setFate_get, hc0]; simp
      have hno : ∀ m, s.m = some m → i ∉ m := by
        intro m hm hx
        obtain ⟨c, hc, hf⟩ := (h.tab m hm i).mp hx
        rw [hc0] at hc; cases hc; rw [hp0] at hf; cases hf
      dsimp only
      split
      · rename_i hput
        refine ⟨fun j hj => (by cases hj), fun m hm j => ?_⟩
        unfold TcpServer.put at hput hm
        split at hput
        · cases hput
        · rename_i hd
          rw [if_neg hd] at hm
          cases hsm : s.m with
          | none => rw [hsm] at hput; cases hput
          | some m' =>
            rw [hsm] at hm
            simp only [Option.some.injEq] at hm
            subst hm
            dsimp only
            by_cases hj : j = i
            · subst hj
              simp [keyi]
            · rw [key _ j hj, ← h.tab m' hsm j]
              simp [hj]
      · rename_i hput
        refine ⟨fun j hj => (by cases hj), fun m hm j => ?_⟩
        unfold TcpServer.put at hput hm
        split at hput
        · rename_i hd
          rw [if_pos hd] at hm
          dsimp only at hm ⊢
          by_cases hj : j = i
          · subst hj
            simp [keyi, hno m hm]
          · rw [key _ j hj]; exact h.tab m hm j
        · rename_i hd
          rw [if_neg hd] at hm
          cases hsm : s.m with
          | none => rw [hsm] at hm; simp [hsm] at hm
          | some m' => rw [hsm] at hput; simp at hput
    | refusing => exact ⟨fun i hi => (by cases hi), (tab_close h).tab⟩
    | deferred => exact ⟨fun i hi => (by cases hi), (tab_close h).tab⟩
    | returned ok => exact h
  | close => exact tab_close h
  | cancel => exact ⟨h.lt, h.tab⟩
  | daemon =>
    simp only [TcpServer.step]
    split
    · exact tab_close h
    · exact h
  | connEnd i =>
    simp only [TcpServer.step]
    split
    · split
      · refine tab_conns h _ (fun j f => ?_)
        rw [closeConn_get]
        cases s.conns[j]? with
        | none => simp
        | some c => by_cases hij : i = j <;> simp [hij]
      · exact h
    · exact h
  | remove i => exact absurd rfl (hr i)

/-- C81, what holds: unless the acceptor itself calls `onClose`, the table of an open server consists of
every connection ever served. Missing: connections that have ended are not taken out, and the acceptor
cannot do it, for it is not told which transport its connection has. -/
theorem C81_partial (es : List Ev) (hr : ∀ i, .remove i ∉ es) (m : List Nat)
    (hm : (TcpServer.run es).m = some m) (i : Nat) :
    i ∈ m ↔ ∃ c, (TcpServer.run es).conns[i]? = some c ∧ c.fate = .served := by
  have hall : ∀ (es : List Ev) (t : Srv), (∀ i, .remove i ∉ es) → SrvTab t → SrvTab (TcpServer.runFrom t es) := by
    intro es
    induction es with
    | nil => intro t _ h; exact h
    | cons e es ih =>
      intro t hn h
      exact ih _ (fun i hi => hn i (List.mem_cons_of_mem _ hi))
        (srvtab_step h e (fun i hx => hn i (hx ▸ List.mem_cons_self)))
  exact (hall es .init hr ⟨fun i hi => (by cases hi), fun m hm i => by cases hm; simp [TcpServer.Srv.init]⟩).tab m hm i

/-- One connection that ended, one that is open, both in the table. -/
example : TcpServer.run [.listen true, .connect, .loop, .connect, .loop, .connEnd 0] =
    ⟨false, .opened, some [1, 0], [⟨false, .served⟩, ⟨true, .served⟩], .accepting, false⟩ := by decide +kernel

end Verif.Props
