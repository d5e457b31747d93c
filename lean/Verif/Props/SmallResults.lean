import Verif.Props.Block
import Verif.Props.Convert
/-
Further parts of C22, C25 (Get on Just and Error), C82 (conversions), C85 and C86 (Block).
-/
set_option autoImplicit false
namespace Verif.Props
open Verif
open Verif.Mono (Err Signal Transform)
open Verif.Convert (Res)

/-! ## C22, C25 -/

/-- C22: `Get` on `Just` and `Error` reports what their subscribers get. -/
theorem C22_just_get {T : Type} (v : T) (e : Err) :
    (∃ r, recorded [.success v] = some r ∧ Mono.justGet v = .ok r) ∧
    (∃ r, recorded [(.error e : Mono.Sig T)] = some r ∧ Mono.errorGet e = .ok r) :=
  ⟨⟨_, rfl, rfl⟩, ⟨_, rfl, rfl⟩⟩

/-- C25: `Get` on a mapped `Just` gives the transformed value or the transform's error, on a mapped
`Error` the error. -/
theorem C25_map_just_get {S D : Type} (tx : Transform S D) (zero v : S) (e : String) :
    (∀ d, tx v = .ok d → Mono.mapGet tx zero (Mono.justGet v) = .ok (some d, none)) ∧
    (∀ x, tx v = .error x → Mono.mapGet tx zero (Mono.justGet v) = .ok (none, some x)) ∧
    Mono.mapGet tx zero (Mono.errorGet (some e)) = .ok (none, some e) := by
  refine ⟨fun d h => ?_, fun x h => ?_, ?_⟩
  · simp [Mono.mapGet, Mono.justGet, Bind.bind, Go.bind, h]
  · simp [Mono.mapGet, Mono.justGet, Bind.bind, Go.bind, h]
  · simp [Mono.mapGet, Mono.errorGet, Bind.bind, Go.bind]

example : Mono.mapGet (fun n : Nat => if n < 5 then .error "small" else .ok (n + 1)) 0
    (Mono.justGet 3) = .ok (none, some "small") := by decide

/-! ## C82 -/

/-- C82 for `String`, `Bool` and `ByteArray`: value and error are passed on. -/
theorem C82_plain_partial {α : Type} (r : Res α) :
    (Convert.same r).val = r.val ∧ (Convert.same r).err = r.err := ⟨rfl, rfl⟩

/-- C82 in the other direction (`Format`, `TimeToStringPtr`): a text exactly if there is a value, and
then its text. -/
theorem C82_format_partial {α : Type} (fn : α → Bytes) (v : Option α) (t : Bytes) :
    (Convert.format fn v = some t ↔ ∃ x, v = some x ∧ fn x = t) ∧
    (Convert.timeToStringPtr fn v = some t ↔ ∃ x, v = some x ∧ fn x = t) := by
  cases v <;> simp [Convert.format, Convert.timeToStringPtr]

/-- C82 for `StringToTime`: an error of the decoder is passed on with the zero time, otherwise the text
is parsed. -/
theorem C82_text_time_partial {β : Type} (zero : β) (parseTime : Bytes → Res β) (r : Res Bytes) :
    (∀ e, r.err = some e → Convert.stringToTime zero parseTime r = ⟨zero, some e⟩) ∧
    (r.err = none → Convert.stringToTime zero parseTime r = parseTime r.val) := by
  obtain ⟨v, e⟩ := r
  cases e
  · exact ⟨fun e h => (by cases h), fun _ => rfl⟩
  · exact ⟨fun e h => (by cases h; rfl), fun h => (by cases h)⟩

/-- C82: whatever the bytes, decoding an optional value and parsing it gives the decoder's error if there
is one, nothing if the decoder finds nil, and otherwise what the parser makes of the value. -/
theorem C82_decode_parse_partial {α β : Type} (fn : α → Res β) (r : Msgpack.Rd α) (d : Msgpack.DR) :
    (∀ e d', Msgpack.readNillable r d = .fail e d' →
      ∃ x, Convert.results (Msgpack.readNillable r d) = some x ∧
        Convert.nillableParse fn x = ⟨none, some e⟩) ∧
    (∀ d', Msgpack.readNillable r d = .ok none d' →
      ∃ x, Convert.results (Msgpack.readNillable r d) = some x ∧
        Convert.nillableParse fn x = ⟨none, none⟩) ∧
    (∀ v d', Msgpack.readNillable r d = .ok (some v) d' →
      ∃ x, Convert.results (Msgpack.readNillable r d) = some x ∧
        (Convert.nillableParse fn x).err = (fn v).err ∧
        ((fn v).err = none → (Convert.nillableParse fn x).val = some (fn v).val)) := by
  refine ⟨fun e d' h => ?_, fun d' h => ?_, fun v d' h => ?_⟩
  · rw [h]; exact ⟨_, rfl, rfl⟩
  · rw [h]; exact ⟨_, rfl, rfl⟩
  · rw [h]
    refine ⟨_, rfl, ?_⟩
    simp only [Convert.nillableParse]
    cases hf : (fn v).err <;> simp

/-- A text where a boolean is expected. -/
example : ∃ e d', Msgpack.readNillable Msgpack.readBool (.new [0xa1, 0x61]) = .fail e d' :=
  ⟨_, _, rfl⟩

/-! ## C85 -/

theorem fresh_signal {T : Type} (inst : Mono.Installed) (x : Mono.Sig T) (hx : isResult x) :
    ∃ s, (Mono.signal ⟨[⟨false, none, none, .complete, inst⟩], []⟩ 0 x [] []).1 = ⟨[s], []⟩ ∧
      s.closed = true ∧ blockOutcome [x] = .returned (s.value, s.err) := by
  obtain ⟨a, b, c⟩ := inst
  cases x with
  | success v =>
    cases a <;> cases c <;>
      simp [Mono.signal, Mono.doFinally, Mono.notifyAll, blockOutcome]
  | error e =>
    cases b <;> cases c <;>
      simp [Mono.signal, Mono.doFinally, Mono.notifyAll, blockOutcome]
  | cancel => exact absurd hx (by simp [isResult])

theorem proc_ended {T : Type} (l : List (Mono.Sig T)) (hl : ∀ x ∈ l, isResult x) :
    ∀ (p : Mono.Proc T) (s : Mono.Sub T), p.mono = ⟨[s], []⟩ → p.sink = some 0 →
      s.closed = true → (p.run (l.map sigOfPOp)).1.mono = ⟨[s], []⟩ := by
  induction l with
  | nil => intro p s h _ _; exact h
  | cons x l ih =>
    intro p s hm hs hc
    have hx := hl x (by simp)
    have hsig : Mono.signal p.mono 0 x [] [] = (p.mono, []) := by
      rw [hm]; exact signal_closed _ _ _ _ _ (Or.inr ⟨s, rfl, hc⟩)
    have hstep : p.step (sigOfPOp x) = (p, []) := by
      cases x with
      | success v => simp [sigOfPOp, Mono.Proc.step, hs, hsig]; rw [← hs]
      | error e => simp [sigOfPOp, Mono.Proc.step, hs, hsig]; rw [← hs]
      | cancel => exact absurd hx (by simp [isResult])
    simp only [List.map_cons, Mono.Proc.run, hstep]
    exact ih (fun y hy => hl y (by simp [hy])) p s hm hs hc

theorem proc_first {T : Type} (inst : Mono.Installed) (l : List (Mono.Sig T))
    (hl : ∀ x ∈ l, isResult x) (hne : l ≠ []) (p : Mono.Proc T)
    (hm : p.mono = ⟨[⟨false, none, none, .complete, inst⟩], []⟩) (hs : p.sink = some 0) :
    ∃ s, (p.run (l.map sigOfPOp)).1.mono = ⟨[s], []⟩ ∧ s.closed = true ∧
      blockOutcome l = .returned (s.value, s.err) := by
  cases l with
  | nil => exact absurd rfl hne
  | cons x l =>
    have hx := hl x (by simp)
    obtain ⟨s, h1, h2, h3⟩ := fresh_signal inst x hx
    have hstep : ∃ p', (p.step (sigOfPOp x)).1 = p' ∧ p'.mono = ⟨[s], []⟩ ∧ p'.sink = some 0 := by
      rw [← hm] at h1
      cases x with
      | success v => exact ⟨_, rfl, by simp [sigOfPOp, Mono.Proc.step, hs, h1],
          by simp [sigOfPOp, Mono.Proc.step, hs]⟩
      | error e => exact ⟨_, rfl, by simp [sigOfPOp, Mono.Proc.step, hs, h1],
          by simp [sigOfPOp, Mono.Proc.step, hs]⟩
      | cancel => exact absurd hx (by simp [isResult])
    obtain ⟨p', e, h4, h5⟩ := hstep
    refine ⟨s, ?_, h2, ?_⟩
    · simp only [List.map_cons, Mono.Proc.run, e]
      exact proc_ended l (fun y hy => hl y (by simp [hy])) p' s h4 h5 h2
    · cases x with
      | success v => exact h3
      | error e => exact h3
      | cancel => exact absurd hx (by simp [isResult])

/-- C85 for a processor somebody has subscribed to and that has a result since: `Block` returns at once,
with the outcome that subscriber got, whatever happens later. Missing: several earlier subscribers. -/
theorem C85_ended_partial {T : Type} (early late : List (Mono.Sig T)) (inst : Mono.Installed)
    (between after : List (Mono.POp T)) (hr : ∀ x ∈ early ++ late, isResult x)
    (hne : kept early ++ late ≠ []) :
    Block.proc (procHistory early inst late) between after = blockOutcome (kept early ++ late) := by
  suffices h : ∃ s, (Mono.Proc.run Mono.Proc.init (procHistory early inst late)).1.mono = ⟨[s], []⟩ ∧
      s.closed = true ∧ blockOutcome (kept early ++ late) = .returned (s.value, s.err) by
    obtain ⟨s, h1, h2, h3⟩ := h
    simp only [Block.proc, h1, List.getLast?_singleton, h2, if_true, h3]
  obtain ⟨su, er, h1, h2, h3⟩ := proc_before early (fun s hs => hr s (by simp [hs]))
  have hl : ∀ x ∈ late, isResult x := fun x hx => hr x (by simp [hx])
  simp only [procHistory]
  rw [proc_run_append, h1]
  dsimp only
  simp only [Mono.Proc.run]
  cases hsu : su with
  | some v =>
    have hk : kept early = [.success v] := by simp [kept, ← h2, hsu]
    obtain ⟨s, a1, a2, a3⟩ := fresh_signal inst (.success v : Mono.Sig T) trivial
    refine ⟨s, ?_, a2, by rw [hk]; exact a3⟩
    refine proc_ended late hl _ s ?_ ?_ a2
    · simpa [Mono.Proc.step, Mono.subscribe, Mono.State.init] using a1
    · simp [Mono.Proc.step, Mono.State.init]
  | none =>
    have he := h3 hsu
    cases her : er with
    | some e =>
      have hlast : early.getLast? = some (.error (some e)) := by
        rw [her] at he
        cases hg : early.getLast? with
        | none => rw [hg] at he; cases he
        | some y =>
          rw [hg] at he
          cases y with
          | success v => cases he
          | error e' => dsimp only at he; rw [← he]
          | cancel => cases he
      have hk : kept early = [.error (some e)] := by
        simp [kept, ← h2, hsu, hlast]
      obtain ⟨s, a1, a2, a3⟩ := fresh_signal inst (.error (some e) : Mono.Sig T) trivial
      refine ⟨s, ?_, a2, by rw [hk]; exact a3⟩
      refine proc_ended late hl _ s ?_ ?_ a2
      · simpa [Mono.Proc.step, Mono.subscribe, Mono.State.init] using a1
      · simp [Mono.Proc.step, Mono.State.init]
    | none =>
      have hk : kept early = [] := by
        simp only [kept, ← h2, hsu]
        rw [her] at he
        cases hg : early.getLast? with
        | none => rfl
        | some y =>
          rw [hg] at he
          cases y with
          | success v => rfl
          | error e' => dsimp only at he; rw [← he]
          | cancel => rfl
      rw [hk, List.nil_append] at hne ⊢
      refine proc_first inst late hl hne _ ?_ ?_
      · simp [Mono.Proc.step, Mono.subscribe, Mono.State.init]
      · simp [Mono.Proc.step, Mono.State.init]

/-- A subscriber that gets 5, then a blocked caller. -/
example : Block.proc (procHistory [] ⟨true, true, false⟩ [.success 5]) [.success 6]
    ([.success 7] : List (Mono.POp Nat)) = .returned (some 5, none) :=
  C85_ended_partial [] [.success 5] ⟨true, true, false⟩ [.success 6] [.success 7]
    (by simp [isResult]) (by simp)

/-! ## C86 -/

/-- C86 for `flux.Error`: `Block` returns the error of the stream. Missing: through a transform
(`C86_error_violated`). -/
theorem C86_flux_error_partial {T : Type} (e : Err) :
    Block.fluxError e = streamOutcome [(.error e [] : Flux.Op T)] := rfl

end Verif.Props
