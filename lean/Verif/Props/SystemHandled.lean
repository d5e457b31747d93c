import Verif.Props.SystemAnswer
/-
What one end of a connection sends on the stream of a request/response request it receives.
-/
set_option autoImplicit false
namespace Verif.Props
open Verif Frames Handler
open Verif.Invoke (Kind Registry getHandler)

section
variable {H : Type}

/-! ## Specification -/

/-- What became of the request/response request `id` with payload `p` at the end with the exported
operations `reg`, by its history `as`. When its goroutine ran, it was rejected, or the operation it
names was invoked, returning `ret`; then the answer is what that mono has come to since (none: nothing
yet). -/
inductive Handled (reg : Registry H) (client : Bool) (id : UInt32) (p : Pay) (as : List Act) :
    Option (Mono.Sig Pay) → Prop
  | rejected (as1 as2 : List Act) (t : Nat) (ret : Ret) (s1 : St H) (t1 : List (Handler.Ev H)) (n : UInt32)
      (ran : RanAt reg client as as1 as2 t ret s1 t1 .rr id p.data p.metadata n)
      (bad : exported reg .rr p.metadata = none) :
      Handled reg client id p as
        (some (.error (some (if p.metadata.length < 8 then "Invalid metadata" else "not_found"))))
  | served (as1 as2 : List Act) (t : Nat) (ret : Ret) (s1 : St H) (t1 : List (Handler.Ev H)) (n : UInt32)
      (ran : RanAt reg client as as1 as2 t ret s1 t1 .rr id p.data p.metadata n)
      (good : (exported reg .rr p.metadata).isSome = true) :
      Handled reg client id p as (resolution ret.mono (answerSigs s1.objs.length as2))

/-! ## Proof -/

theorem source_of_obj (x : UInt32) {reg : Registry H} {client : Bool} {as : List Act}
    {s : St H} {tr : List (Handler.Ev H)} (h : Handler.run reg client as = .ok (s, tr))
    (hu : uses (fun k => decide (k.2 = x)) s tr ≤ 1) {i : Nat} {o : Obj} (ho : s.objs[i]? = some o)
    (hx : o.sid = x) (b : Option Nat) (f : AnyFrame) (hb : .sent b f ∈ tr) (hf : f.streamID = x) : b = some i := by
  rw [uses_parts] at hu
  have h1 : 1 ≤ (s.objs.filter fun o => decide (o.key.2 = x)).length :=
    mem_filter_pos (p := fun o : Obj => decide (o.key.2 = x)) (List.mem_of_getElem? ho) (by simp [Obj.key, hx])
  cases b with
  | none =>
    have := mem_filter_pos (p := fun f => decide ((looseKey f).2 = x)) (looseFrames_mem hb)
      (by simp [looseKey_id, hf])
    omega
  | some j =>
    obtain ⟨o', h2, h3, -⟩ := sent_history reg client as s tr h j f hb
    have := index_unique (p := fun o : Obj => decide (o.key.2 = x)) (by omega) h2 (by simp [Obj.key, ← h3, hf])
      ho (by simp [Obj.key, hx])
    rw [this]

/-- The frames with id `x`. -/
def withId (x : UInt32) (fs : List AnyFrame) : List AnyFrame := fs.filter fun f => decide (f.streamID = x)

theorem withId_all {x : UInt32} {fs : List AnyFrame} (h : ∀ f ∈ fs, f.streamID = x) : withId x fs = fs :=
  List.filter_eq_self.mpr fun f hf => by simp [h f hf]

theorem framesBy_sent {j : Nat} {tr : List (Handler.Ev H)} {f : AnyFrame} (h : f ∈ framesBy j tr) :
    .sent (some j) f ∈ tr := by
  obtain ⟨e, h1, h2⟩ := List.mem_filterMap.mp h
  cases e with
  | sent b g =>
    cases b with
    | none => cases h2
    | some i =>
      simp only at h2
      split at h2
      · rename_i hij; cases h2; subst hij; exact h1
      · cases h2
  | _ => cases h2

theorem framesBy_mem {j : Nat} {tr : List (Handler.Ev H)} {f : AnyFrame} (h : .sent (some j) f ∈ tr) :
    f ∈ framesBy j tr := List.mem_filterMap.mpr ⟨_, h, by simp⟩

/-- If the frames of id `x` come from stream `i`, they are its frames. -/
theorem withId_of_obj (x : UInt32) {reg : Registry H} {client : Bool} {as : List Act}
    {s : St H} {tr : List (Handler.Ev H)} (h : Handler.run reg client as = .ok (s, tr))
    (hu : uses (fun k => decide (k.2 = x)) s tr ≤ 1) {i : Nat} {o : Obj} (ho : s.objs[i]? = some o)
    (hx : o.sid = x) : withId x (sentFrames tr) = framesBy i tr := by
  have h1 := frames_source (fun f => decide (f.streamID = x)) (some i) tr
    (fun b f hb hf => source_of_obj x h hu ho hx b f hb (by simpa using hf))
  rw [withId, h1]
  apply withId_all
  intro f hf
  obtain ⟨o', h2, h3, -⟩ := sent_history reg client as s tr h i f (framesBy_sent hf)
  rw [ho] at h2; cases h2
  rw [h3, hx]

/-- Whatever is sent with the id of a request/response request of the peer answers it. -/
theorem handled_frames (x : UInt32) (p : Pay) {reg : Registry H} {client : Bool} {as : List Act}
    {s : St H} {tr : List (Handler.Ev H)} (h : Handler.run reg client as = .ok (s, tr))
    (hc : callCount as < 2 ^ 30) (hu : uses (fun k => decide (k.2 = x)) s tr ≤ 1)
    (hx : ownId client x = false)
    (hreq : ∀ f r, .frame (.request f) r ∈ as → f.streamID = x →
      kindOfType f.frameType = some .rr ∧ f.data = p.data ∧ f.metadata = p.metadata) :
    (∃ r, Handled reg client x p as r ∧ withId x (sentFrames tr) = r.toList.flatMap (replyOf x)) ∨
    (withId x (sentFrames tr) = [] ∧ (∀ (i : Nat) (o : Obj), s.objs[i]? = some o → o.sid ≠ x) ∧
      ∀ f ∈ looseFrames tr, f.streamID ≠ x) := by
  have foreign : (true, x) ∉ idsIn s tr := by
    intro hk
    rcases mem_requestIds_of_key h _ hk with ⟨-, h2⟩ | ⟨h2, -⟩
    · have := (callIds_own client as hc).2 _ h2
      rw [hx] at this; cases this
    · cases h2
  have origin : ∀ {as1 as2 : List Act} {t : Nat} {ret : Ret} {s1 : St H} {t1 : List (Handler.Ev H)} {k : Kind}
      {data md : Bytes} {n : UInt32}, RanAt reg client as as1 as2 t ret s1 t1 k x data md n →
      k = .rr ∧ data = p.data ∧ md = p.metadata := by
    intro as1 as2 t ret s1 t1 k data md n hr
    obtain ⟨f, r, h1, h2, h3, rfl, rfl⟩ := task_origin as1 hr.before k x data md n (List.mem_of_getElem? hr.task)
    obtain ⟨h4, h5, h6⟩ := hreq f r (by rw [hr.split]; exact List.mem_append_left _ h1) h3
    rw [h2] at h4; cases h4
    exact ⟨rfl, h5, h6⟩
  by_cases hobj : ∃ (i : Nat) (o : Obj), s.objs[i]? = some o ∧ o.sid = x
  · obtain ⟨i, o, ho, hox⟩ := hobj
    have hown : o.own = false := by
      cases hb : o.own with
      | false => rfl
      | true =>
        have : o.key = (true, x) := Prod.ext hb hox
        exact absurd (this ▸ obj_key_mem ho) foreign
    obtain ⟨as1, as2, t, ret, s1, t1, k, data, md, n, hr, h1, h2, -⟩ := served_origin as h i o ho hown
    rw [hox] at hr
    obtain ⟨rfl, rfl, rfl⟩ := origin hr
    have hrun := h
    rw [hr.split] at hrun
    obtain ⟨st, h3, -, -, h4, -⟩ := answering_run hr.before hr.task h2 as2 hrun
    refine .inl ⟨_, .served as1 as2 t ret s1 t1 n hr h2, ?_⟩
    rw [withId_of_obj x h hu ho hox, h1, h4]
    rfl
  · have noobj : ∀ (i : Nat) (o : Obj), s.objs[i]? = some o → o.sid ≠ x := fun i o h1 h2 => hobj ⟨i, o, h1, h2⟩
    have hloose : withId x (sentFrames tr) = withId x (looseFrames tr) := by
      refine frames_source (fun f => decide (f.streamID = x)) none tr ?_
      intro b f hb hf
      cases b with
      | none => rfl
      | some i =>
        obtain ⟨o, h1, h2, -⟩ := sent_history reg client as s tr h i f hb
        exact absurd (h2 ▸ by simpa using hf) (noobj i o h1)
    rw [hloose]
    by_cases hl : ∃ f ∈ looseFrames tr, f.streamID = x
    · obtain ⟨f, hf, hfx⟩ := hl
      have hnr : isReq f = false := by
        cases hq : isReq f with
        | false => rfl
        | true =>
          have := loose_key_mem (s := s) hf
          rw [looseKey_req hq, hfx] at this
          exact absurd this foreign
      obtain ⟨as1, as2, t, ret, s1, t1, k, id, data, md, n, hr, h2, rfl⟩ := loose_origin as h f hf hnr
      have hid : id = x := hfx
      subst hid
      obtain ⟨rfl, rfl, rfl⟩ := origin hr
      refine .inl ⟨_, .rejected as1 as2 t ret s1 t1 n hr h2, ?_⟩
      have hlen : (withId id (looseFrames tr)).length ≤ 1 := by
        rw [uses_parts] at hu
        have : (fun f : AnyFrame => decide ((looseKey f).2 = id)) = fun f => decide (f.streamID = id) := by
          funext f; rw [looseKey_id]
        rw [this] at hu
        unfold withId
        omega
      have hmem : errorFrame id (if p.metadata.length < 8 then "Invalid metadata" else "not_found") ∈
          withId id (looseFrames tr) := List.mem_filter.mpr ⟨hf, by simp [hfx]⟩
      match hw : withId id (looseFrames tr), hlen, hmem with
      | [g], _, hmem => simp only [List.mem_singleton] at hmem; rw [← hmem]; rfl
    · have hnil : ∀ f ∈ looseFrames tr, f.streamID ≠ x := fun f h1 h2 => hl ⟨f, h1, h2⟩
      exact .inr ⟨List.filter_eq_nil_iff.mpr fun f hf => by simp [hnil f hf], noobj, hnil⟩

/-- An answer is a payload or an error with a message (`err.Error()` of a nil error panics). -/
theorem handled_reply {reg : Registry H} {client : Bool} {as : List Act} {s : St H} {tr : List (Handler.Ev H)}
    (h : Handler.run reg client as = .ok (s, tr)) {x : UInt32} {p : Pay} {sig : Mono.Sig Pay}
    (hh : Handled reg client x p as (some sig)) : ∃ f, replyOf x sig = [f] := by
  have key : sig ≠ .error none ∧ sig ≠ .cancel := by
    generalize hr : some sig = r at hh
    cases hh with
    | rejected => cases hr; simp
    | served as1 as2 t ret s1 t1 n ran good =>
      rw [ran.split] at h
      obtain ⟨-, -, -, -, -, h1⟩ := answering_run ran.before ran.task good as2 h
      rw [← hr] at h1
      refine ⟨fun hc => h1 (by rw [hc]), ?_⟩
      rintro rfl
      revert hr
      unfold resolution
      split <;> simp
      split <;> simp
  cases sig with
  | success p => exact ⟨_, rfl⟩
  | error e =>
    cases e with
    | none => exact absurd rfl key.1
    | some e => exact ⟨_, rfl⟩
  | cancel => exact absurd rfl key.2

end
end Verif.Props
