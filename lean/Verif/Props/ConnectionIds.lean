import Verif.Props.WasmCancel
/-
Property C108: the stream ids of the requests on a connection.
-/
set_option autoImplicit false
namespace Verif.Props
open Verif Frames Handler
open Verif.Invoke (Kind Registry)
open Verif.System (Sys Move)
open Verif.WasmRecv (Side)

section
variable {H : Type}

/-! ## Specification -/

/-- The stream ids of the requests an end has sent, oldest first. -/
def requestsSent (tr : List (Handler.Ev H)) : List UInt32 :=
  tr.filterMap fun | .sent _ (.request f) => some f.streamID | _ => none

/-- No two requests on the connection have the same id, whoever sent them. -/
def idsDiffer (s : Sys H) : Prop := (requestsSent s.trA ++ requestsSent s.trB).Nodup

/-- The ids of the end that is the client are odd, those of the other end are even. -/
def idsByParity (client : Bool) (s : Sys H) : Prop :=
  ∀ x, (x ∈ requestsSent s.trA → x.toNat % 2 = if client then 1 else 0) ∧
    (x ∈ requestsSent s.trB → x.toNat % 2 = if client then 0 else 1)

/-- C108 as stated in English, over rsocket and between a wasm host and its guest. -/
def C108_statement (H : Type) : Prop :=
  (∀ (regA regB : Registry H) (client : Bool) (ms : List Move) (s : Sys H), System.run regA regB client ms = .ok s →
    callCount s.histA < 2 ^ 30 → callCount s.histB < 2 ^ 30 → idsDiffer s ∧ idsByParity client s) ∧
  (∀ (side : Side) (regA regB : Registry H) (ms : List Move) (s : Sys H), Wasm.runSys side regA regB ms = .ok s →
    callCount s.histA < 2 ^ 30 → callCount s.histB < 2 ^ 30 → idsDiffer s ∧ idsByParity (side == .guest) s)

/-! ## Proof -/

theorem requestsSent_eq (tr : List (Handler.Ev H)) : requestsSent tr = requestFrameIds (sentFrames tr) := by
  induction tr with
  | nil => rfl
  | cons e tr ih =>
    unfold requestsSent requestFrameIds sentFrames at *
    cases e with
    | sent o f => cases f <;> simp [ih, isReq, AnyFrame.streamID, List.filter_cons]
    | _ => simpa using ih

theorem sent_parity {reg : Registry H} {client : Bool} {as : List Act} {s : St H} {tr : List (Handler.Ev H)}
    (h : Handler.run reg client as = .ok (s, tr)) (hc : callCount as < 2 ^ 30) {x : UInt32} (hx : x ∈ requestsSent tr) :
    x.toNat % 2 = if client then 1 else 0 := by
  rw [requestsSent_eq] at hx
  obtain ⟨f, hf, rfl⟩ := List.mem_map.mp hx
  obtain ⟨h1, h2⟩ := List.mem_filter.mp hf
  have := request_ids_own h hc f h1 h2
  unfold ownId at this
  cases client <;> simp at this ⊢ <;> omega

/-- C108 over rsocket: the two ends never use an id of the other's, whatever is subscribed how often. -/
theorem C108_parity (regA regB : Registry H) (client : Bool) (ms : List Move) (s : Sys H)
    (h : System.run regA regB client ms = .ok s) (ha : callCount s.histA < 2 ^ 30) (hb : callCount s.histB < 2 ^ 30) :
    idsByParity client s := by
  have hj := joined_run _ h
  refine fun x => ⟨fun hx => sent_parity hj.a ha hx, fun hx => ?_⟩
  have := sent_parity hj.b hb hx
  cases client <;> simpa using this

/-- C108 over rsocket, if no call is subscribed twice: no two requests have the same id. -/
theorem C108_differ_partial (regA regB : Registry H) (client : Bool) (ms : List Move) (s : Sys H)
    (h : System.run regA regB client ms = .ok s) (ht : Tidy s) : idsDiffer s := by
  have hj := joined_run _ h
  have hp := C108_parity _ _ _ _ _ h ht.callsA ht.callsB
  unfold idsDiffer
  rw [List.nodup_append]
  refine ⟨?_, ?_, fun x hx y hy e => ?_⟩
  · rw [requestsSent_eq]; exact request_ids_nodup hj.a ht.callsA ht.onceA
  · rw [requestsSent_eq]; exact request_ids_nodup hj.b ht.callsB ht.onceB
  · subst e
    have h1 := (hp x).1 hx
    have h2 := (hp x).2 hy
    cases client <;> simp_all

theorem requestsSent_alike {side : Side} {e e' : List (Handler.Ev H)} (h : Alike side e e') :
    requestsSent e = requestsSent e' := by
  rw [requestsSent_eq, requestsSent_eq, sentFrames_alike h]

/-- C108 between a wasm host and its guest: the guest's ids are odd, the host's even. -/
theorem C108_wasm_parity (side : Side) (regA regB : Registry H) (ms : List Move) (s : Sys H)
    (h : Wasm.runSys side regA regB ms = .ok s) (ha : callCount s.histA < 2 ^ 30) (hb : callCount s.histB < 2 ^ 30) :
    idsByParity (side == .guest) s := by
  obtain ⟨s', hr⟩ := overRsocket h
  have := C108_parity _ _ _ _ _ hr.run (by rw [hr.alike.histA]; exact ha) (by rw [hr.alike.histB]; exact hb)
  unfold idsByParity at this ⊢
  rw [requestsSent_alike hr.alike.trA, requestsSent_alike hr.alike.trB]
  cases side <;> exact this

/-- C108 between a wasm host and its guest, if no call is subscribed twice. -/
theorem C108_wasm_differ_partial (side : Side) (regA regB : Registry H) (ms : List Move) (s : Sys H)
    (h : Wasm.runSys side regA regB ms = .ok s) (ht : Tidy s) : idsDiffer s := by
  obtain ⟨s', hr⟩ := overRsocket h
  have := C108_differ_partial _ _ _ _ _ hr.run (hr.tidy ht)
  unfold idsDiffer at this ⊢
  rwa [requestsSent_alike hr.alike.trA, requestsSent_alike hr.alike.trB]

end

/-! ## Concrete runs -/

/-- Both ends make two calls, of different kinds. -/
def calls108 : List Move :=
  [.atA (.call .rr ⟨[1], eightZeros⟩ .created), .atA (.subscribeMono 0 ⟨true, true, true⟩),
   .atB (.call .fnf ⟨[2], eightZeros⟩ .created), .atA (.call .fnf ⟨[3], eightZeros⟩ .created),
   .atB (.call .rr ⟨[4], eightZeros⟩ .created), .atB (.subscribeMono 0 ⟨true, true, true⟩)]

def end108 : Sys Unit := sysAfter (System.run oneHandler oneHandler true calls108)
def wasm108 (side : Side) : Sys Unit := sysAfter (Wasm.runSys side oneHandler oneHandler calls108)

example : System.run oneHandler oneHandler true calls108 = .ok end108 ∧ Tidy end108 ∧
    requestsSent end108.trA = [1, 3] ∧ requestsSent end108.trB = [2, 4] :=
  ⟨rfl, tidy_of (by decide +kernel) (by decide +kernel) (by decide +kernel) (by decide +kernel), by decide +kernel,
    by decide +kernel⟩

example (side : Side) : Wasm.runSys side oneHandler oneHandler calls108 = .ok (wasm108 side) ∧ Tidy (wasm108 side) ∧
    (requestsSent (wasm108 side).trA).length = 2 ∧ (requestsSent (wasm108 side).trB).length = 2 := by
  refine ⟨by cases side <;> rfl, tidy_of ?_ ?_ ?_ ?_, ?_, ?_⟩
  all_goals cases side <;> decide +kernel

/-- One call, subscribed twice. -/
def again108 : List Move :=
  [.atA (.call .rr ⟨[1], eightZeros⟩ .created), .atA (.subscribeMono 0 ⟨true, true, true⟩),
   .atA (.subscribeMono 0 ⟨true, true, true⟩)]

def endAgain108 : Sys Unit := sysAfter (System.run oneHandler oneHandler true again108)

/-- C108 fails: a call subscribed twice sends two requests with the same id. -/
theorem C108_again_violated : requestsSent endAgain108.trA = [1, 1] := by decide +kernel

theorem C108_violated : ¬ C108_statement Unit := by
  intro h
  have := (h.1 oneHandler oneHandler true again108 endAgain108 rfl (by decide +kernel) (by decide +kernel)).1
  unfold idsDiffer at this
  rw [C108_again_violated] at this
  simp at this

end Verif.Props
