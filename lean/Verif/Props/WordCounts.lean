import Verif.Props.Components
import Verif.Props.FluxProc
/-
Property C118: counting words.
-/
set_option autoImplicit false
namespace Verif.Props
open Verif Spec Handler Msgpack Typed Invoke
open Verif.Components (WordLib WordSt WordIn SinkOp)

/-! ## Specification -/

/-- The words that are not counted. -/
def stopWords : List Bytes := ["i", "the", "and", "to", "of", "a", "my", "in", "you", "is", "that"].map ascii

/-- The words that are counted, in lower case. -/
def countedWords (lower : Bytes → Bytes) (words : List Bytes) : List Bytes :=
  (words.map lower).filter fun w => w ∉ stopWords

/-- `l` has each of the words once, with the number of its occurrences, the most frequent ones first. -/
structure Counts (words : List Bytes) (l : List WordCount) : Prop where
  once : (l.map (·.word)).Nodup
  exact' : ∀ x, x ∈ l ↔ x.word ∈ words ∧ x.count.toNat = words.count x.word
  sorted : l.Pairwise fun a b => b.count.toNat ≤ a.count.toNat

/-- `sort.Sort` sorts; in which order it leaves equal counts is not said. -/
def Sorts (lib : WordLib) : Prop :=
  ∀ l, (lib.order l).Perm l ∧ (lib.order l).Pairwise fun a b => b.count ≤ a.count

/-- The callbacks on the counts, if they are these. -/
def countsEvents (sub : Flux.Installed) (l : List WordCount) : List (Flux.Ev WordCount) :=
  (if sub.onNext then l.map .next else []) ++ (if sub.onComplete then [.complete] else []) ++ (if sub.fin then [.fin .complete] else [])

/-- The values for a port: those of its payloads up to and including the one that says that the port is complete. -/
def portValues (port : Bytes) : List Packet → List Bytes
  | [] => []
  | k :: ks =>
    if k.port = port then (if k.next then [k.data] else []) ++ (if k.complete then [] else portValues port ks)
    else portValues port ks

/-- A count, and the end, on the output port. -/
def countPacket (x : WordCount) : SinkOp := .next (Packet.pay ⟨ascii "counts", true, false, fieldMap (wordCountFields x)⟩)
def countsEnd : List SinkOp := [.next (Packet.pay ⟨ascii "counts", false, true, []⟩), .complete]

/-- The words are short enough to be encoded, also in the answers. -/
def shortWords (lower : Bytes → Bytes) (ws : List Bytes) : Prop :=
  ∀ w ∈ ws, (str w).length < 2 ^ 32 ∧ ∀ n, (fieldMap (wordCountFields ⟨lower w, n⟩)).length < 2 ^ 32

/-- The input of the handler: these payloads, and the end. -/
def wordInput (ks : List Packet) : List WordIn := ks.map (fun k => .next k.pay) ++ [.complete]

/-- What the subscriber of the handler is to see, if `ws` are the words. -/
def handlerCounts (lib : WordLib) (ws : List Bytes) (run : Go (List SinkOp)) : Prop :=
  ∃ l o, Counts (countedWords lib.lower ws) l ∧ run = .ok o ∧ seenOfSink o = l.map countPacket ++ countsEnd

/-- C118 for the handler, as stated in English: the words sent to the port `words` are counted. -/
def C118_statement : Prop :=
  ∀ (lib : WordLib) (ks : List Packet) (ws : List Bytes), Sorts lib → (∀ k ∈ ks, k.fits) →
    portValues (ascii "words") ks = ws.map str → shortWords lib.lower ws → ws.length < 2 ^ 31 - 1 →
    handlerCounts lib ws (Components.wordHandler lib (wordInput ks))

/-! ## Proof -/

theorem countWord_mem (w : Bytes) (l : List WordCount) (hn : (l.map (·.word)).Nodup) (x : WordCount) :
    x ∈ Components.countWord w l ↔
      (x.word ≠ w ∧ x ∈ l) ∨ (x.word = w ∧ ((w ∉ l.map (·.word) ∧ x.count = 1) ∨ ∃ y ∈ l, y.word = w ∧ x.count = y.count + 1)) := by
  induction l with
  | nil =>
    simp only [Components.countWord, List.mem_singleton]
    constructor
    · rintro rfl; right; simp
    · rintro (h | ⟨h1, h2⟩)
      · simp at h
      · rcases h2 with h2 | h2
        · cases x; simp_all
        · simp at h2
  | cons a l ih =>
    rw [List.map_cons, List.nodup_cons] at hn
    have ih := ih hn.2
    simp only [Components.countWord]
    by_cases ha : a.word = w
    · rw [if_pos ha]
      subst ha
      constructor
      · intro h
        rcases List.mem_cons.1 h with rfl | h
        · exact .inr ⟨rfl, .inr ⟨a, by simp, rfl, rfl⟩⟩
        · refine .inl ⟨fun e => hn.1 (e ▸ List.mem_map_of_mem h), by simp [h]⟩
      · rintro (⟨h1, h2⟩ | ⟨h1, h2⟩)
        · rcases List.mem_cons.1 h2 with rfl | h2
          · exact absurd rfl h1
          · simp [h2]
        · rcases h2 with h2 | ⟨y, hy, h3, h4⟩
          · simp at h2
          · rcases List.mem_cons.1 hy with rfl | hy
            · cases x; simp_all
            · exact absurd (h3 ▸ List.mem_map_of_mem hy) hn.1
    · rw [if_neg ha, List.mem_cons, ih]
      constructor
      · rintro (rfl | h | ⟨h1, h2⟩)
        · exact .inl ⟨ha, by simp⟩
        · exact .inl ⟨h.1, by simp [h.2]⟩
        · refine .inr ⟨h1, ?_⟩
          rcases h2 with h2 | ⟨y, hy, h⟩
          · exact .inl ⟨by simp only [List.map_cons, List.mem_cons, not_or]; exact ⟨fun e => ha e.symm, h2.1⟩, h2.2⟩
          · exact .inr ⟨y, by simp [hy], h⟩
      · rintro (⟨h1, h2⟩ | ⟨h1, h2⟩)
        · rcases List.mem_cons.1 h2 with rfl | h2
          · exact .inl rfl
          · exact .inr (.inl ⟨h1, h2⟩)
        · refine .inr (.inr ⟨h1, ?_⟩)
          rcases h2 with h2 | ⟨y, hy, h⟩
          · simp only [List.map_cons, List.mem_cons, not_or] at h2
            exact .inl ⟨h2.1.2, h2.2⟩
          · rcases List.mem_cons.1 hy with rfl | hy
            · exact absurd h.1 ha
            · exact .inr ⟨y, hy, h⟩

theorem countWord_words (w : Bytes) (l : List WordCount) :
    (Components.countWord w l).map (·.word) = if w ∈ l.map (·.word) then l.map (·.word) else l.map (·.word) ++ [w] := by
  induction l with
  | nil => simp [Components.countWord]
  | cons a l ih =>
    simp only [Components.countWord]
    by_cases ha : a.word = w
    · subst ha; simp
    · rw [if_neg ha, List.map_cons, ih]
      have : ¬ w = a.word := fun e => ha e.symm
      by_cases hm : w ∈ l.map (·.word)
      · rw [if_pos hm, if_pos (by simp only [List.map_cons, List.mem_cons]; exact .inr hm)]; rfl
      · rw [if_neg hm, if_neg (by simp only [List.map_cons, List.mem_cons, not_or]; exact ⟨this, hm⟩)]; rfl

/-- The map holds the number of occurrences of each word so far. -/
structure Holds (words : List Bytes) (l : List WordCount) : Prop where
  once : (l.map (·.word)).Nodup
  mem : ∀ x, x ∈ l ↔ x.word ∈ words ∧ x.count = UInt64.ofNat (words.count x.word)
  len : l.length ≤ words.length

theorem holds_snoc {words : List Bytes} {l : List WordCount} (h : Holds words l) (w : Bytes) :
    Holds (words ++ [w]) (Components.countWord w l) := by
  have hw : w ∈ l.map (·.word) ↔ w ∈ words := by
    constructor
    · intro hm
      obtain ⟨x, hx, rfl⟩ := List.mem_map.1 hm
      exact ((h.mem x).1 hx).1
    · intro hm
      exact List.mem_map.2 ⟨⟨w, UInt64.ofNat (words.count w)⟩, (h.mem _).2 ⟨hm, rfl⟩, rfl⟩
  refine ⟨?_, fun x => ?_, ?_⟩
  rotate_right
  · have h1 := h.len
    rw [← List.length_map (f := fun x : WordCount => x.word), countWord_words]
    split <;> simp <;> omega
  · rw [countWord_words]
    split
    · exact h.once
    · rename_i hn
      rw [List.nodup_append]
      exact ⟨h.once, by simp, fun a ha b hb => by rintro rfl; rw [List.mem_singleton.1 hb] at ha; exact hn ha⟩
  · rw [countWord_mem _ _ h.once]
    constructor
    · rintro (⟨h1, h2⟩ | ⟨h1, h2⟩)
      · obtain ⟨h3, h4⟩ := (h.mem x).1 h2
        refine ⟨by simp [h3], ?_⟩
        rw [h4, List.count_append, List.count_singleton]
        have hne : ¬ w = x.word := fun e => h1 e.symm
        simp [hne]
      · subst h1
        refine ⟨by simp, ?_⟩
        rw [List.count_append, List.count_singleton]
        simp only [beq_self_eq_true, if_true]
        rcases h2 with h2 | ⟨y, hy, h3, h4⟩
        · rw [h2.2, List.count_eq_zero.2 (fun hm => h2.1 (hw.2 hm))]; rfl
        · rw [h4, ((h.mem y).1 hy).2, h3, UInt64.ofNat_add]; rfl
    · rintro ⟨h1, h2⟩
      rw [List.count_append, List.count_singleton] at h2
      by_cases he : x.word = w
      · subst he
        simp only [beq_self_eq_true, if_true] at h2
        refine .inr ⟨rfl, ?_⟩
        by_cases hm : x.word ∈ words
        · refine .inr ⟨⟨x.word, UInt64.ofNat (words.count x.word)⟩, (h.mem _).2 ⟨hm, rfl⟩, rfl, ?_⟩
          rw [h2, UInt64.ofNat_add]; rfl
        · refine .inl ⟨fun hx => hm (hw.1 hx), ?_⟩
          rw [h2, List.count_eq_zero.2 hm]; rfl
      · have h3 : x.word ∈ words := by
          rcases List.mem_append.1 h1 with h | h
          · exact h
          · exact absurd (List.mem_singleton.1 h) he
        refine .inl ⟨he, (h.mem x).2 ⟨h3, ?_⟩⟩
        rw [h2]
        have hne : ¬ w = x.word := fun e => he e.symm
        simp [hne]

/-- The subscriber of the words, which has asked for `n` more. -/
def wordsAt (n : Int) : Flux.Proc :=
  ⟨[⟨false, n, none, false, false, .complete, ⟨true, true, false, false, false, false⟩, []⟩], none⟩

/-- The subscriber of the counts, before the words are complete. -/
def countsAt (sub : Flux.Installed) : Flux.Proc :=
  ⟨[⟨false, Flux.requestMax, none, false, false, .complete, { sub with onRequest := false, noRequest := false }, []⟩], none⟩

theorem words_start (sub : Flux.Installed) : WordSt.start sub = ⟨wordsAt Flux.requestMax, countsAt sub, [], 0⟩ := by
  simp [WordSt.start, wordsAt, countsAt, Flux.Proc.step, Flux.Proc.init, Flux.Proc.stepAt, Flux.State.init, Flux.step,
    Flux.handleOnSubscribe, Flux.call]

theorem words_next (n : Int) (w : Bytes) : ∃ n', (wordsAt n).step (.next w [] []) = (wordsAt n', [(0, .next w)]) := by
  by_cases h : n - 1 = 0
  · exact ⟨n - 1 + Flux.requestMax, by simp [wordsAt, Flux.Proc.step, Flux.Proc.push, Flux.Proc.stepAt, Flux.step, Flux.next, Flux.onNext,
      Flux.calls, Flux.handleOnSubscribe, Flux.call, h]⟩
  · exact ⟨n - 1, by simp [wordsAt, Flux.Proc.step, Flux.Proc.push, Flux.Proc.stepAt, Flux.step, Flux.next, Flux.onNext,
      Flux.calls, h]⟩

/-- The words are over. -/
def wordsOver (p : Flux.Proc) : Prop := ∀ op : Flux.POp Bytes, (∀ c, op ≠ .onSubscribe c) → (∀ a b, op ≠ .subscribe a b) →
  (∀ i c, op ≠ .call i c) → p.step op = (p, [])

theorem words_complete (n : Int) : ∃ p, (wordsAt n).step (T := Bytes) (.complete []) = (p, [(0, .complete)]) ∧ wordsOver p := by
  refine ⟨⟨[⟨true, n, none, false, false, .complete, ⟨true, true, false, false, false, false⟩, []⟩], none⟩, ?_, ?_⟩
  · simp [wordsAt, Flux.Proc.step, Flux.Proc.push, Flux.Proc.stepAt, Flux.step, Flux.complete, Flux.calls, Flux.doFinally]
  · intro op h1 h2 h3
    cases op with
    | next v a b => simp [Flux.Proc.step, Flux.Proc.push, Flux.Proc.stepAt, Flux.step, Flux.next]
    | complete a => simp [Flux.Proc.step, Flux.Proc.push, Flux.Proc.stepAt, Flux.step, Flux.complete]
    | error e a => simp [Flux.Proc.step, Flux.Proc.push, Flux.Proc.stepAt, Flux.step, Flux.error]
    | onSubscribe c => exact absurd rfl (h1 c)
    | subscribe a b => exact absurd rfl (h2 a b)
    | call i c => exact absurd rfl (h3 i c)

/-- The subscriber of the counts is given all of them, and the end. -/
theorem counts_pushed (sub : Flux.Installed) (wc : List WordCount) : ∀ n : Int, (wc.length : Int) < n →
    ∃ p, (Flux.Proc.runFrom ⟨[⟨false, n, none, true, false, .complete, { sub with onRequest := false, noRequest := false }, []⟩], none⟩
      ((wc.map fun v => Flux.POp.next v [] []) ++ [.complete []])) = (p, (countsEvents sub wc).map fun e => (0, e)) := by
  induction wc with
  | nil =>
    intro n _
    obtain ⟨a, b, c, d, e, f⟩ := sub
    cases b <;> cases e <;>
    simp [Flux.Proc.runFrom, Flux.Proc.step, Flux.Proc.push, Flux.Proc.stepAt, Flux.step, Flux.complete, Flux.calls, Flux.doFinally, countsEvents]
  | cons x wc ih =>
    intro n hn
    have h : ¬ n - 1 = 0 := by simp only [List.length_cons] at hn; omega
    obtain ⟨p, hp⟩ := ih (n - 1) (by simp only [List.length_cons] at hn; omega)
    refine ⟨p, ?_⟩
    obtain ⟨a, b, c, d, e, f⟩ := sub
    cases a <;>
    simp [Flux.Proc.runFrom, Flux.Proc.step, Flux.Proc.push, Flux.Proc.stepAt, Flux.step, Flux.next, Flux.onNext, Flux.calls, h, hp, countsEvents]

/-- The words are complete: the counts are pushed. -/
theorem words_end (lib : WordLib) (sub : Flux.Installed) (n : Int) (map : List WordCount) (fin : Nat)
    (hl : ((lib.order map).length : Int) < Flux.requestMax) :
    ∃ p q, wordsOver p ∧ (⟨wordsAt n, countsAt sub, map, fin⟩ : WordSt).push lib (.complete []) =
      .ok (⟨p, q, map, fin⟩, countsEvents sub (lib.order map)) := by
  obtain ⟨p, h1, h2⟩ := words_complete n
  obtain ⟨q, h3⟩ := counts_pushed sub (lib.order map) Flux.requestMax hl
  refine ⟨p, q, h2, ?_⟩
  have h4 : (countsAt sub).step (T := WordCount) (.onSubscribe false) =
      (⟨[⟨false, Flux.requestMax, none, true, false, .complete, { sub with onRequest := false, noRequest := false }, []⟩], none⟩,
        [(0, .upRequest Flux.requestMax)]) := by
    simp [countsAt, Flux.Proc.step, Flux.Proc.push, Flux.Proc.stepAt, Flux.step, Flux.requestMax]
  have h5 : Flux.sliceResponse (lib.order map) Flux.requestMax = .ok ([], (lib.order map).map .next ++ [.complete]) := by
    have h6 : ¬ Flux.requestMax < (lib.order map).length := by omega
    have h7 : ¬ ((lib.order map).length : Int) < 0 := by omega
    simp [Flux.sliceResponse, h6, h7]
  simp only [WordSt.push, h1, List.map_cons, List.map_nil, WordSt.wordsEvs, WordSt.wordsEv, h4, WordSt.responds, WordSt.respond, h5,
    Go.bind_ok, List.map_append, List.map_map]
  have h8 : (Components.pushOf ∘ Flux.SinkCall.next) = fun v => Flux.POp.next v [] [] := by
    funext v; rfl
  have h9 : Components.pushOf .complete = Flux.POp.complete [] := rfl
  rw [h8, h9, h3]
  simp [Function.comp_def]

theorem words_word (lib : WordLib) (sub : Flux.Installed) (n : Int) (words : List Bytes) (map : List WordCount) (h : Holds words map) (fin : Nat)
    (w : Bytes) : ∃ n' map', (⟨wordsAt n, countsAt sub, map, fin⟩ : WordSt).push lib (.next w [] []) =
      .ok (⟨wordsAt n', countsAt sub, map', fin⟩, []) ∧ Holds (words ++ countedWords lib.lower [w]) map' := by
  obtain ⟨n', h1⟩ := words_next n w
  have he : Components.ignoredWords = stopWords := rfl
  by_cases hw : lib.lower w ∈ stopWords
  · refine ⟨n', map, ?_, by simpa [countedWords, hw] using h⟩
    simp only [WordSt.push, h1, List.map_cons, List.map_nil, WordSt.wordsEvs, WordSt.wordsEv, he, if_pos hw, Go.bind_ok]
    rfl
  · refine ⟨n', Components.countWord (lib.lower w) map, ?_, by simpa [countedWords, hw] using holds_snoc h _⟩
    simp only [WordSt.push, h1, List.map_cons, List.map_nil, WordSt.wordsEvs, WordSt.wordsEv, he, if_neg hw, Go.bind_ok]
    rfl

theorem countedWords_append (lower : Bytes → Bytes) (a b : List Bytes) :
    countedWords lower (a ++ b) = countedWords lower a ++ countedWords lower b := by
  simp [countedWords]

theorem counts_of_holds {lib : WordLib} (hs : Sorts lib) {words : List Bytes} {l : List WordCount} (h : Holds words l)
    (hl : words.length < 2 ^ 64) : Counts words (lib.order l) := by
  obtain ⟨h1, h2⟩ := hs l
  refine ⟨(h1.map _).nodup_iff.2 h.once, fun x => ?_, h2.imp fun {a b} h => UInt64.le_iff_toNat_le.1 h⟩
  rw [h1.mem_iff, h.mem x]
  have : words.count x.word < 2 ^ 64 := Nat.lt_of_le_of_lt List.count_le_length hl
  rw [← UInt64.toNat_inj, UInt64.toNat_ofNat_of_lt' this]

theorem words_all (lib : WordLib) (hs : Sorts lib) (sub : Flux.Installed) (rest : List Bytes) :
    ∀ (words : List Bytes) (n : Int) (map : List WordCount) (fin : Nat), Holds (countedWords lib.lower words) map →
    (words ++ rest).length < 2 ^ 31 - 1 →
    ∃ s l, Counts (countedWords lib.lower (words ++ rest)) l ∧ (⟨wordsAt n, countsAt sub, map, fin⟩ : WordSt).pushAll lib
      (rest.map (fun w => .next w [] []) ++ [.complete []]) = .ok (s, countsEvents sub l) := by
  induction rest with
  | nil =>
    intro words n map fin h hl
    rw [List.append_nil] at hl ⊢
    have hf : (countedWords lib.lower words).length ≤ words.length := by
      simp only [countedWords]
      exact Nat.le_trans (List.length_filter_le _ _) (by simp)
    have h0 : ((lib.order map).length : Int) < Flux.requestMax := by
      have := h.len
      rw [(hs map).1.length_eq]
      show _ < (2147483647 : Int)
      omega
    obtain ⟨p, q, -, h2⟩ := words_end lib sub n map fin h0
    refine ⟨⟨p, q, map, fin⟩, _, counts_of_holds hs h (by omega), ?_⟩
    simp only [List.map_nil, List.nil_append, WordSt.pushAll, h2, Go.bind_ok, List.append_nil]
  | cons w rest ih =>
    intro words n map fin h hl
    obtain ⟨n', map', h1, h2⟩ := words_word lib sub n _ map h fin w
    rw [← countedWords_append] at h2
    obtain ⟨s, l, h3, h4⟩ := ih (words ++ [w]) n' map' fin h2 (by simpa using hl)
    refine ⟨s, l, by simpa using h3, ?_⟩
    simp only [List.map_cons, List.cons_append, WordSt.pushAll, h1, h4, Go.bind_ok, List.nil_append]

/-- C118 for the component: whatever words are pushed into it, before Complete, the subscriber of the counts is given the counts of exactly the
words that were pushed, the most frequent ones first, and the end. -/
theorem C118_counts (lib : WordLib) (hs : Sorts lib) (sub : Flux.Installed) (words : List Bytes) (hl : words.length < 2 ^ 31 - 1) :
    ∃ l, Counts (countedWords lib.lower words) l ∧ Components.countWords lib sub words = .ok (countsEvents sub l) := by
  obtain ⟨s, l, h1, h2⟩ := words_all lib hs sub words [] Flux.requestMax [] 0 ⟨by simp, by simp [countedWords], by simp⟩ (by simpa using hl)
  refine ⟨l, h1, ?_⟩
  simp only [Components.countWords, words_start, h2, Go.bind_ok]

/-! ### The handler -/

/-- What the handler installs on the counts. -/
def sub118 : Flux.Installed := ⟨true, true, false, false, true, false⟩

theorem sinkCounts (l : List WordCount) (hl : ∀ x ∈ l, (fieldMap (wordCountFields x)).length < 2 ^ 32) (s : WordSt) (hf : s.finalized = 0) :
    ∃ s', s.countsEvs (countsEvents sub118 l) = .ok (s', l.map countPacket ++ countsEnd) ∧ s'.words = s.words := by
  have h1 : PortIO.encode ⟨ascii "counts", [], false, true⟩ = .ok (portWire ⟨ascii "counts", [], false, true⟩) :=
    port_encode _ (show (ascii "counts").length < 2 ^ 16 by decide)
  have h2 : PortIO.encode ⟨ascii "counts", [], true, false⟩ = .ok (portWire ⟨ascii "counts", [], true, false⟩) :=
    port_encode _ (show (ascii "counts").length < 2 ^ 16 by decide)
  have e : ∀ l, countsEvents sub118 l = l.map .next ++ [.complete, .fin .complete] := by
    intro l; simp [countsEvents, sub118]
  rw [e]
  induction l with
  | nil =>
    refine ⟨{ s with finalized := 1 }, ?_, rfl⟩
    simp only [List.map_nil, List.nil_append, WordSt.countsEvs, WordSt.countsEv, h2, Go.bind_ok, hf]
    rfl
  | cons x l ih =>
    have h3 := (wordCount_ok.1 x (hl x (by simp))).2
    obtain ⟨s', h4, h5⟩ := ih (fun y hy => hl y (by simp [hy]))
    refine ⟨s', ?_, h5⟩
    simp only [List.map_cons, List.cons_append, WordSt.countsEvs, WordSt.countsEv, h3, h1, h4, Go.bind_ok]
    rfl

/-- Once the words are over, nothing but errors come. -/
theorem word_over (lib : WordLib) (s : WordSt) (h : wordsOver s.words) (is : List WordIn) (hi : ∀ p, .next p ∈ is → ∃ k : Packet, k.fits ∧ (k.port = ascii "words" → Components.stringDecode k.data ≠ none) ∧ p = k.pay) :
    ∃ o, s.runFrom lib is = .ok (s, o) := by
  have hp : ∀ op : Flux.POp Bytes, (∀ c, op ≠ .onSubscribe c) → (∀ a b, op ≠ .subscribe a b) →
      (∀ i c, op ≠ .call i c) → s.handlerPush lib op = .ok (s, []) := by
    intro op h1 h2 h3
    simp only [WordSt.handlerPush, WordSt.push, h op h1 h2 h3, List.map_nil, WordSt.wordsEvs, Go.bind_ok, WordSt.countsEvs]
  have hn : ∀ w, s.handlerPush lib (.next w [] []) = .ok (s, []) := fun w => hp _ (by simp) (by simp) (by simp)
  have hc : s.handlerPush lib (.complete []) = .ok (s, []) := hp _ (by simp) (by simp) (by simp)
  induction is with
  | nil => exact ⟨[], rfl⟩
  | cons i is ih =>
    obtain ⟨o, ho⟩ := ih (fun p hp => hi p (by simp [hp]))
    have h1 : ∃ o1, s.onIn lib i = .ok (s, o1) := by
      cases i with
      | complete => exact ⟨[], hc⟩
      | next p =>
        obtain ⟨k, hk, hd, rfl⟩ := hi p (by simp)
        simp only [WordSt.onIn, Packet.pay, port_decode ⟨k.port, [], k.complete, k.next⟩ hk, Go.bind_ok]
        split
        · rename_i hpt
          cases k.next || k.complete with
          | false => exact ⟨_, rfl⟩
          | true =>
            simp only [if_true]
            split
            · rename_i hx; exact absurd hx (hd hpt)
            · exact ⟨_, rfl⟩
            · rw [hn]
              simp only [Go.bind_ok, hc, Bool.false_eq_true, if_false]
              exact ⟨_, rfl⟩
        · exact ⟨_, rfl⟩
    obtain ⟨o1, h1⟩ := h1
    simp only [WordSt.runFrom, h1, ho, Go.bind_ok]
    exact ⟨_, rfl⟩

theorem handler_end (lib : WordLib) (hs : Sorts lib) (n : Int) (words : List Bytes) (map : List WordCount) (h : Holds words map)
    (hl : words.length < 2 ^ 31 - 1) (hsh : ∀ x ∈ map, (fieldMap (wordCountFields x)).length < 2 ^ 32) :
    ∃ s' l, Counts words l ∧ wordsOver s'.words ∧ (⟨wordsAt n, countsAt sub118, map, 0⟩ : WordSt).handlerPush lib (.complete []) =
      .ok (s', l.map countPacket ++ countsEnd) := by
  have h0 : ((lib.order map).length : Int) < Flux.requestMax := by
    have := h.len
    rw [(hs map).1.length_eq]
    show _ < (2147483647 : Int)
    omega
  obtain ⟨p, q, h1, h2⟩ := words_end lib sub118 n map 0 h0
  obtain ⟨s', h3, h4⟩ := sinkCounts (lib.order map) (fun x hx => hsh x ((hs map).1.mem_iff.1 hx)) ⟨p, q, map, 0⟩ rfl
  refine ⟨s', lib.order map, counts_of_holds hs h (by omega), by rw [h4]; exact h1, ?_⟩
  simp only [WordSt.handlerPush, h2, Go.bind_ok, h3]

/-- The words counted are among those that were sent. -/
theorem counted_short (lib : WordLib) (ws : List Bytes) (hw : shortWords lib.lower ws) (map : List WordCount)
    (h : Holds (countedWords lib.lower ws) map) : ∀ x ∈ map, (fieldMap (wordCountFields x)).length < 2 ^ 32 := by
  intro x hx
  have h1 := ((h.mem x).1 hx).1
  simp only [countedWords, List.mem_filter, List.mem_map] at h1
  obtain ⟨⟨w, h2, h3⟩, -⟩ := h1
  have := (hw w h2).2 x.count
  rw [h3] at this
  exact this

theorem seen_counts (l : List WordCount) (o : List SinkOp) :
    seenOfSink ((l.map countPacket ++ countsEnd) ++ o) = l.map countPacket ++ countsEnd := by
  induction l with
  | nil => rfl
  | cons x l ih => simp only [List.map_cons, List.cons_append, countPacket, seenOfSink] at ih ⊢; rw [ih]

/-- Only the first payload for the port counts. -/
theorem handler_run (lib : WordLib) (hs : Sorts lib) (ks : List Packet) (hk : ∀ k ∈ ks, k.fits)
    (hn : ∀ k ∈ ks, k.port = ascii "words" → (k.next || k.complete) = true)
    (hd : ∀ k ∈ ks, k.port = ascii "words" → Components.stringDecode k.data ≠ none) (ws : List Bytes)
    (hf : ((ks.find? fun k => k.port = ascii "words").map (·.data)).toList = ws.map str) (hw : shortWords lib.lower ws) :
    handlerCounts lib ws (Components.wordHandler lib (wordInput ks)) := by
  suffices h : ∃ l s' o, Counts (countedWords lib.lower ws) l ∧
      (⟨wordsAt Flux.requestMax, countsAt sub118, [], 0⟩ : WordSt).runFrom lib (wordInput ks) = .ok (s', o) ∧
      seenOfSink o = l.map countPacket ++ countsEnd by
    obtain ⟨l, s', o, h1, h2, h3⟩ := h
    refine ⟨l, o, h1, ?_, h3⟩
    simp only [Components.wordHandler]
    have := words_start sub118
    simp only [sub118] at this h2 ⊢
    rw [this, h2]
    rfl
  have h0 : Holds (countedWords lib.lower []) [] := ⟨by simp, by simp [countedWords], by simp⟩
  induction ks with
  | nil =>
    have : ws = [] := by simpa using hf.symm
    subst this
    obtain ⟨s', l, h1, h2, h3⟩ := handler_end lib hs Flux.requestMax [] [] h0 (by simp) (by simp)
    refine ⟨l, s', _, h1, ?_, seen_counts l []⟩
    simp only [wordInput, List.map_nil, List.nil_append, WordSt.runFrom, WordSt.onIn, h3, Go.bind_ok]
  | cons k ks ih =>
    have hk1 := hk k (by simp)
    have hk2 : ∀ x ∈ ks, x.fits := fun x hx => hk x (by simp [hx])
    simp only [wordInput, List.map_cons, List.cons_append, WordSt.runFrom]
    by_cases hp : k.port = ascii "words"
    · have hnc := hn k (by simp) hp
      have hdn := hd
      simp only [List.find?_cons, hp, decide_true, Option.map_some, Option.toList_some] at hf
      obtain ⟨w, rfl⟩ : ∃ w, ws = [w] := by
        cases ws with
        | nil => simp at hf
        | cons w ws => cases ws with
          | nil => exact ⟨w, rfl⟩
          | cons => simp at hf
      have hd : k.data = str w := by simpa using hf
      obtain ⟨n', map', h1, h2⟩ := words_word lib sub118 Flux.requestMax [] [] h0 0 w
      rw [List.nil_append] at h2
      have h2l : (countedWords lib.lower [w]).length < 2 ^ 31 - 1 := by
        have : (countedWords lib.lower [w]).length ≤ 1 := by
          simp only [countedWords]
          exact Nat.le_trans (List.length_filter_le _ _) (by simp)
        omega
      obtain ⟨s', l, h3, h4, h5⟩ := handler_end lib hs n' _ map' h2 h2l (counted_short lib [w] hw map' h2)
      obtain ⟨o, h6⟩ := word_over lib s' h4 (ks.map (fun k => .next k.pay) ++ [.complete]) (by
        intro p hp
        simp only [List.mem_append, List.mem_map, List.mem_singleton, reduceCtorEq, or_false] at hp
        obtain ⟨k', h7, h8⟩ := hp
        exact ⟨k', hk2 k' h7, hdn k' (by simp [h7]), by cases h8; rfl⟩)
      have h7 : (⟨wordsAt Flux.requestMax, countsAt sub118, [], 0⟩ : WordSt).onIn lib (.next k.pay) =
          .ok (s', l.map countPacket ++ countsEnd) := by
        have h8 : Components.stringDecode (str w) = some (.ok w) := stringDecode_str w (hw w (by simp)).1
        have h9 : (⟨wordsAt Flux.requestMax, countsAt sub118, [], 0⟩ : WordSt).handlerPush lib (.next w [] []) =
            .ok (⟨wordsAt n', countsAt sub118, map', 0⟩, []) := by
          simp only [WordSt.handlerPush, h1, Go.bind_ok, WordSt.countsEvs]
        have hpd := port_decode ⟨k.port, [], k.complete, k.next⟩ hk1
        rw [hp] at hpd
        simp only [WordSt.onIn, Packet.pay, hp, hpd, Go.bind_ok, hnc, hd, h8, h9, h5, if_true, List.nil_append, Bool.false_eq_true, if_false]
      rw [h7]
      simp only [Go.bind_ok, h6]
      exact ⟨l, s', _, h3, rfl, seen_counts l o⟩
    · have h7 : (⟨wordsAt Flux.requestMax, countsAt sub118, [], 0⟩ : WordSt).onIn lib (.next k.pay) =
          .ok (⟨wordsAt Flux.requestMax, countsAt sub118, [], 0⟩, []) := by
        simp only [WordSt.onIn, Packet.pay, port_decode ⟨k.port, [], k.complete, k.next⟩ hk1, Go.bind_ok]
        rw [if_neg hp]
      rw [h7]
      simp only [List.find?_cons, hp, decide_false] at hf
      obtain ⟨l, s', o, h1, h2, h3⟩ := ih hk2 (fun x hx => hn x (by simp [hx])) (fun x hx => hd x (by simp [hx])) hf
      simp only [wordInput] at h2
      simp only [Go.bind_ok, h2, List.nil_append]
      exact ⟨l, s', o, h1, rfl, h3⟩

/-- C118 for the handler, partial: if at most one payload is for the port. Missing: more than one word, and a payload that
only completes the port. -/
theorem C118_handler_partial (lib : WordLib) (ks : List Packet) (ws : List Bytes) (hs : Sorts lib) (hk : ∀ k ∈ ks, k.fits)
    (hv : portValues (ascii "words") ks = ws.map str) (hw : shortWords lib.lower ws)
    (h1 : ks.countP (fun k => k.port = ascii "words") ≤ 1) (h2 : ∀ k ∈ ks, k.port = ascii "words" → k.next = true) :
    handlerCounts lib ws (Components.wordHandler lib (wordInput ks)) := by
  have hfv : ((ks.find? fun k => k.port = ascii "words").map (·.data)).toList = portValues (ascii "words") ks ∧
      ∀ k ∈ ks, k.port = ascii "words" → k.data ∈ portValues (ascii "words") ks := by
    clear hv hk hw
    induction ks with
    | nil => exact ⟨rfl, by simp⟩
    | cons k ks ih =>
      by_cases hp : k.port = ascii "words"
      · have hz : ∀ x ∈ ks, ¬ x.port = ascii "words" := by
          have : ks.countP (fun k => k.port = ascii "words") = 0 := by
            rw [List.countP_cons_of_pos (by simpa using hp)] at h1; omega
          simpa [List.countP_eq_zero] using this
        have hz' : portValues (ascii "words") ks = [] := by
          clear ih h1 h2
          induction ks with
          | nil => rfl
          | cons x ks ih => simp only [portValues, if_neg (hz x (by simp))]; exact ih fun y hy => hz y (by simp [hy])
        refine ⟨by simp [portValues, hp, h2 k (by simp) hp, hz'], fun x hx hxp => ?_⟩
        rcases List.mem_cons.1 hx with rfl | hx
        · simp [portValues, hp, h2 x (by simp) hp]
        · exact absurd hxp (hz x hx)
      · rw [List.countP_cons_of_neg (by simpa using hp)] at h1
        have := ih h1 (fun x hx => h2 x (by simp [hx]))
        refine ⟨by simpa [portValues, hp, List.find?_cons] using this.1, fun x hx hxp => ?_⟩
        rcases List.mem_cons.1 hx with rfl | hx
        · exact absurd hxp hp
        · simpa [portValues, hp] using this.2 x hx hxp
  refine handler_run lib hs ks hk (fun k h h' => by simp [h2 k h h']) (fun k h h' => ?_) ws (hfv.1.trans hv) hw
  have h3 := hfv.2 k h h'
  rw [hv] at h3
  obtain ⟨w, h4, h5⟩ := List.mem_map.1 h3
  rw [← h5, stringDecode_str w (hw w h4).1]
  simp

/-- C118 for the handler, partial: what happens to several words. Only the first one is counted
(as long as the decoder does not crash, C41). -/
theorem C118_first_partial (lib : WordLib) (ks : List Packet) (k : Packet) (w : Bytes) (hs : Sorts lib) (hk : ∀ k ∈ ks, k.fits)
    (hn : ∀ k ∈ ks, k.port = ascii "words" → k.next = true) (hf : ks.find? (fun k => k.port = ascii "words") = some k)
    (hd : k.data = str w) (hw : shortWords lib.lower [w])
    (hp : ∀ k ∈ ks, k.port = ascii "words" → Components.stringDecode k.data ≠ none) :
    handlerCounts lib [w] (Components.wordHandler lib (wordInput ks)) :=
  handler_run lib hs ks hk (fun k h h' => by simp [hn k h h']) hp [w] (by rw [hf]; simp [hd]) hw

/-- C118, words that are not understood: if the first payload for the port has data that is not a string, the subscriber sees this
error and nothing else. -/
theorem C118_error (lib : WordLib) (ks : List Packet) (k : Packet) (e : String) (o : List SinkOp) (hk : ∀ k ∈ ks, k.fits)
    (hf : ks.find? (fun k => k.port = ascii "words") = some k) (hn : k.next = true)
    (he : Components.stringDecode k.data = some (.error e)) (h : Components.wordHandler lib (wordInput ks) = .ok o) :
    seenOfSink o = [.error e] := by
  simp only [Components.wordHandler] at h
  generalize WordSt.start ⟨true, true, false, false, true, false⟩ = s at h
  suffices hr : ∀ s' o, s.runFrom lib (wordInput ks) = .ok (s', o) → seenOfSink o = [.error e] by
    cases hx : s.runFrom lib (wordInput ks) with
    | err m => rw [hx] at h; cases h
    | panic => rw [hx] at h; cases h
    | ok x => rw [hx] at h; cases h; exact hr x.1 x.2 hx
  clear h o
  induction ks with
  | nil => cases hf
  | cons x ks ih =>
    intro s' o h
    have hx : PortIO.decode x.pay.metadata = .ok ⟨x.port, [], x.next || x.complete, x.next || x.complete⟩ :=
      port_decode ⟨x.port, [], x.complete, x.next⟩ (hk x (by simp))
    simp only [wordInput, List.map_cons, List.cons_append, WordSt.runFrom, WordSt.onIn, hx, Go.bind_ok] at h
    by_cases hp : x.port = ascii "words"
    · simp only [List.find?_cons, hp, decide_true, Option.some.injEq] at hf
      subst hf
      have hd : x.pay.data = x.data := rfl
      simp only [hp, if_true, hn, Bool.true_or, hd, he, Go.bind_ok] at h
      cases hr : s.runFrom lib (ks.map (fun k => .next k.pay) ++ [.complete]) with
      | err m => rw [hr] at h; cases h
      | panic => rw [hr] at h; cases h
      | ok y => rw [hr] at h; cases h; rfl
    · simp only [List.find?_cons, hp, decide_false] at hf
      simp only [hp, if_false, Go.bind_ok] at h
      cases hr : s.runFrom lib (ks.map (fun k => .next k.pay) ++ [.complete]) with
      | err m => rw [hr] at h; cases h
      | panic => rw [hr] at h; cases h
      | ok y =>
        rw [hr] at h
        cases h
        exact ih (fun x hx => hk x (by simp [hx])) hf y.1 y.2 hr

/-! ### Examples -/

def insertCount (x : WordCount) : List WordCount → List WordCount
  | [] => [x]
  | y :: l => if y.count ≤ x.count then x :: y :: l else y :: insertCount x l

/-- A library whose `order` is insertion sort, and which leaves all letters as they are, except that it knows the word THE. -/
def lib118 : WordLib := ⟨fun w => if w = ascii "THE" then ascii "the" else w, fun l => l.foldr insertCount []⟩

theorem insertCount_perm (x : WordCount) (l : List WordCount) : (insertCount x l).Perm (x :: l) := by
  induction l with
  | nil => exact List.Perm.refl _
  | cons y l ih =>
    simp only [insertCount]
    split
    · exact List.Perm.refl _
    · exact (List.Perm.cons y ih).trans (List.Perm.swap x y l)

theorem insertCount_sorted (x : WordCount) (l : List WordCount) (h : l.Pairwise fun a b => b.count ≤ a.count) :
    (insertCount x l).Pairwise fun a b => b.count ≤ a.count := by
  induction l with
  | nil => simp [insertCount]
  | cons y l ih =>
    rw [List.pairwise_cons] at h
    simp only [insertCount]
    split
    · rename_i hc
      rw [List.pairwise_cons, List.pairwise_cons]
      refine ⟨fun z hz => ?_, h⟩
      rcases List.mem_cons.1 hz with rfl | hz
      · exact hc
      · exact UInt64.le_trans (h.1 z hz) hc
    · rename_i hc
      rw [List.pairwise_cons]
      refine ⟨fun z hz => ?_, ih h.2⟩
      rcases List.mem_cons.1 ((insertCount_perm x l).mem_iff.1 hz) with rfl | hz
      · rw [UInt64.le_iff_toNat_le] at hc ⊢; omega
      · exact h.1 z hz

theorem sorts118 : Sorts lib118 := by
  intro l
  show (l.foldr insertCount []).Perm l ∧ (l.foldr insertCount []).Pairwise _
  induction l with
  | nil => exact ⟨List.Perm.refl _, List.Pairwise.nil⟩
  | cons x l ih =>
    exact ⟨(insertCount_perm x _).trans (List.Perm.cons x ih.1), insertCount_sorted x _ ih.2⟩

/-- Five words, one of them not counted. -/
example : Sorts lib118 ∧ ([ascii "to", ascii "be", ascii "or", ascii "be", ascii "THE"] : List Bytes).length < 2 ^ 31 - 1 ∧
    Components.countWords lib118 sub118 [ascii "to", ascii "be", ascii "or", ascii "be", ascii "THE"] =
      .ok [.next ⟨ascii "be", 2⟩, .next ⟨ascii "or", 1⟩, .complete, .fin .complete] :=
  ⟨sorts118, by decide, by decide +kernel⟩

/-- Payloads with one word, which is also the end of the words. -/
def one118 : List Packet := [⟨ascii "other", true, true, []⟩, ⟨ascii "words", true, true, str (ascii "be")⟩]

/-- Two words. -/
def two118 : List Packet := [⟨ascii "words", true, false, str (ascii "be")⟩, ⟨ascii "words", true, false, str (ascii "or")⟩]

theorem short118 : shortWords lib118.lower [ascii "be", ascii "or"] := by
  have hu : ∀ n : Nat, (Spec.uint n).length ≤ 9 := by
    intro n; unfold Spec.uint; repeat' split
    all_goals simp [be_len]
  have key : ∀ (w : Bytes) (n : UInt64), (str w).length ≤ 3 → (fieldMap (wordCountFields ⟨w, n⟩)).length < 2 ^ 32 := by
    intro w n hw
    have h1 := hu n.toNat
    have h2 : (mapHead 2).length = 1 := by decide
    have h3 : (str (ascii "word")).length = 5 := by decide
    have h4 : (str (ascii "count")).length = 6 := by decide
    simp only [fieldMap, wordCountFields, fieldBytes, List.length_append, List.length_cons, List.length_nil, h2, h3, h4, Val.enc, List.flatMap_cons, List.flatMap_nil]
    omega
  intro w hw
  simp only [List.mem_cons, List.not_mem_nil, or_false] at hw
  rcases hw with rfl | rfl
  · exact ⟨by decide, fun n => key _ _ (by decide)⟩
  · exact ⟨by decide, fun n => key _ _ (by decide)⟩

example : (∀ k ∈ one118, k.fits) ∧ portValues (ascii "words") one118 = [ascii "be"].map str ∧
    one118.countP (fun k => k.port = ascii "words") ≤ 1 ∧ (∀ k ∈ one118, k.port = ascii "words" → k.next = true) ∧
    Components.wordHandler lib118 (wordInput one118) = .ok ([countPacket ⟨ascii "be", 1⟩] ++ countsEnd) :=
  ⟨by decide, by decide, by decide, by decide, by decide +kernel⟩

/-- A word that is not a string, in a payload behind one for another port, and before a word. -/
def bad118 : List Packet := [⟨ascii "other", true, false, []⟩, ⟨ascii "words", true, false, []⟩, ⟨ascii "words", true, false, str (ascii "be")⟩]

example : (∀ k ∈ bad118, k.fits) ∧ bad118.find? (fun k => k.port = ascii "words") = some ⟨ascii "words", true, false, []⟩ ∧
    (∃ e, Components.stringDecode [] = some (.error e)) ∧ (∃ o, Components.wordHandler lib118 (wordInput bad118) = .ok o) := by
  have hr : (match Components.wordHandler lib118 (wordInput bad118) with | .ok _ => true | _ => false) = true := by decide +kernel
  refine ⟨by decide, by decide, ⟨_, rfl⟩, ?_⟩
  cases h : Components.wordHandler lib118 (wordInput bad118) with
  | ok o => exact ⟨o, rfl⟩
  | err e => rw [h] at hr; cases hr
  | panic => rw [h] at hr; cases hr

theorem two118_run : Components.wordHandler lib118 (wordInput two118) = .ok ([countPacket ⟨ascii "be", 1⟩] ++ countsEnd) := by
  decide +kernel

/-- C118 fails: of two words sent to the handler only the first is counted. -/
theorem C118_violated : ¬ C118_statement := by
  intro h
  obtain ⟨l, o, h1, h2, h3⟩ := h lib118 two118 [ascii "be", ascii "or"] sorts118 (by decide) (by decide) short118 (by decide)
  rw [two118_run] at h2
  cases h2
  have h4 : l.length = 1 := by
    have := congrArg List.length h3
    simp only [List.length_append, List.length_map] at this
    rw [show (seenOfSink ([countPacket ⟨ascii "be", 1⟩] ++ countsEnd)).length = 3 from rfl, show countsEnd.length = 2 from rfl] at this
    omega
  have h5 : (⟨ascii "be", 1⟩ : WordCount) ∈ l := (h1.exact' _).2 (by decide)
  have h6 : (⟨ascii "or", 1⟩ : WordCount) ∈ l := (h1.exact' _).2 (by decide)
  obtain ⟨x, rfl⟩ := List.length_eq_one_iff.1 h4
  rw [List.mem_singleton] at h5 h6
  rw [← h5] at h6
  revert h6
  decide

end Verif.Props
