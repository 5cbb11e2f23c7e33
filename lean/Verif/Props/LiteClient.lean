import Verif.Model.LiteClient
import Verif.Props.Acn

/-!
# C41, C42: what the lightweight client receives and how it stops
-/

namespace Verif

open Lite LiteClient

/-- The envelope in data from the node, if it is a well-formed envelope message addressed to
`address`. -/
def addressedTo (address : Bytes) (frame : Bytes) : Option Envelope :=
  match AcnMessage.decode frame with
  | some (some (.aeaEnvelope b _)) =>
    match Envelope.decode b with
    | some e => if e.to = address then some e else none
    | none => none
  | _ => none

/-- The envelopes for `address`, in order of arrival. -/
def mine (address : Bytes) (frames : List Bytes) : List Envelope :=
  frames.filterMap (addressedTo address)

/-- What a goroutine holds. -/
def Lite.Phase.held : Phase → List Envelope
  | .pushing e => [e]
  | _ => []

/-- The goroutine is gone. -/
abbrev Lite.Phase.over : Phase → Bool
  | .stopped => true
  | .crashed => true
  | _ => false

/-- The envelopes that `Get` returned. -/
def LiteClient.received (c : LiteClient) : List Envelope := c.got.filterMap id

/-- What became of the data. -/
def Accounted (c : LiteClient) : Prop :=
  c.received ++ c.queue ++ c.phase.held = mine c.address c.frames ∨
  (c.phase.over = true ∧ ∃ e, c.received ++ c.queue ++ [e] = mine c.address c.frames)

theorem mine_append (a : Bytes) (xs ys : List Bytes) : mine a (xs ++ ys) = mine a xs ++ mine a ys :=
  List.filterMap_append ..

/-- The result of handling, in terms of the frame. -/
theorem handle_cases (T : AcnTexts) (rest : Bytes → Envelope) (p : Pipe) :
    (nextFrame p = [] ∧ (handle T rest p).1 = .result none true) ∨
    ∃ f, nextFrame p = [f] ∧
      (((handle T rest p).1 = .result (some emptyEnvelope) true ∧ ∀ a, addressedTo a f = none) ∨
       (∃ b, Envelope.decode b = none ∧ (handle T rest p).1 = .result (some (rest b)) true ∧
          ∀ a, addressedTo a f = none) ∨
       (∃ e failed, (handle T rest p).1 = .result (some e) failed ∧
          ∀ a, addressedTo a f = if e.to = a then some e else none) ∨
       ((∃ s, (handle T rest p).1 = .status s) ∧ ∀ a, addressedTo a f = none) ∨
       ((handle T rest p).1 = .crash ∧ ∀ a, addressedTo a f = none)) := by
  unfold handle
  cases hr : p.reads with
  | nil => left; simp [Pipe.read, hr, nextFrame]
  | cons r rs =>
    cases r with
    | none => left; simp [Pipe.read, hr, nextFrame]
    | some f =>
      right
      refine ⟨f, by simp [nextFrame, hr], ?_⟩
      simp only [Pipe.read, hr]
      cases hd : AcnMessage.decode f with
      | none => left; simp [Acn.decodeAcnMessage, addressedTo, hd]
      | some m =>
        rcases m with _ | m
        · left; simp [Acn.decodeAcnMessage, addressedTo, hd]
        · cases m
          case aeaEnvelope b r =>
            simp only [Acn.decodeAcnMessage, hd]
            cases he : Envelope.decode b with
            | none =>
              right; left
              exact ⟨b, he, by simp, by simp [addressedTo, hd, he]⟩
            | some e =>
              right; right; left
              dsimp only
              split
              · exact ⟨e, false, rfl, by simp [addressedTo, hd, he]⟩
              · exact ⟨e, true, rfl, by simp [addressedTo, hd, he]⟩
          case status s =>
            right; right; right
            simp only [Acn.decodeAcnMessage, hd]
            cases s with
            | none => right; simp [addressedTo, hd]
            | some s => left; simp [addressedTo, hd]
          all_goals left; simp [Acn.decodeAcnMessage, addressedTo, hd]

/-- Invariant of the receive loop. -/
theorem accounted_step {T : AcnTexts} {rest : Bytes → Envelope} {c : LiteClient} (st : LiteClient.Step)
    (hA : c.isClosing = true → c.address ≠ [])
    (hR : c.isClosing = true → ∀ b, Envelope.decode b = none → (rest b).to ≠ c.address)
    (h : Accounted c) : Accounted (c.step T rest st) ∧ (c.step T rest st).address = c.address := by
  cases st with
  | get =>
    simp only [LiteClient.step]
    split
    · rename_i e q hq
      refine ⟨?_, rfl⟩
      have hr : LiteClient.received { c with queue := q, got := c.got ++ [some e] } = c.received ++ [e] := by
        simp [LiteClient.received]
      unfold Accounted at h ⊢
      rw [hr]
      rw [hq] at h
      simpa using h
    · rename_i hq
      split
      · refine ⟨?_, rfl⟩
        have hr : LiteClient.received { c with got := c.got ++ [none] } = c.received := by
          simp [LiteClient.received]
        unfold Accounted at h ⊢
        rw [hr]
        exact h
      · exact ⟨h, rfl⟩
  | takeStatus => exact ⟨h, rfl⟩
  | disconnect ok =>
    simp only [LiteClient.step]
    split <;> exact ⟨h, rfl⟩
  | listen =>
    simp only [LiteClient.step, LiteClient.listen]
    split
    · rename_i hph
      have h0 : c.received ++ c.queue = mine c.address c.frames := by
        rcases h with h | ⟨h, _⟩
        · simpa [Phase.held, hph] using h
        · simp [hph] at h
      have hc := handle_cases T rest c.pipe
      generalize handle T rest c.pipe = hp at *
      obtain ⟨hd, p⟩ := hp
      dsimp only at *
      rcases hc with ⟨hn, rfl⟩ | ⟨f, hn, hc⟩
      · rw [hn, List.append_nil]
        dsimp only
        split
        · exact ⟨.inl (by simpa [Phase.held, LiteClient.received] using h0), rfl⟩
        · exact ⟨.inl (by simpa [Phase.held, LiteClient.received, hph] using h0), rfl⟩
      · rw [hn]
        have hnone : addressedTo c.address f = none → mine c.address (c.frames ++ [f]) =
            mine c.address c.frames := by
          intro hf; rw [mine_append]; simp [mine, hf]
        rcases hc with ⟨rfl, hf⟩ | ⟨b, hb, rfl, hf⟩ | ⟨e, failed, rfl, hf⟩ | ⟨⟨s, rfl⟩, hf⟩ | ⟨rfl, hf⟩
        · have hm := hnone (hf _)
          dsimp only
          split
          · exact ⟨.inl (by simpa [Phase.held, LiteClient.received, hm] using h0), rfl⟩
          · rename_i hcl
            have := hA (by simpa using hcl)
            rw [if_pos (by simpa [emptyEnvelope] using fun h => this h)]
            exact ⟨.inl (by simpa [Phase.held, LiteClient.received, hm, hph] using h0), rfl⟩
        · have hm := hnone (hf _)
          dsimp only
          split
          · exact ⟨.inl (by simpa [Phase.held, LiteClient.received, hm] using h0), rfl⟩
          · rename_i hcl
            rw [if_pos (hR (by simpa using hcl) b hb)]
            exact ⟨.inl (by simpa [Phase.held, LiteClient.received, hm, hph] using h0), rfl⟩
        · have hm : mine c.address (c.frames ++ [f]) = mine c.address c.frames ++
              (if e.to = c.address then [e] else []) := by
            rw [mine_append]
            congr 1
            simp only [mine, List.filterMap_cons, hf, List.filterMap_nil]
            by_cases he : e.to = c.address <;> simp [he]
          dsimp only
          split
          · refine ⟨?_, rfl⟩
            by_cases he : e.to = c.address
            · right
              refine ⟨rfl, e, ?_⟩
              rw [hm, if_pos he, ← h0]
              rfl
            · left
              rw [hm, if_neg he]
              simpa [LiteClient.received, Phase.held] using h0
          · split
            · rename_i he
              refine ⟨.inl ?_, rfl⟩
              rw [hm, if_neg he]
              simpa [LiteClient.received, Phase.held, hph] using h0
            · rename_i he
              refine ⟨.inl ?_, rfl⟩
              rw [hm, if_pos (by simpa using he)]
              simp only [LiteClient.received, Phase.held] at h0 ⊢
              rw [h0]
        · have hm := hnone (hf _)
          exact ⟨.inl (by simpa [Phase.held, LiteClient.received, hm] using h0), rfl⟩
        · have hm := hnone (hf _)
          exact ⟨.inl (by simpa [Phase.held, LiteClient.received, hm] using h0), rfl⟩
    · rename_i e hph
      have h0 : c.received ++ c.queue ++ [e] = mine c.address c.frames := by
        rcases h with h | ⟨h, _⟩
        · simpa [Phase.held, hph] using h
        · simp [hph] at h
      split
      · exact ⟨.inr ⟨rfl, e, h0⟩, rfl⟩
      · split
        · exact ⟨.inl (by simpa [Phase.held, LiteClient.received] using h0), rfl⟩
        · exact ⟨h, rfl⟩
    · rename_i hph
      refine ⟨?_, rfl⟩
      rcases h with h | ⟨h, _⟩
      · left
        dsimp only
        split <;> simpa [Phase.held, hph, LiteClient.received] using h
      · simp [hph] at h
    · rename_i s hph
      have h0 : c.received ++ c.queue = mine c.address c.frames := by
        rcases h with h | ⟨h, _⟩
        · simpa [Phase.held, hph] using h
        · simp [hph] at h
      split
      · exact ⟨.inl (by simpa [Phase.held, LiteClient.received] using h0), rfl⟩
      · split
        · exact ⟨.inl (by simpa [Phase.held, LiteClient.received] using h0), rfl⟩
        · exact ⟨h, rfl⟩
    · exact ⟨h, rfl⟩
    · exact ⟨h, rfl⟩

theorem closing_step (T : AcnTexts) (rest : Bytes → Envelope) (c : LiteClient) (st : LiteClient.Step) :
    (∀ ok, st ≠ .disconnect ok) → (c.step T rest st).closing = c.closing := by
  intro h
  cases st with
  | get => simp only [LiteClient.step]; split; · rfl
           · split <;> rfl
  | takeStatus => rfl
  | disconnect ok => exact absurd rfl (h ok)
  | listen =>
    simp only [LiteClient.step, LiteClient.listen]
    split
    · generalize handle T rest c.pipe = hp
      obtain ⟨hd, p⟩ := hp
      cases hd <;> dsimp only
      split
      · rfl
      · split
        · rfl
        · split <;> rfl
    · split
      · rfl
      · split <;> rfl
    · rfl
    · split
      · rfl
      · split <;> rfl
    · rfl
    · rfl

/-- **C41, partial.** For all data from the node and every scheduling: the envelopes that `Get`
returned, those waiting in the queue and the one being put there are, in this order, exactly the
envelopes addressed to the registered address in the data read so far, each as often as it arrived;
when the goroutine ends, the one it is working on may be missing. During `Disconnect` this needs two
assumptions: the registered address is not empty, and an envelope that cannot be decoded does not leave
the registered address behind; without them see `C41_counterexample`. -/
theorem C41_get_partial (T : AcnTexts) (rest : Bytes → Envelope) (address : Bytes) (pipe : Pipe)
    (steps : List LiteClient.Step)
    (h : (∀ ok, .disconnect ok ∉ steps) ∨
      (address ≠ [] ∧ ∀ b, Envelope.decode b = none → (rest b).to ≠ address)) :
    let c := LiteClient.run T rest (.connected address pipe) steps
    (c.received ++ c.queue ++ c.phase.held = mine address c.frames) ∨
    (c.phase.over = true ∧ ∃ e, c.received ++ c.queue ++ [e] = mine address c.frames) := by
  have key : ∀ (steps : List LiteClient.Step) (c : LiteClient), Accounted c → c.address = address →
      ((∀ ok, .disconnect ok ∉ steps) ∧ c.closing = .no ∨
        (address ≠ [] ∧ ∀ b, Envelope.decode b = none → (rest b).to ≠ address)) →
      Accounted (c.run T rest steps) ∧ (c.run T rest steps).address = address := by
    intro steps
    induction steps with
    | nil => intro c hc ha _; exact ⟨hc, ha⟩
    | cons st steps ih =>
      intro c hc ha hor
      have hst := accounted_step (T := T) (rest := rest) (c := c) st
        (by
          intro hcl
          rcases hor with ⟨_, h⟩ | h
          · simp [h] at hcl
          · rw [ha]; exact h.1)
        (by
          intro hcl
          rcases hor with ⟨_, h⟩ | h
          · simp [h] at hcl
          · rw [ha]; exact h.2) hc
      refine ih _ hst.1 (by rw [hst.2, ha]) ?_
      rcases hor with ⟨h1, h2⟩ | h
      · left
        refine ⟨fun ok hk => h1 ok (List.mem_cons_of_mem _ hk), ?_⟩
        rw [closing_step T rest c st (fun ok hk => h1 ok (by simp [hk])), h2]
      · exact .inr h
  obtain ⟨h1, h2⟩ := key steps (.connected address pipe) (.inl rfl) rfl
    (by rcases h with h | h
        · exact .inl ⟨h, rfl⟩
        · exact .inr h)
  dsimp only
  unfold Accounted at h1
  rw [h2] at h1
  exact h1

/-- A consequence: every envelope returned by `Get` is one that arrived for the registered address,
and they come in the order of arrival, each once. -/
theorem C41_prefix_partial (T : AcnTexts) (rest : Bytes → Envelope) (address : Bytes) (pipe : Pipe)
    (steps : List LiteClient.Step)
    (h : (∀ ok, .disconnect ok ∉ steps) ∨
      (address ≠ [] ∧ ∀ b, Envelope.decode b = none → (rest b).to ≠ address)) :
    let c := LiteClient.run T rest (.connected address pipe) steps
    c.received <+: mine address c.frames ∧ ∀ e ∈ c.received, e.to = address := by
  have h1 := C41_get_partial T rest address pipe steps h
  dsimp only at *
  generalize LiteClient.run T rest (.connected address pipe) steps = c at *
  have hp : c.received <+: mine address c.frames := by
    rcases h1 with h1 | ⟨_, e, h1⟩
    · exact ⟨c.queue ++ c.phase.held, by rw [← List.append_assoc]; exact h1⟩
    · exact ⟨c.queue ++ [e], by rw [← List.append_assoc]; exact h1⟩
  refine ⟨hp, ?_⟩
  intro e he
  obtain ⟨t, ht⟩ := hp
  have : e ∈ mine address c.frames := by rw [← ht]; exact List.mem_append_left _ he
  obtain ⟨f, _, hf⟩ := List.mem_filterMap.1 this
  unfold addressedTo at hf
  split at hf
  case h_2 => simp at hf
  split at hf
  case h_2 => simp at hf
  split at hf
  · rename_i hto
    simp only [Option.some.injEq] at hf
    subst hf; exact hto
  · simp at hf

/-! ## C42 -/

/-- Every coming read fails, as it does when the connection was closed. -/
def ReadsFail (p : Pipe) : Prop := ∀ r ∈ p.reads, r = none

theorem handle_readsFail {T : AcnTexts} {rest : Bytes → Envelope} {p : Pipe} (h : ReadsFail p) :
    (handle T rest p).1 = .result none true ∧ ReadsFail (handle T rest p).2 ∧ nextFrame p = [] := by
  unfold handle
  cases hr : p.reads with
  | nil => simp [Pipe.read, hr, nextFrame, ReadsFail]
  | cons r rs =>
    have h0 := h r (by simp [hr])
    subst h0
    refine ⟨by simp [Pipe.read, hr], ?_, by simp [nextFrame, hr]⟩
    simp only [Pipe.read, hr]
    intro r hr'
    exact h r (by simp [hr, hr'])

/-- **C42 is false.** Suppose `Disconnect` was called while the goroutine waits for data, and the
connection gives no more data. Then the goroutine never finishes: whatever happens afterwards, it is
about to read again. It also does not wait, since each of the reads returns at once. -/
theorem C42_never_finishes (T : AcnTexts) (rest : Bytes → Envelope) (c : LiteClient)
    (steps : List LiteClient.Step) (hcl : c.isClosing = true) (hph : c.phase = .idle)
    (hr : ReadsFail c.pipe) :
    (c.run T rest steps).phase = .idle := by
  induction steps generalizing c with
  | nil => exact hph
  | cons st steps ih =>
    have hcl' : (c.step T rest st).isClosing = true := by
      cases st with
      | disconnect ok =>
        simp only [LiteClient.step]
        cases h : c.closing <;> simp only
        case flagged => cases ok <;> rfl
        all_goals first | rfl | exact hcl
      | listen => have := closing_step T rest c .listen (by simp); simp only [isClosing, this]; exact hcl
      | get => have := closing_step T rest c .get (by simp); simp only [isClosing, this]; exact hcl
      | takeStatus => exact hcl
    obtain ⟨h1, h2, h3⟩ := handle_readsFail (T := T) (rest := rest) hr
    have hlisten : c.listen T rest = { c with pipe := (handle T rest c.pipe).2 } := by
      unfold LiteClient.listen
      rw [hph]
      generalize handle T rest c.pipe = hp at *
      obtain ⟨hd, p⟩ := hp
      dsimp only at *
      subst h1
      simp [hcl, h3]
    refine ih _ hcl' ?_ ?_
    · cases st with
      | disconnect ok => simp only [LiteClient.step]; split <;> exact hph
      | listen => simp only [LiteClient.step]; rw [hlisten]; exact hph
      | get =>
        simp only [LiteClient.step]
        split
        · exact hph
        · split <;> exact hph
      | takeStatus => exact hph
    · cases st with
      | disconnect ok => simp only [LiteClient.step]; split <;> exact hr
      | listen => simp only [LiteClient.step]; rw [hlisten]; exact h2
      | get =>
        simp only [LiteClient.step]
        split
        · exact hr
        · split <;> exact hr
      | takeStatus => exact hr

/-- In particular after a connection on which the node sent nothing. -/
theorem C42_counterexample (T : AcnTexts) (rest : Bytes → Envelope) (address : Bytes) (writes : List Bool)
    (steps : List LiteClient.Step) :
    let c := (LiteClient.connected address ⟨[], writes, []⟩).run T rest
      ([.disconnect true, .disconnect true, .disconnect true, .disconnect true] ++ steps)
    c.closing = .done ∧ c.phase = .idle := by
  have hrun : (LiteClient.connected address ⟨[], writes, []⟩).run T rest
      ([.disconnect true, .disconnect true, .disconnect true, .disconnect true] ++ steps) =
      LiteClient.run T rest ⟨address, ⟨[], writes, []⟩, .idle, .done, [], [], [], []⟩ steps := rfl
  dsimp only
  rw [hrun]
  refine ⟨?_, C42_never_finishes T rest _ steps rfl rfl (by simp [ReadsFail])⟩
  have key : ∀ (steps : List LiteClient.Step) (c : LiteClient), c.closing = .done →
      (c.run T rest steps).closing = .done := by
    intro steps
    induction steps with
    | nil => intro c h; exact h
    | cons st steps ih =>
      intro c h
      refine ih _ ?_
      cases st with
      | disconnect ok => simp only [LiteClient.step, h]
      | listen => rw [closing_step T rest c _ (by simp), h]
      | get => rw [closing_step T rest c _ (by simp), h]
      | takeStatus => exact h
  exact key steps _ rfl

/-- **C42, partial.** When `Disconnect` has been called, the goroutine finishes exactly in the step
after it has put an envelope into the queue. -/
theorem C42_finishes_iff_partial (T : AcnTexts) (rest : Bytes → Envelope) (c : LiteClient)
    (hcl : c.isClosing = true) (hrun : c.phase ≠ .stopped) :
    (c.listen T rest).phase = .stopped ↔ c.phase = .pushed := by
  unfold LiteClient.listen
  cases hph : c.phase with
  | idle =>
    generalize handle T rest c.pipe = hp
    obtain ⟨hd, p⟩ := hp
    have hcl2 : (c.closing != .no) = true := hcl
    cases hd with
    | crash => simp
    | status s => simp
    | result envel failed =>
      simp only [hcl2, Bool.not_true, Bool.and_false]
      simp only [Bool.false_eq_true, if_false]
      cases envel with
      | none => simp
      | some e => dsimp only; split <;> simp
  | pushing e =>
    dsimp only
    split
    · simp
    · split <;> simp [hph]
  | pushed =>
    have hcl2 : (c.closing != .no) = true := hcl
    simp [hcl2]
  | pushingStatus s =>
    dsimp only
    split
    · simp
    · split <;> simp [hph]
  | stopped => exact absurd hph hrun
  | crashed => simp [hph]

/-- If the queue is full when `Disconnect` closes it, the goroutine crashes: it panics, and with it the
process. -/
theorem C42_crash_on_full_queue (T : AcnTexts) (rest : Bytes → Envelope) (c : LiteClient) (e : Envelope)
    (hph : c.phase = .pushing e) (hfull : 10 ≤ c.queue.length) (hcl : c.closing = .socketClosed) :
    (c.listen T rest) = c ∧ ((c.step T rest (.disconnect true)).listen T rest).phase = .crashed := by
  constructor
  · unfold LiteClient.listen
    rw [hph]
    dsimp only
    rw [if_neg (by simp [hcl]), if_neg (by omega)]
  · simp [LiteClient.step, hcl, LiteClient.listen, hph]

/-! ## Cases -/

namespace LiteDemo

/-- Texts of errors. -/
def texts : AcnTexts := ⟨fun _ => b! "d", fun _ => b! "u"⟩
/-- An envelope. -/
def env (to : Bytes) (m : Bytes) : Envelope := ⟨to, b! "bob", b! "p", m, []⟩
/-- The message carrying it. -/
def frame (e : Envelope) : Bytes :=
  ((AcnMessage.encode (some (.aeaEnvelope ((Envelope.encode e).getD []) none))).getD [])
/-- Two envelopes for the agent, one for somebody else in between. -/
def pipe : Pipe :=
  ⟨[some (frame (env (b! "ag") (b! "1"))), some (frame (env (b! "xx") (b! "2"))),
    some (frame (env (b! "ag") (b! "3")))], [true, true, true], []⟩
/-- A message whose envelope cannot be decoded. -/
def broken : Pipe := ⟨[some ((AcnMessage.encode (some (.aeaEnvelope [10, 2, 97, 103, 255] none))).getD [])],
  [true], []⟩

end LiteDemo

open LiteDemo in
set_option maxRecDepth 100000 in
set_option maxHeartbeats 4000000 in
/-- Both envelopes for the agent arrive, in order. -/
example : ((LiteClient.connected (b! "ag") pipe).run texts (fun _ => emptyEnvelope)
      [.listen, .listen, .listen, .get, .listen, .listen, .listen, .listen, .get]).got =
    [some (env (b! "ag") (b! "1")), some (env (b! "ag") (b! "3"))] := by decide

open LiteDemo in
set_option maxRecDepth 100000 in
set_option maxHeartbeats 4000000 in
/-- **C41 is false** during `Disconnect`: an envelope that could not be decoded is returned by `Get`, as
far as it was decoded. -/
theorem C41_counterexample :
    let c := (LiteClient.connected (b! "ag") broken).run texts (fun _ => env (b! "ag") [])
      [.disconnect true, .listen, .listen, .get]
    c.got = [some (env (b! "ag") [])] ∧ mine (b! "ag") c.frames = [] := by decide

end Verif
