import Verif.Model.AgentPipe
import Verif.Props.Acn

/-!
# C46: what the node takes from its agent
-/

namespace Verif

/-- The envelope in data from the agent, if it is a well-formed envelope message with `address` as its
sender that could be acknowledged. -/
def sentBy (address : Bytes) (frame : Bytes × Bool) : Option Envelope :=
  match AcnMessage.decode frame.1 with
  | some (some (.aeaEnvelope b _)) =>
    match Envelope.decode b with
    | some e => if e.sender = address ∧ frame.2 = true then some e else none
    | none => none
  | _ => none

/-- The envelopes of the agent, in order. -/
def sentOnly (address : Bytes) (frames : List (Bytes × Bool)) : List Envelope :=
  frames.filterMap (sentBy address)

/-- What the goroutine holds. -/
def AgentPipe.Phase.held : AgentPipe.Phase → List Envelope
  | .pushing e => [e]
  | _ => []

theorem sendMessage_result {m : AcnMessage} (hm : m.encode ≠ none) (p : Pipe) :
    (p.writes.head? = some true ∧ ∃ p', Acn.sendMessage m p = (.ok (), p')) ∨
    (p.writes.head? ≠ some true ∧ ∃ p', Acn.sendMessage m p = (.err .write, p')) := by
  unfold Acn.sendMessage
  cases he : m.encode with
  | none => exact absurd he hm
  | some b =>
    simp only [Pipe.write]
    cases hw : p.writes with
    | nil => right; simp
    | cons w ws => cases w <;> simp

theorem success_encodes :
    AcnMessage.encode (some (.status (some ⟨StatusCode.success.toInt, []⟩))) ≠ none := by decide

/-- The result of handling, in terms of the frame. -/
theorem fromPipe_cases (T : AcnTexts) (p : Pipe) :
    (AgentPipe.nextFrame p = [] ∧ (Acn.handleFromPipe T p).1 = .err .read) ∨
    ∃ f, AgentPipe.nextFrame p = [f] ∧
      ((∃ e, e ≠ .read ∧ (Acn.handleFromPipe T p).1 = .err e ∧
          AcnMessage.decode f.1 ≠ some (some (.status none)) ∧ ∀ a, sentBy a f = none) ∨
       (∃ e, (Acn.handleFromPipe T p).1 = .ok (.envelope e) ∧
          AcnMessage.decode f.1 ≠ some (some (.status none)) ∧ ∀ a, sentBy a f = if e.sender = a then some e else none) ∨
       (∃ s, (Acn.handleFromPipe T p).1 = .ok (.status s) ∧
          AcnMessage.decode f.1 = some (some (.status (some s))) ∧ ∀ a, sentBy a f = none) ∨
       ((Acn.handleFromPipe T p).1 = .panic ∧
          AcnMessage.decode f.1 = some (some (.status none)) ∧ ∀ a, sentBy a f = none)) := by
  unfold Acn.handleFromPipe
  cases hr : p.reads with
  | nil => left; simp [PipeM.bind, Pipe.read, hr, AgentPipe.nextFrame]
  | cons r rs =>
    cases r with
    | none => left; simp [PipeM.bind, Pipe.read, hr, AgentPipe.nextFrame]
    | some f =>
      right
      refine ⟨(f, p.writes.head? == some true), by simp [AgentPipe.nextFrame, hr], ?_⟩
      simp only [PipeM.bind, Pipe.read, hr]
      have herr : ∀ (text : Bytes) (code : StatusCode) (q : Pipe) (e : AcnErr),
          ((PipeM.ignoring (Acn.sendError text code)).bind fun _ => (PipeM.fail e : PipeM Acn.Handled)) q =
            (.err e, ((PipeM.ignoring (Acn.sendError text code)) q).2) := by
        intro text code q e
        simp only [PipeM.bind, PipeM.ignoring, Acn.sendError, Acn.sendMessage, PipeM.fail]
        cases AcnMessage.encode (some (.status (some ⟨code.toInt, [text]⟩))) with
        | none => rfl
        | some b =>
          simp only [Pipe.write]
          cases q.writes with
          | nil => rfl
          | cons w ws => cases w <;> rfl
      have herr' : ∀ (text : Bytes) (code : StatusCode) (q : Pipe) (e : AcnErr),
          (((PipeM.ignoring (Acn.sendError text code)).bind
            fun _ => (PipeM.fail e : PipeM Acn.Handled)) q).1 = .err e := by
        intro text code q e
        rw [herr text code q e]
      cases hd : AcnMessage.decode f with
      | none =>
        left
        simp only [Acn.decodeAcnMessage, hd, if_true]
        exact ⟨.decode, by decide, herr' _ _ _ _, by simp, by simp [sentBy, hd]⟩
      | some m =>
        rcases m with _ | m
        · left
          simp only [Acn.decodeAcnMessage, hd]
          exact ⟨.unexpected, by decide, herr' _ _ _ _, by simp, by simp [sentBy, hd]⟩
        · cases m
          case aeaEnvelope b r =>
            simp only [Acn.decodeAcnMessage, hd]
            cases he : Envelope.decode b with
            | none =>
              left
              simp only [he]
              exact ⟨.envelope, by decide, herr' _ _ _ _, by simp, by simp [sentBy, hd, he]⟩
            | some e =>
              have := sendMessage_result success_encodes ⟨rs, p.writes, p.sent⟩
              rcases this with ⟨hw, p', hs⟩ | ⟨hw, p', hs⟩
              · right; left
                refine ⟨e, ?_, by simp, ?_⟩
                · simp only [he, PipeM.bind, Acn.sendSuccess, hs, PipeM.pure]
                · intro a
                  have hw' : p.writes.head? = some true := hw
                  simp [sentBy, hd, he, hw']
              · left
                refine ⟨.write, by decide, ?_, by simp, ?_⟩
                · simp only [he, PipeM.bind, Acn.sendSuccess, hs]
                · intro a
                  have hw' : p.writes.head? ≠ some true := hw
                  simp [sentBy, hd, he, hw']
          case status s =>
            right; right
            simp only [Acn.decodeAcnMessage, hd]
            cases s with
            | none => right; simp [sentBy, hd, PipeM.crash]
            | some s => left; exact ⟨s, by simp [PipeM.pure], rfl, by simp [sentBy, hd]⟩
          all_goals
            left
            simp only [Acn.decodeAcnMessage, hd]
            exact ⟨.unexpected, by decide, herr' _ _ _ _, by simp, by simp [sentBy, hd]⟩

/-- What became of the data. -/
def AgentPipe.Accounted (r : AgentRecord) (c : AgentPipe) : Prop :=
  c.record = some r ∧
  (c.forwarded ++ c.queue ++ c.phase.held = sentOnly r.address c.frames ∨
   (c.phase = .crashed ∧ ∃ e, c.forwarded ++ c.queue ++ [e] = sentOnly r.address c.frames))

theorem sentOnly_append (a : Bytes) (xs ys : List (Bytes × Bool)) :
    sentOnly a (xs ++ ys) = sentOnly a xs ++ sentOnly a ys := List.filterMap_append ..

theorem AgentPipe.accounted_step {T : AcnTexts} {r : AgentRecord} {c : AgentPipe} (st : AgentPipe.Step)
    (h : Accounted r c) : Accounted r (c.step T st) := by
  obtain ⟨hrec, h⟩ := h
  cases st with
  | forward =>
    simp only [AgentPipe.step]
    split
    · rename_i e q hq
      refine ⟨hrec, ?_⟩
      rw [hq] at h
      simpa using h
    · exact ⟨hrec, h⟩
  | takeStatus =>
    simp only [AgentPipe.step]
    split <;> exact ⟨hrec, h⟩
  | stop => exact ⟨hrec, h⟩
  | close =>
    simp only [AgentPipe.step]
    split <;> exact ⟨hrec, h⟩
  | listen =>
    simp only [AgentPipe.step, AgentPipe.listen]
    split
    · rename_i hph
      have h0 : c.forwarded ++ c.queue = sentOnly r.address c.frames := by
        rcases h with h | ⟨h, _⟩
        · simpa [Phase.held, hph] using h
        · simp [hph] at h
      have hc := fromPipe_cases T c.pipe
      generalize Acn.handleFromPipe T c.pipe = hp at *
      obtain ⟨hd, p⟩ := hp
      dsimp only at *
      rcases hc with ⟨hn, rfl⟩ | ⟨f, hn, hc⟩
      · rw [hn, List.append_nil]
        dsimp only
        split <;> exact ⟨hrec, .inl (by simpa [Phase.held] using h0)⟩
      · rw [hn]
        have hnone : sentBy r.address f = none → sentOnly r.address (c.frames ++ [f]) =
            sentOnly r.address c.frames := by
          intro hf; rw [sentOnly_append]; simp [sentOnly, hf]
        rcases hc with ⟨e, hne, rfl, _, hf⟩ | ⟨e, rfl, _, hf⟩ | ⟨s, rfl, _, hf⟩ | ⟨rfl, _, hf⟩
        · have hm := hnone (hf _)
          cases e
          case read => exact absurd rfl hne
          all_goals exact ⟨hrec, .inl (by simpa [Phase.held, hph, hm] using h0)⟩
        · have hm : sentOnly r.address (c.frames ++ [f]) = sentOnly r.address c.frames ++
              (if e.sender = r.address then [e] else []) := by
            rw [sentOnly_append]
            congr 1
            simp only [sentOnly, List.filterMap_cons, hf, List.filterMap_nil]
            by_cases he : e.sender = r.address <;> simp [he]
          simp only [hrec]
          split
          · rename_i he
            refine ⟨rfl, .inl ?_⟩
            rw [hm, if_neg he]
            simpa [Phase.held, hph] using h0
          · rename_i he
            refine ⟨rfl, .inl ?_⟩
            rw [hm, if_pos (by simpa using he), ← h0]
            rfl
        · have hm := hnone (hf _)
          exact ⟨hrec, .inl (by simpa [Phase.held, hm] using h0)⟩
        · have hm := hnone (hf _)
          exact ⟨hrec, .inl (by simpa [Phase.held, hm] using h0)⟩
    · rename_i e hph
      have h0 : c.forwarded ++ c.queue ++ [e] = sentOnly r.address c.frames := by
        rcases h with h | ⟨h, _⟩
        · simpa [Phase.held, hph] using h
        · simp [hph] at h
      split
      · exact ⟨hrec, .inr ⟨rfl, e, h0⟩⟩
      · split
        · exact ⟨hrec, .inl (by simpa [Phase.held] using h0)⟩
        · exact ⟨hrec, h⟩
    · rename_i hph
      refine ⟨hrec, ?_⟩
      rcases h with h | ⟨h, _⟩
      · left
        dsimp only
        split <;> simpa [Phase.held, hph] using h
      · simp [hph] at h
    · rename_i s hph
      split
      · refine ⟨hrec, ?_⟩
        rcases h with h | ⟨h, _⟩
        · left; simpa [Phase.held, hph] using h
        · simp [hph] at h
      · exact ⟨hrec, h⟩
    · exact ⟨hrec, h⟩
    · exact ⟨hrec, h⟩

/-- **C46, envelopes.** For all data from the agent and every scheduling: the envelopes forwarded, those
waiting and the one being put into the queue are, in this order, exactly those of the well-formed envelopes
read so far that name the registered address as their sender and could be acknowledged; if the
process crashes the one it was working on is missing. -/
theorem C46_own_envelopes (T : AcnTexts) (r : AgentRecord) (pipe : Pipe) (steps : List AgentPipe.Step) :
    let c := AgentPipe.run T (.connected (some r) pipe) steps
    c.forwarded ++ c.queue ++ c.phase.held = sentOnly r.address c.frames ∨
    (c.phase = .crashed ∧ ∃ e, c.forwarded ++ c.queue ++ [e] = sentOnly r.address c.frames) := by
  have key : ∀ (steps : List AgentPipe.Step) (c : AgentPipe), AgentPipe.Accounted r c →
      AgentPipe.Accounted r (c.run T steps) := by
    intro steps
    induction steps with
    | nil => intro c h; exact h
    | cons st steps ih => intro c h; exact ih _ (AgentPipe.accounted_step st h)
  exact (key steps (.connected (some r) pipe) ⟨rfl, .inl rfl⟩).2

/-- In particular every envelope forwarded has the agent's address as its sender. -/
theorem C46_sender (T : AcnTexts) (r : AgentRecord) (pipe : Pipe) (steps : List AgentPipe.Step) :
    ∀ e ∈ (AgentPipe.run T (.connected (some r) pipe) steps).forwarded, e.sender = r.address := by
  have h := C46_own_envelopes T r pipe steps
  dsimp only at h
  generalize AgentPipe.run T (.connected (some r) pipe) steps = c at *
  intro e he
  have hmem : e ∈ sentOnly r.address c.frames := by
    rcases h with h | ⟨_, _, h⟩ <;> rw [← h] <;> simp [he]
  obtain ⟨f, _, hf⟩ := List.mem_filterMap.1 hmem
  unfold sentBy at hf
  split at hf
  case h_2 => simp at hf
  split at hf
  case h_2 => simp at hf
  split at hf
  · rename_i hto
    simp only [Option.some.injEq] at hf
    subst hf; exact hto.1
  · simp at hf

/-- **C46, end of the loop, partial.** The goroutine leaves its loop in a step exactly if a read fails, or
`Stop` was called and it has just put an envelope into the queue. It crashes exactly if the data is a
status message without a status, or an envelope arrives and there is no agent record, or the queue was
closed while it was putting an envelope there. Everything else, and any failure to answer, keeps it
running. -/
theorem C46_loop_ends_iff_partial (T : AcnTexts) (c : AgentPipe) (hs : c.phase ≠ .stopped)
    (hcr : c.phase ≠ .crashed) :
    ((c.listen T).phase = .stopped ↔
      (c.phase = .idle ∧ AgentPipe.nextFrame c.pipe = []) ∨ (c.phase = .pushed ∧ c.closing = true)) ∧
    ((c.listen T).phase = .crashed ↔
      (c.phase = .idle ∧ ∃ f ok, AgentPipe.nextFrame c.pipe = [(f, ok)] ∧
        (AcnMessage.decode f = some (some (.status none)) ∨
         (c.record = none ∧ ∃ a e, sentBy a (f, ok) = some e))) ∨
      ((∃ e, c.phase = .pushing e) ∧ c.closed = true)) := by
  unfold AgentPipe.listen
  cases hph : c.phase with
  | idle =>
    have hc := fromPipe_cases T c.pipe
    generalize Acn.handleFromPipe T c.pipe = hp at *
    obtain ⟨hd, p⟩ := hp
    dsimp only at *
    rcases hc with ⟨hn, rfl⟩ | ⟨⟨f, ok⟩, hn, hc⟩
    · dsimp only
      split <;> simp [hn]
    · have hex : (∃ f' ok', AgentPipe.nextFrame c.pipe = [(f', ok')] ∧
          (AcnMessage.decode f' = some (some (.status none)) ∨
           (c.record = none ∧ ∃ a e, sentBy a (f', ok') = some e))) ↔
          (AcnMessage.decode f = some (some (.status none)) ∨
           (c.record = none ∧ ∃ a e, sentBy a (f, ok) = some e)) := by
        rw [hn]
        constructor
        · rintro ⟨f', ok', h, h'⟩
          simp only [List.cons.injEq, Prod.mk.injEq, and_true] at h
          obtain ⟨rfl, rfl⟩ := h
          exact h'
        · exact fun h' => ⟨f, ok, rfl, h'⟩
      rw [hex]
      rcases hc with ⟨e, hne, rfl, hs, hf⟩ | ⟨e, rfl, hs, hf⟩ | ⟨s, rfl, hs, hf⟩ | ⟨rfl, hs, hf⟩
      · dsimp only at hs
        cases e
        case read => exact absurd rfl hne
        all_goals simp [hn, hs, hf]
      · dsimp only at hs
        cases hr : c.record with
        | none =>
          have : ∃ a e', sentBy a (f, ok) = some e' := ⟨e.sender, e, by simp [hf]⟩
          simp [hn, this]
        | some r =>
          dsimp only
          split <;> simp [hn, hs]
      · dsimp only at hs
        simp [hn, hs, hf]
      · dsimp only at hs
        simp [hn, hs]
  | pushing e =>
    dsimp only
    split
    · rename_i hcl; simp [hcl]
    · rename_i hcl
      split <;> simp [hcl, hph]
  | pushed =>
    dsimp only
    split <;> simp_all
  | pushingStatus s =>
    dsimp only
    split <;> simp [hph]
  | stopped => exact absurd hph hs
  | crashed => exact absurd hph hcr

/-! ## Statuses, the flags and the queues -/

/-- The statuses in the data read. -/
def statusesIn (frames : List (Bytes × Bool)) : List StatusBody :=
  frames.filterMap fun f =>
    match AcnMessage.decode f.1 with
    | some (some (.status s)) => s
    | _ => none

/-- The status being put into its queue. -/
def AgentPipe.Phase.heldStatus : AgentPipe.Phase → List StatusBody
  | .pushingStatus s => [s]
  | _ => []

theorem statusesIn_append (xs ys : List (Bytes × Bool)) :
    statusesIn (xs ++ ys) = statusesIn xs ++ statusesIn ys := List.filterMap_append ..

/-- A result that is no status comes from data without a status. -/
theorem fromPipe_statuses (T : AcnTexts) (p : Pipe) :
    statusesIn (AgentPipe.nextFrame p) =
      match (Acn.handleFromPipe T p).1 with
      | .ok (.status s) => [s]
      | _ => [] := by
  unfold Acn.handleFromPipe
  cases hr : p.reads with
  | nil => simp [PipeM.bind, Pipe.read, hr, AgentPipe.nextFrame, statusesIn]
  | cons r rs =>
    cases r with
    | none => simp [PipeM.bind, Pipe.read, hr, AgentPipe.nextFrame, statusesIn]
    | some f =>
      simp only [PipeM.bind, Pipe.read, hr, AgentPipe.nextFrame, statusesIn, List.filterMap_cons,
        List.filterMap_nil]
      have herr : ∀ (text : Bytes) (code : StatusCode) (q : Pipe) (e : AcnErr),
          (((PipeM.ignoring (Acn.sendError text code)).bind
            fun _ => (PipeM.fail e : PipeM Acn.Handled)) q).1 = .err e := by
        intro text code q e
        simp only [PipeM.bind, PipeM.ignoring, Acn.sendError, Acn.sendMessage, PipeM.fail]
        cases AcnMessage.encode (some (.status (some ⟨code.toInt, [text]⟩))) with
        | none => rfl
        | some b =>
          simp only [Pipe.write]
          cases q.writes with
          | nil => rfl
          | cons w ws => cases w <;> rfl
      cases hd : AcnMessage.decode f with
      | none => simp only [Acn.decodeAcnMessage, hd, if_true]; rw [herr]
      | some m =>
        rcases m with _ | m
        · simp only [Acn.decodeAcnMessage, hd]; rw [if_neg (by decide), herr]
        · cases m
          case aeaEnvelope b r =>
            simp only [Acn.decodeAcnMessage, hd]
            cases he : Envelope.decode b with
            | none => dsimp only; rw [herr]
            | some e =>
              have := sendMessage_result success_encodes ⟨rs, p.writes, p.sent⟩
              rcases this with ⟨_, p', hs⟩ | ⟨_, p', hs⟩ <;>
                simp only [PipeM.bind, Acn.sendSuccess, hs, PipeM.pure]
          case status s =>
            simp only [Acn.decodeAcnMessage, hd]
            cases s with
            | none => simp [PipeM.crash]
            | some s => simp [PipeM.pure]
          all_goals
            simp only [Acn.decodeAcnMessage, hd]; rw [if_neg (by decide), herr]

theorem AgentPipe.statuses_step {T : AcnTexts} {c : AgentPipe} (st : AgentPipe.Step)
    (h : c.taken ++ c.statuses ++ c.phase.heldStatus = statusesIn c.frames) :
    (c.step T st).taken ++ (c.step T st).statuses ++ (c.step T st).phase.heldStatus =
      statusesIn (c.step T st).frames := by
  cases st with
  | forward => simp only [AgentPipe.step]; split <;> exact h
  | takeStatus =>
    simp only [AgentPipe.step]
    split
    · rename_i s q hq
      rw [hq] at h
      simpa using h
    · exact h
  | stop => exact h
  | close => simp only [AgentPipe.step]; split <;> exact h
  | listen =>
    simp only [AgentPipe.step, AgentPipe.listen]
    split
    · rename_i hph
      rw [hph] at h
      simp only [Phase.heldStatus, List.append_nil] at h
      have hc := fromPipe_statuses T c.pipe
      have happ := statusesIn_append c.frames (AgentPipe.nextFrame c.pipe)
      rw [hc, ← h] at happ
      generalize Acn.handleFromPipe T c.pipe = hp at *
      obtain ⟨hd, p⟩ := hp
      dsimp only at *
      split
      · simpa [Phase.heldStatus] using happ.symm
      · split <;> simpa [Phase.heldStatus] using happ.symm
      · simpa [Phase.heldStatus, hph] using happ.symm
      · simpa [Phase.heldStatus] using happ.symm
      · split
        · simpa [Phase.heldStatus] using happ.symm
        · split <;> simpa [Phase.heldStatus, hph] using happ.symm
    · rename_i hph
      rw [hph] at h
      split
      · exact h
      · split
        · exact h
        · rw [hph]; exact h
    · rename_i hph
      rw [hph] at h
      dsimp only
      split <;> exact h
    · rename_i s hph
      split
      · rw [hph] at h; simpa [Phase.heldStatus] using h
      · exact h
    · exact h
    · exact h

/-- **C46, statuses.** The statuses taken by waits, those waiting and the one being put into the queue are,
in this order, exactly those in the data read from the agent. -/
theorem C46_statuses (T : AcnTexts) (record : Option AgentRecord) (pipe : Pipe)
    (steps : List AgentPipe.Step) :
    let c := AgentPipe.run T (.connected record pipe) steps
    c.taken ++ c.statuses ++ c.phase.heldStatus = statusesIn c.frames := by
  have key : ∀ (steps : List AgentPipe.Step) (c : AgentPipe),
      c.taken ++ c.statuses ++ c.phase.heldStatus = statusesIn c.frames →
      (c.run T steps).taken ++ (c.run T steps).statuses ++ (c.run T steps).phase.heldStatus =
        statusesIn (c.run T steps).frames := by
    intro steps
    induction steps with
    | nil => intro c h; exact h
    | cons st steps ih => intro c h; exact ih _ (AgentPipe.statuses_step st h)
  exact key steps _ rfl

/-- What the flags say, of the calls of `Stop` so far. -/
def AgentPipe.Flags (stops closes : Prop) (c : AgentPipe) : Prop :=
  (c.closing = true ↔ stops ∨ c.phase = .stopped) ∧
  (c.closed = true → c.closing = true) ∧
  (c.phase = .stopped → ¬ stops → c.closed = true) ∧
  (c.closed = true → closes ∨ c.phase = .stopped)

theorem AgentPipe.flags_step {T : AcnTexts} {stops closes : Prop} {c : AgentPipe} (st : AgentPipe.Step)
    (h : Flags stops closes c) :
    Flags (stops ∨ st = .stop) (closes ∨ st = .close) (c.step T st) := by
  obtain ⟨h1, h2, h3, h4⟩ := h
  cases st with
  | forward =>
    simp only [AgentPipe.step]
    split <;> simpa [Flags] using ⟨h1, h2, h3, h4⟩
  | takeStatus =>
    simp only [AgentPipe.step]
    split <;> simpa [Flags] using ⟨h1, h2, h3, h4⟩
  | stop =>
    simp only [AgentPipe.step, Flags]
    exact ⟨by simp, by simp, by simp, fun h => (h4 h).imp .inl id⟩
  | close =>
    simp only [AgentPipe.step]
    split
    · rename_i hc
      simp only [Flags, hc, reduceCtorEq, or_false, or_true, true_or, implies_true, and_true]
      exact ⟨fun _ => h1.1 hc, fun _ => trivial⟩
    · simp only [Flags, reduceCtorEq, or_false, or_true, true_or, implies_true, and_true]
      exact ⟨h1, h2, h3⟩
  | listen =>
    simp only [AgentPipe.step, AgentPipe.listen]
    simp only [Flags, reduceCtorEq, or_false]
    split
    · rename_i hph
      simp only [hph, reduceCtorEq, or_false, false_implies] at h1 h3 h4
      split
      · simpa [h1] using ⟨fun h => h1.1 (h2 h), h4⟩
      · split
        · rename_i hc
          simpa [hc] using fun h => absurd (h1.1 hc) h
        · rename_i hc
          simp
      · simpa [hph, h1] using ⟨fun h => h1.1 (h2 h), h4⟩
      · simpa [h1] using ⟨fun h => h1.1 (h2 h), h4⟩
      · split
        · simpa [h1] using ⟨fun h => h1.1 (h2 h), h4⟩
        · split <;> simpa [hph, h1] using ⟨fun h => h1.1 (h2 h), h4⟩
    · rename_i hph
      simp only [hph, reduceCtorEq, or_false, false_implies] at h1 h3 h4
      split
      · simpa [h1] using ⟨fun h => h1.1 (h2 h), h4⟩
      · split <;> simpa [hph, h1] using ⟨fun h => h1.1 (h2 h), h4⟩
    · rename_i hph
      simp only [hph, reduceCtorEq, or_false, false_implies] at h1 h3 h4
      dsimp only
      split
      · rename_i hc
        simpa [hc] using fun h => absurd (h1.1 hc) h
      · simpa [h1] using ⟨fun h => h1.1 (h2 h), h4⟩
    · rename_i hph
      simp only [hph, reduceCtorEq, or_false, false_implies] at h1 h3 h4
      split <;> simpa [hph, h1] using ⟨fun h => h1.1 (h2 h), h4⟩
    · exact ⟨h1, h2, h3, h4⟩
    · exact ⟨h1, h2, h3, h4⟩

/-- **C46, the flags.** The connection is closing exactly if `Stop` was called or the goroutine has left
its loop. The queue is closed only if it is closing, and only by `Stop` or by the goroutine that left its
loop; and a goroutine that leaves its loop of itself has closed the queue. -/
theorem C46_closing (T : AcnTexts) (record : Option AgentRecord) (pipe : Pipe)
    (steps : List AgentPipe.Step) :
    let c := AgentPipe.run T (.connected record pipe) steps
    (c.closing = true ↔ .stop ∈ steps ∨ c.phase = .stopped) ∧
    (c.closed = true → c.closing = true) ∧
    (c.phase = .stopped → .stop ∉ steps → c.closed = true) ∧
    (c.closed = true → .close ∈ steps ∨ c.phase = .stopped) := by
  have key : ∀ (steps : List AgentPipe.Step) (c : AgentPipe) (stops closes : Prop),
      AgentPipe.Flags stops closes c →
      AgentPipe.Flags (stops ∨ .stop ∈ steps) (closes ∨ .close ∈ steps) (c.run T steps) := by
    intro steps
    induction steps with
    | nil => intro c _ _ h; simpa [AgentPipe.run] using h
    | cons st steps ih =>
      intro c a b h
      show AgentPipe.Flags _ _ ((c.step T st).run T steps)
      have := ih _ _ _ (AgentPipe.flags_step (T := T) st h)
      simpa only [List.mem_cons, or_assoc, @eq_comm _ st] using this
  have := key steps (.connected record pipe) False False (by simp [AgentPipe.Flags, AgentPipe.connected])
  simpa [AgentPipe.Flags] using this

/-- **C46, the queues.** At most 100 envelopes and 1000 statuses wait; and the goroutine stands still only
if it has ended, or as many are waiting as there is room for. -/
theorem C46_room (T : AcnTexts) (record : Option AgentRecord) (pipe : Pipe) (steps : List AgentPipe.Step) :
    let c := AgentPipe.run T (.connected record pipe) steps
    c.queue.length ≤ 100 ∧ c.statuses.length ≤ 1000 ∧
    (∀ e, c.phase = .pushing e → (c.listen T).phase = .pushing e → c.queue.length = 100) ∧
    (∀ s, c.phase = .pushingStatus s → (c.listen T).phase = .pushingStatus s → c.statuses.length = 1000) := by
  have key : ∀ (steps : List AgentPipe.Step) (c : AgentPipe),
      c.queue.length ≤ 100 ∧ c.statuses.length ≤ 1000 →
      (c.run T steps).queue.length ≤ 100 ∧ (c.run T steps).statuses.length ≤ 1000 := by
    intro steps
    induction steps with
    | nil => intro c h; exact h
    | cons st steps ih =>
      intro c h
      refine ih _ ?_
      cases st with
      | forward =>
        simp only [AgentPipe.step]
        split
        · rename_i hq; rw [hq] at h; simp at h; dsimp only; omega
        · exact h
      | takeStatus =>
        simp only [AgentPipe.step]
        split
        · rename_i hq; rw [hq] at h; simp at h; dsimp only; omega
        · exact h
      | stop => exact h
      | close => simp only [AgentPipe.step]; split <;> exact h
      | listen =>
        simp only [AgentPipe.step, AgentPipe.listen]
        split
        · split
          · exact h
          · split <;> exact h
          · exact h
          · exact h
          · split
            · exact h
            · split <;> exact h
        · split
          · exact h
          · split
            · simp; omega
            · exact h
        · exact h
        · split
          · simp; omega
          · exact h
        · exact h
        · exact h
  obtain ⟨hq, hs⟩ := key steps (.connected record pipe) (by simp [AgentPipe.connected])
  refine ⟨hq, hs, ?_, ?_⟩
  · intro e he hl
    simp only [AgentPipe.listen, he] at hl
    split at hl
    · simp at hl
    · split at hl
      · simp at hl
      · omega
  · intro s he hl
    simp only [AgentPipe.listen, he] at hl
    split at hl
    · simp at hl
    · omega

/-! ## Cases -/

namespace AgentPipeDemo

/-- Texts of errors. -/
def texts : AcnTexts := ⟨fun _ => b! "d", fun _ => b! "u"⟩
/-- The record of the agent. -/
def record : AgentRecord := ⟨[], [], b! "ag", [], [], [], [], []⟩
/-- An envelope. -/
def env (sender m : Bytes) : Envelope := ⟨b! "bob", sender, b! "p", m, []⟩
/-- The message carrying it. -/
def frame (e : Envelope) : Bytes :=
  ((AcnMessage.encode (some (.aeaEnvelope ((Envelope.encode e).getD []) none))).getD [])
/-- An envelope of the agent, one of somebody else, data that is no message, another one of the agent. -/
def pipe : Pipe :=
  ⟨[some (frame (env (b! "ag") (b! "1"))), some (frame (env (b! "xx") (b! "2"))), some [255],
    some (frame (env (b! "ag") (b! "3"))), none], [true, true, false, true], []⟩

end AgentPipeDemo

open AgentPipeDemo in
set_option maxRecDepth 100000 in
set_option maxHeartbeats 4000000 in
example : (AgentPipe.run texts (.connected (some record) pipe)
      [.listen, .listen, .listen, .listen, .listen, .listen, .listen, .listen, .forward, .forward, .listen]).forwarded =
    [env (b! "ag") (b! "1"), env (b! "ag") (b! "3")] := by decide

open AgentPipeDemo in
set_option maxRecDepth 100000 in
set_option maxHeartbeats 4000000 in
/-- **C46 is false** of the end of the loop: a status message without a status crashes the node, and so
does any envelope of an agent that was configured without a record. -/
theorem C46_crash_counterexample :
    (AgentPipe.run texts (.connected (some record)
      ⟨[some ((AcnMessage.encode (some (.status none))).getD [])], [], []⟩) [.listen]).phase = .crashed ∧
    (AgentPipe.run texts (.connected none pipe) [.listen]).phase = .crashed := by decide

open AgentPipeDemo in
set_option maxRecDepth 100000 in
set_option maxHeartbeats 4000000 in
/-- Two statuses, one of which is taken; then the data ends, which stops the loop and closes the queue. -/
example :
    let status (t : Bytes) := (AcnMessage.encode (some (.status (some ⟨1, [t]⟩)))).getD []
    let c := AgentPipe.run texts (.connected (some record)
      ⟨[some (status (b! "x")), some (status (b! "y")), none], [], []⟩)
      [.listen, .listen, .listen, .takeStatus, .listen, .listen]
    c.taken = [⟨1, [b! "x"]⟩] ∧ c.statuses = [⟨1, [b! "y"]⟩] ∧ c.phase = .stopped ∧ c.closing = true ∧
      c.closed = true := by decide

end Verif
