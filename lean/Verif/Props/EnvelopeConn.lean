import Verif.Model.EnvelopeConn
import Verif.Props.FrameResults
import Verif.Props.Messages

/-!
# C98: envelopes on a connection
-/

namespace Verif

open Proto

/-- Reading `n` envelopes in a row. -/
def readEnvelopes : Nat → List Bytes → Res EnvConnErr (List Envelope) × List Bytes
  | 0, cs => (.ok [], cs)
  | n + 1, cs =>
    match readEnvelopeConn cs with
    | (.ok e, cs) =>
      match readEnvelopes n cs with
      | (.ok es, cs) => (.ok (e :: es), cs)
      | r => r
    | (.err x, cs) => (.err x, cs)
    | (.panic, cs) => (.panic, cs)

theorem readEnvelopeConn_ok {cs cs' : List Bytes} {d : Bytes} {e : Envelope}
    (h : readConn (some maxMessageSize) cs = (.ok d, cs')) (hd : Envelope.decode d = some e) :
    readEnvelopeConn cs = (.ok e, cs') := by
  unfold readEnvelopeConn
  rw [h]
  dsimp only
  rw [hd]

theorem encode_texts {e : Envelope} : (∃ b, e.encode = some b) ↔ e.Texts := by
  unfold Envelope.encode Envelope.Texts
  simp only [← utf8Valid_iff]
  split
  · next h => simp only [Envelope.utf8, Bool.and_eq_true] at h; simp [h]
  · next h => simp only [Envelope.utf8, Bool.and_eq_true] at h; simp only [reduceCtorEq, exists_false, false_iff]; rintro ⟨a, b, c, d⟩; exact h ⟨⟨⟨a, b⟩, c⟩, d⟩

theorem encode_eq_nil {e : Envelope} {b : Bytes} (h : e.encode = some b) : b = [] ↔ e = ⟨[], [], [], [], []⟩ := by
  constructor
  · rintro rfl
    have := C19_envelope_round_trip h (by simp)
    have h2 : Envelope.decode [] = some ⟨[], [], [], [], []⟩ := by decide
    rw [h2] at this
    exact (Option.some.inj this).symm
  · rintro rfl
    have h2 : Envelope.encode ⟨[], [], [], [], []⟩ = some [] := by decide
    rw [h2] at h
    exact (Option.some.inj h).symm

theorem write_cases (e : Envelope) (b : Bytes) (h : e.encode = some b) :
    writeEnvelopeConn e = if 2147483647 < b.length then .err (.frame .tooLarge)
      else .ok (if b = [] then [] else frame b) := by
  unfold writeEnvelopeConn writeBytes
  rw [h]
  dsimp only
  by_cases h1 : maxInt32 < b.length
  · rw [if_pos h1, if_pos h1]
  · rw [if_neg h1, if_neg h1]
    by_cases h2 : b = []
    · subst h2; rfl
    · rw [if_neg (by simpa using h2), if_neg h2]

/-- **C98: what can be written.** An envelope is written exactly when its strings are text and its encoding is not
longer than 2^31 - 1. -/
theorem C98_written_iff (e : Envelope) :
    (∃ w, writeEnvelopeConn e = .ok w) ↔ e.Texts ∧ ∀ b, e.encode = some b → b.length ≤ 2147483647 := by
  rw [← encode_texts]
  cases h : e.encode with
  | none => simp [writeEnvelopeConn, h]
  | some b =>
    rw [write_cases e b h]
    by_cases h1 : 2147483647 < b.length
    · simp [h1]
    · simp only [h1, if_false, Res.ok.injEq, exists_eq', Option.some.injEq, forall_eq', true_and, true_iff]
      omega

theorem write_frame {e : Envelope} {w : Bytes} (hw : writeEnvelopeConn e = .ok w) :
    ∃ b, e.encode = some b ∧ b.length ≤ 2147483647 ∧ w = if b = [] then [] else frame b := by
  cases h : e.encode with
  | none => simp [writeEnvelopeConn, h] at hw
  | some b =>
    rw [write_cases e b h] at hw
    by_cases h1 : 2147483647 < b.length
    · simp [h1] at hw
    · rw [if_neg h1, Res.ok.injEq] at hw
      exact ⟨b, rfl, by omega, hw.symm⟩

/-- **C98, partial: envelopes arrive.** Envelopes that were written, none of them empty and none longer than 3 MiB, are
read back in order, with nothing left over, if the transport does not split a size or the data of a frame. -/
theorem C98_envelopes_partial {es : List Envelope} {ws cs : List Bytes}
    (hw : es.map writeEnvelopeConn = ws.map Res.ok) (hne : ∀ e ∈ es, e ≠ ⟨[], [], [], [], []⟩)
    (hs : ∀ w ∈ ws, w.length ≤ 4 + 3145728)
    (hc : Whole (ws.flatMap fun w => [w.take 4, w.drop 4]) cs) : readEnvelopes es.length cs = (.ok es, []) := by
  induction es generalizing ws cs with
  | nil =>
    cases ws with
    | nil => cases hc; rfl
    | cons w ws => simp at hw
  | cons e es ih =>
    cases ws with
    | nil => simp at hw
    | cons w ws =>
      simp only [List.map_cons, List.cons.injEq] at hw
      obtain ⟨b, hb, hl, hwb⟩ := write_frame hw.1
      have hbn : b ≠ [] := fun h => hne e (by simp) ((encode_eq_nil hb).1 h)
      rw [if_neg hbn] at hwb
      subst hwb
      have e1 : (frame b).take 4 = be32 b.length := by simp [frame, be32]
      have e2 : (frame b).drop 4 = b := by simp [frame, be32]
      have hlen : b.length ≤ 3145728 := by
        have := hs (frame b) (by simp)
        simp [frame, be32_length] at this
        omega
      rw [List.flatMap_cons, e1, e2] at hc
      have r1 := hc.readOnce
      simp only [List.cons_append, List.nil_append] at hc r1
      obtain ⟨c1, g1, w1⟩ := r1
      obtain ⟨c2, g2, w2⟩ := w1.readOnce
      have hrd : readConn (some maxMessageSize) cs = (.ok b, c2) := by
        unfold readConn
        rw [be32_length] at g1
        rw [g1]
        dsimp only
        rw [padTo_full (be32_length _), be32ToNat_be32_lt (by omega), if_neg (by simp; omega), g2]
        dsimp only
        rw [padTo_full rfl]
      have hread : readEnvelopeConn cs = (.ok e, c2) := by
        unfold readEnvelopeConn
        rw [hrd]
        dsimp only
        rw [C19_envelope_round_trip hb (by omega)]
      simp only [List.length_cons, readEnvelopes]
      rw [hread]
      dsimp only
      rw [ih hw.2 (fun e h => hne e (by simp [h])) (fun w h => hs w (by simp [h])) w2]

/-- **C98: one envelope, exactly.** What was written for an envelope and arrives in one piece, if anything was written,
is read as that envelope exactly when the envelope is not empty and not longer than 3 MiB. -/
theorem C98_one_iff {e : Envelope} {w : Bytes} (hw : writeEnvelopeConn e = .ok w) :
    readEnvelopeConn (if w = [] then [] else [w]) = (.ok e, []) ↔ e ≠ ⟨[], [], [], [], []⟩ ∧ w.length ≤ 4 + 3145728 := by
  obtain ⟨b, hb, hl, hwb⟩ := write_frame hw
  by_cases hbn : b = []
  · have := (encode_eq_nil hb).1 hbn
    rw [if_pos hbn] at hwb
    subst hwb
    subst this
    constructor
    · intro h
      have : readEnvelopeConn (if ([] : Bytes) = [] then [] else [[]]) = (.err (.frame .eof), []) := by decide
      rw [this] at h
      simp at h
    · rintro ⟨h, _⟩; exact absurd rfl h
  · rw [if_neg hbn] at hwb
    have hw' : writeBytes b = .ok w := by
      unfold writeBytes maxInt32
      rw [if_neg (by omega), if_neg (by simpa using hbn), hwb]
    have key := C21_accepted_iff_partial hw' hbn
    have hlen : w.length = 4 + b.length := by rw [hwb]; simp [frame, be32_length]
    have hne : e ≠ ⟨[], [], [], [], []⟩ := fun h => hbn ((encode_eq_nil hb).2 h)
    have hm : maxMessageSize = 3145728 := rfl
    have hwn : w ≠ [] := by intro h; rw [h] at hlen; simp at hlen; omega
    rw [if_neg hwn]
    by_cases hs : b.length ≤ maxMessageSize
    · have hr := key.2 hs
      unfold readEnvelopeConn
      rw [hr]
      dsimp only
      rw [C19_envelope_round_trip hb (by omega)]
      simp only [true_iff]
      exact ⟨hne, by omega⟩
    · constructor
      · intro h
        exfalso
        have hr : readConn (some maxMessageSize) [w] = (.err .tooLarge, [b]) := by
          have h1 : readOnce 4 [w] = some (be32 b.length, [b]) := by
            rw [hwb]; simp [readOnce, frame, be32, hbn]
          unfold readConn
          rw [h1]
          dsimp only
          rw [padTo_full (be32_length _), be32ToNat_be32_lt (by omega), if_pos (by simp; omega)]
        unfold readEnvelopeConn at h
        rw [hr] at h
        simp at h
      · rintro ⟨_, h⟩; omega

/-- **C98 is false** for the empty envelope: writing it succeeds, and what is on the wire is the same as without it. -/
theorem C98_empty_counterexample : writeEnvelopeConn ⟨[], [], [], [], []⟩ = .ok [] := by decide

/-- **C98, no crash.** Whatever the envelope and whatever arrives, neither function panics. An envelope with a string
that is no text is refused by the one, bytes that are no envelope by the other, as an error of protobuf. -/
theorem C98_no_crash (e : Envelope) (cs : List Bytes) :
    writeEnvelopeConn e ≠ .panic ∧ (readEnvelopeConn cs).1 ≠ .panic ∧
    (writeEnvelopeConn e = .err .proto ↔ ¬ e.Texts) ∧
    ((readEnvelopeConn cs).1 = .err .proto ↔
      ∃ d, (readConn (some 3145728) cs).1 = .ok d ∧ Envelope.decode d = none) := by
  have hr : (readConn (some 3145728) cs).1 ≠ .panic := by
    unfold readConn
    split
    · simp
    · dsimp only
      split
      · simp
      · split <;> simp
  have hmax : maxMessageSize = 3145728 := rfl
  refine ⟨?_, ?_, ?_, ?_⟩
  · cases h : e.encode with
    | none => simp [writeEnvelopeConn, h]
    | some b => rw [write_cases e b h]; split <;> simp
  · unfold readEnvelopeConn
    rw [hmax]
    split
    · split <;> simp
    · simp
    · next h => rw [h] at hr; exact absurd rfl hr
  · rw [← encode_texts]
    cases h : e.encode with
    | none => simp [writeEnvelopeConn, h]
    | some b => rw [write_cases e b h]; split <;> simp
  · unfold readEnvelopeConn
    rw [hmax]
    split
    · next d _ h =>
      rw [h]
      cases hd : Envelope.decode d <;> simp [hd]
    · next h => rw [h]; simp
    · next h => rw [h]; simp

/-- The encoding of an envelope without URI ends with the message. -/
theorem encode_message {e : Envelope} (hutf : e.utf8 = true) (hu : e.uri = []) (m x : Bytes) (hx : x ≠ []) :
    ∃ p : Bytes, p ≠ [] ∧ ∀ y : Bytes, y.length = x.length →
      Envelope.encode { e with message := m ++ y } = some (p ++ m ++ y) := by
  refine ⟨encodeFields (optBytes 1 e.to ++ optBytes 2 e.sender ++ optBytes 3 e.protocolId) ++
    (varint (4 * 8 + 2) ++ varint (m.length + x.length)), ?_, ?_⟩
  · intro h
    simp only [List.append_eq_nil_iff] at h
    exact absurd h.2.1 (by decide)
  · intro y hy
    have hyne : m ++ y ≠ [] := by
      intro h
      simp only [List.append_eq_nil_iff] at h
      rw [h.2] at hy
      exact hx (List.length_eq_zero_iff.1 hy.symm)
    rw [Envelope.encode, if_pos (by simpa [Envelope.utf8] using hutf)]
    congr 1
    simp only [Envelope.fields, hu, encodeFields_append]
    rw [show optBytes 4 (m ++ y) = [⟨4, .bytes (m ++ y)⟩] by rw [optBytes, if_neg hyne]]
    rw [show optBytes 5 [] = [] from rfl]
    simp only [encodeFields, encodeField, List.map_cons, List.map_nil, List.flatten_cons, List.flatten_nil,
      List.length_append, hy, List.append_nil, List.append_assoc]

/-- **C98 is false** when the transport splits the data: every envelope without URI whose message ends in `x` is read,
without error, as one whose message has zeros in the place of `x`; and what comes next is read from the middle. -/
theorem C98_split_counterexample {e : Envelope} {m x w : Bytes} (hw : writeEnvelopeConn e = .ok w) (hu : e.uri = [])
    (hm : e.message = m ++ x) (hx : x ≠ []) (hl : w.length ≤ 4 + 3145728) :
    ∃ a, w = a ++ x ∧
      readEnvelopeConn [a, x] = (.ok { e with message := m ++ List.replicate x.length 0 }, [x]) := by
  obtain ⟨b, hb, hlb, hwb⟩ := write_frame hw
  have hmne : e.message ≠ [] := by rw [hm]; simp [hx]
  have hbn : b ≠ [] := by
    intro h
    have := (encode_eq_nil hb).1 h
    rw [this] at hmne
    exact hmne rfl
  rw [if_neg hbn] at hwb
  have hutf : e.utf8 = true := by
    unfold Envelope.encode at hb
    split at hb
    · assumption
    · cases hb
  have hbe : b = encodeFields e.fields := by
    rw [Envelope.encode, if_pos hutf] at hb
    exact (Option.some.inj hb).symm
  obtain ⟨p, hp, enc⟩ := encode_message hutf hu m x hx
  have hself : ({ e with message := m ++ x } : Envelope) = e := by rw [← hm]
  have hbx : b = p ++ m ++ x := by
    have := enc x rfl
    rw [hself, hb] at this
    exact Option.some.inj this
  have hpm : p ++ m ≠ [] := fun h => hp (List.append_eq_nil_iff.1 h).1
  have hlen : w.length = 4 + b.length := by rw [hwb]; simp [frame, be32_length]
  have h32 : (p ++ m ++ x).length ≤ 3145728 := by rw [← hbx]; omega
  refine ⟨be32 b.length ++ (p ++ m), by rw [hwb, frame, hbx]; simp, ?_⟩
  have hr := C20_short_read_effect (limit := some maxMessageSize) hpm hx (by omega)
    (by intro l hl'; simp only [Option.mem_def, Option.some.injEq] at hl'; subst hl'; simpa using h32)
  rw [hbx]
  refine readEnvelopeConn_ok hr (C19_envelope_round_trip (enc (List.replicate x.length 0) (by simp)) ?_)
  simp only [List.length_append, List.length_replicate] at h32 ⊢
  omega

/-- Two envelopes. -/
example : readEnvelopes 2 ([writeEnvelopeConn ⟨b! "a", b! "b", b! "p", [1, 2], []⟩, writeEnvelopeConn ⟨b! "c", [], [], [], []⟩].flatMap
    fun | .ok w => [w] | _ => []) =
    (.ok [⟨b! "a", b! "b", b! "p", [1, 2], []⟩, ⟨b! "c", [], [], [], []⟩], []) := by decide +kernel

/-- A message that was split. -/
example : readEnvelopeConn [[0, 0, 0, 7, 10, 1, 97, 34, 2, 1], [2]] = (.ok ⟨b! "a", [], [], [1, 0], []⟩, [[2]]) := by
  decide +kernel

end Verif
