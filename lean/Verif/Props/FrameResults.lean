import Verif.Props.Framing
import Verif.Props.PeerTables
import Verif.Spec.Signature

/-!
# C20, C21, C43, C58: exact results

What a libp2p stream gives, for every way of cutting it; what the writers return; the order of the curve.
-/

namespace Verif

/-! ## Reading a libp2p stream -/

/-- What reading one message from a stream gives, from all its bytes: the size in four bytes, most
significant first, of at most three mebibytes, and as much data. -/
def streamSays (b : Bytes) : Res FErr Bytes :=
  if b.length = 0 then .err .eof
  else if b.length < 4 then .err .unexpectedEof
  else if 3145728 < bigEndian (b.take 4) then .err .tooLarge
  else if bigEndian (b.take 4) ≤ b.length - 4 then .ok ((b.drop 4).take (bigEndian (b.take 4)))
  else if b.length = 4 then .err .eof
  else .err .unexpectedEof

/-- Reading more than there is gives an error, that of an end in the middle if there was something. -/
theorem readFull_short {fuel n : Nat} {acc buf : Bytes} {cs : List Bytes} (hfuel : n ≤ fuel)
    (hc : ∀ c ∈ cs, c ≠ []) (h : (buf ++ cs.flatten).length < n) :
    (readFull fuel n acc buf cs).1 =
      .err (if acc ++ (buf ++ cs.flatten) = [] then .eof else .unexpectedEof) := by
  induction fuel generalizing n acc buf cs with
  | zero => omega
  | succ fuel ih =>
    have hn : n ≠ 0 := by omega
    rw [readFull, if_neg hn]
    by_cases hne : buf ++ cs.flatten = []
    · have hb : buf = [] := (List.append_eq_nil_iff.1 hne).1
      have hf : cs.flatten = [] := (List.append_eq_nil_iff.1 hne).2
      have hcs : cs = [] := by
        cases cs with
        | nil => rfl
        | cons c cs =>
          rw [List.flatten_cons] at hf
          exact absurd (List.append_eq_nil_iff.1 hf).1 (hc c (by simp))
      subst hb hcs
      have : bufRead n [] [] = none := by
        unfold bufRead
        rw [if_neg (by simp)]
        split
        · simp [readOnce, hn]
        · simp [readOnce, bufioSize]
      rw [this]
      simp
    · obtain ⟨d, buf', cs', h1, h2, h3, h4, h5⟩ := bufRead_prefix hn hc hne
      rw [h1]
      dsimp only
      have hdl : d.length ≠ 0 := fun h => h2 (List.length_eq_zero_iff.1 h)
      rw [h4] at h ⊢
      rw [List.length_append] at h
      rw [ih (by omega) h5 (by omega), List.append_assoc]

theorem be32ToNat_bigEndian {h : Bytes} (hl : h.length = 4) : be32ToNat h = bigEndian h := by
  rcases h with _ | ⟨a, _ | ⟨b, _ | ⟨c, _ | ⟨d, _ | ⟨e, r⟩⟩⟩⟩⟩ <;> simp at hl
  simp [be32ToNat, bigEndian]
  omega

/-- **C20.** What reading from a libp2p stream gives depends on the bytes of the stream only, not on how
they are cut, and is this. -/
theorem C20_stream_result {cs : List Bytes} (hc : ∀ c ∈ cs, c ≠ []) :
    (readStream cs).1 = streamSays cs.flatten := by
  unfold readStream streamSays
  by_cases h4 : cs.flatten.length < 4
  · have hs := readFull_short (fuel := 4) (n := 4) (acc := []) (buf := []) (cs := cs) (by omega) hc (by simpa using h4)
    simp only [List.nil_append] at hs
    generalize readFull 4 4 [] [] cs = x at hs
    obtain ⟨r, buf, cs'⟩ := x
    dsimp only at hs
    subst hs
    dsimp only
    by_cases h0 : cs.flatten = []
    · simp [h0]
    · have : cs.flatten.length ≠ 0 := fun h => h0 (List.length_eq_zero_iff.1 h)
      rw [if_neg h0, if_neg this, if_pos h4]
  · have hl : (cs.flatten.take 4).length = 4 := by rw [List.length_take]; omega
    obtain ⟨buf, cs', h1, h2, h3⟩ := readFull_ok (fuel := 4) (n := 4) (acc := []) (buf := []) (cs := cs)
      (x := cs.flatten.take 4) (rest := cs.flatten.drop 4) (by omega) hl hc (by simp)
    rw [h1]
    simp only [List.nil_append]
    have h0 : ¬ cs.flatten.length = 0 := by omega
    rw [be32ToNat_bigEndian hl, if_neg h0, if_neg h4]
    by_cases hbig : 3145728 < bigEndian (cs.flatten.take 4)
    · rw [if_pos hbig, if_pos (show maxMessageSize < _ from hbig)]
    · rw [if_neg hbig, if_neg (show ¬ maxMessageSize < _ from hbig)]
      split
      · next hle =>
        obtain ⟨b2, c2, g1, -, -⟩ := readFull_ok (fuel := bigEndian (cs.flatten.take 4))
          (n := bigEndian (cs.flatten.take 4)) (acc := []) (buf := buf) (cs := cs')
          (x := (cs.flatten.drop 4).take (bigEndian (cs.flatten.take 4)))
          (rest := (cs.flatten.drop 4).drop (bigEndian (cs.flatten.take 4))) (by omega)
          (by rw [List.length_take, List.length_drop]; omega) h3 (by rw [h2, List.take_append_drop])
        rw [g1, List.nil_append]
      · next hle =>
        have hs := readFull_short (fuel := bigEndian (cs.flatten.take 4)) (n := bigEndian (cs.flatten.take 4))
          (acc := []) (buf := buf) (cs := cs') (by omega) h3 (by rw [h2, List.length_drop]; omega)
        rw [hs, List.nil_append, h2]
        by_cases he : cs.flatten.length = 4
        · rw [if_pos he, if_pos (by rw [List.drop_eq_nil_iff]; omega)]
        · rw [if_neg he, if_neg (by rw [List.drop_eq_nil_iff]; omega)]

/-- The size arrives in two pieces, the data ends early. -/
example : (readStream [[0, 0], [0, 3, 7], [8]]).1 = .err .unexpectedEof ∧
    (readStream [[0, 0], [0, 3, 7], [8, 9, 1]]).1 = .ok [7, 8, 9] := by
  decide +kernel

/-! ## Writing -/

/-- **C21.** The writers of the node take up to 2147483647 bytes and refuse more with an error; they never
crash. -/
theorem C21_write_result (data : Bytes) :
    (writeBytes data = .err .tooLarge ↔ 2147483647 < data.length) ∧
    (pipeWrite data = .err .tooLarge ↔ 2147483647 < data.length) ∧
    ((∃ w, writeBytes data = .ok w) ↔ data.length ≤ 2147483647) ∧
    ((∃ w, pipeWrite data = .ok w) ↔ data.length ≤ 2147483647) := by
  unfold writeBytes pipeWrite maxInt32
  by_cases h : 2147483647 < data.length
  · simp [h]
  · by_cases h0 : data.length = 0
    · have : data = [] := List.length_eq_zero_iff.1 h0
      subst this
      simp
    · simp only [if_neg h, if_neg h0]
      have : data.length ≤ 2147483647 := by omega
      simp [h, this]

/-- **C21.** What they write: four bytes that stand for the number of bytes, and the bytes. The one of a
connection writes nothing for an empty message, that of the pipe writes the size zero. -/
theorem C21_written {data w : Bytes} :
    (writeBytes data = .ok w → (data = [] ∧ w = []) ∨
      (data ≠ [] ∧ w.length = 4 + data.length ∧ bigEndian (w.take 4) = data.length ∧ w.drop 4 = data)) ∧
    (pipeWrite data = .ok w →
      w.length = 4 + data.length ∧ bigEndian (w.take 4) = data.length ∧ w.drop 4 = data) := by
  have key : ¬ 2147483647 < data.length →
      (frame data).length = 4 + data.length ∧ bigEndian ((frame data).take 4) = data.length ∧
        (frame data).drop 4 = data := by
    intro h
    unfold frame
    refine ⟨by rw [List.length_append, be32_length], ?_, List.drop_left' (be32_length _)⟩
    rw [List.take_left' (be32_length _), ← be32ToNat_bigEndian (be32_length _)]
    exact be32ToNat_be32_lt (by omega)
  unfold writeBytes pipeWrite maxInt32
  constructor
  · split
    · simp
    · next h =>
      split
      · next h0 =>
        intro hw
        cases hw
        exact .inl ⟨List.length_eq_zero_iff.1 h0, rfl⟩
      · next h0 =>
        intro hw
        cases hw
        exact .inr ⟨fun he => h0 (by rw [he]; rfl), key h⟩
  · split
    · simp
    · next h =>
      intro hw
      cases hw
      exact key h

example : pipeWrite [] = .ok [0, 0, 0, 0] ∧ writeBytes [5, 6] = .ok [0, 0, 0, 2, 5, 6] := by
  decide +kernel

/-! ## Constants and refusals -/

/-- **C43.** The numbers of a signature are below the order of secp256k1, as SEC 2 gives it: all ones in the
upper 127 bits, then the digits. -/
theorem C43_curve_order : curveN = 2 ^ 256 - 0x14551231950B75FC4402DA1732FC9BEBF := by
  decide +kernel

/-- **C58.** For any other address a client answers that it does not know the agent. -/
theorem C58_client_refuses (c : DhtClient) (address : Bytes) (h : address ≠ c.myAgent) :
    clientHandleAddressRequest c address = .err .errorUnknownAgentAddress := by
  unfold clientHandleAddressRequest
  rw [if_pos h]

end Verif
