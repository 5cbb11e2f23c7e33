import Verif.Lemmas.Framing

/-!
# C20, C21: frames on a byte stream
-/

namespace Verif

/-- Reading `n` frames in a row from a connection. -/
def readFrames (limit : Option Nat) : Nat → List Bytes → Res FErr (List Bytes) × List Bytes
  | 0, cs => (.ok [], cs)
  | n + 1, cs =>
    match readConn limit cs with
    | (.ok d, cs) =>
      match readFrames limit n cs with
      | (.ok ds, cs) => (.ok (d :: ds), cs)
      | r => r
    | (.err e, cs) => (.err e, cs)
    | (.panic, cs) => (.panic, cs)

/-- **C20, partial.** Frames written to a connection are read back in order, and nothing is left
over, if the transport splits the stream only between frames and between the size and the data
of a frame (`Whole`; segments may join any number of such pieces). It covers `ReadBytesConn`
(`limit = some maxMessageSize`) and the `Read` of the two `TCPSocketChannel`s (`none`). Missing
from the property: segments that end inside a size or inside data, for which it is false
(`C20_short_read_effect`), and, for `WriteBytesConn`, empty data (`C20_empty_counterexample`). -/
theorem C20_frames_partial {limit : Option Nat} {ds cs : List Bytes}
    (hd : ∀ d ∈ ds, d.length < 2 ^ 32) (hlim : ∀ d ∈ ds, ∀ l ∈ limit, d.length ≤ l)
    (h : Whole (pieces ds) cs) : readFrames limit ds.length cs = (.ok ds, []) := by
  induction ds generalizing cs with
  | nil =>
    cases h
    rfl
  | cons d ds ih =>
    obtain ⟨cs', h1, hw⟩ := readConn_whole (hd d (by simp)) (hlim d (by simp)) h
    have := ih (fun x hx => hd x (by simp [hx])) (fun x hx => hlim x (by simp [hx])) hw
    simp only [readFrames, List.length_cons, h1, this]

/-- **C20.** What the writers put on the wire for non-empty data is the concatenation of the
pieces of the theorem above. -/
theorem C20_wire {ds ws : List Bytes} (hne : ∀ d ∈ ds, d ≠ [])
    (h : ds.map writeBytes = ws.map Res.ok) : ws.flatten = (pieces ds).flatten := by
  have : ws = ds.map frame := by
    induction ds generalizing ws with
    | nil =>
      cases ws with
      | nil => rfl
      | cons w ws => simp at h
    | cons d ds ih =>
      cases ws with
      | nil => simp at h
      | cons w ws =>
        simp only [List.map_cons, List.cons.injEq] at h
        have hd := hne d (by simp)
        have hl : d.length ≠ 0 := fun h => hd (List.length_eq_zero_iff.1 h)
        have hw : w = frame d := by
          have h1 := h.1
          unfold writeBytes at h1
          by_cases hm : maxInt32 < d.length
          · rw [if_pos hm] at h1; simp at h1
          · rw [if_neg hm, if_neg hl] at h1
            exact (Res.ok.inj h1).symm
        rw [List.map_cons, hw, ih (fun x hx => hne x (by simp [hx])) h.2]
  rw [this, pieces_flatten]

/-- **C20 is false** when data is split over two segments, for all data and every split: the
reader returns the first part padded with zeros, without error, and takes the second part for
the next frame. -/
theorem C20_short_read_effect {limit : Option Nat} {a b : Bytes} (ha : a ≠ []) (_hb : b ≠ [])
    (hd : (a ++ b).length < 2 ^ 32) (hlim : ∀ l ∈ limit, (a ++ b).length ≤ l) :
    readConn limit [be32 (a ++ b).length ++ a, b] =
      (.ok (a ++ List.replicate b.length 0), [b]) := by
  have h1 : readOnce 4 [be32 (a ++ b).length ++ a, b] = some (be32 (a ++ b).length, [a, b]) := by
    simp [readOnce, be32, ha]
  have hnl : ¬ (limit.any (· < (a ++ b).length) = true) := by
    cases limit with
    | none => simp
    | some l => simpa using hlim l rfl
  have hal : a.length ≠ 0 := fun h => ha (List.length_eq_zero_iff.1 h)
  have h2 : readOnce (a ++ b).length [a, b] = some (a, [b]) := by
    have : (a ++ b).length ≠ 0 := by rw [List.length_append]; omega
    simp only [readOnce, if_neg this]
    rw [List.take_of_length_le (by rw [List.length_append]; omega),
      List.drop_eq_nil_of_le (by rw [List.length_append]; omega)]
    simp
  unfold readConn
  simp only [h1, padTo_full (be32_length _), be32ToNat_be32_lt hd, if_neg hnl, h2]
  simp [padTo]

/-- **C20 is false**: two bytes sent, delivered in two segments, read as something else. -/
theorem C20_short_read_counterexample :
    ∃ (data : Bytes) (cs : List Bytes), pipeWrite data = .ok cs.flatten ∧
      writeBytes data = .ok cs.flatten ∧ (∀ c ∈ cs, c ≠ []) ∧
      (∃ x, x ≠ data ∧ (readConn (some maxMessageSize) cs).1 = .ok x) ∧
      (∃ x, x ≠ data ∧ (readConn none cs).1 = .ok x) := by
  refine ⟨[97, 98], [[0, 0, 0, 2, 97], [98]], by decide, by decide, by decide,
    ⟨[97, 0], by decide, by decide⟩, ⟨[97, 0], by decide, by decide⟩⟩

/-- **C20 is false** for empty data: `WriteBytesConn` reports success and sends nothing, so the
peer's read does not see it. -/
theorem C20_empty_counterexample : writeBytes [] = .ok [] := rfl

/-- **C20.** `ReadBytes` on a libp2p stream reads a frame correctly for every segmentation. Of
what follows the frame on the stream it may lose a part; the rest stays. -/
theorem C20_stream_frame {d rest : Bytes} {cs : List Bytes} (hd : d.length ≤ maxMessageSize)
    (hc : ∀ c ∈ cs, c ≠ []) (h : cs.flatten = frame d ++ rest) :
    ∃ lost cs', readStream cs = (.ok d, cs') ∧ rest = lost ++ cs'.flatten ∧ ∀ c ∈ cs', c ≠ [] := by
  have hs : maxMessageSize = 3145728 := rfl
  have h0 : ([] : Bytes) ++ cs.flatten = be32 d.length ++ (d ++ rest) := by
    rw [List.nil_append, h, frame, List.append_assoc]
  obtain ⟨b1, c1, g1, g2, g3⟩ := readFull_ok (fuel := 4) (n := 4) (acc := []) (by omega)
    (be32_length _) hc h0
  obtain ⟨b2, c2, k1, k2, k3⟩ := readFull_ok (fuel := d.length) (n := d.length) (acc := [])
    (by omega) rfl g3 g2
  refine ⟨b2, c2, ?_, k2.symm, k3⟩
  unfold readStream
  rw [g1]
  simp only [List.nil_append]
  rw [be32ToNat_be32_lt (by omega), if_neg (by omega), k1]
  rfl

/-- **C20.** If the next frame is not yet on the stream, as in every request and answer exchange
of the project, nothing is lost. -/
theorem C20_stream_single_frame {d : Bytes} {cs : List Bytes} (hd : d.length ≤ maxMessageSize)
    (hc : ∀ c ∈ cs, c ≠ []) (h : cs.flatten = frame d) : readStream cs = (.ok d, []) := by
  obtain ⟨lost, cs', h1, h2, h3⟩ := C20_stream_frame (rest := []) hd hc (by simpa using h)
  rw [h1]
  cases cs' with
  | nil => rfl
  | cons c cs' =>
    exfalso
    have := h3 c (by simp)
    have h2' := h2.symm
    simp [this] at h2'

/-- **C20 is false** for two frames in one segment: the second is lost. -/
theorem C20_stream_counterexample :
    ∃ (d1 d2 : Bytes) (cs : List Bytes), cs.flatten = frame d1 ++ frame d2 ∧
      readStream cs = (.ok d1, []) ∧ d2 ≠ [] := by
  exact ⟨[1], [2], [[0, 0, 0, 1, 1, 0, 0, 0, 1, 2]], by decide, by decide, by decide⟩

/-- **C20.** aealite's `Write` crashes exactly if the size is at most four below a multiple of
2^32. -/
theorem C20_lite_write_panics_iff (data : Bytes) :
    liteWrite data = .panic ↔ 2 ^ 32 - 4 ≤ data.length % 2 ^ 32 := by
  unfold liteWrite
  have := Nat.mod_lt data.length (show 2 ^ 32 > 0 by decide)
  split
  · simp only [true_iff]; omega
  · simp only [reduceCtorEq, false_iff]; omega

/-- **C21, partial.** Of the non-empty byte strings `WriteBytesConn` sends, delivered in one
segment, `ReadBytesConn` accepts exactly those of at most 3 MiB. Missing from the property:
everything larger, see `C21_counterexample`. -/
theorem C21_accepted_iff_partial {data w : Bytes} (h : writeBytes data = .ok w) (hne : data ≠ []) :
    readConn (some maxMessageSize) [w] = (.ok data, []) ↔ data.length ≤ maxMessageSize := by
  have hl : data.length ≠ 0 := fun h => hne (List.length_eq_zero_iff.1 h)
  unfold writeBytes at h
  split at h
  · simp at h
  · rename_i hm
    have hw := Res.ok.inj h
    subst hw
    have hm' : maxInt32 = 2147483647 := rfl
    have hs : maxMessageSize = 3145728 := rfl
    constructor
    · intro hr
      unfold readConn at hr
      have h1 : readOnce 4 [frame data] = some (be32 data.length, [data]) := by
        simp [readOnce, frame, be32, hne]
      simp only [h1, padTo_full (be32_length _), be32ToNat_be32_lt (show data.length < 2 ^ 32 by omega)]
        at hr
      split at hr
      · simp at hr
      · rename_i hn
        simp only [Option.any_some, decide_eq_true_eq] at hn
        omega
    · intro hle
      obtain ⟨cs', h1, hw⟩ := readConn_whole (limit := some maxMessageSize) (d := data) (ds := [])
        (cs := [frame data]) (by omega) (by intro l hl; cases hl; exact hle) (by
          simp only [pieces, List.flatMap_cons, List.flatMap_nil, hne, if_false, List.append_nil]
          refine Whole.joined ?_ hne (Whole.own hne Whole.nil)
          simp [be32])
      cases hw
      exact h1

/-- **C21.** And above 3 MiB the reader reports an error, whatever the segments after the
size. -/
theorem C21_refused {data w : Bytes} {cs : List Bytes} (h : writeBytes data = .ok w)
    (hbig : maxMessageSize < data.length) :
    ∃ cs', readConn (some maxMessageSize) (be32 data.length :: cs) = (.err .tooLarge, cs') := by
  have hm' : maxInt32 = 2147483647 := rfl
  unfold writeBytes at h
  split at h
  · simp at h
  · refine ⟨cs, ?_⟩
    have h1 : readOnce 4 (be32 data.length :: cs) = some (be32 data.length, cs) := by
      simp [readOnce, be32]
    unfold readConn
    simp only [h1, padTo_full (be32_length _), be32ToNat_be32_lt (show data.length < 2 ^ 32 by omega)]
    rw [if_pos (by simpa using hbig)]

/-- **C21 is false**: a byte string of 3 MiB and one byte is sent without error and refused by
the reader. -/
theorem C21_counterexample :
    ∃ (data w : Bytes), writeBytes data = .ok w ∧
      (∃ cs', readConn (some maxMessageSize) (be32 data.length :: [data]) = (.err .tooLarge, cs')) ∧
      w = [be32 data.length, data].flatten := by
  have hlen : (List.replicate 3145729 (0 : UInt8)).length = 3145729 := List.length_replicate
  have hw : writeBytes (List.replicate 3145729 0) = .ok (frame (List.replicate 3145729 0)) := by
    unfold writeBytes
    rw [hlen, if_neg (by decide), if_neg (by decide)]
  exact ⟨_, _, hw, C21_refused hw (by rw [hlen]; decide), by
    rw [List.flatten_cons, List.flatten_cons, List.flatten_nil, List.append_nil, frame]⟩

/-! ## Concrete cases -/

/-- Three frames in two segments. -/
example : readFrames none 3 [[0, 0, 0, 1, 7, 0, 0, 0, 2], [8, 9, 0, 0, 0, 0]] =
    (.ok [[7], [8, 9], []], []) := by decide

/-- The segments of the example keep the pieces whole. -/
example : Whole (pieces [[7], [8, 9], []]) [[0, 0, 0, 1, 7, 0, 0, 0, 2], [8, 9, 0, 0, 0, 0]] := by
  have h1 : Whole [[8, 9], [0, 0, 0, 0]] [[8, 9, 0, 0, 0, 0]] :=
    Whole.joined (p := [8, 9]) (c := [0, 0, 0, 0]) (by decide) (by decide)
      (Whole.own (by decide) Whole.nil)
  have h2 := Whole.own (p := [0, 0, 0, 2]) (by decide) h1
  have h3 := Whole.joined (p := [7]) (by decide) (by decide) h2
  exact Whole.joined (p := [0, 0, 0, 1]) (by decide) (by decide) h3

/-- Every byte in a segment of its own, on a stream. -/
example : readStream [[0], [0], [0], [2], [5], [6]] = (.ok [5, 6], []) := by decide

end Verif
