import Verif.Model.RecordFile
import Verif.Lemmas.Messages
import Verif.Lemmas.Texts
import Verif.Lemmas.Framing

/-!
# C22, C23: the record file
-/

namespace Verif

open Proto

/-- The last record with a given address. -/
def lastRecord (rs : List AgentRecord) (a : Bytes) : Option AgentRecord :=
  rs.reverse.find? fun r => r.address == a

/-- A record a peer saves: it went through `proto.Unmarshal` (so its text is valid), is not empty,
fits a 32-bit size, and carries the public key of this peer, from which a peer id was made. -/
structure Savable (peerId : Bytes → Option Bytes) (r : AgentRecord) : Prop where
  texts : ∀ t ∈ r.texts, IsText t
  nonempty : r ≠ .zero
  small : (encodeFields r.fields).length < 2 ^ 32
  key : (peerId r.peerPublicKey).isSome

theorem Savable.utf8 {peerId : Bytes → Option Bytes} {r : AgentRecord} (h : Savable peerId r) : r.utf8 = true :=
  r.utf8_iff.2 h.texts

theorem AgentRecord.fields_shape (r : AgentRecord) : ∀ f ∈ r.fields, ∃ b, f.val = .bytes b := by
  intro f hf
  simp only [AgentRecord.fields, List.mem_append] at hf
  rcases hf with ((((((hf | hf) | hf) | hf) | hf) | hf) | hf) | hf <;>
    exact (optBytes_shape (by decide) (by decide) f hf).2.2

theorem AgentRecord.encoding_pos {r : AgentRecord} (h : r ≠ .zero) :
    0 < (encodeFields r.fields).length := by
  cases hf : r.fields with
  | nil =>
    exfalso
    apply h
    have z : ∀ n b, optBytes n b = [] → b = [] := by
      intro n b hb
      unfold optBytes at hb
      split at hb
      · assumption
      · simp at hb
    simp only [AgentRecord.fields, List.append_eq_nil_iff] at hf
    obtain ⟨⟨⟨⟨⟨⟨⟨h1, h2⟩, h3⟩, h4⟩, h5⟩, h6⟩, h7⟩, h8⟩ := hf
    cases r
    simp only [AgentRecord.zero, AgentRecord.mk.injEq]
    exact ⟨z _ _ h1, z _ _ h2, z _ _ h3, z _ _ h4, z _ _ h5, z _ _ h6, z _ _ h7, z _ _ h8⟩
  | cons f fs =>
    obtain ⟨b, hb⟩ := r.fields_shape f (by rw [hf]; simp)
    obtain ⟨n, v⟩ := f
    simp only at hb
    subst hb
    have := bytes_length_lt (fs := ⟨n, .bytes b⟩ :: fs) (n := n) (b := b) (by simp)
    omega

theorem saveRecord_eq {peerId : Bytes → Option Bytes} {broken : AgentRecord → Bytes}
    {r : AgentRecord} (h : Savable peerId r) :
    saveRecord broken r = some (frame (encodeFields r.fields)) := by
  have := AgentRecord.encoding_pos h.nonempty
  unfold saveRecord AgentRecord.encode
  rw [if_pos h.utf8]
  dsimp only [Option.getD_some]
  rw [if_neg (by omega)]
  rfl

/-- The file after saving records one after the other. -/
def fileOf (rs : List AgentRecord) : Bytes :=
  (rs.map fun r => frame (encodeFields r.fields)).flatten

theorem loadAux_frame {peerId : Bytes → Option Bytes} {r : AgentRecord} (h : Savable peerId r)
    (fuel : Nat) (st : Loaded) (n : Nat) (rest : Bytes) :
    loadAux peerId (fuel + 1) st n (frame (encodeFields r.fields) ++ rest) =
      loadAux peerId fuel ⟨st.records.set r.address r,
        st.dhtAddresses.set r.address ((peerId r.peerPublicKey).getD [])⟩ (n + 1) rest := by
  obtain ⟨id, hid⟩ := Option.isSome_iff_exists.1 h.key
  have hl := h.small
  rw [loadAux]
  have e4 : (frame (encodeFields r.fields) ++ rest).length =
      4 + (encodeFields r.fields).length + rest.length := by
    simp only [frame, List.length_append, be32_length]
  rw [if_neg (by omega), if_neg (by omega)]
  have et : (frame (encodeFields r.fields) ++ rest).take 4 = be32 (encodeFields r.fields).length := by
    rw [frame, List.append_assoc, List.take_left' (be32_length _)]
  have ed : (frame (encodeFields r.fields) ++ rest).drop 4 = encodeFields r.fields ++ rest := by
    rw [frame, List.append_assoc, List.drop_left' (be32_length _)]
  simp only [et, ed, be32ToNat_be32_lt hl]
  rw [if_neg (by rw [List.length_append]; omega), List.take_left' rfl, List.drop_left' rfl]
  rw [AgentRecord.decode, AgentRecord.decodeInto_encode h.utf8 (by omega)]
  simp only [hid, Option.getD_some]

/-- The maps after loading some records on top of given maps. -/
def loadOnto (peerId : Bytes → Option Bytes) (st : Loaded) (rs : List AgentRecord) : Loaded :=
  rs.foldl (fun st r => ⟨st.records.set r.address r,
    st.dhtAddresses.set r.address ((peerId r.peerPublicKey).getD [])⟩) st

theorem loadAux_records {peerId : Bytes → Option Bytes} {rs : List AgentRecord}
    (h : ∀ r ∈ rs, Savable peerId r) (fuel : Nat) (st : Loaded) (n : Nat) (rest : Bytes) :
    loadAux peerId (rs.length + fuel) st n (fileOf rs ++ rest) =
      loadAux peerId fuel (loadOnto peerId st rs) (n + rs.length) rest := by
  induction rs generalizing st n with
  | nil => simp [fileOf, loadOnto]
  | cons r rs ih =>
    have e : fileOf (r :: rs) ++ rest = frame (encodeFields r.fields) ++ (fileOf rs ++ rest) := by
      simp [fileOf]
    have hlen : (r :: rs).length + fuel = (rs.length + fuel) + 1 := by
      rw [List.length_cons]; omega
    rw [e, hlen, loadAux_frame (h r (by simp)), ih (fun x hx => h x (by simp [hx])), loadOnto,
      loadOnto, List.foldl_cons, List.length_cons]
    congr 1
    omega

theorem fileOf_length (rs : List AgentRecord) : rs.length ≤ (fileOf rs).length := by
  induction rs with
  | nil => simp
  | cons r rs ih =>
    simp only [fileOf, List.map_cons, List.flatten_cons, List.length_append, List.length_cons, frame,
      be32_length] at ih ⊢
    omega

theorem lastRecord_snoc (rs : List AgentRecord) (r : AgentRecord) (a : Bytes) :
    lastRecord (rs ++ [r]) a = if r.address = a then some r else lastRecord rs a := by
  unfold lastRecord
  rw [List.reverse_append, List.reverse_singleton, List.singleton_append, List.find?_cons]
  by_cases h : r.address = a
  · simp [h]
  · have : (r.address == a) = false := by simpa using h
    rw [if_neg h, this]

theorem loadOnto_get (peerId : Bytes → Option Bytes) (rs : List AgentRecord) (a : Bytes) :
    (loadOnto peerId .empty rs).records.get a = lastRecord rs a ∧
    (loadOnto peerId .empty rs).dhtAddresses.get a =
      (lastRecord rs a).map fun r => (peerId r.peerPublicKey).getD [] := by
  have key : ∀ (xs : List AgentRecord),
      (loadOnto peerId .empty xs.reverse).records.get a = lastRecord xs.reverse a ∧
      (loadOnto peerId .empty xs.reverse).dhtAddresses.get a =
        (lastRecord xs.reverse a).map fun r => (peerId r.peerPublicKey).getD [] := by
    intro xs
    induction xs with
    | nil => exact ⟨rfl, rfl⟩
    | cons r xs ih =>
      rw [List.reverse_cons, lastRecord_snoc]
      have e : loadOnto peerId .empty (xs.reverse ++ [r]) =
          ⟨(loadOnto peerId .empty xs.reverse).records.set r.address r,
           (loadOnto peerId .empty xs.reverse).dhtAddresses.set r.address
             ((peerId r.peerPublicKey).getD [])⟩ := by
        simp [loadOnto, List.foldl_append]
      rw [e]
      dsimp only
      rw [GoMap.get_set, GoMap.get_set]
      by_cases h : r.address = a
      · subst h; simp
      · rw [if_neg h, if_neg (fun e => h e.symm), if_neg (fun e => h e.symm)]
        exact ih
  have := key rs.reverse
  rwa [List.reverse_reverse] at this

theorem loadRecords_append {peerId : Bytes → Option Bytes} {rs : List AgentRecord}
    (h : ∀ r ∈ rs, Savable peerId r) (rest : Bytes) :
    ∃ fuel, rest.length < fuel ∧ loadRecords peerId (fileOf rs ++ rest) =
      loadAux peerId fuel (loadOnto peerId .empty rs) rs.length rest := by
  have hl := fileOf_length rs
  refine ⟨(fileOf rs).length - rs.length + rest.length + 1, by omega, ?_⟩
  unfold loadRecords
  have e : (fileOf rs ++ rest).length + 1 =
      rs.length + ((fileOf rs).length - rs.length + rest.length + 1) := by
    rw [List.length_append]; omega
  rw [e, loadAux_records h, Nat.zero_add]

theorem loadAux_nil (peerId : Bytes → Option Bytes) {fuel : Nat} (hf : 0 < fuel) (st : Loaded)
    (n : Nat) : loadAux peerId fuel st n [] = .ok (st, n) := by
  cases fuel with
  | zero => omega
  | succ f => simp [loadAux]

/-- **C22.** After any sequence of saved records (over any number of runs of the peer, as the
file is only appended to), loading succeeds and gives for every address the last record saved
for it, with the peer id of its peer public key, and nothing for other addresses. -/
theorem C22_records_survive {peerId : Bytes → Option Bytes} {broken : AgentRecord → Bytes}
    {rs : List AgentRecord} {parts : List Bytes} (h : ∀ r ∈ rs, Savable peerId r)
    (hs : rs.map (saveRecord broken) = parts.map some) :
    ∃ st, loadRecords peerId parts.flatten = .ok (st, rs.length) ∧
      (∀ a, st.records.get a = lastRecord rs a) ∧
      (∀ a, st.dhtAddresses.get a = (lastRecord rs a).bind fun r => peerId r.peerPublicKey) := by
  have hp : parts.flatten = fileOf rs := by
    congr 1
    induction rs generalizing parts with
    | nil =>
      cases parts with
      | nil => rfl
      | cons p ps => simp at hs
    | cons r rs ih =>
      cases parts with
      | nil => simp at hs
      | cons p ps =>
        simp only [List.map_cons, List.cons.injEq] at hs
        rw [saveRecord_eq (h r (by simp))] at hs
        rw [List.map_cons, ← Option.some.inj hs.1, ih (fun x hx => h x (by simp [hx])) hs.2]
  obtain ⟨fuel, hf, he⟩ := loadRecords_append h []
  rw [List.append_nil] at he
  refine ⟨loadOnto peerId .empty rs, ?_, fun a => (loadOnto_get peerId rs a).1, fun a => ?_⟩
  · rw [hp, he, loadAux_nil peerId (by omega)]
  · rw [(loadOnto_get peerId rs a).2]
    cases hl : lastRecord rs a with
    | none => rfl
    | some r =>
      have hm : r ∈ rs := List.mem_reverse.1 (List.mem_of_find?_eq_some hl)
      obtain ⟨id, hid⟩ := Option.isSome_iff_exists.1 (h r hm).key
      simp [hid]

/-- **C22.** Saving a record that carries this peer's key never fails. -/
theorem C22_save_succeeds {peerId : Bytes → Option Bytes} (broken : AgentRecord → Bytes)
    {r : AgentRecord} (h : Savable peerId r) : ∃ b, saveRecord broken r = some b :=
  ⟨_, saveRecord_eq h⟩

/-- **C23, partial.** Exactly what happens when the process stops after `k` bytes of an append
reached the file: the restarted peer loads all earlier records if `k = 0` and also the new one
if all bytes are there; for every other `k` loading fails and the peer does not start. Missing
from the property: all those other `k`, for which it is false. -/
theorem C23_torn_append_partial {peerId : Bytes → Option Bytes} {rs : List AgentRecord}
    {r : AgentRecord} (h : ∀ x ∈ rs, Savable peerId x) (hr : Savable peerId r) {w : Bytes}
    {broken : AgentRecord → Bytes} (hw : saveRecord broken r = some w) (k : Nat)
    (hk : k ≤ w.length) :
    (∃ st n, loadRecords peerId (fileOf rs ++ w.take k) = .ok (st, n)) ↔ k = 0 ∨ k = w.length := by
  rw [saveRecord_eq hr] at hw
  have hw' := Option.some.inj hw
  subst hw'
  have hl := hr.small
  have hwl : (frame (encodeFields r.fields)).length = 4 + (encodeFields r.fields).length := by
    simp only [frame, List.length_append, be32_length]
  rw [hwl] at hk ⊢
  obtain ⟨fuel, hf, he⟩ := loadRecords_append h ((frame (encodeFields r.fields)).take k)
  rw [he]
  have htl : ((frame (encodeFields r.fields)).take k).length = k := by
    rw [List.length_take, hwl]; omega
  rw [htl] at hf
  constructor
  · intro ⟨st, n, hok⟩
    by_cases hk0 : k = 0
    · exact .inl hk0
    · right
      by_cases hkf : k = 4 + (encodeFields r.fields).length
      · exact hkf
      exfalso
      cases fuel with
      | zero => omega
      | succ fuel =>
        rw [loadAux, htl, if_neg hk0] at hok
        by_cases hk4 : k < 4
        · rw [if_pos hk4] at hok
          simp at hok
        · rw [if_neg hk4] at hok
          have et : ((frame (encodeFields r.fields)).take k).take 4 =
              be32 (encodeFields r.fields).length := by
            rw [List.take_take, Nat.min_eq_left (by omega), frame, List.take_left' (be32_length _)]
          have ed : (((frame (encodeFields r.fields)).take k).drop 4).length = k - 4 := by
            rw [List.length_drop, htl]
          simp only [et, ed, be32ToNat_be32_lt hl] at hok
          rw [if_pos (by omega)] at hok
          simp at hok
  · intro hk'
    rcases hk' with hk' | hk'
    · subst hk'
      rw [List.take_zero, loadAux_nil peerId (by omega)]
      exact ⟨_, _, rfl⟩
    · rw [List.take_of_length_le (by omega)]
      cases fuel with
      | zero => omega
      | succ fuel =>
        have e := loadAux_frame hr fuel (loadOnto peerId .empty rs) rs.length []
        rw [List.append_nil] at e
        rw [e, loadAux_nil peerId (by omega)]
        exact ⟨_, _, rfl⟩

/-- **C23 is false**: stopping after three of the bytes of the first append makes the peer fail
to start. -/
theorem C23_counterexample :
    ∃ (r : AgentRecord) (w : Bytes), saveRecord (fun _ => []) r = some w ∧
      loadRecords some (w.take 3) = .err .size ∧ loadRecords some (w.take 5) = .err .line := by
  exact ⟨⟨[], [], b! "a", [], b! "k", [], [], []⟩, [0, 0, 0, 6, 0x1a, 1, 97, 0x2a, 1, 107],
    by decide, by simp [loadRecords, loadAux], by simp [loadRecords, loadAux, be32ToNat]⟩

/-- **C22.** One record with an unusable peer key anywhere in the file makes loading fail for
good: later appends do not help. -/
theorem C22_bad_key_blocks {peerId : Bytes → Option Bytes} {rs : List AgentRecord}
    {r : AgentRecord} (h : ∀ x ∈ rs, Savable peerId x) (ht : ∀ t ∈ r.texts, IsText t)
    (hs : (encodeFields r.fields).length < 2 ^ 32) (hk : peerId r.peerPublicKey = none)
    (rest : Bytes) :
    loadRecords peerId (fileOf rs ++ (frame (encodeFields r.fields) ++ rest)) = .err .key := by
  obtain ⟨fuel, hf, he⟩ := loadRecords_append h (frame (encodeFields r.fields) ++ rest)
  rw [he]
  cases fuel with
  | zero => omega
  | succ fuel =>
    rw [loadAux]
    have e4 : (frame (encodeFields r.fields) ++ rest).length =
        4 + (encodeFields r.fields).length + rest.length := by
      simp only [frame, List.length_append, be32_length]
    rw [if_neg (by omega), if_neg (by omega)]
    have et : (frame (encodeFields r.fields) ++ rest).take 4 =
        be32 (encodeFields r.fields).length := by
      rw [frame, List.append_assoc, List.take_left' (be32_length _)]
    have ed : (frame (encodeFields r.fields) ++ rest).drop 4 = encodeFields r.fields ++ rest := by
      rw [frame, List.append_assoc, List.drop_left' (be32_length _)]
    simp only [et, ed, be32ToNat_be32_lt hs]
    rw [if_neg (by rw [List.length_append]; omega), List.take_left' rfl]
    rw [AgentRecord.decode, AgentRecord.decodeInto_encode (r.utf8_iff.2 ht) (by omega)]
    simp only [hk]

/-! ## Concrete case -/

/-- Two registrations of one agent and one of another: the later record of the first counts. -/
example :
    (match loadRecords some (fileOf [⟨[], [], b! "a", [], b! "k", [], [], []⟩,
        ⟨[], [], b! "b", [], b! "k", [], [], []⟩, ⟨[], [], b! "a", [], b! "l", [], [], []⟩]) with
      | .ok (st, n) => some (n, (st.records.get (b! "a")).map (·.peerPublicKey),
          st.dhtAddresses.get (b! "b"), (st.records.get (b! "c")).isSome)
      | _ => none) = some (3, some (b! "l"), some (b! "k"), false) := by decide

end Verif
