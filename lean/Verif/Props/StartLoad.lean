import Verif.Model.StartLoad
import Verif.Props.RecordFile

/-!
# C82: a client that registers while the peer starts is kept

Wrong as stated: before the file is open nothing is saved, a stored record replaces a newer registration, and
an append makes the loader skip the rest of the file.
-/

namespace Verif

open Proto

namespace StartLoad

/-- A step of the loader. -/
def Loads : StartLoadStep → Prop
  | .read _ => True
  | .parse => True
  | _ => False

theorem loadAux_fuel (peerId : Bytes → Option Bytes) {fuel fuel' : Nat} {file : Bytes} (st : Loaded) (n : Nat)
    (h : file.length < fuel) (h' : file.length < fuel') :
    loadAux peerId fuel st n file = loadAux peerId fuel' st n file := by
  induction fuel generalizing fuel' file st n with
  | zero => omega
  | succ f ih =>
    cases fuel' with
    | zero => omega
    | succ f' =>
      unfold loadAux
      split
      · rfl
      · split
        · rfl
        · dsimp only
          split
          · rfl
          · split
            · rfl
            · split
              · rfl
              · apply ih <;> simp only [List.length_drop] <;> omega

/-- Loading `bytes` onto given tables. -/
def outcome (peerId : Bytes → Option Bytes) (st : Loaded) (n : Nat) (bytes : Bytes) : Res LoadErr (Loaded × Nat) :=
  loadAux peerId (bytes.length + 1) st n bytes

/-- What the loader has done together with what it will still read amounts to `want`. -/
def Loading (peerId : Bytes → Option Bytes) (want : Res LoadErr (Loaded × Nat)) (g : StartLoad) : Prop :=
  match g.phase with
  | .closed => False
  | .loading => outcome peerId g.tables g.count (g.buf ++ g.file.drop g.off) = want
  | .loaded => .ok (g.tables, g.count) = want
  | .failed e => .err e = want

theorem loading_step {peerId : Bytes → Option Bytes} {broken : AgentRecord → Bytes}
    {want : Res LoadErr (Loaded × Nat)} {g : StartLoad} (h : g.Loading peerId want) {s : StartLoadStep}
    (hs : Loads s) :
    (g.step peerId broken s).Loading peerId want ∧ (g.step peerId broken s).file = g.file := by
  cases s with
  | register r id => cases hs
  | record k => cases hs
  | list k w => cases hs
  | openFile => cases hs
  | read n =>
    simp only [step]
    split
    · next hc =>
      obtain ⟨hp, hr, hn⟩ := hc
      have hw : outcome peerId g.tables g.count (g.buf ++ g.file.drop g.off) = want := by
        simpa [Loading, hp] using h
      split
      · next he =>
        refine ⟨?_, rfl⟩
        have hd : g.file.drop g.off = [] := by
          cases hd : g.file.drop g.off with
          | nil => rfl
          | cons b bs =>
            rw [hd] at he
            cases n with
            | zero => omega
            | succ n => simp at he
        rw [hd, List.append_nil] at hw
        unfold outcome loadAux at hw
        simp only [Loading]
        by_cases h0 : g.buf.length = 0
        · simp only [h0, if_true] at hw ⊢; exact hw
        · rw [if_neg h0] at hw ⊢
          by_cases h4 : g.buf.length < 4
          · simp only [h4, if_true] at hw ⊢; exact hw
          · rw [if_neg h4] at hw ⊢
            have : (g.buf.drop 4).length < be32ToNat (g.buf.take 4) := by
              simp only [ready, Bool.and_eq_false_iff, decide_eq_false_iff_not] at hr
              omega
            simp only [this, if_true] at hw ⊢
            exact hw
      · next he =>
        refine ⟨?_, rfl⟩
        simp only [Loading, hp]
        rw [← hw]
        have : g.buf ++ (g.file.drop g.off).take n ++
            g.file.drop (g.off + ((g.file.drop g.off).take n).length) = g.buf ++ g.file.drop g.off := by
          rw [List.append_assoc, ← List.drop_drop]
          congr 1
          refine Eq.trans ?_ (List.take_append_drop n (g.file.drop g.off))
          congr 1
          rw [List.length_take]
          by_cases hl : n ≤ (g.file.drop g.off).length
          · rw [Nat.min_eq_left hl]
          · rw [Nat.min_eq_right (by omega), List.drop_of_length_le (Nat.le_refl _),
              List.drop_of_length_le (by omega)]
        rw [this]
    · exact ⟨h, rfl⟩
  | parse =>
    simp only [step]
    split
    · next hc =>
      obtain ⟨hp, hr⟩ := hc
      have hw : outcome peerId g.tables g.count (g.buf ++ g.file.drop g.off) = want := by
        simpa [Loading, hp] using h
      simp only [ready, Bool.and_eq_true, decide_eq_true_eq] at hr
      obtain ⟨h4, hsz⟩ := hr
      unfold outcome loadAux at hw
      rw [if_neg (by rw [List.length_append]; omega), if_neg (by rw [List.length_append]; omega)] at hw
      have et : (g.buf ++ g.file.drop g.off).take 4 = g.buf.take 4 := List.take_append_of_le_length h4
      have ed : (g.buf ++ g.file.drop g.off).drop 4 = g.buf.drop 4 ++ g.file.drop g.off :=
        List.drop_append_of_le_length h4
      simp only [et, ed] at hw
      rw [if_neg (by rw [List.length_append]; omega), List.take_append_of_le_length hsz,
        List.drop_append_of_le_length hsz] at hw
      cases hd : AgentRecord.decode ((g.buf.drop 4).take (be32ToNat (g.buf.take 4))) with
      | none =>
        rw [hd] at hw
        exact ⟨hw, rfl⟩
      | some r =>
        rw [hd] at hw
        dsimp only at hw ⊢
        cases hk : peerId r.peerPublicKey with
        | none =>
          rw [hk] at hw
          exact ⟨hw, rfl⟩
        | some id =>
          rw [hk] at hw
          refine ⟨?_, rfl⟩
          simp only [Loading, hp, outcome]
          rw [← hw]
          apply loadAux_fuel <;> simp only [List.length_append, List.length_drop] <;> omega
    · exact ⟨h, rfl⟩

theorem loading_run {peerId : Bytes → Option Bytes} {broken : AgentRecord → Bytes}
    {want : Res LoadErr (Loaded × Nat)} {g : StartLoad} (h : g.Loading peerId want) {ss : List StartLoadStep}
    (hs : ∀ s ∈ ss, Loads s) :
    (g.run peerId broken ss).Loading peerId want ∧ (g.run peerId broken ss).file = g.file := by
  induction ss generalizing g with
  | nil => exact ⟨h, rfl⟩
  | cons s ss ih =>
    have h1 := loading_step (broken := broken) h (hs s (by simp))
    have h2 := ih h1.1 (fun x hx => hs x (List.mem_cons_of_mem _ hx))
    exact ⟨h2.1, h2.2.trans h1.2⟩

theorem open_loading {peerId : Bytes → Option Bytes} {broken : AgentRecord → Bytes} {g : StartLoad}
    (hc : g.phase = .closed) :
    (g.step peerId broken .openFile).Loading peerId (outcome peerId g.tables g.count g.file) := by
  simp [step, hc, Loading]

theorem loadOnto_over (peerId : Bytes → Option Bytes) (st : Loaded) (rs : List AgentRecord) (a : Bytes) :
    (loadOnto peerId st rs).records.get a = (lastRecord rs a).or (st.records.get a) ∧
    (loadOnto peerId st rs).dhtAddresses.get a =
      ((lastRecord rs a).map fun r => (peerId r.peerPublicKey).getD []).or (st.dhtAddresses.get a) := by
  have key : ∀ (xs : List AgentRecord),
      (loadOnto peerId st xs.reverse).records.get a = (lastRecord xs.reverse a).or (st.records.get a) ∧
      (loadOnto peerId st xs.reverse).dhtAddresses.get a =
        ((lastRecord xs.reverse a).map fun r => (peerId r.peerPublicKey).getD []).or
          (st.dhtAddresses.get a) := by
    intro xs
    induction xs with
    | nil => exact ⟨rfl, rfl⟩
    | cons r xs ih =>
      rw [List.reverse_cons, lastRecord_snoc]
      have e : loadOnto peerId st (xs.reverse ++ [r]) =
          ⟨(loadOnto peerId st xs.reverse).records.set r.address r,
           (loadOnto peerId st xs.reverse).dhtAddresses.set r.address
             ((peerId r.peerPublicKey).getD [])⟩ := by
        simp [loadOnto, List.foldl_append]
      rw [e]
      dsimp only
      rw [GoMap.get_set, GoMap.get_set]
      by_cases h : r.address = a
      · subst h; simp
      · rw [if_neg h, if_neg (fun e => h e.symm), if_neg (fun e => h e.symm)]
        exact ih
  have := key rs.reverse
  rwa [List.reverse_reverse] at this

theorem outcome_records {peerId : Bytes → Option Bytes} {rs : List AgentRecord}
    (h : ∀ r ∈ rs, Savable peerId r) (st : Loaded) (n : Nat) :
    outcome peerId st n (fileOf rs) = .ok (loadOnto peerId st rs, n + rs.length) := by
  have hl := fileOf_length rs
  unfold outcome
  have e : (fileOf rs).length + 1 = rs.length + ((fileOf rs).length - rs.length + 1) := by omega
  have := loadAux_records h ((fileOf rs).length - rs.length + 1) st n []
  rw [List.append_nil] at this
  rw [e, this, loadAux_nil peerId (by omega)]

end StartLoad

open StartLoad

/-- Loading without disturbance, onto whatever was registered before: every stored record replaces what was
registered for its address, the other registrations stay in the tables, and the file is as it was. -/
theorem C82_loaded_partial {peerId : Bytes → Option Bytes} {broken : AgentRecord → Bytes} {g : StartLoad}
    (hc : g.phase = .closed) {rs : List AgentRecord} (h : ∀ r ∈ rs, Savable peerId r) (hf : g.file = fileOf rs)
    {ss : List StartLoadStep} (hs : ∀ s ∈ ss, Loads s) :
    let g' := g.run peerId broken (.openFile :: ss)
    g'.file = fileOf rs ∧ (g'.phase = .loading ∨ g'.phase = .loaded) ∧
    (g'.phase = .loaded → g'.count = g.count + rs.length ∧ ∀ a,
      g'.tables.records.get a = (lastRecord rs a).or (g.tables.records.get a) ∧
      g'.tables.dhtAddresses.get a =
        ((lastRecord rs a).map fun r => (peerId r.peerPublicKey).getD []).or (g.tables.dhtAddresses.get a)) := by
  intro g'
  have h1 := loading_run (broken := broken) (open_loading (broken := broken) (peerId := peerId) hc) hs
  rw [hf, outcome_records h] at h1
  have hg' : (g.step peerId broken .openFile).run peerId broken ss = g' := rfl
  rw [hg'] at h1
  obtain ⟨hl, hfile⟩ := h1
  refine ⟨?_, ?_, ?_⟩
  · rw [hfile]; simp [step, hc, hf]
  · unfold Loading at hl
    cases hp : g'.phase <;> simp [hp] at hl ⊢
  · intro hp
    unfold Loading at hl
    rw [hp] at hl
    simp only [Res.ok.injEq, Prod.mk.injEq] at hl
    rw [hl.1, hl.2]
    exact ⟨rfl, fun a => loadOnto_over peerId g.tables rs a⟩

/-- A registration before the file is open is not saved. -/
theorem C82_not_saved {peerId : Bytes → Option Bytes} {broken : AgentRecord → Bytes} {g : StartLoad}
    (hc : g.phase = .closed) (s : StartLoadStep) :
    (g.step peerId broken s).file = g.file ∧
    ∀ k r id w, s = .list k w → g.regs[k]? = some (.recorded r id) →
      (g.step peerId broken s).regs[k]? = some (.finished false) ∧
      (g.step peerId broken s).tables.dhtAddresses.get r.address = some id := by
  constructor
  · cases s with
    | register r id => rfl
    | record k => simp only [step]; split <;> rfl
    | list k w =>
      simp only [step]
      split
      · split
        · rw [if_neg (by simp [hc])]
        · rfl
      · rfl
    | openFile => simp [step, hc]
    | read n => simp [step, hc]
    | parse => simp [step, hc]
  · rintro k r id w rfl hk
    have hlt : k < g.regs.length := by
      rcases List.getElem?_eq_some_iff.mp hk with ⟨h, -⟩; exact h
    simp only [step, hk]
    split
    · rw [if_neg (by simp [hc])]
      simp [hlt, GoMap.get_set_self]
    · simp [hlt, GoMap.get_set_self]

/-- A registration that is saved while the loader is at work makes the loader skip everything it has not
read: the outcome is that of what it had in its buffer. -/
theorem C82_skips {peerId : Bytes → Option Bytes} {broken : AgentRecord → Bytes} {g : StartLoad}
    (hp : g.phase = .loading) {k : Nat} {r : AgentRecord} {id w : Bytes}
    (hk : g.regs[k]? = some (.recorded r id)) (hw : saveRecord broken r = some w)
    {ss : List StartLoadStep} (hs : ∀ s ∈ ss, Loads s) :
    (g.run peerId broken (.list k true :: ss)).Loading peerId
      (outcome peerId { g.tables with dhtAddresses := g.tables.dhtAddresses.set r.address id } g.count g.buf) := by
  refine (loading_run (broken := broken) ?_ hs).1
  simp [step, hk, hw, hp, Loading]

/-- A prefix of a file that does not end between two records cannot be loaded. -/
theorem torn_file {peerId : Bytes → Option Bytes} {rs : List AgentRecord} (h : ∀ r ∈ rs, Savable peerId r)
    (n : Nat) (hn : n < (fileOf rs).length) (hb : ∀ k, (fileOf (rs.take k)).length ≠ n) (st : Loaded) (m : Nat) :
    ∃ e, outcome peerId st m ((fileOf rs).take n) = .err e := by
  induction rs generalizing n st m with
  | nil => simp [fileOf] at hn
  | cons r rs ih =>
    have hr := h r (by simp)
    have hl := hr.small
    have hfile : fileOf (r :: rs) = frame (encodeFields r.fields) ++ fileOf rs := by simp [fileOf]
    have hwl : (frame (encodeFields r.fields)).length = 4 + (encodeFields r.fields).length := by
      simp only [frame, List.length_append, be32_length]
    have h0 : n ≠ 0 := by
      intro h0
      exact hb 0 (by simp [fileOf, h0])
    rw [hfile]
    by_cases hlt : n < (frame (encodeFields r.fields)).length
    · rw [List.take_append_of_le_length (by omega)]
      have htl : ((frame (encodeFields r.fields)).take n).length = n := by
        rw [List.length_take]; omega
      unfold outcome loadAux
      rw [htl, if_neg h0]
      by_cases h4 : n < 4
      · rw [if_pos h4]; exact ⟨_, rfl⟩
      · rw [if_neg h4]
        have et : ((frame (encodeFields r.fields)).take n).take 4 =
            be32 (encodeFields r.fields).length := by
          rw [List.take_take, Nat.min_eq_left (by omega), frame, List.take_left' (be32_length _)]
        have ed : (((frame (encodeFields r.fields)).take n).drop 4).length = n - 4 := by
          rw [List.length_drop, htl]
        simp only [et, ed, be32ToNat_be32_lt hl]
        rw [if_pos (by omega)]
        exact ⟨_, rfl⟩
    · obtain ⟨j, rfl⟩ : ∃ j, n = (frame (encodeFields r.fields)).length + j :=
        ⟨n - (frame (encodeFields r.fields)).length, by omega⟩
      have htk : (frame (encodeFields r.fields) ++ fileOf rs).take
          ((frame (encodeFields r.fields)).length + j) =
          frame (encodeFields r.fields) ++ (fileOf rs).take j := by
        rw [List.take_append, List.take_of_length_le (by omega)]
        congr 2
        omega
      rw [htk]
      have hlen : j < (fileOf rs).length := by
        rw [hfile, List.length_append] at hn
        omega
      have hb' : ∀ k, (fileOf (rs.take k)).length ≠ j := by
        intro k hk
        apply hb (k + 1)
        rw [List.take_succ_cons]
        have : fileOf (r :: rs.take k) = frame (encodeFields r.fields) ++ fileOf (rs.take k) := by
          simp [fileOf]
        rw [this, List.length_append, hk]
      obtain ⟨e, he⟩ := ih (fun x hx => h x (List.mem_cons_of_mem _ hx)) j hlen hb'
        ⟨st.records.set r.address r, st.dhtAddresses.set r.address ((peerId r.peerPublicKey).getD [])⟩ (m + 1)
      refine ⟨e, ?_⟩
      unfold outcome at he ⊢
      rw [loadAux_frame hr]
      rw [← he]
      apply loadAux_fuel
      · rw [List.length_append]; omega
      · omega

/-- A client that registers while the file is being read can keep the peer from starting, though file and
registration are in order: if the part that was read does not end between two records, loading fails. -/
theorem C82_start_fails_counterexample {peerId : Bytes → Option Bytes} {broken : AgentRecord → Bytes}
    {rs : List AgentRecord} (h : ∀ x ∈ rs, Savable peerId x) {r : AgentRecord} (hr : Savable peerId r)
    (id : Bytes) {n : Nat} (hn : n < (fileOf rs).length) (hb : ∀ k, (fileOf (rs.take k)).length ≠ n)
    {ss : List StartLoadStep} (hs : ∀ s ∈ ss, Loads s) :
    ((StartLoad.init (fileOf rs)).run peerId broken
      (.register r id :: .openFile :: .read n :: .record 0 :: .list 0 true :: ss)).phase ≠ .loaded := by
  have h0 : n ≠ 0 := fun h0 => hb 0 (by simp [fileOf, h0])
  obtain ⟨w, hw⟩ := C22_save_succeeds broken hr
  have hne : (fileOf rs).take n ≠ [] := by
    intro he
    have hlen : ((fileOf rs).take n).length = 0 := by rw [he]; rfl
    rw [List.length_take] at hlen
    omega
  let g : StartLoad := ⟨fileOf rs, ((fileOf rs).take n).length, (fileOf rs).take n, .loading,
    ⟨GoMap.empty.set r.address r, .empty⟩, 0, [.recorded r id]⟩
  have hg : (StartLoad.init (fileOf rs)).run peerId broken
      [.register r id, .openFile, .read n, .record 0] = g := by
    simp [StartLoad.run, StartLoad.init, step, ready, hne, Nat.pos_of_ne_zero h0, g, Loaded.empty]
  have hrun : (StartLoad.init (fileOf rs)).run peerId broken
      (.register r id :: .openFile :: .read n :: .record 0 :: .list 0 true :: ss) =
      g.run peerId broken (.list 0 true :: ss) := by
    rw [← hg]; rfl
  rw [hrun]
  have hsk := C82_skips (peerId := peerId) (g := g) rfl (k := 0) rfl hw hs
  obtain ⟨e, he⟩ := torn_file h n hn hb
    { g.tables with dhtAddresses := g.tables.dhtAddresses.set r.address id } g.count
  intro hp
  unfold Loading at hsk
  rw [hp] at hsk
  rw [show g.buf = (fileOf rs).take n from rfl, he] at hsk
  cases hsk

namespace StartLoad

/-- Tables and file agree: the peer would find the same relay clients after a restart. -/
def Agrees (peerId : Bytes → Option Bytes) (g : StartLoad) : Prop :=
  ∃ rs, (∀ r ∈ rs, Savable peerId r) ∧ g.file = fileOf rs ∧
    ∀ a, g.tables.dhtAddresses.get a = (lastRecord rs a).bind fun r => peerId r.peerPublicKey

/-- A step after the start with a usual client: its record is one that can be saved, its peer id is that of its
key, and writing succeeds. -/
def Usual (peerId : Bytes → Option Bytes) : StartLoadStep → Prop
  | .register r id => Savable peerId r ∧ peerId r.peerPublicKey = some id
  | .list _ written => written = true
  | _ => True

/-- The registrations in progress are usual. -/
def UsualRegs (peerId : Bytes → Option Bytes) (g : StartLoad) : Prop :=
  ∀ x ∈ g.regs, ∀ r id, x = .accepted r id ∨ x = .recorded r id →
    Savable peerId r ∧ peerId r.peerPublicKey = some id

theorem mem_set_of {α : Type} {l : List α} {i : Nat} {x y : α} (h : y ∈ l.set i x) : y ∈ l ∨ y = x := by
  rcases List.mem_or_eq_of_mem_set h with h | h
  · exact .inl h
  · exact .inr h

theorem agrees_step {peerId : Bytes → Option Bytes} {broken : AgentRecord → Bytes} {g : StartLoad}
    (hp : g.phase = .loaded) (h : g.Agrees peerId) (hu : g.UsualRegs peerId) {s : StartLoadStep}
    (hs : Usual peerId s) :
    (g.step peerId broken s).phase = .loaded ∧ (g.step peerId broken s).Agrees peerId ∧
    (g.step peerId broken s).UsualRegs peerId := by
  cases s with
  | register r id =>
    refine ⟨hp, h, ?_⟩
    intro x hx r' id' he
    simp only [step, List.mem_append, List.mem_singleton] at hx
    rcases hx with hx | rfl
    · exact hu x hx r' id' he
    · simp at he; obtain ⟨rfl, rfl⟩ := he; exact hs
  | record k =>
    simp only [step]
    split
    · next r id hk =>
      refine ⟨hp, h, ?_⟩
      intro x hx r' id' he
      rcases mem_set_of hx with hx | rfl
      · exact hu x hx r' id' he
      · simp at he; obtain ⟨rfl, rfl⟩ := he
        exact hu _ (List.mem_of_getElem? hk) _ _ (.inl rfl)
    · exact ⟨hp, h, hu⟩
  | list k w =>
    have hw : w = true := hs
    simp only [step]
    split
    · next r id hk =>
      obtain ⟨hsav, hid⟩ := hu _ (List.mem_of_getElem? hk) _ _ (.inr rfl)
      obtain ⟨rs, h1, h2, h3⟩ := h
      rw [saveRecord_eq hsav]
      dsimp only
      rw [if_pos ⟨by rw [hp]; decide, hw⟩]
      refine ⟨hp, ⟨rs ++ [r], ?_, ?_, ?_⟩, ?_⟩
      · intro x hx
        rcases List.mem_append.mp hx with hx | hx
        · exact h1 x hx
        · simp at hx; subst hx; exact hsav
      · simp [h2, fileOf]
      · intro a
        rw [lastRecord_snoc]
        dsimp only
        rw [GoMap.get_set]
        by_cases ha : r.address = a
        · subst ha; simp [hid]
        · rw [if_neg ha, if_neg (fun e => ha e.symm)]; exact h3 a
      · intro x hx r' id' he
        rcases mem_set_of hx with hx | rfl
        · exact hu x hx r' id' he
        · simp at he
    · exact ⟨hp, h, hu⟩
  | openFile => simp [step, hp]; exact ⟨h, hu⟩
  | read n => simp [step, hp]; exact ⟨h, hu⟩
  | parse => simp [step, hp]; exact ⟨h, hu⟩

end StartLoad

/-- If no client registers before the file is loaded, then all later registrations are kept: at any time the
file loads, and gives the relay clients that the tables have. -/
theorem C82_kept_partial {peerId : Bytes → Option Bytes} {broken : AgentRecord → Bytes} {rs : List AgentRecord}
    (h : ∀ r ∈ rs, Savable peerId r) {ls ss : List StartLoadStep} (hl : ∀ s ∈ ls, Loads s)
    (hd : ((StartLoad.init (fileOf rs)).run peerId broken (.openFile :: ls)).phase = .loaded)
    (hs : ∀ s ∈ ss, Usual peerId s) :
    let g := (StartLoad.init (fileOf rs)).run peerId broken ((.openFile :: ls) ++ ss)
    ∃ st n, loadRecords peerId g.file = .ok (st, n) ∧
      ∀ a, st.dhtAddresses.get a = g.tables.dhtAddresses.get a := by
  intro g
  have hload := C82_loaded_partial (broken := broken) (g := StartLoad.init (fileOf rs)) rfl h rfl hl
  obtain ⟨hfile, -, htab⟩ := hload
  obtain ⟨-, htab⟩ := htab hd
  have hregs : ∀ (ls : List StartLoadStep) (g : StartLoad), (∀ s ∈ ls, Loads s) →
      (g.run peerId broken ls).regs = g.regs := by
    intro ls
    induction ls with
    | nil => intro g _; rfl
    | cons s ls ih =>
      intro g hls
      have h1 : (g.step peerId broken s).regs = g.regs := by
        have := hls s (by simp)
        cases s with
        | read n =>
          simp only [step]
          split
          · split <;> rfl
          · rfl
        | parse =>
          simp only [step]
          split
          · split
            · rfl
            · split <;> rfl
          · rfl
        | _ => cases this
      exact (ih _ (fun x hx => hls x (List.mem_cons_of_mem _ hx))).trans h1
  have key : ∀ (ss : List StartLoadStep) (g : StartLoad), (∀ s ∈ ss, Usual peerId s) → g.phase = .loaded →
      g.Agrees peerId → g.UsualRegs peerId → (g.run peerId broken ss).Agrees peerId := by
    intro ss
    induction ss with
    | nil => intro g _ _ h _; exact h
    | cons s ss ih =>
      intro g hss hp ha hu
      obtain ⟨h1, h2, h3⟩ := agrees_step (broken := broken) hp ha hu (hss s (by simp))
      exact ih _ (fun x hx => hss x (List.mem_cons_of_mem _ hx)) h1 h2 h3
  have hag : g.Agrees peerId := by
    have e : g = ((StartLoad.init (fileOf rs)).run peerId broken (.openFile :: ls)).run peerId broken ss := by
      simp [g, StartLoad.run, List.foldl_append]
    rw [e]
    refine key ss _ hs hd ⟨rs, h, hfile, ?_⟩ ?_
    · intro a
      rw [(htab a).2]
      cases hr : lastRecord rs a with
      | none => simp [StartLoad.init, Loaded.empty]
      | some r =>
        have hm : r ∈ rs := List.mem_reverse.1 (List.mem_of_find?_eq_some hr)
        obtain ⟨id, hid⟩ := Option.isSome_iff_exists.1 (h r hm).key
        simp [hid]
    · intro x hx
      have : ((StartLoad.init (fileOf rs)).run peerId broken (.openFile :: ls)).regs = [] :=
        hregs ls ((StartLoad.init (fileOf rs)).step peerId broken .openFile) hl
      rw [this] at hx
      cases hx
  obtain ⟨rs', h1, h2, h3⟩ := hag
  refine ⟨loadOnto peerId .empty rs', 0 + rs'.length, ?_, ?_⟩
  · rw [h2]; exact outcome_records h1 .empty 0
  · intro a
    rw [(loadOnto_get peerId rs' a).2, h3 a]
    cases hr : lastRecord rs' a with
    | none => rfl
    | some r =>
      have hm : r ∈ rs' := List.mem_reverse.1 (List.mem_of_find?_eq_some hr)
      obtain ⟨id, hid⟩ := Option.isSome_iff_exists.1 (h1 r hm).key
      simp [hid]

namespace StartLoadDemo

/-- A stored client, of the peer with key `k`. -/
def old : AgentRecord := { AgentRecord.zero with address := b! "a", peerPublicKey := b! "k" }

/-- The same agent, now with the peer with key `l`. -/
def new : AgentRecord := { AgentRecord.zero with address := b! "a", peerPublicKey := b! "l" }

/-- Another client. -/
def other : AgentRecord := { AgentRecord.zero with address := b! "b", peerPublicKey := b! "l" }

theorem old_savable : Savable some old := ⟨(AgentRecord.utf8_iff _).1 (by decide), by decide, by decide, rfl⟩
theorem other_savable : Savable some other := ⟨(AgentRecord.utf8_iff _).1 (by decide), by decide, by decide, rfl⟩

/-- A registration before the file is open. -/
def early (r : AgentRecord) : List StartLoadStep :=
  [.register r (b! "l"), .record 0, .list 0 true, .openFile, .read 100, .parse, .read 100]

end StartLoadDemo

open StartLoadDemo in
/-- An agent that has moved to another peer and registers while its relay peer starts: the tables have its
old place. -/
theorem C82_stale_counterexample :
    ((StartLoad.init (fileOf [old])).run some (fun _ => []) (early new)).phase = .loaded ∧
    ((StartLoad.init (fileOf [old])).run some (fun _ => []) (early new)).tables.dhtAddresses.get (b! "a") =
      some (b! "k") := by
  decide +kernel

open StartLoadDemo in
/-- A client that registers while its relay peer starts is unknown after the next restart. -/
theorem C82_lost_counterexample :
    ((StartLoad.init (fileOf [old])).run some (fun _ => []) (early other)).tables.dhtAddresses.get (b! "b") =
      some (b! "l") ∧
    ((StartLoad.init (fileOf [old])).run some (fun _ => []) (early other)).file = fileOf [old] := by
  decide +kernel

open StartLoadDemo in
/-- The start fails though nothing is wrong with the file. -/
example : ((StartLoad.init (fileOf [old, old])).run some (fun _ => [])
    [.register other (b! "l"), .openFile, .read 5, .record 0, .list 0 true, .read 5]).phase =
      .failed .line := by decide +kernel

end Verif
