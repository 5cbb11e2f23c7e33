import Mathlib.Data.List.Basic
import Mathlib.Data.List.Induction
import Verif.Props.StartLoad

/-!
# C105: the record of a relay client and the peer it is reached at belong together

Wrong as stated: a registration is written into the two tables in two critical sections, so that two registrations of
one address can leave the record of one and the peer of the other.

Specification: of a schedule of critical sections, the last of the first sections and the last of the second sections
for an address (`lastFor`).
-/

namespace Verif

namespace RegRace

/-! ## Specification -/

/-- The registrations whose first section is in the schedule, in this order. -/
def firsts (rs : List (AgentRecord × Bytes)) (ev : List StartLoadStep) : List (AgentRecord × Bytes) :=
  ev.filterMap fun
    | .record k => rs[k]?
    | _ => none

/-- The registrations whose second section is in the schedule, in this order. -/
def seconds (rs : List (AgentRecord × Bytes)) (ev : List StartLoadStep) : List (AgentRecord × Bytes) :=
  ev.filterMap fun
    | .list k _ => rs[k]?
    | _ => none

/-- The last for an address. -/
def lastFor (a : Bytes) (l : List (AgentRecord × Bytes)) : Option (AgentRecord × Bytes) :=
  l.reverse.find? fun x => x.1.address == a

/-- A schedule of the sections of registrations: each section once, the second after the first. Writing to the file
succeeds. -/
def Schedule (ev : List StartLoadStep) : Prop :=
  ev.Nodup ∧ (∀ s ∈ ev, (∃ k, s = .record k) ∨ ∃ k, s = .list k true) ∧
  ∀ k, .list k true ∈ ev → .record k ∈ ev ∧ ev.idxOf (.record k) < ev.idxOf (.list k true)

/-- All registrations that were begun are done. -/
def Complete (ev : List StartLoadStep) : Prop := ∀ k, .record k ∈ ev → .list k true ∈ ev

/-- Registrations of one address do both their sections in the same order. -/
def SameOrder (rs : List (AgentRecord × Bytes)) (ev : List StartLoadStep) : Prop :=
  ∀ i j x y, rs[i]? = some x → rs[j]? = some y → x.1.address = y.1.address →
    .record i ∈ ev → .record j ∈ ev → ev.idxOf (.record i) < ev.idxOf (.record j) →
    ev.idxOf (.list i true) < ev.idxOf (.list j true)

/-- A peer that runs, with tables as its file says, and with accepted registrations. -/
structure Running (peerId : Bytes → Option Bytes) (g : StartLoad) (old : List AgentRecord)
    (rs : List (AgentRecord × Bytes)) : Prop where
  phase : g.phase = .loaded
  regs : g.regs = rs.map fun x => .accepted x.1 x.2
  savable : ∀ x ∈ rs, Savable peerId x.1
  id : ∀ x ∈ rs, peerId x.1.peerPublicKey = some x.2
  oldSavable : ∀ r ∈ old, Savable peerId r
  file : g.file = fileOf old
  records : ∀ a, g.tables.records.get a = lastRecord old a
  dht : ∀ a, g.tables.dhtAddresses.get a = (lastRecord old a).bind fun r => peerId r.peerPublicKey

/-! ## Lemmas -/

theorem lastFor_snoc (a : Bytes) (l : List (AgentRecord × Bytes)) (x : AgentRecord × Bytes) :
    lastFor a (l ++ [x]) = if x.1.address = a then some x else lastFor a l := by
  unfold lastFor
  rw [List.reverse_append, List.reverse_singleton, List.singleton_append, List.find?_cons]
  by_cases h : x.1.address = a
  · simp [h]
  · rw [if_neg h]
    have : (x.1.address == a) = false := by simpa using h
    rw [this]

theorem Schedule.init {ev : List StartLoadStep} {s : StartLoadStep} (h : Schedule (ev ++ [s])) : Schedule ev := by
  obtain ⟨h1, h2, h3⟩ := h
  refine ⟨(List.nodup_append.1 h1).1, fun t ht => h2 t (by simp [ht]), ?_⟩
  intro k hk
  obtain ⟨h4, h5⟩ := h3 k (by simp [hk])
  rw [List.idxOf_append_of_mem hk] at h5
  by_cases hm : StartLoadStep.record k ∈ ev
  · rw [List.idxOf_append_of_mem hm] at h5
    exact ⟨hm, h5⟩
  · rw [List.idxOf_append_of_notMem hm] at h5
    have := List.idxOf_lt_length_iff.2 hk
    omega

/-- How far registration `k` is. -/
def status (rs : List (AgentRecord × Bytes)) (ev : List StartLoadStep) (k : Nat) : Option RelayReg :=
  rs[k]?.map fun x =>
    if .list k true ∈ ev then .finished true
    else if .record k ∈ ev then .recorded x.1 x.2 else .accepted x.1 x.2

theorem run_snoc (peerId : Bytes → Option Bytes) (broken : AgentRecord → Bytes) (g : StartLoad)
    (ev : List StartLoadStep) (s : StartLoadStep) :
    g.run peerId broken (ev ++ [s]) = (g.run peerId broken ev).step peerId broken s := by
  simp [StartLoad.run, List.foldl_append]

/-- The invariant. -/
structure Law (g0 g : StartLoad) (old : List AgentRecord) (rs : List (AgentRecord × Bytes))
    (ev : List StartLoadStep) : Prop where
  phase : g.phase = .loaded
  regs : ∀ k, g.regs[k]? = status rs ev k
  records : ∀ a, g.tables.records.get a = ((lastFor a (firsts rs ev)).map (·.1)).or (g0.tables.records.get a)
  dht : ∀ a, g.tables.dhtAddresses.get a =
    ((lastFor a (seconds rs ev)).map (·.2)).or (g0.tables.dhtAddresses.get a)
  file : g.file = fileOf (old ++ (seconds rs ev).map (·.1))

theorem law_run {peerId : Bytes → Option Bytes} (broken : AgentRecord → Bytes) {g0 : StartLoad}
    {old : List AgentRecord} {rs : List (AgentRecord × Bytes)} (h0 : Running peerId g0 old rs)
    (ev : List StartLoadStep) : Schedule ev → Law g0 (g0.run peerId broken ev) old rs ev := by
  induction ev using List.reverseRecOn with
  | nil =>
    intro _
    refine ⟨h0.phase, ?_, ?_, ?_, ?_⟩
    · intro k
      rw [show g0.run peerId broken [] = g0 from rfl, h0.regs]
      simp [status]
    · intro a; simp [StartLoad.run, firsts, lastFor]
    · intro a; simp [StartLoad.run, seconds, lastFor]
    · simp [StartLoad.run, seconds, h0.file]
  | append_singleton ev s ih =>
    intro hs
    have hl := ih hs.init
    rw [run_snoc]
    generalize g0.run peerId broken ev = g at hl
    obtain ⟨hnd, hall, hord⟩ := hs
    have hnot : s ∉ ev := by
      have := (List.nodup_append.1 hnd).2.2
      intro hm
      exact this s hm s (by simp) rfl
    rcases hall s (by simp) with ⟨k, rfl⟩ | ⟨k, rfl⟩
    · have hl2 : StartLoadStep.list k true ∉ ev := by
        intro hm
        have := (hord k (by simp [hm])).2
        rw [List.idxOf_append_of_mem hm, List.idxOf_append_of_notMem hnot] at this
        have := List.idxOf_lt_length_iff.2 hm
        omega
      have hreg := hl.regs k
      cases hk : rs[k]? with
      | none =>
        rw [status, hk, Option.map_none] at hreg
        have hstep : g.step peerId broken (.record k) = g := by simp only [StartLoad.step, hreg]
        rw [hstep]
        have hf : firsts rs (ev ++ [.record k]) = firsts rs ev := by simp [firsts, hk]
        have hsn : seconds rs (ev ++ [.record k]) = seconds rs ev := by simp [seconds]
        refine ⟨hl.phase, ?_, by rw [hf]; exact hl.records, by rw [hsn]; exact hl.dht, by rw [hsn]; exact hl.file⟩
        intro i
        rw [hl.regs i, status, status]
        cases hi : rs[i]? with
        | none => rfl
        | some x =>
          have : i ≠ k := by rintro rfl; simp [hk] at hi
          simp [this]
      | some x =>
        rw [status, hk, Option.map_some, if_neg hl2, if_neg hnot] at hreg
        have hlt : k < g.regs.length := (List.getElem?_eq_some_iff.1 hreg).1
        simp only [StartLoad.step, hreg]
        have hf : firsts rs (ev ++ [.record k]) = firsts rs ev ++ [x] := by simp [firsts, hk]
        have hsn : seconds rs (ev ++ [.record k]) = seconds rs ev := by simp [seconds]
        refine ⟨hl.phase, ?_, ?_, by rw [hsn]; exact hl.dht, by rw [hsn]; exact hl.file⟩
        · intro i
          rw [List.getElem?_set]
          by_cases hik : k = i
          · subst hik
            rw [if_pos rfl, if_pos hlt, status, hk]
            simp [hl2]
          · rw [if_neg hik, hl.regs i, status, status]
            have : i ≠ k := fun e => hik e.symm
            simp [this]
        · intro a
          rw [hf, lastFor_snoc]
          dsimp only
          rw [GoMap.get_set, hl.records a]
          by_cases ha : x.1.address = a
          · subst ha; simp
          · rw [if_neg ha, if_neg (fun e => ha e.symm)]
    · have hrec : StartLoadStep.record k ∈ ev := by
        have := (hord k (by simp)).1
        simpa using this
      have hreg := hl.regs k
      cases hk : rs[k]? with
      | none =>
        rw [status, hk, Option.map_none] at hreg
        have hstep : g.step peerId broken (.list k true) = g := by simp only [StartLoad.step, hreg]
        rw [hstep]
        have hf : firsts rs (ev ++ [.list k true]) = firsts rs ev := by simp [firsts]
        have hsn : seconds rs (ev ++ [.list k true]) = seconds rs ev := by simp [seconds, hk]
        refine ⟨hl.phase, ?_, by rw [hf]; exact hl.records, by rw [hsn]; exact hl.dht, by rw [hsn]; exact hl.file⟩
        intro i
        rw [hl.regs i, status, status]
        cases hi : rs[i]? with
        | none => rfl
        | some x =>
          have : i ≠ k := by rintro rfl; simp [hk] at hi
          simp [this]
      | some x =>
        rw [status, hk, Option.map_some, if_neg hnot, if_pos hrec] at hreg
        have hlt : k < g.regs.length := (List.getElem?_eq_some_iff.1 hreg).1
        have hsav := h0.savable x (List.mem_of_getElem? hk)
        simp only [StartLoad.step, hreg, saveRecord_eq hsav]
        rw [if_pos ⟨by rw [hl.phase]; decide, trivial⟩]
        have hf : firsts rs (ev ++ [.list k true]) = firsts rs ev := by simp [firsts]
        have hsn : seconds rs (ev ++ [.list k true]) = seconds rs ev ++ [x] := by simp [seconds, hk]
        refine ⟨hl.phase, ?_, by rw [hf]; exact hl.records, ?_, ?_⟩
        · intro i
          rw [List.getElem?_set]
          by_cases hik : k = i
          · subst hik
            rw [if_pos rfl, if_pos hlt, status, hk]
            simp
          · rw [if_neg hik, hl.regs i, status, status]
            have : i ≠ k := fun e => hik e.symm
            simp [this]
        · intro a
          rw [hsn, lastFor_snoc]
          dsimp only
          rw [GoMap.get_set, hl.dht a]
          by_cases ha : x.1.address = a
          · subst ha; simp
          · rw [if_neg ha, if_neg (fun e => ha e.symm)]
        · rw [hsn, hl.file]
          simp [fileOf]

/-- The last in a schedule. -/
theorem last_iff {f : StartLoadStep → Option (AgentRecord × Bytes)} {ev : List StartLoadStep} (hnd : ev.Nodup)
    (a : Bytes) :
    (∀ x, lastFor a (ev.filterMap f) = some x → ∃ s ∈ ev, f s = some x ∧ x.1.address = a ∧
      ∀ t ∈ ev, ∀ y, f t = some y → y.1.address = a → ev.idxOf t ≤ ev.idxOf s) ∧
    (lastFor a (ev.filterMap f) = none → ∀ t ∈ ev, ∀ y, f t = some y → y.1.address ≠ a) := by
  induction ev using List.reverseRecOn with
  | nil => simp [lastFor]
  | append_singleton ev s ih =>
    obtain ⟨h1, h2⟩ := ih (List.nodup_append.1 hnd).1
    have hnot : s ∉ ev := by
      have := (List.nodup_append.1 hnd).2.2
      intro hm
      exact this s hm s (by simp) rfl
    have hlast : (ev ++ [s]).idxOf s = ev.length := by
      rw [List.idxOf_append_of_notMem hnot]; simp
    cases hfs : f s with
    | none =>
      have e : (ev ++ [s]).filterMap f = ev.filterMap f := by simp [hfs]
      rw [e]
      constructor
      · intro x hx
        obtain ⟨u, hu, hfu, hau, hmax⟩ := h1 x hx
        refine ⟨u, by simp [hu], hfu, hau, ?_⟩
        intro t ht y hy hya
        rcases List.mem_append.1 ht with ht | ht
        · rw [List.idxOf_append_of_mem ht, List.idxOf_append_of_mem hu]
          exact hmax t ht y hy hya
        · simp at ht; subst ht; simp [hfs] at hy
      · intro hn t ht y hy
        rcases List.mem_append.1 ht with ht | ht
        · exact h2 hn t ht y hy
        · simp at ht; subst ht; simp [hfs] at hy
    | some z =>
      have e : (ev ++ [s]).filterMap f = ev.filterMap f ++ [z] := by simp [hfs]
      rw [e, lastFor_snoc]
      by_cases hz : z.1.address = a
      · rw [if_pos hz]
        constructor
        · intro x hx
          simp only [Option.some.injEq] at hx
          subst hx
          refine ⟨s, by simp, hfs, hz, ?_⟩
          intro t ht y _ _
          rw [hlast]
          rcases List.mem_append.1 ht with ht | ht
          · rw [List.idxOf_append_of_mem ht]
            have := List.idxOf_lt_length_iff.2 ht
            omega
          · simp at ht; subst ht; rw [hlast]; exact Nat.le_refl _
        · simp
      · rw [if_neg hz]
        constructor
        · intro x hx
          obtain ⟨u, hu, hfu, hau, hmax⟩ := h1 x hx
          refine ⟨u, by simp [hu], hfu, hau, ?_⟩
          intro t ht y hy hya
          rcases List.mem_append.1 ht with ht | ht
          · rw [List.idxOf_append_of_mem ht, List.idxOf_append_of_mem hu]
            exact hmax t ht y hy hya
          · simp at ht; subst ht
            rw [hfs] at hy; cases hy
            exact absurd hya hz
        · intro hn t ht y hy
          rcases List.mem_append.1 ht with ht | ht
          · exact h2 hn t ht y hy
          · simp at ht; subst ht
            rw [hfs] at hy; cases hy
            exact hz

/-- The same winner. -/
theorem same_last {rs : List (AgentRecord × Bytes)} {ev : List StartLoadStep} (hs : Schedule ev) (hc : Complete ev)
    (ho : SameOrder rs ev) (a : Bytes) : lastFor a (firsts rs ev) = lastFor a (seconds rs ev) := by
  obtain ⟨hnd, hall, hord⟩ := hs
  have h1 := last_iff (f := fun | .record k => rs[k]? | _ => none) hnd a
  have h2 := last_iff (f := fun | .list k _ => rs[k]? | _ => none) hnd a
  change (∀ x, lastFor a (firsts rs ev) = some x → _) ∧ (lastFor a (firsts rs ev) = none → _) at h1
  change (∀ x, lastFor a (seconds rs ev) = some x → _) ∧ (lastFor a (seconds rs ev) = none → _) at h2
  cases hx : lastFor a (firsts rs ev) with
  | none =>
    cases hy : lastFor a (seconds rs ev) with
    | none => rfl
    | some y =>
      exfalso
      obtain ⟨s, hs, hfs, hya, -⟩ := h2.1 y hy
      rcases hall s hs with ⟨k, rfl⟩ | ⟨k, rfl⟩
      · simp at hfs
      · exact h1.2 hx (.record k) (hord k hs).1 y hfs hya
  | some x =>
    obtain ⟨s, hs, hfs, hxa, hmax⟩ := h1.1 x hx
    rcases hall s hs with ⟨k, rfl⟩ | ⟨k, rfl⟩
    · have hls := hc k hs
      cases hy : lastFor a (seconds rs ev) with
      | none => exact absurd hxa (h2.2 hy (.list k true) hls x hfs)
      | some y =>
        obtain ⟨t, ht, hft, hya, hmax2⟩ := h2.1 y hy
        rcases hall t ht with ⟨j, rfl⟩ | ⟨j, rfl⟩
        · simp at hft
        · by_cases hjk : j = k
          · subst hjk
            simp only at hfs hft
            rw [← hfs, ← hft]
          · exfalso
            have hrj := (hord j ht).1
            have hle := hmax (.record j) hrj y hft hya
            have hne : ev.idxOf (.record j) ≠ ev.idxOf (StartLoadStep.record k) := by
              intro e
              have := (List.idxOf_inj hrj).1 e
              cases this
              exact hjk rfl
            have hlt := ho j k y x hft hfs (hya.trans hxa.symm) hrj hs (by omega)
            have := hmax2 (.list k true) hls x hfs hxa
            omega
    · simp at hfs

end RegRace

open RegRace

/-! ## The claims -/

/-- **C105.** Exactly what registrations leave behind, however their sections are interleaved: of an address, the
record of the registration whose first section was last, the peer of the one whose second section was last, and in
the file the records in the order of the second sections. -/
theorem C105_exact {peerId : Bytes → Option Bytes} (broken : AgentRecord → Bytes) {g : StartLoad}
    {old : List AgentRecord} {rs : List (AgentRecord × Bytes)} (h : Running peerId g old rs)
    {ev : List StartLoadStep} (hs : Schedule ev) :
    let g' := g.run peerId broken ev
    (∀ a, g'.tables.records.get a = ((lastFor a (firsts rs ev)).map (·.1)).or (lastRecord old a)) ∧
    (∀ a, g'.tables.dhtAddresses.get a = ((lastFor a (seconds rs ev)).map (·.2)).or
      ((lastRecord old a).bind fun r => peerId r.peerPublicKey)) ∧
    g'.file = fileOf (old ++ (seconds rs ev).map (·.1)) := by
  have hl := law_run broken h ev hs
  refine ⟨?_, ?_, hl.file⟩
  · intro a; rw [hl.records a, h.records a]
  · intro a; rw [hl.dht a, h.dht a]

/-- **C105, partial.** If the registrations of one address do their sections in the same order, in particular if they
do not overlap, then all tables agree in the end: the relay peer of an address is the one that its record names, and
a restart gives the same records and the same relay peers. -/
theorem C105_agree_partial {peerId : Bytes → Option Bytes} (broken : AgentRecord → Bytes) {g : StartLoad}
    {old : List AgentRecord} {rs : List (AgentRecord × Bytes)} (h : Running peerId g old rs)
    {ev : List StartLoadStep} (hs : Schedule ev) (hc : Complete ev) (ho : SameOrder rs ev) :
    let g' := g.run peerId broken ev
    (∀ a, g'.tables.dhtAddresses.get a = (g'.tables.records.get a).bind fun r => peerId r.peerPublicKey) ∧
    ∃ st n, loadRecords peerId g'.file = .ok (st, n) ∧ ∀ a, st.records.get a = g'.tables.records.get a ∧
      st.dhtAddresses.get a = g'.tables.dhtAddresses.get a := by
  intro g'
  obtain ⟨h1, h2, h3⟩ := C105_exact broken h hs
  have hmem : ∀ a x, lastFor a (seconds rs ev) = some x → x ∈ rs := by
    intro a x hx
    obtain ⟨s, -, hf, -⟩ := (last_iff (f := fun | .list k _ => rs[k]? | _ => none) hs.1 a).1 x hx
    cases s with
    | list k w => exact List.mem_of_getElem? hf
    | _ => simp at hf
  have hsub : ∀ x ∈ seconds rs ev, x ∈ rs := by
    intro x hx
    obtain ⟨s, -, hf⟩ := List.mem_filterMap.1 hx
    cases s with
    | list k w => exact List.mem_of_getElem? hf
    | _ => simp at hf
  have hagree : ∀ a, g'.tables.dhtAddresses.get a =
      (g'.tables.records.get a).bind fun r => peerId r.peerPublicKey := by
    intro a
    rw [h1 a, h2 a, same_last hs hc ho a]
    cases hx : lastFor a (seconds rs ev) with
    | none => simp
    | some x => simp [h.id x (hmem a x hx)]
  refine ⟨hagree, ?_⟩
  have hsav : ∀ r ∈ old ++ (seconds rs ev).map (·.1), Savable peerId r := by
    intro r hr
    rcases List.mem_append.1 hr with hr | hr
    · exact h.oldSavable r hr
    · obtain ⟨x, hx, rfl⟩ := List.mem_map.1 hr
      exact h.savable x (hsub x hx)
  refine ⟨loadOnto peerId .empty (old ++ (seconds rs ev).map (·.1)),
    0 + (old ++ (seconds rs ev).map (·.1)).length, ?_, ?_⟩
  · rw [h3]; exact StartLoad.outcome_records hsav .empty 0
  · intro a
    have hlast : ∀ (l : List (AgentRecord × Bytes)), lastRecord (old ++ l.map (·.1)) a =
        ((lastFor a l).map (·.1)).or (lastRecord old a) := by
      intro l
      induction l using List.reverseRecOn with
      | nil => simp [lastFor]
      | append_singleton l x ih =>
        rw [List.map_append, ← List.append_assoc, List.map_singleton, lastRecord_snoc, lastFor_snoc, ih]
        split <;> simp
    have hrec : (loadOnto peerId .empty (old ++ (seconds rs ev).map (·.1))).records.get a =
        g'.tables.records.get a := by
      rw [(loadOnto_get peerId _ a).1, hlast, h1 a, same_last hs hc ho a]
    refine ⟨hrec, ?_⟩
    rw [hagree a, ← hrec, (loadOnto_get peerId _ a).1, (loadOnto_get peerId _ a).2]
    cases hr : lastRecord (old ++ (seconds rs ev).map (·.1)) a with
    | none => rfl
    | some r =>
      have hm : r ∈ old ++ (seconds rs ev).map (·.1) := List.mem_reverse.1 (List.mem_of_find?_eq_some hr)
      obtain ⟨id, hid⟩ := Option.isSome_iff_exists.1 (hsav r hm).key
      simp [hid]

namespace RegRace

/-- Whoever is in the relay table has a record. -/
def Known (g : StartLoad) : Prop :=
  (∀ a id, g.tables.dhtAddresses.get a = some id → ∃ r, g.tables.records.get a = some r) ∧
  (∀ x ∈ g.regs, ∀ r id, x = .recorded r id → ∃ r', g.tables.records.get r.address = some r') ∧
  ∀ a r, g.tables.records.get a = some r → r.address = a

theorem known_step (peerId : Bytes → Option Bytes) (broken : AgentRecord → Bytes) {g : StartLoad} (h : Known g)
    (s : StartLoadStep) : Known (g.step peerId broken s) ∧
      ∀ a r, g.tables.records.get a = some r → ∃ r', (g.step peerId broken s).tables.records.get a = some r' := by
  obtain ⟨h1, h2, h3⟩ := h
  have same : Known g ∧ ∀ a r, g.tables.records.get a = some r → ∃ r', g.tables.records.get a = some r' :=
    ⟨⟨h1, h2, h3⟩, fun a r h => ⟨r, h⟩⟩
  have setRec : ∀ (m : GoMap Bytes AgentRecord) (r : AgentRecord) a r', m.get a = some r' →
      ∃ r'', (m.set r.address r).get a = some r'' := by
    intro m r a r' hr
    rw [GoMap.get_set]
    split
    · exact ⟨_, rfl⟩
    · exact ⟨_, hr⟩
  have setAddr : ∀ (r : AgentRecord) a r', (g.tables.records.set r.address r).get a = some r' → r'.address = a := by
    intro r a r' hr
    rw [GoMap.get_set] at hr
    split at hr
    · next e => cases hr; exact e.symm
    · exact h3 a r' hr
  cases s with
  | register r id =>
    refine ⟨⟨h1, ?_, h3⟩, same.2⟩
    intro x hx r' id' he
    simp only [StartLoad.step, List.mem_append, List.mem_singleton] at hx
    rcases hx with hx | rfl
    · exact h2 x hx r' id' he
    · cases he
  | record k =>
    simp only [StartLoad.step]
    split
    · next r id hk =>
      refine ⟨⟨?_, ?_, ?_⟩, ?_⟩
      · intro a id' ha
        obtain ⟨r', hr'⟩ := h1 a id' ha
        exact setRec _ r a r' hr'
      · intro x hx r' id' he
        rcases StartLoad.mem_set_of hx with hx | rfl
        · obtain ⟨r'', hr''⟩ := h2 x hx r' id' he
          exact setRec _ r _ _ hr''
        · cases he
          exact ⟨r, by simp⟩
      · exact setAddr r
      · intro a r' hr'
        exact setRec _ r a r' hr'
    · exact same
  | list k w =>
    simp only [StartLoad.step]
    split
    · next r id hk =>
      have hrec := h2 _ (List.mem_of_getElem? hk) r id rfl
      have key : ∀ (g' : StartLoad) (saved : Bool),
          g'.tables = { g.tables with dhtAddresses := g.tables.dhtAddresses.set r.address id } →
          g'.regs = g.regs.set k (.finished saved) →
          Known g' ∧ ∀ a r, g.tables.records.get a = some r → ∃ r', g'.tables.records.get a = some r' := by
        intro g' saved ht hr
        refine ⟨⟨?_, ?_, ?_⟩, ?_⟩
        · intro a id' ha
          rw [ht] at ha ⊢
          dsimp only at ha ⊢
          rw [GoMap.get_set] at ha
          split at ha
          · next e => subst e; exact hrec
          · exact h1 a id' ha
        · intro x hx r' id' he
          rw [hr] at hx
          rw [ht]
          rcases StartLoad.mem_set_of hx with hx | rfl
          · exact h2 x hx r' id' he
          · cases he
        · rw [ht]; exact h3
        · rw [ht]; exact fun a r h => ⟨r, h⟩
      split
      · split
        · exact key _ true rfl rfl
        · exact key _ false rfl rfl
      · exact key _ false rfl rfl
    · exact same
  | openFile => simp only [StartLoad.step]; split <;> exact same
  | read n =>
    simp only [StartLoad.step]
    split
    · split <;> exact same
    · exact same
  | parse =>
    simp only [StartLoad.step]
    split
    · split
      · exact same
      · next r hr =>
        split
        · refine ⟨⟨?_, ?_, setAddr r⟩, fun a r' hr' => setRec _ r a r' hr'⟩
          · intro a id' ha
            obtain ⟨r', hr'⟩ := h1 a id' ha
            exact setRec _ r a r' hr'
          · intro x hx r' id' he
            obtain ⟨r'', hr''⟩ := h2 x hx r' id' he
            exact setRec _ r _ _ hr''
        · next id hid =>
          refine ⟨⟨?_, ?_, setAddr r⟩, fun a r' hr' => setRec _ r a r' hr'⟩
          · intro a id' ha
            dsimp only at ha ⊢
            rw [GoMap.get_set] at ha
            split at ha
            · next e => subst e; exact ⟨r, by simp⟩
            · obtain ⟨r', hr'⟩ := h1 a id' ha
              exact setRec _ r a r' hr'
          · intro x hx r' id' he
            obtain ⟨r'', hr''⟩ := h2 x hx r' id' he
            exact setRec _ r _ _ hr''
    · exact same

theorem known_run (peerId : Bytes → Option Bytes) (broken : AgentRecord → Bytes) (ss : List StartLoadStep) :
    ∀ {g : StartLoad}, Known g → Known (g.run peerId broken ss) ∧
      ∀ a r, g.tables.records.get a = some r → ∃ r', (g.run peerId broken ss).tables.records.get a = some r' := by
  induction ss with
  | nil => exact fun h => ⟨h, fun a r h => ⟨r, h⟩⟩
  | cons s ss ih =>
    intro g h
    obtain ⟨h1, h2⟩ := known_step peerId broken h s
    obtain ⟨h3, h4⟩ := ih h1
    refine ⟨h3, ?_⟩
    intro a r hr
    obtain ⟨r', hr'⟩ := h2 a r hr
    exact h4 a r' hr'

end RegRace

/-- **C105.** A look-up sees the relay table first and the records later. Whatever happens before, between and at the
start of the peer: if it finds the address in the relay table, it finds a record of that address. -/
theorem C105_known (peerId : Bytes → Option Bytes) (broken : AgentRecord → Bytes) (file : Bytes)
    (before between : List StartLoadStep) (a id : Bytes)
    (h : ((StartLoad.init file).run peerId broken before).tables.dhtAddresses.get a = some id) :
    ∃ r, ((StartLoad.init file).run peerId broken (before ++ between)).tables.records.get a = some r ∧
      r.address = a := by
  have hinit : Known (StartLoad.init file) := by
    refine ⟨?_, ?_, ?_⟩ <;> simp [StartLoad.init, Loaded.empty]
  obtain ⟨hk, -⟩ := known_run peerId broken before hinit
  obtain ⟨r, hr⟩ := hk.1 a id h
  obtain ⟨hk2, hm⟩ := known_run peerId broken between hk
  obtain ⟨r', hr'⟩ := hm a r hr
  have e : (StartLoad.init file).run peerId broken (before ++ between) =
      ((StartLoad.init file).run peerId broken before).run peerId broken between := by
    simp [StartLoad.run, List.foldl_append]
  rw [e]
  exact ⟨r', hr', hk2.2.2 a r' hr'⟩

/-- The sections of two registrations, the second one's between those of the first. -/
def overlapping : List StartLoadStep := [.record 0, .record 1, .list 1 true, .list 0 true]

/-- **C105, counterexample.** An agent that registers through two peers at about the same time: look-ups answer that it
is at the second, the relay sends its envelopes to the first, and a restart makes the record that of the first, too. -/
theorem C105_counterexample {peerId : Bytes → Option Bytes} (broken : AgentRecord → Bytes) {g : StartLoad}
    {old : List AgentRecord} {r r' : AgentRecord} {id id' : Bytes}
    (h : Running peerId g old [(r, id), (r', id')]) (ha : r.address = r'.address) (hid : id ≠ id') :
    let g' := g.run peerId broken overlapping
    g'.tables.records.get r.address = some r' ∧ g'.tables.dhtAddresses.get r.address = some id ∧
    peerId r'.peerPublicKey ≠ some id ∧
    ∃ st n, loadRecords peerId g'.file = .ok (st, n) ∧ st.records.get r.address = some r ∧
      st.dhtAddresses.get r.address = some id := by
  intro g'
  have hs : Schedule overlapping := by
    refine ⟨by decide, by simp [overlapping], ?_⟩
    intro k hk
    have : k = 0 ∨ k = 1 := by
      simp [overlapping] at hk; omega
    rcases this with rfl | rfl <;> decide
  obtain ⟨h1, h2, h3⟩ := C105_exact broken h hs
  have hf : firsts [(r, id), (r', id')] overlapping = [(r, id), (r', id')] := rfl
  have hsn : seconds [(r, id), (r', id')] overlapping = [(r', id'), (r, id)] := rfl
  refine ⟨?_, ?_, ?_, ?_⟩
  · have := h1 r.address
    rw [hf] at this
    simpa [lastFor, ha] using this
  · have := h2 r.address
    rw [hsn] at this
    simpa [lastFor] using this
  · rw [h.id (r', id') (by simp)]
    simpa using fun e => hid e.symm
  · have hsav : ∀ x ∈ old ++ [r', r], Savable peerId x := by
      intro x hx
      rcases List.mem_append.1 hx with hx | hx
      · exact h.oldSavable x hx
      · simp at hx
        rcases hx with rfl | rfl
        · exact h.savable (x, id') (by simp)
        · exact h.savable (x, id) (by simp)
    have hlast : lastRecord (old ++ [r', r]) r.address = some r := by
      rw [show old ++ [r', r] = (old ++ [r']) ++ [r] by simp, lastRecord_snoc, if_pos rfl]
    refine ⟨loadOnto peerId .empty (old ++ [r', r]), 0 + (old ++ [r', r]).length, ?_, ?_, ?_⟩
    · rw [h3, hsn]; exact StartLoad.outcome_records hsav .empty 0
    · rw [(loadOnto_get peerId _ _).1, hlast]
    · rw [(loadOnto_get peerId _ _).2, hlast]
      simp [h.id (r, id) (by simp)]

namespace RegRaceDemo

open StartLoadDemo

/-- A peer that has started without clients. An agent registers through the peers with keys `k` and `l`. -/
def peer : StartLoad :=
  (StartLoad.init []).run some (fun _ => []) [.openFile, .read 1, .register old (b! "k"), .register new (b! "l")]

theorem running : Running some peer [] [(old, b! "k"), (new, b! "l")] where
  phase := rfl
  regs := rfl
  savable := by
    intro x hx
    simp at hx
    rcases hx with rfl | rfl
    · exact old_savable
    · exact ⟨(AgentRecord.utf8_iff _).1 (by decide), by decide, by decide, rfl⟩
  id := by intro x hx; simp at hx; rcases hx with rfl | rfl <;> rfl
  oldSavable := by simp
  file := rfl
  records a := rfl
  dht a := rfl

/-- The record of one and the place of the other. -/
example : (peer.run some (fun _ => []) overlapping).tables.records.get (b! "a") = some new ∧
    (peer.run some (fun _ => []) overlapping).tables.dhtAddresses.get (b! "a") = some (b! "k") := by
  obtain ⟨h1, h2, -⟩ := C105_counterexample (fun _ => []) running rfl (by decide)
  exact ⟨h1, h2⟩

/-- One after the other. -/
example : (peer.run some (fun _ => []) [.record 0, .list 0 true, .record 1, .list 1 true]).tables.dhtAddresses.get
    (b! "a") = some (b! "l") := by decide +kernel

end RegRaceDemo

end Verif
