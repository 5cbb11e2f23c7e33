import Verif.Lemmas.Decoded
import Mathlib.Tactic.Ring
import Mathlib.Tactic.NormNum
import Mathlib.Tactic.ByContra
import Verif.Props.Multiaddr

/-!
# C93 and C94: what is accepted, and texts of addresses

Specification: ports as text (`PortText`), multihashes (`Multihash`) and parts of addresses (`MaPart.Good`) are
described here without the functions that read them.
-/

namespace Verif

open DialogueLabel (splitBytes joinBytes split_append split_no_sep join_split split_no_sep_mem)

/-! ## Specification -/

/-- A port as text: a numeral, perhaps after a plus sign, up to 65535; or a negative number, which is taken modulo
65536. -/
def PortText (t : Bytes) (port : Nat) : Prop :=
  port ≤ 65535 ∧ ∃ d, IsNumeral d ∧
    (((t = d ∨ t = b! "+" ++ d) ∧ port = decimal d) ∨
     (t = b! "-" ++ d ∧ decimal d ≤ 2 ^ 63 ∧ 65536 ∣ port + decimal d))

/-- A multihash: a known code, the length of what follows, and what follows. -/
def Multihash (W : IdWorld) (b : Bytes) : Prop :=
  2 ≤ b.length ∧ ∃ code rest digest, W.uvarint b = some (code, rest) ∧
    W.uvarint rest = some (digest.length, digest) ∧ digest.length < 2 ^ 31 ∧ W.knownCode code = true

/-- A part that some text stands for: of the protocols the code writes. -/
inductive MaPart.Good : MaPart → Prop
  | ip4 (v : Bytes) : v.length = 4 → Good ⟨4, v⟩
  | tcp (v : Bytes) : v.length = 2 → Good ⟨6, v⟩
  | dns4 (v : Bytes) : v ≠ [] → (47 : UInt8) ∉ v → Good ⟨54, v⟩
  | p2p (v : Bytes) : IsPeerId v → Good ⟨421, v⟩
  | circuit : Good ⟨290, []⟩

/-! ## Ports -/

theorem atoi_iff (t : Bytes) (i : Int) : atoi t = some i ↔
    ∃ d, IsNumeral d ∧ (((t = d ∨ t = 43 :: d) ∧ decimal d < 2 ^ 63 ∧ i = decimal d) ∨
      (t = 45 :: d ∧ decimal d ≤ 2 ^ 63 ∧ i = -(decimal d : Int))) := by
  constructor
  · intro h
    unfold atoi at h
    split at h
    · next r =>
      obtain ⟨n, hn, h⟩ := Option.bind_eq_some_iff.1 h
      obtain ⟨h1, h2⟩ := (digitsValue_iff r n).1 hn
      split at h
      · next hl => exact ⟨r, h1, .inl ⟨.inr rfl, by omega, by rw [h2]; exact (Option.some.inj h).symm⟩⟩
      · simp at h
    · next r =>
      obtain ⟨n, hn, h⟩ := Option.bind_eq_some_iff.1 h
      obtain ⟨h1, h2⟩ := (digitsValue_iff r n).1 hn
      split at h
      · next hl => exact ⟨r, h1, .inr ⟨rfl, by omega, by rw [h2]; exact (Option.some.inj h).symm⟩⟩
      · simp at h
    · obtain ⟨n, hn, h⟩ := Option.bind_eq_some_iff.1 h
      obtain ⟨h1, h2⟩ := (digitsValue_iff _ n).1 hn
      split at h
      · next hl => exact ⟨_, h1, .inl ⟨.inl rfl, by omega, by rw [h2]; exact (Option.some.inj h).symm⟩⟩
      · simp at h
  · rintro ⟨d, hd, ⟨rfl | rfl, hl, rfl⟩ | ⟨rfl, hl, rfl⟩⟩
    · exact atoi_numeral hd hl
    · simp only [atoi, (digitsValue_iff d _).2 ⟨hd, rfl⟩, Option.bind_some]
      rw [if_pos hl]
    · simp only [atoi, (digitsValue_iff d _).2 ⟨hd, rfl⟩, Option.bind_some]
      rw [if_pos hl]

theorem natBE2_inj {a b : Nat} (ha : a ≤ 65535) (hb : b ≤ 65535) (h : natBE 2 a = natBE 2 b) : a = b := by
  have := congrArg beNat h
  rwa [beNat_natBE 2 a (by omega), beNat_natBE 2 b (by omega)] at this

theorem portRead_iff (t v : Bytes) : portRead t = some v ↔ ∃ port, PortText t port ∧ v = natBE 2 port := by
  have key : ∀ i : Int, (if i ≥ 65536 then none else some (natBE 2 (i % 65536).toNat)) = some v ↔
      i < 65536 ∧ v = natBE 2 (i % 65536).toNat := by
    intro i
    split
    · next h => simp; intro h2; omega
    · next h => simp [eq_comm]; intro; omega
  constructor
  · intro h
    unfold portRead at h
    split at h
    · simp at h
    · next i hi =>
      obtain ⟨h1, rfl⟩ := (key i).1 h
      obtain ⟨d, hd, ⟨ht, hl, rfl⟩ | ⟨ht, hl, rfl⟩⟩ := (atoi_iff t i).1 hi
      · refine ⟨decimal d, ⟨by omega, d, hd, .inl ⟨?_, rfl⟩⟩, ?_⟩
        · simpa using ht
        · congr 1; omega
      · refine ⟨_, ⟨by omega, d, hd, .inr ⟨by simpa using ht, hl, ?_⟩⟩, rfl⟩
        omega
  · rintro ⟨port, ⟨hp, d, hd, ⟨ht, rfl⟩ | ⟨ht, hl, hdvd⟩⟩, rfl⟩
    · have : atoi t = some (decimal d : Int) :=
        (atoi_iff t _).2 ⟨d, hd, .inl ⟨by simpa using ht, by omega, rfl⟩⟩
      unfold portRead
      rw [this]
      exact (key _).2 ⟨by omega, by congr 1; omega⟩
    · have : atoi t = some (-(decimal d : Int)) :=
        (atoi_iff t _).2 ⟨d, hd, .inr ⟨by simpa using ht, hl, rfl⟩⟩
      unfold portRead
      rw [this]
      exact (key _).2 ⟨by omega, by congr 1; omega⟩

theorem PortText.ne_nil {t : Bytes} {port : Nat} (h : PortText t port) : t ≠ [] := by
  rintro rfl
  obtain ⟨-, d, hd, ⟨h | h, -⟩ | ⟨h, -⟩⟩ := h
  · exact hd.1 h.symm
  · simp at h
  · simp at h

/-- **C94, ports.** Behind a host without slashes a text is taken as a port exactly if it stands for one; no number
above 65535 does, and every negative one does. -/
theorem C94_port_iff (W : MaWorld) {host t : Bytes} (h : (47 : UInt8) ∉ host) (hn : t ≠ []) (ht : (47 : UInt8) ∉ t)
    (ps : List MaPart) :
    newMultiaddr W (b! "/dns4/" ++ host ++ b! "/tcp/" ++ t) = some ps ↔
      ∃ port, PortText t port ∧ ps = [⟨54, host⟩, ⟨6, natBE 2 port⟩] := by
  have e : b! "/dns4/" ++ host ++ b! "/tcp/" ++ t = [b! "dns4", host, b! "tcp", t].flatMap ((47 : UInt8) :: ·) := by
    simp
  rw [e, newMultiaddr_parts W (last := t) (by simp) hn (by simp [h, ht]), maParts_dns W h,
    maParts_host W (maProto_tcp W) rfl]
  constructor
  · intro h1
    obtain ⟨qs, h2, rfl⟩ := Option.map_eq_some_iff.1 h1
    obtain ⟨v, hv, h3⟩ := Option.bind_eq_some_iff.1 h2
    obtain ⟨port, hp, rfl⟩ := (portRead_iff t v).1 hv
    obtain rfl := Option.some.inj h3
    exact ⟨port, hp, rfl⟩
  · rintro ⟨port, hp, rfl⟩
    simp only [(portRead_iff t _).2 ⟨port, hp, rfl⟩]
    rfl

/-! ## Hosts with colons -/

theorem find_dot_colon : ∀ (s : Bytes), (s.find? fun c => c == 46 || c == 58) = some 58 ↔
    ∃ pre post, s = pre ++ 58 :: post ∧ (46 : UInt8) ∉ pre
  | [] => by simp
  | c :: s => by
    by_cases h46 : c = 46
    · subst h46
      simp only [List.find?_cons]
      simp only [BEq.rfl, Bool.true_or, Option.some.injEq]
      constructor
      · intro h; exact absurd h (by decide)
      · rintro ⟨pre, post, h, hp⟩
        cases pre with
        | nil => simp at h
        | cons a as => simp at h; simp [← h.1] at hp
    · by_cases h58 : c = 58
      · subst h58
        simp only [List.find?_cons]
        simp only [BEq.rfl, Bool.or_true, true_iff]
        exact ⟨[], s, rfl, by simp⟩
      · have : (c == 46 || c == 58) = false := by simp [h46, h58]
        rw [List.find?_cons, this]
        simp only []
        rw [find_dot_colon s]
        constructor
        · rintro ⟨pre, post, rfl, hp⟩
          exact ⟨c :: pre, post, rfl, by simp [hp, Ne.symm h46]⟩
        · rintro ⟨pre, post, h, hp⟩
          cases pre with
          | nil => simp at h; exact absurd h.1 h58
          | cons a as =>
            simp at h
            exact ⟨as, post, h.2, fun hm => hp (List.mem_cons_of_mem _ hm)⟩

/-- **C94, listening, with colons.** A host with a colon and no dot before it is one in the form of IPv6. Every other
host is taken exactly if it is in dotted form, so a colon behind a dot is refused. -/
theorem C94_colon (W : MaWorld) {host : Bytes} {port : Nat} (h1 : (47 : UInt8) ∉ host) (hp : port ≤ 65535)
    (ps : List MaPart) :
    ((∃ pre post, host = pre ++ 58 :: post ∧ (46 : UInt8) ∉ pre) →
      (newMultiaddr W (localUriText host port) = some ps ↔
        ∃ v, W.ip6 host = some v ∧ ps = [⟨4, v⟩, ⟨6, natBE 2 port⟩])) ∧
    ((¬ ∃ pre post, host = pre ++ 58 :: post ∧ (46 : UInt8) ∉ pre) →
      (newMultiaddr W (localUriText host port) = some ps ↔
        ∃ v, Dotted W.zeros host v ∧ ps = [⟨4, v⟩, ⟨6, natBE 2 port⟩])) := by
  have e : localUriText host port = [b! "ip4", host, b! "tcp", itoa port].flatMap ((47 : UInt8) :: ·) := by
    simp [localUriText]
  rw [e, newMultiaddr_parts W (last := itoa port) (by simp) (itoa_ne_nil _) (by simp [h1, itoa_no_slash]),
    maParts_host W (maProto_ip4 W) rfl, maParts_port W hp]
  simp only [ip4Read, maParts, Option.map_some]
  constructor
  · intro h
    rw [if_pos ((find_dot_colon host).2 h)]
    constructor
    · intro h
      obtain ⟨v, hv, h⟩ := Option.bind_eq_some_iff.1 h
      exact ⟨v, hv, (Option.some.inj h).symm⟩
    · rintro ⟨v, hv, rfl⟩
      rw [hv]; rfl
  · intro h
    rw [if_neg (fun hf => h ((find_dot_colon host).1 hf))]
    constructor
    · intro h
      obtain ⟨v, hv, h⟩ := Option.bind_eq_some_iff.1 h
      exact ⟨v, (dottedRead_iff _ _ _).1 hv, (Option.some.inj h).symm⟩
    · rintro ⟨v, hv, rfl⟩
      rw [(dottedRead_iff _ _ _).2 hv]; rfl

/-! ## Paths -/

theorem maProto_other (W : MaWorld) {name : Bytes}
    (h : name ∉ [b! "ip4", b! "tcp", b! "dns4", b! "p2p", b! "ipfs", b! "p2p-circuit"]) :
    maProto W name = W.otherProto name := by
  simp only [List.mem_cons, List.not_mem_nil, or_false, not_or] at h
  obtain ⟨h1, h2, h3, h4, h5, h6⟩ := h
  unfold maProto
  rw [if_neg h1, if_neg h2, if_neg h3, if_neg (by simp only [not_or]; exact ⟨h4, h5⟩), if_neg h6]

theorem trimSlashes_end {s : Bytes} {c : UInt8} (h : s.getLast? = some c) (hc : c ≠ 47) : trimSlashes s = s := by
  obtain ⟨init, rfl⟩ := List.getLast?_eq_some_iff.1 h
  simp [trimSlashes, hc]

/-- **C94, paths.** The value of a protocol with a path is everything that follows, slashes included. -/
theorem C94_path (W : MaWorld) {name t : Bytes} {p : MaProto} {c : UInt8} (hn : (47 : UInt8) ∉ name)
    (hk : name ∉ [b! "ip4", b! "tcp", b! "dns4", b! "p2p", b! "ipfs", b! "p2p-circuit"])
    (hp : W.otherProto name = some p) (hs : p.size = .path) (ht : t.getLast? = some c) (hc : c ≠ 47) :
    newMultiaddr W (b! "/" ++ name ++ b! "/" ++ t) = (p.read (b! "/" ++ t)).map fun x => [⟨p.code, x⟩] := by
  have hl : (b! "/" ++ name ++ b! "/" ++ t).getLast? = some c := by rw [List.getLast?_append, ht]; rfl
  have hsp : splitBytes 47 (b! "/" ++ name ++ b! "/" ++ t) = [] :: name :: splitBytes 47 t := by
    have : b! "/" ++ name ++ b! "/" ++ t = [] ++ 47 :: (name ++ 47 :: t) := by simp
    rw [this, split_append _ _ _ (by simp), split_append _ _ _ hn]
  have hj := join_split 47 t
  unfold newMultiaddr
  rw [trimSlashes_end hl hc, hsp]
  simp only [ne_eq, not_true_eq_false, if_false, reduceCtorEq]
  rw [maParts, maProto_other W hk, hp]
  simp only [hs]
  cases hq : splitBytes 47 t with
  | nil => exact absurd hq (DialogueLabel.splitBytes_ne_nil 47 t)
  | cons v rest =>
    rw [hq] at hj
    simp only [hj]
    rfl

/-! ## There and back -/

/-- The words of a part. -/
def partWords : MaPart → List Bytes
  | ⟨4, v⟩ => [b! "ip4", joinBytes 46 (v.map fun x => itoa x.toNat)]
  | ⟨6, v⟩ => [b! "tcp", itoa (beNat v)]
  | ⟨54, v⟩ => [b! "dns4", v]
  | ⟨421, v⟩ => [b! "p2p", base58Encode v]
  | _ => [b! "p2p-circuit"]

theorem octet_itoa (zeros : Bool) (x : UInt8) : Octet zeros (itoa x.toNat) x := by
  refine ⟨(itoa_numeral _).1, (itoa_numeral _).2, fun _ => ?_⟩
  have : ∀ x : UInt8, (itoa x.toNat).length > 1 → (itoa x.toNat).head? ≠ some 48 := forall_byte (by decide +kernel)
  exact this x

theorem dotted_itoa (zeros : Bool) {v : Bytes} (h : v.length = 4) :
    Dotted zeros (joinBytes 46 (v.map fun x => itoa x.toNat)) v := by
  match v, h with
  | [x, y, z, w], _ =>
    exact ⟨_, _, _, _, x, y, z, w, by simp [joinBytes], octet_itoa _ x, octet_itoa _ y, octet_itoa _ z,
      octet_itoa _ w, rfl⟩

theorem Dotted.no {zeros : Bool} {s v : Bytes} (h : Dotted zeros s v) {c : UInt8} (h1 : c ≠ 46)
    (h2 : c.toNat < 48 ∨ 57 < c.toNat) : c ∉ s := by
  obtain ⟨a, b, d, e, x, y, z, w, rfl, ha, hb, hd, he, -⟩ := h
  have := ha.numeral.not_mem h2
  have := hb.numeral.not_mem h2
  have := hd.numeral.not_mem h2
  have := he.numeral.not_mem h2
  simp [*]

theorem MaPart.Good.text (W : MaWorld) {p : MaPart} (h : p.Good) :
    partText W p = (partWords p).flatMap ((47 : UInt8) :: ·) := by
  cases h <;> simp [partText, partWords]

theorem MaPart.Good.words {p : MaPart} (h : p.Good) : ∀ t ∈ partWords p, t ≠ [] ∧ (47 : UInt8) ∉ t := by
  cases h with
  | ip4 v hv =>
    intro t ht
    simp only [partWords, List.mem_cons, List.not_mem_nil, or_false] at ht
    rcases ht with rfl | rfl
    · simp
    · refine ⟨?_, (dotted_itoa false hv).no (by decide) (by decide)⟩
      obtain ⟨a, b, d, e, x, y, z, w, h, -⟩ := dotted_itoa false hv
      rw [h]; simp
  | tcp v hv =>
    intro t ht
    simp only [partWords, List.mem_cons, List.not_mem_nil, or_false] at ht
    rcases ht with rfl | rfl
    · simp
    · exact ⟨itoa_ne_nil _, itoa_no_slash _⟩
  | dns4 v hv hs =>
    intro t ht
    simp only [partWords, List.mem_cons, List.not_mem_nil, or_false] at ht
    rcases ht with rfl | rfl
    · simp
    · exact ⟨hv, hs⟩
  | p2p v hv =>
    intro t ht
    simp only [partWords, List.mem_cons, List.not_mem_nil, or_false] at ht
    rcases ht with rfl | rfl
    · simp
    · exact ⟨prettyId_ne_nil hv, base58_no_slash _⟩
  | circuit => simp [partWords]

theorem maParts_good {W : MaWorld} (hW : W.toIdWorld.Sane) {p : MaPart} (h : p.Good) (rest : List Bytes) :
    maParts W (partWords p ++ rest) = (maParts W rest).map (p :: ·) := by
  cases h with
  | ip4 v hv =>
    simp only [partWords, List.cons_append, List.nil_append]
    rw [maParts_host W (maProto_ip4 W) rfl]
    have hd := dotted_itoa W.zeros hv
    simp only [ip4Read_noColon W (hd.no (c := 58) (by decide) (by decide)), (dottedRead_iff _ _ _).2 hd,
      Option.bind_some]
  | tcp v hv =>
    simp only [partWords, List.cons_append, List.nil_append]
    have hlt : beNat v < 256 ^ 2 := beNat_lt 2 v hv
    rw [maParts_port W (by omega), natBE_beNat 2 v hv]
  | dns4 v hv hs => exact maParts_dns W hs rest
  | p2p v hv => exact maParts_p2p hW hv rest
  | circuit =>
    simp only [partWords, List.cons_append, List.nil_append]
    rw [maParts, maProto_circuit]

theorem maParts_goods {W : MaWorld} (hW : W.toIdWorld.Sane) : ∀ {ps : List MaPart}, (∀ p ∈ ps, p.Good) →
    maParts W (ps.flatMap partWords) = some ps
  | [], _ => rfl
  | p :: ps, h => by
    rw [List.flatMap_cons, maParts_good hW (h p (by simp)),
      maParts_goods hW (fun q hq => h q (List.mem_cons_of_mem _ hq))]
    rfl

theorem partWords_ne_nil (p : MaPart) : partWords p ≠ [] := by
  unfold partWords; split <;> simp

/-- **C94, there and back.** An address made of parts the code writes is read from its text as the same parts. -/
theorem C94_round_trip {W : MaWorld} (hW : W.toIdWorld.Sane) {ps : List MaPart} (hne : ps ≠ [])
    (h : ∀ p ∈ ps, p.Good) : newMultiaddr W (maText W ps) = some ps := by
  have e : maText W ps = (ps.flatMap partWords).flatMap ((47 : UInt8) :: ·) := by
    unfold maText
    rw [List.flatMap_assoc]
    exact List.flatMap_congr (fun p hp => (h p hp).text W)
  have hw : ps.flatMap partWords ≠ [] := by
    cases ps with
    | nil => exact absurd rfl hne
    | cons p ps => simp [partWords_ne_nil]
  have hg : ∀ t ∈ ps.flatMap partWords, t ≠ [] ∧ (47 : UInt8) ∉ t := by
    intro t ht
    obtain ⟨p, hp, ht⟩ := List.mem_flatMap.1 ht
    exact (h p hp).words t ht
  rw [e, newMultiaddr_parts W (List.getLast?_eq_getLast_of_ne_nil hw) (hg _ (List.getLast_mem hw)).1
    (fun t ht => (hg t ht).2)]
  exact maParts_goods hW h

/-- The text of an address to listen on: what was configured, with the numbers in their shortest form. -/
theorem C94_local_text (W : MaWorld) {v : Bytes} {port : Nat} (hv : v.length = 4) (hp : port ≤ 65535) :
    ∃ host, Dotted false host v ∧ maText W [⟨4, v⟩, ⟨6, natBE 2 port⟩] = localUriText host port := by
  refine ⟨_, dotted_itoa false hv, ?_⟩
  have hb : beNat (natBE 2 port) = port := beNat_natBE 2 port (by omega)
  simp [maText, partText, localUriText, hb]

/-- **C94, what the start asks.** A public host without slashes is one the start takes, and one to listen on is taken
exactly if it is in dotted form. -/
theorem C94_start_hosts (W : MaWorld) (strictX : Bool) (odd : GoFloat → Int) {host : Bytes} {port : Nat}
    (h : (47 : UInt8) ∉ host) (h2 : (58 : UInt8) ∉ host) (hp : port ≤ 65535) :
    (goStart W strictX odd).dns4 host port = true ∧
    ((goStart W strictX odd).ip4 host port = true ↔ ∃ v, Dotted W.zeros host v) := by
  constructor
  · simp [goStart, C94_public W h hp]
  · simp only [goStart, Option.isSome_iff_exists]
    constructor
    · rintro ⟨ps, h1⟩
      obtain ⟨v, hv, -⟩ := (C94_local_iff W h h2 hp ps).1 h1
      exact ⟨v, hv⟩
    · rintro ⟨v, hv⟩
      exact ⟨_, (C94_local_iff W h h2 hp _).2 ⟨v, hv, rfl⟩⟩

/-! ## Multihashes -/

/-- **C93.** What is taken as a multihash. -/
theorem C93_multihash_iff (W : IdWorld) (b : Bytes) : multihashOk W b = true ↔ Multihash W b := by
  unfold Multihash multihashOk
  constructor
  · intro h
    split at h
    · simp at h
    · next h2 =>
      refine ⟨by omega, ?_⟩
      split at h
      · simp at h
      · next code b1 hb =>
        split at h
        · simp at h
        · next n digest hd =>
          split at h
          · simp at h
          · split at h
            · simp at h
            · split at h
              · simp at h
              · next h3 h4 h5 =>
                have : digest.length = n := by simpa using h5
                subst this
                exact ⟨code, b1, digest, hb, hd, by omega, h⟩
  · rintro ⟨h2, code, b1, digest, hb, hd, hl, hk⟩
    rw [if_neg (by omega), hb]
    simp only []
    rw [hd]
    simp only []
    rw [if_neg (by omega), if_neg (by omega), if_neg (by simp), hk]

namespace Proto

theorem varint_front {m : Nat} (h : 128 ≤ m) : varint m = (m % 128 + 128).toUInt8 :: varint (m / 128) := by
  have h1 : varint m = varintAux (m - 1 + 1) m := by rw [show m - 1 + 1 = m by omega]; rfl
  rw [h1, varintAux, if_neg (by omega), varint, varintAux_fuel (f := m - 1) (f' := m / 128) (by omega) (by omega)]

theorem varint_one {m : Nat} (h : m < 128) : varint m = [m.toUInt8] := by
  unfold varint
  cases m with
  | zero => rfl
  | succ k => rw [varintAux, if_pos h]

end Proto

open Proto in
theorem goUvarintAux_iff (fuel : Nat) : ∀ (shift x : Nat) (b : Bytes) (n : Nat) (r : Bytes),
    goUvarintAux fuel shift x b = some (n, r) ↔
      ∃ m, m < 128 ^ fuel ∧ (shift > 0 → m ≠ 0) ∧ fuel ≠ 0 ∧ n = x + m * 2 ^ shift ∧ b = varint m ++ r := by
  induction fuel with
  | zero => intro shift x b n r; simp [goUvarintAux]
  | succ fuel ih =>
    intro shift x b n r
    cases b with
    | nil =>
      simp only [goUvarintAux]
      constructor
      · simp
      · rintro ⟨m, -, -, -, -, h⟩
        have := varint_ne_nil m
        cases hv : varint m with
        | nil => exact absurd hv this
        | cons => simp [hv] at h
    | cons c cs =>
      have hc : c.toNat < 256 := c.toNat_lt
      rw [goUvarintAux]
      by_cases h : c.toNat < 128
      · rw [if_pos h]
        constructor
        · intro hs
          split at hs
          · simp at hs
          · next h0 =>
            simp only [Option.some.injEq, Prod.mk.injEq] at hs
            refine ⟨c.toNat, ?_, ?_, by omega, hs.1.symm, ?_⟩
            · have : 1 ≤ 128 ^ fuel := Nat.one_le_pow _ _ (by omega)
              rw [pow_succ]; omega
            · intro hp h1
              exact h0 ⟨UInt8.toNat_inj.mp (by simpa using h1), hp⟩
            · rw [varint_one h, hs.2]
              simp
        · rintro ⟨m, hm, h0, -, hn, hb⟩
          have hlt : m < 128 := by
            by_contra hge
            rw [varint_front (by omega)] at hb
            simp only [List.cons_append, List.cons.injEq] at hb
            have := congrArg UInt8.toNat hb.1
            simp only [Nat.toUInt8, UInt8.toNat_ofNat'] at this
            omega
          rw [varint_one hlt] at hb
          simp only [List.cons_append, List.nil_append, List.cons.injEq] at hb
          have hcm : c.toNat = m := by
            rw [hb.1]
            simp only [Nat.toUInt8, UInt8.toNat_ofNat']
            omega
          rw [if_neg, hcm, hn, hb.2]
          rintro ⟨h1, h2⟩
          exact h0 h2 (by rw [← hcm, h1]; rfl)
      · rw [if_neg h, ih]
        constructor
        · rintro ⟨m, hm, h0, -, hn, hb⟩
          have hm0 := h0 (by omega)
          refine ⟨c.toNat - 128 + 128 * m, by rw [pow_succ]; omega, by omega, by omega, ?_, ?_⟩
          · rw [hn, pow_add]; ring
          · rw [varint_front (by omega), hb, show (c.toNat - 128 + 128 * m) / 128 = m by omega,
              show (c.toNat - 128 + 128 * m) % 128 + 128 = c.toNat by omega]
            simp
        · rintro ⟨m, hm, h0, -, hn, hb⟩
          have hge : 128 ≤ m := by
            by_contra hlt
            rw [varint_one (by omega)] at hb
            simp only [List.cons_append, List.nil_append, List.cons.injEq] at hb
            have := congrArg UInt8.toNat hb.1
            simp only [Nat.toUInt8, UInt8.toNat_ofNat'] at this
            omega
          rw [varint_front hge] at hb
          simp only [List.cons_append, List.cons.injEq] at hb
          have hcm : c.toNat = m % 128 + 128 := by
            rw [hb.1]
            simp only [Nat.toUInt8, UInt8.toNat_ofNat']
            omega
          refine ⟨m / 128, by rw [pow_succ] at hm; omega, by omega, ?_, ?_, hb.2⟩
          · rintro rfl
            simp at hm; omega
          · rw [hn, hcm, pow_add, Nat.add_assoc]
            congr 1
            rw [show (m % 128 + 128 - 128) = m % 128 by omega]
            conv_lhs => rw [← Nat.mod_add_div m 128]
            ring

open Proto (varint) in
/-- **C93.** A number at the front of an id is read in its shortest form, up to nine bytes. -/
theorem C93_uvarint (b : Bytes) (n : Nat) (r : Bytes) :
    goUvarint b = some (n, r) ↔ n < 2 ^ 63 ∧ b = varint n ++ r := by
  rw [goUvarint, goUvarintAux_iff]
  constructor
  · rintro ⟨m, hm, -, -, hn, hb⟩
    simp only [pow_zero, mul_one, zero_add] at hn
    subst hn
    exact ⟨by norm_num at hm ⊢; exact hm, hb⟩
  · rintro ⟨h, hb⟩
    exact ⟨n, by norm_num at h ⊢; exact h, by omega, by omega, by omega, hb⟩

open Proto (varint varint_length_pos) in
/-- **C93.** With the numbers of go-varint, a multihash is its code, its length and its digest, each number in its
shortest form, and nothing else. -/
theorem C93_multihash_bytes (known : Nat → Bool) (cid : Bytes → Option Bytes) (b : Bytes) :
    multihashOk ⟨goUvarint, known, cid⟩ b = true ↔
      ∃ code digest, b = varint code ++ varint digest.length ++ digest ∧ code < 2 ^ 63 ∧ digest.length < 2 ^ 31 ∧
        known code = true := by
  rw [C93_multihash_iff]
  simp only [Multihash, C93_uvarint]
  constructor
  · rintro ⟨-, code, rest, digest, ⟨h1, h2⟩, ⟨-, h4⟩, h5, h6⟩
    exact ⟨code, digest, by rw [h2, h4, List.append_assoc], h1, h5, h6⟩
  · rintro ⟨code, digest, h1, h2, h3, h4⟩
    refine ⟨?_, code, varint digest.length ++ digest, digest, ⟨h2, by rw [h1, List.append_assoc]⟩,
      ⟨by omega, rfl⟩, h3, h4⟩
    have := varint_length_pos code
    have := varint_length_pos digest.length
    rw [h1]
    simp only [List.length_append]
    omega

/-- **C93.** A text that begins like that of a peer id is read as an id exactly if it stands for it in base 58 and the
id is a multihash. Every other text is left to `cid.Decode`. -/
theorem C93_text_iff (W : IdWorld) (s id : Bytes) :
    (b! "Qm" <+: s ∨ b! "1" <+: s → (peerDecode W s = some id ↔ Base58Pair s id ∧ Multihash W id)) ∧
    (¬ (b! "Qm" <+: s ∨ b! "1" <+: s) → peerDecode W s = W.fromCid s) := by
  constructor
  · intro h
    rw [C93_decode_iff W h, ← C93_multihash_iff, ← C93_base58_pair, prettyId]
  · intro h
    unfold peerDecode
    rw [if_neg]
    simpa [Bool.or_eq_true, List.isPrefixOf_iff_prefix] using h

namespace AddrRulesDemo

/-- A world in which one more protocol, `unix`, has a path. -/
def world : MaWorld where
  toIdWorld := PeerIdTextDemo.world
  otherProto n := if n = b! "unix" then some ⟨400, .path, some⟩ else none
  otherText _ := []
  maCid _ := none
  ip6 s := if s = b! "::ffff:1.2.3.4" then some [1, 2, 3, 4] else none
  zeros := false

example : newMultiaddr world (b! "/dns4/a/tcp/+80") = some [⟨54, b! "a"⟩, ⟨6, [0, 80]⟩] ∧
    newMultiaddr world (b! "/dns4/a/tcp/65536") = none ∧
    newMultiaddr world (b! "/dns4/a/tcp/-1") = some [⟨54, b! "a"⟩, ⟨6, [255, 255]⟩] ∧
    newMultiaddr world (b! "/ip4/::ffff:1.2.3.4/tcp/1") = some [⟨4, [1, 2, 3, 4]⟩, ⟨6, [0, 1]⟩] ∧
    newMultiaddr world (b! "/ip4/1.2.3.4:5/tcp/1") = none ∧
    newMultiaddr world (b! "/unix/var/run") = some [⟨400, b! "/var/run"⟩] ∧
    maText world [⟨4, [127, 0, 0, 1]⟩, ⟨6, [35, 40]⟩] = b! "/ip4/127.0.0.1/tcp/9000" := by decide +kernel

end AddrRulesDemo

end Verif
