import Verif.Model.Multiaddr
import Verif.Props.PeerIdText
import Verif.Props.NodeMain
import Verif.Props.NodeConfig

/-!
# C94: multiaddresses

Specification: the addresses are compared with lists of parts written down here; an address of IPv4 is four numerals
up to 255 with dots between them (`Dotted`).
-/

namespace Verif

open DialogueLabel (splitBytes joinBytes split_append split_no_sep join_split split_no_sep_mem)

/-! ## Specification -/

/-- A numeral up to 255. -/
structure Octet (zeros : Bool) (s : Bytes) (x : UInt8) : Prop where
  numeral : IsNumeral s
  value : decimal s = x.toNat
  short : zeros = false → s.length > 1 → s.head? ≠ some 48

/-- Four numerals up to 255 with dots between them. -/
def Dotted (zeros : Bool) (s : Bytes) (v : Bytes) : Prop :=
  ∃ (a b c d : Bytes) (x y z w : UInt8), s = a ++ b! "." ++ b ++ b! "." ++ c ++ b! "." ++ d ∧
    Octet zeros a x ∧ Octet zeros b y ∧ Octet zeros c z ∧ Octet zeros d w ∧ v = [x, y, z, w]

/-! ## Numerals -/

theorem digit?_some {c : UInt8} {d : Nat} : digit? c = some d ↔ (48 ≤ c.toNat ∧ c.toNat ≤ 57) ∧ d = c.toNat - 48 := by
  unfold digit?
  split
  · next h => simp [h, eq_comm]
  · next h => simp [h]

theorem digitsFold_none (s : Bytes) : s.foldl (fun acc c => acc.bind fun n => (digit? c).map fun d => 10 * n + d)
    (none : Option Nat) = none := by
  induction s with
  | nil => rfl
  | cons c cs ih => simpa using ih

theorem digitsFold (s : Bytes) (n m : Nat) :
    s.foldl (fun acc c => acc.bind fun n => (digit? c).map fun d => 10 * n + d) (some n) = some m ↔
    (∀ c ∈ s, 48 ≤ c.toNat ∧ c.toNat ≤ 57) ∧ s.foldl (fun n c => 10 * n + (c.toNat - 48)) n = m := by
  induction s generalizing n with
  | nil => simp
  | cons c cs ih =>
    rw [List.foldl_cons, List.foldl_cons]
    by_cases h : 48 ≤ c.toNat ∧ c.toNat ≤ 57
    · have hd : digit? c = some (c.toNat - 48) := digit?_some.2 ⟨h, rfl⟩
      simp only [Option.bind_some, hd, Option.map_some, ih]
      simp [h]
    · have hd : digit? c = none := by unfold digit?; rw [if_neg h]
      simp only [Option.bind_some, hd, Option.map_none, digitsFold_none]
      simp only [List.mem_cons, forall_eq_or_imp, h, false_and, iff_false]
      simp

theorem digitsValue_iff (s : Bytes) (n : Nat) : digitsValue s = some n ↔ IsNumeral s ∧ decimal s = n := by
  unfold digitsValue IsNumeral decimal
  split
  · next h => simp [h]
  · next h => rw [digitsFold]; simp [h]

theorem decimal_digits (ds : List Nat) (h : ∀ d ∈ ds, d < 10) :
    decimal (ds.map fun d => UInt8.ofNat (48 + d)) = baseValue 10 ds := by
  unfold decimal baseValue
  rw [List.foldl_map]
  have key : ∀ (ds : List Nat) (n : Nat), (∀ d ∈ ds, d < 10) →
      ds.foldl (fun n d => 10 * n + ((UInt8.ofNat (48 + d)).toNat - 48)) n = ds.foldl (fun n d => n * 10 + d) n := by
    intro ds
    induction ds with
    | nil => intros; rfl
    | cons d ds ih =>
      intro n h
      have hd := h d (by simp)
      rw [List.foldl_cons, List.foldl_cons, ih _ (fun x hx => h x (List.mem_cons_of_mem _ hx))]
      congr 1
      have : (UInt8.ofNat (48 + d)).toNat = 48 + d := by simp; omega
      omega
  exact key ds 0 h

theorem itoa_numeral (n : Nat) : IsNumeral (itoa n) ∧ decimal (itoa n) = n := by
  unfold itoa
  split
  · next h => subst h; exact ⟨⟨by simp, by simp⟩, by decide⟩
  · next h =>
    have hlt : n < 10 ^ (n.log2 + 1) := lt_of_lt_of_le Nat.lt_log2_self (Nat.pow_le_pow_left (by omega) _)
    rw [baseDigits_eq (by omega) _ _ _ hlt, List.append_nil]
    have hd : ∀ d ∈ (Nat.digits 10 n).reverse, d < 10 := fun d hd =>
      Nat.digits_lt_base (by omega) (List.mem_reverse.1 hd)
    refine ⟨⟨?_, ?_⟩, ?_⟩
    · simpa using Nat.digits_ne_nil_iff_ne_zero.2 h
    · intro c hc
      obtain ⟨d, hd', rfl⟩ := List.mem_map.1 hc
      have := hd d hd'
      have : (UInt8.ofNat (48 + d)).toNat = 48 + d := by simp; omega
      omega
    · rw [decimal_digits _ hd, baseValue_ofDigits, List.reverse_reverse, Nat.ofDigits_digits]

theorem IsNumeral.head {s : Bytes} (h : IsNumeral s) : ∃ c r, s = c :: r ∧ c ≠ 43 ∧ c ≠ 45 := by
  cases s with
  | nil => exact absurd rfl h.1
  | cons c r =>
    have := h.2 c (by simp)
    exact ⟨c, r, rfl, by rintro rfl; simp at this, by rintro rfl; simp at this⟩

theorem atoi_numeral {s : Bytes} (h : IsNumeral s) (hlt : decimal s < 2 ^ 63) : atoi s = some (decimal s : Int) := by
  obtain ⟨c, r, hs, h1, h2⟩ := h.head
  have hv := (digitsValue_iff s _).2 ⟨h, rfl⟩
  subst hs
  unfold atoi
  split
  · next heq => exact absurd (List.cons.inj heq).1 h1
  · next heq => exact absurd (List.cons.inj heq).1 h2
  · rw [hv]
    simp only [Option.bind_some]
    rw [if_pos hlt]

theorem portRead_numeral {s : Bytes} (h : IsNumeral s) (hlt : decimal s ≤ 65535) :
    portRead s = some (natBE 2 (decimal s)) := by
  unfold portRead
  rw [atoi_numeral h (by omega)]
  simp only []
  rw [if_neg (by omega)]
  congr 2
  omega

theorem portRead_itoa {p : Nat} (h : p ≤ 65535) : portRead (itoa p) = some (natBE 2 p) := by
  obtain ⟨h1, h2⟩ := itoa_numeral p
  rw [portRead_numeral h1 (by omega), h2]

/-! ## Splitting -/

theorem IsNumeral.not_mem {s : Bytes} (h : IsNumeral s) {c : UInt8} (hc : c.toNat < 48 ∨ 57 < c.toNat) : c ∉ s := by
  intro hm
  have := h.2 c hm
  omega

/-- A text made of parts with slashes before them is split into the parts. -/
theorem split_parts : ∀ (ts : List Bytes), (∀ t ∈ ts, (47 : UInt8) ∉ t) →
    splitBytes 47 (ts.flatMap (47 :: ·)) = [] :: ts
  | [], _ => rfl
  | [t], h => by
    have := h t (by simp)
    simp [splitBytes, split_no_sep 47 t this]
  | t :: u :: ts, h => by
    have h1 := h t (by simp)
    have ih := split_parts (u :: ts) (fun x hx => h x (List.mem_cons_of_mem _ hx))
    rw [List.flatMap_cons, List.flatMap_cons] at *
    simp only [List.cons_append] at ih ⊢
    rw [splitBytes] at ih ⊢
    simp only [if_true, List.cons.injEq, true_and] at ih ⊢
    rw [split_append 47 t _ h1]
    simpa using ih

theorem trim_parts {ts : List Bytes} {last : Bytes} (hl : ts.getLast? = some last) (hne : last ≠ [])
    (hs : (47 : UInt8) ∉ last) : trimSlashes (ts.flatMap (47 :: ·)) = ts.flatMap (47 :: ·) := by
  obtain ⟨init, rfl⟩ : ∃ init, ts = init ++ [last] := by
    rw [List.getLast?_eq_some_iff] at hl
    exact hl
  obtain ⟨l', c, rfl⟩ : ∃ l' c, last = l' ++ [c] := ⟨last.dropLast, last.getLast hne, (List.dropLast_concat_getLast hne).symm⟩
  have hc : c ≠ 47 := by rintro rfl; simp at hs
  unfold trimSlashes
  have : (init ++ [l' ++ [c]]).flatMap ((47 : UInt8) :: ·) = (init.flatMap (47 :: ·) ++ 47 :: l') ++ [c] := by simp
  rw [this, List.reverse_append]
  simp [hc]

/-- Reading a text made of parts. -/
theorem newMultiaddr_parts (W : MaWorld) {ts : List Bytes} {last : Bytes} (hl : ts.getLast? = some last)
    (hne : last ≠ []) (hs : ∀ t ∈ ts, (47 : UInt8) ∉ t) :
    newMultiaddr W (ts.flatMap (47 :: ·)) = maParts W ts := by
  have hmem : last ∈ ts := List.mem_of_getLast? hl
  unfold newMultiaddr
  rw [trim_parts hl hne (hs last hmem), split_parts ts hs]
  have : ts ≠ [] := by rintro rfl; simp at hl
  simp [this]

theorem maProto_ip4 (W : MaWorld) : maProto W (b! "ip4") = some ⟨4, .value, ip4Read W⟩ := rfl
theorem maProto_tcp (W : MaWorld) : maProto W (b! "tcp") = some ⟨6, .value, portRead⟩ := rfl
theorem maProto_dns4 (W : MaWorld) : maProto W (b! "dns4") = some ⟨54, .value, dnsRead⟩ := rfl
theorem maProto_p2p (W : MaWorld) : maProto W (b! "p2p") = some ⟨421, .value, p2pRead W⟩ := rfl
theorem maProto_circuit (W : MaWorld) : maProto W (b! "p2p-circuit") = some ⟨290, .none, fun _ => none⟩ := rfl

theorem base58_no_slash (b : Bytes) : (47 : UInt8) ∉ base58Encode b := by
  intro h
  rw [base58Encode, List.mem_map] at h
  obtain ⟨d, hd, h⟩ := h
  have hlt := rebase_lt (b1 := 256) (b2 := 58) (by omega) (by omega) (by omega) (toNat_lt_256 (b := b)) d hd
  have : ∀ d : Fin 58, base58Alphabet.getD d 0 ≠ 47 := by decide +kernel
  exact this ⟨d, hlt⟩ h

theorem p2pRead_pretty {W : MaWorld} (hW : W.toIdWorld.Sane) {id : Bytes} (h : IsPeerId id) :
    p2pRead W (prettyId id) = some id :=
  C93_roundtrip (W := { uvarint := W.uvarint, knownCode := W.knownCode, fromCid := W.maCid })
    ⟨hW.small, hW.identity, hW.sha256⟩ h

/-! ## Addresses of IPv4 -/

theorem octet_iff (zeros : Bool) (s : Bytes) (x : UInt8) : octet zeros s = some x ↔ Octet zeros s x := by
  unfold octet
  constructor
  · intro h
    split at h
    · simp at h
    · next n hn =>
      obtain ⟨h1, h2⟩ := (digitsValue_iff s n).1 hn
      split at h
      · simp at h
      · next h3 =>
        split at h
        · simp at h
        · next h4 =>
          obtain rfl := Option.some.inj h
          refine ⟨h1, ?_, ?_⟩
          · rw [h2]; simp; omega
          · intro hz hl hh
            exact h4 ⟨hz, hl, hh⟩
  · rintro ⟨h1, h2, h3⟩
    rw [(digitsValue_iff s _).2 ⟨h1, rfl⟩]
    have := x.toNat_lt
    simp only []
    rw [if_neg (by omega), if_neg (by rintro ⟨h4, h5, h6⟩; exact h3 h4 h5 h6), h2]
    simp

theorem dottedRead_iff (zeros : Bool) (s v : Bytes) : dottedRead zeros s = some v ↔ Dotted zeros s v := by
  unfold dottedRead
  constructor
  · intro h
    split at h
    · next a b c d hs =>
      split at h
      · next x y z w h1 h2 h3 h4 =>
        obtain rfl := Option.some.inj h
        refine ⟨a, b, c, d, x, y, z, w, ?_, (octet_iff _ _ _).1 h1, (octet_iff _ _ _).1 h2, (octet_iff _ _ _).1 h3,
          (octet_iff _ _ _).1 h4, rfl⟩
        have := join_split 46 s
        rw [hs] at this
        rw [← this]
        simp [joinBytes]
      · simp at h
    · simp at h
  · rintro ⟨a, b, c, d, x, y, z, w, rfl, h1, h2, h3, h4, rfl⟩
    have e : a ++ b! "." ++ b ++ b! "." ++ c ++ b! "." ++ d = a ++ 46 :: (b ++ 46 :: (c ++ 46 :: d)) := by simp
    have n1 := h1.numeral.not_mem (c := 46) (by decide)
    have n2 := h2.numeral.not_mem (c := 46) (by decide)
    have n3 := h3.numeral.not_mem (c := 46) (by decide)
    have n4 := h4.numeral.not_mem (c := 46) (by decide)
    rw [e, split_append _ _ _ n1, split_append _ _ _ n2, split_append _ _ _ n3, split_no_sep _ _ n4]
    simp only []
    rw [(octet_iff _ _ _).2 h1, (octet_iff _ _ _).2 h2, (octet_iff _ _ _).2 h3, (octet_iff _ _ _).2 h4]

theorem ip4Read_noColon (W : MaWorld) {s : Bytes} (h : (58 : UInt8) ∉ s) : ip4Read W s = dottedRead W.zeros s := by
  unfold ip4Read
  rw [if_neg]
  intro h1
  exact h (List.mem_of_find?_eq_some h1)

theorem itoa_ne_nil (n : Nat) : itoa n ≠ [] := (itoa_numeral n).1.1
theorem itoa_no_slash (n : Nat) : (47 : UInt8) ∉ itoa n := (itoa_numeral n).1.not_mem (by decide)

theorem maParts_host (W : MaWorld) {name host : Bytes} {p : MaProto} (hp : maProto W name = some p)
    (hs : p.size = .value) (rest : List Bytes) :
    maParts W (name :: host :: rest) =
      (p.read host).bind fun x => (maParts W rest).map (⟨p.code, x⟩ :: ·) := by
  rw [maParts, hp]
  simp only [hs]
  cases p.read host <;> rfl

theorem maParts_port (W : MaWorld) {port : Nat} (h : port ≤ 65535) (rest : List Bytes) :
    maParts W (b! "tcp" :: itoa port :: rest) = (maParts W rest).map (⟨6, natBE 2 port⟩ :: ·) := by
  rw [maParts_host W (maProto_tcp W) rfl]
  simp only [portRead_itoa h, Option.bind_some]

theorem maParts_p2p {W : MaWorld} (hW : W.toIdWorld.Sane) {id : Bytes} (h : IsPeerId id) (rest : List Bytes) :
    maParts W (b! "p2p" :: prettyId id :: rest) = (maParts W rest).map (⟨421, id⟩ :: ·) := by
  rw [maParts_host W (maProto_p2p W) rfl]
  simp only [p2pRead_pretty hW h, Option.bind_some]

theorem maParts_dns (W : MaWorld) {host : Bytes} (h : (47 : UInt8) ∉ host) (rest : List Bytes) :
    maParts W (b! "dns4" :: host :: rest) = (maParts W rest).map (⟨54, host⟩ :: ·) := by
  rw [maParts_host W (maProto_dns4 W) rfl]
  have : dnsRead host = some host := by unfold dnsRead; rw [if_neg h]
  simp only [this, Option.bind_some]

/-- **C94, listening.** A host without slashes and colons can be listened on exactly if it is an address of IPv4 in
dotted form; a name of a host cannot. The parts are that address and the port. -/
theorem C94_local_iff (W : MaWorld) {host : Bytes} {port : Nat} (h1 : (47 : UInt8) ∉ host) (h2 : (58 : UInt8) ∉ host)
    (hp : port ≤ 65535) (ps : List MaPart) :
    newMultiaddr W (localUriText host port) = some ps ↔
      ∃ v, Dotted W.zeros host v ∧ ps = [⟨4, v⟩, ⟨6, natBE 2 port⟩] := by
  have e : localUriText host port = [b! "ip4", host, b! "tcp", itoa port].flatMap ((47 : UInt8) :: ·) := by
    simp [localUriText]
  rw [e, newMultiaddr_parts W (last := itoa port) (by simp) (itoa_ne_nil _) (by simp [h1, itoa_no_slash]),
    maParts_host W (maProto_ip4 W) rfl, maParts_port W hp]
  simp only [ip4Read_noColon W h2]
  simp only [maParts, Option.map_some]
  constructor
  · intro h
    obtain ⟨v, hv, h⟩ := Option.bind_eq_some_iff.1 h
    exact ⟨v, (dottedRead_iff _ _ _).1 hv, (Option.some.inj h).symm⟩
  · rintro ⟨v, hv, rfl⟩
    rw [(dottedRead_iff _ _ _).2 hv]
    rfl

/-- **C94, the public address.** Every host without slashes is taken, even an empty one. -/
theorem C94_public (W : MaWorld) {host : Bytes} {port : Nat} (h : (47 : UInt8) ∉ host) (hp : port ≤ 65535) :
    newMultiaddr W (publicUriText host port) = some [⟨54, host⟩, ⟨6, natBE 2 port⟩] := by
  have e : publicUriText host port = [b! "dns4", host, b! "tcp", itoa port].flatMap ((47 : UInt8) :: ·) := by
    simp [publicUriText]
  rw [e, newMultiaddr_parts W (last := itoa port) (by simp) (itoa_ne_nil _) (by simp [h, itoa_no_slash]),
    maParts_dns W h, maParts_port W hp]
  rfl

theorem prettyId_ne_nil {id : Bytes} (h : IsPeerId id) : prettyId id ≠ [] := base58Encode_ne_nil h.ne_nil

theorem p2pText {W : MaWorld} (hW : W.toIdWorld.Sane) {id : Bytes} (h : IsPeerId id) :
    newMultiaddr W (b! "/p2p/" ++ prettyId id) = some [⟨421, id⟩] := by
  have e : b! "/p2p/" ++ prettyId id = [b! "p2p", prettyId id].flatMap ((47 : UInt8) :: ·) := by simp
  rw [e, newMultiaddr_parts W (last := prettyId id) (by simp) (prettyId_ne_nil h)
    (by simp [prettyId, base58_no_slash]), maParts_p2p hW h]
  rfl

/-- **C94, the address that is printed.** `MultiAddr` of a peer with a public host without slashes does not crash, and
gives the public address with the peer's id behind it. -/
theorem C94_printed {W : MaWorld} (hW : W.toIdWorld.Sane) {host id : Bytes} {port : Nat} (hp : port ≤ 65535)
    (hid : IsPeerId id) :
    peerMultiAddr W [⟨54, host⟩, ⟨6, natBE 2 port⟩] id = .ok (publicUriText host port ++ b! "/p2p/" ++ prettyId id) := by
  have hb : beNat (natBE 2 port) = port := beNat_natBE 2 port (by omega)
  rw [peerMultiAddr, p2pText hW hid]
  simp only [List.cons_append, List.nil_append, maText, List.flatMap_cons, List.flatMap_nil, partText]
  simp [hb, publicUriText, prettyId]

/-- **C94, the address that is printed, given to another node.** It is read as the peer's id and its public
address. -/
theorem C94_entry_peer {W : MaWorld} (hW : W.toIdWorld.Sane) {host id : Bytes} {port : Nat}
    (h : (47 : UInt8) ∉ host) (hp : port ≤ 65535) (hid : IsPeerId id) (strictX : Bool) (odd : GoFloat → Int) :
    (goStart W strictX odd).addrInfo (publicUriText host port ++ b! "/p2p/" ++ prettyId id) =
      some (some ⟨id, [[⟨54, host⟩, ⟨6, natBE 2 port⟩]]⟩) := by
  have e : publicUriText host port ++ b! "/p2p/" ++ prettyId id =
      [b! "dns4", host, b! "tcp", itoa port, b! "p2p", prettyId id].flatMap ((47 : UInt8) :: ·) := by
    simp [publicUriText]
  have hm : newMultiaddr W (publicUriText host port ++ b! "/p2p/" ++ prettyId id) =
      some [⟨54, host⟩, ⟨6, natBE 2 port⟩, ⟨421, id⟩] := by
    rw [e, newMultiaddr_parts W (last := prettyId id) (by simp) (prettyId_ne_nil hid)
      (by simp [h, itoa_no_slash, prettyId, base58_no_slash]),
      maParts_dns W h, maParts_port W hp, maParts_p2p hW hid]
    rfl
  simp only [goStart, hm, Option.map_some]
  simp [addrInfoOf, hid.ne_nil]

/-- **C94, the address through the relay.** A client's address for another peer is always read, as the relay, the
circuit and the peer. -/
theorem C94_circuit {W : MaWorld} (hW : W.toIdWorld.Sane) {relay target : Bytes} (hr : IsPeerId relay)
    (ht : IsPeerId target) :
    newMultiaddr W (circuitText relay target) = some [⟨421, relay⟩, ⟨290, []⟩, ⟨421, target⟩] := by
  have e : circuitText relay target =
      [b! "p2p", prettyId relay, b! "p2p-circuit", b! "p2p", prettyId target].flatMap ((47 : UInt8) :: ·) := by
    simp [circuitText]
  have hc : ∀ rest, maParts W (b! "p2p-circuit" :: rest) = (maParts W rest).map (⟨290, []⟩ :: ·) := by
    intro rest
    rw [maParts, maProto_circuit]
  rw [e, newMultiaddr_parts W (last := prettyId target) (by simp) (prettyId_ne_nil ht)
    (by simp [prettyId, base58_no_slash]), maParts_p2p hW hr, hc, maParts_p2p hW ht]
  rfl

/-! ## From the environment of one node to that of another -/

theorem parseUint16_le (s : Bytes) : parseUint16 s ≤ 65535 := by
  have key : ∀ (s : Bytes) (n : Nat), n ≤ 65535 → parseUint16Loop n s ≤ 65535 := by
    intro s
    induction s with
    | nil => intro n h; simpa [parseUint16Loop] using h
    | cons c cs ih =>
      intro n h
      rw [parseUint16Loop]
      split
      · omega
      · split
        · omega
        · exact ih _ (by omega)
  exact key s 0 (by omega)

theorem parseUri_host {uri host : Bytes} {port : Nat} (h : parseUri uri = .ok (host, port)) :
    (58 : UInt8) ∉ host ∧ port ≤ 65535 := by
  unfold parseUri at h
  split at h
  · next a b t hs =>
    have h1 : a = host ∧ parseUint16 b = port := by simpa using h
    refine ⟨?_, h1.2 ▸ parseUint16_le b⟩
    rw [← h1.1]
    exact split_no_sep_mem 58 uri a (by rw [hs]; simp)
  · simp at h

theorem parseOptionalUri_host {uri host : Bytes} {port : Nat} (h : parseOptionalUri uri = .ok (host, port)) :
    (58 : UInt8) ∉ host ∧ port ≤ 65535 := by
  unfold parseOptionalUri at h
  split at h
  · exact parseUri_host h
  · have h1 : [] = host ∧ 0 = port := by simpa using h
    rw [← h1.1, ← h1.2]
    simp

theorem init_hosts {H : Host GoFloat} {c : NodeConfig GoFloat} (h : initNode H = .ok c) :
    ((58 : UInt8) ∉ c.host ∧ c.port ≤ 65535) ∧ ((58 : UInt8) ∉ c.hostPublic ∧ c.portPublic ≤ 65535) := by
  obtain ⟨-, -, -, -, -, -, -, h1, -, -, h2, -⟩ := initNode_ok H h
  exact ⟨parseUri_host h1, parseOptionalUri_host h2⟩

/-- **C94, the start.** A node that is configured as a peer with a host to listen on without slashes starts only if
that host is an address of IPv4. With the name of a host, which is resolved and listened on during the
initialisation, it ends with an error. -/
theorem C94_name_refused (W : MaWorld) (strictX : Bool) (odd : GoFloat → Int) {H : Host GoFloat}
    {c : NodeConfig GoFloat} (hi : initNode H = .ok c) (hp : c.portPublic ≠ 0) (hs : (47 : UInt8) ∉ c.host)
    (hn : ¬ ∃ v, Dotted W.zeros c.host v) : startNode (goStart W strictX odd) c = .err .localUri := by
  obtain ⟨⟨h1, h2⟩, -⟩ := init_hosts hi
  have hf : (goStart W strictX odd).ip4 c.host c.port = false := by
    simp only [goStart]
    cases hm : newMultiaddr W (localUriText c.host c.port) with
    | none => rfl
    | some ps =>
      obtain ⟨v, hv, -⟩ := (C94_local_iff W hs h1 h2 ps).1 hm
      exact absurd ⟨v, hv⟩ hn
  rw [startNode, NodeConfig.runsAsPeer, if_pos (by simpa using hp), startPeer, if_pos hf]

theorem idOfKeyText_keyText (k : CurveKey) : idOfKeyText (keyText k) = peerIdOf k := by
  rw [idOfKeyText, keyText, hexPrefix_of_decode (hexDecode_hexEncode _), peerIdOf]

theorem publicTextOf_id {key t : Bytes} (h : publicTextOf key = some t) :
    ∃ b, hexDecode key = some b ∧ t = keyText (publicOf (beNat b)) ∧ idOfKeyText t = peerIdOf (publicOf (beNat b)) := by
  cases hk : hexDecode key with
  | none => rw [publicTextOf, hk] at h; simp at h
  | some b =>
    rw [(C89_public_text true hk).1, Option.some.injEq] at h
    subst h
    exact ⟨b, rfl, rfl, idOfKeyText_keyText _⟩

theorem isPeerId_key (k : CurveKey) : IsPeerId (peerIdOf k) := by
  rw [← (C93_ids [] k).2]; exact (C93_ids _ k).1

/-- A peer that was initialised from its environment and has started, with a public host without slashes and
commas. -/
def StartedPeer (W : MaWorld) (strictX : Bool) (odd : GoFloat → Int) (s : PeerSettings MaAddrInfo) : Prop :=
  ∃ (H : Host GoFloat) (c : NodeConfig GoFloat), initNode H = .ok c ∧
    startNode (goStart W strictX odd) c = .ok (.peer s) ∧
    (47 : UInt8) ∉ s.announced.1 ∧ (44 : UInt8) ∉ s.announced.1

theorem StartedPeer.id {W : MaWorld} {strictX : Bool} {odd : GoFloat → Int} {s : PeerSettings MaAddrInfo}
    (h : StartedPeer W strictX odd s) : IsPeerId (idOfKeyText s.publicKey) ∧ s.announced.2 ≤ 65535 := by
  obtain ⟨H, c, h1, h2, -, -⟩ := h
  obtain ⟨-, -, -, h3, -, -, h4, -⟩ := (C69_peer_iff _ _ _).1 h2
  obtain ⟨b, -, -, h5⟩ := publicTextOf_id h3
  refine ⟨h5 ▸ isPeerId_key _, ?_⟩
  rw [h4]
  exact (init_hosts h1).2.2

theorem StartedPeer.printed {W : MaWorld} (hW : W.toIdWorld.Sane) {strictX : Bool} {odd : GoFloat → Int}
    {s : PeerSettings MaAddrInfo} (h : StartedPeer W strictX odd s) :
    printedAddr W s = .ok (publicUriText s.announced.1 s.announced.2 ++ b! "/p2p/" ++
      prettyId (idOfKeyText s.publicKey)) := by
  obtain ⟨h1, h2⟩ := h.id
  obtain ⟨H, c, -, -, h3, -⟩ := h
  rw [printedAddr, C94_public W h3 h2]
  exact C94_printed hW h2 h1

theorem base58_no_comma (b : Bytes) : (44 : UInt8) ∉ base58Encode b := by
  intro h
  rw [base58Encode, List.mem_map] at h
  obtain ⟨d, hd, h⟩ := h
  have hlt := rebase_lt (b1 := 256) (b2 := 58) (by omega) (by omega) (by omega) (toNat_lt_256 (b := b)) d hd
  have : ∀ d : Fin 58, base58Alphabet.getD d 0 ≠ 44 := by decide +kernel
  exact this ⟨d, hlt⟩ h

theorem split_join (sep : UInt8) : ∀ (ts : List Bytes), ts ≠ [] → (∀ t ∈ ts, sep ∉ t) →
    splitBytes sep (joinBytes sep ts) = ts
  | [], h, _ => absurd rfl h
  | [t], _, h => by rw [joinBytes, split_no_sep _ _ (h t (by simp))]
  | t :: u :: ts, _, h => by
    rw [joinBytes, split_append _ _ _ (h t (by simp)),
      split_join sep (u :: ts) (by simp) (fun x hx => h x (List.mem_cons_of_mem _ hx))]

/-- **C94, joining.** Take any peers that were started from their environments. If what they print is put into the
environment of another node, with commas between, then that node gets as its entry peers exactly these peers: the
id of each one's key and its public address. -/
theorem C94_join {W : MaWorld} (hW : W.toIdWorld.Sane) (strictX : Bool) (odd : GoFloat → Int)
    {ss : List (PeerSettings MaAddrInfo)} {ts : List Bytes} (hne : ss ≠ [])
    (hs : ∀ s ∈ ss, StartedPeer W strictX odd s) (ht : ss.map (printedAddr W) = ts.map .ok)
    {H : Host GoFloat} {c : NodeConfig GoFloat} (hi : initNode H = .ok c)
    (he : H.getenv (b! "AEA_P2P_ENTRY_URIS") = joinBytes 44 ts) :
    peersAddrInfo (goStart W strictX odd) c.entryPeers =
      .ok (ss.map fun s => ⟨idOfKeyText s.publicKey, [[⟨54, s.announced.1⟩, ⟨6, natBE 2 s.announced.2⟩]]⟩) := by
  have hts : ts = ss.map fun s => publicUriText s.announced.1 s.announced.2 ++ b! "/p2p/" ++
      prettyId (idOfKeyText s.publicKey) := by
    have h1 : ts.map (Res.ok (ε := Empty)) = (ss.map fun s => publicUriText s.announced.1 s.announced.2 ++ b! "/p2p/" ++
        prettyId (idOfKeyText s.publicKey)).map .ok := by
      rw [← ht, List.map_map]
      apply List.map_congr_left
      intro s h
      exact (hs s h).printed hW
    exact List.map_injective_iff.2 (fun a b h => by simpa using h) h1
  have hcomma : ∀ t ∈ ts, (44 : UInt8) ∉ t := by
    rw [hts]
    intro t h
    obtain ⟨s, h1, rfl⟩ := List.mem_map.1 h
    obtain ⟨-, -, -, -, -, h2⟩ := hs s h1
    have h3 := (itoa_numeral s.announced.2).1.not_mem (c := 44) (by decide)
    simp [publicUriText, h2, h3, prettyId, base58_no_comma]
  have htne : ts ≠ [] := by rw [hts]; simpa using hne
  have hsplit := split_join 44 ts htne hcomma
  have hne' : H.getenv (b! "AEA_P2P_ENTRY_URIS") ≠ [] := by
    intro h0
    rw [← he, h0] at hsplit
    have : [] ∈ ts := by rw [← hsplit]; simp [splitBytes]
    rw [hts] at this
    obtain ⟨s, -, h⟩ := List.mem_map.1 this
    simp [publicUriText] at h
  have hpeers : c.entryPeers = ts := by
    obtain ⟨-, -, h3, -⟩ := C45_settings H hi
    obtain ⟨h4, h5⟩ := h3 hne'
    rw [he] at h5
    have hcne : c.entryPeers ≠ [] := by
      intro h0
      rw [h0] at h5
      exact hne' (by rw [he, ← h5]; rfl)
    rw [← split_join 44 c.entryPeers hcne h4, h5, hsplit]
  rw [hpeers, hts]
  clear hpeers hsplit htne hcomma hts he ht hne
  induction ss with
  | nil => rfl
  | cons s ss ih =>
    have h1 := hs s (by simp)
    obtain ⟨h2, h3⟩ := h1.id
    obtain ⟨-, -, -, -, h4, -⟩ := h1
    rw [List.map_cons, peersAddrInfo, C94_entry_peer hW h4 h3 h2]
    simp only []
    rw [ih (fun x hx => hs x (List.mem_cons_of_mem _ hx))]
    rfl

namespace MultiaddrDemo

/-- No other protocols, no zeros at the front. -/
def world : MaWorld where
  toIdWorld := PeerIdTextDemo.world
  otherProto _ := none
  otherText _ := []
  maCid _ := none
  ip6 _ := none
  zeros := false

/-- A peer without an agent; the key of `utils_test.go:254`. -/
def host (uri uriPublic entry : Bytes) : Host GoFloat where
  getenv v :=
    if v = b! "AEA_P2P_ID" then b! "3e7a1f43b2d8a4b9f63a2ffeb1d597f971a8db7ffd95453173268b453106cadc"
    else if v = b! "AEA_P2P_URI" then uri
    else if v = b! "AEA_P2P_URI_PUBLIC" then uriPublic
    else if v = b! "AEA_P2P_ENTRY_URIS" then entry
    else []
  resolves _ := true
  canListen _ := true
  parseFloat _ := none

def started (H : Host GoFloat) : Option (Res StartErr (NodeSettings MaAddrInfo)) :=
  match initNode H with
  | .ok c => some (startNode (goStart world true fun _ => 0) c)
  | .error _ => none

def printed : Option (Res StartErr (NodeSettings MaAddrInfo)) → Option (Res Empty Bytes)
  | some (.ok (.peer s)) => some (printedAddr world s)
  | _ => none

def entries : Option (Res StartErr (NodeSettings MaAddrInfo)) → Option (List MaAddrInfo)
  | some (.ok (.peer s)) => some s.entryPeers
  | _ => none

def addr1 : Bytes := b! "/dns4/acn.fetch.ai/tcp/9000/p2p/16Uiu2HAkw1ypeQYQbRFV5hKUxGRHocwU5ohmVmCnyJNg36tnPFdx"

set_option maxRecDepth 100000 in
set_option maxHeartbeats 4000000 in
/-- What the peer prints, and the entry peer it takes from `tests/conftest.py:252`. -/
example :
    printed (started (host (b! "127.0.0.1:9000") (b! "acn.fetch.ai:9000") [])) =
      some (.ok (b! "/dns4/acn.fetch.ai/tcp/9000/p2p/" ++ prettyId (idOfKeyText
        ((publicTextOf (b! "3e7a1f43b2d8a4b9f63a2ffeb1d597f971a8db7ffd95453173268b453106cadc")).getD [])))) ∧
    (entries (started (host (b! "127.0.0.1:9000") (b! "acn.fetch.ai:9000") addr1))).map (·.map (·.addrs)) =
      some [[[⟨54, b! "acn.fetch.ai"⟩, ⟨6, [35, 40]⟩]]] ∧
    (entries (started (host (b! "127.0.0.1:9000") (b! "acn.fetch.ai:9000") addr1))).map (·.map (·.id)) =
      (idFromText true (b! "0217a59bd805c310aca4febe0e99ce22ee3712ae085dc1e5630430b1e15a584bb7")).map ([·]) := by
  refine ⟨?_, ?_, ?_⟩ <;> decide +kernel

end MultiaddrDemo

open MultiaddrDemo in
set_option maxRecDepth 100000 in
set_option maxHeartbeats 4000000 in
/-- **C94, what is not refused or not accepted.** The node listens on no host that is given by its name. A public
host with slashes is taken, and another peer gets other hosts than one of that name from what is printed. A port in
an entry peer's address may be negative, and stands for another one. -/
theorem C94_counterexample :
    started (host (b! "localhost:9000") (b! "acn.fetch.ai:9000") []) = some (.err .localUri) ∧
    (newMultiaddr world (publicUriText (b! "a/tcp/1/dns4/b") 9000)) =
      some [⟨54, b! "a"⟩, ⟨6, [0, 1]⟩, ⟨54, b! "b"⟩, ⟨6, [35, 40]⟩] ∧
    newMultiaddr world (b! "/dns4/a/tcp/-1/") = newMultiaddr world (b! "/dns4/a/tcp/65535") := by
  refine ⟨?_, ?_, ?_⟩ <;> decide +kernel

end Verif
