import Verif.Model.PeerIdText
import Verif.Model.Label
import Verif.Model.NodeMain
import Verif.Model.TextCodes

/-!
# Multiaddresses

`NewMultiaddr` and `String` of go-multiaddr v0.2.1 and `AddrInfoFromP2pAddr` of go-libp2p-core v0.5.3, as far as
options.go:80-108, utils.go:221-232, dhtpeer.go:257-264, 1018-1026 and dhtclient.go:527-540 use them. The libraries
are not in `/repo`; they are written out from their published behaviour. A multiaddress is the list of its parts
(the code keeps the bytes of that list). Protocols other than those the code writes are parameters, and so are
addresses of IPv4 in the form of IPv6 and whether parts of an address of IPv4 may begin with zeros (they may before
Go 1.17).
-/

namespace Verif

open DialogueLabel (splitBytes joinBytes)

/-- A part of a multiaddress: the code of its protocol and its value. -/
structure MaPart where
  code : Nat
  value : Bytes
  deriving DecidableEq, Repr

/-- How a protocol takes its value. -/
inductive MaSize where
  | none
  | value
  | path
  deriving DecidableEq, Repr

/-- A protocol; `read` is `StringToBytes` of its transcoder. -/
structure MaProto where
  code : Nat
  size : MaSize
  read : Bytes → Option Bytes

/-- What is left open of the libraries. -/
structure MaWorld extends IdWorld where
  /-- `ProtocolWithName` for other names -/
  otherProto : Bytes → Option MaProto
  /-- the name and the value of a part of another protocol, as text -/
  otherText : MaPart → Bytes
  /-- `cid.Decode` and the tests of its type, for a peer id in a multiaddress -/
  maCid : Bytes → Option Bytes
  /-- `net.ParseIP(s).To4()` if a colon comes first -/
  ip6 : Bytes → Option Bytes
  /-- parts of an address may begin with zeros -/
  zeros : Bool

/-- `strconv.Itoa` and `%d` for numbers that are not negative -/
def itoa (n : Nat) : Bytes :=
  if n = 0 then [48] else (baseDigits 10 (n.log2 + 1) n []).map fun d => UInt8.ofNat (48 + d)

/-- Digits only: their value. -/
def digitsValue (s : Bytes) : Option Nat :=
  if s = [] then none
  else s.foldl (fun acc c => acc.bind fun n => (digit? c).map fun d => 10 * n + d) (some 0)

/-- `strconv.Atoi` -/
def atoi (s : Bytes) : Option Int :=
  match s with
  | 43 :: r => (digitsValue r).bind fun n => if n < 2 ^ 63 then some (n : Int) else none
  | 45 :: r => (digitsValue r).bind fun n => if n ≤ 2 ^ 63 then some (-(n : Int)) else none
  | r => (digitsValue r).bind fun n => if n < 2 ^ 63 then some (n : Int) else none

/-- `portStB`: numbers from 65536 on are refused, negative ones are not. -/
def portRead (s : Bytes) : Option Bytes :=
  match atoi s with
  | none => none
  | some i => if i ≥ 65536 then none else some (natBE 2 (i % 65536).toNat)

/-- A number up to 255 in an address. -/
def octet (zeros : Bool) (s : Bytes) : Option UInt8 :=
  match digitsValue s with
  | none => none
  | some n =>
    if n > 255 then none
    else if zeros = false ∧ s.length > 1 ∧ s.head? = some 48 then none
    else some (UInt8.ofNat n)

/-- `parseIPv4` -/
def dottedRead (zeros : Bool) (s : Bytes) : Option Bytes :=
  match splitBytes 46 s with
  | [a, b, c, d] =>
    match octet zeros a, octet zeros b, octet zeros c, octet zeros d with
    | some a, some b, some c, some d => some [a, b, c, d]
    | _, _, _, _ => none
  | _ => none

/-- `ip4StB`: the first dot or colon decides. -/
def ip4Read (W : MaWorld) (s : Bytes) : Option Bytes :=
  if (s.find? fun c => c == 46 || c == 58) = some 58 then W.ip6 s else dottedRead W.zeros s

/-- `dnsStB` -/
def dnsRead (s : Bytes) : Option Bytes := if (47 : UInt8) ∈ s then none else some s

/-- `p2pStB` -/
def p2pRead (W : MaWorld) (s : Bytes) : Option Bytes :=
  peerDecode { uvarint := W.uvarint, knownCode := W.knownCode, fromCid := W.maCid } s

/-- `ProtocolWithName` -/
def maProto (W : MaWorld) (name : Bytes) : Option MaProto :=
  if name = b! "ip4" then some ⟨4, .value, ip4Read W⟩
  else if name = b! "tcp" then some ⟨6, .value, portRead⟩
  else if name = b! "dns4" then some ⟨54, .value, dnsRead⟩
  else if name = b! "p2p" ∨ name = b! "ipfs" then some ⟨421, .value, p2pRead W⟩
  else if name = b! "p2p-circuit" then some ⟨290, .none, fun _ => none⟩
  else W.otherProto name

/-- The loop of `stringToBytes`. -/
def maParts (W : MaWorld) : List Bytes → Option (List MaPart)
  | [] => some []
  | name :: rest =>
    match maProto W name with
    | none => none
    | some p =>
      match p.size with
      | .none => (maParts W rest).map (⟨p.code, []⟩ :: ·)
      | .value =>
        match rest with
        | [] => none
        | v :: rest =>
          match p.read v with
          | none => none
          | some x => (maParts W rest).map (⟨p.code, x⟩ :: ·)
      | .path =>
        match rest with
        | [] => none
        | v :: rest => (p.read (47 :: joinBytes 47 (v :: rest))).map fun x => [⟨p.code, x⟩]

/-- `strings.TrimRight(s, "/")` -/
def trimSlashes (s : Bytes) : Bytes := (s.reverse.dropWhile (· == 47)).reverse

/-- `NewMultiaddr` -/
def newMultiaddr (W : MaWorld) (s : Bytes) : Option (List MaPart) :=
  match splitBytes 47 (trimSlashes s) with
  | [] => none
  | first :: sp => if first ≠ [] then none else if sp = [] then none else maParts W sp

/-- A part as text: `bytesToString`. -/
def partText (W : MaWorld) (p : MaPart) : Bytes :=
  if p.code = 4 then b! "/ip4/" ++ joinBytes 46 (p.value.map fun x => itoa x.toNat)
  else if p.code = 6 then b! "/tcp/" ++ itoa (beNat p.value)
  else if p.code = 54 then b! "/dns4/" ++ p.value
  else if p.code = 421 then b! "/p2p/" ++ base58Encode p.value
  else if p.code = 290 then b! "/p2p-circuit"
  else W.otherText p

/-- `Multiaddr.String` -/
def maText (W : MaWorld) (ps : List MaPart) : Bytes := ps.flatMap (partText W)

/-- `peer.AddrInfo` -/
structure MaAddrInfo where
  id : Bytes
  addrs : List (List MaPart)
  deriving DecidableEq, Repr

/-- `SplitAddr` and `AddrInfoFromP2pAddr` -/
def addrInfoOf (ps : List MaPart) : Option MaAddrInfo :=
  match ps.getLast? with
  | none => none
  | some last =>
    if last.code ≠ 421 then none
    else if last.value = [] then none
    else some ⟨last.value, if ps.dropLast = [] then [] else [ps.dropLast]⟩

/-! ## The addresses the code writes -/

/-- options.go:84 -/
def localUriText (host : Bytes) (port : Nat) : Bytes := b! "/ip4/" ++ host ++ b! "/tcp/" ++ itoa port

/-- options.go:99 -/
def publicUriText (host : Bytes) (port : Nat) : Bytes := b! "/dns4/" ++ host ++ b! "/tcp/" ++ itoa port

/-- `DHTPeer.MultiAddr`: dhtpeer.go:1018-1026, with the addresses of dhtpeer.go:257-264, which are the public one
only. The error of `NewMultiaddr` is dropped; `Encapsulate` of nothing crashes. -/
def peerMultiAddr (W : MaWorld) (publicAddr : List MaPart) (id : Bytes) : Res Empty Bytes :=
  match newMultiaddr W (b! "/p2p/" ++ prettyId id) with
  | none => .panic
  | some ps => .ok (maText W (publicAddr ++ ps))

/-- The id of a secp256k1 key, from its text, which is the hexadecimal form of its bytes. -/
def idOfKeyText (t : Bytes) : Bytes := [0, 37, 8, 2, 18, 33] ++ hexPrefix t

/-- What a peer prints when it has started (libp2p_node.go:146): its public address is that of options.go:95-108. -/
def printedAddr {η : Type} (W : MaWorld) (s : PeerSettings η) : Res Empty Bytes :=
  match newMultiaddr W (publicUriText s.announced.1 s.announced.2) with
  | none => .panic
  | some pa => peerMultiAddr W pa (idOfKeyText s.publicKey)

/-- dhtclient.go:527 -/
def circuitText (relay target : Bytes) : Bytes :=
  b! "/p2p/" ++ prettyId relay ++ b! "/p2p-circuit/p2p/" ++ prettyId target

/-- Everything the start asks of libp2p, written out; `oddInt64` as in `StartWorld`. -/
def goStart (W : MaWorld) (strictX : Bool) (oddInt64 : GoFloat → Int) : StartWorld MaAddrInfo where
  publicKeyOf := publicTextOf
  peerIdOf t := prettyId (idOfKeyText t)
  ip4 h p := (newMultiaddr W (localUriText h p)).isSome
  dns4 h p := (newMultiaddr W (publicUriText h p)).isSome
  addrInfo s := (newMultiaddr W s).map addrInfoOf
  porCheck := isValidPoR (addressOf (goPrims strictX)) (verifyLedger (goPrims strictX))
  oddInt64 := oddInt64

end Verif
