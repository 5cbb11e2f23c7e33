import Verif.Model.Crypto
import Verif.Model.Framing

/-!
# The check of the peer's identity when an agent connects

libs/go/aealite/connections/tcpsocket.go:42-82 (`TCPSocketChannel.Connect`),
libs/go/libp2p_node/dht/dhtpeer/dhtpeer.go:783-788 (`makeSessionKeySignature`) and
libs/go/libp2p_node/dht/dhtpeer/utils.go:33-42 (`TLSListener.Accept`).

TLS is a parameter: a connection is the list of certificates the server has sent, of which we keep the
public keys, and the segments of data still to come. TLS makes sure that the server has the private key of
the *first* certificate; with `InsecureSkipVerify` nothing else is checked about the list. A TLS server
always sends at least one certificate, but the definition does not assume it.
-/

namespace Verif

/-- The public key of a certificate. -/
inductive CertKey where
  /-- an ECDSA key, as `elliptic.Marshal` writes it -/
  | ecdsa (marshalled : Bytes)
  /-- RSA or Ed25519 -/
  | other
  deriving DecidableEq, Repr

/-- A TLS connection after the handshake, seen by the client. -/
structure TlsConn where
  certs : List CertKey
  input : List Bytes
  deriving DecidableEq, Repr

/-- The long-term keys of peers. -/
structure PeerKeys where
  /-- `crypto.UnmarshalSecp256k1PublicKey` accepts these bytes -/
  keyOk : Bytes → Bool
  /-- `pubkey.Verify(data, signature)`; `none` is an error -/
  verify : Bytes → Bytes → Bytes → Option Bool

/-- What `hex.DecodeString` returns besides an error: the bytes before the first thing that is wrong. -/
def hexPrefix : Bytes → Bytes
  | a :: b :: rest =>
    match hexVal a, hexVal b with
    | some x, some y => (x * 16 + y) :: hexPrefix rest
    | _, _ => []
  | _ => []

/-- `PubKeyFromFetchAIPublicKey`: aealite/wallet/utils.go:73-76. The error of the hexadecimal decoding is
ignored. -/
def peerKeyOf (K : PeerKeys) (text : Bytes) : Option Bytes :=
  if K.keyOk (hexPrefix text) then some (hexPrefix text) else none

/-- `Connect`: tcpsocket.go:42-82. `none` is a failed `tls.Dial`. A missing certificate is a nil
dereference, a key of another kind a failed type assertion. The result is the input still to come. -/
def tlsConnect (K : PeerKeys) (peerPublicKey : Bytes) (conn : Option TlsConn) : Res Unit (List Bytes) :=
  match conn with
  | none => .err ()
  | some c =>
    match c.certs.getLast? with
    | none => .panic
    | some .other => .panic
    | some (.ecdsa key) =>
      match readConn none c.input with
      | (.panic, _) => .panic
      | (.err _, _) => .err ()
      | (.ok signature, rest) =>
        match peerKeyOf K peerPublicKey with
        | none => .err ()
        | some pk =>
          match K.verify pk key signature with
          | none => .err ()
          | some false => .err ()
          | some true => .ok rest

/-- `makeSessionKeySignature`: dhtpeer.go:783-788, for the marshalled key of the certificate. -/
def sessionSignature (sign : Bytes → Option Bytes) (key : Bytes) : Option Bytes := sign key

/-- The first bytes a peer sends on a connection: dhtpeer/utils.go:33-42 -/
def acceptWrites (signature : Bytes) : Res FErr Bytes := writeBytes signature

end Verif
