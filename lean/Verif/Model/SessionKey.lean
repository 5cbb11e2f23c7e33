import Verif.Model.TlsCheck
import Verif.Model.Ecdsa
import Verif.Model.Hashes

/-!
# The signed session key of a peer

libs/go/libp2p_node/dht/dhtpeer/dhtpeer.go:751-766 (`makeSSLCertifiateAndSignature`), 783-788
(`makeSessionKeySignature`) and 1028-1030 (`GetCertAndSignature`), libs/go/libp2p_node/dht/dhtpeer/utils.go:33-42
(`TLSListener.Accept`) and libs/go/libp2p_node/dht/dhtpeer/mailbox.go:124-135 (`apiGetSignature`).

The keys of peers are those of secp256k1 here (`Model/Ecdsa`). The key of the certificate is a key of P-256 that is
made at the start (`generate_x509_cert`, dhtpeer.go:673-732); only its marshalled bytes matter, and they are a
parameter. The rest of the certificate is not modelled: nobody looks at it.
-/

namespace Verif

/-- The keys of peers are keys of secp256k1: `crypto.UnmarshalSecp256k1PublicKey` and `Verify` of
go-libp2p-core. -/
def curvePeerKeys (strictX : Bool) : PeerKeys where
  keyOk b := (parsePubKey strictX b).isSome
  verify b data sig :=
    match parsePubKey strictX b with
    | none => none
    | some q => libp2pVerify sha256 q data sig

/-- The fields `cert` and `sslSignature` of a peer: the marshalled key of the certificate, and its signature. -/
structure SessionKey where
  certKey : Bytes
  signature : Bytes
  deriving DecidableEq, Repr

/-- `makeSSLCertifiateAndSignature`: dhtpeer.go:751-766. `cert` is what `generate_x509_cert` makes, `none` its error;
`sign` is `Sign` of the peer's key. -/
def makeSessionKey (sign : Bytes → Option Bytes) (cert : Option Bytes) : Option SessionKey :=
  match cert with
  | none => none
  | some key =>
    match sessionSignature sign key with
    | none => none
    | some signature => some ⟨key, signature⟩

/-- The first bytes on a connection to the delegate service, and the certificates of its handshake:
dhtpeer.go:724-748, utils.go:33-42. -/
def SessionKey.delegate (k : SessionKey) : List CertKey × Res FErr Bytes :=
  ([.ecdsa k.certKey], acceptWrites k.signature)

/-- `apiGetSignature`: mailbox.go:124-135. The status and the body of the answer. -/
def SessionKey.mailbox (k : SessionKey) (method : Bytes) : Nat × Bytes :=
  if method ≠ b! "GET" then (400, b! "invalid method") else (200, k.signature)

end Verif
