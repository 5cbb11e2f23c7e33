import Verif.Model.PeerHandlers

/-!
# What it means that a peer represents an agent
-/

namespace Verif

/-- The record says that the owner of the key `k` represents the agent with address `a`, and its proof is
valid. -/
def Vouches (por : PoRCheck) (r : AgentRecord) (a k : Bytes) : Prop :=
  r.address = a ∧ r.peerPublicKey = k ∧ por r a k = .ok .success

/-- A check that compares address and key with those of the record and knows the ledger. -/
def LawfulPoR (por : PoRCheck) : Prop :=
  ∀ r a k, por r a k = .ok .success → r.address = a ∧ r.peerPublicKey = k ∧ r.ledgerId ≠ []

end Verif
