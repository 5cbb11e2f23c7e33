import Verif.Model.Messages
import Verif.Model.Framing

/-!
# The agent record file of a peer

libs/go/libp2p_node/dht/dhtpeer/dhtpeer.go:430-508.

The file is a byte list that only grows (`O_APPEND`). `peerId` stands for
`utils.IDFromFetchAIPublicKey` followed by `Pretty`; it fails on a text that is no public key.
All reads of `initAgentRecordPersistentStorage` go through one buffered reader, so a full read
takes the next bytes of the file.
-/

namespace Verif

open Proto

/-- Why loading fails: dhtpeer.go:482, 489, 494, 499 -/
inductive LoadErr where
  | size
  | line
  | parse
  | key
  deriving DecidableEq, Repr

/-- What a peer remembers about agents: `agentRecords` and `dhtAddresses`. -/
structure Loaded where
  records : GoMap Bytes AgentRecord
  dhtAddresses : GoMap Bytes Bytes

/-- The maps as `New` makes them. -/
def Loaded.empty : Loaded := ⟨.empty, .empty⟩

/-- `saveAgentRecordToPersistentStorage`: dhtpeer.go:431-447, the bytes appended to the file.
`formatPersistentStorageLine` (455-459) ignores the error of `proto.Marshal` and uses what it
returned, here `broken r`. The size is cut to 32 bits. `none` is the error of line 434. -/
def saveRecord (broken : AgentRecord → Bytes) (r : AgentRecord) : Option Bytes :=
  let msg := (r.encode).getD (broken r)
  if msg.length = 0 then none else some (be32 msg.length ++ msg)

/-- `initAgentRecordPersistentStorage`: dhtpeer.go:462-508. The first argument is fuel; every
round takes at least four bytes. Returns the maps and the number of records. -/
def loadAux (peerId : Bytes → Option Bytes) : Nat → Loaded → Nat → Bytes → Res LoadErr (Loaded × Nat)
  | 0, st, n, _ => .ok (st, n)
  | fuel + 1, st, n, file =>
    if file.length = 0 then .ok (st, n)
    else if file.length < 4 then .err .size
    else
      let size := be32ToNat (file.take 4)
      let rest := file.drop 4
      if rest.length < size then .err .line
      else match AgentRecord.decode (rest.take size) with
        | none => .err .parse
        | some r =>
          match peerId r.peerPublicKey with
          | none => .err .key
          | some id =>
            loadAux peerId fuel
              ⟨st.records.set r.address r, st.dhtAddresses.set r.address id⟩ (n + 1)
              (rest.drop size)

/-- Loading a whole file. -/
def loadRecords (peerId : Bytes → Option Bytes) (file : Bytes) : Res LoadErr (Loaded × Nat) :=
  loadAux peerId (file.length + 1) .empty 0 file

end Verif
