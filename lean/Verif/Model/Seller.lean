import Verif.Model.Wrap
import Verif.Model.Dialogues

/-!
# The seller agent

libs/go/aea_end2end/main.go:35-201: an agent that sells over the FIPA protocol, and the FIPA messages of
libs/go/aea_end2end/protocols/fipa.pb.go as far as it uses them.

The agent handles one envelope after the other (`getEnvelopeAndProcess`, 193-201; the nil envelope that `Get`
returns from a closed channel has no protocol id and is ignored like any other envelope of another protocol).
What `agent.Put` reports is only logged (144-148, 171-175); the outcome here is the envelope given to it. Of a
decoded FIPA message only the member of its `oneof` is kept; the bytes of the member must decode, though.
-/

namespace Verif

open Proto

namespace Fipa

/-- `Query`, `Description`: fipa.pb.go:212, 259. One field of bytes. -/
def innerOk (v : Bytes) : Bool := (parse v).isSome

/-- An entry of a map of strings: fields 1 and 2 are strings. -/
def entryOk (v : Bytes) : Bool :=
  match parse v with
  | none => false
  | some fs => fs.all fun f =>
      match f.num, f.val with
      | 1, .bytes s => utf8Valid s
      | 2, .bytes s => utf8Valid s
      | _, _ => true

/-- The message of a member decodes: fipa.pb.go:307, 354, 401, 448, 495. The others have no fields. -/
def memberOk (num : Nat) (v : Bytes) : Bool :=
  match parse v with
  | none => false
  | some fs => fs.all fun f =>
      match f.num, f.val with
      | 1, .bytes w =>
        if num = 7 ∨ num = 13 then innerOk w
        else if num = 6 ∨ num = 10 ∨ num = 12 then entryOk w
        else true
      | _, _ => true

/-- Decoding one field of `FipaMessage`: fipa.pb.go:153-185. The state is the number of the member that is
set. -/
def step (m : Option Nat) (f : RawField) : Option (Option Nat) :=
  match f.val with
  | .bytes v =>
    if 5 ≤ f.num ∧ f.num ≤ 13 then (if memberOk f.num v then some (some f.num) else none) else some m
  | _ => some m

/-- The JSON names of the members: fipa.pb.go:153-185. -/
def jsonName (num : Nat) : Bytes :=
  if num = 5 then b! "accept"
  else if num = 6 then b! "acceptWInform"
  else if num = 7 then b! "cfp"
  else if num = 8 then b! "decline"
  else if num = 9 then b! "end"
  else if num = 10 then b! "inform"
  else if num = 11 then b! "matchAccept"
  else if num = 12 then b! "matchAcceptWInform"
  else b! "propose"

/-- `proto.Unmarshal` into a `FipaMessage` and `GetPerformative` (aealite/protocols/message.go:144-156), which
takes the JSON name. -/
def performativeOf (content : Bytes) : Option Bytes :=
  match decodeInto step none content with
  | some (some n) => some (jsonName n)
  | _ => none

end Fipa

namespace Seller

/-- `makeSellerDialogues`: main.go:39-65. -/
def rules : RulesDecl where
  initial := [b! "cfp"]
  terminal := [b! "decline", b! "end"]
  validReplies := GoMap.empty
    |>.set (b! "cfp") [b! "propose", b! "decline"]
    |>.set (b! "propose") [b! "accept", b! "accept_w_inform", b! "decline", b! "propose"]
    |>.set (b! "accept") [b! "decline", b! "match_accept", b! "match_accept_w_inform"]
    |>.set (b! "accept_w_inform") [b! "decline", b! "match_accept", b! "match_accept_w_inform"]
    |>.set (b! "decline") []
    |>.set (b! "match_accept") [b! "inform", b! "end"]
    |>.set (b! "match_accept_w_inform") [b! "inform", b! "end"]
    |>.set (b! "inform") [b! "inform", b! "end"]
    |>.set (b! "end") []

/-- `protocols.NewDialogues(…)`: main.go:66-75; terminal dialogues are not kept. -/
def start (address : Bytes) : Sys := .new address false rules

/-- main.go:83 -/
def fipaProtocol : Bytes := b! "fetchai/fipa:1.0.0"

/-- The proposal: main.go:112-138. `Query_Instance` and `Query_DataModel`:
aealite/protocols/search.pb.go:301-303, 596-597. -/
def proposeContent : Bytes :=
  let model := encodeFields [⟨1, .bytes (b! "string")⟩, ⟨3, .bytes (b! "desc")⟩]
  let q := encodeFields [⟨1, .bytes model⟩]
  let description := encodeFields [⟨1, .bytes q⟩]
  encodeFields [⟨13, .bytes (encodeFields [⟨1, .bytes description⟩])⟩]

/-- The match: main.go:157-165. A `oneof` member whose pointer is nil is written as an empty message. -/
def matchContent : Bytes := encodeFields [⟨11, .bytes []⟩]

/-- The performative and content of the answer to a performative: main.go:104-188. -/
def answer (performative : Bytes) : Option (Bytes × Bytes) :=
  if performative = b! "cfp" then some (b! "propose", proposeContent)
  else if performative = b! "accept" then some (b! "match_accept", matchContent)
  else none

/-- How the handling of an envelope ends. -/
inductive Outcome where
  | notFipa                      -- main.go:85-88
  | malformed (e : WErr)         -- 90-98
  | refused (e : DErr)           -- 99-103
  | noReply (e : DErr)           -- 108-111, 153-156
  | notPacked (e : WErr)         -- 140-143, 167-170
  | sent (e : Envelope)          -- 144, 171
  | complete                     -- 177-181
  | unsupported                  -- 182-186
  | crashed
  deriving DecidableEq, Repr

/-- `handleEnvelope`: main.go:78-191. `nonce` is the random value drawn if a dialogue is created. `Update`
may return nil without an error; calling `Reply` on that panics. -/
def handle (structOk : Bytes → Bool) (s : Sys) (e : Envelope) (nonce : Bytes) : Sys × Outcome :=
  if e.protocolId ≠ fipaProtocol then (s, .notFipa)
  else match unwrapEnvelope structOk Fipa.performativeOf e with
    | .panic => (s, .crashed)
    | .err x => (s, .malformed x)
    | .ok (m, _) =>
      match s.update m nonce with
      | (s1, .panic) => (s1, .crashed)
      | (s1, .err x) => (s1, .refused x)
      | (s1, .ok p) =>
        match answer m.performative with
        | none => (s1, if m.performative = b! "end" then .complete else .unsupported)
        | some (perf, content) =>
          match p with
          | none => (s1, .crashed)
          | some p =>
            match s1.reply p perf (some m) none with
            | (s2, .panic) => (s2, .crashed)
            | (s2, .err x) => (s2, .noReply x)
            | (s2, .ok r) =>
              match makeResponseEnvelope r fipaProtocol content with
              | .ok env => (s2, .sent env)
              | .err x => (s2, .notPacked x)
              | .panic => (s2, .crashed)

/-- The states of the agent: after any envelopes, none of which crashed it. -/
inductive Reached (structOk : Bytes → Bool) (address : Bytes) : Sys → Prop where
  | start : Reached structOk address (start address)
  | next {s : Sys} (e : Envelope) (nonce : Bytes) : Reached structOk address s →
      (handle structOk s e nonce).2 ≠ .crashed → Reached structOk address (handle structOk s e nonce).1

end Seller

end Verif
