import Verif.Model.Schema

/-!
# The definitions of the messages

As in the generated code: the `protobuf:"..."` tags give field numbers and kinds. A nil pointer in a repeated
field or in a member of a `oneof` is written as an empty message and is one here.
-/

namespace Verif.PB

/-! ## Searches: libs/go/aealite/protocols/search.pb.go -/

/-- The messages of search.pb.go. -/
inductive SearchMsg where
  | query | attribute | dataModel | location | value | keyValue | instance_ | stringPair | intPair | doublePair
  | locationPair | range | distance | relation | set | setValues | ints | doubles | strings | bools | locations
  | expr | or | and | not | constraint | model
  deriving DecidableEq, Repr

/-- Their fields. -/
def search : Schema SearchMsg
  | .query => []                                                                        -- 187
  | .attribute => [⟨1, .string, .one⟩, ⟨2, .enum, .one⟩, ⟨3, .bool, .one⟩, ⟨4, .string, .one⟩]  -- 230-233
  | .dataModel => [⟨1, .string, .one⟩, ⟨2, .msg .attribute, .many⟩, ⟨3, .string, .one⟩]  -- 301-303
  | .location => [⟨1, .double, .one⟩, ⟨2, .double, .one⟩]                                -- 364-365
  | .value => [⟨1, .string, .oneof 0⟩, ⟨2, .double, .oneof 0⟩, ⟨3, .bool, .oneof 0⟩, ⟨4, .int64, .oneof 0⟩,
      ⟨5, .msg .location, .oneof 0⟩]                                                    -- 507-523
  | .keyValue => [⟨1, .string, .one⟩, ⟨2, .msg .value, .one⟩]                            -- 541-542
  | .instance_ => [⟨1, .msg .dataModel, .one⟩, ⟨2, .msg .keyValue, .many⟩]               -- 596-597
  | .stringPair => [⟨1, .string, .one⟩, ⟨2, .string, .one⟩]                              -- 651-652
  | .intPair => [⟨1, .int64, .one⟩, ⟨2, .int64, .one⟩]                                   -- 706-707
  | .doublePair => [⟨1, .double, .one⟩, ⟨2, .double, .one⟩]                              -- 761-762
  | .locationPair => [⟨1, .msg .location, .one⟩, ⟨2, .msg .location, .one⟩]              -- 816-817
  | .range => [⟨1, .msg .stringPair, .oneof 0⟩, ⟨2, .msg .intPair, .oneof 0⟩, ⟨3, .msg .doublePair, .oneof 0⟩,
      ⟨4, .msg .locationPair, .oneof 0⟩]                                                -- 951-963
  | .distance => [⟨1, .msg .location, .one⟩, ⟨2, .double, .one⟩]                         -- 979-980
  | .relation => [⟨1, .enum, .one⟩, ⟨2, .msg .value, .one⟩]                              -- 1034-1035
  | .set => [⟨1, .enum, .one⟩, ⟨2, .msg .setValues, .one⟩]                               -- 1089-1090
  | .setValues => [⟨1, .msg .strings, .oneof 0⟩, ⟨2, .msg .doubles, .oneof 0⟩, ⟨3, .msg .bools, .oneof 0⟩,
      ⟨4, .msg .ints, .oneof 0⟩, ⟨5, .msg .locations, .oneof 0⟩]                        -- 1395-1411
  | .ints => [⟨1, .int64, .many⟩]                                                       -- 1429
  | .doubles => [⟨1, .double, .many⟩]                                                   -- 1476
  | .strings => [⟨1, .string, .many⟩]                                                   -- 1523
  | .bools => [⟨1, .bool, .many⟩]                                                       -- 1570
  | .locations => [⟨1, .msg .location, .many⟩]                                          -- 1617
  | .expr => [⟨1, .msg .or, .oneof 0⟩, ⟨2, .msg .and, .oneof 0⟩, ⟨3, .msg .not, .oneof 0⟩,
      ⟨4, .msg .constraint, .oneof 0⟩]                                                  -- 1224-1236
  | .or => [⟨1, .msg .expr, .many⟩]                                                     -- 1664
  | .and => [⟨1, .msg .expr, .many⟩]                                                    -- 1711
  | .not => [⟨1, .msg .expr, .one⟩]                                                     -- 1758
  | .constraint => [⟨1, .string, .one⟩, ⟨2, .msg .set, .oneof 0⟩, ⟨3, .msg .range, .oneof 0⟩,
      ⟨4, .msg .relation, .oneof 0⟩, ⟨5, .msg .distance, .oneof 0⟩]                     -- 1805, 1893-1905
  | .model => [⟨1, .msg .expr, .many⟩, ⟨2, .msg .dataModel, .one⟩]                       -- 1252-1253

/-! ## Negotiations: libs/go/aea_end2end/protocols/fipa.pb.go -/

/-- The messages of fipa.pb.go; `entry` is an entry of the maps. -/
inductive FipaMsg where
  | message | description | query | cfp | propose | acceptWInform | matchAcceptWInform | inform | accept | decline
  | matchAccept | end_ | entry
  deriving DecidableEq, Repr

/-- Their fields. -/
def fipa : Schema FipaMsg
  | .message => [⟨5, .msg .accept, .oneof 0⟩, ⟨6, .msg .acceptWInform, .oneof 0⟩, ⟨7, .msg .cfp, .oneof 0⟩,
      ⟨8, .msg .decline, .oneof 0⟩, ⟨9, .msg .end_, .oneof 0⟩, ⟨10, .msg .inform, .oneof 0⟩,
      ⟨11, .msg .matchAccept, .oneof 0⟩, ⟨12, .msg .matchAcceptWInform, .oneof 0⟩,
      ⟨13, .msg .propose, .oneof 0⟩]                                                    -- 153-185
  | .description => [⟨1, .bytes, .one⟩]                                                 -- 212
  | .query => [⟨1, .bytes, .one⟩]                                                       -- 259
  | .cfp => [⟨1, .msg .query, .one⟩]                                                    -- 307
  | .propose => [⟨1, .msg .description, .one⟩]                                          -- 354
  | .acceptWInform => [⟨1, .msg .entry, .map⟩]                                          -- 401
  | .matchAcceptWInform => [⟨1, .msg .entry, .map⟩]                                     -- 448
  | .inform => [⟨1, .msg .entry, .map⟩]                                                 -- 495
  | .accept | .decline | .matchAccept | .end_ => []                                     -- 537-651
  | .entry => [⟨1, .string, .always⟩, ⟨2, .string, .always⟩]

/-! ## The default protocol: examples/aealite_go/default/default.pb.go -/

/-- The messages of default.pb.go. -/
inductive DefaultMsg where
  | message | errorCode | bytes | error | end_ | entry
  deriving DecidableEq, Repr

/-- Their fields. -/
def default_ : Schema DefaultMsg
  | .message => [⟨5, .msg .bytes, .oneof 0⟩, ⟨6, .msg .end_, .oneof 0⟩, ⟨7, .msg .error, .oneof 0⟩]  -- 160-168
  | .errorCode => [⟨1, .enum, .one⟩]                                                    -- 183
  | .bytes => [⟨1, .bytes, .one⟩]                                                       -- 231
  | .error => [⟨1, .msg .errorCode, .one⟩, ⟨2, .string, .one⟩, ⟨3, .msg .entry, .map⟩]   -- 278-280
  | .end_ => []                                                                         -- 336
  | .entry => [⟨1, .string, .always⟩, ⟨2, .bytes, .always⟩]

/-! ## Envelopes and their contents: libs/go/aealite/protocols/base.pb.go -/

/-- The messages of base.pb.go, and `google.protobuf.Struct` (google/protobuf/struct.proto). -/
inductive BaseMsg where
  | message | dialogue | envelope | struct | value | listValue | entry
  deriving DecidableEq, Repr

/-- Their fields. -/
def base : Schema BaseMsg
  | .message => [⟨1, .msg .struct, .oneof 0⟩, ⟨2, .msg .dialogue, .oneof 0⟩]             -- 177, 181
  | .dialogue => [⟨1, .int32, .one⟩, ⟨2, .string, .one⟩, ⟨3, .string, .one⟩, ⟨4, .int32, .one⟩,
      ⟨5, .bytes, .one⟩]                                                                -- 34-38
  | .envelope => [⟨1, .string, .one⟩, ⟨2, .string, .one⟩, ⟨3, .string, .one⟩, ⟨4, .bytes, .one⟩,
      ⟨5, .string, .one⟩]                                                               -- 193-197
  | .struct => [⟨1, .msg .entry, .map⟩]
  | .value => [⟨1, .enum, .oneof 0⟩, ⟨2, .double, .oneof 0⟩, ⟨3, .string, .oneof 0⟩, ⟨4, .bool, .oneof 0⟩,
      ⟨5, .msg .struct, .oneof 0⟩, ⟨6, .msg .listValue, .oneof 0⟩]
  | .listValue => [⟨1, .msg .value, .many⟩]
  | .entry => [⟨1, .string, .always⟩, ⟨2, .msg .value, .always⟩]

/-! ## The ACN: libs/go/libp2p_node/protocols/acn/v1_0_0/acn.pb.go -/

/-- The messages of acn.pb.go. -/
inductive AcnMsg where
  | message | record | statusBody | register | lookupRequest | lookupResponse | aeaEnvelope | status
  deriving DecidableEq, Repr

/-- Their fields. -/
def acn : Schema AcnMsg
  | .message => [⟨5, .msg .aeaEnvelope, .oneof 0⟩, ⟨6, .msg .lookupRequest, .oneof 0⟩,
      ⟨7, .msg .lookupResponse, .oneof 0⟩, ⟨8, .msg .register, .oneof 0⟩, ⟨9, .msg .status, .oneof 0⟩]  -- 197-213
  | .record => [⟨1, .string, .one⟩, ⟨2, .string, .one⟩, ⟨3, .string, .one⟩, ⟨4, .string, .one⟩, ⟨5, .string, .one⟩,
      ⟨6, .string, .one⟩, ⟨7, .string, .one⟩, ⟨8, .string, .one⟩]                        -- 232-239
  | .statusBody => [⟨1, .enum, .one⟩, ⟨2, .string, .many⟩]                               -- 335-336
  | .register => [⟨1, .msg .record, .one⟩]                                              -- 391
  | .lookupRequest => [⟨1, .string, .one⟩]                                              -- 438
  | .lookupResponse => [⟨1, .msg .record, .one⟩]                                        -- 485
  | .aeaEnvelope => [⟨1, .bytes, .one⟩, ⟨2, .msg .record, .one⟩]                         -- 532-533
  | .status => [⟨1, .msg .statusBody, .one⟩]                                            -- 587

/-- `AcnMessage_StatusBody_StatusCodeEnum_value`: acn.pb.go:62-74 -/
def acnStatusCodes : List (Bytes × Int) :=
  [(b! "SUCCESS", 0), (b! "ERROR_UNSUPPORTED_VERSION", 1), (b! "ERROR_UNEXPECTED_PAYLOAD", 2),
    (b! "ERROR_GENERIC", 3), (b! "ERROR_DECODE", 4), (b! "ERROR_WRONG_AGENT_ADDRESS", 10),
    (b! "ERROR_WRONG_PUBLIC_KEY", 11), (b! "ERROR_INVALID_PROOF", 12), (b! "ERROR_UNSUPPORTED_LEDGER", 13),
    (b! "ERROR_UNKNOWN_AGENT_ADDRESS", 20), (b! "ERROR_AGENT_NOT_READY", 21)]

end Verif.PB
