import Verif.Props.GoPrims

/-!
# C91: the keys, addresses and signatures of the repository's own tests

Evaluations of the model, not proofs about all inputs: they compare the functions that are written out from published
standards with what the libraries gave when the tests were written.
-/

namespace Verif

/-- libs/go/libp2p_node/utils/utils_test.go:46-50 -/
def vectorEthKey : Bytes := b! "0xf753e5a9e2368e97f4db869a0d956d3ffb64672d6392670572906c786b5712ada13b6bff882951b3ba3dd65bdacc915c2b532efc3f183aa44657205c6c337225"

/-- utils_test.go:49-57 -/
theorem vector_eth_address :
    ethAddress (goPrims true) vectorEthKey = .ok (b! "0xb8d8c62d4a1999b7aea0aebBD5020244a4a9bAD8") := by
  decide +kernel

/-- utils_test.go:50, 78: the key that is recovered is the key of the text -/
theorem vector_eth_signature : verifyEth (goPrims true) vectorEthKey (b! "0x304c2ba4ae7fa71295bfc2920b9c1268d574d65531f1f4d2117fc1439a45310c37ab75085a9df2a4169a4d47982b330a4387b1ded0c8881b030629db30bbaf3a1c") vectorEthKey = .ok true := by
  decide +kernel

/-- utils_test.go:89-97 -/
theorem vector_fetch_address : addressOf (goPrims true) (b! "fetchai")
    (b! "02358e3e42a6ba15cf6b2ba6eb05f02b8893acf82b316d7dd9cda702b0892b8c71") =
    .ok (b! "fetch19dq2mkcpp6x0aypxt9c9gz6n4fqvax0x9a7t5r") := by decide +kernel

/-- utils_test.go:101-115 -/
theorem vector_fetch_signature :
    verifyFetchAI (goPrims true) (b! "027af21aff853b9d9589867ea142b0a60a9611fc8e1fae04c2f7144113fa4e938e")
    (b! "N/GOa7/m3HU8/gpLJ88VCQ6vXsdrfiiYcqnNtF+c2N9VG9ZIiycykN4hdbpbOCGrChMYZQA3G1GpozsShrUBgg==")
    (b! "02358e3e42a6ba15cf6b2ba6eb05f02b8893acf82b316d7dd9cda702b0892b8c71") = .ok true := by decide +kernel

/-- utils_test.go:281-287 -/
theorem vector_public : publicTextOf (b! "3e7a1f43b2d8a4b9f63a2ffeb1d597f971a8db7ffd95453173268b453106cadc") =
    some (b! "03b7e977f498dce004e2614764ff576e17cc6691135497e7bcb5d3441e816ba9e1") := by decide +kernel

/-- libs/go/aealite/test_env_file.env: the signature of the proof of representation is the one this key makes. -/
theorem vector_sign : goSign 1 (b! "0217a59bd805c310aca4febe0e99ce22ee3712ae085dc1e5630430b1e15a584bb7")
    (b! "6d8d2b87d987641e2ca3f1991c1cccf08a118759e81fabdbf7e8484f27af015e") =
    some (b! "avzHfL/fjMidvweJJKjtBUiqJ2+6aDUq8MoNRBi9nDI/lWleIX3ftRf6Sx5UWmxcS0SW03IVrf1iKTXA5zeA0g==") := by
  decide +kernel

/-- A text with other unused bits and an end of line. -/
example : base64Decode (b! "TQ==") = some [77] ∧ base64Decode (b! "TR==") = some [77] ∧
    base64Decode (b! "T\nQ==") = some [77] ∧ base64Decode (b! "TQ=") = none ∧ base64Decode (b! "TWFu") = some (b! "Man") := by
  decide

end Verif
