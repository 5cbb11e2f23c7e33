import Verif.Model.Definitions
import Verif.Model.PoR

/-!
# C86: the codes of a status are those of the definition
-/

namespace Verif

/-- The names of the constants of acn.pb.go:30-45. -/
def StatusCode.name : StatusCode → Bytes
  | .success => b! "SUCCESS"
  | .errorUnsupportedVersion => b! "ERROR_UNSUPPORTED_VERSION"
  | .errorUnexpectedPayload => b! "ERROR_UNEXPECTED_PAYLOAD"
  | .errorGeneric => b! "ERROR_GENERIC"
  | .errorDecode => b! "ERROR_DECODE"
  | .errorWrongAgentAddress => b! "ERROR_WRONG_AGENT_ADDRESS"
  | .errorWrongPublicKey => b! "ERROR_WRONG_PUBLIC_KEY"
  | .errorInvalidProof => b! "ERROR_INVALID_PROOF"
  | .errorUnsupportedLedger => b! "ERROR_UNSUPPORTED_LEDGER"
  | .errorUnknownAgentAddress => b! "ERROR_UNKNOWN_AGENT_ADDRESS"
  | .errorAgentNotReady => b! "ERROR_AGENT_NOT_READY"

/-- **C86.** The number of a code on the wire is the one the definition gives its name, the definition has no other
names, and different codes have different numbers. -/
theorem C86_status_codes :
    (∀ c : StatusCode, PB.acnStatusCodes.lookup c.name = some c.toInt) ∧
    (∀ e ∈ PB.acnStatusCodes, ∃ c : StatusCode, e = (c.name, c.toInt)) ∧
    ∀ c c' : StatusCode, c.toInt = c'.toInt → c = c' := by
  refine ⟨by intro c; cases c <;> decide, ?_, by intro c c'; cases c <;> cases c' <;> decide⟩
  intro e he
  simp only [PB.acnStatusCodes, List.mem_cons, List.not_mem_nil, or_false] at he
  rcases he with h | h | h | h | h | h | h | h | h | h | h
  · exact ⟨.success, h⟩
  · exact ⟨.errorUnsupportedVersion, h⟩
  · exact ⟨.errorUnexpectedPayload, h⟩
  · exact ⟨.errorGeneric, h⟩
  · exact ⟨.errorDecode, h⟩
  · exact ⟨.errorWrongAgentAddress, h⟩
  · exact ⟨.errorWrongPublicKey, h⟩
  · exact ⟨.errorInvalidProof, h⟩
  · exact ⟨.errorUnsupportedLedger, h⟩
  · exact ⟨.errorUnknownAgentAddress, h⟩
  · exact ⟨.errorAgentNotReady, h⟩

end Verif
