import Verif.Lemmas.Utf8
import Verif.Spec.Texts

/-!
# The tests of the model for texts say what the specification says
-/

namespace Verif

open Proto

theorem AgentRecord.utf8_iff (r : AgentRecord) : r.utf8 = true ↔ ∀ t ∈ r.texts, IsText t := by
  simp only [AgentRecord.utf8, AgentRecord.texts, Bool.and_eq_true, utf8Valid_iff, List.mem_cons,
    List.not_mem_nil, or_false, forall_eq_or_imp, forall_eq]
  simp only [and_assoc]

theorem Envelope.utf8_iff (e : Envelope) : e.utf8 = true ↔ e.Texts := by
  simp only [Envelope.utf8, Envelope.Texts, Bool.and_eq_true, utf8Valid_iff, and_assoc]

theorem AcnMessage.codeFits_iff (m : AcnMessage) : m.all Performative.inRange = true ↔ m.CodeFits := by
  unfold AcnMessage.CodeFits
  rcases m with _ | ⟨_ | _⟩
  case some.status b =>
    cases b with
    | none => simp [Performative.inRange]
    | some b => simp [Performative.inRange, isInt32]; omega
  all_goals simp [Performative.inRange]

theorem AcnMessage.codeFits {m : AcnMessage} (h : m.all Performative.inRange = true) : m.CodeFits :=
  (AcnMessage.codeFits_iff m).1 h

end Verif
