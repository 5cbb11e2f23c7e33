import Verif.Spec.Dialogue

/-! What "ended" means for a dialogue, and histories of calls. -/

namespace Verif

/-- A message after which the dialogue is over has been recorded in it. -/
def Ended (rules : RulesDecl) (d : Dialogue) : Prop :=
  ∃ m, (m ∈ d.outgoing ∨ m ∈ d.incoming) ∧ m.performative ∈ rules.terminal

/-- The calls `cs`, each allowed by `P` at its time and none of which crashed the process, lead from `s0` to `s`. -/
inductive CallHistory (P : Sys → Call → Prop) (s0 : Sys) : List Call → Sys → Prop where
  | nil : CallHistory P s0 [] s0
  | snoc {cs : List Call} {s : Sys} (c : Call) : CallHistory P s0 cs s → P s c → (s.call c).2 ≠ .crashed →
      CallHistory P s0 (cs ++ [c]) (s.call c).1

/-- Messages that were processed, accepted or not. -/
def received : List Call → List Message
  | [] => []
  | .update m _ :: cs => m :: received cs
  | _ :: cs => received cs

end Verif
