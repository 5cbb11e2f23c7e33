import Verif.Model.Acn

/-!
# Two sides of a connection

One side writes frames, the other reads them.
-/

namespace Verif

/-- What one side reads is what the other side wrote, in order, cut off at any point; after that
reading fails. -/
def Carries (written : List Bytes) (reads : List (Option Bytes)) : Prop :=
  ∃ got lost rest, written = got ++ lost ∧ reads = got.map some ++ rest ∧ ∀ x ∈ rest, x = none

/-- Two programs run at the two ends of a connection that may break at any time. -/
structure Exchange {α β : Type} (a : PipeM α) (b : PipeM β) (pa pb : Pipe) : Prop where
  fresh : pa.sent = [] ∧ pb.sent = []
  forth : Carries (a pa).2.sent pb.reads
  back : Carries (b pb).2.sent pa.reads
  size : ∀ f ∈ (a pa).2.sent ++ (b pb).2.sent, f.length < 2 ^ 64

/-- The same over a connection that loses nothing and reports no error. -/
structure ReliableExchange {α β : Type} (a : PipeM α) (b : PipeM β) (pa pb : Pipe) : Prop where
  fresh : pa.sent = [] ∧ pb.sent = []
  forth : pb.reads = (a pa).2.sent.map some
  back : pa.reads = (b pb).2.sent.map some
  writes : pa.writes = [true, true] ∧ pb.writes = [true, true]
  size : ∀ f ∈ (a pa).2.sent ++ (b pb).2.sent, f.length < 2 ^ 64

end Verif
