import Verif.Model.Acn

/-!
# Registration with retry

libs/go/aealite/connections/p2pclient.go:208-260 and 375-416.

`time.Duration` is a signed 64-bit number of nanoseconds, represented by an `Int` between -2^63 and
2^63-1; `uint` has 64 bits. The conversion of an integer to `float64` is modelled (53 bits, ties to
even); the logarithm is a parameter, see `FloorLog` in Verif.Props.Retry. The random source is a
parameter. Waiting itself is not modelled, only the time asked for.
-/

namespace Verif

namespace Retry

/-- Interpret 64 bits as a signed number. -/
def toInt64 (n : Nat) : Int :=
  let m : Nat := n % 2 ^ 64
  if m < 2 ^ 63 then (m : Int) else (m : Int) - 2 ^ 64

/-- Interpret a signed number as 64 bits: `uint64(x)`. -/
def toUint64 (x : Int) : Nat := (x % 2 ^ 64).toNat

/-- `float64(d)` of a positive integer below 2^63; the result is a whole number. -/
def toFloat (d : Nat) : Nat :=
  if d < 2 ^ 53 then d
  else
    let s := d.log2 - 52
    let q := d / 2 ^ s
    let r := d % 2 ^ s
    let half := 2 ^ (s - 1)
    (if half < r ∨ (r = half ∧ q % 2 = 1) then q + 1 else q) * 2 ^ s

/-- The parts of `Config` used by the delays: p2pclient.go:361-373. -/
structure Config where
  delay : Int
  maxJitter : Int
  maxBackOffN : Nat
  deriving DecidableEq, Repr

/-- `BackOffDelay`: p2pclient.go:395-411. `log` is `math.Floor(math.Log2(x))`. The shift is one
of 64-bit words, so bits are lost at the top. -/
def backOffDelay (log : Nat → Nat) (n : Nat) (c : Config) : Int × Config :=
  let c := if c.maxBackOffN = 0 then
      let d := if c.delay ≤ 0 then 1 else c.delay
      { c with delay := d, maxBackOffN := toUint64 (62 - (log (toFloat d.toNat) : Int)) }
    else c
  let n := if n > c.maxBackOffN then c.maxBackOffN else n
  (toInt64 (toUint64 c.delay * 2 ^ n), c)

/-- `RandomDelay`: p2pclient.go:413-416. `rand.Int63n` panics if its argument is not positive. -/
def randomDelay (rnd : Nat → Nat) (n : Nat) (c : Config) : Res Empty Int :=
  if c.maxJitter ≤ 0 then .panic else .ok (rnd n % c.maxJitter.toNat : Nat)

/-- One round of `CombineDelay`: p2pclient.go:384-389 -/
def combineStep (total : Nat) (d : Int) : Nat :=
  let t := (total + toUint64 d) % 2 ^ 64
  if t > 2 ^ 63 - 1 then 2 ^ 63 - 1 else t

/-- `CombineDelay`: p2pclient.go:377-393, given the delays to combine. -/
def combineDelay (ds : List Int) : Int := toInt64 (ds.foldl combineStep 0)

/-- `DefaultDelayType`: p2pclient.go:63 -/
def defaultDelay (log : Nat → Nat) (rnd : Nat → Nat) (n : Nat) (c : Config) : Res Empty (Int × Config) :=
  let (b, c) := backOffDelay log n c
  match randomDelay rnd n c with
  | .ok r => .ok (combineDelay [b, r], c)
  | .err e => nomatch e
  | .panic => .panic

/-- The configuration in use: p2pclient.go:212-221. `maxDelay` is not set. -/
def clientConfig : Config := ⟨500000000, 100000000, 0⟩

/-- `retryAttempts`: p2pclient.go:45 -/
def retryAttempts : Nat := 5

/-- How the registration ended: the result, the number of tries, the waiting times, the pipe. -/
structure End where
  result : Res AcnErr Unit
  tries : Nat
  waits : List Int
  pipe : Pipe
  deriving DecidableEq, Repr

/-- The loop: p2pclient.go:227-254; `fuel` is the number of tries left. -/
def retryLoop (log rnd : Nat → Nat) (attempt : PipeM Unit) :
    (fuel n : Nat) → Config → List Int → Option AcnErr → Pipe → End
  | 0, n, _, waits, last, p => ⟨match last with | some e => .err e | none => .panic, n, waits, p⟩
  | fuel + 1, n, c, waits, _, p =>
    match attempt p with
    | (.ok (), p) => ⟨.ok (), n + 1, waits, p⟩
    | (.panic, p) => ⟨.panic, n + 1, waits, p⟩
    | (.err e, p) =>
      if n = retryAttempts - 1 then ⟨.err e, n + 1, waits, p⟩
      else
        match defaultDelay log rnd n c with
        | .ok (d, c) => retryLoop log rnd attempt fuel (n + 1) c (waits ++ [d]) (some e) p
        | .err e => nomatch e
        | .panic => ⟨.panic, n + 1, waits, p⟩

/-- `registerWithRetry`: p2pclient.go:208-256. The reported error has one slot, which holds the
error of the last try. -/
def withRetry (log rnd : Nat → Nat) (attempt : PipeM Unit) (p : Pipe) : End :=
  retryLoop log rnd attempt retryAttempts 0 clientConfig [] none p

/-- `registerWithRetry` of a client: the try is `register`, p2pclient.go:258-260. -/
def registerWithRetry (log rnd : Nat → Nat) (record : AgentRecord) (p : Pipe) : End :=
  withRetry log rnd (Acn.sendRegister (some record)) p

end Retry

end Verif
