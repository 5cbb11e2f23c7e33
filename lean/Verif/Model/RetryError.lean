import Verif.Model.Retry

/-!
# The text of the errors collected by retries

`Error.Error` and `lenWithoutNil`: libs/go/aealite/connections/p2pclient.go:299-323, and what
`registerWithRetry` puts there: p2pclient.go:223-231.

An `Error` is a slice of errors; only the text of an error matters, nil is `none`.
-/

namespace Verif

namespace RetryError

/-- `lenWithoutNil`: p2pclient.go:315-323 -/
def lenWithoutNil (e : List (Option Bytes)) : Nat := e.foldl (fun n v => if v.isSome then n + 1 else n) 0

/-- `fmt.Sprintf("%d", n)` -/
def decimal (n : Nat) : Bytes := (Nat.toDigits 10 n).map fun c => UInt8.ofNat c.toNat

/-- `fmt.Sprintf("#%d: %s", i+1, text)` -/
def line (i : Nat) (text : Bytes) : Bytes := b! "#" ++ decimal (i + 1) ++ b! ": " ++ text

/-- The loop: p2pclient.go:306-310. The list is the rest of the errors, from index `i`. -/
def fill : Nat → List (Option Bytes) → List Bytes → Res Empty (List Bytes)
  | _, [], log => .ok log
  | i, none :: es, log => fill (i + 1) es log
  | i, some t :: es, log =>
    if i < log.length then fill (i + 1) es (log.set i (line i t)) else .panic

/-- `strings.Join(lines, "\n")` -/
def joinLines : List Bytes → Bytes
  | [] => []
  | [l] => l
  | l :: ls => l ++ 10 :: joinLines ls

/-- `Error.Error`: p2pclient.go:304-313 -/
def errorText (e : List (Option Bytes)) : Res Empty Bytes :=
  match fill 0 e (List.replicate (lenWithoutNil e) []) with
  | .ok log => .ok (b! "All attempts fail:\n" ++ joinLines log)
  | .err e => nomatch e
  | .panic => .panic

/-- The error of `registerWithRetry`: p2pclient.go:223-231. Nothing makes an `unrecoverableError`, so that
`unpackUnrecoverable`, p2pclient.go:345-351, gives its argument. The slice has one element, and every failed
try writes its error there, as `lastErrIndex` is never changed. The list are the texts of the errors. -/
def collected (failures : List Bytes) : List (Option Bytes) := failures.foldl (fun e t => e.set 0 (some t)) [none]

end RetryError

end Verif
