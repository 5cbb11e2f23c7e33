import Verif.Model.Retry

/-!
# C40: number of tries, reported error and delays
-/

namespace Verif

open Retry

/-! ## The loop -/

/-- Successive tries that fail with the given errors and leave the pipe as given. -/
inductive Fails (attempt : PipeM Unit) : Pipe → List AcnErr → Pipe → Prop
  | nil (p : Pipe) : Fails attempt p [] p
  | cons {p p' p'' : Pipe} {e : AcnErr} {es : List AcnErr} :
      attempt p = (.err e, p') → Fails attempt p' es p'' → Fails attempt p (e :: es) p''

/-- A logarithm rounded down, as far as floating point gives it: exact for powers of two, otherwise
possibly rounded up to the next whole number. -/
structure FloorLog (log : Nat → Nat) : Prop where
  pow : ∀ k, log (2 ^ k) = k
  lower : ∀ x, 0 < x → x.log2 ≤ log x
  upper : ∀ x, 0 < x → log x ≤ x.log2 + 1

/-! ### Arithmetic -/

theorem toUint64_of_nonneg {x : Int} (h0 : 0 ≤ x) (h1 : x < 2 ^ 64) : toUint64 x = x.toNat := by
  unfold toUint64
  rw [Int.emod_eq_of_lt h0 h1]

theorem toInt64_of_lt {n : Nat} (h : n < 2 ^ 63) : toInt64 n = (n : Int) := by
  unfold toInt64
  have : n % 2 ^ 64 = n := Nat.mod_eq_of_lt (by omega)
  simp only [this, if_pos h]

theorem log2_spec {d : Nat} (h : d ≠ 0) : 2 ^ d.log2 ≤ d ∧ d < 2 ^ (d.log2 + 1) :=
  ⟨Nat.log2_self_le h, Nat.lt_log2_self⟩

theorem log2_eq {d k : Nat} (h1 : 2 ^ k ≤ d) (h2 : d < 2 ^ (k + 1)) : d.log2 = k := by
  have h0 : d ≠ 0 := by have := Nat.two_pow_pos k; omega
  have h3 := (Nat.le_log2 h0).2 h1
  have h4 := (Nat.log2_lt h0).2 h2
  omega

/-- Rounding stays between the neighbouring powers of two. -/
theorem toFloat_bounds {d k : Nat} (h1 : 2 ^ k ≤ d) (h2 : d < 2 ^ (k + 1)) :
    2 ^ k ≤ toFloat d ∧ toFloat d ≤ 2 ^ (k + 1) := by
  unfold toFloat
  split
  · exact ⟨h1, by omega⟩
  · rename_i hd
    have hk : 53 ≤ k := by
      rcases Nat.lt_or_ge k 53 with h | h
      · have : 2 ^ (k + 1) ≤ 2 ^ 53 := Nat.pow_le_pow_right (by decide) h
        omega
      · exact h
    simp only [log2_eq h1 h2]
    have hs : k = 52 + (k - 52) := by omega
    generalize k - 52 = s at *
    have hpos := Nat.two_pow_pos s
    have e1 : 2 ^ k = 2 ^ 52 * 2 ^ s := by rw [hs, Nat.pow_add]
    have e2 : 2 ^ (k + 1) = 2 ^ 53 * 2 ^ s := by
      rw [show k + 1 = 53 + s by omega, Nat.pow_add]
    have hq1 : 2 ^ 52 ≤ d / 2 ^ s := (Nat.le_div_iff_mul_le hpos).2 (by rw [← e1]; exact h1)
    have hq2 : d / 2 ^ s < 2 ^ 53 := (Nat.div_lt_iff_lt_mul hpos).2 (by rw [← e2]; exact h2)
    rw [e1, e2]
    constructor
    · apply Nat.mul_le_mul_right
      split <;> omega
    · apply Nat.mul_le_mul_right
      split <;> omega

/-- The exponent used for a delay is the exact one or the next. -/
theorem log_bounds {log : Nat → Nat} (hlog : FloorLog log) {d : Nat} (hd : d ≠ 0) :
    d.log2 ≤ log (toFloat d) ∧ log (toFloat d) ≤ d.log2 + 1 := by
  obtain ⟨h1, h2⟩ := log2_spec hd
  obtain ⟨h3, h4⟩ := toFloat_bounds h1 h2
  have hp := Nat.two_pow_pos d.log2
  rcases Nat.lt_or_ge (toFloat d) (2 ^ (d.log2 + 1)) with h | h
  · have hl := log2_eq h3 h
    have := hlog.lower (toFloat d) (by omega)
    have := hlog.upper (toFloat d) (by omega)
    omega
  · have : toFloat d = 2 ^ (d.log2 + 1) := by omega
    rw [this, hlog.pow]
    omega

/-! ### Delays -/

/-- The delay that a configuration stands for: not positive counts as one nanosecond. -/
def effective (d : Int) : Nat := if d ≤ 0 then 1 else d.toNat

theorem effective_pos (d : Int) : 0 < effective d := by unfold effective; split <;> omega

/-- A configuration as made by the client or as left by earlier calls. -/
structure DelaySettled (log : Nat → Nat) (d : Nat) (c : Config) : Prop where
  range : 0 < d ∧ d < 2 ^ 63 ∧ log (toFloat d) ≤ 62
  state : (c.maxBackOffN = 0 ∧ effective c.delay = d) ∨
    (c.maxBackOffN = 62 - log (toFloat d) ∧ c.delay = (d : Int))

theorem backOff_settled {log : Nat → Nat} (hlog : FloorLog log) {d : Nat} {c : Config}
    (h : DelaySettled log d c) (n : Nat) :
    (backOffDelay log n c).1 = (d * 2 ^ min n (62 - log (toFloat d)) : Nat) ∧
    d * 2 ^ min n (62 - log (toFloat d)) < 2 ^ 63 ∧
    DelaySettled log d (backOffDelay log n c).2 := by
  obtain ⟨⟨hd0, hd1, hl⟩, hst⟩ := h
  have hb := log_bounds hlog (d := d) (by omega)
  have h2 := (log2_spec (d := d) (by omega)).2
  have hlt : d * 2 ^ min n (62 - log (toFloat d)) < 2 ^ 63 := by
    have e1 : 2 ^ min n (62 - log (toFloat d)) ≤ 2 ^ (62 - d.log2) :=
      Nat.pow_le_pow_right (by decide) (by omega)
    calc d * 2 ^ min n (62 - log (toFloat d)) ≤ d * 2 ^ (62 - d.log2) := Nat.mul_le_mul_left _ e1
      _ < 2 ^ (d.log2 + 1) * 2 ^ (62 - d.log2) := Nat.mul_lt_mul_of_pos_right h2 (Nat.two_pow_pos _)
      _ = 2 ^ 63 := by rw [← Nat.pow_add]; congr 1; omega
  have hu : toUint64 (62 - (log (toFloat d) : Int)) = 62 - log (toFloat d) := by
    rw [toUint64_of_nonneg (by omega) (by omega)]; omega
  have hconf : (if c.maxBackOffN = 0 then
      { c with delay := (if c.delay ≤ 0 then 1 else c.delay),
               maxBackOffN := toUint64 (62 - (log (toFloat (if c.delay ≤ 0 then 1 else c.delay : Int).toNat) : Int)) }
      else c) = { c with delay := (d : Int), maxBackOffN := 62 - log (toFloat d) } := by
    rcases hst with ⟨h0, he⟩ | ⟨h0, he⟩
    · rw [if_pos h0]
      have hd : (if c.delay ≤ 0 then 1 else c.delay : Int) = (d : Int) := by
        unfold effective at he
        split <;> rename_i hc
        · rw [if_pos hc] at he; omega
        · rw [if_neg hc] at he; omega
      rw [hd, Int.toNat_natCast, hu]
    · split
      · rename_i hz
        have hd : (if c.delay ≤ 0 then 1 else c.delay : Int) = (d : Int) := by
          rw [he, if_neg (by omega)]
        rw [hd, Int.toNat_natCast, hu]
      · rw [← h0, ← he]
  have hmin : (if n > 62 - log (toFloat d) then 62 - log (toFloat d) else n) =
      min n (62 - log (toFloat d)) := by
    split <;> omega
  simp only [backOffDelay, hconf, hmin]
  refine ⟨?_, hlt, ⟨⟨hd0, hd1, hl⟩, .inr ⟨rfl, rfl⟩⟩⟩
  rw [toUint64_of_nonneg (by omega) (by omega), Int.toNat_natCast, toInt64_of_lt hlt]

/-- Call `BackOffDelay` for the attempt numbers given, with one configuration. -/
def backOffs (log : Nat → Nat) : List Nat → Config → List Int
  | [], _ => []
  | n :: ns, c => (backOffDelay log n c).1 :: backOffs log ns (backOffDelay log n c).2

/-- **C40, back-off.** For every delay whose exponent is at most 62, and every sequence of attempt
numbers: every delay is the configured one times a power of two, positive and within 64 bits; the power is
the attempt number up to a limit, from there on constant. -/
theorem C40_backoff_partial {log : Nat → Nat} (hlog : FloorLog log) (delay jitter : Int)
    (hmax : delay < 2 ^ 63) (hexp : log (toFloat (effective delay)) ≤ 62) (ns : List Nat) :
    backOffs log ns ⟨delay, jitter, 0⟩ = ns.map (fun n =>
      ((effective delay * 2 ^ min n (62 - log (toFloat (effective delay))) : Nat) : Int)) ∧
    ∀ x ∈ backOffs log ns ⟨delay, jitter, 0⟩, 0 < x ∧ x < 2 ^ 63 := by
  have hd := effective_pos delay
  have hd1 : effective delay < 2 ^ 63 := by unfold effective; split <;> omega
  have hset : DelaySettled log (effective delay) ⟨delay, jitter, 0⟩ := ⟨⟨hd, hd1, hexp⟩, .inl ⟨rfl, rfl⟩⟩
  generalize (⟨delay, jitter, 0⟩ : Config) = c at hset
  generalize effective delay = d at *
  induction ns generalizing c with
  | nil => simp [backOffs]
  | cons n ns ih =>
    obtain ⟨h1, h2, h3⟩ := backOff_settled hlog hset n
    obtain ⟨i1, i2⟩ := ih _ h3
    constructor
    · rw [backOffs, h1, i1, List.map_cons]
    · intro x hx
      rw [backOffs, h1] at hx
      rcases List.mem_cons.1 hx with rfl | hx
      · have : 0 < d * 2 ^ min n (62 - log (toFloat d)) := Nat.mul_pos hd (Nat.two_pow_pos _)
        omega
      · exact i2 x hx

/-- The exponent is at most 62 at least for delays below 2^62 nanoseconds, 146 years. -/
theorem C40_exponent_small {log : Nat → Nat} (hlog : FloorLog log) (delay : Int)
    (h : delay < 2 ^ 62) : log (toFloat (effective delay)) ≤ 62 := by
  have hd := effective_pos delay
  have hd1 : effective delay < 2 ^ 62 := by unfold effective; split <;> omega
  have := (log_bounds hlog (d := effective delay) (by omega)).2
  have := (Nat.log2_lt (by omega)).2 hd1
  omega

set_option exponentiation.threshold 100 in
/-- **C40 is false** of very large delays: the largest delay is converted to 2^63, its exponent is 63,
the limit wraps around, and the delays of the second and later tries are negative or zero. -/
theorem C40_overflow_counterexample {log : Nat → Nat} (hlog : FloorLog log) :
    (backOffDelay log 0 ⟨2 ^ 63 - 1, 1, 0⟩).1 = 2 ^ 63 - 1 ∧
    (backOffDelay log 1 ⟨2 ^ 63 - 1, 1, 0⟩).1 = -2 ∧
    (backOffDelay log 64 ⟨2 ^ 63 - 1, 1, 0⟩).1 = 0 := by
  have hf : toFloat (2 ^ 63 - 1 : Int).toNat = 2 ^ 63 := by decide
  have hif : (if (2 ^ 63 - 1 : Int) ≤ 0 then (1 : Int) else 2 ^ 63 - 1) = 2 ^ 63 - 1 := by decide
  simp only [backOffDelay, if_true, hif, hf, hlog.pow]
  decide

/-- **C40, jitter.** `RandomDelay` crashes exactly if the jitter is not positive, otherwise the delay is
at least zero and below the jitter. -/
theorem C40_jitter_in_range (rnd : Nat → Nat) (n : Nat) (c : Config) :
    (randomDelay rnd n c = .panic ↔ c.maxJitter ≤ 0) ∧
    ∀ r, randomDelay rnd n c = .ok r → 0 ≤ r ∧ r < c.maxJitter := by
  unfold randomDelay
  split
  · rename_i h; simp [h]
  · rename_i h
    refine ⟨by simp [h], ?_⟩
    intro r hr
    simp only [Res.ok.injEq] at hr
    subst hr
    have := Nat.mod_lt (rnd n) (show 0 < c.maxJitter.toNat by omega)
    omega

/-- **C40, combination.** The combined delay is never negative and fits 64 bits, whatever the delays;
if none of them is negative it is their sum, limited to the largest delay. -/
theorem C40_combine_in_range (ds : List Int) :
    0 ≤ combineDelay ds ∧ combineDelay ds < 2 ^ 63 ∧
    ((∀ d ∈ ds, 0 ≤ d ∧ d < 2 ^ 63) → combineDelay ds = min ds.sum (2 ^ 63 - 1)) := by
  have hstep : ∀ (ds : List Int) (t : Nat), t < 2 ^ 63 → ds.foldl combineStep t < 2 ^ 63 := by
    intro ds
    induction ds with
    | nil => intro t h; exact h
    | cons d ds ih =>
      intro t _
      apply ih
      unfold combineStep
      dsimp only
      split <;> omega
  have hsum : ∀ (ds : List Int) (t : Nat), t < 2 ^ 63 → (∀ d ∈ ds, 0 ≤ d ∧ d < 2 ^ 63) →
      0 ≤ ds.sum ∧ ((ds.foldl combineStep t : Nat) : Int) = min (t + ds.sum) (2 ^ 63 - 1) := by
    intro ds
    induction ds with
    | nil => intro t h _; simp; omega
    | cons d ds ih =>
      intro t ht hd
      have hd1 := hd d (by simp)
      have hs : combineStep t d < 2 ^ 63 := by unfold combineStep; dsimp only; split <;> omega
      obtain ⟨i1, i2⟩ := ih (combineStep t d) hs fun x hx => hd x (List.mem_cons_of_mem _ hx)
      rw [List.foldl_cons, i2, List.sum_cons]
      refine ⟨by omega, ?_⟩
      have : combineStep t d = min (t + d.toNat) (2 ^ 63 - 1) := by
        unfold combineStep
        rw [toUint64_of_nonneg hd1.1 (by omega)]
        dsimp only
        have : (t + d.toNat) % 2 ^ 64 = t + d.toNat := Nat.mod_eq_of_lt (by omega)
        rw [this]
        split <;> omega
      rw [this]
      omega
  have h1 := hstep ds 0 (by decide)
  unfold combineDelay
  rw [toInt64_of_lt h1]
  refine ⟨by omega, by omega, fun h => ?_⟩
  have := (hsum ds 0 (by decide) h).2
  rw [this]; simp

/-- The delay of the client before try `n + 2`. -/
theorem client_delay {log rnd : Nat → Nat} (hlog : FloorLog log) {c : Config}
    (h : DelaySettled log 500000000 c) (hj : c.maxJitter = 100000000) {n : Nat} (hn : n < 5) :
    ∃ d c', defaultDelay log rnd n c = .ok (d, c') ∧ DelaySettled log 500000000 c' ∧
      c'.maxJitter = 100000000 ∧ 500000000 * 2 ^ n ≤ d ∧ d < 500000000 * 2 ^ n + 100000000 := by
  obtain ⟨h1, h2, h3⟩ := backOff_settled hlog h n
  have hjit : (backOffDelay log n c).2.maxJitter = 100000000 := by
    unfold backOffDelay
    dsimp only
    split <;> exact hj
  have hl := log_bounds hlog (d := 500000000) (by decide)
  have hlog28 : Nat.log2 500000000 = 28 := by decide
  have hmin : min n (62 - log (toFloat 500000000)) = n := by omega
  rw [hmin] at h1 h2
  generalize hb : backOffDelay log n c = bc at *
  obtain ⟨b, c'⟩ := bc
  dsimp only at *
  have hr : randomDelay rnd n c' = .ok ((rnd n % 100000000 : Nat) : Int) := by
    unfold randomDelay
    rw [hjit, if_neg (by decide)]; rfl
  have hm := Nat.mod_lt (rnd n) (show 0 < 100000000 by decide)
  refine ⟨combineDelay [b, (rnd n % 100000000 : Nat)], c', ?_, h3, hjit, ?_⟩
  · simp only [defaultDelay, hb, hr]
  · have hn16 : 2 ^ n ≤ 2 ^ 4 := Nat.pow_le_pow_right (by decide) (by omega)
    generalize hp : 2 ^ n = q at *
    have hc : ((2 : Int) ^ n) = (q : Int) := by rw [← hp]; simp
    have := (C40_combine_in_range [b, ((rnd n % 100000000 : Nat) : Int)]).2.2 (by
      intro d hd
      simp only [List.mem_cons, List.not_mem_nil, or_false] at hd
      rcases hd with rfl | rfl
      · rw [h1]; omega
      · omega)
    rw [this, h1, hc]
    simp only [List.sum_cons, List.sum_nil]
    omega

/-- The waiting times allowed: the `i`-th between 0.5 s times 2^i and 0.1 s more. -/
def WaitsFrom (i : Nat) : List Int → Prop
  | [] => True
  | d :: ds => 500000000 * 2 ^ i ≤ d ∧ d < 500000000 * 2 ^ i + 100000000 ∧ WaitsFrom (i + 1) ds

theorem waitsFrom_snoc (ds : List Int) (d : Int) (i : Nat) (h : WaitsFrom i ds)
    (h1 : 500000000 * 2 ^ (i + ds.length) ≤ d)
    (h2 : d < 500000000 * 2 ^ (i + ds.length) + 100000000) : WaitsFrom i (ds ++ [d]) := by
  induction ds generalizing i with
  | nil => exact ⟨h1, h2, trivial⟩
  | cons x xs ih =>
    obtain ⟨a, b, c⟩ := h
    refine ⟨a, b, ih (i + 1) c ?_ ?_⟩
    · rw [show i + 1 + xs.length = i + (x :: xs).length by simp; omega]; exact h1
    · rw [show i + 1 + xs.length = i + (x :: xs).length by simp; omega]; exact h2

/-- The loop along the failing tries. -/
theorem retryLoop_fails {log rnd : Nat → Nat} (hlog : FloorLog log) {attempt : PipeM Unit}
    {p p' : Pipe} {es : List AcnErr} (hf : Fails attempt p es p') :
    ∀ (n : Nat) (c : Config) (waits : List Int) (last : Option AcnErr),
      n + es.length < 5 → waits.length = n → DelaySettled log 500000000 c → c.maxJitter = 100000000 →
      WaitsFrom 0 waits →
      ∃ c' waits' last', retryLoop log rnd attempt (5 - n) n c waits last p =
          retryLoop log rnd attempt (5 - (n + es.length)) (n + es.length) c' waits' last' p' ∧
        waits'.length = n + es.length ∧ WaitsFrom 0 waits' ∧ DelaySettled log 500000000 c' ∧
        c'.maxJitter = 100000000 := by
  induction hf with
  | nil p => intro n c waits last _ hw hs hj hwf; exact ⟨c, waits, last, rfl, hw, hwf, hs, hj⟩
  | @cons p p1 p2 e es hat _ ih =>
    intro n c waits last hn hw hs hj hwf
    simp only [List.length_cons] at hn
    obtain ⟨d, c1, hd, hs1, hj1, hd1, hd2⟩ := client_delay (rnd := rnd) hlog hs hj (n := n) (by omega)
    obtain ⟨c', waits', last', h1, h2, h3, h4, h5⟩ := ih (n + 1) c1 (waits ++ [d]) (some e) (by omega)
      (by simp [hw]) hs1 hj1 (waitsFrom_snoc waits d 0 hwf (by rw [Nat.zero_add, hw]; exact hd1)
        (by rw [Nat.zero_add, hw]; exact hd2))
    refine ⟨c', waits', last', ?_, ?_, h3, h4, h5⟩
    · rw [show 5 - n = (5 - (n + 1)) + 1 by omega]
      rw [retryLoop]
      simp only [hat, retryAttempts, hd]
      rw [if_neg (by omega), h1]
      simp only [List.length_cons]
      rw [show n + 1 + es.length = n + (es.length + 1) by omega]
    · rw [h2]; simp only [List.length_cons]; omega

theorem settled_client {log : Nat → Nat} (hlog : FloorLog log) :
    DelaySettled log 500000000 clientConfig := by
  refine ⟨⟨by decide, by decide, ?_⟩, .inl ⟨rfl, rfl⟩⟩
  have hl := log_bounds hlog (d := 500000000) (by decide)
  have hlog28 : Nat.log2 500000000 = 28 := by decide
  omega

/-- **C40, the loop.** For every behaviour of the node, exactly one of the following holds.
The first success ends the loop, after at most five tries. Five failures end it with the error of the
last. A crash in a try ends it. Between two tries there is one wait, of 0.5 s times a power of two,
plus less than 0.1 s; the number of waits is one less than the number of tries. -/
theorem C40_tries {log rnd : Nat → Nat} (hlog : FloorLog log) (attempt : PipeM Unit) (p : Pipe) :
    WaitsFrom 0 (withRetry log rnd attempt p).waits ∧
    (withRetry log rnd attempt p).waits.length + 1 = (withRetry log rnd attempt p).tries ∧
    ∃ es p', Fails attempt p es p' ∧
      ((∃ p'', es.length < 5 ∧ attempt p' = (.ok (), p'') ∧
          (withRetry log rnd attempt p).result = .ok () ∧
          (withRetry log rnd attempt p).tries = es.length + 1 ∧
          (withRetry log rnd attempt p).pipe = p'') ∨
       (∃ p'', es.length < 5 ∧ attempt p' = (.panic, p'') ∧
          (withRetry log rnd attempt p).result = .panic ∧
          (withRetry log rnd attempt p).tries = es.length + 1) ∨
       (∃ e, es.length = 5 ∧ es.getLast? = some e ∧ (withRetry log rnd attempt p).result = .err e ∧
          (withRetry log rnd attempt p).tries = 5 ∧ (withRetry log rnd attempt p).pipe = p')) := by
  -- the longest failing beginning of at most four tries
  have hex : ∀ k, ∃ es p', Fails attempt p es p' ∧
      (es.length = k ∨ (es.length < k ∧ ∀ e p'', attempt p' ≠ (.err e, p''))) := by
    intro k
    have snoc : ∀ {p p' p'' : Pipe} {es : List AcnErr} {e : AcnErr}, Fails attempt p es p' →
        attempt p' = (.err e, p'') → Fails attempt p (es ++ [e]) p'' := by
      intro p p' p'' es e hf
      induction hf with
      | nil => intro h; exact .cons h (.nil _)
      | cons h _ ih => intro h'; exact .cons h (ih h')
    induction k with
    | zero => exact ⟨[], p, .nil p, .inl rfl⟩
    | succ k ih =>
      obtain ⟨es, p', h1, h2 | ⟨h2, h3⟩⟩ := ih
      · generalize ha : attempt p' = r
        obtain ⟨r, p''⟩ := r
        cases r with
        | err e => exact ⟨es ++ [e], p'', snoc h1 ha, .inl (by simp [h2])⟩
        | ok u => exact ⟨es, p', h1, .inr ⟨by omega, by rw [ha]; simp⟩⟩
        | panic => exact ⟨es, p', h1, .inr ⟨by omega, by rw [ha]; simp⟩⟩
      · exact ⟨es, p', h1, .inr ⟨by omega, h3⟩⟩
  obtain ⟨es, p', hf, hend⟩ := hex 4
  have hlen : es.length < 5 := by rcases hend with h | h <;> omega
  obtain ⟨c', waits', last', h1, h2, h3, h4, h5⟩ := retryLoop_fails (rnd := rnd) hlog hf 0 clientConfig []
    none (by omega) rfl (settled_client hlog) rfl trivial
  simp only [Nat.zero_add, Nat.sub_zero] at h1 h2
  have hrun : withRetry log rnd attempt p =
      retryLoop log rnd attempt (5 - es.length) es.length c' waits' last' p' := h1
  rw [hrun, show 5 - es.length = (4 - es.length) + 1 by omega, retryLoop]
  generalize ha : attempt p' = r
  obtain ⟨r, p''⟩ := r
  cases r with
  | ok u =>
    refine ⟨h3, by simp [h2], es, p', hf, .inl ⟨p'', hlen, ?_, rfl, rfl, rfl⟩⟩
    rw [ha]
  | panic =>
    exact ⟨h3, by simp [h2], es, p', hf, .inr (.inl ⟨p'', hlen, ha, rfl, rfl⟩)⟩
  | err e =>
    have h4 : es.length = 4 := by
      rcases hend with h | ⟨_, h⟩
      · exact h
      · exact absurd ha (h e p'')
    have snoc : ∀ {p p' p'' : Pipe} {es : List AcnErr} {e : AcnErr}, Fails attempt p es p' →
        attempt p' = (.err e, p'') → Fails attempt p (es ++ [e]) p'' := by
      intro p p' p'' es e hf
      induction hf with
      | nil => intro h; exact .cons h (.nil _)
      | cons h _ ih => intro h'; exact .cons h (ih h')
    simp only [retryAttempts, h4, if_true]
    refine ⟨h3, by simp [h2, h4], es ++ [e], p'', snoc hf ha, .inr (.inr ⟨e, by simp [h4], by simp, ?_, ?_, ?_⟩)⟩ <;> simp

/-- All waits together take less than eight seconds. -/
theorem C40_total_wait {log rnd : Nat → Nat} (hlog : FloorLog log) (attempt : PipeM Unit) (p : Pipe) :
    (withRetry log rnd attempt p).waits.sum < 8000000000 ∧
    ∀ d ∈ (withRetry log rnd attempt p).waits, 500000000 ≤ d ∧ d < 4100000000 := by
  obtain ⟨hw, hl, es, p', _, h⟩ := C40_tries (rnd := rnd) hlog attempt p
  have htr : (withRetry log rnd attempt p).tries ≤ 5 := by
    rcases h with ⟨_, h1, _, _, h2, _⟩ | ⟨_, h1, _, _, h2⟩ | ⟨_, _, _, _, h2, _⟩ <;> omega
  generalize (withRetry log rnd attempt p).waits = ws at *
  have hlen : ws.length ≤ 4 := by omega
  rcases ws with _ | ⟨a, _ | ⟨b, _ | ⟨c, _ | ⟨d, _ | ⟨e, _⟩⟩⟩⟩⟩
  · simp
  all_goals simp [WaitsFrom] at hw hlen ⊢
  all_goals omega

/-! ## A case -/

/-- A logarithm as required: the exact one. -/
theorem floorLog_log2 : FloorLog Nat.log2 :=
  ⟨fun k => log2_eq (Nat.le_refl _) (Nat.pow_lt_pow_right (by decide) (by omega)), fun _ _ => Nat.le_refl _,
    fun _ _ => Nat.le_succ _⟩

/-- Two refusals, then success: three tries, two waits. -/
example : (withRetry Nat.log2 (fun n => n) (fun p =>
      match p.writes with
      | true :: r => (.ok (), { p with writes := r })
      | _ :: r => (.err .timeout, { p with writes := r })
      | [] => (.err .write, p)) ⟨[], [false, false, true, true], []⟩) =
    ⟨.ok (), 3, [500000000, 1000000001], ⟨[], [true], []⟩⟩ := by decide

end Verif
