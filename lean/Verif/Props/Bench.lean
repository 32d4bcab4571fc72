import Verif.Props.SelfTest
import Verif.Proof.Bench
import Mathlib.Tactic.NormNum

/-! # C58: the benchmark and `main` of the test program -/

namespace Frodo.Props

open Spec

/-! ## What a measurement should find -/

/-- The time that passes between two readings of the clock, in microseconds. -/
def elapsedMicros (p : Reading × Reading) : Int :=
  (p.2.sec - p.1.sec) * 1000000 + (p.2.usec - p.1.usec)

/-- The count that passes between two readings of the counter of the processor, as the variants of `rdtsc`
show it: all of it, modulo 2^32, or only its high half. -/
def elapsedCycles (k : Counter) (p : Reading × Reading) : Int :=
  match k with
  | .full => (p.2.tsc.toNat : Int) - p.1.tsc.toNat
  | .low => ((p.2.tsc.toNat : Int) - p.1.tsc.toNat) % 2 ^ 32
  | .high => ((p.2.tsc.toNat : Int) / 2 ^ 32 - (p.1.tsc.toNat : Int) / 2 ^ 32) % 2 ^ 32
  | .none => 0

/-- The microseconds of the readings and their difference can be held by a `long` of `w` bits. -/
structure TimeFits (w : Nat) (p : Reading × Reading) : Prop where
  start1 : FitsLong w (p.1.sec * 1000000)
  start2 : FitsLong w (p.1.sec * 1000000 + p.1.usec)
  stop1 : FitsLong w (p.2.sec * 1000000)
  stop2 : FitsLong w (p.2.sec * 1000000 + p.2.usec)
  diff : FitsLong w (elapsedMicros p)

/-- If all of the counter is read, it does not wrap around during the operation (and the operation takes
less than 2^63 counts). -/
def NoWrap (k : Counter) (p : Reading × Reading) : Prop :=
  k = .full → p.1.tsc.toNat ≤ p.2.tsc.toNat ∧ p.2.tsc.toNat < p.1.tsc.toNat + 2 ^ 63

theorem toNat_low (v : BitVec 64) : (v &&& 0xffffffff#64).toNat = v.toNat % 2 ^ 32 := by
  rw [BitVec.toNat_and]
  exact Nat.and_two_pow_sub_one_eq_mod v.toNat 32

theorem toNat_high (v : BitVec 64) : (v >>> 32).toNat = v.toNat / 2 ^ 32 := by
  rw [BitVec.toNat_ushiftRight, Nat.shiftRight_eq_div_pow]

theorem diff64_low (a b : BitVec 64) : diff64 (Counter.low.rdtsc a) (Counter.low.rdtsc b) =
    ((b.toNat : Int) - a.toNat) % 2 ^ 32 := by
  have ha : (Counter.low.rdtsc a).toNat = a.toNat % 2 ^ 32 := toNat_low a
  have hb : (Counter.low.rdtsc b).toNat = b.toNat % 2 ^ 32 := toNat_low b
  rw [diff64_half (by rw [ha]; exact Nat.mod_lt _ (by decide)) (by rw [hb]; exact Nat.mod_lt _ (by decide)),
    ha, hb]
  generalize a.toNat = x
  generalize b.toNat = y
  push_cast
  rw [← Int.sub_emod]

theorem diff64_high (a b : BitVec 64) : diff64 (Counter.high.rdtsc a) (Counter.high.rdtsc b) =
    ((b.toNat : Int) / 2 ^ 32 - (a.toNat : Int) / 2 ^ 32) % 2 ^ 32 := by
  have ha : (Counter.high.rdtsc a).toNat = a.toNat / 2 ^ 32 := toNat_high a
  have hb : (Counter.high.rdtsc b).toNat = b.toNat / 2 ^ 32 := toNat_high b
  have h1 := a.isLt
  have h2 := b.isLt
  rw [diff64_half (by rw [ha]; omega) (by rw [hb]; omega), ha, hb]
  push_cast
  rfl

theorem diff64_elapsed {k : Counter} {p : Reading × Reading} (h : NoWrap k p) :
    diff64 (k.rdtsc p.1.tsc) (k.rdtsc p.2.tsc) = elapsedCycles k p := by
  cases k with
  | full =>
    obtain ⟨h1, h2⟩ := h rfl
    show diff64 p.1.tsc p.2.tsc = _
    exact diff64_le h1 (by omega)
  | low => exact diff64_low _ _
  | high => exact diff64_high _ _
  | none => show diff64 0#64 0#64 = 0; decide

/-- The report about `n` executions with the counts `x` and the times `y` in microseconds. -/
noncomputable def report (x y : Nat → Int) (n : Nat) : Report :=
  ⟨n, (total y n : ℝ) / 1000000, average (firsts y n),
    some (if n = 2 then 0 else popStdev (firsts y n)), some (average (firsts x n)),
    some (if n = 2 then 0 else popStdev (firsts x n))⟩

/-! ## A given number of executions -/

theorem iterations_ret {σ : Type} {w : Nat} {k : Counter} {clock : Nat → Reading × Reading}
    {op : Nat → σ → C σ} {n : Nat} {s : σ} (I : Nat → σ → Prop) {x : Nat → Int} (hn : n ≠ 0)
    (hx : ∀ i, i < n → x i = diff64 (k.rdtsc (clock i).1.tsc) (k.rdtsc (clock i).2.tsc))
    (ht : ∀ i, i < n → TimeFits w (clock i)) (h0 : 0 ≤ total x n) (h1 : total x n < 2 ^ 64)
    (hI0 : I 0 s) (hop : ∀ i s, i < n → I i s → Ret (op i s) (I (i + 1))) :
    Ret (TIME_OPERATION_ITERATIONS w k clock op n s) (fun r => I n r.1 ∧
      r.2 = report x (fun i => elapsedMicros (clock i)) n) := by
  unfold TIME_OPERATION_ITERATIONS
  refine Ret.bind (Q := fun r : σ × Timer => I n r.1 ∧
    TimerIs x (fun i => elapsedMicros (clock i)) n r.2) ?_ ?_
  · refine Ret.for1 (fun i (r : σ × Timer) => I i r.1 ∧
      TimerIs x (fun i => elapsedMicros (clock i)) i r.2) ⟨hI0, timer_init _ _⟩ ?_ (fun _ h => h)
    · rintro i ⟨s, t⟩ hi ⟨h1, h2⟩
      refine (hop i s (by omega) h1).bind fun s' hs' => ?_
      have f := ht i (by omega)
      refine (STOP_TIMER_ret h2 (hx i (by omega)) ?_ f.start1 f.start2 f.stop1 f.stop2
        f.diff).bind fun t' ht' => ⟨_, _, rfl, hs', ht'⟩
      simp only [elapsedMicros]
      ring
  · rintro ⟨s', t⟩ ⟨h2, h3⟩
    exact (FINALIZE_TIMER_ret h3 hn h0 h1).bind fun r hr => ⟨_, _, rfl, h2, hr⟩

/-- C58.  A measurement of `n` executions reports the number `n`, the total time, the average time, the
average count and, unless `n` is 2, the population standard deviations of the time and of the count. -/
theorem C58_iterations {σ : Type} {w : Nat} {k : Counter} {clock : Nat → Reading × Reading}
    {op : Nat → σ → C σ} {n : Nat} {s : σ} (I : Nat → σ → Prop) (hn : n ≠ 0)
    (hc : ∀ i, i < n → NoWrap k (clock i)) (ht : ∀ i, i < n → TimeFits w (clock i))
    (h0 : total (fun i => elapsedCycles k (clock i)) n < 2 ^ 64)
    (hI0 : I 0 s) (hop : ∀ i s, i < n → I i s → Ret (op i s) (I (i + 1))) :
    Ret (TIME_OPERATION_ITERATIONS w k clock op n s) (fun r => I n r.1 ∧ r.2.iterations = n ∧
      r.2.total = ((total (fun i => elapsedMicros (clock i)) n : Int) : ℝ) / 1000000 ∧
      r.2.timeMean = average (firsts (fun i => elapsedMicros (clock i)) n) ∧
      r.2.cyclesMean = some (average (firsts (fun i => elapsedCycles k (clock i)) n)) ∧
      (n ≠ 2 → r.2.timeStdev = some (popStdev (firsts (fun i => elapsedMicros (clock i)) n)) ∧
        r.2.cyclesStdev = some (popStdev (firsts (fun i => elapsedCycles k (clock i)) n)))) := by
  refine (iterations_ret I hn (fun i hi => (diff64_elapsed (hc i hi)).symm) ht ?_ h0 hI0 hop).mono ?_
  · have key : ∀ m, m ≤ n → 0 ≤ total (fun i => elapsedCycles k (clock i)) m := by
      intro m
      induction m with
      | zero => intro _; simp [total]
      | succ m ih =>
        intro hm
        rw [total_succ]
        have := ih (by omega)
        have h2 := hc m (by omega)
        have : 0 ≤ elapsedCycles k (clock m) := by
          cases k
          · have := (h2 rfl).1
            show (0 : Int) ≤ ((clock m).2.tsc.toNat : Int) - (clock m).1.tsc.toNat
            omega
          · exact Int.emod_nonneg _ (by norm_num)
          · exact Int.emod_nonneg _ (by norm_num)
          · exact Int.le_refl _
        omega
    exact key n (Nat.le_refl n)
  · rintro r ⟨h1, h2⟩
    rw [h2]
    refine ⟨h1, rfl, rfl, rfl, rfl, fun h => ?_⟩
    simp [report, h]

/-- C58 (a wrong report): two executions are always reported with the standard deviation 0; the right value
is half the distance of the two measurements. -/
theorem C58_two {σ : Type} {w : Nat} {k : Counter} {clock : Nat → Reading × Reading}
    {op : Nat → σ → C σ} {s : σ} (I : Nat → σ → Prop)
    (hc : ∀ i, i < 2 → NoWrap k (clock i)) (ht : ∀ i, i < 2 → TimeFits w (clock i))
    (h0 : 0 ≤ total (fun i => elapsedCycles k (clock i)) 2)
    (h1 : total (fun i => elapsedCycles k (clock i)) 2 < 2 ^ 64)
    (hI0 : I 0 s) (hop : ∀ i s, i < 2 → I i s → Ret (op i s) (I (i + 1))) :
    Ret (TIME_OPERATION_ITERATIONS w k clock op 2 s) (fun r =>
      r.2.timeStdev = some 0 ∧ r.2.cyclesStdev = some 0) ∧
    popStdev (firsts (fun i => elapsedMicros (clock i)) 2) =
      |(elapsedMicros (clock 0) : ℝ) - elapsedMicros (clock 1)| / 2 ∧
    popStdev (firsts (fun i => elapsedCycles k (clock i)) 2) =
      |(elapsedCycles k (clock 0) : ℝ) - elapsedCycles k (clock 1)| / 2 := by
  have hsd : ∀ x : Nat → Int, popStdev (firsts x 2) = |(x 0 : ℝ) - x 1| / 2 := by
    intro x
    have e : squares (firsts x 2) / ((2 : Nat) : ℝ) = (|(x 0 : ℝ) - x 1| / 2) ^ 2 := by
      rw [div_pow, sq_abs]
      have : firsts x 2 = [(x 0 : ℝ), (x 1 : ℝ)] := rfl
      rw [this]
      simp only [squares, average, List.map_cons, List.map_nil, List.sum_cons, List.sum_nil,
        List.length_cons, List.length_nil]
      push_cast
      ring
    unfold popStdev
    rw [length_firsts, e, Real.sqrt_sq (by positivity)]
  refine ⟨?_, hsd _, hsd _⟩
  refine (iterations_ret I (by decide) (fun i hi => (diff64_elapsed (hc i hi)).symm) ht h0 h1 hI0
    hop).mono ?_
  rintro r ⟨-, h⟩
  rw [h]
  exact ⟨rfl, rfl⟩

/-! ## The counter -/

/-- C58 (64-bit x86): with the low half of the counter an operation that takes less than 2^32 counts is
measured exactly, even if the counter or its low half wraps around. -/
theorem C58_low {p : Reading × Reading} (hd : (p.2.tsc - p.1.tsc).toNat < 2 ^ 32) :
    elapsedCycles .low p = ((p.2.tsc - p.1.tsc).toNat : Int) := by
  have h1 := p.1.tsc.isLt
  have h2 := p.2.tsc.isLt
  rw [BitVec.toNat_sub] at hd ⊢
  show ((p.2.tsc.toNat : Int) - p.1.tsc.toNat) % 2 ^ 32 = _
  omega

/-- C58 (64-bit x86): longer operations are measured modulo 2^32. -/
theorem C58_low_mod (p : Reading × Reading) :
    elapsedCycles .low p = ((p.2.tsc - p.1.tsc).toNat : Int) % 2 ^ 32 := by
  have h1 := p.1.tsc.isLt
  have h2 := p.2.tsc.isLt
  rw [BitVec.toNat_sub]
  show ((p.2.tsc.toNat : Int) - p.1.tsc.toNat) % 2 ^ 32 = _
  omega

/-- C58 (a way to a meaningless report, 64-bit x86): if the compiler chooses RDX for the result, an operation
of less than 2^32 counts is measured as 0 or 1. -/
theorem C58_high {p : Reading × Reading} (hd : (p.2.tsc - p.1.tsc).toNat < 2 ^ 32) :
    elapsedCycles .high p = 0 ∨ elapsedCycles .high p = 1 := by
  have h1 := p.1.tsc.isLt
  have h2 := p.2.tsc.isLt
  rw [BitVec.toNat_sub] at hd
  show ((p.2.tsc.toNat : Int) / 2 ^ 32 - (p.1.tsc.toNat : Int) / 2 ^ 32) % 2 ^ 32 = 0 ∨
    ((p.2.tsc.toNat : Int) / 2 ^ 32 - (p.1.tsc.toNat : Int) / 2 ^ 32) % 2 ^ 32 = 1
  omega

theorem diff64_wrap {a b : BitVec 64} (hc : b.toNat < a.toNat) (hd : (b - a).toNat + 2 ^ 32 < 2 ^ 63) :
    diff64 a b = ((b - a).toNat : Int) + 2 ^ 32 := by
  have h1 := a.isLt
  have h2 := b.isLt
  have h32 : (1#64 <<< 32).toNat = 2 ^ 32 := by decide
  unfold diff64
  rw [if_pos (by rw [BitVec.lt_def]; exact hc), BitVec.toInt_eq_toNat_cond]
  rw [BitVec.toNat_sub b a] at hd ⊢
  have e : ((b + 1#64 <<< 32) - a).toNat = (2 ^ 64 - a.toNat + b.toNat) % 2 ^ 64 + 2 ^ 32 := by
    rw [BitVec.toNat_sub, BitVec.toNat_add, h32]
    generalize a.toNat = x at *
    generalize b.toNat = y at *
    omega
  rw [e]
  generalize (2 ^ 64 - a.toNat + b.toNat) % 2 ^ 64 = v at hd ⊢
  split <;> omega

/-- C58 (a wrong report, Windows and 32-bit x86): where all of the counter is read and it wraps around
during the operation, the correction of line 120 makes the result too large by 2^32. -/
theorem C58_full_wrap {σ : Type} {w : Nat} {clock : Nat → Reading × Reading}
    {op : Nat → σ → C σ} {s : σ} (I : Nat → σ → Prop)
    (hc : (clock 0).2.tsc.toNat < (clock 0).1.tsc.toNat)
    (hd : ((clock 0).2.tsc - (clock 0).1.tsc).toNat + 2 ^ 32 < 2 ^ 63) (ht : TimeFits w (clock 0))
    (hI0 : I 0 s) (hop : ∀ s, I 0 s → Ret (op 0 s) (I 1)) :
    Ret (TIME_OPERATION_ITERATIONS w .full clock op 1 s) (fun r =>
      r.2.cyclesMean = some ((((clock 0).2.tsc - (clock 0).1.tsc).toNat : ℝ) + 2 ^ 32)) := by
  have e : diff64 (clock 0).1.tsc (clock 0).2.tsc =
      (((clock 0).2.tsc - (clock 0).1.tsc).toNat : Int) + 2 ^ 32 := diff64_wrap hc hd
  have htot : total (fun _ => diff64 (clock 0).1.tsc (clock 0).2.tsc) 1 =
      diff64 (clock 0).1.tsc (clock 0).2.tsc := by simp [total]
  refine (iterations_ret I (x := fun _ => diff64 (clock 0).1.tsc (clock 0).2.tsc) (by decide) ?_ ?_ ?_ ?_
    hI0 ?_).mono ?_
  · intro i hi
    have : i = 0 := by omega
    subst this
    rfl
  · intro i hi
    have : i = 0 := by omega
    subst this
    exact ht
  · rw [htot, e]; omega
  · rw [htot, e]; omega
  · intro i s hi hI
    have : i = 0 := by omega
    subst this
    exact hop s hI
  · rintro r ⟨-, h⟩
    rw [h]
    simp only [report, average, sum_firsts, length_firsts]
    rw [htot, e]
    push_cast
    rw [div_one]
    norm_num

/-! ## The clock -/

/-- C58 (a way to violate C): where `long` has 32 bits (Windows, many 32-bit systems), `tv_sec * 1000000`
overflows at every time from 36 minutes after the beginning of 1970 on. -/
theorem C58_long32 (k : Counter) (s e : Reading) (t : Timer) (h : 2148 ≤ e.sec) :
    STOP_TIMER 32 k s e t = .ub .overflow := by
  have hm : micros 32 e = .ub .overflow := by
    unfold micros inLong
    rw [if_neg (by norm_num; intro _; omega)]
    rfl
  unfold STOP_TIMER
  simp only [hm]
  unfold ifC
  split <;> rfl

/-- C58: where `long` has 64 bits, the times until the year 140000 fit. -/
theorem C58_long64 (p : Reading × Reading) (h1 : 0 ≤ p.1.sec ∧ p.1.sec < 2 ^ 42)
    (h2 : 0 ≤ p.1.usec ∧ p.1.usec < 1000000) (h3 : 0 ≤ p.2.sec ∧ p.2.sec < 2 ^ 42)
    (h4 : 0 ≤ p.2.usec ∧ p.2.usec < 1000000) : TimeFits 64 p := by
  constructor <;> constructor <;> norm_num [elapsedMicros] <;> omega

/-! ## A given time -/

/-- How a measurement of `secs` seconds goes: the goal is not reached before the `n`-th execution but with
it; before that the clock is never behind its first reading; all numbers fit their types. -/
structure Runs (w : Nat) (k : Counter) (clock : Nat → Reading × Reading) (secs : Int) (n : Nat) : Prop where
  secs0 : 0 ≤ secs
  secs1 : secs ≤ 2147
  noWrap : ∀ i, i < n → NoWrap k (clock i)
  fits : ∀ i, i < n → TimeFits w (clock i)
  before : ∀ m, m < n → 0 ≤ total (fun i => elapsedMicros (clock i)) m ∧
    total (fun i => elapsedMicros (clock i)) m < 1000000 * secs
  after : 1000000 * secs ≤ total (fun i => elapsedMicros (clock i)) n
  time : total (fun i => elapsedMicros (clock i)) n < 2 ^ 64
  cycles0 : 0 ≤ total (fun i => elapsedCycles k (clock i)) n
  cycles1 : total (fun i => elapsedCycles k (clock i)) n < 2 ^ 64

theorem goal_toNat {secs : Int} (h0 : 0 ≤ secs) (h1 : secs ≤ 2147) :
    ((BitVec.ofInt 64 (1000000 * secs)).toNat : Int) = 1000000 * secs := by
  rw [BitVec.toNat_ofInt]
  omega

theorem belowGoal_eq {x y : Nat → Int} {n : Nat} {t : Timer} {goal : Nat} (h : TimerIs x y n t)
    (h0 : 0 ≤ total y n) (h1 : total y n < 2 ^ 64) :
    belowGoal goal t = pure (decide (total y n < goal)) := by
  unfold belowGoal C.require
  rw [h.timeCumulative, if_pos, pure_bind, Int.floor_intCast]
  · congr 2
    rw [eq_iff_iff]
    omega
  · constructor
    · have : (0 : ℝ) ≤ (total y n : ℝ) := by exact_mod_cast h0
      linarith
    · exact_mod_cast h1

theorem seconds_ret {σ : Type} {w : Nat} {k : Counter} {clock : Nat → Reading × Reading}
    {op : Nat → σ → C σ} {secs : Int} {n : Nat} {s : σ} (I : Nat → σ → Prop)
    (hr : Runs w k clock secs n) (hI0 : I 0 s)
    (hop : ∀ i s, i < n → I i s → Ret (op i s) (I (i + 1))) :
    Ret (TIME_OPERATION_SECONDS w k clock op secs s) (fun r => I n r.1 ∧
      (n ≠ 0 → r.2 = report (fun i => elapsedCycles k (clock i)) (fun i => elapsedMicros (clock i)) n) ∧
      (n = 0 → r.2 = ⟨0, 0, 0, none, none, none⟩)) := by
  have hs0 := hr.secs0
  have hs1 := hr.secs1
  have hg := goal_toNat hs0 hs1
  generalize hx : (fun i => elapsedCycles k (clock i)) = x at *
  generalize hy : (fun i => elapsedMicros (clock i)) = y at *
  have hpos : ∀ m, m ≤ n → 0 ≤ total y m ∧ total y m < 2 ^ 64 := by
    intro m hm
    rcases Nat.lt_or_eq_of_le hm with h | h
    · have := hr.before m h
      rw [hy] at this
      omega
    · subst h
      have h1 := hr.after
      have h2 := hr.time
      rw [hy] at h1 h2
      omega
  unfold TIME_OPERATION_SECONDS
  have hint : int (1000000 * secs) = pure (1000000 * secs) := if_pos (by unfold inInt; omega)
  rw [hint, pure_bind]
  simp only
  generalize (BitVec.ofInt 64 (1000000 * secs)).toNat = goal at *
  rw [belowGoal_eq (timer_init x y) (hpos 0 (Nat.zero_le _)).1 (hpos 0 (Nat.zero_le _)).2, pure_bind]
  have hlt : ∀ m, m ≤ n → (total y m < (goal : Int) ↔ m < n) := by
    intro m hm
    rw [hg]
    constructor
    · intro h
      rcases Nat.lt_or_eq_of_le hm with h' | h'
      · exact h'
      · subst h'
        have := hr.after
        rw [hy] at this
        omega
    · intro h
      have := (hr.before m h).2
      rwa [hy] at this
  refine Ret.bind (Q := fun r : σ × Timer × Bool => I n r.1 ∧ TimerIs x y n r.2.1) ?_ ?_
  · refine Ret.while (fun r : σ × Timer × Bool => r.2.1.iterations ≤ n ∧ I r.2.1.iterations r.1 ∧
      TimerIs x y r.2.1.iterations r.2.1 ∧ r.2.2 = decide (r.2.1.iterations < n))
      (fun r => n - r.2.1.iterations) ?_ ?_ _ ?_
    · rintro ⟨s, t, b⟩ ⟨h1, h2, h3, h4⟩ hb
      simp only at h1 h2 h3 h4 hb ⊢
      rw [h4, decide_eq_true_eq] at hb
      unfold timedPass
      simp only
      generalize hi : t.iterations = i at *
      refine (hop i s hb h2).bind fun s' hs' => ?_
      have f := hr.fits i hb
      have c := diff64_elapsed (hr.noWrap i hb)
      refine (STOP_TIMER_ret h3 (by rw [c, ← hx]) ?_ f.start1 f.start2 f.stop1 f.stop2 ?_).bind
        fun t' ht' => ?_
      · rw [← hy]
        simp only [elapsedMicros]
        ring
      · rw [← hy]
        exact f.diff
      · have hp := hpos (i + 1) hb
        rw [belowGoal_eq ht' hp.1 hp.2, pure_bind]
        have e := ht'.iterations
        refine ⟨_, _, rfl, ⟨?_, ?_, ?_, ?_⟩, ?_⟩
        · show t'.iterations ≤ n
          omega
        · show I t'.iterations s'
          rw [e]; exact hs'
        · show TimerIs x y t'.iterations t'
          rw [e]; exact ht'
        · show decide _ = decide (t'.iterations < n)
          rw [e, decide_eq_decide]
          exact hlt (i + 1) hb
        · show n - t'.iterations < n - i
          omega
    · rintro ⟨s, t, b⟩ ⟨h1, h2, h3, h4⟩ hb
      simp only at h1 h2 h3 h4 hb ⊢
      rw [h4, decide_eq_false_iff_not] at hb
      have : t.iterations = n := by omega
      rw [this] at h2 h3
      exact ⟨h2, h3⟩
    · refine ⟨Nat.zero_le _, hI0, timer_init x y, ?_⟩
      show decide _ = decide (0 < n)
      rw [decide_eq_decide]
      exact hlt 0 (Nat.zero_le _)
  · rintro ⟨s', t, b⟩ ⟨h2, h3⟩
    simp only at h2 h3 ⊢
    by_cases hn : n = 0
    · subst hn
      exact (FINALIZE_TIMER_zero h3).bind fun r h => ⟨_, _, rfl, h2, fun h => absurd rfl h, fun _ => h⟩
    · have c0 := hr.cycles0
      have c1 := hr.cycles1
      rw [hx] at c0 c1
      exact (FINALIZE_TIMER_ret h3 hn c0 c1).bind fun r h => ⟨_, _, rfl, h2, fun _ => h, fun h => absurd h hn⟩

/-- C58.  A measurement of `secs > 0` seconds executes the operation until the goal is reached: with the
least number `n` of executions whose times add up to `secs` seconds or more.  It reports their number, total
time, averages and, unless `n` is 2, the standard deviations. -/
theorem C58_seconds {σ : Type} {w : Nat} {k : Counter} {clock : Nat → Reading × Reading}
    {op : Nat → σ → C σ} {secs : Int} {n : Nat} {s : σ} (I : Nat → σ → Prop)
    (hr : Runs w k clock secs n) (hp : 0 < secs) (hI0 : I 0 s)
    (hop : ∀ i s, i < n → I i s → Ret (op i s) (I (i + 1))) :
    Ret (TIME_OPERATION_SECONDS w k clock op secs s) (fun r => I n r.1 ∧ r.2.iterations = n ∧
      r.2.total = ((total (fun i => elapsedMicros (clock i)) n : Int) : ℝ) / 1000000 ∧
      (secs : ℝ) ≤ r.2.total ∧
      r.2.timeMean = average (firsts (fun i => elapsedMicros (clock i)) n) ∧
      r.2.cyclesMean = some (average (firsts (fun i => elapsedCycles k (clock i)) n)) ∧
      (n ≠ 2 → r.2.timeStdev = some (popStdev (firsts (fun i => elapsedMicros (clock i)) n)) ∧
        r.2.cyclesStdev = some (popStdev (firsts (fun i => elapsedCycles k (clock i)) n))) ∧
      (n = 2 → r.2.timeStdev = some 0 ∧ r.2.cyclesStdev = some 0)) := by
  refine (seconds_ret I hr hI0 hop).mono ?_
  rintro r ⟨h1, h2, -⟩
  have hn : n ≠ 0 := by
    rintro rfl
    have := hr.after
    simp [total] at this
    omega
  rw [h2 hn]
  refine ⟨h1, rfl, rfl, ?_, rfl, rfl, fun h => ?_, fun h => ?_⟩
  · have h3 : ((1000000 * secs : Int) : ℝ) ≤ ((total (fun i => elapsedMicros (clock i)) n : Int) : ℝ) := by
      exact_mod_cast hr.after
    show (secs : ℝ) ≤ (total (fun i => elapsedMicros (clock i)) n : ℝ) / 1000000
    rw [le_div_iff₀ (by norm_num)]
    push_cast at h3
    linarith
  · simp [report, h]
  · simp [report, h]

/-- C58 (no time): a measurement of 0 seconds executes nothing and prints values that are not numbers. -/
theorem C58_seconds_zero {σ : Type} (w : Nat) (k : Counter) (clock : Nat → Reading × Reading)
    (op : Nat → σ → C σ) (s : σ) :
    Ret (TIME_OPERATION_SECONDS w k clock op 0 s) (fun r => r = (s, ⟨0, 0, 0, none, none, none⟩)) := by
  refine (seconds_ret (n := 0) (fun _ s' => s' = s) ⟨by decide, by decide, by omega, by omega, by omega,
    by simp [total], by simp [total], by simp [total], by simp [total]⟩ rfl (by omega)).mono ?_
  rintro ⟨s', r⟩ ⟨h1, -, h2⟩
  exact Prod.ext h1 (h2 rfl)

/-- C58 (the end): if the clock advances during each execution, the measurement ends after at most a million
executions per second. -/
theorem C58_ends {w : Nat} {k : Counter} {clock : Nat → Reading × Reading} {secs : Int}
    (h0 : 0 ≤ secs) (h1 : secs ≤ 2147) (hc : ∀ i, NoWrap k (clock i)) (hf : ∀ i, TimeFits w (clock i))
    (ht : ∀ i, 1 ≤ elapsedMicros (clock i) ∧ elapsedMicros (clock i) < 2 ^ 63)
    (hx : ∀ i, 0 ≤ elapsedCycles k (clock i) ∧ elapsedCycles k (clock i) < 2 ^ 32) :
    ∃ n : Nat, (n : Int) ≤ 1000000 * secs ∧ Runs w k clock secs n := by
  have hpos : ∀ m : Nat, (m : Int) ≤ total (fun i => elapsedMicros (clock i)) m := by
    intro m
    induction m with
    | zero => simp [total]
    | succ m ih => rw [total_succ]; have := (ht m).1; push_cast; omega
  have hcy : ∀ m : Nat, 0 ≤ total (fun i => elapsedCycles k (clock i)) m ∧
      total (fun i => elapsedCycles k (clock i)) m ≤ m * 2 ^ 32 := by
    intro m
    induction m with
    | zero => simp [total]
    | succ m ih => rw [total_succ]; have := hx m; push_cast; omega
  classical
  have hex : ∃ n : Nat, 1000000 * secs ≤ total (fun i => elapsedMicros (clock i)) n :=
    ⟨(1000000 * secs).toNat, by have := hpos (1000000 * secs).toNat; omega⟩
  have hmin := fun m => Nat.find_min (H := hex) (m := m)
  have hsp := Nat.find_spec hex
  have hle : ((Nat.find hex : Nat) : Int) ≤ 1000000 * secs := by
    have : Nat.find hex ≤ (1000000 * secs).toNat :=
      Nat.find_min' hex (by have := hpos (1000000 * secs).toNat; omega)
    omega
  generalize Nat.find hex = n at hmin hsp hle
  refine ⟨n, hle, h0, h1, fun i _ => hc i, fun i _ => hf i, fun m hm => ⟨?_, ?_⟩, hsp, ?_, (hcy n).1, ?_⟩
  · have := hpos m; omega
  · have := hmin m hm; omega
  · cases n with
    | zero => simp [total]
    | succ n =>
      rw [total_succ]
      have := hmin n (Nat.lt_succ_self n)
      have := (ht n).2
      omega
  · have := (hcy n).2
    omega

/-- C58 (a way not to end): if the clock shows the same time before and after every execution, a measurement
of one second or more never ends, unless the operation does something undefined. -/
theorem C58_endless {σ : Type} (w : Nat) (k : Counter) (clock : Nat → Reading × Reading)
    (op : Nat → σ → C σ) (secs : Int) (s : σ) (h0 : 0 < secs) (h1 : secs ≤ 2147)
    (hf : ∀ i, TimeFits w (clock i)) (ht : ∀ i, elapsedMicros (clock i) = 0)
    (hop : ∀ i s u, op i s ≠ .ub u) : TIME_OPERATION_SECONDS w k clock op secs s = .div := by
  have hg := goal_toNat (by omega) h1
  unfold TIME_OPERATION_SECONDS
  have hint : int (1000000 * secs) = pure (1000000 * secs) := if_pos (by unfold inInt; omega)
  rw [hint, pure_bind]
  simp only
  generalize (BitVec.ofInt 64 (1000000 * secs)).toNat = goal at *
  have htot : ∀ n, total (fun i => elapsedMicros (clock i)) n = 0 := by
    intro n
    induction n with
    | zero => simp [total]
    | succ n ih => rw [total_succ, ih, ht]; rfl
  let x := fun i => diff64 (k.rdtsc (clock i).1.tsc) (k.rdtsc (clock i).2.tsc)
  rw [belowGoal_eq (timer_init x _) (by rw [htot]) (by rw [htot]; norm_num), pure_bind, htot,
    decide_eq_true (by omega)]
  rw [while_div (fun r : σ × Timer × Bool => r.2.2 = true ∧
    TimerIs x (fun i => elapsedMicros (clock i)) r.2.1.iterations r.2.1)]
  · rfl
  · rintro ⟨s, t, b⟩ ⟨hb, hT⟩
    simp only at hb hT ⊢
    refine ⟨hb, ?_⟩
    have f := hf t.iterations
    have hst := STOP_TIMER_ret (w := w) (k := k) (s := (clock t.iterations).1) (e := (clock t.iterations).2)
      hT rfl (by simp only [elapsedMicros]; ring) f.start1 f.start2 f.stop1 f.stop2 f.diff
    obtain ⟨t', tr, e, hT'⟩ := hst
    have hbg := belowGoal_eq (goal := goal) hT' (by rw [htot]) (by rw [htot]; norm_num)
    rw [htot, decide_eq_true (by omega)] at hbg
    unfold timedPass
    simp only
    cases ho : op t.iterations s with
    | div =>
      constructor
      · intro u h; cases h
      · intro s' t h; cases h
    | ub u => exact absurd ho (hop _ _ _)
    | ok s' t1 =>
      have hfull : (do
          let s ← (C.ok s' t1 : C σ)
          let t' ← STOP_TIMER w k (clock t.iterations).1 (clock t.iterations).2 t
          let b ← belowGoal goal t'
          pure (s, t', b) : C (σ × Timer × Bool)) = .ok (s', t', true) (t1 ++ tr) := by
        rw [e]
        simp only [C.bind_def, C.bind', hbg, C.pure_def, List.append_nil]
      rw [hfull]
      constructor
      · intro u h; cases h
      intro r tt h
      injection h with h _
      subst h
      refine ⟨rfl, ?_⟩
      show TimerIs _ _ t'.iterations t'
      rw [hT'.iterations]
      exact hT'
  · exact ⟨rfl, timer_init x _⟩

/-- C58 (a way to violate C): if the clock is set back by more than what has been measured so far, the
conversion of the negative total to `uint64_t` is undefined; here in the first execution. -/
theorem C58_set_back {σ : Type} (w : Nat) (k : Counter) (clock : Nat → Reading × Reading)
    (op : Nat → σ → C σ) (secs : Int) (s s' : σ) (tr : List Event) (h0 : 0 < secs) (h1 : secs ≤ 2147)
    (hf : TimeFits w (clock 0)) (ht : elapsedMicros (clock 0) < 0) (hop : op 0 s = .ok s' tr) :
    TIME_OPERATION_SECONDS w k clock op secs s = .ub .overflow := by
  have hg := goal_toNat (by omega) h1
  unfold TIME_OPERATION_SECONDS
  have hint : int (1000000 * secs) = pure (1000000 * secs) := if_pos (by unfold inInt; omega)
  rw [hint, pure_bind]
  simp only
  generalize (BitVec.ofInt 64 (1000000 * secs)).toNat = goal at *
  let x := fun i => diff64 (k.rdtsc (clock i).1.tsc) (k.rdtsc (clock i).2.tsc)
  let y := fun i => elapsedMicros (clock i)
  rw [belowGoal_eq (timer_init x y) (by simp [total]) (by simp [total]), pure_bind,
    decide_eq_true (by simp [total]; omega)]
  have hst := STOP_TIMER_ret (w := w) (k := k) (s := (clock 0).1) (e := (clock 0).2)
    (timer_init x y) rfl (by simp only [y, elapsedMicros]; ring) hf.start1 hf.start2 hf.stop1 hf.stop2
    hf.diff
  obtain ⟨t', tr', e, hT'⟩ := hst
  have hub : belowGoal goal t' = .ub .overflow := by
    unfold belowGoal C.require
    rw [if_neg]
    · rfl
    · rw [hT'.timeCumulative]
      rintro ⟨h, -⟩
      have h2 : total y 1 ≤ -1 := by simp [total, y]; omega
      have h3 : (total y 1 : ℝ) ≤ ((-1 : Int) : ℝ) := by exact_mod_cast h2
      push_cast at h3
      simp only [Nat.zero_add] at h
      linarith
  have hpass : timedPass w k clock op goal (s, Timer.init, true) = .ub .overflow := by
    unfold timedPass
    simp only
    have : Timer.init.iterations = 0 := rfl
    rw [this, hop, e]
    simp only [C.bind_def, C.bind', hub]
  rw [whileC, if_pos rfl, hpass]
  rfl

/-! ## `kem_bench` -/

/-- The arrays of `kem_bench` have the declared lengths. -/
structure BenchSt.WF (P : Params) (s : BenchSt) : Prop where
  pk : s.pk.length = P.pkBytes
  sk : s.sk.length = P.skBytes
  ss_encap : s.ss_encap.length = P.bytes
  ss_decap : s.ss_decap.length = P.bytes
  ct : s.ct.length = P.ctBytes

theorem benchKeypair_ret {P : Params} {K : KemParams} (B : Build) (E : Env) (rb : RandomBytes)
    (s : BenchSt) (r : TestRand) (hS : Standard P B.gen K) (ha : AlignedAll B E P) (hw : BenchSt.WF P s)
    (hr : TestRand.WF K r) (hrb : Fills rb (r.s ++ r.seedSE ++ r.z)) :
    Ret (benchKeypair B E P rb s) (fun s' => BenchSt.WF P s' ∧ s'.pk = (r.keys K).1 ∧
      s'.sk = (r.keys K).2) := by
  have hk := hS.kwf
  have lpk : (r.keys K).1.length = P.pkBytes := by
    unfold TestRand.keys
    rw [length_keygen_pk hk, hS.pkLen]
  have lsk : (r.keys K).2.length = P.skBytes := by
    unfold TestRand.keys
    rw [length_keygen_sk hk hr.s, hS.skLen]
  unfold benchKeypair
  refine (C05_keypair B E rb s.pk s.sk r.s r.seedSE r.z hS ha.1 hr.s hr.seedSE hr.z hrb
    (by rw [hw.pk]) (by rw [hw.sk])).bind ?_
  rintro kp ⟨k1, k2, -⟩
  change kp.pk = (r.keys K).1 ++ _ at k1
  change kp.sk = (r.keys K).2 ++ _ at k2
  rw [List.drop_eq_nil_of_le (by rw [hw.pk]), List.append_nil] at k1
  rw [List.drop_eq_nil_of_le (by rw [hw.sk]), List.append_nil] at k2
  exact ⟨_, _, rfl, ⟨by rw [k1, lpk], by rw [k2, lsk], hw.ss_encap, hw.ss_decap, hw.ct⟩, k1, k2⟩

theorem benchEnc_ret {P : Params} {K : KemParams} (B : Build) (E : Env) (rb : RandomBytes)
    (s : BenchSt) (mu : List U8) (hS : Standard P B.gen K) (hB : Good B) (ha : AlignedAll B E P)
    (hw : BenchSt.WF P s) (hmu : mu.length = K.len) (hrb : Fills rb mu) :
    Ret (benchEnc B E P rb s) (fun s' => BenchSt.WF P s' ∧ s'.pk = s.pk ∧ s'.sk = s.sk ∧
      s'.ct = (encaps K s.pk mu).1 ∧ s'.ss_encap = (encaps K s.pk mu).2) := by
  have lct : (encaps K s.pk mu).1.length = P.ctBytes := by rw [length_encaps_ct, hS.ctLen]
  have lss : (encaps K s.pk mu).2.length = P.bytes := by rw [hS.ssLen]; exact hS.kwf.shake _ _
  unfold benchEnc
  refine (C06_enc B E rb s.ct s.ss_encap s.pk mu hS hB ha.2 hmu hrb
    (by rw [hw.pk]) (by rw [hw.ct]) (by rw [hw.ss_encap])).bind ?_
  rintro en ⟨e1, e2, -⟩
  rw [List.take_of_length_le (by rw [hw.pk])] at e1 e2
  rw [List.drop_eq_nil_of_le (by rw [hw.ct]), List.append_nil] at e1
  rw [List.drop_eq_nil_of_le (by rw [hw.ss_encap]), List.append_nil] at e2
  exact ⟨_, _, rfl, ⟨hw.pk, hw.sk, by rw [e2, lss], hw.ss_decap, by rw [e1, lct]⟩, rfl, rfl, e1, e2⟩

theorem benchDec_ret {P : Params} {K : KemParams} (B : Build) (E : Env) (a : Nat)
    (s : BenchSt) (hS : Standard P B.gen K) (hB : Good B) (ha : AlignedAll B E P) (hal : a % 2 = 0)
    (hw : BenchSt.WF P s) :
    Ret (benchDec B E P a s) (fun s' => BenchSt.WF P s' ∧ s'.pk = s.pk ∧ s'.sk = s.sk ∧ s'.ct = s.ct ∧
      s'.ss_encap = s.ss_encap ∧ s'.ss_decap = decaps K s.ct s.sk) := by
  unfold benchDec
  refine (C07_dec B E a s.ss_decap s.ct s.sk hS hB ha.2 hal (by rw [hw.ss_decap])
    (by rw [hw.ct]) (by rw [hw.sk])).bind ?_
  rintro de ⟨hd, -⟩
  rw [List.drop_eq_nil_of_le (by rw [hw.ss_decap]), List.append_nil,
    List.take_of_length_le (by rw [hw.ct]), List.take_of_length_le (by rw [hw.sk])] at hd
  have hdl : de.ss.length = P.bytes := by
    rw [hd, decaps_reencrypt hS.kwf (by rw [hw.ct, hS.ctLen]), hS.ssLen]
    split <;> exact hS.kwf.shake _ _
  exact ⟨_, _, rfl, ⟨hw.pk, hw.sk, hw.ss_encap, hdl, hw.ct⟩, rfl, rfl, rfl, rfl, hd⟩

/-- What the calls of `randombytes` in `kem_bench` deliver: right lengths in the measurements, and the
bytes `r` in the calls between them (lines 99 and 102). -/
structure BenchRand (K : KemParams) (rb : Nat → Nat → RandomBytes) (r : TestRand) : Prop where
  wf : TestRand.WF K r
  keys : ∀ i, ∃ q, TestRand.WF K q ∧ Fills (rb 0 i) (q.s ++ q.seedSE ++ q.z)
  key : Fills (rb 1 0) (r.s ++ r.seedSE ++ r.z)
  encs : ∀ i, ∃ mu : List U8, mu.length = K.len ∧ Fills (rb 2 i) mu
  enc : Fills (rb 3 0) r.mu

/-- C58.  `kem_bench` ends and does not violate C.  Its three reports are those of the three measurements:
key generation, encapsulation with an honest public key and decapsulation of an honest ciphertext with its
secret key; and what was measured last was the decapsulation of that ciphertext. -/
theorem C58_kem_bench {P : Params} {K : KemParams} (w : Nat) (k : Counter)
    (clock : Nat → Nat → Reading × Reading) (B : Build) (E : Env) (a : Nat) (rb : Nat → Nat → RandomBytes)
    (secs : Int) (n0 n1 n2 : Nat) (r : TestRand) (hS : Standard P B.gen K) (hB : Good B)
    (ha : AlignedAll B E P) (hal : a % 2 = 0) (hr : BenchRand K rb r) (hp : 0 < secs)
    (h0 : Runs w k (clock 0) secs n0) (h1 : Runs w k (clock 1) secs n1) (h2 : Runs w k (clock 2) secs n2) :
    Ret (kem_bench w k clock B E P a rb secs) (fun o =>
      o.1.pk = (r.keys K).1 ∧ o.1.sk = (r.keys K).2 ∧ o.1.ct = (r.enc K).1 ∧ o.1.ss_encap = (r.enc K).2 ∧
      o.1.ss_decap = decaps K (r.enc K).1 (r.keys K).2 ∧
      o.2.1 = report (fun i => elapsedCycles k (clock 0 i)) (fun i => elapsedMicros (clock 0 i)) n0 ∧
      o.2.2.1 = report (fun i => elapsedCycles k (clock 1 i)) (fun i => elapsedMicros (clock 1 i)) n1 ∧
      o.2.2.2 = report (fun i => elapsedCycles k (clock 2 i)) (fun i => elapsedMicros (clock 2 i)) n2) := by
  have hne : ∀ {j n}, Runs w k (clock j) secs n → n ≠ 0 := by
    rintro j n h rfl
    have := h.after
    simp [total] at this
    omega
  unfold kem_bench
  simp only
  refine (seconds_ret (fun _ s => BenchSt.WF P s) h0 ⟨by simp, by simp, by simp, by simp, by simp⟩
    ?_).bind ?_
  · intro i s _ hw
    obtain ⟨q, hq, hf⟩ := hr.keys i
    exact (benchKeypair_ret B E (rb 0 i) s q hS ha hw hq hf).mono fun _ h => h.1
  rintro ⟨s0, r0⟩ ⟨hw0, e0, -⟩
  simp only at hw0 e0 ⊢
  refine (benchKeypair_ret B E (rb 1 0) s0 r hS ha hw0 hr.wf hr.key).bind ?_
  rintro s1 ⟨hw1, k1, k2⟩
  refine (seconds_ret (fun _ s => BenchSt.WF P s ∧ s.pk = (r.keys K).1 ∧ s.sk = (r.keys K).2) h1
    ⟨hw1, k1, k2⟩ ?_).bind ?_
  · rintro i s _ ⟨hw, g1, g2⟩
    obtain ⟨mu, hm, hf⟩ := hr.encs i
    refine (benchEnc_ret B E (rb 2 i) s mu hS hB ha hw hm hf).mono ?_
    rintro s' ⟨a1, a2, a3, -⟩
    exact ⟨a1, by rw [a2, g1], by rw [a3, g2]⟩
  rintro ⟨s1', r1⟩ ⟨⟨hw1', k1', k2'⟩, e1, -⟩
  simp only at hw1' k1' k2' e1 ⊢
  refine (benchEnc_ret B E (rb 3 0) s1' r.mu hS hB ha hw1' hr.wf.mu hr.enc).bind ?_
  rintro s2 ⟨hw2, g1, g2, g3, g4⟩
  rw [k1'] at g1 g3 g4
  rw [k2'] at g2
  refine (seconds_ret (fun i s => BenchSt.WF P s ∧ s.pk = (r.keys K).1 ∧ s.sk = (r.keys K).2 ∧
    s.ct = (r.enc K).1 ∧ s.ss_encap = (r.enc K).2 ∧
    (i ≠ 0 → s.ss_decap = decaps K (r.enc K).1 (r.keys K).2)) h2
    ⟨hw2, g1, g2, g3, g4, fun h => absurd rfl h⟩ ?_).bind ?_
  · rintro i s _ ⟨hw, b1, b2, b3, b4, -⟩
    refine (benchDec_ret B E a s hS hB ha hal hw).mono ?_
    rintro s' ⟨a1, a2, a3, a4, a5, a6⟩
    exact ⟨a1, by rw [a2, b1], by rw [a3, b2], by rw [a4, b3], by rw [a5, b4], fun _ => by rw [a6, b3, b2]⟩
  rintro ⟨s3, r2⟩ ⟨⟨-, c1, c2, c3, c4, c5⟩, e2, -⟩
  exact ⟨_, _, rfl, c1, c2, c3, c4, c5 (hne h2), e0 (hne h0), e1 (hne h1), e2 (hne h2)⟩

/-- C58: if the noise is within bounds, the decapsulation that `kem_bench` measures is the successful one,
with the shared secret of the encapsulation. -/
theorem C58_kem_bench_success {P : Params} {K : KemParams} (w : Nat) (k : Counter)
    (clock : Nat → Nat → Reading × Reading) (B : Build) (E : Env) (a : Nat) (rb : Nat → Nat → RandomBytes)
    (secs : Int) (n0 n1 n2 : Nat) (r : TestRand) (hS : Standard P B.gen K) (hB : Good B)
    (ha : AlignedAll B E P) (hal : a % 2 = 0) (hr : BenchRand K rb r) (hp : 0 < secs)
    (h0 : Runs w k (clock 0) secs n0) (h1 : Runs w k (clock 1) secs n1) (h2 : Runs w k (clock 2) secs n2)
    (hn : NoiseBound K r.seedSE (r.keys K).1 r.mu) :
    Ret (kem_bench w k clock B E P a rb secs) (fun o => o.1.ss_decap = o.1.ss_encap) := by
  refine (C58_kem_bench w k clock B E a rb secs n0 n1 n2 r hS hB ha hal hr hp h0 h1 h2).mono ?_
  rintro o ⟨-, -, -, h4, h5, -⟩
  rw [h4, h5]
  exact decaps_encaps hS.kwf hr.wf.s hr.wf.mu fun k l => ⟨_, (hn k l).1, (hn k l).2, rfl⟩

/-! ## `main` -/

/-- C58.  `main` with the argument "nobench" ends, and its value is `EXIT_SUCCESS` if and only if the
self-test finds both requirements to hold in every iteration. -/
theorem C58_main_nobench {P : Params} {K : KemParams} (w : Nat) (k : Counter)
    (clock : Nat → Nat → Reading × Reading) (B : Build) (E : Env) (ta : TestAddr) (a : Nat)
    (rbt : Nat → RandomBytes) (rb : Nat → Nat → RandomBytes) (R : Nat → TestRand) (n : Nat)
    (argv : List String) (hS : Standard P B.gen K) (hB : Good B)
    (ha : AlignedAll B E P) (hsk : ta.sk % 2 = 0) (hct : ta.ct % 2 = 0) (hby : ta.bytes % 4 = 0)
    (hR : ∀ i, i < n → TestRand.WF K (R i) ∧ Delivers (fun k => rbt (3 * i + k)) (R i))
    (harg : argv[1]? = some "nobench") :
    Ret (main_test_kem w k clock B E P ta a rbt rb n argv) (fun o =>
      (o.1 = 0 ∨ o.1 = 1) ∧ o.2 = false ∧ (o.1 = 0 ↔ ∀ i, i < n → (R i).passes K B.arch)) := by
  have hl : 1 < argv.length := by
    by_contra h
    rw [List.getElem?_eq_none (by omega)] at harg
    cases harg
  unfold main_test_kem
  refine (C50_kem_test B E ta rbt R n hS hB ha hsk hct hby hR).bind ?_
  intro ok hok
  cases ok
  · exact ⟨_, _, rfl, Or.inr rfl, rfl, by rw [← hok]; simp⟩
  · rw [Ret_ifC, if_neg (by simp), Ret_ifC,
      if_pos (by rw [decide_eq_true_eq]; exact ⟨hl, harg⟩)]
    exact ⟨_, _, rfl, Or.inl rfl, rfl, by rw [← hok]; simp⟩

/-- C58.  `main` without that argument runs the benchmark if and only if the self-test passes; the benchmark
does not change the value that `main` returns. -/
theorem C58_main_bench {P : Params} {K : KemParams} (w : Nat) (k : Counter)
    (clock : Nat → Nat → Reading × Reading) (B : Build) (E : Env) (ta : TestAddr) (a : Nat)
    (rbt : Nat → RandomBytes) (rb : Nat → Nat → RandomBytes) (R : Nat → TestRand) (n : Nat)
    (argv : List String) (hS : Standard P B.gen K) (hB : Good B)
    (ha : AlignedAll B E P) (hsk : ta.sk % 2 = 0) (hct : ta.ct % 2 = 0) (hby : ta.bytes % 4 = 0)
    (hR : ∀ i, i < n → TestRand.WF K (R i) ∧ Delivers (fun k => rbt (3 * i + k)) (R i))
    (harg : argv[1]? ≠ some "nobench") (n0 n1 n2 : Nat) (r : TestRand) (hal : a % 2 = 0)
    (hr : BenchRand K rb r)
    (h0 : Runs w k (clock 0) 1 n0) (h1 : Runs w k (clock 1) 1 n1) (h2 : Runs w k (clock 2) 1 n2) :
    Ret (main_test_kem w k clock B E P ta a rbt rb n argv) (fun o =>
      (o.1 = 0 ∨ o.1 = 1) ∧ (o.2 = true ↔ o.1 = 0) ∧
      (o.1 = 0 ↔ ∀ i, i < n → (R i).passes K B.arch)) := by
  unfold main_test_kem
  refine (C50_kem_test B E ta rbt R n hS hB ha hsk hct hby hR).bind ?_
  intro ok hok
  cases ok
  · exact ⟨_, _, rfl, Or.inr rfl, by simp, by rw [← hok]; simp⟩
  · rw [Ret_ifC, if_neg (by simp), Ret_ifC,
      if_neg (by rw [decide_eq_true_eq]; exact fun h => harg h.2)]
    refine (C58_kem_bench w k clock B E a rb 1 n0 n1 n2 r hS hB ha hal hr (by decide) h0 h1 h2).bind ?_
    intro _ _
    exact ⟨_, _, rfl, Or.inl rfl, by simp, by rw [← hok]; simp⟩

/-! ## Concrete cases -/

/-- Executions of `us` microseconds and 1000 counts, at a time in the year 2023. -/
def clock0 (us : Int) (i : Nat) : Reading × Reading :=
  (⟨1700000000, 0, BitVec.ofNat 64 (5000 * i)⟩, ⟨1700000000, us, BitVec.ofNat 64 (5000 * i + 1000)⟩)

theorem clock0_fits {us : Int} (h0 : 0 ≤ us) (h1 : us < 1000000) (i : Nat) : TimeFits 64 (clock0 us i) :=
  C58_long64 _ (by norm_num [clock0]) (by norm_num [clock0]) (by norm_num [clock0])
    ⟨h0, h1⟩

theorem clock0_micros (us : Int) (i : Nat) : elapsedMicros (clock0 us i) = us := by
  simp [elapsedMicros, clock0]

theorem clock0_cycles (us : Int) (i : Nat) : elapsedCycles .low (clock0 us i) = 1000 := by
  rw [C58_low_mod]
  have : ((clock0 us i).2.tsc - (clock0 us i).1.tsc).toNat = 1000 := by
    simp only [clock0, BitVec.toNat_sub, BitVec.toNat_ofNat]
    omega
  rw [this]
  rfl

/-- One second of executions of half a second: two, and so the standard deviations are reported as 0. -/
theorem clock0_two : Runs 64 .low (clock0 500000) 1 2 where
  secs0 := by decide
  secs1 := by decide
  noWrap := by intro i _ h; cases h
  fits i _ := clock0_fits (by decide) (by decide) i
  before m hm := by
    have : m = 0 ∨ m = 1 := by omega
    rcases this with rfl | rfl <;> simp [total, clock0_micros]
  after := by simp [total, clock0_micros, List.range_succ]
  time := by simp [total, clock0_micros, List.range_succ]
  cycles0 := by simp [total, clock0_cycles, List.range_succ]
  cycles1 := by simp [total, clock0_cycles, List.range_succ]

/-- One second of executions of 400000 microseconds: three. -/
theorem clock0_three : Runs 64 .low (clock0 400000) 1 3 where
  secs0 := by decide
  secs1 := by decide
  noWrap := by intro i _ h; cases h
  fits i _ := clock0_fits (by decide) (by decide) i
  before m hm := by
    have : m = 0 ∨ m = 1 ∨ m = 2 := by omega
    rcases this with rfl | rfl | rfl <;> simp [total, clock0_micros, List.range_succ]
  after := by simp [total, clock0_micros, List.range_succ]
  time := by simp [total, clock0_micros, List.range_succ]
  cycles0 := by simp [total, clock0_cycles, List.range_succ]
  cycles1 := by simp [total, clock0_cycles, List.range_succ]

/-- An operation that counts its executions. -/
example : Ret (TIME_OPERATION_SECONDS 64 .low (clock0 400000) (fun _ s => pure (s + 1)) 1 (0 : Nat))
    (fun r => r.1 = 3 ∧ r.2.iterations = 3) :=
  (C58_seconds (fun i s => s = i) clock0_three (by decide) rfl
    fun i s _ h => ⟨_, _, rfl, by rw [h]⟩).mono fun _ h => ⟨h.1, h.2.1⟩

example : ∃ n : Nat, (n : Int) ≤ 1000000 * 7 ∧ Runs 64 .low (clock0 400000) 7 n :=
  C58_ends (by decide) (by decide) (by intro i h; cases h) (clock0_fits (by decide) (by decide))
    (fun i => by rw [clock0_micros]; decide) (fun i => by rw [clock0_cycles]; decide)

/-- Five executions. -/
example := C58_iterations (w := 64) (k := .low) (clock := clock0 400000) (op := fun _ (s : Nat) => pure (s + 1))
  (n := 5) (s := 0) (fun i s => s = i) (by decide) (by intro i _ h; cases h)
  (fun i _ => clock0_fits (by decide) (by decide) i)
  (by simp [total, clock0_cycles, List.range_succ]) rfl (fun i s _ h => ⟨_, _, rfl, by rw [h]⟩)

/-- Two executions of 100 and 300 microseconds: 0 is reported instead of 100. -/
example : popStdev (firsts (fun i => elapsedMicros (clock0 (100 + 200 * i) i)) 2) = 100 := by
  have h := (C58_two (w := 64) (k := .low) (clock := fun i => clock0 (100 + 200 * i) i)
    (op := fun _ (s : Nat) => pure s) (s := 0) (fun _ _ => True) (by intro i _ h; cases h)
    (fun i hi => clock0_fits (by omega) (by omega) i)
    (by simp [total, clock0_cycles, List.range_succ]) (by simp [total, clock0_cycles, List.range_succ])
    trivial (fun _ _ _ _ => ⟨_, _, rfl, trivial⟩)).2.1
  rw [h, clock0_micros, clock0_micros]
  norm_num

/-- The low half of the counter wraps around. -/
example : elapsedCycles .low (⟨0, 0, 0x1fffffff0#64⟩, ⟨0, 0, 0x200000020#64⟩) = 0x30 :=
  C58_low (by decide)

example : elapsedCycles .high (⟨0, 0, 0x1fffffff0#64⟩, ⟨0, 0, 0x200000020#64⟩) = 1 := by decide

/-- The counter wraps around. -/
example := C58_full_wrap (w := 64) (clock := fun _ => (⟨0, 0, 0xfffffffffffffff0#64⟩, ⟨0, 0, 0x20#64⟩))
  (op := fun _ (s : Nat) => pure s) (s := 0) (fun _ _ => True) (by decide) (by decide)
  (C58_long64 _ (by norm_num) (by norm_num) (by norm_num) (by norm_num)) trivial
  (fun _ _ => ⟨_, _, rfl, trivial⟩)

example : STOP_TIMER 32 .full (clock0 5 0).1 (clock0 5 0).2 Timer.init = .ub .overflow :=
  C58_long32 _ _ _ _ (by norm_num [clock0])

/-- A clock that stands still. -/
example : TIME_OPERATION_SECONDS 64 .low (clock0 0) (fun _ (s : Nat) => pure s) 1 0 = .div :=
  C58_endless _ _ _ _ _ _ (by decide) (by decide) (clock0_fits (by decide) (by decide)) (clock0_micros 0)
    (by intro i s u h; cases h)

/-- A clock that is set back by a second. -/
example : TIME_OPERATION_SECONDS 64 .low (fun _ => (⟨100, 0, 0#64⟩, ⟨99, 5, 0#64⟩)) (fun _ (s : Nat) => pure s)
    1 0 = .ub .overflow :=
  C58_set_back _ _ _ _ _ _ 0 [] (by decide) (by decide)
    (C58_long64 _ (by norm_num) (by norm_num) (by norm_num) (by norm_num))
    (by norm_num [elapsedMicros]) rfl

/-- `randombytes` for `kem_bench`. -/
def benchRb0 (j : Nat) (_ : Nat) : RandomBytes :=
  if j < 2 then rbConst (List.replicate 16 1 ++ List.replicate 16 2 ++ List.replicate 16 3)
  else rbConst (List.replicate 16 4)

theorem benchRand0 (g : MatGen) {K : KemParams} (h : Standard frodo640 g K) : BenchRand K benchRb0 testRand0 := by
  have hw : TestRand.WF K testRand0 := by
    cases h
    exact ⟨rfl, rfl, rfl, rfl, rfl⟩
  exact ⟨hw, fun i => ⟨testRand0, hw, fills_const _⟩, fills_const _, fun i => ⟨testRand0.mu, hw.mu,
    fills_const _⟩, fills_const _⟩

/-- The hypotheses of C58_kem_bench and C58_main_bench can be met in every good build. -/
example (B : Build) (hB : Good B) := C58_kem_bench (P := frodo640) 64 .low (fun _ => clock0 400000) B E0 64
  benchRb0 1 3 3 3 testRand0 (.frodo640 _) hB (E0_all _) rfl (benchRand0 _ (.frodo640 _)) (by decide)
  clock0_three clock0_three clock0_three

example (B : Build) (hB : Good B) := C58_main_bench (P := frodo640) 64 .low (fun _ => clock0 400000) B E0
  ⟨64, 128, 256⟩ 64 testRb0 benchRb0 (fun _ => testRand0) 100 ["frodo640/test_KEM"] (.frodo640 _) hB (E0_all _)
  rfl rfl rfl
  (fun i _ => ⟨⟨rfl, rfl, rfl, rfl, rfl⟩, by
    unfold Delivers testRb0
    simp only [show (3 * i + 0) % 3 = 0 by omega, show (3 * i + 1) % 3 = 1 by omega,
      show (3 * i + 2) % 3 = 2 by omega]
    exact ⟨fills_const _, fills_const _, fills_const _⟩⟩) (by simp) 3 3 3 testRand0 rfl
  (benchRand0 _ (.frodo640 _)) clock0_three clock0_three clock0_three

end Frodo.Props
