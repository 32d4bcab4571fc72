import Verif.Model.Bench
import Verif.Spec.Statistics
import Verif.C.Logic
import Mathlib.Tactic.Ring
import Mathlib.Tactic.FieldSimp
import Mathlib.Tactic.Linarith
import Mathlib.Algebra.BigOperators.Group.List.Basic

/-! # The timers compute mean and standard deviation -/

namespace Frodo

open Spec

/-! ## Welford's recurrence -/

theorem firsts_succ (x : Nat → Int) (n : Nat) : firsts x (n + 1) = firsts x n ++ [(x n : ℝ)] := by
  simp [firsts, List.range_succ]

@[simp] theorem length_firsts (x : Nat → Int) (n : Nat) : (firsts x n).length = n := by simp [firsts]

theorem total_succ (x : Nat → Int) (n : Nat) : total x (n + 1) = total x n + x n := by
  simp [total, List.range_succ]

theorem sum_firsts (x : Nat → Int) (n : Nat) : (firsts x n).sum = (total x n : ℝ) := by
  induction n with
  | zero => simp [firsts, total]
  | succ n ih => rw [firsts_succ, total_succ, List.sum_append, ih]; simp

theorem sum_sq_dist (l : List ℝ) (m : ℝ) :
    (l.map fun x => (x - m) ^ 2).sum = (l.map (· ^ 2)).sum - 2 * m * l.sum + l.length * m ^ 2 := by
  induction l with
  | nil => simp
  | cons a l ih =>
    simp only [List.map_cons, List.sum_cons, ih, List.length_cons, Nat.cast_add, Nat.cast_one]
    ring

/-- The sum of squares from the sum and the sum of the squared numbers. -/
theorem squares_eq (l : List ℝ) (h : l ≠ []) :
    squares l = (l.map (· ^ 2)).sum - l.sum ^ 2 / l.length := by
  have hn : (l.length : ℝ) ≠ 0 := by
    simpa [List.length_eq_zero_iff] using h
  unfold squares
  rw [sum_sq_dist]
  unfold average
  field_simp
  ring

theorem average_step (l : List ℝ) (x : ℝ) :
    average l + (x - average l) / ((l.length + 1 : Nat) : ℝ) = average (l ++ [x]) := by
  have hn : ((l.length : ℝ) + 1) ≠ 0 := by positivity
  unfold average
  simp only [List.sum_append, List.sum_singleton, List.length_append, List.length_singleton]
  push_cast
  rcases Nat.eq_zero_or_pos l.length with h | h
  · rw [List.length_eq_zero_iff] at h
    subst h
    simp
  · have h' : (l.length : ℝ) ≠ 0 := by positivity
    field_simp
    ring

theorem squares_step (l : List ℝ) (x : ℝ) :
    squares l + (x - average l) * (x - average (l ++ [x])) = squares (l ++ [x]) := by
  rw [squares_eq (l ++ [x]) (by simp)]
  by_cases h : l = []
  · subst h
    simp [squares, average]
  · rw [squares_eq l h]
    have h0 : l.length ≠ 0 := by simpa [List.length_eq_zero_iff] using h
    have hn : ((l.length : ℝ) + 1) ≠ 0 := by positivity
    have h' : (l.length : ℝ) ≠ 0 := by exact_mod_cast h0
    unfold average
    simp only [List.sum_append, List.sum_singleton, List.length_append, List.length_singleton,
      List.map_append, List.map_cons, List.map_nil]
    push_cast
    field_simp
    ring

/-! ## The difference of two readings of the counter -/

/-- The difference that lines 120-122 compute. -/
def diff64 (a b : BitVec 64) : Int := ((if b < a then b + 1#64 <<< 32 else b) - a).toInt

theorem diff64_half {a b : BitVec 64} (ha : a.toNat < 2 ^ 32) (hb : b.toNat < 2 ^ 32) :
    diff64 a b = ((b.toNat : Int) - a.toNat) % 2 ^ 32 := by
  unfold diff64
  have h32 : (1#64 <<< 32).toNat = 2 ^ 32 := by decide
  split
  · rename_i h
    rw [BitVec.lt_def] at h
    rw [BitVec.toInt_eq_toNat_cond, BitVec.toNat_sub, BitVec.toNat_add, h32]
    have : (2 ^ 64 - a.toNat + (b.toNat + 2 ^ 32) % 2 ^ 64) % 2 ^ 64 = b.toNat + 2 ^ 32 - a.toNat := by
      omega
    rw [this, if_pos (by omega)]
    omega
  · rename_i h
    rw [BitVec.lt_def] at h
    rw [BitVec.toInt_eq_toNat_cond, BitVec.toNat_sub]
    have : (2 ^ 64 - a.toNat + b.toNat) % 2 ^ 64 = b.toNat - a.toNat := by omega
    rw [this, if_pos (by omega)]
    omega

theorem diff64_le {a b : BitVec 64} (h : a.toNat ≤ b.toNat) (hd : b.toNat - a.toNat < 2 ^ 63) :
    diff64 a b = (b.toNat : Int) - a.toNat := by
  unfold diff64
  rw [if_neg (by rw [BitVec.lt_def]; omega), BitVec.toInt_eq_toNat_cond, BitVec.toNat_sub]
  have := a.isLt
  have := b.isLt
  have : (2 ^ 64 - a.toNat + b.toNat) % 2 ^ 64 = b.toNat - a.toNat := by omega
  rw [this, if_pos (by omega)]
  omega

/-! ## The timer -/

/-- The variables after the iterations with the counts `x` and the times `y`. -/
structure TimerIs (x y : Nat → Int) (n : Nat) (t : Timer) : Prop where
  iterations : t.iterations = n
  cyclesCumulative : t.cyclesCumulative = BitVec.ofInt 64 (total x n)
  cyclesMean : t.cyclesMean = average (firsts x n)
  cyclesM2 : t.cyclesM2 = squares (firsts x n)
  timeCumulative : t.timeCumulative = (total y n : ℝ)
  timeMean : t.timeMean = average (firsts y n)
  timeM2 : t.timeM2 = squares (firsts y n)

theorem timer_init (x y : Nat → Int) : TimerIs x y 0 Timer.init := by
  constructor <;> simp [Timer.init, total, firsts, average, squares]

/-- `long` can hold the time of the reading. -/
def FitsLong (w : Nat) (v : Int) : Prop := -2 ^ (w - 1) ≤ v ∧ v < 2 ^ (w - 1)

theorem inLong_of {w : Nat} {v : Int} (h : FitsLong w v) : inLong w v = pure v := if_pos h

theorem micros_ret {w : Nat} {r : Reading} {P : Int → Prop} (h1 : FitsLong w (r.sec * 1000000))
    (h2 : FitsLong w (r.sec * 1000000 + r.usec)) (hp : P (r.sec * 1000000 + r.usec)) :
    Ret (micros w r) P := by
  unfold micros
  rw [inLong_of h1, pure_bind, inLong_of h2]
  exact ⟨_, _, rfl, hp⟩

theorem STOP_TIMER_ret {w : Nat} {k : Counter} {s e : Reading} {x y : Nat → Int} {n : Nat} {t : Timer}
    (ht : TimerIs x y n t) (hx : x n = diff64 (k.rdtsc s.tsc) (k.rdtsc e.tsc))
    (hy : y n = (e.sec * 1000000 + e.usec) - (s.sec * 1000000 + s.usec))
    (h1 : FitsLong w (s.sec * 1000000)) (h2 : FitsLong w (s.sec * 1000000 + s.usec))
    (h3 : FitsLong w (e.sec * 1000000)) (h4 : FitsLong w (e.sec * 1000000 + e.usec))
    (h5 : FitsLong w (y n)) :
    Ret (STOP_TIMER w k s e t) (TimerIs x y (n + 1)) := by
  unfold STOP_TIMER
  simp only
  refine Ret.bind (Q := fun b => b = if k.rdtsc e.tsc < k.rdtsc s.tsc then k.rdtsc e.tsc + 1#64 <<< 32
    else k.rdtsc e.tsc) ?_ ?_
  · by_cases h : k.rdtsc e.tsc < k.rdtsc s.tsc
    · rw [if_pos h, decide_eq_true h]
      exact ⟨_, _, rfl, rfl⟩
    · rw [if_neg h, decide_eq_false h]
      exact ⟨_, _, rfl, rfl⟩
  rintro b rfl
  refine Ret.bind (micros_ret h3 h4 (P := fun v => v = e.sec * 1000000 + e.usec) rfl) ?_
  rintro _ rfl
  refine Ret.bind (micros_ret h1 h2 (P := fun v => v = s.sec * 1000000 + s.usec) rfl) ?_
  rintro _ rfl
  rw [← hy]
  rw [inLong_of h5, pure_bind]
  have hd : ((if k.rdtsc e.tsc < k.rdtsc s.tsc then k.rdtsc e.tsc + 1#64 <<< 32
    else k.rdtsc e.tsc) - k.rdtsc s.tsc).toInt = x n := hx.symm
  rw [hd, ht.iterations, ht.cyclesMean, ht.cyclesM2, ht.timeCumulative, ht.timeMean, ht.timeM2,
    ht.cyclesCumulative]
  have a1 := average_step (firsts x n) (x n)
  have a2 := average_step (firsts y n) (y n)
  rw [length_firsts, ← firsts_succ] at a1 a2
  rw [a1, a2, Ret_pure]
  refine ⟨rfl, ?_, rfl, ?_, ?_, rfl, ?_⟩
  · rw [total_succ, BitVec.ofInt_add]
  · have := squares_step (firsts x n) (x n)
    rwa [← firsts_succ] at this
  · rw [total_succ]; push_cast; rfl
  · have := squares_step (firsts y n) (y n)
    rwa [← firsts_succ] at this

/-! ## The report -/

theorem FINALIZE_TIMER_ret {x y : Nat → Int} {n : Nat} {t : Timer} (ht : TimerIs x y n t) (hn : n ≠ 0)
    (h0 : 0 ≤ total x n) (h1 : total x n < 2 ^ 64) :
    Ret (FINALIZE_TIMER t) (fun r => r = ⟨n, (total y n : ℝ) / 1000000, average (firsts y n),
      some (if n = 2 then 0 else popStdev (firsts y n)), some (average (firsts x n)),
      some (if n = 2 then 0 else popStdev (firsts x n))⟩) := by
  have hcum : ((BitVec.ofInt 64 (total x n)).toNat : ℝ) = (total x n : ℝ) := by
    rw [BitVec.toNat_ofInt]
    have : (((total x n % (2 ^ 64 : Nat) : Int).toNat : Int)) = total x n := by
      rw [Int.emod_eq_of_lt h0 (by exact_mod_cast h1)]
      omega
    exact_mod_cast congrArg (fun v : Int => (v : ℝ)) this
  have hdiv : ∀ v : ℝ, divIter v n = some (v / (n : ℝ)) := fun v => if_neg hn
  unfold FINALIZE_TIMER
  rw [ht.iterations, ht.cyclesM2, ht.timeM2, ht.timeCumulative, ht.timeMean, ht.cyclesCumulative,
    hdiv, hdiv, hdiv, hcum]
  have hav : (total x n : ℝ) / (n : ℝ) = average (firsts x n) := by
    unfold average; rw [sum_firsts, length_firsts]
  rw [hav]
  by_cases h : n = 2
  · simp only [if_pos h, decide_eq_true h]
    exact ⟨_, _, rfl, rfl⟩
  · simp only [if_neg h, decide_eq_false h]
    refine ⟨_, _, rfl, ?_⟩
    simp only [Option.map_some, popStdev, length_firsts]

theorem FINALIZE_TIMER_zero {x y : Nat → Int} {t : Timer} (ht : TimerIs x y 0 t) :
    Ret (FINALIZE_TIMER t) (fun r => r = ⟨0, 0, 0, none, none, none⟩) := by
  unfold FINALIZE_TIMER
  rw [ht.iterations, ht.timeCumulative, ht.timeMean]
  have hdiv : ∀ v : ℝ, divIter v 0 = none := fun v => if_pos rfl
  rw [hdiv, hdiv, hdiv]
  refine ⟨_, _, rfl, ?_⟩
  simp [total, firsts, average]

end Frodo
