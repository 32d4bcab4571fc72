import Verif.Model.SelfTest
import Mathlib.Analysis.Real.Sqrt
import Mathlib.Algebra.Order.Floor.Ring
import Mathlib.Algebra.Order.Archimedean.Real.Basic

/-! # Model of the benchmark /repo/tests/ds_benchmark.h and of `kem_bench` and `main` of /repo/tests/test_kem.c

What the clock and the cycle counter of the processor show at each reading is a parameter.  Numbers of
type `double` are real numbers without rounding: this is exact for the readings and for the total time
(integers below 2^53) and a simplification for the mean and for `M2`.  The counter of iterations of type
`int64_t` is a natural number (it would overflow after 2^63 iterations). -/

namespace Frodo

noncomputable section

/-- What a reading finds: the `struct timeval` of `gettimeofday` and the counter of the processor that
the instruction RDTSC reads (/repo/tests/ds_benchmark.h:109-110, 117-118). -/
structure Reading where
  sec : Int
  usec : Int
  tsc : BitVec 64

/-- The variants of `rdtsc` (/repo/tests/ds_benchmark.h:75-89), except the one for ARM: `full` for Windows
and 32-bit x86; `low` and `high` for 64-bit x86 on other systems, where the constraint `"=A"` lets the
compiler choose one of the registers RAX and RDX (manual of gcc, "Constraints for Particular Machines")
and the instruction writes the low half of the counter to RAX and the high half to RDX; `none` for the
last `return 0`. -/
inductive Counter where
  | full | low | high | none

/-- `rdtsc()` (/repo/tests/ds_benchmark.h:75-89). -/
def Counter.rdtsc (k : Counter) (tsc : BitVec 64) : BitVec 64 :=
  match k with
  | .full => tsc
  | .low => tsc &&& 0xffffffff#64
  | .high => tsc >>> 32
  | .none => 0#64

/-- The variables that keep their values from one iteration to the next
(/repo/tests/ds_benchmark.h:92-98). -/
structure Timer where
  iterations : Nat
  cyclesCumulative : BitVec 64
  cyclesMean : ℝ
  cyclesM2 : ℝ
  timeCumulative : ℝ
  timeMean : ℝ
  timeM2 : ℝ

/-- `DEFINE_TIMER_VARIABLES INITIALIZE_TIMER` (/repo/tests/ds_benchmark.h:92-106). -/
def Timer.init : Timer := ⟨0, 0#64, 0, 0, 0, 0, 0⟩

/-- Result of a signed operation on `long` of `w` bits, the type of `tv_sec` and `tv_usec`; undefined if
out of range (C11 6.5p5), as used in /repo/tests/ds_benchmark.h:128. -/
def inLong (w : Nat) (x : Int) : C Int :=
  if -2 ^ (w - 1) ≤ x ∧ x < 2 ^ (w - 1) then pure x else C.ub .overflow

/-- `r.tv_sec * 1000000 + r.tv_usec` (/repo/tests/ds_benchmark.h:128). -/
def micros (w : Nat) (r : Reading) : C Int := do
  let a ← inLong w (r.sec * 1000000)
  inLong w (a + r.usec)

/-- `STOP_TIMER` (/repo/tests/ds_benchmark.h:116-132), where `START_TIMER` (lines 108-110) found the
reading `s` and `STOP_TIMER` the reading `e`.  The assignments of lines 121-122 convert to `int64_t`
modulo 2^64 as every supported compiler does (C11 6.3.1.3p3). -/
def STOP_TIMER (w : Nat) (k : Counter) (s e : Reading) (t : Timer) : C Timer := do
  let start := k.rdtsc s.tsc
  let stop := k.rdtsc e.tsc
  let n := t.iterations + 1
  let stop ← ifC (decide (stop < start)) (pure (stop + 1#64 <<< 32)) (pure stop)
  let diff : Int := (stop - start).toInt
  let cumulative := t.cyclesCumulative + BitVec.ofInt 64 diff
  let x : ℝ := diff
  let delta := x - t.cyclesMean
  let mean := t.cyclesMean + delta / (n : ℝ)
  let M2 := t.cyclesM2 + delta * (x - mean)
  let ue ← micros w e
  let us ← micros w s
  let d ← inLong w (ue - us)
  let y : ℝ := d
  let tdelta := y - t.timeMean
  let tmean := t.timeMean + tdelta / (n : ℝ)
  let tM2 := t.timeM2 + tdelta * (y - tmean)
  pure ⟨n, cumulative, mean, M2, t.timeCumulative + y, tmean, tM2⟩

/-- What `PRINT_TIMER_AVG` prints (/repo/tests/ds_benchmark.h:148-155), before it is rounded; `none` is
the result of the division of 0 by 0. -/
structure Report where
  iterations : Nat
  total : ℝ
  timeMean : ℝ
  timeStdev : Option ℝ
  cyclesMean : Option ℝ
  cyclesStdev : Option ℝ

/-- Division by `(double) _bench_iterations` (/repo/tests/ds_benchmark.h:136, 138, 154): if there was no
iteration the dividend is 0 as well and the result is not a number. -/
def divIter (x : ℝ) (n : Nat) : Option ℝ := if n = 0 then none else some (x / (n : ℝ))

/-- `FINALIZE_TIMER PRINT_TIMER_AVG` (/repo/tests/ds_benchmark.h:134-138, 153-154). -/
def FINALIZE_TIMER (t : Timer) : C Report := do
  let cs ← ifC (decide (t.iterations = 2)) (pure (some 0))
    (pure ((divIter t.cyclesM2 t.iterations).map Real.sqrt))
  let ts ← ifC (decide (t.iterations = 2)) (pure (some 0))
    (pure ((divIter t.timeM2 t.iterations).map Real.sqrt))
  pure ⟨t.iterations, t.timeCumulative / 1000000, t.timeMean, ts,
    divIter (t.cyclesCumulative.toNat : ℝ) t.iterations, cs⟩

/-- `TIME_OPERATION_ITERATIONS(op, op_name, it)` (/repo/tests/ds_benchmark.h:157-168); `op i` is the
`i`-th execution of the operation and `clock i` the readings before and after it. -/
def TIME_OPERATION_ITERATIONS (w : Nat) (k : Counter) (clock : Nat → Reading × Reading)
    (op : Nat → σ → C σ) (it : Nat) (s : σ) : C (σ × Report) := do
  let (s, t) ← forC 0 it 1 (s, Timer.init) (fun i (s, t) => do
    let s ← op i s
    let t ← STOP_TIMER w k (clock i).1 (clock i).2 t
    pure (s, t))
  let r ← FINALIZE_TIMER t
  pure (s, r)

/-- The condition `(uint64_t)_bench_time_cumulative < _bench_time_goal_usecs`
(/repo/tests/ds_benchmark.h:175).  The conversion cuts off the fraction; it is undefined if the result
is not in the range of `uint64_t` (C11 6.3.1.4p1). -/
def belowGoal (goal : Nat) (t : Timer) : C Bool := do
  C.require (-1 < t.timeCumulative ∧ t.timeCumulative < 2 ^ 64) .overflow
  pure (decide (⌊t.timeCumulative⌋.toNat < goal))

/-- One pass of the loop of /repo/tests/ds_benchmark.h:175-179 with the condition for the next one. -/
def timedPass (w : Nat) (k : Counter) (clock : Nat → Reading × Reading) (op : Nat → σ → C σ) (goal : Nat)
    (x : σ × Timer × Bool) : C (σ × Timer × Bool) := do
  let i := x.2.1.iterations
  let s ← op i x.1
  let t ← STOP_TIMER w k (clock i).1 (clock i).2 x.2.1
  let b ← belowGoal goal t
  pure (s, t, b)

/-- `TIME_OPERATION_SECONDS(op, op_name, secs)` (/repo/tests/ds_benchmark.h:170-182) for an `int` `secs`;
`op i` is the `i`-th execution of the operation and `clock i` the readings before and after it. -/
def TIME_OPERATION_SECONDS (w : Nat) (k : Counter) (clock : Nat → Reading × Reading)
    (op : Nat → σ → C σ) (secs : Int) (s : σ) : C (σ × Report) := do
  let g ← int (1000000 * secs)
  let goal := (BitVec.ofInt 64 g).toNat
  let b ← belowGoal goal Timer.init
  let x ← whileC (fun x : σ × Timer × Bool => x.2.2) (timedPass w k clock op goal) (s, Timer.init, b)
  let r ← FINALIZE_TIMER x.2.1
  pure (x.1, r)

/-- The arrays of `kem_bench` (/repo/tests/test_kem.c:92-95). -/
structure BenchSt where
  pk : List U8
  sk : List U8
  ss_encap : List U8
  ss_decap : List U8
  ct : List U8

/-- The call of /repo/tests/test_kem.c:97, 99. -/
def benchKeypair (B : Build) (E : Env) (P : Params) (rb : RandomBytes) (s : BenchSt) : C BenchSt := do
  let kp ← crypto_kem_keypair B E P rb s.pk s.sk
  pure { s with pk := kp.pk, sk := kp.sk }

/-- The call of /repo/tests/test_kem.c:100, 102. -/
def benchEnc (B : Build) (E : Env) (P : Params) (rb : RandomBytes) (s : BenchSt) : C BenchSt := do
  let en ← crypto_kem_enc B E P rb s.ct s.ss_encap s.pk
  pure { s with ct := en.ct, ss_encap := en.ss }

/-- The call of /repo/tests/test_kem.c:103; `a` is the address of `sk`. -/
def benchDec (B : Build) (E : Env) (P : Params) (a : Nat) (s : BenchSt) : C BenchSt := do
  let de ← crypto_kem_dec B E P a s.ss_decap s.ct s.sk
  pure { s with ss_decap := de.ss }

/-- `kem_bench` (/repo/tests/test_kem.c:90-104): the final contents of its arrays and the three lines that
it prints.  `clock j` are the readings of the `j`-th measurement; `rb 0 i` and `rb 2 i` are the calls of
`randombytes` in the measurements of lines 97 and 100, `rb 1 0` and `rb 3 0` those in lines 99 and 102. -/
def kem_bench (w : Nat) (k : Counter) (clock : Nat → Nat → Reading × Reading) (B : Build) (E : Env)
    (P : Params) (a : Nat) (rb : Nat → Nat → RandomBytes) (seconds : Int) :
    C (BenchSt × Report × Report × Report) := do
  let s0 : BenchSt := ⟨uninit E.junk 82 8 P.pkBytes, uninit E.junk 83 8 P.skBytes,
    uninit E.junk 84 8 P.bytes, uninit E.junk 85 8 P.bytes, uninit E.junk 86 8 P.ctBytes⟩
  let r0 ← TIME_OPERATION_SECONDS w k (clock 0) (fun i => benchKeypair B E P (rb 0 i)) seconds s0
  let s1 ← benchKeypair B E P (rb 1 0) r0.1
  let r1 ← TIME_OPERATION_SECONDS w k (clock 1) (fun i => benchEnc B E P (rb 2 i)) seconds s1
  let s2 ← benchEnc B E P (rb 3 0) r1.1
  let r2 ← TIME_OPERATION_SECONDS w k (clock 2) (fun _ => benchDec B E P a) seconds s2
  pure (r2.1, r0.2, r1.2, r2.2)

/-- `main` (/repo/tests/test_kem.c:107-124): the value that it returns, for the arguments `argv`, and
whether it ran the benchmark.  `EXIT_SUCCESS` is 0 and `EXIT_FAILURE` is 1, as on every supported system;
`ta` are the addresses of the arrays of `kem_test` and `a` is that of `sk` in `kem_bench`; `iterations` is
`KEM_TEST_ITERATIONS` (lines 14-18). -/
def main_test_kem (w : Nat) (k : Counter) (clock : Nat → Nat → Reading × Reading) (B : Build) (E : Env)
    (P : Params) (ta : TestAddr) (a : Nat) (rbt : Nat → RandomBytes) (rb : Nat → Nat → RandomBytes)
    (iterations : Nat) (argv : List String) : C (Int × Bool) := do
  let OK ← kem_test B E P ta rbt iterations
  ifC (decide (OK ≠ true)) (pure (1, false)) do
    ifC (decide (1 < argv.length ∧ argv[1]? = some "nobench")) (pure (0, false)) do
      let _ ← kem_bench w k clock B E P a rb 1
      pure (0, true)

end

end Frodo
