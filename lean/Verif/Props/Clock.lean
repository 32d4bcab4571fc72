import Verif.Model.Clock
import Verif.Props.Bench

/-! # C58: the clocks on Windows and on ARM -/

namespace Frodo.Props

/-- Milliseconds from the beginning of 1601 to the beginning of 1970: 369 years of which 89 are leap years. -/
def epoch1970 : Nat := (369 * 365 + 89) * 24 * 60 * 60 * 1000

theorem filetime {ms : Nat} (h : ms * 10000 < 2 ^ 64) :
    ((winTime ms).low.setWidth 64 + ((winTime ms).high.setWidth 64) <<< 32).toNat = ms * 10000 := by
  unfold winTime
  simp only
  rw [BitVec.toNat_add, BitVec.toNat_shiftLeft, BitVec.toNat_setWidth, BitVec.toNat_setWidth,
    BitVec.toNat_ofNat, BitVec.toNat_ofNat, Nat.shiftLeft_eq]
  omega

theorem toLong_eq {w x : Nat} (h0 : 0 < w) (h : x < 2 ^ (w - 1)) : toLong w x = x := by
  obtain ⟨w, rfl⟩ : ∃ v, w = v + 1 := ⟨w - 1, by omega⟩
  rw [Nat.add_sub_cancel] at h
  unfold toLong
  rw [BitVec.toInt_eq_toNat_of_lt]
  · rw [BitVec.toNat_ofNat, Nat.mod_eq_of_lt (by rw [Nat.pow_succ]; omega)]
  · rw [BitVec.toNat_ofNat, Nat.mod_eq_of_lt (by rw [Nat.pow_succ]; omega), Nat.pow_succ]
    omega

/-- C58 (Windows): from the beginning of 1970 on, as long as the seconds fit in `long`, `gettimeofday` gives the
time since then, exact to the millisecond. -/
theorem C58_windows {w ms : Nat} (hw : 32 ≤ w) (h0 : epoch1970 ≤ ms) (h1 : ms * 10000 < 2 ^ 64)
    (h2 : (ms - epoch1970) / 1000 < 2 ^ (w - 1)) :
    (gettimeofday w (winTime ms)).1 = ((ms - epoch1970) / 1000 : Nat) ∧
    (gettimeofday w (winTime ms)).2 = ((ms - epoch1970) % 1000 * 1000 : Nat) := by
  have he : epoch1970 = 11644473600 * 1000 := by decide
  have hp : 2 ^ 31 ≤ 2 ^ (w - 1) := Nat.pow_le_pow_right (by decide) (by omega)
  have e1 : (116444736000000000#64).toNat = epoch1970 * 10000 := by decide
  generalize epoch1970 = e0 at *
  obtain ⟨d, rfl⟩ := Nat.exists_eq_add_of_le h0
  rw [Nat.add_sub_cancel_left] at h2 ⊢
  unfold gettimeofday
  simp only
  constructor
  · have e : (((winTime (e0 + d)).low.setWidth 64 +
        ((winTime (e0 + d)).high.setWidth 64) <<< 32 - 116444736000000000#64) /
        10000000#64).toNat = d / 1000 := by
      have e2 : (10000000#64).toNat = 10000000 := by decide
      rw [BitVec.toNat_udiv, BitVec.toNat_sub_of_le
        (by rw [BitVec.le_def, filetime h1, e1, Nat.add_mul]; omega), filetime h1, e1, e2]
      omega
    rw [e, toLong_eq (by omega) h2]
  · have e : (winTime (e0 + d)).wMilliseconds.toNat = d % 1000 := by
      show (BitVec.ofNat 16 ((e0 + d) % 1000)).toNat = _
      rw [BitVec.toNat_ofNat, he, Nat.mul_add_mod_self_right]
      omega
    clear e1 he h1
    rw [e, toLong_eq (by omega) (by omega)]

/-- C58 (Windows): between two readings the benchmark sees the time to the millisecond. -/
theorem C58_windows_elapsed {w ms ms' : Nat} (hw : 32 ≤ w) (h0 : epoch1970 ≤ ms) (h0' : epoch1970 ≤ ms')
    (h1 : ms * 10000 < 2 ^ 64) (h1' : ms' * 10000 < 2 ^ 64)
    (h2 : (ms - epoch1970) / 1000 < 2 ^ (w - 1)) (h2' : (ms' - epoch1970) / 1000 < 2 ^ (w - 1))
    (tsc tsc' : BitVec 64) :
    elapsedMicros (⟨(gettimeofday w (winTime ms)).1, (gettimeofday w (winTime ms)).2, tsc⟩,
      ⟨(gettimeofday w (winTime ms')).1, (gettimeofday w (winTime ms')).2, tsc'⟩) =
      1000 * ((ms' : Int) - ms) := by
  have a := C58_windows hw h0 h1 h2
  have b := C58_windows hw h0' h1' h2'
  unfold elapsedMicros
  simp only
  rw [a.1, a.2, b.1, b.2]
  omega

/-- C58 (a way to violate C, Windows): with the `long` of 32 bits that Windows has, every execution that ends
between the first hour of 1970 and the year 2038 makes the benchmark overflow. -/
theorem C58_windows_overflow {ms : Nat} (h0 : epoch1970 + 2148000 ≤ ms)
    (h1 : (ms - epoch1970) / 1000 < 2 ^ 31) (k : Counter) (s : Reading) (tsc : BitVec 64) (t : Timer) :
    STOP_TIMER 32 k s ⟨(gettimeofday 32 (winTime ms)).1, (gettimeofday 32 (winTime ms)).2, tsc⟩ t =
      .ub .overflow := by
  have key : ∀ e0, e0 * 10000 < 2 ^ 63 → e0 + 2148000 ≤ ms → (ms - e0) / 1000 < 2 ^ 31 →
      e0 ≤ ms ∧ ms * 10000 < 2 ^ 64 ∧ 2148 ≤ (ms - e0) / 1000 := by omega
  obtain ⟨k1, k2, k3⟩ := key epoch1970 (by decide) h0 h1
  refine C58_long32 k s _ t ?_
  simp only
  rw [(C58_windows (ms := ms) (w := 32) (by decide) k1 k2 h1).1]
  exact_mod_cast k3

/-! ## ARM -/

theorem toDouble_near {v k : Nat} (h : v < 2 ^ (k + 53)) :
    v ≤ toDouble v + 2 ^ k / 2 ∧ toDouble v ≤ v + 2 ^ k / 2 := by
  have hu : 2 ^ (v.log2 - 52) ≤ 2 ^ k := by
    refine Nat.pow_le_pow_right (by decide) ?_
    by_cases h0 : v = 0
    · subst h0; simp
    · have := (Nat.log2_lt h0).2 h
      omega
  unfold toDouble
  simp only
  have hp : 0 < 2 ^ (v.log2 - 52) := Nat.pow_pos (by decide)
  generalize 2 ^ (v.log2 - 52) = u at *
  have hd := Nat.div_add_mod v u
  have hm := Nat.mod_lt v hp
  rw [Nat.mul_comm] at hd
  split
  · omega
  · next hn =>
    rw [Nat.add_mul]
    omega

/-- Numbers below 2^53 are not rounded. -/
theorem toDouble_small {v : Nat} (h : v < 2 ^ 53) : toDouble v = v := by
  have := toDouble_near (k := 0) h
  omega

/-- C58 (ARM): until the year 2043 the counter is the time in nanoseconds with an error of at most 256, because the
arithmetic is that of `double`. -/
theorem C58_arm {sec nsec : Nat} (h1 : sec ≤ 2305843007) (h2 : nsec < 1000000000) :
    (rdtscArm sec nsec).toNat ≤ sec * 1000000000 + nsec + 256 ∧
    sec * 1000000000 + nsec ≤ (rdtscArm sec nsec).toNat + 256 := by
  have a := toDouble_near (v := sec * 1000000000) (k := 8) (by omega)
  have b := toDouble_near (v := toDouble (sec * 1000000000) + nsec) (k := 8) (by omega)
  unfold rdtscArm
  rw [BitVec.toNat_ofNat, Nat.mod_eq_of_lt (by omega)]
  omega

/-- C58 (ARM): the number of nanoseconds that the benchmark computes between two readings is wrong by at most 512. -/
theorem C58_arm_elapsed {sec nsec sec' nsec' : Nat} (h1 : sec ≤ 2305843007) (h2 : nsec < 1000000000)
    (h1' : sec' ≤ 2305843007) (h2' : nsec' < 1000000000) (s u s' u' : Int) :
    |elapsedCycles .full (⟨s, u, rdtscArm sec nsec⟩, ⟨s', u', rdtscArm sec' nsec'⟩) -
      ((sec' * 1000000000 + nsec' : Int) - (sec * 1000000000 + nsec))| ≤ 512 := by
  have a := C58_arm h1 h2
  have b := C58_arm h1' h2'
  show |((rdtscArm sec' nsec').toNat : Int) - (rdtscArm sec nsec).toNat - _| ≤ 512
  rw [abs_le]
  omega

/-- C58 (ARM): the error is there.  In 2026 a reading 126 nanoseconds after another gives the same
number. -/
theorem C58_arm_same : rdtscArm 1794700000 1 = rdtscArm 1794700000 127 ∧
    rdtscArm 1794700000 1 ≠ rdtscArm 1794700000 129 := by
  decide +kernel

/-! ## Examples -/

/-- 2026-11-15, 10:00:00.250. -/
def ms2026 : Nat := epoch1970 + 1794736800250

example : gettimeofday 32 (winTime ms2026) = (1794736800, 250000) := by decide +kernel

example : gettimeofday 32 (winTime ms2026) = (1794736800, 250000) :=
  Prod.ext (C58_windows (by decide) (by decide) (by decide) (by decide)).1
    (C58_windows (by decide) (by decide) (by decide) (by decide)).2

example (s : Reading) : STOP_TIMER 32 .full s ⟨(gettimeofday 32 (winTime ms2026)).1,
    (gettimeofday 32 (winTime ms2026)).2, 7#64⟩ Timer.init = .ub .overflow :=
  C58_windows_overflow (by decide) (by decide) _ _ _ _

example := C58_arm (sec := 1794700000) (nsec := 127) (by decide) (by decide)

end Frodo.Props
