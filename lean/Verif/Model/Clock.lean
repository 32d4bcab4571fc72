import Verif.Model.Bench

/-! # The clocks of /repo/tests/ds_benchmark.h on Windows and on ARM -/

namespace Frodo

/-- Conversion to `long` of `w` bits, modulo `2^w` as every supported compiler does (C11 6.3.1.3p3), as used in
/repo/tests/ds_benchmark.h:67-68. -/
def toLong (w : Nat) (x : Nat) : Int := (BitVec.ofNat w x).toInt

/-- `GetSystemTime` and `SystemTimeToFileTime` (/repo/tests/ds_benchmark.h:62-63) at the time of `ms` milliseconds
since the beginning of 1601: the members `dwLowDateTime` and `dwHighDateTime` of the `FILETIME`, which counts
100 nanoseconds, and the member `wMilliseconds` of the `SYSTEMTIME` (documentation of the Windows API). -/
structure WinTime where
  low : BitVec 32
  high : BitVec 32
  wMilliseconds : BitVec 16

/-- What Windows answers (/repo/tests/ds_benchmark.h:62-63). -/
def winTime (ms : Nat) : WinTime where
  low := BitVec.ofNat 32 (ms * 10000)
  high := BitVec.ofNat 32 (ms * 10000 / 2 ^ 32)
  wMilliseconds := BitVec.ofNat 16 (ms % 1000)

/-- `gettimeofday` for Windows (/repo/tests/ds_benchmark.h:55-71): the members `tv_sec` and `tv_usec` of type
`long` with `w` bits (32 on Windows). -/
def gettimeofday (w : Nat) (t : WinTime) : Int × Int :=
  let EPOCH := 116444736000000000#64
  let time := t.low.setWidth 64
  let time := time + (t.high.setWidth 64) <<< 32
  (toLong w ((time - EPOCH) / 10000000#64).toNat, toLong w (t.wMilliseconds.toNat * 1000))

/-- The `double` next to a natural number, ties to even (IEEE 754; 53 significant bits), for the arithmetic of
/repo/tests/ds_benchmark.h:84. -/
def toDouble (v : Nat) : Nat :=
  let u := 2 ^ (v.log2 - 52)
  if 2 * (v % u) < u ∨ 2 * (v % u) = u ∧ v / u % 2 = 0 then v / u * u else (v / u + 1) * u

/-- `rdtsc` for ARM (/repo/tests/ds_benchmark.h:82-84), where `clock_gettime` finds `sec` and `nsec`: the
multiplication by `1e9` and the addition are those of `double`. -/
def rdtscArm (sec nsec : Nat) : BitVec 64 :=
  BitVec.ofNat 64 (toDouble (toDouble (sec * 1000000000) + nsec))

end Frodo
