import Verif.C.Types

/-! # Parameter sets -/

namespace Frodo

/-- Which SHAKE the macro `shake` stands for (/repo/src/frodo640.c:29, frodo976.c:29,
frodo1344.c:29). -/
inductive ShakeVar where
  | shake128 | shake256
  deriving DecidableEq, Repr

/-- The macros that a parameter file defines (/repo/src/frodo640.c:13-33,
/repo/src/api_frodo640.h:11-14). -/
structure Params where
  /-- `PARAMS_N` -/
  n : Nat
  /-- `PARAMS_NBAR` -/
  nbar : Nat
  /-- `PARAMS_LOGQ` -/
  logq : Nat
  /-- `PARAMS_EXTRACTED_BITS` -/
  B : Nat
  /-- `PARAMS_STRIPE_STEP` -/
  stripe : Nat
  /-- `BYTES_SEED_A` -/
  seedA : Nat
  /-- `CRYPTO_BYTES` = `BYTES_PKHASH` -/
  bytes : Nat
  /-- `CRYPTO_SECRETKEYBYTES` -/
  skBytes : Nat
  /-- `CRYPTO_PUBLICKEYBYTES` -/
  pkBytes : Nat
  /-- `CRYPTO_CIPHERTEXTBYTES` -/
  ctBytes : Nat
  /-- macro `shake` -/
  shake : ShakeVar
  /-- `CDF_TABLE` (with `CDF_TABLE_LEN` its length) -/
  cdf : List U16

/-- `BYTES_MU` (/repo/src/frodo640.c:21). -/
def Params.bytesMu (P : Params) : Nat := P.B * P.nbar * P.nbar / 8

/-- The relations between the macros that the code relies on (as the values of
/repo/src/frodo640.c:13-33, frodo976.c:13-33, frodo1344.c:13-33 and /repo/src/api_frodo640.h:11-14
satisfy them). -/
structure Params.WF (P : Params) : Prop where
  n16 : 16 ∣ P.n
  nbar8 : 8 ∣ P.nbar
  n_lt : P.n < 2 ^ 15
  nbar_lt : P.nbar < 2 ^ 15
  logq_le : P.logq ≤ 16
  B_pos : 1 ≤ P.B
  B_lt : P.B < P.logq
  B_le : P.B ≤ 8
  stripe : P.stripe = 8
  seedA : P.seedA = 16
  bytes : P.bytes = P.bytesMu
  pk : P.pkBytes = P.seedA + P.logq * P.n * P.nbar / 8
  sk : P.skBytes = P.bytes + P.pkBytes + 2 * P.n * P.nbar + P.bytes
  ct : P.ctBytes = P.logq * P.n * P.nbar / 8 + P.logq * P.nbar * P.nbar / 8
  cdf : ∀ c ∈ P.cdf, c.toNat < 2 ^ 15
  cdf_len : P.cdf.length < 2 ^ 15

/-- FrodoKEM-640 (/repo/src/frodo640.c:13-33, /repo/src/api_frodo640.h:11-14). -/
def frodo640 : Params where
  n := 640
  nbar := 8
  logq := 15
  B := 2
  stripe := 8
  seedA := 16
  bytes := 16
  skBytes := 19888
  pkBytes := 9616
  ctBytes := 9720
  shake := .shake128
  cdf := [4643, 13363, 20579, 25843, 29227, 31145, 32103, 32525, 32689, 32745, 32762, 32766, 32767]

/-- FrodoKEM-976 (/repo/src/frodo976.c:13-33, /repo/src/api_frodo976.h:11-14). -/
def frodo976 : Params where
  n := 976
  nbar := 8
  logq := 16
  B := 3
  stripe := 8
  seedA := 16
  bytes := 24
  skBytes := 31296
  pkBytes := 15632
  ctBytes := 15744
  shake := .shake256
  cdf := [5638, 15915, 23689, 28571, 31116, 32217, 32613, 32731, 32760, 32766, 32767]

/-- FrodoKEM-1344 (/repo/src/frodo1344.c:13-33, /repo/src/api_frodo1344.h:11-14). -/
def frodo1344 : Params where
  n := 1344
  nbar := 8
  logq := 16
  B := 4
  stripe := 8
  seedA := 16
  bytes := 32
  skBytes := 43088
  pkBytes := 21520
  ctBytes := 21632
  shake := .shake256
  cdf := [9142, 23462, 30338, 32361, 32725, 32765, 32767]

theorem frodo640_WF : frodo640.WF := by constructor <;> simp [frodo640, Params.bytesMu] <;> decide
theorem frodo976_WF : frodo976.WF := by constructor <;> simp [frodo976, Params.bytesMu] <;> decide
theorem frodo1344_WF : frodo1344.WF := by constructor <;> simp [frodo1344, Params.bytesMu] <;> decide

end Frodo
