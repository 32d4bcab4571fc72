import Verif.C.Taint
import Verif.Text.Fips
import Verif.Text.Util
import Verif.Text.Unit640
import Verif.Text.Unit976
import Verif.Text.Unit1344
import Verif.Text.UnitFast640
import Verif.Text.UnitFast976
import Verif.Text.UnitFast1344
import Verif.Text.UnitRefAes640
import Verif.Text.UnitRefAes976
import Verif.Text.UnitRefAes1344

/-! # Which variables of the text may be secret

For each function: the local variables that may hold secret numbers.  All others are public, and so are all pointers; the contents of
memory are secret.  The kernel checks the syntax trees against this list. -/

namespace Frodo.Src

/-- The listed variables are secret (proof device, not a part of /repo). -/
def secs (l : List String) : Labels := l.map fun x => (x, .sec)

/-- A function with `k` public arguments and a public result; the listed variables are secret (proof device, not a part of /repo). -/
def claim (f : String) (k : Nat) (l : List String) : Claim := ⟨f, List.replicate k .any, .any, secs l⟩

/-- The lanes in /repo/src/sha3/fips202.c:77-88 (proof device). -/
def lanes : List String := ["Aba", "Abe", "Abi", "Abo", "Abu", "Aga", "Age", "Agi", "Ago", "Agu", "Aka", "Ake", "Aki", "Ako", "Aku",
  "Ama", "Ame", "Ami", "Amo", "Amu", "Asa", "Ase", "Asi", "Aso", "Asu", "BCa", "BCe", "BCi", "BCo", "BCu", "Da", "De", "Di", "Do", "Du",
  "Eba", "Ebe", "Ebi", "Ebo", "Ebu", "Ega", "Ege", "Egi", "Ego", "Egu", "Eka", "Eke", "Eki", "Eko", "Eku", "Ema", "Eme", "Emi", "Emo",
  "Emu", "Esa", "Ese", "Esi", "Eso", "Esu"]

/-- The functions of /repo/src/sha3/fips202.c:22-465 (proof device). -/
def fipsClaims : List Claim :=
  [⟨"load64", [.any], .sec, secs ["r"]⟩, ⟨"store64", [.any, .sec], .any, secs ["u"]⟩, claim "KeccakF1600_StatePermute" 1 lanes,
   claim "keccak_absorb" 5 [], claim "keccak_squeezeblocks" 4 [], claim "shake128" 4 [], claim "shake256" 4 []]

/-- `randombytes` (/repo/src/random/random.h:6): the returned status may be secret (proof device). -/
def randSig : Sig := fun f => if f = "randombytes" then some ([.any, .any], .sec) else none

/-- What the text of the KEM calls outside of it (/repo/src/kem.c:35, 39, 44, 64, proof device). -/
def kemSig : Sig := fun f =>
  if f = "shake128" then some ([.any, .any, .any, .any], .any)
  else if f = "shake256" then some ([.any, .any, .any, .any], .any)
  else randSig f

/-- And with A from AES128 (/repo/src/frodo_macrify.c:36, 60, 120, proof device). -/
def withAesSig (E : Sig) : Sig := fun f =>
  if f = "AES128_load_schedule" then some ([.any, .any], .any)
  else if f = "AES128_ECB_enc_sch" then some ([.any, .any, .any, .any], .any)
  else if f = "AES128_free_schedule" then some ([.any], .any)
  else E f

/-- The names of the global variables (/repo/src/frodo640.c:32-33, /repo/src/sha3/fips202.c:44). -/
def globNames : List String := ["CDF_TABLE", "CDF_TABLE_LEN", "KeccakF_RoundConstants"]

/-- The functions of /repo/src/util.c:13-143, /repo/src/noise.c:10-29, /repo/src/kem.c:15-252 and of the matrix arithmetic; `as` and `sa` are
the secret variables in the products with A, which the reference and the optimised code name differently (proof device). -/
def kemClaims (nm : String) (as sa : List String) : List Claim :=
  [claim "frodo_pack" 5 ["w", "t"], claim "frodo_unpack" 5 ["w", "t"], ⟨"ct_verify", [.any, .any, .any], .sec, secs ["r"]⟩,
   ⟨"ct_select", [.any, .any, .any, .any, .sec], .any, secs ["selector"]⟩, claim "clear_bytes" 2 [],
   claim "frodo_sample_n" 2 ["sample", "prnd", "sign"], claim "frodo_mul_add_as_plus_e" 4 as, claim "frodo_mul_add_sa_plus_e" 4 sa,
   claim "frodo_mul_bs" 3 [], claim "frodo_mul_add_sb_plus_e" 4 [], claim "frodo_add" 3 [], claim "frodo_sub" 3 [],
   claim "frodo_key_encode" 2 ["temp"], claim "frodo_key_decode" 2 ["temp", "templong"],
   claim ("crypto_kem_keypair_" ++ nm) 2 [], claim ("crypto_kem_enc_" ++ nm) 3 [], claim ("crypto_kem_dec_" ++ nm) 3 ["selector"]]

/-- With the names in /repo/src/frodo_macrify_reference.c (proof device). -/
def refClaims (nm : String) : List Claim := kemClaims nm ["sum"] ["sum"]

/-- With the names in /repo/src/frodo_macrify.c (proof device). -/
def optClaims (nm : String) : List Claim := kemClaims nm ["sp"] ["sum"]

theorem fips_ok : okT [fipsFile] globNames fipsClaims randSig = true := by kernel_rfl
theorem fipsAes_ok : okT [fipsFile] globNames fipsClaims (withAesSig randSig) = true := by kernel_rfl
theorem unit640_ok : okT [utilFile, unit640] globNames (refClaims "Frodo640") kemSig = true := by kernel_rfl
theorem unit976_ok : okT [utilFile, unit976] globNames (refClaims "Frodo976") kemSig = true := by kernel_rfl
theorem unit1344_ok : okT [utilFile, unit1344] globNames (refClaims "Frodo1344") kemSig = true := by kernel_rfl
theorem unitFast640_ok : okT [utilFile, unitFast640] globNames (optClaims "Frodo640") kemSig = true := by kernel_rfl
theorem unitFast976_ok : okT [utilFile, unitFast976] globNames (optClaims "Frodo976") kemSig = true := by kernel_rfl
theorem unitFast1344_ok : okT [utilFile, unitFast1344] globNames (optClaims "Frodo1344") kemSig = true := by kernel_rfl

theorem unitOpt640_ok : okT [utilFile, unitOpt640] globNames (optClaims "Frodo640") (withAesSig kemSig) = true := by kernel_rfl
theorem unitOpt976_ok : okT [utilFile, unitOpt976] globNames (optClaims "Frodo976") (withAesSig kemSig) = true := by kernel_rfl
theorem unitOpt1344_ok : okT [utilFile, unitOpt1344] globNames (optClaims "Frodo1344") (withAesSig kemSig) = true := by kernel_rfl

theorem unitRefAes640_ok : okT [utilFile, unitRefAes640] globNames (refClaims "Frodo640") (withAesSig kemSig) = true := by kernel_rfl
theorem unitRefAes976_ok : okT [utilFile, unitRefAes976] globNames (refClaims "Frodo976") (withAesSig kemSig) = true := by kernel_rfl
theorem unitRefAes1344_ok : okT [utilFile, unitRefAes1344] globNames (refClaims "Frodo1344") (withAesSig kemSig) = true := by kernel_rfl

/-! ## The check refuses what it should -/

/-- A branch on the result of the comparison of ciphertexts is refused. -/
example : okS (sigOf (refClaims "Frodo640") kemSig) (secs ["selector"]) .any (.ite (.var "selector") .skip .skip) = false := by decide

/-- A comparison that stops at the first difference is refused. -/
example : okS (sigOf [] kemSig) [] .any (.ite (.bin .ne (.idx (.var "a") (.var "i")) (.idx (.var "b") (.var "i"))) .brk .skip) = false := by
  decide

/-- A table indexed with contents of memory is refused. -/
example : okS (sigOf [] kemSig) [] .any (.expr (.idx (.var "sbox") (.idx (.var "a") (.var "i")))) = false := by decide

end Frodo.Src
