import Verif.Text.Generic

/-! # The functions of /repo/src/kem.c, and the reference implementation of the products with A -/

namespace Frodo.Src

/-- `crypto_kem_keypair` (/repo/src/kem.c:15-75). -/
def keypairFun : Fun := function% genericRef.fn "crypto_kem_keypair"
/-- `crypto_kem_enc` (/repo/src/kem.c:78-150). -/
def encFun : Fun := function% genericRef.fn "crypto_kem_enc"
/-- `crypto_kem_dec` (/repo/src/kem.c:153-252). -/
def decFun : Fun := function% genericRef.fn "crypto_kem_dec"
/-- `frodo_mul_add_as_plus_e` (/repo/src/frodo_macrify_reference.c:14-69). -/
def mulAsFun : Fun := function% genericRef.fn "frodo_mul_add_as_plus_e"
/-- `frodo_mul_add_sa_plus_e` (/repo/src/frodo_macrify_reference.c:72-127). -/
def mulSaFun : Fun := function% genericRef.fn "frodo_mul_add_sa_plus_e"

/-- A file has the functions of /repo/src/kem.c with given parameters, under names that end with `x`
(/repo/src/frodo640.c:8-46, the names in lines 34-36). -/
structure File.IsKem (F : File) (P : Params) (x : String) : Prop where
  keypair : F.fn ("crypto_kem_keypair_" ++ x) = some { keypairFun.at P with name := "crypto_kem_keypair_" ++ x }
  enc : F.fn ("crypto_kem_enc_" ++ x) = some { encFun.at P with name := "crypto_kem_enc_" ++ x }
  dec : F.fn ("crypto_kem_dec_" ++ x) = some { decFun.at P with name := "crypto_kem_dec_" ++ x }

/-- A file has the reference implementation of the products with A, rows from SHAKE128
(/repo/src/frodo_macrify_reference.c:14-127). -/
structure File.IsRef (F : File) (P : Params) : Prop where
  mulAs : F.fn "frodo_mul_add_as_plus_e" = some (mulAsFun.at P)
  mulSa : F.fn "frodo_mul_add_sa_plus_e" = some (mulSaFun.at P)

/-- A file calls but does not define the functions of /repo/common (/repo/src/frodo640.c:8-46). -/
structure File.Leaves (F : File) : Prop where
  s128 : F.fn "shake128" = none
  s256 : F.fn "shake256" = none
  random : F.fn "randombytes" = none

end Frodo.Src
