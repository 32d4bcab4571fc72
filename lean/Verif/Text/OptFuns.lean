import Verif.Text.KemFuns

/-! # The optimised implementation of the products with A, without intrinsics and with A from SHAKE128 -/

namespace Frodo.Src

/-- The functions with the parameters left open: optimised implementation, A from SHAKE128 (/repo/src/frodo640.c:8-46). -/
def genericOpt : File := parsed% parseText optShake sourceLines genericText

/-- `frodo_mul_add_as_plus_e` (/repo/src/frodo_macrify.c:21-123). -/
def mulAsOptFun : Fun := function% genericOpt.fn "frodo_mul_add_as_plus_e"
/-- `frodo_mul_add_sa_plus_e` (/repo/src/frodo_macrify.c:126-272). -/
def mulSaOptFun : Fun := function% genericOpt.fn "frodo_mul_add_sa_plus_e"

/-- A file has the optimised implementation of the products with A, rows from SHAKE128 (/repo/src/frodo_macrify.c:21-272). -/
structure File.IsOpt (F : File) (P : Params) : Prop where
  mulAs : F.fn "frodo_mul_add_as_plus_e" = some (mulAsOptFun.at P)
  mulSa : F.fn "frodo_mul_add_sa_plus_e" = some (mulSaOptFun.at P)

end Frodo.Src
