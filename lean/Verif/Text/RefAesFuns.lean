import Verif.Text.OptAesFuns

/-! # The reference implementation of the products with A, with A from AES128 -/

namespace Frodo.Src

/-- The functions with the parameters left open: reference implementation, A from AES128 (/repo/src/frodo640.c:8-46). -/
def genericRefAes : File := parsed% parseText refAes sourceLines genericText

/-- `frodo_mul_add_as_plus_e` (/repo/src/frodo_macrify_reference.c:14-69). -/
def mulAsRefAesFun : Fun := function% genericRefAes.fn "frodo_mul_add_as_plus_e"
/-- `frodo_mul_add_sa_plus_e` (/repo/src/frodo_macrify_reference.c:72-127). -/
def mulSaRefAesFun : Fun := function% genericRefAes.fn "frodo_mul_add_sa_plus_e"

/-- A file has the reference implementation of the products with A, from AES128 (/repo/src/frodo_macrify_reference.c:14-127). -/
structure File.IsRefAes (F : File) (P : Params) : Prop where
  mulAs : F.fn "frodo_mul_add_as_plus_e" = some (mulAsRefAesFun.at P)
  mulSa : F.fn "frodo_mul_add_sa_plus_e" = some (mulSaRefAesFun.at P)

end Frodo.Src
