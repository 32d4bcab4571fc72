import Verif.Text.OptFuns
import Verif.Text.KemUnits

/-! # The optimised implementation of the products with A, without intrinsics and with A from AES128 -/

namespace Frodo.Src

/-- The functions with the parameters left open: optimised implementation, A from AES128 (/repo/src/frodo640.c:8-46). -/
def genericOptAes : File := parsed% parseText optAes sourceLines genericText

/-- `frodo_mul_add_as_plus_e` (/repo/src/frodo_macrify.c:21-123). -/
def mulAsAesFun : Fun := function% genericOptAes.fn "frodo_mul_add_as_plus_e"
/-- `frodo_mul_add_sa_plus_e` (/repo/src/frodo_macrify.c:126-272). -/
def mulSaAesFun : Fun := function% genericOptAes.fn "frodo_mul_add_sa_plus_e"

/-- A file has the optimised implementation of the products with A, rows from AES128 (/repo/src/frodo_macrify.c:21-272). -/
structure File.IsOptAes (F : File) (P : Params) : Prop where
  mulAs : F.fn "frodo_mul_add_as_plus_e" = some (mulAsAesFun.at P)
  mulSa : F.fn "frodo_mul_add_sa_plus_e" = some (mulSaAesFun.at P)

/-- A file calls but does not define the functions of /repo/src/aes/aes.c (/repo/src/aes/aes.h:23-38). -/
structure File.NoAes (F : File) : Prop where
  load : F.fn "AES128_load_schedule" = none
  enc : F.fn "AES128_ECB_enc_sch" = none
  free : F.fn "AES128_free_schedule" = none

theorem unitOpt640_isOptAes : unitOpt640.IsOptAes frodo640 := ⟨by kernel_rfl, by kernel_rfl⟩
theorem unitOpt976_isOptAes : unitOpt976.IsOptAes frodo976 := ⟨by kernel_rfl, by kernel_rfl⟩
theorem unitOpt1344_isOptAes : unitOpt1344.IsOptAes frodo1344 := ⟨by kernel_rfl, by kernel_rfl⟩

theorem unitOpt640_leaves : unitOpt640.Leaves := ⟨by kernel_rfl, by kernel_rfl, by kernel_rfl⟩
theorem unitOpt976_leaves : unitOpt976.Leaves := ⟨by kernel_rfl, by kernel_rfl, by kernel_rfl⟩
theorem unitOpt1344_leaves : unitOpt1344.Leaves := ⟨by kernel_rfl, by kernel_rfl, by kernel_rfl⟩

theorem unitOpt640_noAes : unitOpt640.NoAes := ⟨by kernel_rfl, by kernel_rfl, by kernel_rfl⟩
theorem unitOpt976_noAes : unitOpt976.NoAes := ⟨by kernel_rfl, by kernel_rfl, by kernel_rfl⟩
theorem unitOpt1344_noAes : unitOpt1344.NoAes := ⟨by kernel_rfl, by kernel_rfl, by kernel_rfl⟩

end Frodo.Src
