import Verif.Text.KemFuns
import Verif.Text.Unit640
import Verif.Text.Unit976
import Verif.Text.Unit1344

/-! # /repo/src/kem.c in the files of the parameter sets -/

namespace Frodo.Src

theorem unit640_isKem : unit640.IsKem frodo640 "Frodo640" := ⟨by kernel_rfl, by kernel_rfl, by kernel_rfl⟩
theorem unit976_isKem : unit976.IsKem frodo976 "Frodo976" := ⟨by kernel_rfl, by kernel_rfl, by kernel_rfl⟩
theorem unit1344_isKem : unit1344.IsKem frodo1344 "Frodo1344" := ⟨by kernel_rfl, by kernel_rfl, by kernel_rfl⟩
theorem unitOpt640_isKem : unitOpt640.IsKem frodo640 "Frodo640" := ⟨by kernel_rfl, by kernel_rfl, by kernel_rfl⟩
theorem unitOpt976_isKem : unitOpt976.IsKem frodo976 "Frodo976" := ⟨by kernel_rfl, by kernel_rfl, by kernel_rfl⟩
theorem unitOpt1344_isKem : unitOpt1344.IsKem frodo1344 "Frodo1344" := ⟨by kernel_rfl, by kernel_rfl, by kernel_rfl⟩

theorem unit640_isRef : unit640.IsRef frodo640 := ⟨by kernel_rfl, by kernel_rfl⟩
theorem unit976_isRef : unit976.IsRef frodo976 := ⟨by kernel_rfl, by kernel_rfl⟩
theorem unit1344_isRef : unit1344.IsRef frodo1344 := ⟨by kernel_rfl, by kernel_rfl⟩

theorem unit640_leaves : unit640.Leaves := ⟨by kernel_rfl, by kernel_rfl, by kernel_rfl⟩
theorem unit976_leaves : unit976.Leaves := ⟨by kernel_rfl, by kernel_rfl, by kernel_rfl⟩
theorem unit1344_leaves : unit1344.Leaves := ⟨by kernel_rfl, by kernel_rfl, by kernel_rfl⟩

end Frodo.Src
