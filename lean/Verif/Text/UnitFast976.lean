import Verif.Text.OptFuns

/-! # The text of /repo/src/frodo976.c with all that it includes: optimised implementation, A from SHAKE128 -/

namespace Frodo.Src

/-- The tokens of /repo/src/frodo976.c after preprocessing: optimised implementation, A from SHAKE128. -/
def unitFast976Tokens : List Tok := tokens% preprocess optShake sourceLines frodo976Text

theorem unitFast976_tokens : preprocess optShake sourceLines frodo976Text = some unitFast976Tokens := by kernel_rfl

/-- /repo/src/frodo976.c: optimised implementation, A from SHAKE128. -/
def unitFast976 : File := parsed% pFile 1000 (dropAttr unitFast976Tokens)

theorem unitFast976_file : pFile 1000 (dropAttr unitFast976Tokens) = some unitFast976 := by kernel_rfl

theorem unitFast976_parse : parseText optShake sources frodo976Text = some unitFast976 :=
  parseText_eq (sources_eq ▸ unitFast976_tokens) unitFast976_file

theorem unitFast976_isUnit : unitFast976.IsUnit frodo976 where
  cdf := by kernel_rfl
  cdfLen := by kernel_rfl
  sample := by kernel_rfl
  mulBs := by kernel_rfl
  mulAddSb := by kernel_rfl
  add := by kernel_rfl
  sub := by kernel_rfl
  encode := by kernel_rfl
  decode := by kernel_rfl

theorem unitFast976_isKem : unitFast976.IsKem frodo976 "Frodo976" := ⟨by kernel_rfl, by kernel_rfl, by kernel_rfl⟩
theorem unitFast976_isOpt : unitFast976.IsOpt frodo976 := ⟨by kernel_rfl, by kernel_rfl⟩
theorem unitFast976_leaves : unitFast976.Leaves := ⟨by kernel_rfl, by kernel_rfl, by kernel_rfl⟩

end Frodo.Src
