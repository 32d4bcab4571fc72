import Verif.Text.OptFuns

/-! # The text of /repo/src/frodo640.c with all that it includes: optimised implementation, A from SHAKE128 -/

namespace Frodo.Src

/-- The tokens of /repo/src/frodo640.c after preprocessing: optimised implementation, A from SHAKE128. -/
def unitFast640Tokens : List Tok := tokens% preprocess optShake sourceLines frodo640Text

theorem unitFast640_tokens : preprocess optShake sourceLines frodo640Text = some unitFast640Tokens := by kernel_rfl

/-- /repo/src/frodo640.c: optimised implementation, A from SHAKE128. -/
def unitFast640 : File := parsed% pFile 1000 (dropAttr unitFast640Tokens)

theorem unitFast640_file : pFile 1000 (dropAttr unitFast640Tokens) = some unitFast640 := by kernel_rfl

theorem unitFast640_parse : parseText optShake sources frodo640Text = some unitFast640 :=
  parseText_eq (sources_eq ▸ unitFast640_tokens) unitFast640_file

theorem unitFast640_isUnit : unitFast640.IsUnit frodo640 where
  cdf := by kernel_rfl
  cdfLen := by kernel_rfl
  sample := by kernel_rfl
  mulBs := by kernel_rfl
  mulAddSb := by kernel_rfl
  add := by kernel_rfl
  sub := by kernel_rfl
  encode := by kernel_rfl
  decode := by kernel_rfl

theorem unitFast640_isKem : unitFast640.IsKem frodo640 "Frodo640" := ⟨by kernel_rfl, by kernel_rfl, by kernel_rfl⟩
theorem unitFast640_isOpt : unitFast640.IsOpt frodo640 := ⟨by kernel_rfl, by kernel_rfl⟩
theorem unitFast640_leaves : unitFast640.Leaves := ⟨by kernel_rfl, by kernel_rfl, by kernel_rfl⟩

end Frodo.Src
