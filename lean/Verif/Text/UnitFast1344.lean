import Verif.Text.OptFuns

/-! # The text of /repo/src/frodo1344.c with all that it includes: optimised implementation, A from SHAKE128 -/

namespace Frodo.Src

/-- The tokens of /repo/src/frodo1344.c after preprocessing: optimised implementation, A from SHAKE128. -/
def unitFast1344Tokens : List Tok := tokens% preprocess optShake sourceLines frodo1344Text

theorem unitFast1344_tokens : preprocess optShake sourceLines frodo1344Text = some unitFast1344Tokens := by kernel_rfl

/-- /repo/src/frodo1344.c: optimised implementation, A from SHAKE128. -/
def unitFast1344 : File := parsed% pFile 1000 (dropAttr unitFast1344Tokens)

theorem unitFast1344_file : pFile 1000 (dropAttr unitFast1344Tokens) = some unitFast1344 := by kernel_rfl

theorem unitFast1344_parse : parseText optShake sources frodo1344Text = some unitFast1344 :=
  parseText_eq (sources_eq ▸ unitFast1344_tokens) unitFast1344_file

theorem unitFast1344_isUnit : unitFast1344.IsUnit frodo1344 where
  cdf := by kernel_rfl
  cdfLen := by kernel_rfl
  sample := by kernel_rfl
  mulBs := by kernel_rfl
  mulAddSb := by kernel_rfl
  add := by kernel_rfl
  sub := by kernel_rfl
  encode := by kernel_rfl
  decode := by kernel_rfl

theorem unitFast1344_isKem : unitFast1344.IsKem frodo1344 "Frodo1344" := ⟨by kernel_rfl, by kernel_rfl, by kernel_rfl⟩
theorem unitFast1344_isOpt : unitFast1344.IsOpt frodo1344 := ⟨by kernel_rfl, by kernel_rfl⟩
theorem unitFast1344_leaves : unitFast1344.Leaves := ⟨by kernel_rfl, by kernel_rfl, by kernel_rfl⟩

end Frodo.Src
