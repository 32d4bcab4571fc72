import Verif.Text.RefAesFuns

/-! # The text of /repo/src/frodo640.c with all that it includes: reference implementation, A from AES128 -/

namespace Frodo.Src

/-- The tokens of /repo/src/frodo640.c after preprocessing: reference implementation, A from AES128. -/
def unitRefAes640Tokens : List Tok := tokens% preprocess refAes sourceLines frodo640Text

theorem unitRefAes640_tokens : preprocess refAes sourceLines frodo640Text = some unitRefAes640Tokens := by kernel_rfl

/-- /repo/src/frodo640.c: reference implementation, A from AES128. -/
def unitRefAes640 : File := parsed% pFile 1000 (dropAttr unitRefAes640Tokens)

theorem unitRefAes640_file : pFile 1000 (dropAttr unitRefAes640Tokens) = some unitRefAes640 := by kernel_rfl

theorem unitRefAes640_parse : parseText refAes sources frodo640Text = some unitRefAes640 :=
  parseText_eq (sources_eq ▸ unitRefAes640_tokens) unitRefAes640_file

theorem unitRefAes640_isUnit : unitRefAes640.IsUnit frodo640 where
  cdf := by kernel_rfl
  cdfLen := by kernel_rfl
  sample := by kernel_rfl
  mulBs := by kernel_rfl
  mulAddSb := by kernel_rfl
  add := by kernel_rfl
  sub := by kernel_rfl
  encode := by kernel_rfl
  decode := by kernel_rfl

theorem unitRefAes640_isKem : unitRefAes640.IsKem frodo640 "Frodo640" := ⟨by kernel_rfl, by kernel_rfl, by kernel_rfl⟩
theorem unitRefAes640_isRefAes : unitRefAes640.IsRefAes frodo640 := ⟨by kernel_rfl, by kernel_rfl⟩
theorem unitRefAes640_leaves : unitRefAes640.Leaves := ⟨by kernel_rfl, by kernel_rfl, by kernel_rfl⟩
theorem unitRefAes640_noAes : unitRefAes640.NoAes := ⟨by kernel_rfl, by kernel_rfl, by kernel_rfl⟩

end Frodo.Src
