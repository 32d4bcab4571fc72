import Verif.Text.RefAesFuns

/-! # The text of /repo/src/frodo1344.c with all that it includes: reference implementation, A from AES128 -/

namespace Frodo.Src

/-- The tokens of /repo/src/frodo1344.c after preprocessing: reference implementation, A from AES128. -/
def unitRefAes1344Tokens : List Tok := tokens% preprocess refAes sourceLines frodo1344Text

theorem unitRefAes1344_tokens : preprocess refAes sourceLines frodo1344Text = some unitRefAes1344Tokens := by kernel_rfl

/-- /repo/src/frodo1344.c: reference implementation, A from AES128. -/
def unitRefAes1344 : File := parsed% pFile 1000 (dropAttr unitRefAes1344Tokens)

theorem unitRefAes1344_file : pFile 1000 (dropAttr unitRefAes1344Tokens) = some unitRefAes1344 := by kernel_rfl

theorem unitRefAes1344_parse : parseText refAes sources frodo1344Text = some unitRefAes1344 :=
  parseText_eq (sources_eq ▸ unitRefAes1344_tokens) unitRefAes1344_file

theorem unitRefAes1344_isUnit : unitRefAes1344.IsUnit frodo1344 where
  cdf := by kernel_rfl
  cdfLen := by kernel_rfl
  sample := by kernel_rfl
  mulBs := by kernel_rfl
  mulAddSb := by kernel_rfl
  add := by kernel_rfl
  sub := by kernel_rfl
  encode := by kernel_rfl
  decode := by kernel_rfl

theorem unitRefAes1344_isKem : unitRefAes1344.IsKem frodo1344 "Frodo1344" := ⟨by kernel_rfl, by kernel_rfl, by kernel_rfl⟩
theorem unitRefAes1344_isRefAes : unitRefAes1344.IsRefAes frodo1344 := ⟨by kernel_rfl, by kernel_rfl⟩
theorem unitRefAes1344_leaves : unitRefAes1344.Leaves := ⟨by kernel_rfl, by kernel_rfl, by kernel_rfl⟩
theorem unitRefAes1344_noAes : unitRefAes1344.NoAes := ⟨by kernel_rfl, by kernel_rfl, by kernel_rfl⟩

end Frodo.Src
