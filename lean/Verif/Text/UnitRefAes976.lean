import Verif.Text.RefAesFuns

/-! # The text of /repo/src/frodo976.c with all that it includes: reference implementation, A from AES128 -/

namespace Frodo.Src

/-- The tokens of /repo/src/frodo976.c after preprocessing: reference implementation, A from AES128. -/
def unitRefAes976Tokens : List Tok := tokens% preprocess refAes sourceLines frodo976Text

theorem unitRefAes976_tokens : preprocess refAes sourceLines frodo976Text = some unitRefAes976Tokens := by kernel_rfl

/-- /repo/src/frodo976.c: reference implementation, A from AES128. -/
def unitRefAes976 : File := parsed% pFile 1000 (dropAttr unitRefAes976Tokens)

theorem unitRefAes976_file : pFile 1000 (dropAttr unitRefAes976Tokens) = some unitRefAes976 := by kernel_rfl

theorem unitRefAes976_parse : parseText refAes sources frodo976Text = some unitRefAes976 :=
  parseText_eq (sources_eq ▸ unitRefAes976_tokens) unitRefAes976_file

theorem unitRefAes976_isUnit : unitRefAes976.IsUnit frodo976 where
  cdf := by kernel_rfl
  cdfLen := by kernel_rfl
  sample := by kernel_rfl
  mulBs := by kernel_rfl
  mulAddSb := by kernel_rfl
  add := by kernel_rfl
  sub := by kernel_rfl
  encode := by kernel_rfl
  decode := by kernel_rfl

theorem unitRefAes976_isKem : unitRefAes976.IsKem frodo976 "Frodo976" := ⟨by kernel_rfl, by kernel_rfl, by kernel_rfl⟩
theorem unitRefAes976_isRefAes : unitRefAes976.IsRefAes frodo976 := ⟨by kernel_rfl, by kernel_rfl⟩
theorem unitRefAes976_leaves : unitRefAes976.Leaves := ⟨by kernel_rfl, by kernel_rfl, by kernel_rfl⟩
theorem unitRefAes976_noAes : unitRefAes976.NoAes := ⟨by kernel_rfl, by kernel_rfl, by kernel_rfl⟩

end Frodo.Src
