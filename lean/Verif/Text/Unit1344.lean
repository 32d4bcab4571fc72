import Verif.Text.Generic

/-! # The text of /repo/src/frodo1344.c with all that it includes -/

namespace Frodo.Src

/-- The tokens of /repo/src/frodo1344.c after preprocessing: reference implementation, A from SHAKE128. -/
def unit1344Tokens : List Tok := tokens% preprocess refShake sourceLines frodo1344Text

theorem unit1344_tokens : preprocess refShake sourceLines frodo1344Text = some unit1344Tokens := by kernel_rfl

/-- /repo/src/frodo1344.c: reference implementation, A from SHAKE128. -/
def unit1344 : File := parsed% pFile 1000 (dropAttr unit1344Tokens)

theorem unit1344_file : pFile 1000 (dropAttr unit1344Tokens) = some unit1344 := by kernel_rfl

theorem unit1344_parse : parseText refShake sources frodo1344Text = some unit1344 :=
  parseText_eq (sources_eq ▸ unit1344_tokens) unit1344_file

theorem unit1344_isUnit : unit1344.IsUnit frodo1344 where
  cdf := by kernel_rfl
  cdfLen := by kernel_rfl
  sample := by kernel_rfl
  mulBs := by kernel_rfl
  mulAddSb := by kernel_rfl
  add := by kernel_rfl
  sub := by kernel_rfl
  encode := by kernel_rfl
  decode := by kernel_rfl

/-- The tokens of /repo/src/frodo1344.c after preprocessing: optimised implementation, A from AES128. -/
def unitOpt1344Tokens : List Tok := tokens% preprocess optAes sourceLines frodo1344Text

theorem unitOpt1344_tokens : preprocess optAes sourceLines frodo1344Text = some unitOpt1344Tokens := by kernel_rfl

/-- /repo/src/frodo1344.c: optimised implementation, A from AES128. -/
def unitOpt1344 : File := parsed% pFile 1000 (dropAttr unitOpt1344Tokens)

theorem unitOpt1344_file : pFile 1000 (dropAttr unitOpt1344Tokens) = some unitOpt1344 := by kernel_rfl

theorem unitOpt1344_parse : parseText optAes sources frodo1344Text = some unitOpt1344 :=
  parseText_eq (sources_eq ▸ unitOpt1344_tokens) unitOpt1344_file

theorem unitOpt1344_isUnit : unitOpt1344.IsUnit frodo1344 where
  cdf := by kernel_rfl
  cdfLen := by kernel_rfl
  sample := by kernel_rfl
  mulBs := by kernel_rfl
  mulAddSb := by kernel_rfl
  add := by kernel_rfl
  sub := by kernel_rfl
  encode := by kernel_rfl
  decode := by kernel_rfl

end Frodo.Src
