import Verif.Text.Generic

/-! # The text of /repo/src/frodo640.c with all that it includes -/

namespace Frodo.Src

/-- The tokens of /repo/src/frodo640.c after preprocessing: reference implementation, A from SHAKE128. -/
def unit640Tokens : List Tok := tokens% preprocess refShake sourceLines frodo640Text

theorem unit640_tokens : preprocess refShake sourceLines frodo640Text = some unit640Tokens := by kernel_rfl

/-- /repo/src/frodo640.c: reference implementation, A from SHAKE128. -/
def unit640 : File := parsed% pFile 1000 (dropAttr unit640Tokens)

theorem unit640_file : pFile 1000 (dropAttr unit640Tokens) = some unit640 := by kernel_rfl

theorem unit640_parse : parseText refShake sources frodo640Text = some unit640 :=
  parseText_eq (sources_eq ▸ unit640_tokens) unit640_file

theorem unit640_isUnit : unit640.IsUnit frodo640 where
  cdf := by kernel_rfl
  cdfLen := by kernel_rfl
  sample := by kernel_rfl
  mulBs := by kernel_rfl
  mulAddSb := by kernel_rfl
  add := by kernel_rfl
  sub := by kernel_rfl
  encode := by kernel_rfl
  decode := by kernel_rfl

/-- The tokens of /repo/src/frodo640.c after preprocessing: optimised implementation, A from AES128. -/
def unitOpt640Tokens : List Tok := tokens% preprocess optAes sourceLines frodo640Text

theorem unitOpt640_tokens : preprocess optAes sourceLines frodo640Text = some unitOpt640Tokens := by kernel_rfl

/-- /repo/src/frodo640.c: optimised implementation, A from AES128. -/
def unitOpt640 : File := parsed% pFile 1000 (dropAttr unitOpt640Tokens)

theorem unitOpt640_file : pFile 1000 (dropAttr unitOpt640Tokens) = some unitOpt640 := by kernel_rfl

theorem unitOpt640_parse : parseText optAes sources frodo640Text = some unitOpt640 :=
  parseText_eq (sources_eq ▸ unitOpt640_tokens) unitOpt640_file

theorem unitOpt640_isUnit : unitOpt640.IsUnit frodo640 where
  cdf := by kernel_rfl
  cdfLen := by kernel_rfl
  sample := by kernel_rfl
  mulBs := by kernel_rfl
  mulAddSb := by kernel_rfl
  add := by kernel_rfl
  sub := by kernel_rfl
  encode := by kernel_rfl
  decode := by kernel_rfl

end Frodo.Src
