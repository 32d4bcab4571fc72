import Verif.Text.Generic

/-! # The text of /repo/src/frodo976.c with all that it includes -/

namespace Frodo.Src

/-- The tokens of /repo/src/frodo976.c after preprocessing: reference implementation, A from SHAKE128. -/
def unit976Tokens : List Tok := tokens% preprocess refShake sourceLines frodo976Text

theorem unit976_tokens : preprocess refShake sourceLines frodo976Text = some unit976Tokens := by kernel_rfl

/-- /repo/src/frodo976.c: reference implementation, A from SHAKE128. -/
def unit976 : File := parsed% pFile 1000 (dropAttr unit976Tokens)

theorem unit976_file : pFile 1000 (dropAttr unit976Tokens) = some unit976 := by kernel_rfl

theorem unit976_parse : parseText refShake sources frodo976Text = some unit976 :=
  parseText_eq (sources_eq ▸ unit976_tokens) unit976_file

theorem unit976_isUnit : unit976.IsUnit frodo976 where
  cdf := by kernel_rfl
  cdfLen := by kernel_rfl
  sample := by kernel_rfl
  mulBs := by kernel_rfl
  mulAddSb := by kernel_rfl
  add := by kernel_rfl
  sub := by kernel_rfl
  encode := by kernel_rfl
  decode := by kernel_rfl

/-- The tokens of /repo/src/frodo976.c after preprocessing: optimised implementation, A from AES128. -/
def unitOpt976Tokens : List Tok := tokens% preprocess optAes sourceLines frodo976Text

theorem unitOpt976_tokens : preprocess optAes sourceLines frodo976Text = some unitOpt976Tokens := by kernel_rfl

/-- /repo/src/frodo976.c: optimised implementation, A from AES128. -/
def unitOpt976 : File := parsed% pFile 1000 (dropAttr unitOpt976Tokens)

theorem unitOpt976_file : pFile 1000 (dropAttr unitOpt976Tokens) = some unitOpt976 := by kernel_rfl

theorem unitOpt976_parse : parseText optAes sources frodo976Text = some unitOpt976 :=
  parseText_eq (sources_eq ▸ unitOpt976_tokens) unitOpt976_file

theorem unitOpt976_isUnit : unitOpt976.IsUnit frodo976 where
  cdf := by kernel_rfl
  cdfLen := by kernel_rfl
  sample := by kernel_rfl
  mulBs := by kernel_rfl
  mulAddSb := by kernel_rfl
  add := by kernel_rfl
  sub := by kernel_rfl
  encode := by kernel_rfl
  decode := by kernel_rfl

end Frodo.Src
