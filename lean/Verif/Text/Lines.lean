import Verif.Text.Sources

/-! # The lines of tokens of the files that are included

They do not depend on macros and are computed once. -/

namespace Frodo.Src

/-- The tokens of /repo/src/config.h. -/
def configLines : List (List Tok) := lines% linesOf configText

theorem config_lines : linesOf configText = configLines := by kernel_rfl

/-- The tokens of /repo/src/frodo_macrify.h. -/
def macrifyHLines : List (List Tok) := lines% linesOf macrifyHText

theorem macrifyH_lines : linesOf macrifyHText = macrifyHLines := by kernel_rfl

/-- The tokens of /repo/src/noise.c. -/
def noiseLines : List (List Tok) := lines% linesOf noiseText

theorem noise_lines : linesOf noiseText = noiseLines := by kernel_rfl

/-- The tokens of /repo/src/kem.c. -/
def kemLines : List (List Tok) := lines% linesOf kemText

theorem kem_lines : linesOf kemText = kemLines := by kernel_rfl

/-- The tokens of /repo/src/frodo_macrify.c. -/
def macrifyLines : List (List Tok) := lines% linesOf macrifyText

theorem macrify_lines : linesOf macrifyText = macrifyLines := by kernel_rfl

/-- The tokens of /repo/src/frodo_macrify_reference.c. -/
def referenceLines : List (List Tok) := lines% linesOf referenceText

theorem reference_lines : linesOf referenceText = referenceLines := by kernel_rfl

/-- The tokens of /repo/src/api_frodo640.h. -/
def api640Lines : List (List Tok) := lines% linesOf api640Text

theorem api640_lines : linesOf api640Text = api640Lines := by kernel_rfl

/-- The tokens of /repo/src/api_frodo976.h. -/
def api976Lines : List (List Tok) := lines% linesOf api976Text

theorem api976_lines : linesOf api976Text = api976Lines := by kernel_rfl

/-- The tokens of /repo/src/api_frodo1344.h. -/
def api1344Lines : List (List Tok) := lines% linesOf api1344Text

theorem api1344_lines : linesOf api1344Text = api1344Lines := by kernel_rfl

/-- `sources` with the tokens computed (/repo/src/frodo640.c:8-46). -/
def sourceLines : Includes :=
  [((lexLine 100 false (w!"\"config.h\"")).1, configLines),
    ((lexLine 100 false (w!"\"frodo_macrify.h\"")).1, macrifyHLines),
    ((lexLine 100 false (w!"\"noise.c\"")).1, noiseLines),
    ((lexLine 100 false (w!"\"kem.c\"")).1, kemLines),
    ((lexLine 100 false (w!"\"frodo_macrify.c\"")).1, macrifyLines),
    ((lexLine 100 false (w!"\"frodo_macrify_reference.c\"")).1, referenceLines),
    ((lexLine 100 false (w!"\"api_frodo640.h\"")).1, api640Lines),
    ((lexLine 100 false (w!"\"api_frodo976.h\"")).1, api976Lines),
    ((lexLine 100 false (w!"\"api_frodo1344.h\"")).1, api1344Lines)]

theorem sources_eq : sources = sourceLines := by
  simp only [sources, incl, config_lines, macrifyH_lines, noise_lines, kem_lines, macrify_lines, reference_lines, api640_lines, api976_lines, api1344_lines]
  rfl

end Frodo.Src
