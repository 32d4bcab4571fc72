import Verif.Model.Make

/-! # The recipes of /repo/Makefile, one after the other or in parallel, and the jobs of /repo/.github/workflows/c.yml

The directories `frodo640`, `frodo976` and `frodo1344` with the files that the recipes make there.  Compiling an object
succeeds and touches nothing else, so that the objects are left out (Model/Make.lean has them).  A command of a recipe is one
atomic step. -/

namespace Frodo.Make

/-- The files in a directory `frodo640` etc.: `libfrodo.a`, `libfrodo_for_testing.a`, `test_KEM`, and `PQCtestKAT_kem` or
`PQCtestKAT_kem_shake` (/repo/Makefile:145-189). -/
inductive File where
  | lib
  | katLib
  | test
  | kat
  deriving DecidableEq

/-- The three directories; `none`: the directory does not exist (/repo/Makefile:145-189). -/
abbrev Tree := Level → Option (File → Bool)

/-- The commands of the recipes (/repo/Makefile:145-189). -/
inductive Cmd where
  /-- `rm -rf frodo640` -/
  | rm (l : Level)
  /-- `mkdir frodo640` -/
  | mkdir (l : Level)
  /-- `ar rcs frodo640/...a objects` -/
  | ar (l : Level) (f : File)
  /-- `ranlib frodo640/...a` -/
  | ranlib (l : Level) (f : File)
  /-- `cc -L./frodo640 ... -lfrodo... -o frodo640/...` -/
  | link (l : Level) (a out : File)
  deriving DecidableEq

/-- The file exists (/repo/Makefile:145-189). -/
def Tree.has (T : Tree) (l : Level) (f : File) : Bool :=
  match T l with
  | some d => d f
  | none => false

/-- The tree with another directory (/repo/Makefile:145-189). -/
def Tree.put (T : Tree) (l : Level) (d : Option (File → Bool)) : Tree := fun k => if k = l then d else T k

/-- One command; `none`: it fails.  `mkdir` fails if the directory exists, `ar` creates or updates the archive and fails if the
directory does not exist, `ranlib` and the linker fail if the archive does not exist (/repo/Makefile:145-189). -/
def Cmd.run (T : Tree) : Cmd → Option Tree
  | .rm l => some (T.put l none)
  | .mkdir l => if (T l).isSome then none else some (T.put l (some fun _ => false))
  | .ar l f =>
    match T l with
    | some d => some (T.put l (some fun g => d g || decide (g = f)))
    | none => none
  | .ranlib l f => if T.has l f then some T else none
  | .link l a out =>
    match T l with
    | some d => if d a then some (T.put l (some fun g => d g || decide (g = out))) else none
    | none => none

/-- The targets (/repo/Makefile:88, 145-180). -/
inductive Goal where
  | lib (l : Level)
  | tests
  | katLib (l : Level)
  | KATS
  | all
  deriving DecidableEq

/-- The prerequisites among the targets (/repo/Makefile:88, 145, 151, 157, 163, 168, 172, 176, 180). -/
def Goal.deps : Goal → List Goal
  | .lib _ => []
  | .tests => [.lib .l640, .lib .l976, .lib .l1344]
  | .katLib _ => []
  | .KATS => [.katLib .l640, .katLib .l976, .katLib .l1344]
  | .all => [.lib .l640, .lib .l976, .lib .l1344, .tests, .KATS]

/-- The recipes (/repo/Makefile:145-189). -/
def Goal.recipe : Goal → List Cmd
  | .lib l => [.rm l, .mkdir l, .ar l .lib, .ranlib l .lib]
  | .tests => [.link .l640 .lib .test, .link .l976 .lib .test, .link .l1344 .lib .test]
  | .katLib l => [.ar l .katLib, .ranlib l .katLib]
  | .KATS => [.link .l640 .katLib .kat, .link .l976 .katLib .kat, .link .l1344 .katLib .kat]
  | .all => []

/-- The targets that `make` makes for a goal, in the order in which it makes them without `-j`: the prerequisites from left to
right, each at most once (/repo/Makefile:88, 145-180). -/
def Goal.order : Goal → List Goal
  | .lib l => [.lib l]
  | .tests => [.lib .l640, .lib .l976, .lib .l1344, .tests]
  | .katLib l => [.katLib l]
  | .KATS => [.katLib .l640, .katLib .l976, .katLib .l1344, .KATS]
  | .all => [.lib .l640, .lib .l976, .lib .l1344, .tests, .katLib .l640, .katLib .l976, .katLib .l1344, .KATS, .all]

/-- A list of commands, until one fails (/repo/Makefile:145-189). -/
def runCmds (T : Tree) : List Cmd → Option Tree
  | [] => some T
  | c :: cs => match c.run T with
    | some T' => runCmds T' cs
    | none => none

/-- `make goal` (/repo/Makefile:88-189). -/
def Goal.make (g : Goal) (T : Tree) : Option Tree := runCmds T (g.order.flatMap Goal.recipe)

/-- The state of `make -j`: the tree, and for every target the number of commands of its recipe that have been executed
(/repo/Makefile:88-189). -/
structure Par where
  tree : Tree
  pc : Goal → Nat

/-- The command `c` of target `t` can be started: the target is wanted, its prerequisites `D t` are made, and `c` is next
(/repo/Makefile:88-189). -/
def Par.next (D : Goal → List Goal) (N : List Goal) (s : Par) (t : Goal) (c : Cmd) : Prop :=
  t ∈ N ∧ (∀ d ∈ D t, s.pc d = d.recipe.length) ∧ t.recipe[s.pc t]? = some c

/-- One step of `make -j` (/repo/Makefile:88-189). -/
def Par.Step (D : Goal → List Goal) (N : List Goal) (s s' : Par) : Prop :=
  ∃ t c T, s.next D N t c ∧ c.run s.tree = some T ∧ s' = ⟨T, Function.update s.pc t (s.pc t + 1)⟩

/-- A command that can be started fails (/repo/Makefile:88-189). -/
def Par.Fails (D : Goal → List Goal) (N : List Goal) (s : Par) : Prop :=
  ∃ t c, s.next D N t c ∧ c.run s.tree = none

/-- Everything wanted is made (/repo/Makefile:88-189). -/
def Par.Done (N : List Goal) (s : Par) : Prop := ∀ t ∈ N, s.pc t = t.recipe.length

/-- The states that `make -j` can reach (/repo/Makefile:88-189). -/
inductive Par.Reach (D : Goal → List Goal) (N : List Goal) (T : Tree) : Par → Prop where
  | start : Par.Reach D N T ⟨T, fun _ => 0⟩
  | step {s s' : Par} : Par.Reach D N T s → Par.Step D N s s' → Par.Reach D N T s'

/-! ## The jobs of the continuous integration -/

/-- The values of `opt_level` (/repo/.github/workflows/c.yml:25, 62, 83). -/
def ciLevels : List String := ["REFERENCE", "FAST_GENERIC", "FAST"]

/-- The values of `generation_a` (/repo/.github/workflows/c.yml:24, 61, 82). -/
def ciGens : List String := ["AES128", "SHAKE128"]

/-- A job: the variables of `make`, and the programs that it runs (/repo/.github/workflows/c.yml:19-105). -/
structure Job where
  vars : Vars
  kat : Bool
  valgrind : Bool
  shakeKat : Bool

/-- Job `test-basic` (/repo/.github/workflows/c.yml:20-56). -/
def ciBasic : List Job := do
  let g ← ciGens
  let o ← ciLevels
  pure ⟨{ GENERATION_A := g, OPT_LEVEL := o }, true, false, decide (g = "SHAKE128")⟩

/-- Job `test-sanitize` (/repo/.github/workflows/c.yml:57-77), for one of the two sanitizers. -/
def ciSanitize : List Job := do
  let g ← ciGens
  let o ← ciLevels
  pure ⟨{ CC := "clang-11", GENERATION_A := g, OPT_LEVEL := o }, false, false, false⟩

/-- Job `test-valgrind-constant-time` (/repo/.github/workflows/c.yml:78-105). -/
def ciValgrind : List Job := do
  let g ← ciGens
  let o ← ciLevels
  pure ⟨{ CC := "clang-11", GENERATION_A := g, OPT_LEVEL := o, DO_VALGRIND_CHECK := "TRUE" }, false, true, false⟩

/-- All jobs (/repo/.github/workflows/c.yml:19-105). -/
def ciJobs : List Job := ciBasic ++ ciSanitize ++ ciValgrind

end Frodo.Make
