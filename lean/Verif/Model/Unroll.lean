import Verif.Model.SnP4

/-! # Model of /repo/src/sha3/keccak4x/KeccakP-1600-unrolling.macros

All variants of the macros `rounds24` and `rounds12` and the macro `roundsN`, with the two sets of variables `A##..` and
`E##..` as they are declared in /repo/src/sha3/keccak4x/KeccakP-1600-times4-SIMD256.c.  The configuration of the library
(SIMD256-config.h) selects full unrolling; the others are what the file offers besides. -/

namespace Frodo

/-- The variables of the macro `declareABCDE` (/repo/src/sha3/keccak4x/KeccakP-1600-times4-SIMD256.c:444-462) that live from
one macro to the next: the lanes `A##..`, the lanes `E##..`, the column parities `Ca` to `Cu`. -/
structure Regs where
  A : VLanes
  E : VLanes
  C : VCols

/-- The name of a set of lanes, an argument `A` or `E` of the macros
(/repo/src/sha3/keccak4x/KeccakP-1600-unrolling.macros:19-42 etc.). -/
inductive Bank where
  | A
  | E
deriving DecidableEq

/-- The lanes with the given name (/repo/src/sha3/keccak4x/KeccakP-1600-times4-SIMD256.c:444-462). -/
def Regs.get (r : Regs) : Bank → VLanes
  | .A => r.A
  | .E => r.E

/-- Assignment to all lanes with the given name (/repo/src/sha3/keccak4x/KeccakP-1600-times4-SIMD256.c:444-462). -/
def Regs.put (r : Regs) : Bank → VLanes → Regs
  | .A, v => { r with A := v }
  | .E, v => { r with E := v }

/-- Macro `prepareTheta` (/repo/src/sha3/keccak4x/KeccakP-1600-times4-SIMD256.c:464-469): it reads the lanes `A##..`. -/
def prepare (r : Regs) : Regs := { r with C := prepareTheta r.A }

/-- Macro `thetaRhoPiChiIotaPrepareTheta(i, X, Y)`
(/repo/src/sha3/keccak4x/KeccakP-1600-times4-SIMD256.c:473-590) with `X` different from `Y`: the lanes `X##..` keep values
that the code never reads again (the macro adds the parities to them in place); here they are left as they are. -/
def roundPrepare (i : Nat) (X Y : Bank) (r : Regs) : C Regs := do
  let rc ← CONST256_64 i
  let w := thetaRhoPiChiIotaPrepareTheta rc (r.get X) r.C
  pure { r.put Y w.1 with C := w.2 }

/-- Macro `thetaRhoPiChiIota(i, X, Y)` (/repo/src/sha3/keccak4x/KeccakP-1600-times4-SIMD256.c:594-711); as `roundPrepare`. -/
def roundLast (i : Nat) (X Y : Bank) (r : Regs) : C Regs := do
  let rc ← CONST256_64 i
  pure (r.put Y (thetaRhoPiChiIota rc (r.get X) r.C))

/-- Macro `copyStateVariables(X, Y)` (/repo/src/sha3/keccak4x/KeccakP-1600-times4-SIMD256.c:768-793). -/
def copyStateVariables (X Y : Bank) (r : Regs) : Regs := r.put X (r.get Y)

/-- The values of the preprocessor that select a variant (/repo/src/sha3/keccak4x/KeccakP-1600-unrolling.macros:16, 59, 92,
115, 134, 153, 168). -/
inductive Unrolling where
  | full
  | by12
  | by6
  | by4
  | by3
  | by2
  | by1
deriving DecidableEq

/-- `rounds24`, full unrolling
(/repo/src/sha3/keccak4x/KeccakP-1600-unrolling.macros:17-42). -/
def rounds24Full (r : Regs) : C Regs := do
  let r := prepare r
  let r ← roundPrepare 0 .A .E r
  let r ← roundPrepare 1 .E .A r
  let r ← roundPrepare 2 .A .E r
  let r ← roundPrepare 3 .E .A r
  let r ← roundPrepare 4 .A .E r
  let r ← roundPrepare 5 .E .A r
  let r ← roundPrepare 6 .A .E r
  let r ← roundPrepare 7 .E .A r
  let r ← roundPrepare 8 .A .E r
  let r ← roundPrepare 9 .E .A r
  let r ← roundPrepare 10 .A .E r
  let r ← roundPrepare 11 .E .A r
  let r ← roundPrepare 12 .A .E r
  let r ← roundPrepare 13 .E .A r
  let r ← roundPrepare 14 .A .E r
  let r ← roundPrepare 15 .E .A r
  let r ← roundPrepare 16 .A .E r
  let r ← roundPrepare 17 .E .A r
  let r ← roundPrepare 18 .A .E r
  let r ← roundPrepare 19 .E .A r
  let r ← roundPrepare 20 .A .E r
  let r ← roundPrepare 21 .E .A r
  let r ← roundPrepare 22 .A .E r
  roundLast 23 .E .A r

/-- `rounds12`, full unrolling and `Unrolling == 12`
(/repo/src/sha3/keccak4x/KeccakP-1600-unrolling.macros:44-57, 77-90). -/
def rounds12Full (r : Regs) : C Regs := do
  let r := prepare r
  let r ← roundPrepare 12 .A .E r
  let r ← roundPrepare 13 .E .A r
  let r ← roundPrepare 14 .A .E r
  let r ← roundPrepare 15 .E .A r
  let r ← roundPrepare 16 .A .E r
  let r ← roundPrepare 17 .E .A r
  let r ← roundPrepare 18 .A .E r
  let r ← roundPrepare 19 .E .A r
  let r ← roundPrepare 20 .A .E r
  let r ← roundPrepare 21 .E .A r
  let r ← roundPrepare 22 .A .E r
  roundLast 23 .E .A r

/-- `rounds24` with `Unrolling == 12`
(/repo/src/sha3/keccak4x/KeccakP-1600-unrolling.macros:60-75). -/
def rounds24By12 (r : Regs) : C Regs := do
  let r := prepare r
  forC 0 24 12 r fun i r => do
    let r ← roundPrepare i .A .E r
    let r ← roundPrepare (i + 1) .E .A r
    let r ← roundPrepare (i + 2) .A .E r
    let r ← roundPrepare (i + 3) .E .A r
    let r ← roundPrepare (i + 4) .A .E r
    let r ← roundPrepare (i + 5) .E .A r
    let r ← roundPrepare (i + 6) .A .E r
    let r ← roundPrepare (i + 7) .E .A r
    let r ← roundPrepare (i + 8) .A .E r
    let r ← roundPrepare (i + 9) .E .A r
    let r ← roundPrepare (i + 10) .A .E r
    roundPrepare (i + 11) .E .A r

/-- `rounds24` with `Unrolling == 6`
(/repo/src/sha3/keccak4x/KeccakP-1600-unrolling.macros:93-102). -/
def rounds24By6 (r : Regs) : C Regs := do
  let r := prepare r
  forC 0 24 6 r fun i r => do
    let r ← roundPrepare i .A .E r
    let r ← roundPrepare (i + 1) .E .A r
    let r ← roundPrepare (i + 2) .A .E r
    let r ← roundPrepare (i + 3) .E .A r
    let r ← roundPrepare (i + 4) .A .E r
    roundPrepare (i + 5) .E .A r

/-- `rounds12` with `Unrolling == 6`
(/repo/src/sha3/keccak4x/KeccakP-1600-unrolling.macros:104-113). -/
def rounds12By6 (r : Regs) : C Regs := do
  let r := prepare r
  forC 12 24 6 r fun i r => do
    let r ← roundPrepare i .A .E r
    let r ← roundPrepare (i + 1) .E .A r
    let r ← roundPrepare (i + 2) .A .E r
    let r ← roundPrepare (i + 3) .E .A r
    let r ← roundPrepare (i + 4) .A .E r
    roundPrepare (i + 5) .E .A r

/-- `rounds24` with `Unrolling == 4`
(/repo/src/sha3/keccak4x/KeccakP-1600-unrolling.macros:116-123). -/
def rounds24By4 (r : Regs) : C Regs := do
  let r := prepare r
  forC 0 24 4 r fun i r => do
    let r ← roundPrepare i .A .E r
    let r ← roundPrepare (i + 1) .E .A r
    let r ← roundPrepare (i + 2) .A .E r
    roundPrepare (i + 3) .E .A r

/-- `rounds12` with `Unrolling == 4`
(/repo/src/sha3/keccak4x/KeccakP-1600-unrolling.macros:125-132). -/
def rounds12By4 (r : Regs) : C Regs := do
  let r := prepare r
  forC 12 24 4 r fun i r => do
    let r ← roundPrepare i .A .E r
    let r ← roundPrepare (i + 1) .E .A r
    let r ← roundPrepare (i + 2) .A .E r
    roundPrepare (i + 3) .E .A r

/-- `rounds24` with `Unrolling == 3`
(/repo/src/sha3/keccak4x/KeccakP-1600-unrolling.macros:135-142). -/
def rounds24By3 (r : Regs) : C Regs := do
  let r := prepare r
  forC 0 24 3 r fun i r => do
    let r ← roundPrepare i .A .E r
    let r ← roundPrepare (i + 1) .E .A r
    let r ← roundPrepare (i + 2) .A .E r
    pure (copyStateVariables .A .E r)

/-- `rounds12` with `Unrolling == 3`
(/repo/src/sha3/keccak4x/KeccakP-1600-unrolling.macros:144-151). -/
def rounds12By3 (r : Regs) : C Regs := do
  let r := prepare r
  forC 12 24 3 r fun i r => do
    let r ← roundPrepare i .A .E r
    let r ← roundPrepare (i + 1) .E .A r
    let r ← roundPrepare (i + 2) .A .E r
    pure (copyStateVariables .A .E r)

/-- `rounds24` with `Unrolling == 2`
(/repo/src/sha3/keccak4x/KeccakP-1600-unrolling.macros:154-159). -/
def rounds24By2 (r : Regs) : C Regs := do
  let r := prepare r
  forC 0 24 2 r fun i r => do
    let r ← roundPrepare i .A .E r
    roundPrepare (i + 1) .E .A r

/-- `rounds12` with `Unrolling == 2`
(/repo/src/sha3/keccak4x/KeccakP-1600-unrolling.macros:161-166). -/
def rounds12By2 (r : Regs) : C Regs := do
  let r := prepare r
  forC 12 24 2 r fun i r => do
    let r ← roundPrepare i .A .E r
    roundPrepare (i + 1) .E .A r

/-- `rounds24` with `Unrolling == 1`
(/repo/src/sha3/keccak4x/KeccakP-1600-unrolling.macros:169-174). -/
def rounds24By1 (r : Regs) : C Regs := do
  let r := prepare r
  forC 0 24 1 r fun i r => do
    let r ← roundPrepare i .A .E r
    pure (copyStateVariables .A .E r)

/-- `rounds12` with `Unrolling == 1`
(/repo/src/sha3/keccak4x/KeccakP-1600-unrolling.macros:176-181). -/
def rounds12By1 (r : Regs) : C Regs := do
  let r := prepare r
  forC 12 24 1 r fun i r => do
    let r ← roundPrepare i .A .E r
    pure (copyStateVariables .A .E r)

/-- `rounds24` (/repo/src/sha3/keccak4x/KeccakP-1600-unrolling.macros:16-185). -/
def rounds24U : Unrolling → Regs → C Regs
  | .full => rounds24Full
  | .by12 => rounds24By12
  | .by6 => rounds24By6
  | .by4 => rounds24By4
  | .by3 => rounds24By3
  | .by2 => rounds24By2
  | .by1 => rounds24By1

/-- `rounds12` (/repo/src/sha3/keccak4x/KeccakP-1600-unrolling.macros:16-185). -/
def rounds12U : Unrolling → Regs → C Regs
  | .full => rounds12Full
  | .by12 => rounds12Full
  | .by6 => rounds12By6
  | .by4 => rounds12By4
  | .by3 => rounds12By3
  | .by2 => rounds12By2
  | .by1 => rounds12By1

/-- The statement `if ((i&1) != 0) { ... }` of `roundsN`
(/repo/src/sha3/keccak4x/KeccakP-1600-unrolling.macros:190-194); `i` has type `unsigned int`. -/
def roundsOdd (i : Nat) (r : Regs) : C (Nat × Regs) := do
  C.emit (.branch (decide (i % 2 ≠ 0)))
  if i % 2 ≠ 0 then
    let r ← roundPrepare i .A .E r
    pure (u32 (i + 1), copyStateVariables .A .E r)
  else pure (i, r)

/-- One pass of the loop of `roundsN` (/repo/src/sha3/keccak4x/KeccakP-1600-unrolling.macros:195-198). -/
def roundsPair (x : Nat × Regs) : C (Nat × Regs) := do
  let r ← roundPrepare x.1 .A .E x.2
  let r ← roundPrepare (x.1 + 1) .E .A r
  pure (u32 (x.1 + 2), r)

/-- Macro `roundsN(n)` (/repo/src/sha3/keccak4x/KeccakP-1600-unrolling.macros:187-198), which nothing uses; `n` and `i` are
of type `unsigned int`, `24 - n` is computed modulo 2^32. -/
def roundsN (n : Nat) (r : Regs) : C Regs := do
  let r := prepare r
  let x ← roundsOdd (u32 (24 + 2 ^ 32 - n)) r
  let x ← whileC (fun x : Nat × Regs => decide (x.1 < 24)) roundsPair x
  pure x.2

/-- `KeccakP1600times4_PermuteAll_24rounds` with any unrolling
(/repo/src/sha3/keccak4x/KeccakP-1600-times4-SIMD256.c:802-813).  The lanes `E##..` and the parities are uninitialised: `e`. -/
def PermuteAll24U (u : Unrolling) (E : Env) (e : Regs) (ss : List U64) : C (List U64) := do
  C.require (E.addr .rho8 % 32 = 0 ∧ E.addr .rho56 % 32 = 0) .misaligned
  let v ← copyFromState4x ss
  let r ← rounds24U u (e.put .A v)
  copyToState4x ss r.A

/-- `KeccakP1600times4_PermuteAll_12rounds` with any unrolling
(/repo/src/sha3/keccak4x/KeccakP-1600-times4-SIMD256.c:815-826). -/
def PermuteAll12U (u : Unrolling) (E : Env) (e : Regs) (ss : List U64) : C (List U64) := do
  C.require (E.addr .rho8 % 32 = 0 ∧ E.addr .rho56 % 32 = 0) .misaligned
  let v ← copyFromState4x ss
  let r ← rounds12U u (e.put .A v)
  copyToState4x ss r.A

/-! ## The preprocessor: which configurations are accepted -/

/-- The macros that SIMD256-config.h may define: whether `KeccakP1600times4_fullUnrolling` is defined, and the value of
`KeccakP1600times4_unrolling`, 0 if it is not defined (C11 6.10.1p4; /repo/src/sha3/keccak4x/KeccakP-1600-times4-SIMD256.c:795-799). -/
structure UnrollConf where
  full : Bool
  unrolling : Int

/-- The configuration of the library (/repo/src/sha3/keccak4x/SIMD256-config.h:1-3). -/
def UnrollConf.repo : UnrollConf := ⟨true, 0⟩

/-- The variant selected; `none`: the directive `#error`
(/repo/src/sha3/keccak4x/KeccakP-1600-unrolling.macros:16, 59, 92, 115, 134, 153, 168, 183-185;
KeccakP-1600-times4-SIMD256.c:795-799). -/
def UnrollConf.variant (c : UnrollConf) : Option Unrolling :=
  if c.full then some .full
  else if c.unrolling = 12 then some .by12
  else if c.unrolling = 6 then some .by6
  else if c.unrolling = 4 then some .by4
  else if c.unrolling = 3 then some .by3
  else if c.unrolling = 2 then some .by2
  else if c.unrolling = 1 then some .by1
  else none

/-- `rounds24` contains a loop with the counter `i` (/repo/src/sha3/keccak4x/KeccakP-1600-unrolling.macros:17-42, 60-75, 93-102,
116-123, 135-142, 154-159, 169-174). -/
def Unrolling.counter24 : Unrolling → Bool
  | .full => false
  | _ => true

/-- `rounds12` contains a loop with the counter `i` (/repo/src/sha3/keccak4x/KeccakP-1600-unrolling.macros:44-57, 77-90, 104-113,
125-132, 144-151, 161-166, 176-181). -/
def Unrolling.counter12 : Unrolling → Bool
  | .full => false
  | .by12 => false
  | _ => true

/-- A function that contains `rounds24` or `rounds12` (/repo/src/sha3/keccak4x/KeccakP-1600-times4-SIMD256.c:802-1031). -/
inductive RoundsUser where
  | permute24
  | permute12
  | fastLoop24
  | fastLoop12
deriving DecidableEq

/-- The function uses the variable `i` (lines 811 and 905: `rounds24`, lines 824 and 1007: `rounds12` of
/repo/src/sha3/keccak4x/KeccakP-1600-times4-SIMD256.c). -/
def RoundsUser.uses (u : Unrolling) : RoundsUser → Bool
  | .permute24 => u.counter24
  | .permute12 => u.counter12
  | .fastLoop24 => u.counter24
  | .fastLoop12 => u.counter12

/-- The function declares the variable `i` in a scope around the use: lines 806-808 and 819-821 of
/repo/src/sha3/keccak4x/KeccakP-1600-times4-SIMD256.c unless full unrolling is configured; lines 870 and 972 are comments. -/
def RoundsUser.declares (c : UnrollConf) : RoundsUser → Bool
  | .permute24 => !c.full
  | .permute12 => !c.full
  | .fastLoop24 => false
  | .fastLoop12 => false

/-- The function is accepted by a compiler as far as the variable `i` is concerned (C11 6.5.1p2;
/repo/src/sha3/keccak4x/KeccakP-1600-times4-SIMD256.c:802-1031). -/
def RoundsUser.accepted (c : UnrollConf) (f : RoundsUser) : Bool :=
  match c.variant with
  | none => false
  | some u => !f.uses u || f.declares c

/-- The file /repo/src/sha3/keccak4x/KeccakP-1600-times4-SIMD256.c is accepted, in this respect (lines 795-1032). -/
def UnrollConf.accepted (c : UnrollConf) : Bool :=
  RoundsUser.accepted c .permute24 && RoundsUser.accepted c .permute12 &&
    RoundsUser.accepted c .fastLoop24 && RoundsUser.accepted c .fastLoop12

end Frodo
