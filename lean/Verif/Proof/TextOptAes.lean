import Verif.Proof.TextOptSa
import Verif.Text.OptAesFuns

/-! # `frodo_mul_add_as_plus_e` of /repo/src/frodo_macrify.c:21-123, without intrinsics and with A from AES128: text and model -/

namespace Frodo

open Src

/-- The functions of /repo/src/aes/aes.c for AES128 do what the model says, whatever the type of the elements of the buffers that are
encrypted. -/
structure AesAt (X : Ctx) (J : Junk) : Prop where
  load : ∀ {N F bk ki br a} {K R : List U8}, F bk = u8s K → F br = u8s R → bk < N → br < N → bk ≠ br → ki ≤ K.length →
    Does X N F "AES128_load_schedule" [.ptr bk ki false 1, .ptr br 0 false 1] (AES128_load_schedule .c J a (K.drop ki) R)
      (fun _ => .undef .void) (fun r => F.set br (u8s r))
  enc : ∀ {N F bi br bo a} {v : View} {I R O : List U8} {len : Nat}, F bi = v.blk I → F br = u8s R → F bo = v.blk O →
    I.length % 2 = 0 → O.length % 2 = 0 → bi < N → br < N → bo < N → bi ≠ bo → br ≠ bo → br ≠ bi → len < 2 ^ 31 →
    Does X N F "AES128_ECB_enc_sch" [.ptr bi 0 false 1, .int false 8 len, .ptr br 0 false 1, .ptr bo 0 false 1]
      (AES128_ECB_enc_sch .c a I len R O) (fun _ => .undef .void) (fun r => F.set bo (v.blk r))
  free : ∀ {N F br} {R : List U8}, F br = u8s R → br < N → Does X N F "AES128_free_schedule" [.ptr br 0 false 1]
      (AES128_free_schedule R) (fun _ => .undef .void) (fun r => F.set br (u8s r))

theorem i16_u16 (x : Int) : i16 x = i16 ((u16 x).toNat : Int) := by
  have h : BitVec.ofInt 16 ((u16 x).toNat : Int) = BitVec.ofInt 16 x := by
    unfold u16
    apply BitVec.eq_of_toInt_eq
    simp only [BitVec.toNat_ofInt, BitVec.toInt_ofInt]
    rw [Int.toNat_of_nonneg (Int.emod_nonneg _ (by decide)), Int.emod_bmod]
  unfold i16
  rw [h]

section

variable {X : Ctx} {N : Nat} {F : Mem}

theorem Ev.sizeS {loc : List (String × Val)} {a : Expr} {x : Nat} (ha : Ev X N loc F a (.int true 4 x)) (hx : x < 2 ^ 31) :
    Ev X N loc F (.bin .mul a (.sizeof (.int true 2))) (.int false 8 ((x * 2 : Nat) : Int)) := by
  refine ha.bin (y := .int false 8 ((2 : Nat) : Int)) (fun _ _ _ _ => ⟨_, _, rfl, rfl⟩) fun m => ?_
  csim

/-- The local variables (/repo/src/frodo_macrify.c:25-36). -/
def asLocT (next : Nat) (vi vj vk : Val) (ps : List (String × Val)) : List (String × Val) :=
  ("aes_key_schedule", .ptr (next + 2) 0 false 1) :: ("a_row_temp", .ptr (next + 1) 0 true 2) :: asLoc next vi vj vk ps

/-- `a_row[k] = LE_TO_UINT16(a_row[k])` for all k (/repo/src/frodo_macrify.c:100-102). -/
theorem Run.leRowT {P : Params} {next : Nat} {vi vj vk : Val} {ps : List (String × Val)} {A : List U16} {rest : Stmt}
    {k : List U16 → C α} {Q : α → St × Flow → Prop} {w : Prop} [Decidable w] {v : Nat} (hv : vk = later true 4 w v) (hP : P.Small)
    (hb : next + 0 < N) (hl : F (next + 0) = s16s A)
    (hk : ∀ r, Run X N (asLocT next vi vj (.int true 4 (4 * P.n : Nat)) ps) (F.set (next + 0) (s16s r)) rest (k r) Q) :
    Run X N (asLocT next vi vj vk ps) F
      (.seq (.for (.expr (.asg (.var "k") (.num true 4 0))) (.bin .lt (.var "k") (.bin .mul (.num true 4 4) (.num true 4 P.n))) (.inc false true (.var "k"))
        (.block (.seq (.expr (.asg (.idx (.var "a_row") (.var "k")) (.idx (.var "a_row") (.var "k")))) .skip))) rest)
      (Frodo.forC 0 (4 * P.n) 1 A (fun i A => do
        let x ← Frodo.rd A i
        Frodo.wr A i (LE_TO_UINT16 .le x)) >>= k) Q := by
  have q1 := hP.n
  subst hv
  refine Run.forMem (fun i => asLocT next vi vj (.int true 4 i) ps) (fun r : List U16 => F.set (next + 0) (s16s r)) ?_ ?_ ?_ ?_ ?_ rfl hk
  · rw [set_self _ hl]
  · intro M nx
    unfold asLocT asLoc
    csim
  · intro i M nx hi
    unfold asLocT asLoc
    csim
  · intro i M nx hi
    refine ⟨.int true 4 i, ?_⟩
    unfold asLocT asLoc
    csim
  · intro i r hi M nx hn hA
    unfold asLocT asLoc
    have hM : M (next + 0) = s16s r := by rw [hA _ hb]; simp [Mem.set]
    csim [hM]
    refine Refines.rdS fun x _ => ?_
    csim
    refine Refines.tail ?_
    refine Refines.wrS (by rw [LE_TO_UINT16]) fun r' _ _ => ?_
    refine .pure ⟨rfl, rfl, hn, ?_⟩
    have h := hA.set (next + 0) (s16s r')
    simp only [set_set] at h
    exact h

/-- Four rows times s (/repo/src/frodo_macrify.c:103-116). -/
theorem Run.accAsT {P : Params} {next i bo bs ks be ke bi ki : Nat} {v : Int} {A O : List U16} {pre : List Int} {s : List U16} {rest : Stmt}
    {k : List U16 → C α} {Q : α → St × Flow → Prop} (hP : P.Small) (hi : i + 4 ≤ P.n) (hb0 : next + 0 < N) (hb1 : bo < N) (hb2 : bs < N)
    (n1 : next + 0 ≠ bo) (n2 : bs ≠ bo) (hA : F (next + 0) = s16s A) (hO : F bo = u16s O) (hS : F bs = ⟨false, 2, pre ++ ofU16 s⟩)
    (hpre : pre.length = ks)
    (hk : ∀ r, Run X N (asLocT next (.int true 4 i) (.int true 4 P.n) (.int true 4 P.nbar) (mulArgs bo bs ks be ke bi ki))
      (F.set bo (u16s r)) rest (k r) Q) :
    Run X N (asLocT next (.int true 4 i) (.int true 4 P.n) (.int true 4 v) (mulArgs bo bs ks be ke bi ki)) F
      (.seq (.for (.expr (.asg (.var "k") (.num true 4 0))) (.bin .lt (.var "k") (.num true 4 P.nbar)) (.inc false true (.var "k"))
        (.block (.seq (.declArr false 2 "sum" (.num true 4 4) (some [.num true 4 0]))
          (.seq (.for (.expr (.asg (.var "j") (.num true 4 0))) (.bin .lt (.var "j") (.num true 4 P.n)) (.inc false true (.var "j"))
            (.block (.seq (.decl (.int false 2) "sp" (some (.idx (.var "s") (.bin .add (.bin .mul (.var "k") (.num true 4 P.n)) (.var "j")))))
              (accTail P)))) (outTail P))))) rest)
      (Frodo.forC 0 P.nbar 1 O (fun k out => do
        let sum ← forC 0 P.n 1 (List.replicate 4 (0 : U16)) fun j sum => do
          let sp ← rd s (k * P.n + j)
          accWords P A j sp sum
        outWords P i k sum out) >>= k) Q := by
  obtain ⟨q1, q2, q3, q4, -⟩ := hP
  subst hpre
  have c1 : P.n * P.n ≤ 1344 * 1344 := Nat.mul_le_mul q1 q1
  have c2 : P.n * P.nbar ≤ 1344 * 8 := Nat.mul_le_mul q1 q3
  have c3 : P.nbar * P.n ≤ 8 * 1344 := Nat.mul_le_mul q3 q1
  refine Run.forMemStep (fun k => asLocT next (.int true 4 i) (.int true 4 P.n) (.int true 4 k) (mulArgs bo bs pre.length be ke bi ki))
    (fun k => asLocT next (.int true 4 i) (.int true 4 P.n) (.int true 4 k) (mulArgs bo bs pre.length be ke bi ki))
    (fun r : List U16 => F.set bo (u16s r)) (by omega) (Nat.mod_one _) ?_ ?_ ?_ ?_ ?_ rfl ?_
  · rw [set_self _ hO]
  · intro M nx
    unfold asLocT asLoc mulArgs
    csim
  · intro k M nx hk
    unfold asLocT asLoc mulArgs
    csim
  · intro k M nx hk
    refine ⟨.int true 4 k, ?_⟩
    unfold asLocT asLoc mulArgs
    csim
  · intro k r hk' _ M nx hn hM
    have hA' : M (next + 0) = s16s A := by rw [hM _ hb0, set_ne _ _ n1, hA]
    have hO' : M bo = u16s r := by rw [hM _ hb1, set_same]
    have hS' : M bs = ⟨false, 2, pre ++ ofU16 s⟩ := by rw [hM _ hb2, set_ne _ _ n2, hS]
    have m1 : next + 0 ≠ nx := by omega
    have m2 : bo ≠ nx := by omega
    have m3 : bs ≠ nx := by omega
    have m4 : nx ≠ bo := by omega
    have h0 := cell_lt (show i + 0 < P.n by omega) (show k < P.nbar by omega)
    have h1 := cell_lt (show i + 1 < P.n by omega) (show k < P.nbar by omega)
    have h2 := cell_lt (show i + 2 < P.n by omega) (show k < P.nbar by omega)
    have h3 := cell_lt (show i + 3 < P.n by omega) (show k < P.nbar by omega)
    unfold asLocT asLoc mulArgs
    csim [loopF_eq]
    refine (Refines.forC (fun j (x : List U16) => (⟨("sum", .ptr nx 0 false 2) :: asLocT next (.int true 4 i) (.int true 4 j) (.int true 4 k)
      (mulArgs bo bs pre.length be ke bi ki), M.set nx (u16s x), nx + 1⟩ : St)) (fun _ _ => True) (Nat.zero_le _) ?_ trivial ?_ ?_).bind ?_
    · rfl
    · intro j x hj _
      have g := cell_lt (show k < P.nbar by omega) hj
      unfold asLocT asLoc mulArgs
      csim [hS', m3]
      cstep
      cstep
      csim
      refine Refines.tail ((accTail_eq (Q := fun S' x => x = (⟨_, M.set nx (u16s S'), nx + 1⟩, .next)) q1 hj rfl rfl rfl rfl hA' m1 fun S' => rfl).bind ?_)
      rintro S' _ rfl
      csim
      exact .pure ⟨rfl, trivial⟩
    · intro r _
      unfold asLocT asLoc mulArgs
      csim
      exact Refines.branchF (by simp)
    · rintro x _ ⟨rfl, -⟩
      csim
      have e : M.set nx (u16s x) = (M.set nx (u16s x)).set bo (u16s r) := (set_self _ (by rw [set_ne _ _ m2, hO'])).symm
      rw [e]
      refine Refines.tail ((outTail_eq (Q := fun O' x' => x' = (⟨_, (M.set nx (u16s x)).set bo (u16s O'), nx + 1⟩, .next)) q1 q3 hi (by omega)
        rfl rfl rfl rfl (set_same ..) m4 fun O' => rfl).bind ?_)
      rintro O' _ rfl
      csim
      refine .pure ⟨rfl, rfl, Nat.le_succ_of_le hn, fun b hb => ?_⟩
      show ((M.set nx (u16s x)).set bo (u16s O')) b = _
      by_cases h : b = bo
      · rw [h, set_same, set_same]
      · rw [set_ne _ _ h, set_ne _ _ h, set_ne _ _ (by omega), hM b hb, set_ne _ _ h]
  · intro r
    exact hk r

/-- `a_row_temp[x] = y` (/repo/src/frodo_macrify.c:45-48, 54-57). -/
theorem fillText_step {next nx' x : Nat} {v : Int} {T : List U16} {M : Mem} {loc : List (String × Val)} {ix vx : Expr} {rest : Stmt} {k : List U16 → C α}
    {Q : α → St × Flow → Prop} (v1 : findVar "a_row_temp" loc = some (.ptr (next + 1) 0 true 2))
    (h1 : ∀ M, eval X ix ⟨loc, M, nx'⟩ = pure (.int true 4 (x : Nat), ⟨loc, M, nx'⟩)) (h2 : ∀ M, eval X vx ⟨loc, M, nx'⟩ = pure (.int true 4 v, ⟨loc, M, nx'⟩))
    (hk : ∀ T', Refines False (k T') (exec X rest ⟨loc, M.set (next + 1) (s16s T'), nx'⟩) Q) :
    Refines False (wr T x (u16 v) >>= k)
      (exec X (.seq (.expr (.asg (.idx (.var "a_row_temp") ix) vx)) rest) ⟨loc, M.set (next + 1) (s16s T), nx'⟩) Q := by
  csim [v1, h1, h2]
  refine Refines.wrS (i16_u16 v) fun T' _ _ => ?_
  exact hk T'

/-- Four stores (/repo/src/frodo_macrify.c:45-48, 54-57). -/
theorem fillTail_eq {next nx' x0 x1 x2 x3 : Nat} {v0 v1 v2 v3 : Int} {T : List U16} {M : Mem} {loc : List (String × Val)} {i0 i1 i2 i3 e0 e1 e2 e3 : Expr}
    (v : findVar "a_row_temp" loc = some (.ptr (next + 1) 0 true 2))
    (h0 : ∀ M, eval X i0 ⟨loc, M, nx'⟩ = pure (.int true 4 (x0 : Nat), ⟨loc, M, nx'⟩)) (g0 : ∀ M, eval X e0 ⟨loc, M, nx'⟩ = pure (.int true 4 v0, ⟨loc, M, nx'⟩))
    (h1 : ∀ M, eval X i1 ⟨loc, M, nx'⟩ = pure (.int true 4 (x1 : Nat), ⟨loc, M, nx'⟩)) (g1 : ∀ M, eval X e1 ⟨loc, M, nx'⟩ = pure (.int true 4 v1, ⟨loc, M, nx'⟩))
    (h2 : ∀ M, eval X i2 ⟨loc, M, nx'⟩ = pure (.int true 4 (x2 : Nat), ⟨loc, M, nx'⟩)) (g2 : ∀ M, eval X e2 ⟨loc, M, nx'⟩ = pure (.int true 4 v2, ⟨loc, M, nx'⟩))
    (h3 : ∀ M, eval X i3 ⟨loc, M, nx'⟩ = pure (.int true 4 (x3 : Nat), ⟨loc, M, nx'⟩)) (g3 : ∀ M, eval X e3 ⟨loc, M, nx'⟩ = pure (.int true 4 v3, ⟨loc, M, nx'⟩)) :
    Refines False (do
        let T ← wr T x0 (u16 v0)
        let T ← wr T x1 (u16 v1)
        let T ← wr T x2 (u16 v2)
        wr T x3 (u16 v3))
      (exec X (.block (.seq (.expr (.asg (.idx (.var "a_row_temp") i0) e0)) (.seq (.expr (.asg (.idx (.var "a_row_temp") i1) e1))
        (.seq (.expr (.asg (.idx (.var "a_row_temp") i2) e2)) (.seq (.expr (.asg (.idx (.var "a_row_temp") i3) e3)) .skip)))))
        ⟨loc, M.set (next + 1) (s16s T), nx'⟩)
      fun T' x => x = (⟨loc, M.set (next + 1) (s16s T'), nx'⟩, .next) := by
  rw [exec_block]
  refine Refines.tail (Refines.bind (R := fun T' x => x = (⟨loc, M.set (next + 1) (s16s T'), nx'⟩, .next)) ?_ ?_)
  · refine Refines.tail ?_
    simp only [bind_assoc]
    refine fillText_step v h0 g0 fun T => ?_
    refine fillText_step v h1 g1 fun T => ?_
    refine fillText_step v h2 g2 fun T => ?_
    refine fillText_step v h3 g3 fun T => ?_
    exact .pure rfl
  · rintro T _ rfl
    refine .pure ?_
    simp [leave]

/-- The column numbers (/repo/src/frodo_macrify.c:44-49). -/
theorem Run.fillCols {P : Params} {next : Nat} {vi vk : Val} {ps : List (String × Val)} {T : List U16} {rest : Stmt} {k : List U16 → C α}
    {Q : α → St × Flow → Prop} (hP : P.Small) (hst : P.stripe = 8) (hb : next + 1 < N) (hT : F (next + 1) = s16s T)
    (hk : ∀ r, Run X N (asLocT next vi (.int true 4 P.n) vk ps) (F.set (next + 1) (s16s r)) rest (k r) Q) :
    Run X N (asLocT next vi (.undef (.int true 4)) vk ps) F
      (.seq (.for (.expr (.asg (.var "j") (.num true 4 0))) (.bin .lt (.var "j") (.num true 4 P.n)) (.asgOp .add (.var "j") (.num true 4 P.stripe))
        (.block
          (.seq (.expr (.asg (.idx (.var "a_row_temp") (.bin .add (.bin .add (.var "j") (.num true 4 1)) (.bin .mul (.num true 4 0) (.num true 4 P.n)))) (.var "j")))
          (.seq (.expr (.asg (.idx (.var "a_row_temp") (.bin .add (.bin .add (.var "j") (.num true 4 1)) (.bin .mul (.num true 4 1) (.num true 4 P.n)))) (.var "j")))
          (.seq (.expr (.asg (.idx (.var "a_row_temp") (.bin .add (.bin .add (.var "j") (.num true 4 1)) (.bin .mul (.num true 4 2) (.num true 4 P.n)))) (.var "j")))
          (.seq (.expr (.asg (.idx (.var "a_row_temp") (.bin .add (.bin .add (.var "j") (.num true 4 1)) (.bin .mul (.num true 4 3) (.num true 4 P.n)))) (.var "j")))
          .skip)))))) rest)
      (Frodo.forC 0 P.n P.stripe T (fun j temp => do
        let temp ← wr temp (j + 1 + 0 * P.n) (UINT16_TO_LE .le (u16 j))
        let temp ← wr temp (j + 1 + 1 * P.n) (UINT16_TO_LE .le (u16 j))
        let temp ← wr temp (j + 1 + 2 * P.n) (UINT16_TO_LE .le (u16 j))
        wr temp (j + 1 + 3 * P.n) (UINT16_TO_LE .le (u16 j))) >>= k) Q := by
  have q1 := hP.n; have q8 := hP.n8
  refine Run.forMemStep (fun j => asLocT next vi (.int true 4 j) vk ps) (fun j => asLocT next vi (.int true 4 j) vk ps)
    (fun r : List U16 => F.set (next + 1) (s16s r)) (by omega) (by rw [hst]; exact q8) ?_ ?_ ?_ ?_ ?_ rfl hk
  · rw [set_self _ hT]
  · intro M nx
    unfold asLocT asLoc
    csim
  · intro j M nx hj
    unfold asLocT asLoc
    csim
  · intro j M nx hj
    refine ⟨.int true 4 (j + P.stripe : Nat), ?_⟩
    unfold asLocT asLoc
    csim
  · intro j T hj _ M nx hn hA
    have hM : M (next + 1) = s16s T := by rw [hA _ hb, set_same]
    simp only [UINT16_TO_LE]
    have e : ∀ r : Nat, r < 4 → ∀ M, eval X (.bin .add (.bin .add (.var "j") (.num true 4 1)) (.bin .mul (.num true 4 r) (.num true 4 P.n)))
        ⟨asLocT next vi (.int true 4 j) vk ps, M, nx⟩ = pure (.int true 4 (j + 1 + r * P.n : Nat), ⟨asLocT next vi (.int true 4 j) vk ps, M, nx⟩) := by
      intro r hr M
      have : r * P.n ≤ 3 * 1344 := Nat.mul_le_mul (by omega) q1
      unfold asLocT asLoc
      csim
    have e' : ∀ M, eval X (.var "j") ⟨asLocT next vi (.int true 4 j) vk ps, M, nx⟩ = pure (.int true 4 j, ⟨asLocT next vi (.int true 4 j) vk ps, M, nx⟩) := by
      intro M
      unfold asLocT asLoc
      csim
    rw [← set_self M hM]
    have key := fillTail_eq (M := M) (T := T) (next := next) (by unfold asLocT; rfl) (e 0 (by omega)) e' (e 1 (by omega)) e' (e 2 (by omega)) e' (e 3 (by omega)) e'
    rw [← bind_pure (exec X _ _)]
    refine Refines.tail (key.bind ?_)
    rintro T' _ rfl
    refine .pure ⟨rfl, rfl, hn, ?_⟩
    have h := hA.set (next + 1) (s16s T')
    simp only [set_set] at h
    exact h

/-- The row numbers (/repo/src/frodo_macrify.c:53-58). -/
theorem Run.fillRows {P : Params} {next i : Nat} {vk : Val} {ps : List (String × Val)} {T : List U16} {rest : Stmt} {k : List U16 → C α}
    {Q : α → St × Flow → Prop} (hP : P.Small) (hst : P.stripe = 8) (hi : i < 2 ^ 20) (hb : next + 1 < N) (hT : F (next + 1) = s16s T)
    (hk : ∀ r, Run X N (asLocT next (.int true 4 i) (.int true 4 P.n) vk ps) (F.set (next + 1) (s16s r)) rest (k r) Q) :
    Run X N (asLocT next (.int true 4 i) (.int true 4 P.n) vk ps) F
      (.seq (.for (.expr (.asg (.var "j") (.num true 4 0))) (.bin .lt (.var "j") (.num true 4 P.n)) (.asgOp .add (.var "j") (.num true 4 P.stripe))
        (.block
          (.seq (.expr (.asg (.idx (.var "a_row_temp") (.bin .add (.var "j") (.bin .mul (.num true 4 0) (.num true 4 P.n)))) (.bin .add (.var "i") (.num true 4 0))))
          (.seq (.expr (.asg (.idx (.var "a_row_temp") (.bin .add (.var "j") (.bin .mul (.num true 4 1) (.num true 4 P.n)))) (.bin .add (.var "i") (.num true 4 1))))
          (.seq (.expr (.asg (.idx (.var "a_row_temp") (.bin .add (.var "j") (.bin .mul (.num true 4 2) (.num true 4 P.n)))) (.bin .add (.var "i") (.num true 4 2))))
          (.seq (.expr (.asg (.idx (.var "a_row_temp") (.bin .add (.var "j") (.bin .mul (.num true 4 3) (.num true 4 P.n)))) (.bin .add (.var "i") (.num true 4 3))))
          .skip)))))) rest)
      (Frodo.forC 0 P.n P.stripe T (fun j temp => do
        let temp ← wr temp (j + 0 * P.n) (UINT16_TO_LE .le (u16 (i + 0)))
        let temp ← wr temp (j + 1 * P.n) (UINT16_TO_LE .le (u16 (i + 1)))
        let temp ← wr temp (j + 2 * P.n) (UINT16_TO_LE .le (u16 (i + 2)))
        wr temp (j + 3 * P.n) (UINT16_TO_LE .le (u16 (i + 3)))) >>= k) Q := by
  have q1 := hP.n; have q8 := hP.n8
  refine Run.forMemStep (fun j => asLocT next (.int true 4 i) (.int true 4 j) vk ps) (fun j => asLocT next (.int true 4 i) (.int true 4 j) vk ps)
    (fun r : List U16 => F.set (next + 1) (s16s r)) (by omega) (by rw [hst]; exact q8) ?_ ?_ ?_ ?_ ?_ rfl hk
  · rw [set_self _ hT]
  · intro M nx
    unfold asLocT asLoc
    csim
  · intro j M nx hj
    unfold asLocT asLoc
    csim
  · intro j M nx hj
    refine ⟨.int true 4 (j + P.stripe : Nat), ?_⟩
    unfold asLocT asLoc
    csim
  · intro j T hj _ M nx hn hA
    have hM : M (next + 1) = s16s T := by rw [hA _ hb, set_same]
    simp only [UINT16_TO_LE]
    have e : ∀ r : Nat, r < 4 → ∀ M, eval X (.bin .add (.var "j") (.bin .mul (.num true 4 r) (.num true 4 P.n)))
        ⟨asLocT next (.int true 4 i) (.int true 4 j) vk ps, M, nx⟩ =
          pure (.int true 4 (j + r * P.n : Nat), ⟨asLocT next (.int true 4 i) (.int true 4 j) vk ps, M, nx⟩) := by
      intro r hr M
      have : r * P.n ≤ 3 * 1344 := Nat.mul_le_mul (by omega) q1
      unfold asLocT asLoc
      csim
    have e' : ∀ r : Nat, r < 4 → ∀ M, eval X (.bin .add (.var "i") (.num true 4 r)) ⟨asLocT next (.int true 4 i) (.int true 4 j) vk ps, M, nx⟩ =
        pure (.int true 4 ((i : Int) + r), ⟨asLocT next (.int true 4 i) (.int true 4 j) vk ps, M, nx⟩) := by
      intro r hr M
      unfold asLocT asLoc
      csim
    rw [← set_self M hM]
    have key := fillTail_eq (M := M) (T := T) (next := next) (by unfold asLocT; rfl) (e 0 (by omega)) (e' 0 (by omega)) (e 1 (by omega)) (e' 1 (by omega))
      (e 2 (by omega)) (e' 2 (by omega)) (e 3 (by omega)) (e' 3 (by omega))
    rw [← bind_pure (exec X _ _)]
    refine Refines.tail (key.bind ?_)
    rintro T' _ rfl
    refine .pure ⟨rfl, rfl, hn, ?_⟩
    have h := hA.set (next + 1) (s16s T')
    simp only [set_set] at h
    exact h

end

variable {Fs : List File} {X : Ctx} {d N : Nat} {F : Mem}

attribute [local irreducible] Ev EvL Run DRun Does

theorem text_mul_as_aes {P : Params} {B : Build} {E : Env} (hP : P.Small) (hst : P.stripe = 8) (hB : B.arch = .le)
    (hg : B.gen = .aes) (hc : B.aes = .standalone .c) (ha : X.arch = .le) {a1 a2 : Nat}
    (hS : AesAt (link Fs X d) E.junk) (j1 : JunkAt E X 30 8 "aes_key_schedule") {m : Mem} {next bo bs be bi ks ke ki : Nat}
    {O S Z : List U16} {I : List U8} (hm1 : m bo = u16s O) (hm2 : m bs = u16s S) (hm3 : m be = u16s Z) (hm4 : m bi = u8s I)
    (hb1 : bo < next) (hb2 : bs < next) (hb3 : be < next) (hb4 : bi < next) (hn1 : bs ≠ bo)
    (hn2 : be ≠ bo) (hn3 : bi ≠ bo) (hk1 : ks ≤ S.length) (hk2 : ke ≤ Z.length) (hk3 : ki ≤ I.length) (hke : ke % 2 = 0) :
    Refines False (as_plus_e_optimized B E P a1 a2 O (S.drop ks) (Z.drop ke) (I.drop ki))
      (callFun (link Fs X d) (mulAsAesFun.at P) [.ptr bo 0 false 2, .ptr bs ks false 2, .ptr be ke false 2, .ptr bi ki false 1] m next)
      fun r x => x.1 = .int true 4 1 ∧ next ≤ x.2.2 ∧ MAgree next x.2.1 (m.set bo (u16s r)) := by
  have c4 : 1 ≤ 4 * P.n := by have := hP.n1; omega
  have q1 := hP.seedA; have q2 := hP.n; have q3 := hP.nbar; have h8 := hP.n8
  refine run_one (ps := mulArgs bo bs ks be ke bi ki) rfl (by rfl) ?_
  unfold mulAsAesFun mulArgs
  cat
  apply DRun.assoc
  apply DRun.undef
  apply DRun.assoc
  apply DRun.undef
  apply DRun.undef
  refine DRun.arr 0 (by ev) rfl (newArr_zero16 c4) ?_
  simp only [as_plus_e_optimized, as_plus_e_optimized_full, hg, bind_assoc, pure_bind]
  refine DRun.copyE (next := next) (bs := bs) (ks := ks) (be := be) (ke := ke) (bi := bi) (ki := ki) hP (by rw [link_arch, ha]) (by omega) (by omega) hn2
    (by rw [fr_arg hb1, hm1]) (by rw [fr_arg hb3, hm3]) hke hk2 h8 fun O => ?_
  rw [fr_set_arg hb1]
  unfold asLoc mulArgs
  refine DRun.arr 1 (by ev) rfl (newArr_zero16 c4) ?_
  refine DRun.arr 2 (by ev) rfl (newArr_junk8 (by unfold JunkAt at j1 ⊢; rwa [link_junk]) _) ?_
  refine Run.start ?_
  lists
  simp only [setup128, hc, hB, bind_assoc, pure_bind]
  refine Run.callEq (EvL.cons (by ev) (EvL.cons (by ev) EvL.nil))
    (hS.load (by rw [fr_arg hb4, set_ne _ _ hn3, hm4]) (fr_at rfl) (by omega) (by omega) (by omega) hk3) rfl ?_
  intro R
  upd
  lists
  refine Run.fillCols (next := next) (vi := .int true 4 (P.n * P.nbar : Nat)) (vk := .undef (.int true 4)) (ps := mulArgs bo bs ks be ke bi ki) hP hst ?_ ?_ ?_
  · omega
  · exact fr_at rfl
  intro T
  upd
  lists
  unfold as_loop
  simp only [bind_assoc]
  refine Run.forMemStep (fun i => asLocT next (.int true 4 i) (.int true 4 P.n) (later true 4 (i = 0) P.nbar) (mulArgs bo bs ks be ke bi ki))
    (fun i => asLocT next (.int true 4 i) (.int true 4 P.n) (.int true 4 P.nbar) (mulArgs bo bs ks be ke bi ki))
    (fun s : List U16 × List U16 × List U16 => fr (m.set bo (u16s s.2.2)) next [s16s s.1, s16s s.2.1, u8s R]) (by omega) (by omega) rfl ?_ ?_ ?_ ?_ rfl ?_
  · intro M nx
    unfold asLocT asLoc mulArgs
    csim
    rfl
  · intro i M nx hi
    unfold asLocT asLoc mulArgs
    csim
  · intro i M nx hi
    refine ⟨.int true 4 (i + 4 : Nat), ?_⟩
    unfold asLocT asLoc mulArgs
    csim
    simp [later]
  · rintro i ⟨A, T, O⟩ hi' hm
    refine Run.block ?_
    unfold as_gen_aes
    simp only [hB, hc, encrypt128, bind_assoc, pure_bind]
    refine Run.fillRows hP hst (by omega) (by omega) (fr_at rfl) ?_
    intro T
    upd
    lists
    apply Run.asBytes; intro c1
    have c2 : 4 * P.n < 2 ^ 31 := by omega
    refine Run.callEq (EvL.cons (Ev.castTo (w := .ptr (next + 1) 0 false 1) (Ev.varP (b := next + 1) (off := 0) (s := true) (n := 2) rfl) (by csim))
      (EvL.cons (Ev.sizeS (Ev.mul Ev.nat Ev.nat (by omega) (by omega) c2) c2)
      (EvL.cons (Ev.varP (b := next + 2) (off := 0) (s := false) (n := 1) rfl) (EvL.cons (Ev.castTo (w := .ptr (next + 0) 0 false 1)
        (Ev.varP (b := next + 0) (off := 0) (s := true) (n := 2) rfl) (by csim)) EvL.nil))))
      (hS.enc (a := E.addr .aesSched) (v := .s16) (I := toBytes .le T) (O := toBytes .le A) ?_ (fr_at rfl) ?_ ?_ ?_ (by omega) (by omega) (by omega) (by omega) (by omega) (by omega) (by omega)) ?_ ?_
    · rw [View.blk, ofBytes_toBytes]; look
    · rw [View.blk, ofBytes_toBytes]; look
    · rw [length_toBytes]; omega
    · rw [length_toBytes]; omega
    · rfl
    intro y
    upd
    lists
    unfold as_accumulate
    simp only [hB, bind_assoc, pure_bind]
    refine Run.mem_eq (F' := fr (m.set bo (u16s O)) next [s16s (ofBytes .le y), s16s T, u8s R]) ?_ ?_
    · rfl
    refine Run.leRowT rfl hP (by omega) (fr_at rfl) fun A => ?_
    upd
    lists
    refine Run.accAsT (pre := ofU16 (S.take ks)) (s := S.drop ks) hP hi' (by omega) (by omega) (by omega) (by omega) hn1 (fr_at rfl)
      (by rw [fr_arg hb1, set_same]) (by rw [fr_arg hb2, set_ne _ _ hn1, ← u16s_split, hm2]) (length_take16 hk1) ?_
    intro r
    rw [fr_set_arg hb1, set_set]
    exact Run.skip fun M nx hn hA => ⟨rfl, rfl, hn, hA⟩
  · rintro ⟨A, T, r⟩
    simp only [free128, bind_assoc, pure_bind]
    refine Run.callEq (EvL.cons (Ev.varP (b := next + 2) (off := 0) (s := false) (n := 1) rfl) EvL.nil) (hS.free (fr_at rfl) (by omega)) rfl ?_
    intro R'
    upd
    lists
    refine Run.retOne fun st h1 h2 => ⟨rfl, Nat.le_trans (by omega) h1, fun b hb => ?_⟩
    rw [h2 b (by omega), fr_arg hb]

end Frodo
