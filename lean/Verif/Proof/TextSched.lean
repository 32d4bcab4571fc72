import Verif.Proof.TextAes

/-! # The key schedules of /repo/src/aes/aes_c.c:58-200: text and model

The loops of the two functions have the same statements; what these do is proved once, for
every number of words of the key. -/

namespace Frodo

open Src

@[sem] theorem binOp_mod {m : Mem} {s n a s' n' b} : binOpV m .mod (.int s n a) (.int s' n' b) =
    numOp .mod (usual (s, n) (s', n')).1 (usual (s, n) (s', n')).2 (wrap (usual (s, n) (s', n')).1 (usual (s, n) (s', n')).2 a)
      (wrap (usual (s, n) (s', n')).1 (usual (s, n) (s', n')).2 b) := rfl

theorem mod_uint {a : Nat} (h : a < 2 ^ 32) (k : Nat) (hk : 0 < k) :
    numOp .mod false 4 (a : Int) (k : Int) = pure (.int false 4 (a % k : Nat)) := by
  have h1 : a % k < 2 ^ 32 := Nat.lt_of_le_of_lt (Nat.mod_le _ _) h
  have e : (a : Int).tmod k = ((a % k : Nat) : Int) := rfl
  simp only [numOp, C.require, if_pos (show (k : Int) ≠ 0 by omega), pure_bind, e, arith, Bool.false_eq_true, if_false]
  have w : ∀ q : Nat, q < 2 ^ 32 → wrap false 4 (q : Int) = q := fun q hq => wrap_uint (by omega) (by omega)
  exact congrArg (fun x => pure (Val.int false 4 x)) (w _ h1)

/-- `tempa[j]` (/repo/src/aes/aes_c.c:79). -/
def tmpAt (j : Nat) : Expr := .idx (.var "tempa") (.num true 4 j)
/-- `RoundKey[e * 4 + j]` (/repo/src/aes/aes_c.c:79, 122). -/
def keyAt (e : Expr) (j : Nat) : Expr := .idx (.var "RoundKey") (.bin .add (.bin .mul e (.num true 4 4)) (.num true 4 j))
/-- `tempa[j] = RoundKey[(i-1) * 4 + j];` (/repo/src/aes/aes_c.c:79-82). -/
def takeStmt (j : Nat) : Stmt := .expr (.asg (tmpAt j) (keyAt (.bin .sub (.var "i") (.num true 4 1)) j))
/-- `tempa[j] = getSBoxValue(tempa[j]);` (/repo/src/aes/aes_c.c:106-109). -/
def subStmt (j : Nat) : Stmt := .expr (.asg (tmpAt j) (.call "getSBoxValue" [tmpAt j]))
/-- `RoundKey[i * 4 + j] = RoundKey[(i - Nk) * 4 + j] ^ tempa[j];` (/repo/src/aes/aes_c.c:122-125). -/
def mixStmt (j : Nat) : Stmt :=
  .expr (.asg (keyAt (.var "i") j) (.bin .xor (keyAt (.bin .sub (.var "i") (.var "Nk")) j) (tmpAt j)))
/-- The copy of a word (/repo/src/aes/aes_c.c:78-83, 151-156). -/
def takeText : Stmt := .block (.seq (takeStmt 0) (.seq (takeStmt 1) (.seq (takeStmt 2) (.seq (takeStmt 3) .skip))))
/-- The rotation (/repo/src/aes/aes_c.c:90-97, 164-170). -/
def rotText : Stmt := .block (.seq (.expr (.asg (.var "k") (tmpAt 0))) (.seq (.expr (.asg (tmpAt 0) (tmpAt 1)))
  (.seq (.expr (.asg (tmpAt 1) (tmpAt 2))) (.seq (.expr (.asg (tmpAt 2) (tmpAt 3))) (.seq (.expr (.asg (tmpAt 3) (.var "k"))) .skip)))))
/-- The substitution (/repo/src/aes/aes_c.c:103-109, 175-181). -/
def subText : Stmt := .block (.seq (subStmt 0) (.seq (subStmt 1) (.seq (subStmt 2) (.seq (subStmt 3) .skip))))
/-- The constant of the round (/repo/src/aes/aes_c.c:111, 184). -/
def rconText : Stmt := .expr (.asg (tmpAt 0) (.bin .xor (tmpAt 0) (.idx (.var "Rcon") (.bin .div (.var "i") (.var "Nk")))))
/-- What is done to the first word of each group (/repo/src/aes/aes_c.c:86-112, 159-185). -/
def firstText : Stmt := .block (.seq rotText (.seq subText (.seq rconText .skip)))
/-- `i % Nk == j` (/repo/src/aes/aes_c.c:85, 113). -/
def modText (j : Nat) : Expr := .bin .eq (.bin .mod (.var "i") (.var "Nk")) (.num true 4 j)
/-- The new word (/repo/src/aes/aes_c.c:122-125, 195-198). -/
def mixText : Stmt := .seq (mixStmt 0) (.seq (mixStmt 1) (.seq (mixStmt 2) (.seq (mixStmt 3) .skip)))
/-- The statements of the second loop (/repo/src/aes/aes_c.c:77-126, 150-199). -/
def stepText : Stmt := .block (.seq takeText (.seq (.ite (modText 0) firstText .skip)
  (.seq (.ite (modText 4) (.block (.seq subText .skip)) .skip) mixText)))

/-- What is done to the first word of each group, in the model, without the constant (/repo/src/aes/aes_c.c:90-97). -/
def rotWord (tempa : List U8) : C (List U8) := do
  let k ← rd tempa 0
  let tempa ← wr tempa 0 (← rd tempa 1)
  let tempa ← wr tempa 1 (← rd tempa 2)
  let tempa ← wr tempa 2 (← rd tempa 3)
  wr tempa 3 k

/-- The copy of a word, in the model (/repo/src/aes/aes_c.c:78-83). -/
def takeWord (i : Nat) (rk t : List U8) : C (List U8) := do
  let t ← wr t 0 (← rd rk ((i - 1) * 4 + 0))
  let t ← wr t 1 (← rd rk ((i - 1) * 4 + 1))
  let t ← wr t 2 (← rd rk ((i - 1) * 4 + 2))
  wr t 3 (← rd rk ((i - 1) * 4 + 3))

/-- The constant of the round, in the model (/repo/src/aes/aes_c.c:111). -/
def rconWord (Nk i : Nat) (t : List U8) : C (List U8) := do
  let a ← rd t 0
  let r ← rd rcon (i / Nk)
  wr t 0 (a ^^^ r)

/-- The new word, in the model (/repo/src/aes/aes_c.c:122-125). -/
def mixWord (Nk i : Nat) (rk t : List U8) : C (List U8 × List U8) := do
  let rk ← wr rk (i * 4 + 0) ((← rd rk ((i - Nk) * 4 + 0)) ^^^ (← rd t 0))
  let rk ← wr rk (i * 4 + 1) ((← rd rk ((i - Nk) * 4 + 1)) ^^^ (← rd t 1))
  let rk ← wr rk (i * 4 + 2) ((← rd rk ((i - Nk) * 4 + 2)) ^^^ (← rd t 2))
  let rk ← wr rk (i * 4 + 3) ((← rd rk ((i - Nk) * 4 + 3)) ^^^ (← rd t 3))
  pure (rk, t)

theorem schedRot_eq (t : List U8) (i Nk : Nat) : schedRot t i Nk =
    (rotWord t >>= fun t => schedSub t >>= fun t => rconWord Nk i t) := by
  simp only [schedRot, rotWord, schedSub, rconWord, bind_assoc]

section

variable {X : Ctx} {bs bc bz : Nat} {m : Mem} {next : Nat}

/-- The state of the key schedules (/repo/src/aes/aes_c.c:58-63, 131-136). -/
def schedSt (m : Mem) (next Nk Nr bk br : Nat) (pk pr : List Int) (i : Nat) (c : Bool) (u : U8) (r : List U8 × List U8) : St :=
  ⟨[("Nr", .int false 4 Nr), ("Nk", .int false 4 Nk), ("tempa", .ptr next 0 false 1),
    ("k", later false 4 (c = true) u.toNat), ("i", .int false 4 i), ("Key", .ptr bk pk.length false 1), ("RoundKey", .ptr br pr.length false 1)],
    (m.set br ⟨false, 1, pr ++ ofU8 r.1⟩).set next (u8s r.2), next + 1⟩

theorem exec_take (Nk Nr bk br : Nat) (pk pr : List Int) (i : Nat) (c : Bool) (u : U8) (rk t : List U8) (l0 : br < next) (h0 : 0 < i) (h1 : i < 64) :
    Refines False (takeWord i rk t)
      (exec X takeText (schedSt m next Nk Nr bk br pk pr i c u (rk, t)))
      fun t' x => x = (schedSt m next Nk Nr bk br pk pr i c u (rk, t'), .next) := by
  obtain ⟨i, rfl⟩ : ∃ j, i = j + 1 := ⟨i - 1, by omega⟩
  have e1 : (((i + 1 : Nat) : Int) - 1) = (i : Int) := by omega
  rw [takeWord, takeText, takeStmt, takeStmt, takeStmt, takeStmt, keyAt, keyAt, keyAt, keyAt, tmpAt, tmpAt, tmpAt, tmpAt, schedSt, Nat.add_sub_cancel]
  csim [e1, List.take_zero, List.nil_append]
  iterate 7 cstep
  refine Refines.tail (Refines.wr8 (by csim) fun _ _ _ => ?_)
  exact .pure rfl

theorem exec_rot (Nk Nr bk br : Nat) (pk pr : List Int) (i : Nat) (c : Bool) (u : U8) (rk t : List U8) :
    Refines False (rotWord t) (exec X rotText (schedSt m next Nk Nr bk br pk pr i c u (rk, t)))
      fun t' x => ∃ u', x = (schedSt m next Nk Nr bk br pk pr i false u' (rk, t'), .next) := by
  rw [rotText, tmpAt, tmpAt, tmpAt, tmpAt, schedSt, rotWord]
  csim [List.take_zero, List.nil_append]
  iterate 7 cstep
  refine Refines.tail (Refines.wr8 (by csim) fun _ _ _ => ?_)
  csim
  exact .pure ⟨_, rfl⟩

theorem exec_sub (Nk Nr bk br : Nat) (pk pr : List Int) (i : Nat) (c : Bool) (u : U8) (rk t : List U8)
    (hc : ∀ x y : Blk, ByteCall X "getSBoxValue" getSBoxValue ((m.set br x).set next y)) :
    Refines False (schedSub t) (exec X subText (schedSt m next Nk Nr bk br pk pr i c u (rk, t)))
      fun t' x => x = (schedSt m next Nk Nr bk br pk pr i c u (rk, t'), .next) := by
  rw [subText, subStmt, subStmt, subStmt, subStmt, tmpAt, tmpAt, tmpAt, tmpAt, schedSt, schedSub]
  csim [List.take_zero, List.nil_append]
  cstep
  refine (hc _ _ _ _).bind ?_
  rintro y _ rfl
  csim [List.take_zero, List.nil_append]
  iterate 2 cstep
  refine (hc _ _ _ _).bind ?_
  rintro y _ rfl
  csim [List.take_zero, List.nil_append]
  iterate 2 cstep
  refine (hc _ _ _ _).bind ?_
  rintro y _ rfl
  csim [List.take_zero, List.nil_append]
  iterate 2 cstep
  refine (hc _ _ _ _).bind ?_
  rintro y _ rfl
  csim [List.take_zero, List.nil_append]
  refine Refines.tail (Refines.wr8 (by csim) fun _ _ _ => ?_)
  exact .pure rfl

theorem exec_rcon (hX : AesVars X bs bc bz) (hr : m bc = u8s rcon) (Nk Nr bk br : Nat) (pk pr : List Int) (i : Nat) (c : Bool) (u : U8)
    (rk t : List U8) (n3 : bc ≠ br) (l3 : bc < next) (h0 : 0 < Nk) (h1 : i < 64) (h2 : Nk < 64) :
    Refines False (rconWord Nk i t)
      (exec X rconText (schedSt m next Nk Nr bk br pk pr i c u (rk, t)))
      fun t' x => x = (schedSt m next Nk Nr bk br pk pr i c u (rk, t'), .next) := by
  have h3 : (i : Int) < 4294967296 := by omega
  have h4 : (Nk : Int) < 4294967296 := by omega
  have h5 : bc ≠ next := by omega
  have h6 : i / Nk < 64 := lt_of_le_of_lt (Nat.div_le_self _ _) h1
  rw [rconWord, rconText, tmpAt, schedSt]
  csim [List.take_zero, List.nil_append, hX.rcon, div_uint (show i < 2 ^ 32 by omega) Nk h0, hr]
  iterate 2 cstep
  refine Refines.tail (Refines.wr8 ?_ fun _ _ _ => ?_)
  · csim [u8_ixor]
  · exact .pure rfl

theorem exec_mix (Nk Nr bk br : Nat) (pk pr : List Int) (i : Nat) (c : Bool) (u : U8) (rk t : List U8) (l0 : br < next)
    (h0 : Nk ≤ i) (h1 : i < 64) :
    Refines False (mixWord Nk i rk t)
      (exec X mixText (schedSt m next Nk Nr bk br pk pr i c u (rk, t)))
      fun r x => x = (schedSt m next Nk Nr bk br pk pr i c u r, .next) := by
  have hsw : ∀ x y z, ((m.set br x).set next y).set br z = (m.set br z).set next y := fun x y z => by
    rw [swap_set (by omega), set_set]
  obtain ⟨j, rfl⟩ : ∃ j, i = j + Nk := ⟨i - Nk, by omega⟩
  have e1 : (((j + Nk : Nat) : Int) - (Nk : Int)) = (j : Int) := by omega
  rw [mixWord, mixText, mixStmt, mixStmt, mixStmt, mixStmt, keyAt, keyAt, keyAt, keyAt, keyAt, keyAt, keyAt, keyAt,
    tmpAt, tmpAt, tmpAt, tmpAt, schedSt, Nat.add_sub_cancel]
  csim [e1, hsw]
  iterate 4
    cstep
    cstep
    refine Refines.wr8 (by csim [u8_ixor]) fun _ _ _ => ?_
  exact .pure rfl

theorem exec_step (hX : AesVars X bs bc bz) (hr : m bc = u8s rcon) (Nk Nr bk br : Nat) (pk pr : List Int) (i : Nat) (c : Bool) (u : U8)
    (r : List U8 × List U8) (l0 : br < next) (n3 : bc ≠ br) (l3 : bc < next) (h0 : 0 < Nk) (h1 : i < 64) (h2 : Nk ≤ i)
    (hc : ∀ x y : Blk, ByteCall X "getSBoxValue" getSBoxValue ((m.set br x).set next y)) :
    Refines False (schedStep Nk i r) (exec X stepText (schedSt m next Nk Nr bk br pk pr i c u r))
      fun r' x => ∃ c' u', x = (schedSt m next Nk Nr bk br pk pr i c' u' r', .next) := by
  obtain ⟨rk, t⟩ := r
  have e : schedStep Nk i (rk, t) = (takeWord i rk t >>= fun t => ifC (i % Nk == 0) (schedRot t i Nk) (pure t) >>= fun t =>
      ifC (i % Nk == 4) (schedSub t) (pure t) >>= fun t => mixWord Nk i rk t) := by
    simp only [schedStep, takeWord, mixWord, bind_assoc]
  have hm : i % Nk < 64 := lt_of_le_of_lt (Nat.mod_le _ _) h1
  rw [e, stepText, schedSt]
  csim
  refine (exec_take Nk Nr bk br pk pr i c u rk t l0 (by omega) h1).bind ?_
  rintro t _ rfl
  rw [schedSt, modText]
  csim [mod_uint (show i < 2 ^ 32 by omega) Nk h0]
  have hrot : ∀ t, Refines False (schedRot t i Nk) (exec X firstText (schedSt m next Nk Nr bk br pk pr i c u (rk, t)))
      fun t' x => ∃ u', x = (schedSt m next Nk Nr bk br pk pr i false u' (rk, t'), .next) := by
    intro t
    rw [schedRot_eq, firstText, schedSt]
    csim
    refine (exec_rot Nk Nr bk br pk pr i c u rk t).bind ?_
    rintro t _ ⟨u', rfl⟩
    rw [schedSt]
    csim
    refine (exec_sub Nk Nr bk br pk pr i false u' rk t hc).bind ?_
    rintro t _ rfl
    rw [schedSt]
    csim
    refine Refines.tail ((exec_rcon hX hr Nk Nr bk br pk pr i false u' rk t n3 l3 h0 h1 (by omega)).bind ?_)
    rintro t _ rfl
    rw [schedSt]
    csim
    exact .pure ⟨_, rfl⟩
  refine (Refines.ifK (S := fun t' x => ∃ c' u', x = (schedSt m next Nk Nr bk br pk pr i c' u' (rk, t'), .next)) ?_ (fun _ => ?_) fun _ => ?_).bind ?_
  · rfl
  · exact (hrot t).mono fun _ _ ⟨u', h⟩ => ⟨false, u', h⟩
  · exact .pure ⟨c, u, rfl⟩
  rintro t _ ⟨c, u, rfl⟩
  rw [schedSt, modText]
  csim [mod_uint (show i < 2 ^ 32 by omega) Nk h0]
  refine (Refines.ifK (S := fun t' x => x = (schedSt m next Nk Nr bk br pk pr i c u (rk, t'), .next)) ?_ (fun _ => ?_) fun _ => ?_).bind ?_
  · rfl
  · refine Refines.tail ((exec_sub Nk Nr bk br pk pr i c u rk t hc).bind ?_)
    rintro t _ rfl
    rw [schedSt]
    csim
    exact .pure rfl
  · exact .pure rfl
  rintro t _ rfl
  rw [schedSt]
  csim
  refine Refines.tail ((exec_mix Nk Nr bk br pk pr i c u rk t l0 h2 h1).bind ?_)
  rintro r _ rfl
  rw [schedSt]
  csim
  exact .pure ⟨c, u, rfl⟩

theorem sched_loop {S : Stmt} (Nk Nr bk br : Nat) (pk pr : List Int) (h : Nk ≤ 4 * (Nr + 1)) (hN : Nr < 15)
    (hS : ∀ i c u r, Nk ≤ i → i < 64 → Refines False (schedStep Nk i r) (exec X S (schedSt m next Nk Nr bk br pk pr i c u r))
      fun r' x => ∃ c' u', x = (schedSt m next Nk Nr bk br pk pr i c' u' r', .next)) (c : Bool) (u : U8) (r : List U8 × List U8) :
    Refines False (forC Nk (4 * (Nr + 1)) 1 r (schedStep Nk))
      (loop (roundS X (.bin .lt (.var "i") (.bin .mul (.num true 4 4) (.bin .add (.var "Nr") (.num true 4 1)))) (some (.inc true true (.var "i"))) S)
        (schedSt m next Nk Nr bk br pk pr Nk c u r))
      fun r' x => ∃ c' u', x = (schedSt m next Nk Nr bk br pk pr (4 * (Nr + 1)) c' u' r', .next) := by
  refine (Refines.forRel (fun i r s => Nk ≤ i ∧ ∃ c u, s = schedSt m next Nk Nr bk br pk pr i c u r) h ⟨le_refl _, c, u, rfl⟩ ?_ ?_).mono ?_
  · rintro i r _ hi ⟨hi', c, u, rfl⟩
    rw [schedSt]
    csim
    refine Refines.branchT (by csim [decide_eq_true_eq]; omega) ?_
    refine Refines.tail ((hS i c u r hi' (by omega)).bind ?_)
    rintro r _ ⟨c, u, rfl⟩
    rw [schedSt]
    csim
    exact .pure ⟨_, rfl, by omega, c, u, rfl⟩
  · rintro r _ ⟨hi', c, u, rfl⟩
    rw [schedSt]
    csim
    exact Refines.branchF (by csim [decide_eq_false_iff_not]; omega)
  · rintro r _ ⟨_, rfl, _, c, u, rfl⟩
    exact ⟨c, u, rfl⟩

theorem text_load128 (hX : AesVars X bs bc bz) (hr : m bc = u8s rcon) (J : Junk) (bk br : Nat) (pk pr : List Int)
    (key rk : List U8) (hk : m bk = ⟨false, 1, pk ++ ofU8 key⟩) (ho : m br = ⟨false, 1, pr ++ ofU8 rk⟩)
    (hJ : (⟨false, 1, newArr X "tempa" false 1 4 none⟩ : Blk) = u8s (uninit J 0 8 4))
    (n1 : bk ≠ br) (n3 : bc ≠ br) (l0 : br < next) (l1 : bk < next) (l3 : bc < next)
    (hc : ∀ x y : Blk, ByteCall X "getSBoxValue" getSBoxValue ((m.set br x).set next y)) :
    Refines False (aes128_load_schedule_c J key rk) (aesCFile.run X "aes128_load_schedule_c" [.ptr bk pk.length false 1,
        .ptr br pr.length false 1] m next)
      fun r x => ∃ t, x = (.undef .void, (m.set br ⟨false, 1, pr ++ ofU8 r⟩).set next t, next + 1) := by
  have hsw : ∀ x y z, ((m.set br x).set next y).set br z = (m.set br z).set next y := fun x y z => by
    rw [swap_set (by omega), set_set]
  rw [run_eq aesC_aes128_load_schedule_c, aes128_load_schedule_cFun, aes128_load_schedule_c, load_schedule_c]
  csim [loopF_eq, hJ]
  refine (Refines.forC (fun i (r : List U8) => (⟨[("Nr", .int false 4 10), ("Nk", .int false 4 4), ("tempa", .ptr next 0 false 1),
    ("k", .undef (.int false 4)), ("i", .int false 4 i), ("Key", .ptr bk pk.length false 1), ("RoundKey", .ptr br pr.length false 1)],
    (m.set br ⟨false, 1, pr ++ ofU8 r⟩).set next (u8s (uninit J 0 8 4)), next + 1⟩ : St)) (fun _ _ => True) (Nat.zero_le _) ?_ trivial ?_ ?_).bind ?_
  · rw [set_self _ ho, ← hJ]; rfl
  · intro i r hi _
    csim [hsw, hk]
    refine Refines.branchT (by csim [decide_eq_true_eq]; omega) ?_
    iterate 7 cstep
    refine Refines.tail (Refines.wr8 (by csim) fun _ _ _ => ?_)
    exact .pure ⟨rfl, trivial⟩
  · intro r _
    csim
    exact Refines.branchF (by simp)
  · rintro r _ ⟨rfl, -⟩
    csim [loopF_eq]
    refine (sched_loop (S := stepText) 4 10 bk br pk pr (by decide) (by decide) (fun i c u r h2 h1 =>
      exec_step hX hr 4 10 bk br pk pr i c u r l0 n3 l3 (by decide) h1 h2 hc) true 0 (r, uninit J 0 8 4)).bind ?_
    rintro ⟨r, t⟩ _ ⟨c, u, rfl⟩
    rw [schedSt]
    csim
    exact .pure ⟨_, rfl⟩

theorem text_load256 (hX : AesVars X bs bc bz) (hr : m bc = u8s rcon) (J : Junk) (bk br : Nat) (pk pr : List Int)
    (key rk : List U8) (hk : m bk = ⟨false, 1, pk ++ ofU8 key⟩) (ho : m br = ⟨false, 1, pr ++ ofU8 rk⟩)
    (hJ : (⟨false, 1, newArr X "tempa" false 1 4 none⟩ : Blk) = u8s (uninit J 0 8 4))
    (n1 : bk ≠ br) (n3 : bc ≠ br) (l0 : br < next) (l1 : bk < next) (l3 : bc < next)
    (hc : ∀ x y : Blk, ByteCall X "getSBoxValue" getSBoxValue ((m.set br x).set next y)) :
    Refines False (aes256_load_schedule_c J key rk) (aesCFile.run X "aes256_load_schedule_c" [.ptr bk pk.length false 1,
        .ptr br pr.length false 1] m next)
      fun r x => ∃ t, x = (.undef .void, (m.set br ⟨false, 1, pr ++ ofU8 r⟩).set next t, next + 1) := by
  have hsw : ∀ x y z, ((m.set br x).set next y).set br z = (m.set br z).set next y := fun x y z => by
    rw [swap_set (by omega), set_set]
  rw [run_eq aesC_aes256_load_schedule_c, aes256_load_schedule_cFun, aes256_load_schedule_c, load_schedule_c]
  csim [loopF_eq, hJ]
  refine (Refines.forC (fun i (r : List U8) => (⟨[("Nr", .int false 4 14), ("Nk", .int false 4 8), ("tempa", .ptr next 0 false 1),
    ("k", .undef (.int false 4)), ("i", .int false 4 i), ("Key", .ptr bk pk.length false 1), ("RoundKey", .ptr br pr.length false 1)],
    (m.set br ⟨false, 1, pr ++ ofU8 r⟩).set next (u8s (uninit J 0 8 4)), next + 1⟩ : St)) (fun _ _ => True) (Nat.zero_le _) ?_ trivial ?_ ?_).bind ?_
  · rw [set_self _ ho, ← hJ]; rfl
  · intro i r hi _
    csim [hsw, hk]
    refine Refines.branchT (by csim [decide_eq_true_eq]; omega) ?_
    iterate 7 cstep
    refine Refines.tail (Refines.wr8 (by csim) fun _ _ _ => ?_)
    exact .pure ⟨rfl, trivial⟩
  · intro r _
    csim
    exact Refines.branchF (by simp)
  · rintro r _ ⟨rfl, -⟩
    csim [loopF_eq]
    refine (sched_loop (S := stepText) 8 14 bk br pk pr (by decide) (by decide) (fun i c u r h2 h1 =>
      exec_step hX hr 8 14 bk br pk pr i c u r l0 n3 l3 (by decide) h1 h2 hc) true 0 (r, uninit J 0 8 4)).bind ?_
    rintro ⟨r, t⟩ _ ⟨c, u, rfl⟩
    rw [schedSt]
    csim
    exact .pure ⟨_, rfl⟩

end

end Frodo
