import Verif.Text.Rng
import Verif.Proof.TextEcb
import Verif.Proof.Drbg

/-! # The generator of the known answer tests, from its text (/repo/tests/rng.c, /repo/tests/rng.h) -/

namespace Frodo

open Src Spec

section

variable {X Y : Ctx} {m : Mem} {nx : Nat}

theorem copy_ret {bo bi off off' len n : Nat} {s : Bool} {L I : List U8} (hY : ∃ call, Y.call = withString Y.arch call) (h1 : m bo = u8s L)
    (h2 : m bi = u8s I) (ne : bi ≠ bo) (hl : len < 2 ^ 31) (l1 : off + len ≤ L.length) (l2 : off' + len ≤ I.length) :
    Ret (Y.call "memcpy" [.ptr bo off false 1, .ptr bi off' false 1, .int s n len] m nx)
      (· = (.undef .void, m.set bo (u8s (L.take off ++ (I.drop off').take len ++ L.drop (off + len))), nx)) := by
  obtain ⟨call, hc⟩ := hY
  have e3 : wrap false 8 (len : Int) = len := wrap_size (by omega) (by omega)
  have e5 : memcpy (ofU8 L) off (ofU8 I) off' len =
      C.emit (.block off' len) >>= fun _ => C.emit (.block off len) >>= fun _ => pure (ofU8 (L.take off ++ (I.drop off').take len ++ L.drop (off + len))) := by
    unfold memcpy
    rw [if_pos (by rw [length_ofU8]; omega), if_pos (by rw [length_ofU8]; omega)]
    simp [ofU8, List.map_take, List.map_drop]
  rw [hc]
  unfold withString memcpyC
  simp only [if_neg (show ¬"memcpy" = "memset" by decide), if_true, h1, h2, e3, Nat.mod_one, Nat.div_one, Int.toNat_natCast,
    and_self, C.require, if_pos (Or.inl (Ne.symm ne)), pure_bind, bind_assoc]
  rw [e5]
  simp only [bind_assoc, pure_bind, Ret_emit_bind]
  exact Ret_pure.2 rfl

theorem clear_ret {bo len n n' : Nat} {s s' : Bool} {L : List U8} (hY : ∃ call, Y.call = withString Y.arch call) (h1 : m bo = u8s L)
    (hl : len < 2 ^ 31) (l1 : len ≤ L.length) :
    Ret (Y.call "memset" [.ptr bo 0 false 1, .int s n 0, .int s' n' len] m nx)
      (· = (.undef .void, m.set bo (u8s (List.replicate len 0 ++ L.drop len)), nx)) := by
  obtain ⟨call, hc⟩ := hY
  have e3 : wrap false 8 (len : Int) = len := wrap_size (by omega) (by omega)
  have e5 : wrap false 1 (joinBytes Y.arch (List.replicate 1 ((0 : Int) % 256))) = 0 := by cases Y.arch <;> rfl
  have e6 : memset (ofU8 L) 0 len = C.emit (.block 0 len) >>= fun _ => pure (ofU8 (List.replicate len 0 ++ L.drop len)) := by
    unfold memset
    rw [if_pos (by rw [length_ofU8]; omega)]
    simp [ofU8, List.map_drop]
  rw [hc]
  unfold withString memsetC
  simp only [if_true, h1, e3, Nat.mod_one, Nat.div_one, Int.toNat_natCast, and_self, e5, List.drop_zero, List.take_zero, e6, bind_assoc,
    pure_bind, List.nil_append, Ret_emit_bind]
  exact Ret_pure.2 rfl

/-- The program: /repo/tests/rng.c, which calls /repo/src/aes/aes.c and /repo/src/aes/aes_c.c. -/
abbrev rngProg (X : Ctx) (a d : Nat) : Ctx := link [rngFile] (link aesFiles X (a + 6)) d

theorem rng_aes : rngFile.fn "AES256_load_schedule" = none ∧ rngFile.fn "AES256_ECB_enc_sch" = none ∧
    rngFile.fn "AES256_free_schedule" = none := ⟨by kernel_rfl, by kernel_rfl, by kernel_rfl⟩

theorem aesC_other : aesCFile.fn "AES256_load_schedule" = none ∧ aesCFile.fn "AES256_ECB_enc_sch" = none ∧
    aesCFile.fn "AES256_free_schedule" = none := ⟨by kernel_rfl, by kernel_rfl, by kernel_rfl⟩

theorem call_rngAes {f : String} {g : Fun} {a d : Nat} (h : aesFile.fn f = some g) (h0 : aesCFile.fn f = none) (h' : rngFile.fn f = none)
    (h1 : f ≠ "memset") (h2 : f ≠ "memcpy") (args : List Val) :
    (rngProg X a d).call f args m nx = aesFile.run (link aesFiles X (a + 5)) f args m nx := by
  rw [rngProg, link_extern (by simp only [List.findSome?, h']) h1 h2, call_aes h h0 h1 h2]

theorem take_u8s {bo off : Nat} {L : List U8} (h : m bo = u8s L) (h' : off ≤ L.length) :
    m bo = ⟨false, 1, ofU8 (L.take off) ++ ofU8 (L.drop off)⟩ ∧ (ofU8 (L.take off)).length = off := by
  rw [← ofU8_append, List.take_append_drop, length_ofU8, List.length_take]
  exact ⟨h, by omega⟩

/-- `AES256_ECB` (/repo/tests/rng.h:20-42). -/
theorem text_AES256_ECB {a d bs bc bz bk bt bo off : Nat} {key ctr L : List U8} (hX : AesVars X bs bc bz) (hA : Asserts X)
    (hs : m bs = u8s sbox) (hc : m bc = u8s rcon) (hz : (m bz).data.length ≠ 1) (hk : m bk = u8s key) (ht : m bt = u8s ctr)
    (ho : m bo = u8s L) (lk : key.length = 32) (lt : ctr.length = 16) (lo : off + 16 ≤ L.length) (l1 : bs < nx) (l2 : bc < nx)
    (l3 : bz < nx) (l4 : bk < nx) (l5 : bt < nx) (l6 : bo < nx) (n1 : bt ≠ bo) (n3 : bs ≠ bo) (n4 : bc ≠ bo) (n5 : bz ≠ bo)
    (n7 : bs ≠ bz) (n8 : bc ≠ bz) (n9 : bt ≠ bz) :
    Ret (callFun (rngProg X a d) AES256_ECBFun [.ptr bk 0 false 1, .ptr bt 0 false 1, .ptr bo off false 1] m nx) fun x =>
      x.1 = .undef .void ∧ nx ≤ x.2.2 ∧ x.2.1 bo = u8s (L.take off ++ AES256 key ctr ++ L.drop (off + 16)) ∧
      (x.2.1 bz).data.length ≠ 1 ∧ ∀ c < nx, c ≠ bo → c ≠ bz → x.2.1 c = m c := by
  obtain ⟨r1, r2, r3⟩ := rng_aes
  obtain ⟨c1, c2, c3⟩ := aesC_other
  obtain ⟨J, hJ⟩ : ∃ J : List U8, ofU8 J = newArr (rngProg X a d) "schedule" false 1 240 none ∧ J.length = 240 := by
    refine ⟨(List.range 240).map fun i => BitVec.ofInt 8 (X.junk "schedule" i), ?_, by simp⟩
    simp only [newArr, ofU8, List.map_map, link_junk]
    apply List.map_congr_left
    intro i _
    simp only [Function.comp]
    rw [BitVec.toNat_ofInt, wrap]
    simp
    omega
  unfold AES256_ECBFun
  csim
  rw [show (Int.toNat 240) = 240 from rfl, ← hJ.1]
  rw [call_rngAes aes_AES256_load_schedule c1 r1 (by decide) (by decide)]
  have hM : ∀ {c : Nat} {y : Blk}, c < nx → (m.set nx y) c = m c := fun h => by simp only [Mem.set, if_neg (Nat.ne_of_lt h)]
  have t1 := text_load_schedule256 (X := X) (d := a + 3) (m := m.set nx ⟨false, 1, ofU8 J⟩) hX (by rw [hM l1, hs]) (by rw [hM l2, hc]) bk nx [] []
    key J (by rw [hM l4, hk]; rfl) (by simp [Mem.set]) (nx + 1) (by omega) (by omega) (by omega) (by omega) (by omega) (by omega) (by omega)
  refine (ret_refines t1 (AES256_load_schedule_ret (I := .c) (J := aesJunk X) (a := 0) (key := key) (rk := J) nofun (by omega)
    (by omega)) (Q := fun x => ∃ t, x = (.undef .void, ((m.set nx ⟨false, 1, ofU8 J⟩).set nx (u8s (schedBytes 8 60 key))).set (nx + 1) t, nx + 2))
    ?_).bind ?_
  · rintro r _ rfl ⟨t, rfl⟩
    rw [List.drop_eq_nil_of_le (by omega), List.append_nil]
    exact ⟨t, rfl⟩
  rintro _ ⟨t, rfl⟩
  dsimp only
  generalize hm' : ((m.set nx ⟨false, 1, ofU8 J⟩).set nx (u8s (schedBytes 8 60 key))).set (nx + 1) t = m'
  have h' : ∀ c, c < nx → m' c = m c := fun c h => by
    rw [← hm']
    simp only [Mem.set, if_neg (Nat.ne_of_lt h), if_neg (show c ≠ nx + 1 by omega)]
  have hn : m' nx = u8s (schedBytes 8 60 key) := by rw [← hm']; simp [Mem.set]
  obtain ⟨o1, o2⟩ := take_u8s (m := m') (by rw [h' _ l6, ho]) (show off ≤ L.length by omega)
  rw [call_rngAes aes_AES256_ECB_enc_sch c2 r2 (by decide) (by decide), run_eq aes_AES256_ECB_enc_sch,
    callFun_conv (g := AES256_ECB_enc_schFun) (args := [.ptr bt 0 false 1, .int true 4 16, .ptr nx 0 false 1, .ptr bo off false 1])
      (args' := [.ptr bt 0 false 1, .int false 8 (16 : Nat), .ptr nx 0 false 1, .ptr bo off false 1]) rfl, ← run_eq aes_AES256_ECB_enc_sch]
  have t2 := text_ecb256 (X := X) (d := a) (m := m') hX hA (by rw [h' _ l1, hs]) (by rw [h' _ l2, hc]) (by rw [h' _ l3]; exact hz) bt nx bo [] []
    (ofU8 (L.take off)) ctr (schedBytes 8 60 key) (L.drop off) 16 (by omega) (by rw [h' _ l5, ht]; rfl) hn o1 n1 (by omega) n3 n4 n5 (by omega)
    n7 n8 n9 (nx + 2)
  rw [o2] at t2
  have t3 := AES256_ECB_ret (I := .c) (a := 0) (n := 1) (pt := ctr) (ct := L.drop off) (key := key) (l := []) nofun (by omega)
    (by rw [List.length_drop]; omega)
  rw [List.append_nil, ecb_AES256_one, List.drop_drop] at t3
  refine (ret_refines t2 t3 (Q := fun x => ∃ z, z.data.length ≠ 1 ∧ x = (.undef .void,
    (m'.set bo (u8s (L.take off ++ AES256 key ctr ++ L.drop (off + 16)))).set bz z, nx + 2)) ?_).bind ?_
  · rintro r _ rfl ⟨z, hz, rfl⟩
    refine ⟨z, hz, ?_⟩
    rw [← ofU8_append, ← List.append_assoc]
  rintro _ ⟨z, hz', rfl⟩
  dsimp only
  generalize hm2 : (m'.set bo (u8s (L.take off ++ AES256 key ctr ++ L.drop (off + 16)))).set bz z = m''
  have hn2 : m'' nx = u8s (schedBytes 8 60 key) := by
    rw [← hm2, ← hn]
    simp only [Mem.set, if_neg (show nx ≠ bz by omega), if_neg (show nx ≠ bo by omega)]
  rw [call_rngAes aes_AES256_free_schedule c3 r3 (by decide) (by decide)]
  have t4 := text_free256 (X := X) (d := a + 5) (m := m'') nx [] (schedBytes 8 60 key) hn2 (nx + 2)
  refine (ret_refines t4 (P := fun _ => True) (Q := fun x => ∃ y, x = (.undef .void, m''.set nx y, nx + 2)) ?_ ?_).bind ?_
  · unfold AES256_free_schedule memset
    rw [if_pos (by rw [length_schedBytes])]
    exact ⟨_, _, rfl, trivial⟩
  · rintro r _ _ rfl
    exact ⟨_, rfl⟩
  rintro _ ⟨y, rfl⟩
  refine Ret_pure.2 ⟨rfl, by dsimp only; omega, ?_, ?_, fun c h1 h2 h3 => ?_⟩
  all_goals
    dsimp only
    rw [← hm2]
    simp only [Mem.set]
  · rw [if_neg (by omega), if_neg (Ne.symm n5), if_true]
  · rw [if_neg (by omega), if_true]
    exact hz'
  · rw [if_neg (by omega), if_neg h3, if_neg h2, h' _ h1]

/-! ## The counter -/

/-- The loops of /repo/tests/rng.c:40-47, 74-81 from index `k - 1` downwards. -/
def incFrom (V : List U8) : Nat → List U8
  | 0 => V
  | k + 1 => if nth V k = 0xff then incFrom (V.set k 0) k else V.set k (nth V k + 1)

theorem incFrom_spec (k : Nat) (V : List U8) (h : V.length = 16) (hk : k ≤ 16) :
    (incFrom V k).length = 16 ∧ beNat (incFrom V k) % 2 ^ 128 = (beNat V + 256 ^ (16 - k)) % 2 ^ 128 := by
  induction k generalizing V with
  | zero => exact ⟨h, by simp [incFrom]⟩
  | succ k ih =>
    have hp : 256 ^ (16 - k) = 256 * 256 ^ (15 - k) := by
      rw [show 16 - k = 15 - k + 1 by omega, Nat.pow_succ, Nat.mul_comm]
    have e0 := fun x => beNat_set V k x (by omega)
    rw [h] at e0
    rw [show 16 - 1 - k = 15 - k by omega] at e0
    rw [show 16 - (k + 1) = 15 - k by omega]
    unfold incFrom
    split
    · rename_i hv
      obtain ⟨i1, i2⟩ := ih (V.set k 0) (by simpa using h) (by omega)
      refine ⟨i1, ?_⟩
      have := e0 0
      rw [hv] at this
      simp only [BitVec.reduceToNat] at this
      rw [i2, hp]
      congr 1
      omega
    · rename_i hv
      refine ⟨by simpa using h, ?_⟩
      have := e0 (nth V k + 1)
      have hv' : (nth V k).toNat ≠ 255 := fun h => hv (BitVec.eq_of_toNat_eq h)
      have hlt := (nth V k).isLt
      rw [BitVec.toNat_add, show (1 : U8).toNat = 1 from rfl, Nat.mod_eq_of_lt (by omega), Nat.add_mul] at this
      congr 1
      omega

theorem incFrom_addV (V : List U8) (h : V.length = 16) : incFrom V 16 = addV V 1 := by
  obtain ⟨h1, h2⟩ := incFrom_spec 16 V h (Nat.le_refl _)
  have h3 := beBytes_beNat (incFrom V 16)
  have h4 := beNat_lt (incFrom V 16)
  rw [h1] at h3 h4
  rw [← h3]
  unfold addV
  congr 1
  rw [← show (beNat V + 256 ^ (16 - 16)) % 2 ^ 128 = (beNat V + 1) % 2 ^ 128 from rfl, ← h2, Nat.mod_eq_of_lt]
  exact h4

/-- Body of the loops (/repo/tests/rng.c:40-47, 74-81). -/
def incBody (v : String) : Stmt :=
  .block (.seq (.ite (.bin .eq (.idx (.var v) (.var "j")) (.num true 4 255)) (.expr (.asg (.idx (.var v) (.var "j")) (.num true 4 0)))
    (.block (.seq (.expr (.inc false true (.idx (.var v) (.var "j")))) (.seq .brk .skip)))) .skip)
/-- `for (int j=15; j>=0; j--) { … }` (/repo/tests/rng.c:40-47, 74-81). -/
def incText (v : String) : Stmt :=
  .for (.decl (.int true 4) "j" (some (.num true 4 15))) (.bin .ge (.var "j") (.num true 4 0)) (.inc false false (.var "j")) (incBody v)

theorem inc_loop {v : String} {loc : List (String × Val)} {b : Nat} (hj : "j" ≠ v)
    (hv : hideK (findVar v loc) (Y.glob v) = some (.ptr b 0 false 1)) (k : Nat) (hk : k ≤ 16) (V : List U8) (m : Mem) (hm : m b = u8s V)
    (hl : V.length = 16) :
    Ret (loop (roundS Y (.bin .ge (.var "j") (.num true 4 0)) (some (.inc false false (.var "j"))) (incBody v))
      ⟨("j", .int true 4 ((k : Int) - 1)) :: loc, m, nx⟩) fun x => ∃ j, x = (⟨("j", j) :: loc, m.set b (u8s (incFrom V k)), nx⟩, .next) := by
  induction k generalizing V m with
  | zero =>
    rw [loop]
    csim
    rw [show decide ((0 : Int) ≤ -1) = false from rfl, branchK_false]
    simp only [bind_assoc, pure_bind, Ret_emit_bind, Ret_pure]
    refine ⟨.int true 4 (-1), ?_⟩
    rw [incFrom, ← hm, set_self _ rfl]
  | succ k ih =>
    have e1 : Frodo.rd (ofU8 V) k = C.emit (.read k) >>= fun _ => pure ((nth V k).toNat : Int) := by
      unfold Frodo.rd
      rw [getElem?_eq_nth (by rw [length_ofU8]; omega), ofU8, nth_map, if_pos (by omega)]
    have e2 : ∀ x : U8, Frodo.wr (ofU8 V) k (x.toNat : Int) = C.emit (.write k) >>= fun _ => pure (ofU8 (V.set k x)) := fun x => by
      unfold Frodo.wr
      rw [if_pos (by rw [length_ofU8]; omega)]
      simp only [ofU8, List.map_set]
    have hV := (nth V k).isLt
    rw [show ((k + 1 : Nat) : Int) - 1 = k by omega, loop]
    unfold incBody
    csim [hj, hv, hm, e1]
    rw [show decide ((0 : Int) ≤ (k : Int)) = true by simp, branchK_true]
    simp only [bind_assoc, Ret_emit_bind]
    by_cases hf : nth V k = 0xff
    · rw [hf, show decide (BitVec.toNat (0xff : U8) = 255) = true from rfl, branchK_true, show (0 : Int) = ((0 : U8).toNat : Int) from rfl, e2]
      simp only [bind_assoc, pure_bind, Ret_emit_bind]
      csim
      refine (ih (by omega) (V.set k 0) (m.set b (u8s (V.set k 0))) (set_same ..) (by simpa using hl)).mono ?_
      rintro _ ⟨j, rfl⟩
      refine ⟨j, ?_⟩
      rw [set_set, incFrom, if_pos hf]
    · rw [show decide (BitVec.toNat (nth V k) = 255) = false from decide_eq_false fun h => hf (BitVec.eq_of_toNat_eq h), branchK_false, e2]
      simp only [bind_assoc, pure_bind, Ret_emit_bind]
      csim
      refine Ret_emit_bind.2 (Ret_pure.2 ⟨.int true 4 k, ?_⟩)
      rw [incFrom, if_neg hf]
      congr 4

theorem exec_inc {v : String} {loc : List (String × Val)} {b : Nat} (hj : "j" ≠ v)
    (hv : hideK (findVar v loc) (Y.glob v) = some (.ptr b 0 false 1)) {V : List U8} (hm : m b = u8s V) (hl : V.length = 16) :
    Ret (exec Y (incText v) ⟨loc, m, nx⟩) (· = (⟨loc, m.set b (u8s (addV V 1)), nx⟩, .next)) := by
  unfold incText
  csim [loopF_eq]
  refine (inc_loop hj hv 16 (Nat.le_refl _) V m hm hl).bind ?_
  rintro _ ⟨j, rfl⟩
  csim
  rw [incFrom_addV V hl, show loc.length + 1 - loc.length = 1 by omega]
  exact Ret_pure.2 rfl

/-! ## The loops with exclusive or -/

/-- Body of the loops (/repo/tests/rng.c:25, 87). -/
def xorBody (t p : String) : Stmt := .expr (.asgOp .xor (.idx (.var t) (.var "i")) (.idx (.var p) (.var "i")))
/-- `for (int i=0; i<48; i++) t[i] ^= p[i];` (/repo/tests/rng.c:24-25, 86-87). -/
def xorText (t p : String) : Stmt :=
  .for (.decl (.int true 4) "i" (some (.num true 4 0))) (.bin .lt (.var "i") (.num true 4 48)) (.inc false true (.var "i")) (xorBody t p)

theorem rd_u8 {L : List U8} {k : Nat} (h : k < L.length) :
    Frodo.rd (ofU8 L) k = C.emit (.read k) >>= fun _ => pure ((nth L k).toNat : Int) := by
  unfold Frodo.rd
  rw [getElem?_eq_nth (by rw [length_ofU8]; omega), ofU8, nth_map, if_pos (by omega)]

theorem wr_u8 {L : List U8} {k : Nat} (h : k < L.length) (x : U8) :
    Frodo.wr (ofU8 L) k (x.toNat : Int) = C.emit (.write k) >>= fun _ => pure (ofU8 (L.set k x)) := by
  unfold Frodo.wr
  rw [if_pos (by rw [length_ofU8]; omega)]
  simp only [ofU8, List.map_set]

theorem xor_step {T D : List U8} {i : Nat} (h1 : i < T.length) (h2 : i < D.length) :
    (T.set i (nth T i ^^^ nth D i)).take (i + 1) ++ List.zipWith (· ^^^ ·) ((T.set i (nth T i ^^^ nth D i)).drop (i + 1)) (D.drop (i + 1)) =
      T.take i ++ List.zipWith (· ^^^ ·) (T.drop i) (D.drop i) := by
  rw [List.drop_eq_getElem_cons h1, List.drop_eq_getElem_cons h2, List.zipWith_cons_cons, nth_eq_getElem h1, nth_eq_getElem h2,
    List.take_succ_eq_append_getElem (by simpa using h1), List.take_set_of_le (Nat.le_refl _), List.drop_set_of_lt (by omega),
    List.getElem_set_self, List.append_assoc]
  rfl

theorem xor48_loop {t p : String} {loc : List (String × Val)} {bt bp : Nat} (ht : "i" ≠ t) (hp : "i" ≠ p)
    (vt : hideK (findVar t loc) (Y.glob t) = some (.ptr bt 0 false 1)) (vp : hideK (findVar p loc) (Y.glob p) = some (.ptr bp 0 false 1))
    (ne : bp ≠ bt) {D : List U8} (lD : D.length = 48) (k i : Nat) (hk : i + k = 48) (T : List U8) (m : Mem) (mt : m bt = u8s T)
    (mp : m bp = u8s D) (lT : T.length = 48) :
    Ret (loop (roundS Y (.bin .lt (.var "i") (.num true 4 48)) (some (.inc false true (.var "i"))) (xorBody t p))
      ⟨("i", .int true 4 i) :: loc, m, nx⟩) fun x => ∃ j, x = (⟨("i", j) :: loc,
        m.set bt (u8s (T.take i ++ List.zipWith (· ^^^ ·) (T.drop i) (D.drop i))), nx⟩, .next) := by
  induction k generalizing i T m with
  | zero =>
    obtain rfl : i = 48 := by omega
    rw [loop]
    csim
    rw [show decide ((48 : Int) < 48) = false from rfl, branchK_false]
    simp only [bind_assoc, pure_bind, Ret_emit_bind, Ret_pure]
    refine ⟨.int true 4 48, ?_⟩
    rw [List.drop_eq_nil_of_le (by omega), List.take_of_length_le (by omega), List.zipWith_nil_left, List.append_nil, ← mt, set_self _ rfl]
  | succ k ih =>
    rw [loop]
    unfold xorBody
    have e1 := rd_u8 (L := T) (k := i) (by omega)
    have e2 := rd_u8 (L := D) (k := i) (by omega)
    have e3 := wr_u8 (L := T) (k := i) (by omega)
    csim [ht, hp, vt, vp, mt, mp, e1, e2, e3]
    have e4 : u8 (ixor ((nth T i).toNat : Int) ((nth D i).toNat : Int)) = nth T i ^^^ nth D i := by
      rw [u8_ixor]
      simp [u8]
    rw [show decide (i < 48) = true by simp; omega, branchK_true, e4]
    simp only [bind_assoc, pure_bind, Ret_emit_bind]
    refine (ih (i + 1) (by omega) (T.set i (nth T i ^^^ nth D i)) (m.set bt (u8s (T.set i (nth T i ^^^ nth D i)))) (set_same ..)
      (by rw [set_ne _ _ ne, mp]) (by simpa using lT)).mono ?_
    rintro _ ⟨j, rfl⟩
    refine ⟨j, ?_⟩
    rw [set_set, xor_step (by omega) (by omega)]

theorem exec_xor {t p : String} {loc : List (String × Val)} {bt bp : Nat} (ht : "i" ≠ t) (hp : "i" ≠ p)
    (vt : hideK (findVar t loc) (Y.glob t) = some (.ptr bt 0 false 1)) (vp : hideK (findVar p loc) (Y.glob p) = some (.ptr bp 0 false 1))
    (ne : bp ≠ bt) {T D : List U8} (lT : T.length = 48) (lD : D.length = 48) (mt : m bt = u8s T) (mp : m bp = u8s D) :
    Ret (exec Y (xorText t p) ⟨loc, m, nx⟩) (· = (⟨loc, m.set bt (u8s (List.zipWith (· ^^^ ·) T D)), nx⟩, .next)) := by
  unfold xorText
  csim [loopF_eq]
  refine (xor48_loop ht hp vt vp ne lD 48 0 rfl T m mt mp lT).bind ?_
  rintro _ ⟨j, rfl⟩
  csim
  rw [show loc.length + 1 - loc.length = 1 by omega]
  exact Ret_pure.2 rfl

/-! ## `AES256_CTR_DRBG_Update` -/

/-- What the generator needs: the variables of the AES, `assert`, and null pointers, which point to a block of their own
(C11 6.3.2.3p3). -/
structure RngCtx (X : Ctx) (bs bc bz bN : Nat) : Prop where
  aes : AesVars X bs bc bz
  asserts : Asserts X
  null : X.glob "NULL" = some (.ptr bN 0 false 1)
  nonnull : ∀ b off s n m nx, X.call "!=NULL" [.ptr b off s n] m nx = pure (.int true 4 (truth (decide (b ≠ bN))), m, nx)

/-- The variables of the AES in memory. -/
structure RngMem (m : Mem) (nx bs bc bz : Nat) : Prop where
  sbox : m bs = u8s sbox
  rcon : m bc = u8s rcon
  state : (m bz).data.length ≠ 1
  l1 : bs < nx
  l2 : bc < nx
  l3 : bz < nx
  n1 : bs ≠ bz
  n2 : bc ≠ bz

theorem rng_null : rngFile.fn "!=NULL" = none ∧ aesCFile.fn "!=NULL" = none ∧ aesFile.fn "!=NULL" = none :=
  ⟨by kernel_rfl, by kernel_rfl, by kernel_rfl⟩

theorem RngCtx.test {bs bc bz bN a d b off n : Nat} {s : Bool} (h : RngCtx X bs bc bz bN) :
    (rngProg X a d).call "!=NULL" [.ptr b off s n] m nx = pure (.int true 4 (truth (decide (b ≠ bN))), m, nx) := by
  obtain ⟨h1, h2, h3⟩ := rng_null
  rw [rngProg, link_extern (by simp only [List.findSome?, h1]) (by decide) (by decide),
    link_extern (by simp only [List.findSome?, h2, h3]) (by decide) (by decide), h.nonnull]

/-- Body of the loop in /repo/tests/rng.c:72-84. -/
def ctrBody : Stmt :=
  .block (.seq (incText "V") (.seq (.expr (.call "AES256_ECB" [.var "Key", .var "V",
    .bin .add (.var "temp") (.bin .mul (.num true 4 16) (.var "i"))])) .skip))

theorem update_text : drbgUpdateFun.body = .seq (.declArr false 1 "temp" (.num true 4 48) none)
    (.seq (.for (.decl (.int true 4) "i" (some (.num true 4 0))) (.bin .lt (.var "i") (.num true 4 3)) (.inc false true (.var "i")) ctrBody)
    (.seq (.ite (.call "!=NULL" [.var "provided_data"]) (xorText "temp" "provided_data") .skip)
    (.seq (.expr (.call "memcpy" [.var "Key", .var "temp", .num true 4 32]))
    (.seq (.expr (.call "memcpy" [.var "V", .bin .add (.var "temp") (.num true 4 32), .num true 4 16])) .skip)))) := rfl

section

variable {bs bc bz bN a d bK bV bp : Nat} {key V : List U8}

/-- The variables of `AES256_CTR_DRBG_Update` (/repo/tests/rng.c:66-70). -/
def updVars (b bp bK bV : Nat) : List (String × Val) :=
  [("temp", .ptr b 0 false 1), ("provided_data", .ptr bp 0 false 1), ("Key", .ptr bK 0 false 1), ("V", .ptr bV 0 false 1)]

/-- Where the context of the generator is (/repo/tests/rng.c:12). -/
structure RngAt (m : Mem) (nx bs bc bz bK bV : Nat) (key V : List U8) : Prop where
  mem : RngMem m nx bs bc bz
  hK : m bK = u8s key
  hV : m bV = u8s V
  lk : key.length = 32
  lV : V.length = 16
  k1 : bK < nx
  k2 : bV < nx
  nKV : bK ≠ bV
  apart : ∀ b, b = bK ∨ b = bV → b ≠ bs ∧ b ≠ bc ∧ b ≠ bz

theorem ctr_loop (hX : RngCtx X bs bc bz bN) (hR : RngAt m nx bs bc bz bK bV key V) {T : List U8} (lT : T.length = 48) (k i : Nat)
    (hk : i + k = 3) (M : Mem) (nx' : Nat) (hn : nx < nx') (mT : M nx = u8s (ctrBlocks key V i ++ T.drop (16 * i)))
    (mV : M bV = u8s (addV V i)) (mz : (M bz).data.length ≠ 1) (hM : ∀ c, c < nx → c ≠ bV → c ≠ bz → M c = m c) :
    Ret (loop (roundS (rngProg X a (d + 1)) (.bin .lt (.var "i") (.num true 4 3)) (some (.inc false true (.var "i"))) ctrBody)
      ⟨("i", .int true 4 i) :: updVars nx bp bK bV, M, nx'⟩) fun x => ∃ j M' nx'', x = (⟨("i", j) :: updVars nx bp bK bV, M', nx''⟩, .next) ∧
        nx < nx'' ∧ M' nx = u8s (ctrBlocks key V 3) ∧ M' bV = u8s (addV V 3) ∧ (M' bz).data.length ≠ 1 ∧
        ∀ c, c < nx → c ≠ bV → c ≠ bz → M' c = m c := by
  induction k generalizing i M nx' with
  | zero =>
    obtain rfl : i = 3 := by omega
    rw [loop]
    unfold updVars
    csim
    rw [show decide ((3 : Int) < 3) = false from rfl, branchK_false]
    simp only [bind_assoc, pure_bind, Ret_emit_bind, Ret_pure]
    rw [List.drop_eq_nil_of_le (by omega), List.append_nil] at mT
    exact ⟨_, M, nx', rfl, hn, mT, mV, mz, hM⟩
  | succ k ih =>
    rw [loop]
    unfold ctrBody
    csim
    rw [show decide (i < 3) = true by simp; omega, branchK_true]
    simp only [bind_assoc, Ret_emit_bind]
    refine (exec_inc (v := "V") (loc := ("i", .int true 4 i) :: updVars nx bp bK bV) (b := bV) (V := addV V i) (by decide) (by rfl) mV
      (length_addV _ _)).bind ?_
    rintro _ rfl
    rw [addV_addV]
    unfold updVars
    csim
    generalize hM1 : M.set bV (u8s (addV V (i + 1))) = M1
    have f1 : ∀ c, c ≠ bV → M1 c = M c := fun c h => by rw [← hM1, set_ne _ _ h]
    have kV := hR.k2
    have kK := hR.k1
    obtain ⟨q1, q2, q3, q4, q5, q6, q7, q8⟩ := hR.mem
    obtain ⟨v1, v2, v3⟩ := hR.apart bV (Or.inr rfl)
    obtain ⟨w1, w2, w3⟩ := hR.apart bK (Or.inl rfl)
    have mT1 : M1 nx = u8s (ctrBlocks key V i ++ List.drop (16 * i) T) := by rw [f1 _ (by omega), mT]
    have lL : (ctrBlocks key V i ++ List.drop (16 * i) T).length = 48 := by
      rw [List.length_append, length_ctrBlocks, List.length_drop]; omega
    refine (movePtr_ok (n := 48) (by rw [mT1]; simp only [length_ofU8, lL]) (by omega)).bind ?_
    rintro _ rfl
    rw [rngProg, link_fn (g := AES256_ECBFun) (by simp only [List.findSome?, rng_ecb]) (by decide) (by decide), Nat.zero_add]
    refine (text_AES256_ECB (key := key) (ctr := addV V (i + 1)) hX.aes hX.asserts (by rw [f1 _ (Ne.symm v1), hM _ q4 (Ne.symm v1) q7, q1])
      (by rw [f1 _ (Ne.symm v2), hM _ q5 (Ne.symm v2) q8, q2]) (by rw [f1 _ (Ne.symm v3)]; exact mz)
      (by rw [f1 _ hR.nKV, hM _ kK hR.nKV w3, hR.hK]) (by rw [← hM1, set_same]) mT1 hR.lk (length_addV _ _) (by rw [lL]; omega)
      (by omega) (by omega) (by omega) (by omega) (by omega) (by omega) (by omega) (by omega) (by omega) (by omega)
      q7 q8 v3).bind ?_
    rintro ⟨_, M2, nx2⟩ ⟨rfl, g1, g2, g3, g4⟩
    dsimp only at g1 g2 g3 g4 ⊢
    refine ih (i + 1) (by omega) M2 nx2 (by omega) ?_ ?_ g3 ?_
    · rw [g2]
      congr 1
      rw [ctrBlocks_succ, List.take_append_of_le_length (by rw [length_ctrBlocks]), List.take_of_length_le (by rw [length_ctrBlocks]),
        List.append_assoc, List.append_assoc]
      congr 2
      rw [show 16 * i + 16 = (ctrBlocks key V i).length + 16 by rw [length_ctrBlocks], List.drop_length_add_append, List.drop_drop]
      rfl
    · rw [g4 _ (by omega) (by omega) v3, ← hM1, set_same]
    · intro c h1 h2 h3
      rw [g4 _ (by omega) (by omega) h3, f1 _ h2, hM _ h1 h2 h3]

theorem zipWith_zeros {l : List U8} {n : Nat} (h : l.length = n) : List.zipWith (· ^^^ ·) l (List.replicate n 0) = l := by
  subst h
  induction l with
  | nil => rfl
  | cons x l ih => simp only [List.length_cons, List.replicate_succ, List.zipWith_cons_cons, ih]; exact congrArg (· :: l) BitVec.xor_zero

/-- A pointer to 48 bytes, or null, which stands for zeros (NIST SP 800-90A 10.2.1.5.1). -/
structure Provided (m : Mem) (nx bN bz bK bV bp : Nat) (D : List U8) : Prop where
  length : D.length = 48
  data : bp ≠ bN → m bp = u8s D ∧ bp < nx ∧ bp ≠ bK ∧ bp ≠ bV ∧ bp ≠ bz
  zeros : bp = bN → D = List.replicate 48 0

theorem string_rng {X : Ctx} {a d : Nat} : ∃ call, (rngProg X a d).call = withString (rngProg X a d).arch call := link_string

/-- `AES256_CTR_DRBG_Update` (/repo/tests/rng.c:65-90). -/
theorem text_update {D : List U8} (hX : RngCtx X bs bc bz bN) (hR : RngAt m nx bs bc bz bK bV key V) (hD : Provided m nx bN bz bK bV bp D) :
    Ret (callFun (rngProg X a (d + 1)) drbgUpdateFun [.ptr bp 0 false 1, .ptr bK 0 false 1, .ptr bV 0 false 1] m nx) fun x =>
      x.1 = .undef .void ∧ nx ≤ x.2.2 ∧ x.2.1 bK = u8s (drbgUpdate D key V).1 ∧ x.2.1 bV = u8s (drbgUpdate D key V).2 ∧
      (x.2.1 bz).data.length ≠ 1 ∧ ∀ c < nx, c ≠ bK → c ≠ bV → c ≠ bz → x.2.1 c = m c := by
  obtain ⟨T, hT⟩ : ∃ T : List U8, ofU8 T = newArr (rngProg X a (d + 1)) "temp" false 1 48 none ∧ T.length = 48 := by
    refine ⟨(List.range 48).map fun i => BitVec.ofInt 8 (X.junk "temp" i), ?_, by simp⟩
    simp only [newArr, ofU8, List.map_map, link_junk]
    apply List.map_congr_left
    intro i _
    simp only [Function.comp]
    rw [BitVec.toNat_ofInt, wrap]
    simp
    omega
  have kV := hR.k2
  have kK := hR.k1
  have nKV := hR.nKV
  obtain ⟨q1, q2, q3, q4, q5, q6, q7, q8⟩ := hR.mem
  obtain ⟨v1, v2, v3⟩ := hR.apart bV (Or.inr rfl)
  obtain ⟨w1, w2, w3⟩ := hR.apart bK (Or.inl rfl)
  rw [callFun, update_text]
  unfold drbgUpdateFun
  csim [loopF_eq]
  rw [show (Int.toNat 48) = 48 from rfl, ← hT.1]
  have hm : ∀ c, c < nx → (m.set nx ⟨false, 1, ofU8 T⟩) c = m c := fun c h => set_ne _ _ (Nat.ne_of_lt h)
  refine (ctr_loop (a := a) (d := d) (bp := bp) hX hR hT.2 3 0 rfl (m.set nx ⟨false, 1, ofU8 T⟩) (nx + 1) (by omega)
    (by rw [set_same]; rfl) (by rw [hm _ kV, hR.hV, addV_zero hR.lV]) (by rw [hm _ q6]; exact q3)
    (fun c h _ _ => hm c h)).bind ?_
  rintro _ ⟨j, M, nx', rfl, h1, h2, h3, h4, h5⟩
  unfold updVars
  csim [hX.test]
  generalize hW : List.zipWith (· ^^^ ·) (ctrBlocks key V 3) D = W
  have lW : W.length = 48 := by rw [← hW, List.length_zipWith, length_ctrBlocks, hD.length]; rfl
  refine Ret.bind (Q := (· = (⟨updVars nx bp bK bV, M.set nx (u8s W), nx'⟩, .next))) ?_ ?_
  · by_cases e : bp = bN
    · rw [show decide (bp ≠ bN) = false by simpa using e, branchK_false, Ret_emit_bind, Ret_pure]
      rw [hD.zeros e, zipWith_zeros (by rw [length_ctrBlocks])] at hW
      rw [← hW, set_self _ h2]
      rfl
    · obtain ⟨p1, p2, p3, p4, p5⟩ := hD.data e
      rw [show decide (bp ≠ bN) = true by simpa using e, branchK_true, Ret_emit_bind, ← hW]
      exact exec_xor (loc := updVars nx bp bK bV) (by decide) (by decide) (by rfl) (by rfl) (by omega) (by rw [length_ctrBlocks]) hD.length h2
        (by rw [h5 _ p2 p4 p5, p1])
  rintro _ rfl
  unfold updVars
  csim
  refine (copy_ret (len := 32) (L := key) (I := W) string_rng (by rw [set_ne _ _ (by omega), h5 _ kK nKV w3, hR.hK]) (by rw [set_same]) (by omega) (by norm_num)
    (by rw [hR.lk]) (by omega)).bind ?_
  rintro _ rfl
  csim
  refine (movePtr_ok (n := 48) (b := nx) (k := 32) (by rw [set_ne _ _ (by omega), set_same]; simp only [length_ofU8, lW]) (by norm_num)).bind ?_
  rintro _ rfl
  refine (copy_ret (off' := 32) (len := 16) (L := addV V 3) (I := W) string_rng (by rw [set_ne _ _ (by omega), set_ne _ _ (by omega), h3])
    (by rw [set_ne _ _ (by omega), set_same]) (by omega) (by norm_num) (by rw [length_addV]) (by omega)).bind ?_
  rintro _ rfl
  simp only [Ret_pure]
  refine ⟨trivial, by omega, ?_, ?_, ?_, ?_⟩
  · rw [set_ne _ _ nKV, set_same]
    rw [List.take_zero, List.nil_append, List.drop_eq_nil_of_le (by rw [hR.lk]), List.append_nil, drbgUpdate, hW]
  · rw [set_same]
    rw [List.take_zero, List.nil_append, List.drop_eq_nil_of_le (as := addV V 3) (by rw [length_addV]), List.append_nil,
      List.take_of_length_le (by rw [List.length_drop]; omega), drbgUpdate, hW]
  · rw [set_ne _ _ (Ne.symm v3), set_ne _ _ (Ne.symm w3), set_ne _ _ (by omega)]
    exact h4
  · intro c c1 c2 c3 c4
    rw [set_ne _ _ c3, set_ne _ _ c2, set_ne _ _ (by omega), h5 _ c1 c3 c4]

/-! ## `randombytes_init` -/

/-- The context of the generator is a variable of the file (/repo/tests/rng.c:12): two arrays and a counter. -/
structure RngVars (X : Ctx) (bK bV br : Nat) : Prop where
  key : X.glob "DRBG_ctx.Key" = some (.ptr bK 0 false 1)
  v : X.glob "DRBG_ctx.V" = some (.ptr bV 0 false 1)
  cell : X.glob "&DRBG_ctx.reseed_counter" = some (.ptr br 0 true 4)
  name : X.glob "DRBG_ctx.reseed_counter" = none

/-- The block of the counter. -/
def counter (w : Int) : Blk := ⟨true, 4, [w]⟩

theorem init_fun : randombytes_initFun.body = .seq (.declArr false 1 "seed_material" (.num true 4 48) none)
    (.seq (.expr (.call "memcpy" [.var "seed_material", .var "entropy_input", .num true 4 48]))
    (.seq (.ite (.call "!=NULL" [.var "personalization_string"]) (xorText "seed_material" "personalization_string") .skip)
    (.seq (.expr (.call "memset" [.var "DRBG_ctx.Key", .num true 4 0, .num true 4 32]))
    (.seq (.expr (.call "memset" [.var "DRBG_ctx.V", .num true 4 0, .num true 4 16]))
    (.seq (.expr (.call "AES256_CTR_DRBG_Update" [.var "seed_material", .var "DRBG_ctx.Key", .var "DRBG_ctx.V"]))
    (.seq (.expr (.asg (.var "DRBG_ctx.reseed_counter") (.num true 4 1))) .skip)))))) := rfl

theorem counter_write {br : Nat} (hG : RngVars X bK bV br) {M : Mem} {w v : Int} (h : M br = counter w) {loc : List (String × Val)} {s : Bool}
    {k : Nat} : setK (rngProg X a d) "DRBG_ctx.reseed_counter" ⟨loc, M, nx⟩ s k v none =
      pure (.int true 4 (wrap true 4 v), ⟨loc, M.set br (counter (wrap true 4 v)), nx⟩) := by
  have e : (rngProg X a d).glob "&DRBG_ctx.reseed_counter" = some (.ptr br 0 true 4) := by rw [rngProg, link_glob, link_glob, hG.cell]
  simp only [setK, show "&" ++ "DRBG_ctx.reseed_counter" = "&DRBG_ctx.reseed_counter" from rfl, e, writeStatic, h, counter]

theorem counter_value {br : Nat} (hG : RngVars X bK bV br) {M : Mem} {w : Int} (h : M br = counter w) :
    valueK (rngProg X a d) M "DRBG_ctx.reseed_counter" none = pure (.int true 4 w) := by
  have e : (rngProg X a d).glob "&DRBG_ctx.reseed_counter" = some (.ptr br 0 true 4) := by rw [rngProg, link_glob, link_glob, hG.cell]
  simp only [valueK, show "&" ++ "DRBG_ctx.reseed_counter" = "&DRBG_ctx.reseed_counter" from rfl, e, readStatic, h, counter]

/-- `randombytes_init` (/repo/tests/rng.c:14-30). -/
theorem text_init {be br : Nat} {E D : List U8} {w sec : Int} (hX : RngCtx X bs bc bz bN) (hG : RngVars X bK bV br)
    (hR : RngAt m nx bs bc bz bK bV key V) (hw : m br = counter w) (kr : br < nx) (r1 : br ≠ bK) (r2 : br ≠ bV) (r3 : br ≠ bz) (kN : bN < nx)
    (hE : m be = u8s E)
    (lE : E.length = 48) (ke : be < nx) (hD : Provided m nx bN bz bK bV bp D) :
    Ret (callFun (rngProg X a (d + 2)) randombytes_initFun [.ptr be 0 false 1, .ptr bp 0 false 1, .int true 4 sec] m nx) fun x =>
      x.1 = .undef .void ∧ nx ≤ x.2.2 ∧ x.2.1 bK = u8s (drbgInit E D).1 ∧ x.2.1 bV = u8s (drbgInit E D).2 ∧ x.2.1 br = counter 1 ∧
      (x.2.1 bz).data.length ≠ 1 ∧ ∀ c < nx, c ≠ bK → c ≠ bV → c ≠ br → c ≠ bz → x.2.1 c = m c := by
  obtain ⟨T, hT⟩ : ∃ T : List U8, ofU8 T = newArr (rngProg X a (d + 2)) "seed_material" false 1 48 none ∧ T.length = 48 := by
    refine ⟨(List.range 48).map fun i => BitVec.ofInt 8 (X.junk "seed_material" i), ?_, by simp⟩
    simp only [newArr, ofU8, List.map_map, link_junk]
    apply List.map_congr_left
    intro i _
    simp only [Function.comp]
    rw [BitVec.toNat_ofInt, wrap]
    simp
    omega
  have kV := hR.k2
  have kK := hR.k1
  have nKV := hR.nKV
  obtain ⟨q1, q2, q3, q4, q5, q6, q7, q8⟩ := hR.mem
  obtain ⟨v1, v2, v3⟩ := hR.apart bV (Or.inr rfl)
  obtain ⟨w1, w2, w3⟩ := hR.apart bK (Or.inl rfl)
  rw [callFun, init_fun]
  unfold randombytes_initFun
  csim
  rw [show (Int.toNat 48) = 48 from rfl, ← hT.1]
  have hm : ∀ c, c < nx → (m.set nx ⟨false, 1, ofU8 T⟩) c = m c := fun c h => set_ne _ _ (Nat.ne_of_lt h)
  refine (copy_ret (len := 48) (L := T) (I := E) string_rng (by rw [set_same]) (by rw [hm _ ke, hE]) (by omega) (by norm_num)
    (by omega) (by omega)).bind ?_
  rintro _ rfl
  csim [hX.test]
  rw [List.take_zero, List.nil_append, List.take_of_length_le (by omega), List.drop_eq_nil_of_le (as := T) (by omega),
    List.append_nil]
  generalize hW : List.zipWith (· ^^^ ·) E D = W
  have lW : W.length = 48 := by rw [← hW, List.length_zipWith, lE, hD.length]; rfl
  generalize hl : [("seed_material", Val.ptr nx 0 false 1), ("entropy_input", Val.ptr be 0 false 1),
    ("personalization_string", Val.ptr bp 0 false 1), ("security_strength", Val.int true 4 (wrap true 4 sec))] = loc
  refine Ret.bind (Q := (· = (⟨loc, m.set nx (u8s W), nx + 1⟩, .next))) ?_ ?_
  · by_cases e : bp = bN
    · rw [show decide (bp ≠ bN) = false by simpa using e, branchK_false, Ret_emit_bind, Ret_pure]
      rw [hD.zeros e, zipWith_zeros lE] at hW
      rw [← hW]
    · obtain ⟨p1, p2, p3, p4, p5⟩ := hD.data e
      rw [show decide (bp ≠ bN) = true by simpa using e, branchK_true, Ret_emit_bind, ← hW]
      have := exec_xor (Y := rngProg X a (d + 2)) (m := m.set nx (u8s E)) (nx := nx + 1) (t := "seed_material") (p := "personalization_string")
        (loc := loc) (bt := nx) (bp := bp) (by decide) (by decide) (by subst hl; rfl) (by subst hl; rfl) (by omega) lE hD.length (set_same ..)
        (by rw [set_ne _ _ (by omega), p1])
      rwa [set_set] at this
  rintro _ rfl
  subst hl
  have gk : (rngProg X a (d + 2)).glob "DRBG_ctx.Key" = some (.ptr bK 0 false 1) := by rw [rngProg, link_glob, link_glob, hG.key]
  have gv : (rngProg X a (d + 2)).glob "DRBG_ctx.V" = some (.ptr bV 0 false 1) := by rw [rngProg, link_glob, link_glob, hG.v]
  csim [gk, gv]
  refine (clear_ret (len := 32) (L := key) string_rng (by rw [set_ne _ _ (by omega), hR.hK]) (by norm_num) (by rw [hR.lk])).bind ?_
  rintro _ rfl
  csim [gk, gv]
  refine (clear_ret (len := 16) (L := V) string_rng (by rw [set_ne _ _ (Ne.symm nKV), set_ne _ _ (by omega), hR.hV]) (by norm_num)
    (by rw [hR.lV])).bind ?_
  rintro _ rfl
  csim [gk, gv]
  rw [List.drop_eq_nil_of_le (as := key) (by rw [hR.lk]), List.drop_eq_nil_of_le (as := V) (by rw [hR.lV]), List.append_nil, List.append_nil]
  generalize hM : ((m.set nx (u8s W)).set bK (u8s (List.replicate 32 0))).set bV (u8s (List.replicate 16 0)) = M
  have f : ∀ c, c < nx → c ≠ bK → c ≠ bV → M c = m c := fun c h h1 h2 => by rw [← hM, set_ne _ _ h2, set_ne _ _ h1, set_ne _ _ (by omega)]
  rw [rngProg, link_fn (g := drbgUpdateFun) (by simp only [List.findSome?, rng_update]) (by decide) (by decide)]
  refine (text_update (m := M) (nx := nx + 1) (D := W) (key := List.replicate 32 0) (V := List.replicate 16 0) hX
    ⟨⟨by rw [f _ q4 (Ne.symm w1) (Ne.symm v1), q1], by rw [f _ q5 (Ne.symm w2) (Ne.symm v2), q2],
      by rw [f _ q6 (Ne.symm w3) (Ne.symm v3)]; exact q3, by omega, by omega, by omega, q7, q8⟩, by rw [← hM, set_ne _ _ nKV, set_same],
      by rw [← hM, set_same], by simp, by simp, by omega, by omega, nKV, hR.apart⟩
    ⟨lW, fun _ => ⟨by rw [← hM, set_ne _ _ (by omega), set_ne _ _ (by omega), set_same], by omega, by omega, by omega, by omega⟩,
      fun h => absurd h (by omega)⟩).bind ?_
  rintro ⟨_, M2, nx2⟩ ⟨rfl, g1, g2, g3, g4, g5⟩
  dsimp only at g1 g2 g3 g4 g5 ⊢
  rw [counter_write hG (w := w) (by rw [g5 _ (by omega) r1 r2 r3, f _ kr r1 r2, hw])]
  csim
  rw [Ret_pure]
  dsimp only
  refine ⟨rfl, by omega, ?_, ?_, ?_, ?_, ?_⟩
  · rw [set_ne _ _ (Ne.symm r1), g2, drbgInit, hW]
  · rw [set_ne _ _ (Ne.symm r2), g3, drbgInit, hW]
  · rw [set_same]
  · rw [set_ne _ _ (Ne.symm r3)]
    exact g4
  · intro c c1 c2 c3 c4 c5
    rw [set_ne _ _ c4, g5 _ (by omega) c2 c3 c5, f _ c1 c2 c3]

/-! ## `randombytes` -/

/-- The branches in /repo/tests/rng.c:49-57. -/
def chunkText : Stmt :=
  .ite (.bin .gt (.var "xlen") (.num true 4 15))
    (.block (.seq (.expr (.call "memcpy" [.bin .add (.var "x") (.var "i"), .var "block", .num true 4 16]))
      (.seq (.expr (.asgOp .add (.var "i") (.num true 4 16))) (.seq (.expr (.asgOp .sub (.var "xlen") (.num true 4 16))) .skip))))
    (.block (.seq (.expr (.call "memcpy" [.bin .add (.var "x") (.var "i"), .var "block", .var "xlen"]))
      (.seq (.expr (.asg (.var "xlen") (.num true 4 0))) .skip)))

/-- Body of the loop in /repo/tests/rng.c:38-58. -/
def genBody : Stmt :=
  .block (.seq (incText "DRBG_ctx.V") (.seq (.expr (.call "AES256_ECB" [.var "DRBG_ctx.Key", .var "DRBG_ctx.V", .var "block"]))
    (.seq chunkText .skip)))

theorem bytes_text : drbgBytesFun.body = .seq (.declArr false 1 "block" (.num true 4 16) none)
    (.seq (.decl (.int true 4) "i" (some (.num true 4 0)))
    (.seq (.while (.bin .gt (.var "xlen") (.num true 4 0)) genBody)
    (.seq (.expr (.call "AES256_CTR_DRBG_Update" [.var "NULL", .var "DRBG_ctx.Key", .var "DRBG_ctx.V"]))
    (.seq (.expr (.inc false true (.var "DRBG_ctx.reseed_counter"))) (.seq (.ret (some (.num true 4 0))) .skip))))) := rfl

/-- The variables of `randombytes` (/repo/tests/rng.c:33-36). -/
def genVars (b bx off : Nat) (i : Nat) (len : Nat) : List (String × Val) :=
  [("i", .int true 4 i), ("block", .ptr b 0 false 1), ("x", .ptr bx off false 1), ("xlen", .int false 8 len)]

/-- What holds after `k` blocks and `n` bytes. -/
structure GenAt (m M : Mem) (nx nx' bz bV bx off k n : Nat) (key V L : List U8) : Prop where
  next : nx < nx'
  block : ∃ B : List U8, M nx = u8s B ∧ B.length = 16
  v : M bV = u8s (addV V k)
  out : M bx = u8s (L.take off ++ (ctrBlocks key V k).take n ++ L.drop (off + n))
  state : (M bz).data.length ≠ 1
  frame : ∀ c, c < nx → c ≠ bV → c ≠ bz → c ≠ bx → M c = m c

theorem gen_exit {Y : Ctx} {M : Mem} {nx nx' bx off i : Nat} :
    Ret (loop (roundS Y (.bin .gt (.var "xlen") (.num true 4 0)) none genBody) ⟨genVars nx bx off i 0, M, nx'⟩)
      (· = (⟨genVars nx bx off i 0, M, nx'⟩, .next)) := by
  rw [loop]
  unfold genVars
  csim
  rw [show decide ((0 : Int) < 0) = false from rfl, branchK_false]
  simp only [bind_assoc, pure_bind, Ret_emit_bind, Ret_pure]

theorem chunk_out {off k len : Nat} {L : List U8} (lL : off + 16 * k ≤ L.length) :
    (L.take off ++ (ctrBlocks key V k).take (16 * k) ++ L.drop (off + 16 * k)).take (off + 16 * k) ++
        ((AES256 key (addV V (k + 1))).drop 0).take len ++
      (L.take off ++ (ctrBlocks key V k).take (16 * k) ++ L.drop (off + 16 * k)).drop (off + 16 * k + len) =
    L.take off ++ (ctrBlocks key V (k + 1)).take (16 * k + len) ++ L.drop (off + (16 * k + len)) := by
  have e : (L.take off ++ (ctrBlocks key V k).take (16 * k)).length = off + 16 * k := by
    rw [List.length_append, List.length_take, List.length_take, length_ctrBlocks]; omega
  rw [List.take_left' e, ← e, List.drop_length_add_append, List.drop_drop, List.drop_zero, e, ctrBlocks_succ,
    show 16 * k + len = (ctrBlocks key V k).length + len by rw [length_ctrBlocks], List.take_length_add_append, length_ctrBlocks,
    List.take_of_length_le (i := 16 * k) (by rw [length_ctrBlocks])]
  simp only [List.append_assoc, Nat.add_assoc]

/-- One round of the loop: the counter, its cipher text, and the copy. -/
theorem gen_round {br bx off k rest : Nat} {L : List U8} (hX : RngCtx X bs bc bz bN) (hG : RngVars X bK bV br)
    (hR : RngAt m nx bs bc bz bK bV key V) (kx : bx < nx) (x1 : bx ≠ bK) (x2 : bx ≠ bV) (x3 : bx ≠ bz) (x4 : bx ≠ bs) (x5 : bx ≠ bc)
    {M : Mem} {nx' : Nat} (h : GenAt m M nx nx' bz bV bx off k (16 * k) key V L) (lL : off + 16 * k + rest ≤ L.length) (h0 : 0 < rest)
    (hb : 16 * k + rest < 2 ^ 31) :
    Ret (roundS (rngProg X a (d + 1)) (.bin .gt (.var "xlen") (.num true 4 0)) none genBody ⟨genVars nx bx off (16 * k) rest, M, nx'⟩)
      fun x => ∃ M2 nx2, x = (none, ⟨genVars nx bx off (if 16 ≤ rest then 16 * (k + 1) else 16 * k) (rest - 16), M2, nx2⟩) ∧
        GenAt m M2 nx nx2 bz bV bx off (k + 1) (16 * k + min rest 16) key V L := by
  have kV := hR.k2
  have kK := hR.k1
  have nKV := hR.nKV
  obtain ⟨q1, q2, q3, q4, q5, q6, q7, q8⟩ := hR.mem
  obtain ⟨v1, v2, v3⟩ := hR.apart bV (Or.inr rfl)
  obtain ⟨w1, w2, w3⟩ := hR.apart bK (Or.inl rfl)
  obtain ⟨h1, ⟨B, hB, lB⟩, h3, h4, h5, h6⟩ := h
  have gk : (rngProg X a (d + 1)).glob "DRBG_ctx.Key" = some (.ptr bK 0 false 1) := by rw [rngProg, link_glob, link_glob, hG.key]
  have gv : (rngProg X a (d + 1)).glob "DRBG_ctx.V" = some (.ptr bV 0 false 1) := by rw [rngProg, link_glob, link_glob, hG.v]
  unfold genBody
  rw [show genVars nx bx off (16 * k) rest = _ from genVars.eq_1 ..]
  csim
  rw [show decide (0 < rest) = true by simp; omega, branchK_true]
  simp only [Ret_emit_bind]
  refine (exec_inc (v := "DRBG_ctx.V") (loc := genVars nx bx off (16 * k) rest) (b := bV) (V := addV V k) (by decide) (by rw [gv]; rfl) h3 (length_addV _ _)).bind ?_
  rintro _ rfl
  rw [addV_addV, show genVars nx bx off (16 * k) rest = _ from genVars.eq_1 ..]
  csim [gk, gv]
  generalize hM1 : M.set bV (u8s (addV V (k + 1))) = M1
  have f1 : ∀ c, c ≠ bV → M1 c = M c := fun c h => by rw [← hM1, set_ne _ _ h]
  rw [rngProg, link_fn (g := AES256_ECBFun) (by simp only [List.findSome?, rng_ecb]) (by decide) (by decide)]
  refine (text_AES256_ECB (off := 0) (L := B) (key := key) (ctr := addV V (k + 1)) hX.aes hX.asserts
    (by rw [f1 _ (Ne.symm v1), h6 _ q4 (Ne.symm v1) q7 (Ne.symm x4), q1])
    (by rw [f1 _ (Ne.symm v2), h6 _ q5 (Ne.symm v2) q8 (Ne.symm x5), q2]) (by rw [f1 _ (Ne.symm v3)]; exact h5)
    (by rw [f1 _ hR.nKV, h6 _ kK hR.nKV w3 (Ne.symm x1), hR.hK]) (by rw [← hM1, set_same]) (by rw [f1 _ (by omega), hB]) hR.lk (length_addV _ _)
    (by rw [lB]) (by omega) (by omega) (by omega) (by omega) (by omega) (by omega) (by omega) (by omega) (by omega) (by omega)
    q7 q8 v3).bind ?_
  rintro ⟨_, M2, nx2⟩ ⟨rfl, g1, g2, g3, g4⟩
  dsimp only at g1 g2 g3 g4 ⊢
  rw [List.take_zero, List.nil_append, List.drop_eq_nil_of_le (as := B) (by omega), List.append_nil] at g2
  have bV2 : M2 bV = u8s (addV V (k + 1)) := by rw [g4 _ (by omega) (by omega) v3, ← hM1, set_same]
  have f2 : ∀ c, c < nx → c ≠ bV → c ≠ bz → M2 c = M c := fun c e1 e2 e3 => by rw [g4 _ (by omega) (by omega) e3, f1 _ e2]
  have lL' : (L.take off ++ (ctrBlocks key V k).take (16 * k) ++ L.drop (off + 16 * k)).length = L.length := by
    rw [List.length_append, List.length_append, List.length_take, List.length_take, length_ctrBlocks, List.length_drop]; omega
  have hx : M2 bx = u8s (L.take off ++ (ctrBlocks key V k).take (16 * k) ++ L.drop (off + 16 * k)) := by rw [f2 _ kx x2 x3, h4]
  have fin : ∀ len, len ≤ 16 → len ≤ rest → GenAt m (M2.set bx (u8s (L.take off ++ (ctrBlocks key V (k + 1)).take (16 * k + len) ++
      L.drop (off + (16 * k + len))))) nx nx2 bz bV bx off (k + 1) (16 * k + len) key V L := fun len e1 e2 =>
    ⟨by omega, ⟨_, by rw [set_ne _ _ (by omega), g2], length_AES256 _ _⟩, by rw [set_ne _ _ (Ne.symm x2), bV2], by rw [set_same],
      by rw [set_ne _ _ (Ne.symm x3)]; exact g3, fun c c1 c2 c3 c4 => by rw [set_ne _ _ c4, f2 _ c1 c2 c3, h6 _ c1 c2 c3 c4]⟩
  have mv := movePtr_ok (m := M2) (b := bx) (off := off) (k := 16 * k) (n := L.length) (by rw [hx]; simp only [length_ofU8, lL', Nat.mul_one])
    (by omega)
  unfold chunkText
  csim
  by_cases e : 16 ≤ rest
  · rw [show decide (15 < rest) = true by simp; omega, branchK_true]
    simp only [bind_assoc, Ret_emit_bind]
    refine mv.bind ?_
    rintro _ rfl
    refine (copy_ret (len := 16) string_rng hx g2 (by omega) (by norm_num) (by rw [lL']; omega) (by rw [length_AES256])).bind ?_
    rintro _ rfl
    rw [chunk_out (by omega), int_ok (by omega) (by omega), pure_bind, wrap_int (by omega) (by omega)]
    csim
    refine Ret_pure.2 ⟨M2.set bx (u8s (L.take off ++ (ctrBlocks key V (k + 1)).take (16 * k + 16) ++ L.drop (off + (16 * k + 16)))), nx2, ?_,
      by rw [Nat.min_eq_right e]; exact fin 16 (by omega) e⟩
    · rw [if_pos e, show ((rest : Int) - 16) = ((rest - 16 : Nat) : Int) by omega]
      rfl
  · rw [show decide (15 < rest) = false by simp; omega, branchK_false]
    simp only [bind_assoc, Ret_emit_bind]
    refine mv.bind ?_
    rintro _ rfl
    refine (copy_ret (len := rest) string_rng hx g2 (by omega) (by omega) (by rw [lL']; omega) (by rw [length_AES256]; omega)).bind ?_
    rintro _ rfl
    rw [chunk_out (by omega)]
    csim
    refine Ret_pure.2 ⟨M2.set bx (u8s (L.take off ++ (ctrBlocks key V (k + 1)).take (16 * k + rest) ++ L.drop (off + (16 * k + rest)))), nx2, ?_,
      by rw [Nat.min_eq_left (by omega)]; exact fin rest (by omega) (by omega)⟩
    · rw [if_neg e, show rest - 16 = 0 by omega]
      rfl

theorem gen_loop {br bx off n : Nat} {L : List U8} (hX : RngCtx X bs bc bz bN) (hG : RngVars X bK bV br)
    (hR : RngAt m nx bs bc bz bK bV key V) (kx : bx < nx) (x1 : bx ≠ bK) (x2 : bx ≠ bV) (x3 : bx ≠ bz) (x4 : bx ≠ bs) (x5 : bx ≠ bc)
    (lL : off + n ≤ L.length) (hb : n < 2 ^ 31) (q k rest : Nat) (hq : rest / 16 = q) (hn : 16 * k + rest = n) (M : Mem) (nx' : Nat)
    (h : GenAt m M nx nx' bz bV bx off k (16 * k) key V L) :
    Ret (loop (roundS (rngProg X a (d + 1)) (.bin .gt (.var "xlen") (.num true 4 0)) none genBody)
      ⟨genVars nx bx off (16 * k) rest, M, nx'⟩) fun x => ∃ i M2 nx2, x = (⟨genVars nx bx off i 0, M2, nx2⟩, .next) ∧
        GenAt m M2 nx nx2 bz bV bx off ((n + 15) / 16) n key V L := by
  induction q generalizing k rest M nx' with
  | zero =>
    by_cases e : rest = 0
    · subst e
      refine gen_exit.mono ?_
      rintro _ rfl
      refine ⟨_, M, nx', rfl, ?_⟩
      rw [show (n + 15) / 16 = k by omega, show n = 16 * k by omega]
      exact h
    · rw [loop]
      refine (gen_round (a := a) (d := d) hX hG hR kx x1 x2 x3 x4 x5 h (by omega) (by omega) (by omega)).bind ?_
      rintro _ ⟨M2, nx2, rfl, h2⟩
      dsimp only
      rw [show rest - 16 = 0 by omega]
      refine gen_exit.mono ?_
      rintro _ rfl
      refine ⟨_, M2, nx2, rfl, ?_⟩
      rw [Nat.min_eq_left (by omega), hn] at h2
      rw [show (n + 15) / 16 = k + 1 by omega]
      exact h2
  | succ q ih =>
    rw [loop]
    refine (gen_round (a := a) (d := d) hX hG hR kx x1 x2 x3 x4 x5 h (by omega) (by omega) (by omega)).bind ?_
    rintro _ ⟨M2, nx2, rfl, h2⟩
    dsimp only
    rw [if_pos (by omega)]
    rw [Nat.min_eq_right (by omega)] at h2
    exact ih (k + 1) (rest - 16) (by omega) (by omega) M2 nx2 h2

/-- `randombytes` (/repo/tests/rng.c:32-63). -/
theorem text_generate {br bx off n : Nat} {L : List U8} {w : Int} (hX : RngCtx X bs bc bz bN) (hG : RngVars X bK bV br)
    (hR : RngAt m nx bs bc bz bK bV key V) (hw : m br = counter w) (w0 : -2147483648 ≤ w) (w1 : w < 2147483647) (kr : br < nx)
    (r1 : br ≠ bK) (r2 : br ≠ bV) (r3 : br ≠ bz) (r4 : br ≠ bx) (hL : m bx = u8s L) (lL : off + n ≤ L.length) (hb : n < 2 ^ 31) (kx : bx < nx)
    (x1 : bx ≠ bK) (x2 : bx ≠ bV) (x3 : bx ≠ bz) (x4 : bx ≠ bs) (x5 : bx ≠ bc) :
    Ret (callFun (rngProg X a (d + 2)) drbgBytesFun [.ptr bx off false 1, .int false 8 n] m nx) fun x =>
      x.1 = .int true 4 0 ∧ nx ≤ x.2.2 ∧ x.2.1 bx = u8s (L.take off ++ (drbgGenerate key V n).1 ++ L.drop (off + n)) ∧
      x.2.1 bK = u8s (drbgGenerate key V n).2.1 ∧ x.2.1 bV = u8s (drbgGenerate key V n).2.2 ∧ x.2.1 br = counter (w + 1) ∧
      (x.2.1 bz).data.length ≠ 1 ∧ ∀ c < nx, c ≠ bx → c ≠ bK → c ≠ bV → c ≠ br → c ≠ bz → x.2.1 c = m c := by
  obtain ⟨B, hB⟩ : ∃ B : List U8, ofU8 B = newArr (rngProg X a (d + 2)) "block" false 1 16 none ∧ B.length = 16 := by
    refine ⟨(List.range 16).map fun i => BitVec.ofInt 8 (X.junk "block" i), ?_, by simp⟩
    simp only [newArr, ofU8, List.map_map, link_junk]
    apply List.map_congr_left
    intro i _
    simp only [Function.comp]
    rw [BitVec.toNat_ofInt, wrap]
    simp
    omega
  have kV := hR.k2
  have kK := hR.k1
  have nKV := hR.nKV
  obtain ⟨q1, q2, q3, q4, q5, q6, q7, q8⟩ := hR.mem
  obtain ⟨v1, v2, v3⟩ := hR.apart bV (Or.inr rfl)
  obtain ⟨u1, u2, u3⟩ := hR.apart bK (Or.inl rfl)
  have gk : (rngProg X a (d + 2)).glob "DRBG_ctx.Key" = some (.ptr bK 0 false 1) := by rw [rngProg, link_glob, link_glob, hG.key]
  have gv : (rngProg X a (d + 2)).glob "DRBG_ctx.V" = some (.ptr bV 0 false 1) := by rw [rngProg, link_glob, link_glob, hG.v]
  have gn : (rngProg X a (d + 2)).glob "NULL" = some (.ptr bN 0 false 1) := by rw [rngProg, link_glob, link_glob, hX.null]
  rw [callFun, bytes_text]
  unfold drbgBytesFun
  csim [loopW_eq]
  rw [show (Int.toNat 16) = 16 from rfl, ← hB.1]
  refine (gen_loop (a := a) (d := d + 1) (L := L) (n := n) hX hG hR kx x1 x2 x3 x4 x5 lL hb (n / 16) 0 n rfl (by omega)
    (m.set nx ⟨false, 1, ofU8 B⟩) (nx + 1)
    ⟨by omega, ⟨B, by rw [set_same], hB.2⟩, by rw [set_ne _ _ (by omega), hR.hV, addV_zero hR.lV],
      by rw [set_ne _ _ (by omega), hL]; simp, by rw [set_ne _ _ (by omega)]; exact q3,
      fun c c1 _ _ _ => set_ne _ _ (by omega)⟩).bind ?_
  rintro _ ⟨i, M, nx', rfl, h1, h2, h3, h4, h5, h6⟩
  unfold genVars
  have gr : (rngProg X a (d + 2)).glob "DRBG_ctx.reseed_counter" = none := by rw [rngProg, link_glob, link_glob, hG.name]
  csim [gk, gv, gn, gr]
  rw [rngProg, link_fn (g := drbgUpdateFun) (by simp only [List.findSome?, rng_update]) (by decide) (by decide)]
  have e1 : M bK = u8s key := by rw [h6 _ kK nKV u3 (Ne.symm x1), hR.hK]
  refine (text_update (m := M) (nx := nx') (D := List.replicate 48 0) (key := key) (V := addV V ((n + 15) / 16)) hX
    ⟨⟨by rw [h6 _ q4 (Ne.symm v1) q7 (Ne.symm x4), q1], by rw [h6 _ q5 (Ne.symm v2) q8 (Ne.symm x5), q2], h5, by omega, by omega, by omega, q7, q8⟩,
      e1, h3, hR.lk, length_addV _ _, by omega, by omega, nKV, hR.apart⟩
    ⟨by simp, fun h => absurd rfl h, fun _ => rfl⟩).bind ?_
  rintro ⟨_, M2, nx2⟩ ⟨rfl, g1, g2, g3, g4, g5⟩
  dsimp only at g1 g2 g3 g4 g5 ⊢
  have e2 : M2 br = counter w := by rw [g5 _ (by omega) r1 r2 r3, h6 _ kr r2 r3 r4, hw]
  rw [counter_value hG e2]
  csim
  rw [counter_write hG e2, wrap_int (by omega) (by omega)]
  csim
  rw [Ret_pure]
  dsimp only
  refine ⟨rfl, by omega, ?_, ?_, ?_, ?_, ?_, ?_⟩
  · rw [set_ne _ _ (Ne.symm r4), g5 _ (by omega) x1 x2 x3, h4, drbgGenerate]
  · rw [set_ne _ _ (Ne.symm r1), g2, drbgGenerate]
  · rw [set_ne _ _ (Ne.symm r2), g3, drbgGenerate]
  · rw [set_same]
  · rw [set_ne _ _ (Ne.symm r3)]
    exact g4
  · intro c c1 c2 c3 c4 c5 c6
    rw [set_ne _ _ c5, g5 _ (by omega) c3 c4 c6, h6 _ c1 c4 c6 c2]

end

end

end Frodo
