import Verif.Proof.TextOpt

/-! # `frodo_mul_add_as_plus_e` of /repo/src/frodo_macrify.c:21-123, without intrinsics: text and model -/

namespace Frodo

open Src

/-! ## Pieces of 32 bits -/

/-- The number that two words in memory give when read as 32 bits. -/
def pair (x y : U16) : Nat := x.toNat + 65536 * y.toNat

theorem pair_lt (x y : U16) : pair x y < 2 ^ 32 := by
  have := x.isLt; have := y.isLt
  unfold pair
  omega

theorem wrap_pair (x y : U16) : wrap false 4 (pair x y : Int) = pair x y := by
  have := pair_lt x y
  unfold wrap
  simp only [Bool.false_eq_true, if_false]
  exact Int.emod_eq_of_lt (by omega) (by omega)

theorem joinBytes_pair (x y : U16) : joinBytes .le (ofU8 (toBytes .le [x, y])) = pair x y := by
  have h1 := x.isLt; have h2 := y.isLt
  have e1 : ((x >>> 8).setWidth 8).toNat = x.toNat / 256 := by
    rw [BitVec.toNat_setWidth, BitVec.toNat_ushiftRight, Nat.shiftRight_eq_div_pow]; omega
  have e2 : ((y >>> 8).setWidth 8).toNat = y.toNat / 256 := by
    rw [BitVec.toNat_setWidth, BitVec.toNat_ushiftRight, Nat.shiftRight_eq_div_pow]; omega
  have e3 : (x.setWidth 8).toNat = x.toNat % 256 := by rw [BitVec.toNat_setWidth]
  have e4 : (y.setWidth 8).toNat = y.toNat % 256 := by rw [BitVec.toNat_setWidth]
  simp only [toBytes, List.flatMap_cons, List.flatMap_nil, bytes16, List.cons_append, List.nil_append, ofU8, List.map_cons, List.map_nil,
    joinBytes, joinLe, e1, e2, e3, e4, pair]
  omega

theorem bytesOf_pair (x y : U16) : bytesOf .le 4 (pair x y : Int) = ofU8 (toBytes .le [x, y]) := by
  have h1 := x.isLt; have h2 := y.isLt
  have e1 : ((x >>> 8).setWidth 8).toNat = x.toNat / 256 := by
    rw [BitVec.toNat_setWidth, BitVec.toNat_ushiftRight, Nat.shiftRight_eq_div_pow]; omega
  have e2 : ((y >>> 8).setWidth 8).toNat = y.toNat / 256 := by
    rw [BitVec.toNat_setWidth, BitVec.toNat_ushiftRight, Nat.shiftRight_eq_div_pow]; omega
  have e3 : (x.setWidth 8).toNat = x.toNat % 256 := by rw [BitVec.toNat_setWidth]
  have e4 : (y.setWidth 8).toNat = y.toNat % 256 := by rw [BitVec.toNat_setWidth]
  have r : List.range 4 = [0, 1, 2, 3] := rfl
  simp only [toBytes, List.flatMap_cons, List.flatMap_nil, bytes16, List.cons_append, List.nil_append, ofU8, List.map_cons, List.map_nil,
    bytesOf, r, e1, e2, e3, e4, pair, List.cons.injEq, and_true]
  refine ⟨?_, ?_, ?_, ?_⟩ <;> omega

theorem two_at {l : List U16} {i : Nat} (h : i + 1 < l.length) : (l.drop i).take 2 = [nth l i, nth l (i + 1)] := by
  rw [List.drop_eq_getElem_cons (l := l) (i := i) (by omega), List.drop_eq_getElem_cons (l := l) (i := i + 1) (by omega)]
  show [l[i], l[i + 1]] = _
  simp [nth, h, show i < l.length by omega]

theorem load32 {l : List U16} {c : Nat} (h : c * 2 + 1 < l.length) :
    loadB .le (u16s l) c false 4 0 = (C.emit (.read 0) >>= fun _ => pure (.int false 4 (pair (nth l (c * 2)) (nth l (c * 2 + 1))))) := by
  have e1 : ((ofU8 (toBytes .le l)).drop ((c + (0 : Int).toNat) * 4)).take 4 = ofU8 (toBytes .le [nth l (c * 2), nth l (c * 2 + 1)]) := by
    rw [← two_at h, ← toBytes_take, ← toBytes_drop]
    simp only [ofU8, List.map_take, List.map_drop]
    congr 2
    simp; omega
  unfold loadB
  rw [if_neg (by omega), if_neg (by simp), bytes_u16s, length_ofU8, length_toBytes, if_pos (by simp; omega), e1, joinBytes_pair]
  rw [wrap_pair]
  rfl

theorem set_two {l : List U16} {i : Nat} (x y : U16) (h : i + 1 < l.length) : l.take i ++ [x, y] ++ l.drop (i + 2) = (l.set i x).set (i + 1) y := by
  apply List.ext_getElem?
  intro j
  by_cases h1 : j < i
  · rw [List.append_assoc, List.getElem?_append_left (by simp; omega)]
    simp [h1, show i ≠ j by omega, show i + 1 ≠ j by omega]
  · by_cases h2 : j < i + 2
    · rw [List.getElem?_append_left (by simp; omega), List.getElem?_append_right (by simp; omega)]
      rw [List.length_take, Nat.min_eq_left (by omega)]
      obtain rfl | rfl : j = i ∨ j = i + 1 := by omega
      · simp [show j < l.length by omega]
      · simp [h]
    · rw [List.getElem?_append_right (by simp; omega)]
      simp only [List.length_append, List.length_take, List.length_cons, List.length_nil, List.getElem?_drop]
      rw [List.getElem?_set_ne (by omega), List.getElem?_set_ne (by omega)]
      congr 1
      omega

theorem store32 {l : List U16} {c : Nat} (h : c * 2 + 1 < l.length) (x y : U16) :
    storeB .le (u16s l) c 4 0 (pair x y : Int) = (C.emit (.write 0) >>= fun _ => pure (u16s ((l.set (c * 2) x).set (c * 2 + 1) y))) := by
  unfold storeB
  rw [if_neg (by omega), if_neg (by simp), bytes_u16s, length_ofU8, length_toBytes, if_pos (by simp; omega), bytesOf_pair]
  have e1 : (ofU8 (toBytes .le l)).take ((c + (0 : Int).toNat) * 4) ++ ofU8 (toBytes .le [x, y]) ++
      (ofU8 (toBytes .le l)).drop ((c + (0 : Int).toNat + 1) * 4) = ofU8 (toBytes .le ((l.set (c * 2) x).set (c * 2 + 1) y)) := by
    rw [← set_two x y h, toBytes_append, toBytes_append, ← toBytes_take, ← toBytes_drop]
    simp only [ofU8, List.map_append, List.map_take, List.map_drop]
    rw [show (c + (0 : Int).toNat) * 4 = 2 * (c * 2) by simp; omega, show (c + (0 : Int).toNat + 1) * 4 = 2 * (c * 2 + 2) by simp; omega]
  simp only [e1]
  rw [setBytes_u16s .le _ _ _ (length_toBytes .le _), ofBytes_toBytes]
  rfl

theorem rd_some {l : List U16} {i : Nat} {x : U16} {t : List Event} (h : rd l i = .ok x t) : i < l.length ∧ x = nth l i := by
  unfold rd at h
  cases hb : l[i]? with
  | none => rw [hb] at h; cases h
  | some y =>
    rw [hb] at h
    obtain ⟨h1, rfl⟩ := List.getElem?_eq_some_iff.mp hb
    cases h
    exact ⟨h1, by simp [nth, h1]⟩

theorem wr_some {l l' : List U16} {i : Nat} {x : U16} {t : List Event} (h : wr l i x = .ok l' t) : i < l.length ∧ l' = l.set i x := by
  unfold wr at h
  by_cases hi : i < l.length
  · rw [if_pos hi] at h
    cases h
    exact ⟨hi, rfl⟩
  · rw [if_neg hi] at h
    cases h

section

variable {X : Ctx} {N : Nat} {F : Mem}

/-- The local variables. -/
def asLoc (next : Nat) (vi vj vk : Val) (ps : List (String × Val)) : List (String × Val) :=
  ("a_row", .ptr (next + 0) 0 true 2) :: ("k", vk) :: ("j", vj) :: ("i", vi) :: ps

/-- The copy of `e` (/repo/src/frodo_macrify.c:28-30). -/
theorem DRun.copyE {P : Params} {next bo bs ks be ke bi ki a1 a2 : Nat} {O Z : List U16} {rest : Stmt}
    {k : List U16 → C α} {Q : α → St × Flow → Prop} (hP : P.Small) (ha : X.arch = .le) (hb1 : bo < N) (hb2 : be < N) (n1 : be ≠ bo)
    (hO : F bo = u16s O) (hZ : F be = u16s Z) (hke : ke % 2 = 0) (hke' : ke ≤ Z.length) (hn : P.n % 8 = 0)
    (hk : ∀ r, DRun X N (asLoc next (.int true 4 (P.n * P.nbar : Nat)) (.undef (.int true 4)) (.undef (.int true 4)) (mulArgs bo bs ks be ke bi ki))
      (F.set bo (u16s r)) rest (k r) Q) :
    DRun X N (asLoc next (.undef (.int true 4)) (.undef (.int true 4)) (.undef (.int true 4)) (mulArgs bo bs ks be ke bi ki)) F
      (.seq (.for (.expr (.asg (.var "i") (.num true 4 0))) (.bin .lt (.var "i") (.bin .mul (.num true 4 P.n) (.num true 4 P.nbar)))
        (.asgOp .add (.var "i") (.num true 4 2))
        (.block (.seq (.expr (.asg (.deref (.cast (.ptr (.int false 4)) (.addr (.idx (.var "out") (.var "i")))))
          (.deref (.cast (.ptr (.int false 4)) (.addr (.idx (.var "e") (.var "i"))))))) .skip))) rest)
      (Frodo.forC 0 (P.n * P.nbar) 2 O (fun i out => do
        C.require ((a1 + 2 * i) % 4 = 0 ∧ (a2 + 2 * i) % 4 = 0) .misaligned
        let x ← rd (Z.drop ke) i
        let y ← rd (Z.drop ke) (i + 1)
        let out ← wr out i x
        wr out (i + 1) y) >>= k) Q := by
  obtain ⟨q1, q2, q3, q4, -⟩ := hP
  intro M hM
  have hO' : M bo = u16s O := by rw [hM _ hb1, hO]
  have hZ' : M be = u16s Z := by rw [hM _ hb2, hZ]
  have c2 : P.n * P.nbar ≤ 1344 * 8 := Nat.mul_le_mul q1 q3
  have c3 : P.n * P.nbar % 2 = 0 := by
    obtain ⟨q, hq⟩ := Nat.dvd_of_mod_eq_zero hn
    rw [hq, Nat.mul_assoc, Nat.mul_mod]; simp
  unfold asLoc mulArgs
  csim [loopF_eq]
  refine (Refines.forStep (fun i (r : List U16) st => st = (⟨asLoc next (.int true 4 i) (.undef (.int true 4)) (.undef (.int true 4))
    (mulArgs bo bs ks be ke bi ki), M.set bo (u16s r), N⟩ : St)) (by omega) c3 ?_ ?_ ?_).bind ?_
  · rw [set_self _ hO']; rfl
  · rintro i r _ hi hm rfl
    unfold asLoc mulArgs
    csim [hZ', n1]
    cstep
    refine Refines.tail (Refines.leftOk fun a t e => ?_)
    obtain ⟨_, _, _, -, e, -⟩ := Frodo.bind_ok e
    obtain ⟨x, _, _, e1, e, -⟩ := Frodo.bind_ok e
    obtain ⟨y, _, _, e2, e, -⟩ := Frodo.bind_ok e
    obtain ⟨r1, _, _, e3, e4, -⟩ := Frodo.bind_ok e
    obtain ⟨f1, rfl⟩ := rd_some e1
    obtain ⟨f2, rfl⟩ := rd_some e2
    obtain ⟨f3, rfl⟩ := wr_some e3
    obtain ⟨f4, rfl⟩ := wr_some e4
    rw [List.length_set] at f4
    rw [List.length_drop] at f1 f2
    have g1 : movePtr (M.set bo (u16s r)) be ke false 2 (i : Int) = .ok (.ptr be (ke + i) false 2) [.addr i] := by
      unfold movePtr
      rw [set_ne _ _ n1, hZ', if_pos ⟨by omega, Nat.mul_le_mul_right 2 (by simp only [length_ofU16, Int.toNat_natCast]; omega)⟩]
      rfl
    have g2 : movePtr (M.set bo (u16s r)) bo 0 false 2 (i : Int) = .ok (.ptr bo (0 + i) false 2) [.addr i] := by
      unfold movePtr
      rw [set_same, if_pos ⟨by omega, Nat.mul_le_mul_right 2 (by simp only [length_ofU16, Int.toNat_natCast]; omega)⟩]
      rfl
    have g3 : convert (.ptr (.int false 4)) (.ptr be (ke + i) false 2) = pure (.ptr be ((ke + i) * 2 / 4) false 4) := by
      simp only [convert]
      rw [if_neg (by omega), if_pos (by omega)]
    have g4 : convert (.ptr (.int false 4)) (.ptr bo (0 + i) false 2) = pure (.ptr bo ((0 + i) * 2 / 4) false 4) := by
      simp only [convert]
      rw [if_neg (by omega), if_pos (by omega)]
    have g5 := load32 (l := Z) (c := (ke + i) * 2 / 4) (by omega)
    have g6 := store32 (l := r) (c := (0 + i) * 2 / 4) (by omega) (nth (Z.drop ke) i) (nth (Z.drop ke) (i + 1))
    rw [show (ke + i) * 2 / 4 * 2 = ke + i by omega, Nat.add_assoc, ← nth_drop, ← nth_drop] at g5
    rw [show (0 + i) * 2 / 4 * 2 = i by omega] at g6
    refine Refines.right (b := .ptr be (ke + i) false 2) ⟨_, _, g1, rfl⟩ ?_
    csim [g3, hZ', n1, ha, g5]
    refine Refines.right (b := ()) ⟨_, _, rfl, rfl⟩ (Refines.right (b := .ptr bo (0 + i) false 2) ⟨_, _, g2, rfl⟩ ?_)
    csim [g4, ha, g6, wrap_pair]
    exact Refines.right (b := ()) ⟨_, _, rfl, rfl⟩ (.pure ⟨_, rfl, rfl⟩)
  · rintro r _ rfl
    unfold asLoc mulArgs
    csim
    exact Refines.branchF (by simp)
  · rintro r _ ⟨_, rfl, rfl⟩
    csim
    have := hk r (M.set bo (u16s r)) (hM.set bo _)
    unfold asLoc mulArgs at this ⊢
    csim
    exact this

/-- The local variables, with the seed. -/
def asLocS (next : Nat) (vi vj vk : Val) (ps : List (String × Val)) : List (String × Val) :=
  ("seed_A_origin", .ptr (next + 1) 0 false 2) :: ("seed_A_separated", .ptr (next + 1) 0 false 1) :: asLoc next vi vj vk ps

/-- `a_row[k] = LE_TO_UINT16(a_row[k])` for all k (/repo/src/frodo_macrify.c:100-102). -/
theorem Run.leRow {P : Params} {next : Nat} {vi vj vk : Val} {ps : List (String × Val)} {A : List U16} {rest : Stmt}
    {k : List U16 → C α} {Q : α → St × Flow → Prop} {w : Prop} [Decidable w] {v : Nat} (hv : vk = later true 4 w v) (hP : P.Small)
    (hb : next + 0 < N) (hl : F (next + 0) = s16s A)
    (hk : ∀ r, Run X N (asLocS next vi vj (.int true 4 (4 * P.n : Nat)) ps) (F.set (next + 0) (s16s r)) rest (k r) Q) :
    Run X N (asLocS next vi vj vk ps) F
      (.seq (.for (.expr (.asg (.var "k") (.num true 4 0))) (.bin .lt (.var "k") (.bin .mul (.num true 4 4) (.num true 4 P.n))) (.inc false true (.var "k"))
        (.block (.seq (.expr (.asg (.idx (.var "a_row") (.var "k")) (.idx (.var "a_row") (.var "k")))) .skip))) rest)
      (Frodo.forC 0 (4 * P.n) 1 A (fun i A => do
        let x ← Frodo.rd A i
        Frodo.wr A i (LE_TO_UINT16 .le x)) >>= k) Q := by
  have q1 := hP.n
  subst hv
  refine Run.forMem (fun i => asLocS next vi vj (.int true 4 i) ps) (fun r : List U16 => F.set (next + 0) (s16s r)) ?_ ?_ ?_ ?_ ?_ rfl hk
  · rw [set_self _ hl]
  · intro M nx
    unfold asLocS asLoc
    csim
  · intro i M nx hi
    unfold asLocS asLoc
    csim
  · intro i M nx hi
    refine ⟨.int true 4 i, ?_⟩
    unfold asLocS asLoc
    csim
  · intro i r hi M nx hn hA
    unfold asLocS asLoc
    have hM : M (next + 0) = s16s r := by rw [hA _ hb]; simp [Mem.set]
    csim [hM]
    refine Refines.rdS fun x _ => ?_
    csim
    refine Refines.tail ?_
    refine Refines.wrS (by rw [LE_TO_UINT16]) fun r' _ _ => ?_
    refine .pure ⟨rfl, rfl, hn, ?_⟩
    have h := hA.set (next + 0) (s16s r')
    simp only [set_set] at h
    exact h

/-- `sum[r] += a_row[r*PARAMS_N + j] * sp` (/repo/src/frodo_macrify.c:107-110). -/
theorem accText_step {next n j nx nx' : Nat} {A S : List U16} {sp : U16} {M : Mem} {loc : List (String × Val)} {rest : Stmt} {k : List U16 → C α}
    {Q : α → St × Flow → Prop} (r : Nat) (hr : r < 4) (hn : n ≤ 1344) (hj : j < n) (v1 : findVar "sum" loc = some (.ptr nx 0 false 2))
    (v2 : findVar "a_row" loc = some (.ptr (next + 0) 0 true 2)) (v3 : findVar "j" loc = some (.int true 4 j))
    (v4 : findVar "sp" loc = some (.int false 2 sp.toNat)) (hA : M (next + 0) = s16s A) (m1 : next + 0 ≠ nx)
    (hk : ∀ S', Refines False (k S') (exec X rest ⟨loc, M.set nx (u16s S'), nx'⟩) Q) :
    Refines False (do
        let c ← rd S r
        let x ← rd A (r * n + j)
        let p ← int (i16 (x : Int) * (sp : Int))
        let y ← int ((c : Int) + p)
        wr S r (u16 y) >>= k)
      (exec X (.seq (.expr (.asgOp .add (.idx (.var "sum") (.num true 4 r)) (.bin .mul (.idx (.var "a_row")
        (.bin .add (.bin .mul (.num true 4 r) (.num true 4 n)) (.var "j"))) (.var "sp")))) rest) ⟨loc, M.set nx (u16s S), nx'⟩) Q := by
  have h1 : r * n ≤ 4 * 1344 := Nat.mul_le_mul (by omega) hn
  csim [v1, v2, v3, v4, hA, m1]
  refine Refines.rd16 fun c _ => ?_
  refine Refines.rdS fun x _ => ?_
  csim [wrap4_i16]
  cgo
  exact hk _

/-- `out[(i+r)*PARAMS_NBAR + k] += sum[r]` (/repo/src/frodo_macrify.c:112-115). -/
theorem outText_step {P : Params} {i b nx nx' : Nat} {O S : List U16} {M : Mem} {loc : List (String × Val)} {rest : Stmt} {k : Nat} {f : List U16 → C α}
    {Q : α → St × Flow → Prop} (r : Nat) (hr : r < 4) (hP : P.n ≤ 1344) (hP' : P.nbar ≤ 8) (hi : i + 4 ≤ P.n) (hk : k < P.nbar)
    (v1 : findVar "sum" loc = some (.ptr nx 0 false 2)) (v2 : findVar "out" loc = some (.ptr b 0 false 2))
    (v3 : findVar "i" loc = some (.int true 4 i)) (v4 : findVar "k" loc = some (.int true 4 k)) (hS : M nx = u16s S) (m1 : nx ≠ b)
    (hf : ∀ O', Refines False (f O') (exec X rest ⟨loc, M.set b (u16s O'), nx'⟩) Q) :
    Refines False (do
        let x ← rd O ((i + r) * P.nbar + k)
        let c ← rd S r
        let y ← int ((x : Int) + (c : Int))
        wr O ((i + r) * P.nbar + k) (u16 y) >>= f)
      (exec X (.seq (.expr (.asgOp .add (.idx (.var "out") (.bin .add (.bin .mul (.bin .add (.var "i") (.num true 4 r)) (.num true 4 P.nbar)) (.var "k")))
        (.idx (.var "sum") (.num true 4 r)))) rest) ⟨loc, M.set b (u16s O), nx'⟩) Q := by
  have h1 : P.n * P.nbar ≤ 1344 * 8 := Nat.mul_le_mul hP hP'
  have h2 := cell_lt (show i + r < P.n by omega) hk
  csim [v1, v2, v3, v4, hS, m1]
  cgo
  exact hf _

/-- /repo/src/frodo_macrify.c:107-110, text. -/
def accTail (P : Params) : Stmt :=
  (.seq (.expr (.asgOp .add (.idx (.var "sum") (.num true 4 0)) (.bin .mul (.idx (.var "a_row")
      (.bin .add (.bin .mul (.num true 4 0) (.num true 4 P.n)) (.var "j"))) (.var "sp"))))
  (.seq (.expr (.asgOp .add (.idx (.var "sum") (.num true 4 1)) (.bin .mul (.idx (.var "a_row")
      (.bin .add (.bin .mul (.num true 4 1) (.num true 4 P.n)) (.var "j"))) (.var "sp"))))
  (.seq (.expr (.asgOp .add (.idx (.var "sum") (.num true 4 2)) (.bin .mul (.idx (.var "a_row")
      (.bin .add (.bin .mul (.num true 4 2) (.num true 4 P.n)) (.var "j"))) (.var "sp"))))
  (.seq (.expr (.asgOp .add (.idx (.var "sum") (.num true 4 3)) (.bin .mul (.idx (.var "a_row")
      (.bin .add (.bin .mul (.num true 4 3) (.num true 4 P.n)) (.var "j"))) (.var "sp"))))
  .skip))))

/-- /repo/src/frodo_macrify.c:107-110, model. -/
def accWords (P : Params) (A : List U16) (j : Nat) (sp : U16) (sum : List U16) : C (List U16) := do
  let c ← rd sum 0
  let x ← rd A (0 * P.n + j)
  let p ← int (i16 (x : Int) * (sp : Int))
  let r ← int ((c : Int) + p)
  let sum ← wr sum 0 (u16 r)
  let c ← rd sum 1
  let x ← rd A (1 * P.n + j)
  let p ← int (i16 (x : Int) * (sp : Int))
  let r ← int ((c : Int) + p)
  let sum ← wr sum 1 (u16 r)
  let c ← rd sum 2
  let x ← rd A (2 * P.n + j)
  let p ← int (i16 (x : Int) * (sp : Int))
  let r ← int ((c : Int) + p)
  let sum ← wr sum 2 (u16 r)
  let c ← rd sum 3
  let x ← rd A (3 * P.n + j)
  let p ← int (i16 (x : Int) * (sp : Int))
  let r ← int ((c : Int) + p)
  wr sum 3 (u16 r)

/-- /repo/src/frodo_macrify.c:112-115, text. -/
def outTail (P : Params) : Stmt :=
  (.seq (.expr (.asgOp .add (.idx (.var "out") (.bin .add (.bin .mul (.bin .add (.var "i") (.num true 4 0)) (.num true 4 P.nbar)) (.var "k")))
    (.idx (.var "sum") (.num true 4 0))))
  (.seq (.expr (.asgOp .add (.idx (.var "out") (.bin .add (.bin .mul (.bin .add (.var "i") (.num true 4 2)) (.num true 4 P.nbar)) (.var "k")))
    (.idx (.var "sum") (.num true 4 2))))
  (.seq (.expr (.asgOp .add (.idx (.var "out") (.bin .add (.bin .mul (.bin .add (.var "i") (.num true 4 1)) (.num true 4 P.nbar)) (.var "k")))
    (.idx (.var "sum") (.num true 4 1))))
  (.seq (.expr (.asgOp .add (.idx (.var "out") (.bin .add (.bin .mul (.bin .add (.var "i") (.num true 4 3)) (.num true 4 P.nbar)) (.var "k")))
    (.idx (.var "sum") (.num true 4 3))))
  .skip))))

/-- /repo/src/frodo_macrify.c:112-115, model. -/
def outWords (P : Params) (i k : Nat) (sum out : List U16) : C (List U16) := do
  let x ← rd out ((i + 0) * P.nbar + k)
  let c ← rd sum 0
  let r ← int ((x : Int) + (c : Int))
  let out ← wr out ((i + 0) * P.nbar + k) (u16 r)
  let x ← rd out ((i + 2) * P.nbar + k)
  let c ← rd sum 2
  let r ← int ((x : Int) + (c : Int))
  let out ← wr out ((i + 2) * P.nbar + k) (u16 r)
  let x ← rd out ((i + 1) * P.nbar + k)
  let c ← rd sum 1
  let r ← int ((x : Int) + (c : Int))
  let out ← wr out ((i + 1) * P.nbar + k) (u16 r)
  let x ← rd out ((i + 3) * P.nbar + k)
  let c ← rd sum 3
  let r ← int ((x : Int) + (c : Int))
  wr out ((i + 3) * P.nbar + k) (u16 r)

theorem accTail_eq {P : Params} {next j nx nx' : Nat} {A S : List U16} {sp : U16} {M : Mem} {loc : List (String × Val)}
    {Q : List U16 → St × Flow → Prop} (hn : P.n ≤ 1344) (hj : j < P.n) (v1 : findVar "sum" loc = some (.ptr nx 0 false 2))
    (v2 : findVar "a_row" loc = some (.ptr (next + 0) 0 true 2)) (v3 : findVar "j" loc = some (.int true 4 j))
    (v4 : findVar "sp" loc = some (.int false 2 sp.toNat)) (hA : M (next + 0) = s16s A) (m1 : next + 0 ≠ nx)
    (hk : ∀ S', Q S' (⟨loc, M.set nx (u16s S'), nx'⟩, .next)) :
    Refines False (accWords P A j sp S) (exec X (accTail P) ⟨loc, M.set nx (u16s S), nx'⟩) Q := by
  refine Refines.tail ?_
  unfold accWords accTail
  simp only [bind_assoc]
  refine accText_step 0 (by omega) hn hj v1 v2 v3 v4 hA m1 fun S => ?_
  refine accText_step 1 (by omega) hn hj v1 v2 v3 v4 hA m1 fun S => ?_
  refine accText_step 2 (by omega) hn hj v1 v2 v3 v4 hA m1 fun S => ?_
  refine accText_step 3 (by omega) hn hj v1 v2 v3 v4 hA m1 fun S => ?_
  exact .pure (hk S)

theorem outTail_eq {P : Params} {i k b nx nx' : Nat} {O S : List U16} {M : Mem} {loc : List (String × Val)}
    {Q : List U16 → St × Flow → Prop} (hP : P.n ≤ 1344) (hP' : P.nbar ≤ 8) (hi : i + 4 ≤ P.n) (hk : k < P.nbar)
    (v1 : findVar "sum" loc = some (.ptr nx 0 false 2)) (v2 : findVar "out" loc = some (.ptr b 0 false 2))
    (v3 : findVar "i" loc = some (.int true 4 i)) (v4 : findVar "k" loc = some (.int true 4 k)) (hS : M nx = u16s S) (m1 : nx ≠ b)
    (hf : ∀ O', Q O' (⟨loc, M.set b (u16s O'), nx'⟩, .next)) :
    Refines False (outWords P i k S O) (exec X (outTail P) ⟨loc, M.set b (u16s O), nx'⟩) Q := by
  refine Refines.tail ?_
  unfold outWords outTail
  simp only [bind_assoc]
  refine outText_step 0 (by omega) hP hP' hi hk v1 v2 v3 v4 hS m1 fun S => ?_
  refine outText_step 2 (by omega) hP hP' hi hk v1 v2 v3 v4 hS m1 fun S => ?_
  refine outText_step 1 (by omega) hP hP' hi hk v1 v2 v3 v4 hS m1 fun S => ?_
  refine outText_step 3 (by omega) hP hP' hi hk v1 v2 v3 v4 hS m1 fun S => ?_
  exact .pure (hf S)

/-- Four rows times s (/repo/src/frodo_macrify.c:103-116). -/
theorem Run.accAs {P : Params} {next i bo bs ks be ke bi ki : Nat} {v : Int} {A O : List U16} {pre : List Int} {s : List U16} {rest : Stmt}
    {k : List U16 → C α} {Q : α → St × Flow → Prop} (hP : P.Small) (hi : i + 4 ≤ P.n) (hb0 : next + 0 < N) (hb1 : bo < N) (hb2 : bs < N)
    (n1 : next + 0 ≠ bo) (n2 : bs ≠ bo) (hA : F (next + 0) = s16s A) (hO : F bo = u16s O) (hS : F bs = ⟨false, 2, pre ++ ofU16 s⟩)
    (hpre : pre.length = ks)
    (hk : ∀ r, Run X N (asLocS next (.int true 4 i) (.int true 4 P.n) (.int true 4 P.nbar) (mulArgs bo bs ks be ke bi ki))
      (F.set bo (u16s r)) rest (k r) Q) :
    Run X N (asLocS next (.int true 4 i) (later true 4 (i = 0) P.n) (.int true 4 v) (mulArgs bo bs ks be ke bi ki)) F
      (.seq (.for (.expr (.asg (.var "k") (.num true 4 0))) (.bin .lt (.var "k") (.num true 4 P.nbar)) (.inc false true (.var "k"))
        (.block (.seq (.declArr false 2 "sum" (.num true 4 4) (some [.num true 4 0]))
          (.seq (.for (.expr (.asg (.var "j") (.num true 4 0))) (.bin .lt (.var "j") (.num true 4 P.n)) (.inc false true (.var "j"))
            (.block (.seq (.decl (.int false 2) "sp" (some (.idx (.var "s") (.bin .add (.bin .mul (.var "k") (.num true 4 P.n)) (.var "j")))))
              (accTail P)))) (outTail P))))) rest)
      (Frodo.forC 0 P.nbar 1 O (fun k out => do
        let sum ← forC 0 P.n 1 (List.replicate 4 (0 : U16)) fun j sum => do
          let sp ← rd s (k * P.n + j)
          accWords P A j sp sum
        outWords P i k sum out) >>= k) Q := by
  obtain ⟨q1, q2, q3, q4, -⟩ := hP
  subst hpre
  have c1 : P.n * P.n ≤ 1344 * 1344 := Nat.mul_le_mul q1 q1
  have c2 : P.n * P.nbar ≤ 1344 * 8 := Nat.mul_le_mul q1 q3
  have c3 : P.nbar * P.n ≤ 8 * 1344 := Nat.mul_le_mul q3 q1
  refine Run.forMemStep (fun k => asLocS next (.int true 4 i) (later true 4 (i = 0 ∧ k = 0) P.n) (.int true 4 k) (mulArgs bo bs pre.length be ke bi ki))
    (fun k => asLocS next (.int true 4 i) (.int true 4 P.n) (.int true 4 k) (mulArgs bo bs pre.length be ke bi ki))
    (fun r : List U16 => F.set bo (u16s r)) (by omega) (Nat.mod_one _) ?_ ?_ ?_ ?_ ?_ rfl ?_
  · rw [set_self _ hO]
  · intro M nx
    unfold asLocS asLoc mulArgs
    csim
    simp only [and_true]
  · intro k M nx hk
    unfold asLocS asLoc mulArgs
    csim
  · intro k M nx hk
    refine ⟨.int true 4 k, ?_⟩
    unfold asLocS asLoc mulArgs
    csim
    simp [later]
  · intro k r hk' _ M nx hn hM
    have hA' : M (next + 0) = s16s A := by rw [hM _ hb0, set_ne _ _ n1, hA]
    have hO' : M bo = u16s r := by rw [hM _ hb1, set_same]
    have hS' : M bs = ⟨false, 2, pre ++ ofU16 s⟩ := by rw [hM _ hb2, set_ne _ _ n2, hS]
    have m1 : next + 0 ≠ nx := by omega
    have m2 : bo ≠ nx := by omega
    have m3 : bs ≠ nx := by omega
    have m4 : nx ≠ bo := by omega
    have h0 := cell_lt (show i + 0 < P.n by omega) (show k < P.nbar by omega)
    have h1 := cell_lt (show i + 1 < P.n by omega) (show k < P.nbar by omega)
    have h2 := cell_lt (show i + 2 < P.n by omega) (show k < P.nbar by omega)
    have h3 := cell_lt (show i + 3 < P.n by omega) (show k < P.nbar by omega)
    unfold asLocS asLoc mulArgs
    csim [loopF_eq]
    refine (Refines.forC (fun j (x : List U16) => (⟨("sum", .ptr nx 0 false 2) :: asLocS next (.int true 4 i) (.int true 4 j) (.int true 4 k)
      (mulArgs bo bs pre.length be ke bi ki), M.set nx (u16s x), nx + 1⟩ : St)) (fun _ _ => True) (Nat.zero_le _) ?_ trivial ?_ ?_).bind ?_
    · rfl
    · intro j x hj _
      have g := cell_lt (show k < P.nbar by omega) hj
      unfold asLocS asLoc mulArgs
      csim [hS', m3]
      cstep
      cstep
      csim
      refine Refines.tail ((accTail_eq (Q := fun S' x => x = (⟨_, M.set nx (u16s S'), nx + 1⟩, .next)) q1 hj rfl rfl rfl rfl hA' m1 fun S' => rfl).bind ?_)
      rintro S' _ rfl
      csim
      exact .pure ⟨rfl, trivial⟩
    · intro r _
      unfold asLocS asLoc mulArgs
      csim
      exact Refines.branchF (by simp)
    · rintro x _ ⟨rfl, -⟩
      csim
      have e : M.set nx (u16s x) = (M.set nx (u16s x)).set bo (u16s r) := (set_self _ (by rw [set_ne _ _ m2, hO'])).symm
      rw [e]
      refine Refines.tail ((outTail_eq (Q := fun O' x' => x' = (⟨_, (M.set nx (u16s x)).set bo (u16s O'), nx + 1⟩, .next)) q1 q3 hi (by omega)
        rfl rfl rfl rfl (set_same ..) m4 fun O' => rfl).bind ?_)
      rintro O' _ rfl
      csim
      refine .pure ⟨rfl, rfl, Nat.le_succ_of_le hn, fun b hb => ?_⟩
      show ((M.set nx (u16s x)).set bo (u16s O')) b = _
      by_cases h : b = bo
      · rw [h, set_same, set_same]
      · rw [set_ne _ _ h, set_ne _ _ h, set_ne _ _ (by omega), hM b hb, set_ne _ _ h]
  · intro r
    rw [later_false (by omega)]
    exact hk r

end

variable {Fs : List File} {X : Ctx} {d N : Nat} {F : Mem}

attribute [local irreducible] Ev EvL Run DRun Does

theorem text_mul_as_opt {P : Params} {B : Build} {E : Env} (hP : P.Small) (hB : B.arch = .le) (hi : B.impl = .generic)
    (hg : B.gen = .shake) (ha : X.arch = .le) {bk a1 a2 : Nat} {xk : Blk}
    (hS : SpongeAt (link Fs X d) E.junk bk xk) (j1 : JunkAt E X 31 8 "seed_A_separated") {m : Mem} {next bo bs be bi ks ke ki : Nat}
    {O S Z : List U16} {I : List U8} (hm1 : m bo = u16s O) (hm2 : m bs = u16s S) (hm3 : m be = u16s Z) (hm4 : m bi = u8s I)
    (hbk : bk < next) (hmk : m bk = xk) (hbo : bk ≠ bo) (hb1 : bo < next) (hb2 : bs < next) (hb3 : be < next) (hb4 : bi < next) (hn1 : bs ≠ bo)
    (hn2 : be ≠ bo) (hn3 : bi ≠ bo) (hk1 : ks ≤ S.length) (hk2 : ke ≤ Z.length) (hk3 : ki ≤ I.length) (hke : ke % 2 = 0) :
    Refines False (as_plus_e_optimized B E P a1 a2 O (S.drop ks) (Z.drop ke) (I.drop ki))
      (callFun (link Fs X d) (mulAsOptFun.at P) [.ptr bo 0 false 2, .ptr bs ks false 2, .ptr be ke false 2, .ptr bi ki false 1] m next)
      fun r x => x.1 = .int true 4 1 ∧ next ≤ x.2.2 ∧ MAgree next x.2.1 (m.set bo (u16s r)) := by
  have c4 : 1 ≤ 4 * P.n := by have := hP.n1; omega
  have q1 := hP.seedA; have q2 := hP.n; have q3 := hP.nbar; have h8 := hP.n8
  refine run_one (ps := mulArgs bo bs ks be ke bi ki) rfl (by rfl) ?_
  unfold mulAsOptFun mulArgs
  cat
  apply DRun.assoc
  apply DRun.undef
  apply DRun.assoc
  apply DRun.undef
  apply DRun.undef
  refine DRun.arr 0 (by ev) rfl (newArr_zero16 c4) ?_
  simp only [as_plus_e_optimized, as_plus_e_optimized_full, hi, hg, bind_assoc, pure_bind]
  refine DRun.copyE (next := next) (bs := bs) (ks := ks) (be := be) (ke := ke) (bi := bi) (ki := ki) hP (by rw [link_arch, ha]) (by omega) (by omega) hn2
    (by rw [fr_arg hb1, hm1]) (by rw [fr_arg hb3, hm3]) hke hk2 h8 fun O => ?_
  rw [fr_set_arg hb1]
  unfold asLoc mulArgs
  refine DRun.arr 1 (by ev) rfl (newArr_junk8 (by unfold JunkAt at j1 ⊢; rwa [link_junk]) _) ?_
  refine DRun.ptr (v := .ptr (next + 1) 0 false 2) (w := .ptr (next + 1) 0 false 2) (Ev.castTo (Ev.addrVar (by lookv)) (by simp [convert])) (by simp [convert]) ?_
  refine Run.start ?_
  lists
  apply Run.require
  intro _
  refine Run.callEq (EvL.cons (v := .ptr (next + 1) (0 + 2) false 1) (Ev.addr (Ev.varP (by rfl)) (by ev) (by omega) (fr_at rfl) ?_)
    (EvL.cons (by ev) (EvL.cons (by ev) EvL.nil)))
    (Does.memcpyDrop (fr_at rfl) (by rw [fr_arg hb4, set_ne _ _ hn3, hm4]) (by omega) (by omega) (by omega) (by omega) hk3) ?_ ?_
  · rw [length_ofU8, length_uninit]; omega
  · rfl
  intro sep
  upd
  lists
  unfold as_loop
  simp only [bind_assoc]
  refine Run.forMemStep (fun i => asLocS next (.int true 4 i) (later true 4 (i = 0) P.n) (later true 4 (i = 0) P.nbar) (mulArgs bo bs ks be ke bi ki))
    (fun i => asLocS next (.int true 4 i) (.int true 4 P.n) (.int true 4 P.nbar) (mulArgs bo bs ks be ke bi ki))
    (fun s : List U16 × List U8 × List U16 => fr (m.set bo (u16s s.2.2)) next [s16s s.1, u8s s.2.1]) (by omega) (by omega) rfl ?_ ?_ ?_ ?_ rfl ?_
  · intro M nx
    unfold asLocS asLoc mulArgs
    csim
    rfl
  · intro i M nx hi
    unfold asLocS asLoc mulArgs
    csim
  · intro i M nx hi
    refine ⟨.int true 4 (i + 4 : Nat), ?_⟩
    unfold asLocS asLoc mulArgs
    csim
    simp [later]
  · rintro i ⟨A, sep, O⟩ hi' hm
    refine Run.block ?_
    unfold as_gen_shake
    simp only [bind_assoc]
    refine Run.row (sg := true) 0 hB (by rw [link_arch, ha]) hS hbk (by rw [set_ne _ _ hbo, hmk]) hP (by omega) (by omega) rfl rfl rfl rfl ?_
    rintro ⟨A, sep⟩
    refine Run.row (sg := true) 1 hB (by rw [link_arch, ha]) hS hbk (by rw [set_ne _ _ hbo, hmk]) hP (by omega) (by omega) rfl rfl rfl rfl ?_
    rintro ⟨A, sep⟩
    refine Run.row (sg := true) 2 hB (by rw [link_arch, ha]) hS hbk (by rw [set_ne _ _ hbo, hmk]) hP (by omega) (by omega) rfl rfl rfl rfl ?_
    rintro ⟨A, sep⟩
    refine Run.row (sg := true) 3 hB (by rw [link_arch, ha]) hS hbk (by rw [set_ne _ _ hbo, hmk]) hP (by omega) (by omega) rfl rfl rfl rfl ?_
    rintro ⟨A, sep⟩
    unfold as_accumulate
    simp only [hB, bind_assoc, pure_bind]
    refine Run.leRow rfl hP (by omega) (fr_at rfl) fun A => ?_
    rw [show fr (m.set bo (u16s O)) next [words true _, u8s sep] = fr (m.set bo (u16s O)) next [s16s _, u8s sep] from rfl]
    upd
    lists
    refine Run.accAs (pre := ofU16 (S.take ks)) (s := S.drop ks) hP hi' (by omega) (by omega) (by omega) (by omega) hn1 (fr_at rfl)
      (by rw [fr_arg hb1, set_same]) (by rw [fr_arg hb2, set_ne _ _ hn1, ← u16s_split, hm2]) (length_take16 hk1) ?_
    intro r
    rw [fr_set_arg hb1, set_set]
    exact Run.skip fun M nx hn hA => ⟨rfl, rfl, hn, hA⟩
  · rintro ⟨A, sep, r⟩
    refine Run.retOne fun st h1 h2 => ⟨rfl, Nat.le_trans (by omega) h1, fun b hb => ?_⟩
    rw [h2 b (by omega), fr_arg hb]

end Frodo
