import Verif.Proof.TextLink

/-! # /repo/src/frodo_macrify_reference.c:14-127, products with A: text and model -/

namespace Frodo

open Src

/-! ## Arrays of `int16_t` -/

/-- Contents of an array of `int16_t`, given as 16-bit words. -/
def ofS16 (l : List U16) : List Int := l.map fun x => i16 (x.toNat : Int)

/-- An array of `int16_t`. -/
abbrev s16s (l : List U16) : Blk := ⟨true, 2, ofS16 l⟩

@[sem] theorem length_ofS16 {l : List U16} : (ofS16 l).length = l.length := List.length_map ..

theorem i16_toNat (x : U16) : i16 (x.toNat : Int) = x.toInt := by
  rw [i16, BitVec.ofInt_natCast, BitVec.ofNat_toNat, BitVec.setWidth_eq]

theorem wrap_s16 (v : Int) : wrap true 2 v = i16 v := by
  rw [i16, BitVec.toInt_ofInt]
  rfl

theorem wrap_i16 (x : Int) : wrap true 2 (i16 x) = i16 x := by
  rw [wrap_s16]
  simp [i16]

theorem wrap4_i16 (x : Int) : wrap true 4 (i16 x) = i16 x := by
  have h1 := BitVec.toInt_lt (x := BitVec.ofInt 16 x)
  have h2 := BitVec.le_toInt (x := BitVec.ofInt 16 x)
  unfold i16
  generalize (BitVec.ofInt 16 x).toInt = y at h1 h2
  have e : wrap true 4 y = Int.bmod y (2 ^ 32) := rfl
  rw [e, Int.bmod_eq_of_le (by omega) (by omega)]

theorem bytesOf_i16 (a : Arch) (x : U16) : bytesOf a 2 (i16 (x.toNat : Int)) = bytesOf a 2 (x.toNat : Int) := by
  have h := x.isLt
  have e : i16 (x.toNat : Int) = if x.toNat < 2 ^ 15 then (x.toNat : Int) else x.toNat - 65536 := by
    rw [i16_toNat, BitVec.toInt_eq_toNat_cond]
    split <;> split <;> omega
  have r : List.range 2 = [0, 1] := rfl
  have e1 : i16 (x.toNat : Int) / 2 ^ (8 * 0) % 256 = (x.toNat : Int) / 2 ^ (8 * 0) % 256 := by
    rw [e]; split <;> omega
  have e2 : i16 (x.toNat : Int) / 2 ^ (8 * 1) % 256 = (x.toNat : Int) / 2 ^ (8 * 1) % 256 := by
    rw [e]; split <;> omega
  unfold bytesOf
  simp only [r, List.map_cons, List.map_nil, e1, e2]

theorem bytes_s16s (a : Arch) (l : List U16) : (s16s l).bytes a = ofU8 (toBytes a l) := by
  rw [← bytes_u16s]
  simp only [Blk.bytes, ofS16, ofU16, List.flatMap_map, bytesOf_i16]

theorem setBytes_s16s (a : Arch) (d : List Int) {k : Nat} {l : List U8} (h : l.length = 2 * k) :
    Blk.setBytes a ⟨true, 2, d⟩ (ofU8 l) = s16s (ofBytes a l) := by
  have := congrArg Blk.data (setBytes_u16s a d k l h)
  simp only [Blk.setBytes, ofU16] at this ⊢
  have h2 := congrArg (List.map (wrap true 2)) this
  simp only [List.map_map] at h2
  rw [s16s]
  congr 1
  have e1 : ∀ x : Int, wrap true 2 (wrap false 2 x) = wrap true 2 x := by
    intro x
    simp only [wrap, Bool.false_eq_true, if_false, if_true]
    exact Int.emod_bmod x 65536
  have e2 : ∀ x : U16, wrap true 2 (x.toNat : Int) = i16 (x.toNat : Int) := fun x => by rw [wrap_s16]
  have e3 : (wrap true 2 ∘ fun g => wrap false 2 (joinBytes a g)) = fun g => wrap true 2 (joinBytes a g) :=
    funext fun g => e1 (joinBytes a g)
  have e4 : (wrap true 2 ∘ fun x : U16 => (x.toNat : Int)) = fun x => i16 (x.toNat : Int) := by
    funext x
    rw [Function.comp, e2]
  rw [e3, e4] at h2
  exact h2

theorem Refines.rdS {tr : Prop} {S : γ → δ → Prop} {l : List U16} {i : Nat} {f : U16 → C γ} {g : Int → C δ}
    (k : ∀ x : U16, i < l.length → Refines tr (f x) (g (i16 (x.toNat : Int))) S) :
    Refines tr (Frodo.rd l i >>= f) (Frodo.rd (ofS16 l) i >>= g) S :=
  Refines.rd.bind fun x _ h => h.1 ▸ k x h.2

theorem Refines.rdPart {tr : Prop} {S : γ → δ → Prop} {l : List U16} {post : List Int} {i : Nat} {f : U16 → C γ} {g : Int → C δ}
    (k : ∀ x : U16, i < l.length → Refines tr (f x) (g (x.toNat : Int)) S) :
    Refines tr (Frodo.rd l i >>= f) (Frodo.rd (ofU16 l ++ post) i >>= g) S := by
  by_cases h : i < l.length
  · have e : Frodo.rd (ofU16 l ++ post) i = Frodo.rd (ofU16 l) i := by
      unfold Frodo.rd
      rw [List.getElem?_append_left (by rw [length_ofU16]; exact h)]
    rw [e]
    exact Refines.rd16 k
  · intro a t e
    unfold Frodo.rd at e
    rw [List.getElem?_eq_none (by omega)] at e
    cases e

theorem Refines.wrS {tr : Prop} {S : γ → δ → Prop} {l : List U16} {i : Nat} {v : U16} {w : Int} {f : List U16 → C γ}
    {g : List Int → C δ} (hw : w = i16 (v.toNat : Int))
    (k : ∀ l' : List U16, i < l.length → l'.length = l.length → Refines tr (f l') (g (ofS16 l')) S) :
    Refines tr (Frodo.wr l i v >>= f) (Frodo.wr (ofS16 l) i w >>= g) S :=
  (Refines.wr (f := fun x : U16 => i16 (x.toNat : Int)) hw).bind fun x _ h => by
    obtain ⟨rfl, h1, h2⟩ := h
    exact k x h2 h1

/-! ## A buffer seen as bytes -/

/-- The type of the elements of a buffer that is written through a pointer to bytes. -/
inductive View where
  | u8 | u16 | s16

/-- A buffer with given bytes. -/
def View.blk : View → List U8 → Blk
  | .u8, l => u8s l
  | .u16, l => u16s (ofBytes .le l)
  | .s16, l => s16s (ofBytes .le l)

/-- `shake128` and `shake256` do what the model says, whatever the type of the elements of the output buffer, when block `bk` has the
contents `xk`. -/
structure SpongeAt (X : Ctx) (J : Junk) (bk : Nat) (xk : Blk) : Prop where
  s128 : ∀ {N F bo ko bi ki s n s' n'} {v : View} {L I : List U8} {outlen inlen : Nat}, F bo = v.blk L → L.length % 2 = 0 ∨ v = .u8 →
    F bi = u8s I → bo < N → bi < N → bi ≠ bo → bk < N → bk ≠ bo → F bk = xk → ko ≤ L.length → ki ≤ I.length → outlen < 2 ^ 31 →
    inlen < 2 ^ 31 →
    Does X N F "shake128" [.ptr bo ko false 1, .int s n outlen, .ptr bi ki false 1, .int s' n' inlen]
      (shake128 J (L.drop ko) outlen (I.drop ki) inlen) (fun _ => .undef .void) (fun r => F.set bo (v.blk (L.take ko ++ r)))
  s256 : ∀ {N F bo ko bi ki s n s' n'} {v : View} {L I : List U8} {outlen inlen : Nat}, F bo = v.blk L → L.length % 2 = 0 ∨ v = .u8 →
    F bi = u8s I → bo < N → bi < N → bi ≠ bo → bk < N → bk ≠ bo → F bk = xk → ko ≤ L.length → ki ≤ I.length → outlen < 2 ^ 31 →
    inlen < 2 ^ 31 →
    Does X N F "shake256" [.ptr bo ko false 1, .int s n outlen, .ptr bi ki false 1, .int s' n' inlen]
      (shake256 J (L.drop ko) outlen (I.drop ki) inlen) (fun _ => .undef .void) (fun r => F.set bo (v.blk (L.take ko ++ r)))

/-- The same without a condition on any other block. -/
structure Sponge (X : Ctx) (J : Junk) : Prop where
  s128 : ∀ {N F bo ko bi ki s n s' n'} {v : View} {L I : List U8} {outlen inlen : Nat}, F bo = v.blk L → L.length % 2 = 0 ∨ v = .u8 →
    F bi = u8s I → bo < N → bi < N → bi ≠ bo → ko ≤ L.length → ki ≤ I.length → outlen < 2 ^ 31 → inlen < 2 ^ 31 →
    Does X N F "shake128" [.ptr bo ko false 1, .int s n outlen, .ptr bi ki false 1, .int s' n' inlen]
      (shake128 J (L.drop ko) outlen (I.drop ki) inlen) (fun _ => .undef .void) (fun r => F.set bo (v.blk (L.take ko ++ r)))
  s256 : ∀ {N F bo ko bi ki s n s' n'} {v : View} {L I : List U8} {outlen inlen : Nat}, F bo = v.blk L → L.length % 2 = 0 ∨ v = .u8 →
    F bi = u8s I → bo < N → bi < N → bi ≠ bo → ko ≤ L.length → ki ≤ I.length → outlen < 2 ^ 31 → inlen < 2 ^ 31 →
    Does X N F "shake256" [.ptr bo ko false 1, .int s n outlen, .ptr bi ki false 1, .int s' n' inlen]
      (shake256 J (L.drop ko) outlen (I.drop ki) inlen) (fun _ => .undef .void) (fun r => F.set bo (v.blk (L.take ko ++ r)))

theorem Sponge.at {X : Ctx} {J : Junk} (h : Sponge X J) (bk : Nat) (xk : Blk) : SpongeAt X J bk xk :=
  ⟨fun h1 h2 h3 h4 h5 h6 _ _ _ => h.s128 h1 h2 h3 h4 h5 h6, fun h1 h2 h3 h4 h5 h6 _ _ _ => h.s256 h1 h2 h3 h4 h5 h6⟩

section

variable {X : Ctx} {N : Nat} {loc : List (String × Val)} {F : Mem}

theorem toBytes_drop2 (l : List U16) (k : Nat) : (toBytes .le l).drop (k * 2) = toBytes .le (l.drop k) := by
  rw [Nat.mul_comm, toBytes_drop]

theorem words_part (l : List U16) (k : Nat) (r : List U8) :
    ofBytes .le ((toBytes .le l).take (k * 2) ++ r) = l.take k ++ ofBytes .le r := by
  rw [Nat.mul_comm, toBytes_take, ofBytes_append _ (l.take k).length _ _ (by rw [length_toBytes]), ofBytes_toBytes]

/-! ## Rules -/

theorem Ev.padd {a e : Expr} {b off k : Nat} {s s' : Bool} {n n' : Nat} {d : List Int} (ha : Ev X N loc F a (.ptr b off s n))
    (he : Ev X N loc F e (.int s' n' k)) (hb : b < N) (hF : F b = ⟨s, n, d⟩) (hk : off + k ≤ d.length) :
    Ev X N loc F (.bin .add a e) (.ptr b (off + k) s n) := by
  intro M nx hn hA
  obtain ⟨_, t1, e1, rfl⟩ := ha M nx hn hA
  obtain ⟨_, t2, e2, rfl⟩ := he M nx hn hA
  have e3 : movePtr M b off s n (k : Int) = .ok (.ptr b (off + k) s n) [.addr k] := by
    unfold movePtr
    rw [hA b hb, hF, if_pos ⟨by omega, Nat.mul_le_mul_right n (by simpa using hk)⟩]
    rfl
  refine ⟨_, t1 ++ (t2 ++ ([.addr k] ++ [])), ?_, rfl⟩
  have e4 : binOpV M .add (.ptr b off s n) (.int s' n' k) = movePtr M b off s n (k : Int) := rfl
  simp only [eval, e1, C.bind_def, C.bind', e2, e4, e3, C.pure_def]

theorem Ev.addrVar {x : String} {b off : Nat} {s : Bool} {n : Nat} (h : findVar x loc = some (.ptr b off s n)) :
    Ev X N loc F (.addr (.var x)) (.ptr b off s n) := by
  intro M nx _ _
  refine ⟨_, [], ?_, rfl⟩
  simp only [eval, lval, C.bind_def, C.bind', C.pure_def, getVar, h, List.append_nil]
  rfl

/-- `x[0] = (uint16_t) i` where `x` points to an array of bytes. -/
theorem Run.storeWord {x y : String} {b i : Nat} {l : List U8} {rest : Stmt} {k : List U8 → C α} {Q : α → St × Flow → Prop}
    (hx : findVar x loc = some (.ptr b 0 false 2)) (hy : findVar y loc = some (.int true 4 i)) (hb : b < N) (hl : F b = u8s l)
    (ha : X.arch = .le) (hk : ∀ a, a.length = l.length → Run X N loc (F.set b (u8s a)) rest (k a) Q) :
    Run X N loc F (.seq (.expr (.asg (.idx (.var x) (.num true 4 0)) (.cast (.int false 2) (.var y)))) rest)
      (store16 .le l (u16 i) >>= k) Q := by
  intro M nx hn hA
  have hM : M b = u8s l := by rw [hA b hb, hl]
  csim [hx, hy, hM]
  refine Refines.leftOk fun a t e => ?_
  obtain ⟨l1, t1, t2, e1, e2, -⟩ := Frodo.bind_ok e
  unfold Frodo.wr at e1 e2
  split at e1
  case isFalse => cases e1
  rename_i c1
  cases e1
  split at e2
  case isFalse => cases e2
  rename_i c2
  rw [List.length_set] at c2
  cases e2
  have e3 : storeB X.arch (u8s l) 0 2 0 ((u16 i).toNat : Int) = (C.emit (.write 0) >>= fun _ => pure (u8s ((l.set 0
      (nth (bytes16 .le (u16 i)) 0)).set 1 (nth (bytes16 .le (u16 i)) 1)))) := by
    unfold storeB
    rw [if_neg (by omega), if_neg (by simp), bytes_u8s, length_ofU8, if_pos (by simp; omega), ha, bytesOf_two]
    have e4 : (ofU8 l).take ((0 + (0 : Int).toNat) * 2) ++ ofU8 (bytes16 .le (u16 i)) ++ (ofU8 l).drop ((0 + (0 : Int).toNat + 1) * 2) =
        ofU8 ((l.set 0 (nth (bytes16 .le (u16 i)) 0)).set 1 (nth (bytes16 .le (u16 i)) 1)) := by
      match l, c2 with
      | x :: y :: l, _ => rfl
    simp only [e4, setBytes_u8s]
    rfl
  rw [e3]
  simp only [bind_assoc, pure_bind]
  exact Refines.right (b := ()) ⟨_, _, rfl, rfl⟩ (hk _ (by simp) _ nx hn (hA.set b _))

theorem Run.skip {a : α} {Q : α → St × Flow → Prop} (h : ∀ M nx, N ≤ nx → MAgree N M F → Q a (⟨loc, M, nx⟩, .next)) :
    Run X N loc F .skip (pure a) Q := fun M nx hn hA => Refines.pure (h M nx hn hA)

theorem Run.block {s : Stmt} {mo : C α} {Q : α → St × Flow → Prop}
    (h : Run X N loc F s mo fun a x => Q a (leave loc.length x.1, x.2)) : Run X N loc F (.block s) mo Q := by
  intro M nx hn hA
  simp only [exec]
  exact Refines.tail ((h M nx hn hA).bind fun a x hx => .pure hx)

/-- A loop whose state is in memory. -/
theorem Run.forMem {σ : Type} {init body rest : Stmt} {cond step : Expr} {hi : Nat} {mo : Nat → σ → C σ} {k : σ → C α} {s0 : σ}
    {Q : α → St × Flow → Prop} (l : Nat → List (String × Val)) (G : σ → Mem) (hF : F = G s0)
    (hinit : ∀ M nx, exec X init ⟨loc, M, nx⟩ = pure (⟨l 0, M, nx⟩, .next))
    (hcond : ∀ i M nx, i ≤ hi → eval X cond ⟨l i, M, nx⟩ = pure (.int true 4 (truth (decide (i < hi))), ⟨l i, M, nx⟩))
    (hstep : ∀ i M nx, i < hi → ∃ v, eval X step ⟨l i, M, nx⟩ = pure (v, ⟨l (i + 1), M, nx⟩))
    (hbody : ∀ i s, i < hi → Run X N (l i) (G s) body (mo i s) fun s' x => x.2 = .next ∧ x.1.loc = l i ∧ N ≤ x.1.next ∧
      MAgree N x.1.mem (G s'))
    (hl : (l hi).length = loc.length)
    (hk : ∀ s, Run X N (l hi) (G s) rest (k s) Q) :
    Run X N loc F (.seq (.for init cond step body) rest) (Frodo.forC 0 hi 1 s0 mo >>= k) Q := by
  subst hF
  intro M nx hn hA
  csim [loopF_eq, hinit]
  refine (Refines.forRel (fun i s (st : St) => i ≤ hi ∧ st.loc = l i ∧ N ≤ st.next ∧ MAgree N st.mem (G s)) (Nat.zero_le _)
    ⟨Nat.zero_le _, rfl, hn, hA⟩ ?_ ?_).bind ?_
  · rintro i s ⟨lo, M, nx⟩ hi' ⟨-, rfl, hn, hA⟩
    csim [hcond i _ _ (Nat.le_of_lt hi')]
    refine Refines.branchT (by simp [hi']) ?_
    refine Refines.tail ((hbody i s hi' M nx hn hA).bind ?_)
    rintro s' ⟨⟨lo, M', nx'⟩, fl⟩ ⟨rfl, rfl, hn', hA'⟩
    obtain ⟨v, hv⟩ := hstep i M' nx' hi'
    csim [hv]
    exact .pure ⟨_, rfl, hi', rfl, hn', hA'⟩
  · rintro s ⟨lo, M, nx⟩ ⟨-, rfl, -, -⟩
    csim [hcond hi _ _ (Nat.le_refl _)]
    exact Refines.branchF (by simp)
  · rintro s _ ⟨⟨lo, M', nx'⟩, rfl, -, rfl, hn', hA'⟩
    csim
    rw [hl, Nat.sub_self, List.drop_zero]
    exact hk s M' nx' hn' hA'

theorem newArr_zero16 {X : Ctx} {x : String} {len : Nat} (h : 1 ≤ len) :
    newArr X x true 2 len (some [.num true 4 0]) = ofS16 (List.replicate len 0) := by
  obtain ⟨k, rfl⟩ : ∃ k, len = k + 1 := ⟨len - 1, by omega⟩
  have : i16 0 = 0 := by decide
  simp [newArr, initElems, wrap, ofS16, List.replicate_succ, this]

theorem DRun.undef {t : Ty} {x : String} {rest : Stmt} {mo : C α} {Q : α → St × Flow → Prop}
    (hk : DRun X N ((x, .undef t) :: loc) F rest mo Q) : DRun X N loc F (.seq (.decl t x none) rest) mo Q := by
  intro M hA
  simp only [exec, pure_bind]
  exact hk M hA

theorem DRun.assoc {a b c : Stmt} {mo : C α} {Q : α → St × Flow → Prop}
    (hk : DRun X N loc F (.seq a (.seq b c)) mo Q) : DRun X N loc F (.seq (.seq a b) c) mo Q := by
  intro M hA
  have e : exec X (.seq (.seq a b) c) ⟨loc, M, N⟩ = exec X (.seq a (.seq b c)) ⟨loc, M, N⟩ := by
    simp only [exec, bind_assoc]
    congr 1
    funext r
    rcases r with ⟨st, fl⟩
    cases fl <;> simp only [pure_bind]
  rw [e]
  exact hk M hA

/-- The local variables of both functions. -/
def mulLoc (next : Nat) (vi vj vk : Val) (ps : List (String × Val)) : List (String × Val) :=
  ("seed_A_origin", .ptr (next + 1) 0 false 2) :: ("seed_A_separated", .ptr (next + 1) 0 false 1) :: ("A", .ptr (next + 0) 0 true 2) ::
    ("k", vk) :: ("j", vj) :: ("i", vi) :: ps

/-- `A[i] = LE_TO_UINT16(A[i])` for all i. -/
theorem Run.leA {next nn : Nat} {vi vj vk : Val} {ps : List (String × Val)} {A : List U16} {rest : Stmt} {e : Expr}
    {k : List U16 → C α} {Q : α → St × Flow → Prop} {s : Bool} {n : Nat} {v : Int} (hv : vi = .int s n v) (h1 : s = true) (h2 : n = 4)
    (hb : next + 0 < N) (hl : F (next + 0) = s16s A)
    (he : ∀ loc m nx, eval X e ⟨loc, m, nx⟩ = pure (.int true 4 nn, ⟨loc, m, nx⟩)) (hn : nn < 2 ^ 31)
    (hk : ∀ r, Run X N (mulLoc next (.int true 4 nn) vj vk ps) (F.set (next + 0) (s16s r)) rest (k r) Q) :
    Run X N (mulLoc next vi vj vk ps) F
      (.seq (.for (.expr (.asg (.var "i") (.num true 4 0))) (.bin .lt (.var "i") e) (.inc false true (.var "i"))
        (.block (.seq (.expr (.asg (.idx (.var "A") (.var "i")) (.idx (.var "A") (.var "i")))) .skip))) rest)
      (Frodo.forC 0 nn 1 A (fun i A => do
        let x ← Frodo.rd A i
        Frodo.wr A i (LE_TO_UINT16 .le x)) >>= k) Q := by
  subst hv h1 h2
  refine Run.forMem (fun i => mulLoc next (.int true 4 i) vj vk ps) (fun r : List U16 => F.set (next + 0) (s16s r)) ?_ ?_ ?_ ?_ ?_ rfl hk
  · rw [set_self _ hl]
  · intro M nx
    unfold mulLoc
    csim
  · intro i M nx hi
    unfold mulLoc
    csim [he]
  · intro i M nx hi
    refine ⟨.int true 4 i, ?_⟩
    unfold mulLoc
    csim
  · intro i r hi M nx hn hA
    unfold mulLoc
    have hM : M (next + 0) = s16s r := by rw [hA _ hb]; simp [Mem.set]
    csim [hM]
    refine Refines.rdS fun x _ => ?_
    csim
    refine Refines.tail ?_
    refine Refines.wrS (by rw [LE_TO_UINT16]) fun r' _ _ => ?_
    refine .pure ⟨rfl, rfl, hn, ?_⟩
    have h := hA.set (next + 0) (s16s r')
    simp only [set_set] at h
    exact h

/-- The arguments of both functions. -/
def mulArgs (bo bs ks be ke bi ki : Nat) : List (String × Val) :=
  [("out", .ptr bo 0 false 2), ("s", .ptr bs ks false 2), ("e", .ptr be ke false 2), ("seed_A", .ptr bi ki false 1)]

/-- The product A times s. -/
theorem Run.prodAs {P : Params} {next bo bs ks be ke bi ki : Nat} {v : Int} {A O : List U16} {pre : List Int} {s : List U16} {rest : Stmt}
    {k : List U16 → C α} {Q : α → St × Flow → Prop} (hP : P.Small) (hb0 : next + 0 < N) (hb1 : bo < N) (hb2 : bs < N)
    (n1 : next + 0 ≠ bo) (n2 : bs ≠ bo) (hA : F (next + 0) = s16s A) (hO : F bo = u16s O) (hS : F bs = ⟨false, 2, pre ++ ofU16 s⟩)
    (hpre : pre.length = ks)
    (hk : ∀ r, Run X N (mulLoc next (.int true 4 P.n) (.int true 4 P.n) (.int true 4 P.nbar) (mulArgs bo bs ks be ke bi ki))
      (F.set bo (u16s r)) rest (k r) Q) :
    Run X N (mulLoc next (.int true 4 v) (.undef (.int true 4)) (.undef (.int true 4)) (mulArgs bo bs ks be ke bi ki)) F
      (.seq (.for (.expr (.asg (.var "i") (.num true 4 0))) (.bin .lt (.var "i") (.num true 4 P.n)) (.inc false true (.var "i"))
        (.block (.seq (.for (.expr (.asg (.var "k") (.num true 4 0))) (.bin .lt (.var "k") (.num true 4 P.nbar)) (.inc false true (.var "k"))
          (.block (.seq (.decl (.int false 2) "sum" (some (.num true 4 0)))
            (.seq (.for (.expr (.asg (.var "j") (.num true 4 0))) (.bin .lt (.var "j") (.num true 4 P.n)) (.inc false true (.var "j"))
              (.block (.seq (.expr (.asgOp .add (.var "sum") (.bin .mul
                (.idx (.var "A") (.bin .add (.bin .mul (.var "i") (.num true 4 P.n)) (.var "j")))
                (.idx (.var "s") (.bin .add (.bin .mul (.var "k") (.num true 4 P.n)) (.var "j")))))) .skip)))
            (.seq (.expr (.asgOp .add (.idx (.var "out") (.bin .add (.bin .mul (.var "i") (.num true 4 P.nbar)) (.var "k"))) (.var "sum")))
              .skip))))) .skip))) rest)
      (Frodo.forC 0 P.n 1 O (fun i out =>
        forC 0 P.nbar 1 out fun k out => do
          let sum ← forC 0 P.n 1 (0 : U16) fun j sum => do
            let x ← rd A (i * P.n + j)
            let y ← rd s (k * P.n + j)
            let p ← int (i16 (x : Int) * (y : Int))
            let r ← int ((sum : Int) + p)
            pure (u16 r)
          let x ← rd out (i * P.nbar + k)
          let r ← int ((x : Int) + (sum : Int))
          wr out (i * P.nbar + k) (u16 r)) >>= k) Q := by
  obtain ⟨q1, q2, q3, q4, -⟩ := hP
  subst hpre
  intro M nx hn hM
  have hA' : M (next + 0) = s16s A := by rw [hM _ hb0, hA]
  have hO' : M bo = u16s O := by rw [hM _ hb1, hO]
  have hS' : M bs = ⟨false, 2, pre ++ ofU16 s⟩ := by rw [hM _ hb2, hS]
  have c1 : P.n * P.n ≤ 1344 * 1344 := Nat.mul_le_mul q1 q1
  have c2 : P.n * P.nbar ≤ 1344 * 8 := Nat.mul_le_mul q1 q3
  have c3 : P.nbar * P.n ≤ 8 * 1344 := Nat.mul_le_mul q3 q1
  unfold mulLoc mulArgs
  csim [loopF_eq]
  refine (Refines.forC (fun i (r : List U16) => (⟨mulLoc next (.int true 4 i) (later true 4 (i = 0) P.n) (later true 4 (i = 0) P.nbar)
    (mulArgs bo bs pre.length be ke bi ki), M.set bo (u16s r), nx⟩ : St)) (fun _ _ => True) (Nat.zero_le _) ?_ trivial ?_ ?_).bind ?_
  · rw [set_self _ hO']; rfl
  · intro i r hi _
    unfold mulLoc mulArgs
    csim
    cstep
    csim [loopF_eq]
    refine Refines.tail ((Refines.forC (fun k (r : List U16) => (⟨mulLoc next (.int true 4 i) (later true 4 (i = 0 ∧ k = 0) P.n) (.int true 4 k)
      (mulArgs bo bs pre.length be ke bi ki), M.set bo (u16s r), nx⟩ : St)) (fun _ _ => True) (Nat.zero_le _) ?_ trivial ?_ ?_).bind ?_)
    · simp [mulLoc, mulArgs]
    · intro k r hk _
      have h1 := cell_lt hi hk
      unfold mulLoc mulArgs
      csim [loopF_eq]
      cstep
      refine (Refines.forC (fun j (x : U16) => (⟨("sum", .int false 2 x.toNat) :: mulLoc next (.int true 4 i) (.int true 4 j) (.int true 4 k)
        (mulArgs bo bs pre.length be ke bi ki), M.set bo (u16s r), nx⟩ : St)) (fun _ _ => True) (Nat.zero_le _) ?_ trivial ?_ ?_).bind ?_
      · rfl
      · intro j x hj _
        have h2 := cell_lt hi hj
        have h3 := cell_lt hk hj
        unfold mulLoc mulArgs
        csim [hA', hS', n1, n2]
        cstep
        refine Refines.rdS fun a _ => ?_
        csim [wrap4_i16]
        cgo
        exact .pure ⟨rfl, trivial⟩
      · intro r _
        unfold mulLoc mulArgs
        csim
        exact Refines.branchF (by simp)
      · rintro x _ ⟨rfl, -⟩
        unfold mulLoc mulArgs
        csim
        cgo
        refine Refines.tail ?_
        cstep
        exact .pure ⟨by simp [later], trivial⟩
    · intro r _
      unfold mulLoc mulArgs
      csim
      exact Refines.branchF (by simp)
    · rintro r _ ⟨rfl, -⟩
      unfold mulLoc mulArgs
      csim
      rw [later_false (by omega)]
      exact .pure ⟨by simp [later], trivial⟩
  · intro r _
    unfold mulLoc mulArgs
    csim
    exact Refines.branchF (by simp)
  · rintro r _ ⟨rfl, -⟩
    csim
    have := hk r (M.set bo (u16s r)) nx hn (hM.set bo _)
    rw [later_false (by omega), later_false (by omega)]
    unfold mulLoc mulArgs at this ⊢
    csim
    exact this

/-- The product s times A. -/
theorem Run.prodSa {P : Params} {next bo bs ks be ke bi ki : Nat} {v : Int} {A O : List U16} {pre post : List Int} {s : List U16} {rest : Stmt}
    {k : List U16 → C α} {Q : α → St × Flow → Prop} (hP : P.Small) (hb0 : next + 0 < N) (hb1 : bo < N) (hb2 : bs < N)
    (n1 : next + 0 ≠ bo) (n2 : bs ≠ bo) (hA : F (next + 0) = s16s A) (hO : F bo = u16s O) (hS : F bs = ⟨false, 2, pre ++ (ofU16 s ++ post)⟩)
    (hpre : pre.length = ks)
    (hk : ∀ r, Run X N (mulLoc next (.int true 4 P.n) (.int true 4 P.n) (.int true 4 P.nbar) (mulArgs bo bs ks be ke bi ki))
      (F.set bo (u16s r)) rest (k r) Q) :
    Run X N (mulLoc next (.int true 4 v) (.undef (.int true 4)) (.undef (.int true 4)) (mulArgs bo bs ks be ke bi ki)) F
      (.seq (.for (.expr (.asg (.var "i") (.num true 4 0))) (.bin .lt (.var "i") (.num true 4 P.n)) (.inc false true (.var "i"))
        (.block (.seq (.for (.expr (.asg (.var "k") (.num true 4 0))) (.bin .lt (.var "k") (.num true 4 P.nbar)) (.inc false true (.var "k"))
          (.block (.seq (.decl (.int false 2) "sum" (some (.num true 4 0)))
            (.seq (.for (.expr (.asg (.var "j") (.num true 4 0))) (.bin .lt (.var "j") (.num true 4 P.n)) (.inc false true (.var "j"))
              (.block (.seq (.expr (.asgOp .add (.var "sum") (.bin .mul
                (.idx (.var "A") (.bin .add (.bin .mul (.var "j") (.num true 4 P.n)) (.var "i")))
                (.idx (.var "s") (.bin .add (.bin .mul (.var "k") (.num true 4 P.n)) (.var "j")))))) .skip)))
            (.seq (.expr (.asgOp .add (.idx (.var "out") (.bin .add (.bin .mul (.var "k") (.num true 4 P.n)) (.var "i"))) (.var "sum")))
              .skip))))) .skip))) rest)
      (Frodo.forC 0 P.n 1 O (fun i out =>
        forC 0 P.nbar 1 out fun k out => do
          let sum ← forC 0 P.n 1 (0 : U16) fun j sum => do
            let x ← rd A (j * P.n + i)
            let y ← rd s (k * P.n + j)
            let p ← int (i16 (x : Int) * (y : Int))
            let r ← int ((sum : Int) + p)
            pure (u16 r)
          let x ← rd out (k * P.n + i)
          let r ← int ((x : Int) + (sum : Int))
          wr out (k * P.n + i) (u16 r)) >>= k) Q := by
  obtain ⟨q1, q2, q3, q4, -⟩ := hP
  subst hpre
  intro M nx hn hM
  have hA' : M (next + 0) = s16s A := by rw [hM _ hb0, hA]
  have hO' : M bo = u16s O := by rw [hM _ hb1, hO]
  have hS' : M bs = ⟨false, 2, pre ++ (ofU16 s ++ post)⟩ := by rw [hM _ hb2, hS]
  have c1 : P.n * P.n ≤ 1344 * 1344 := Nat.mul_le_mul q1 q1
  have c2 : P.n * P.nbar ≤ 1344 * 8 := Nat.mul_le_mul q1 q3
  have c3 : P.nbar * P.n ≤ 8 * 1344 := Nat.mul_le_mul q3 q1
  unfold mulLoc mulArgs
  csim [loopF_eq]
  refine (Refines.forC (fun i (r : List U16) => (⟨mulLoc next (.int true 4 i) (later true 4 (i = 0) P.n) (later true 4 (i = 0) P.nbar)
    (mulArgs bo bs pre.length be ke bi ki), M.set bo (u16s r), nx⟩ : St)) (fun _ _ => True) (Nat.zero_le _) ?_ trivial ?_ ?_).bind ?_
  · rw [set_self _ hO']; rfl
  · intro i r hi _
    unfold mulLoc mulArgs
    csim
    cstep
    csim [loopF_eq]
    refine Refines.tail ((Refines.forC (fun k (r : List U16) => (⟨mulLoc next (.int true 4 i) (later true 4 (i = 0 ∧ k = 0) P.n) (.int true 4 k)
      (mulArgs bo bs pre.length be ke bi ki), M.set bo (u16s r), nx⟩ : St)) (fun _ _ => True) (Nat.zero_le _) ?_ trivial ?_ ?_).bind ?_)
    · simp [mulLoc, mulArgs]
    · intro k r hk _
      have h1 := cell_lt hk hi
      unfold mulLoc mulArgs
      csim [loopF_eq]
      cstep
      refine (Refines.forC (fun j (x : U16) => (⟨("sum", .int false 2 x.toNat) :: mulLoc next (.int true 4 i) (.int true 4 j) (.int true 4 k)
        (mulArgs bo bs pre.length be ke bi ki), M.set bo (u16s r), nx⟩ : St)) (fun _ _ => True) (Nat.zero_le _) ?_ trivial ?_ ?_).bind ?_
      · rfl
      · intro j x hj _
        have h2 := cell_lt hj hi
        have h3 := cell_lt hk hj
        unfold mulLoc mulArgs
        csim [hA', hS', n1, n2]
        cstep
        refine Refines.rdS fun a _ => ?_
        csim [wrap4_i16]
        refine Refines.rdPart fun b _ => ?_
        csim [wrap4_i16]
        cgo
        exact .pure ⟨rfl, trivial⟩
      · intro r _
        unfold mulLoc mulArgs
        csim
        exact Refines.branchF (by simp)
      · rintro x _ ⟨rfl, -⟩
        unfold mulLoc mulArgs
        csim
        cgo
        refine Refines.tail ?_
        cstep
        exact .pure ⟨by simp [later], trivial⟩
    · intro r _
      unfold mulLoc mulArgs
      csim
      exact Refines.branchF (by simp)
    · rintro r _ ⟨rfl, -⟩
      unfold mulLoc mulArgs
      csim
      rw [later_false (by omega)]
      exact .pure ⟨by simp [later], trivial⟩
  · intro r _
    unfold mulLoc mulArgs
    csim
    exact Refines.branchF (by simp)
  · rintro r _ ⟨rfl, -⟩
    csim
    have := hk r (M.set bo (u16s r)) nx hn (hM.set bo _)
    rw [later_false (by omega), later_false (by omega)]
    unfold mulLoc mulArgs at this ⊢
    csim
    exact this

end

attribute [local irreducible] Ev EvL Run DRun Does

/-- The rows of A from SHAKE128. -/
theorem Run.rows {P : Params} {X : Ctx} {E : Env} {B : Build} {next : Nat} {m : Mem} {ps : List (String × Val)} {A : List U16} {sep : List U8}
    {rest : Stmt} {k : List U16 × List U8 → C α} {Q : α → St × Flow → Prop} (hB : B.arch = .le) (ha : X.arch = .le) {bk : Nat} {xk : Blk}
    (hS : SpongeAt X E.junk bk xk) (hbk : bk < next) (hmk : m bk = xk) (hP : P.Small) (hk : ∀ s : List U16 × List U8, Run X (next + 2) (mulLoc next (.int true 4 P.n) (.undef (.int true 4)) (.undef (.int true 4)) ps)
      (fr m next [s16s s.1, u8s s.2]) rest (k s) Q) :
    Run X (next + 2) (mulLoc next (.undef (.int true 4)) (.undef (.int true 4)) (.undef (.int true 4)) ps) (fr m next [s16s A, u8s sep])
      (.seq (.for (.expr (.asg (.var "i") (.num true 4 0))) (.bin .lt (.var "i") (.num true 4 P.n)) (.inc false true (.var "i"))
        (.block (.seq (.expr (.asg (.idx (.var "seed_A_origin") (.num true 4 0)) (.cast (.int false 2) (.var "i"))))
          (.seq (.expr (.call "shake128" [.cast (.ptr (.int false 1)) (.bin .add (.var "A") (.bin .mul (.var "i") (.num true 4 P.n))),
            .cast (.int false 8) (.bin .mul (.num true 4 2) (.num true 4 P.n)), .var "seed_A_separated",
            .bin .add (.num true 4 2) (.num true 4 P.seedA)])) .skip)))) rest)
      (Frodo.forC 0 P.n 1 (A, sep) (fun i st => shakeRow B E P i i st) >>= k) Q := by
  have q1 := hP.n
  refine Run.forMem (fun i => mulLoc next (.int true 4 i) (.undef (.int true 4)) (.undef (.int true 4)) ps)
    (fun s : List U16 × List U8 => fr m next [s16s s.1, u8s s.2]) rfl ?_ ?_ ?_ ?_ rfl hk
  · intro M nx
    unfold mulLoc
    csim
  · intro i M nx hi
    unfold mulLoc
    csim
  · intro i M nx hi
    refine ⟨.int true 4 i, ?_⟩
    unfold mulLoc
    csim
  · rintro i ⟨A, sep⟩ hi
    unfold mulLoc
    refine Run.block ?_
    unfold shakeRow
    simp only [hB, UINT16_TO_LE]
    refine Run.storeWord (by rfl) (by simp only [findVar, String.reduceEq, ↓reduceIte]) (by omega) (by look) ha ?_
    intro sep' hsep
    upd
    lists
    apply Run.asBytes; intro c1
    have h1 : i * P.n ≤ 1344 * 1344 := Nat.mul_le_mul (by omega) (by omega)
    have q2 := hP.seedA
    refine Run.callEq (EvL.cons (Ev.castTo (w := .ptr (next + 0) ((0 + i * P.n) * 2) false 1)
      (Ev.padd (s := true) (n := 2) (by ev) (by ev) (by omega) (fr_at rfl) ?_) ?_)
      (EvL.cons (Ev.castTo (w := .int false 8 (2 * P.n : Nat)) (v := .int true 4 (2 * P.n : Nat)) (by ev) ?_)
      (EvL.cons (by ev) (EvL.cons (by ev) EvL.nil))))
      (hS.s128 (v := .s16) (L := toBytes .le A) ?_ ?_ (by look) (by omega) (by omega) (by omega) (by omega) (by omega)
        (by rw [fr_arg hbk, hmk]) ?_ (Nat.zero_le _) (by omega) (by omega)) ?_ ?_
    · rw [length_ofS16]; omega
    · csim
    · csim
    · simp only [View.blk, ofBytes_toBytes]; look
    · left; rw [length_toBytes]; omega
    · rw [length_toBytes]; omega
    · rw [toBytes_drop2, List.drop_zero]
      simp
    · intro r
      refine Run.mem_eq (F' := fr m next [s16s (A.take (i * P.n) ++ ofBytes .le r), u8s sep']) ?_ ?_
      · simp only [View.blk, words_part, Nat.zero_add]
        exact fr_set_at (by simp)
      · exact Run.skip fun M nx hn hA => ⟨rfl, by simp [leave], hn, hA⟩

end Frodo
