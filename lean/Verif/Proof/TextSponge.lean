import Verif.Proof.TextPermRun
import Verif.Proof.TextRef

/-! # /repo/src/sha3/fips202.c:22-41, 344-465: text and model -/

namespace Frodo

open Src

/-! ## Buffers seen as bytes -/

theorem View.bytes {v : View} {L : List U8} (h : L.length % 2 = 0 ∨ v = .u8) : (v.blk L).bytes .le = ofU8 L := by
  cases v with
  | u8 => exact bytes_u8s _ _
  | u16 =>
    have h : L.length % 2 = 0 := h.resolve_right (by simp)
    rw [View.blk, bytes_u16s, words_ofBytes .le (L.length / 2) L (by omega)]
  | s16 =>
    have h : L.length % 2 = 0 := h.resolve_right (by simp)
    rw [View.blk, bytes_s16s, words_ofBytes .le (L.length / 2) L (by omega)]

theorem View.setBytes {v : View} {L l : List U8} (h : l.length % 2 = 0 ∨ v = .u8) : (v.blk L).setBytes .le (ofU8 l) = v.blk l := by
  cases v with
  | u8 => exact setBytes_u8s _ _ _
  | u16 => exact setBytes_u16s _ _ (l.length / 2) _ (by have h := h.resolve_right (by simp); omega)
  | s16 => exact setBytes_s16s _ _ (k := l.length / 2) (by have h := h.resolve_right (by simp); omega)

theorem wrap_u8 (x : U8) : wrap false 1 (x.toNat : Int) = x.toNat :=
  Int.emod_eq_of_lt (Int.natCast_nonneg _) (by have := x.isLt; exact_mod_cast this)

theorem View.size {v : View} {L : List U8} (h : L.length % 2 = 0 ∨ v = .u8) : (v.blk L).data.length * (v.blk L).n = L.length := by
  cases v with
  | u8 => simp [View.blk, length_ofU8]
  | u16 => have h := h.resolve_right (by simp); simp only [View.blk, length_ofU16, length_ofBytes .le (L.length / 2) L (by omega)]; omega
  | s16 => have h := h.resolve_right (by simp); simp only [View.blk, length_ofS16, length_ofBytes .le (L.length / 2) L (by omega)]; omega

theorem View.storeB {v : View} {L : List U8} (h : L.length % 2 = 0 ∨ v = .u8) {k i : Nat} (hk : k ≤ L.length) (x : U8) :
    Src.storeB .le (v.blk L) k 1 (i : Int) (x.toNat : Int) = Frodo.wr (L.drop k) i x >>= fun r => pure (v.blk (L.take k ++ r)) := by
  have key : (v.blk L).n ≠ 1 → Src.storeB .le (v.blk L) k 1 (i : Int) (x.toNat : Int) =
      Frodo.wr (L.drop k) i x >>= fun r => pure (v.blk (L.take k ++ r)) := by
    intro hn
    unfold Src.storeB
    rw [if_neg (by omega), if_neg hn, View.bytes h, length_ofU8]
    simp only [Int.toNat_natCast, Nat.mul_one]
    by_cases hi : i < (L.drop k).length
    · have hi' := hi
      rw [List.length_drop] at hi'
      have e : Frodo.wr (L.drop k) i x = C.emit (.write i) >>= fun _ => pure ((L.drop k).set i x) := by unfold Frodo.wr; rw [if_pos hi]
      rw [e, if_pos (by omega)]
      simp only [bind_assoc, pure_bind]
      congr 1
      funext _
      congr 1
      rw [bytesOf_one, ← ofU8_take, ← ofU8_drop, show [(x.toNat : Int)] = ofU8 [x] from rfl, ← ofU8_append, ← ofU8_append]
      have e2 : L.take (k + i) ++ [x] ++ L.drop (k + i + 1) = L.take k ++ (L.drop k).set i x := by
        rw [List.set_eq_take_append_cons_drop, if_pos hi, List.take_add, List.drop_drop]
        simp [Nat.add_assoc]
      rw [e2]
      refine View.setBytes ?_
      rcases h with h | h
      · left
        rw [List.length_append, List.length_set, List.length_take, List.length_drop]
        omega
      · exact .inr h
    · have hi' := hi
      rw [List.length_drop] at hi'
      have e : Frodo.wr (L.drop k) i x = C.ub .oobWrite := by unfold Frodo.wr; rw [if_neg hi]
      rw [e, if_neg (by omega)]
      rfl
  cases v with
  | u16 => exact key (by simp [View.blk])
  | s16 => exact key (by simp [View.blk])
  | u8 =>
    simp only [View.blk]
    unfold Src.storeB
    rw [if_neg (by omega), if_pos rfl]
    simp only [Int.toNat_natCast]
    have e : ∀ r : List U8, wr (ofU8 r) i (x.toNat : Int) = wr r i x >>= fun r => pure (ofU8 r) := by
      intro r
      unfold Frodo.wr
      rw [length_ofU8]
      split
      · simp only [bind_assoc, pure_bind, ofU8, List.map_set]
      · rfl
    rw [← ofU8_drop, show wrap false 1 (x.toNat : Int) = x.toNat from wrap_u8 x, e]
    simp only [bind_assoc, pure_bind, ← ofU8_take, ← ofU8_append]

theorem shl_u64 (x : U64) {k : Nat} (h : k < 64) : shlOp false 8 (x.toNat : Int) (k : Int) = pure ((x <<< k).toNat : Int) := by
  unfold shlOp
  rw [if_neg (by simp), if_pos (by omega), if_neg (by simp), BitVec.toNat_shiftLeft, Nat.shiftLeft_eq, Int.toNat_natCast,
    Int.natCast_emod, Int.natCast_mul, Int.natCast_pow]
  rfl

theorem shr_u64 (x : U64) {k : Nat} (h : k < 64) : shrOp false 8 (x.toNat : Int) (k : Int) = pure ((x >>> k).toNat : Int) := by
  unfold shrOp
  rw [if_neg (by simp), if_pos (by omega), BitVec.toNat_ushiftRight, Nat.shiftRight_eq_div_pow, Int.toNat_natCast,
    Int.natCast_ediv, Int.natCast_pow]
  rfl

theorem Refines.ptrStep {S : γ → δ → Prop} {m : Mem} {b off k : Nat} {l : List U8} {f : List U8 → C γ} {g : Val → C δ}
    (hm : (m b).data.length * (m b).n = off + l.length)
    (h : k ≤ l.length → Refines False (f (l.drop k)) (g (.ptr b (off + k) false 1)) S) :
    Refines False (ptr l k >>= f) (movePtr m b off false 1 (k : Int) >>= g) S := by
  unfold ptr movePtr
  by_cases hk : k ≤ l.length
  · rw [if_pos hk, if_pos ⟨by omega, by rw [hm]; simp only [Int.toNat_natCast]; omega⟩]
    simp only [bind_assoc, pure_bind, Int.toNat_natCast]
    exact Refines.step fun _ => h hk
  · rw [if_neg hk]
    exact fun a t h => nomatch h

theorem movePtr_ok {m : Mem} {b off k n : Nat} (hm : (m b).data.length * (m b).n = n) (h : off + k ≤ n) :
    Ret (movePtr m b off false 1 (k : Int)) (· = .ptr b (off + k) false 1) := by
  unfold movePtr
  rw [if_pos ⟨by omega, by rw [hm]; simp only [Int.toNat_natCast]; omega⟩]
  exact ⟨_, _, rfl, by simp only [Int.toNat_natCast]⟩

theorem text_load64 (X : Ctx) (m : Mem) (next b k : Nat) (I : List U8) (hI : m b = u8s I) :
    Refines False (load64 (I.drop k)) (fipsFile.run X "load64" [.ptr b k false 1] m next)
      fun r x => x = (.int false 8 r.toNat, m, next) := by
  rw [run_eq fips_load64, load64Fun, load64]
  csim [loopF_eq]
  refine Refines.tail ((Refines.forC (fun i (r : U64) => (⟨[("i", .int false 8 i), ("r", .int false 8 r.toNat),
    ("x", .ptr b k false 1)], m, next⟩ : St)) (fun _ _ => True) (Nat.zero_le _) rfl trivial ?_ ?_).bind ?_)
  · intro i r hi _
    csim [hI]
    cgo
    rw [← ofU8_drop]
    refine Refines.rd8 fun x _ => ?_
    have e : wrap false 8 (wrap false 8 (x.toNat : Int)) = ((x.setWidth 64).toNat : Int) := by
      have := x.isLt
      rw [wrap_size, wrap_size, BitVec.toNat_setWidth, Nat.mod_eq_of_lt] <;> (try rw [wrap_size]) <;> omega
    rw [e, shl_u64 _ (by omega)]
    csim
    exact .pure ⟨rfl, trivial⟩
  · intro r _
    csim
    exact Refines.branchF (by simp)
  · rintro r _ ⟨rfl, -⟩
    csim
    exact .pure rfl

theorem text_store64 (X : Ctx) (ha : X.arch = .le) (m : Mem) (next b k : Nat) (v : View) (L : List U8) (u : U64) (hL : m b = v.blk L)
    (he : L.length % 2 = 0 ∨ v = .u8) (hk : k ≤ L.length) :
    Refines False (store64 (L.drop k) u) (fipsFile.run X "store64" [.ptr b k false 1, .int false 8 u.toNat] m next)
      fun r x => x = (.undef .void, m.set b (v.blk (L.take k ++ r)), next) ∧ r.length = (L.drop k).length ∧ 8 ≤ r.length := by
  rw [run_eq fips_store64, store64Fun, store64]
  csim [loopF_eq]
  refine ((Refines.forC (fun i (r : List U8 × U64) => (⟨[("i", .int false 4 i), ("x", .ptr b k false 1),
    ("u", .int false 8 r.2.toNat)], m.set b (v.blk (L.take k ++ r.1)), next⟩ : St)) (fun i r => r.1.length = (L.drop k).length ∧ i ≤ r.1.length)
    (Nat.zero_le _) ?_ ⟨rfl, Nat.zero_le _⟩ ?_ ?_).bind ?_)
  · rw [List.take_append_drop, set_self _ hL]; rfl
  · rintro i ⟨r, u⟩ hi ⟨hr, -⟩
    csim
    cgo
    have hl : (L.take k ++ r).length = L.length := by
      rw [List.length_append, hr, ← List.length_append, List.take_append_drop]
    have e1 : (L.take k ++ r).take k = L.take k := by
      rw [List.take_append_of_le_length (by rw [List.length_take]; omega), List.take_take, Nat.min_self]
    have e2 : (L.take k ++ r).drop k = r := by
      rw [List.drop_append_of_le_length (by rw [List.length_take]; omega), List.drop_eq_nil_of_le (by rw [List.length_take]; omega),
        List.nil_append]
    have e3 : u8 (u.toNat : Int) = u.setWidth 8 := by
      apply BitVec.eq_of_toNat_eq
      simp [u8]
    have e4 : shrOp false 8 (u.toNat : Int) 8 = pure ((u >>> 8).toNat : Int) := shr_u64 u (k := 8) (by omega)
    rw [ha, e3, View.storeB (by rw [hl]; exact he) (by omega), e1, e2, e4]
    csim
    refine Refines.step' (P := fun a => a.length = (L.drop k).length ∧ i + 1 ≤ a.length) ?_ fun a h => ?_
    · intro a t h
      rw [← hr]
      unfold Frodo.wr at h
      split at h
      · cases h; simp; omega
      · cases h
    · exact .pure ⟨rfl, h⟩
  · rintro ⟨r, u⟩ _
    csim
    exact Refines.branchF (by simp)
  · rintro ⟨r, u⟩ _ ⟨rfl, hr⟩
    csim
    exact .pure ⟨rfl, hr⟩

/-! ## `keccak_absorb` -/

/-- The functions that `keccak_absorb` and `keccak_squeezeblocks` call do what the model says. -/
structure Leaves (X : Ctx) (bk : Nat) : Prop where
  arch : X.arch = .le
  load : ∀ {m next b k} {I : List U8}, m b = u8s I →
    Refines False (load64 (I.drop k)) (X.call "load64" [.ptr b k false 1] m next) fun r x => x = (.int false 8 r.toNat, m, next)
  store : ∀ {m next b k} {v : View} {L : List U8} {u : U64}, m b = v.blk L → L.length % 2 = 0 ∨ v = .u8 → k ≤ L.length →
    Refines False (store64 (L.drop k) u) (X.call "store64" [.ptr b k false 1, .int false 8 u.toNat] m next)
      fun r x => x = (.undef .void, m.set b (v.blk (L.take k ++ r)), next) ∧ r.length = (L.drop k).length ∧ 8 ≤ r.length
  perm : ∀ {m next b} {S : List U64}, m bk = u64s KeccakF_RoundConstants → m b = u64s S → S.length = 25 →
    Refines False (KeccakF1600_StatePermute S) (X.call "KeccakF1600_StatePermute" [.ptr b 0 false 8] m next)
      fun r x => x = (.undef .void, m.set b (u64s r), next) ∧ r.length = 25

variable {X : Ctx} {bk : Nat}

theorem xor_u64 {x y : U64} : bitXor false 8 (x.toNat : Int) (y.toNat : Int) = ((x ^^^ y).toNat : Int) := by
  simp [bitXor, ofBits]

theorem div_uint {a : Nat} (h : a < 2 ^ 32) (k : Nat) (hk : 0 < k) :
    numOp .div false 4 (a : Int) (k : Int) = pure (.int false 4 (a / k : Nat)) := by
  have h1 : a / k < 2 ^ 32 := Nat.lt_of_le_of_lt (Nat.div_le_self _ _) h
  have e : (a : Int).tdiv k = ((a / k : Nat) : Int) := rfl
  simp only [numOp, C.require, if_pos (show (k : Int) ≠ 0 by omega), pure_bind, e, arith, Bool.false_eq_true, if_false]
  have w : ∀ q : Nat, q < 2 ^ 32 → wrap false 4 (q : Int) = q := fun q hq => wrap_uint (by omega) (by omega)
  exact congrArg (fun x => pure (Val.int false 4 x)) (w _ h1)

theorem div_size {a : Nat} (h : a < 2 ^ 64) (k : Nat) (hk : 0 < k) :
    numOp .div false 8 (a : Int) (k : Int) = pure (.int false 8 (a / k : Nat)) := by
  have h1 : a / k < 2 ^ 64 := Nat.lt_of_le_of_lt (Nat.div_le_self _ _) h
  have e : (a : Int).tdiv k = ((a / k : Nat) : Int) := rfl
  simp only [numOp, C.require, if_pos (show (k : Int) ≠ 0 by omega), pure_bind, e, arith, Bool.false_eq_true, if_false]
  have w : ∀ q : Nat, q < 2 ^ 64 → wrap false 8 (q : Int) = q := fun q hq => wrap_size (by omega) (by omega)
  exact congrArg (fun x => pure (Val.int false 8 x)) (w _ h1)

theorem Refines.rd64 {tr : Prop} {S : γ → δ → Prop} {l : List U64} {i : Nat} {f : U64 → C γ} {g : Int → C δ}
    (k : ∀ x : U64, i < l.length → Refines tr (f x) (g (x.toNat : Int)) S) :
    Refines tr (Frodo.rd l i >>= f) (Frodo.rd (l.map fun x => (x.toNat : Int)) i >>= g) S :=
  Refines.rd.bind fun x _ h => h.1 ▸ k x h.2

theorem Refines.wr64 {tr : Prop} {S : γ → δ → Prop} {l : List U64} {i : Nat} {v : U64} {w : Int} {f : List U64 → C γ}
    {g : List Int → C δ} (hw : w = v.toNat)
    (k : ∀ l' : List U64, i < l.length → l'.length = l.length → Refines tr (f l') (g (l'.map fun x => (x.toNat : Int))) S) :
    Refines tr (Frodo.wr l i v >>= f) (Frodo.wr (l.map fun x => (x.toNat : Int)) i w >>= g) S :=
  (Refines.wr (f := fun x : U64 => (x.toNat : Int)) hw).bind fun x _ h => by
    obtain ⟨rfl, h1, h2⟩ := h
    exact k x h2 h1

/-- The two loops over the words of a block (/repo/src/sha3/fips202.c:351-352, 365-366). -/
theorem xor_loop (hX : Leaves X bk) {m : Mem} {next bs bi bt ki bx kx r mlen p : Nat} {x : String} {I : List U8} {S : List U64}
    (hr : r = 168 ∨ r = 136) (hs : m bs = u64s S) (hx : (x = "m" ∧ bx = bi ∧ kx = ki) ∨ (x = "t" ∧ bx = bt ∧ kx = 0))
    (hI : m bx = u8s I) (hk : kx ≤ I.length) (ne : bx ≠ bs) :
    Refines False (xorBlock S r (I.drop kx)) (loopF X (.bin .lt (.var "i") (.bin .div (.var "r") (.num true 4 8)))
      (.inc true true (.var "i")) (.expr (.asgOp .xor (.idx (.var "s") (.var "i"))
        (.call "load64" [.bin .add (.var x) (.bin .mul (.num true 4 8) (.var "i"))])))
      ⟨[("t", .ptr bt 0 false 1), ("i", .int false 8 0), ("s", .ptr bs 0 false 8), ("r", .int false 4 r), ("m", .ptr bi ki false 1),
        ("mlen", .int false 8 mlen), ("p", .int false 1 p)], m, next⟩)
      fun S' q => q = (⟨[("t", .ptr bt 0 false 1), ("i", .int false 8 (r / 8 : Nat)), ("s", .ptr bs 0 false 8), ("r", .int false 4 r),
        ("m", .ptr bi ki false 1), ("mlen", .int false 8 mlen), ("p", .int false 1 p)], m.set bs (u64s S'), next⟩, .next) ∧
        S'.length = S.length := by
  have d8 : numOp .div false 4 (r : Int) 8 = pure (.int false 4 (r / 8 : Nat)) := div_uint (show r < 2 ^ 32 by omega) 8 (by omega)
  rw [xorBlock]
  csim [loopF_eq]
  refine ((Refines.forC (fun i (S : List U64) => (⟨[("t", .ptr bt 0 false 1), ("i", .int false 8 i), ("s", .ptr bs 0 false 8),
    ("r", .int false 4 r), ("m", .ptr bi ki false 1), ("mlen", .int false 8 mlen), ("p", .int false 1 p)], m.set bs (u64s S), next⟩ : St))
    (fun _ S' => S'.length = S.length) (Nat.zero_le _) ?_ rfl ?_ ?_))
  · rw [set_self _ hs]; rfl
  · intro i S' hi hl
    rcases hx with ⟨rfl, rfl, rfl⟩ | ⟨rfl, rfl, rfl⟩
    all_goals
      csim [d8]
      cstep
      refine Refines.rd64 fun x hi2 => ?_
      refine Refines.ptrStep (by rw [set_ne _ _ ne, hI]; simp [length_ofU8]; try omega) fun h8 => ?_
      first | rw [List.drop_drop] | rw [Nat.zero_add]
      refine (hX.load (by rw [set_ne _ _ ne, hI])).bind ?_
      rintro v _ rfl
      csim [xor_u64]
      refine Refines.tail ?_
      refine Refines.wr64 rfl fun l' _ hl' => ?_
      exact .pure ⟨rfl, by omega⟩
  · intro S' _
    csim [d8]
    exact Refines.branchF (by simp)

theorem swap_set {m : Mem} {b c : Nat} {x y : Blk} (h : b ≠ c) : (m.set b x).set c y = (m.set c y).set b x := by
  funext d
  by_cases h1 : d = b
  · subst h1; simp [Mem.set, h]
  · by_cases h2 : d = c
    · subst h2; simp [Mem.set, h1]
    · simp [Mem.set, h1, h2]

theorem or_128 {y : U8} : (((u8 (bitOr true 4 (y.toNat : Int) 128)).toNat : Nat) : Int) = ((y ||| 128).toNat : Int) := by
  revert y
  decide +kernel

/-- Stack contents of the arrays of /repo/src/sha3/fips202.c (/repo/src/sha3/fips202.c:347, 404, 442-443). -/
structure SpongeJunk (X : Ctx) (J : Junk) : Prop where
  t200 : (⟨false, 1, newArr X "t" false 1 200 none⟩ : Blk) = u8s (uninit J 1 8 200)
  t168 : (⟨false, 1, newArr X "t" false 1 168 none⟩ : Blk) = u8s (uninit J 2 8 168)
  t136 : (⟨false, 1, newArr X "t" false 1 136 none⟩ : Blk) = u8s (uninit J 2 8 136)
  s25 : (⟨false, 8, newArr X "s" false 8 25 none⟩ : Blk) = u64s (uninit J 3 64 25)

theorem text_absorb {J : Junk} (hX : Leaves X bk) (hJ : SpongeJunk X J) (m : Mem) (next bs bi ki r mlen : Nat) {I : List U8}
    {S : List U64} (hr : r = 168 ∨ r = 136) (hs : m bs = u64s S) (hl : S.length = 25) (hI : m bi = u8s I) (hk : ki ≤ I.length)
    (hm : mlen < 2 ^ 31) (ne : bi ≠ bs) (nk : bk ≠ bs) (ls : bs < next) (li : bi < next) (lk : bk < next)
    (hT : m bk = u64s KeccakF_RoundConstants) :
    Refines False (keccak_absorb J S r (I.drop ki) mlen 0x1F)
      (fipsFile.run X "keccak_absorb" [.ptr bs 0 false 8, .int true 4 r, .ptr bi ki false 1, .int false 8 mlen, .int true 4 31] m next)
      fun S' x => ∃ T, x = (.undef .void, (m.set next T).set bs (u64s S'), next + 1) ∧ S'.length = 25 := by
  rw [run_eq fips_absorb, absorbFun, keccak_absorb]
  csim [loopW_eq]
  refine (Refines.whileC (fun st : AbsorbSt => (⟨[("t", .ptr next 0 false 1), ("i", later false 8 (decide (st.mlen = mlen) = true) (r / 8 : Nat)),
    ("s", .ptr bs 0 false 8), ("r", .int false 4 r), ("m", .ptr bi (I.length - st.m.length) false 1),
        ("mlen", .int false 8 st.mlen), ("p", .int false 1 31)], (m.set next (u8s (uninit J 1 8 200))).set bs (u64s st.s), next + 1⟩ : St))
    (fun _ => false) (fun st => st.s.length = 25 ∧ st.mlen ≤ mlen ∧ st.m = I.drop (I.length - st.m.length))
    (fun st => st.s.length = 25 ∧ st.mlen < r ∧ st.m = I.drop (I.length - st.m.length)) ?_ ?_ ?_ ?_).bind ?_
  · rw [show I.length - (I.drop ki).length = ki by rw [List.length_drop]; omega, swap_set (by omega), set_self m hs, ← hJ.t200]
    simp only [decide_true, later, if_true]
    rfl
  · exact ⟨hl, Nat.le_refl _, by rw [show I.length - (I.drop ki).length = ki by rw [List.length_drop]; omega]⟩
  · rintro ⟨s, m', l⟩ ⟨h1, h2, h3⟩ hc
    simp only [ge_iff_le, decide_eq_true_eq] at hc h1 h2 h3
    csim
    refine Refines.branchT (by simp; omega) ?_
    obtain ⟨kk, hkk⟩ : ∃ kk, kk = I.length - m'.length := ⟨_, rfl⟩
    rw [← hkk] at h3 ⊢
    have hk' : kk ≤ I.length := by omega
    clear hkk
    subst h3
    have hT' : ∀ S', (m.set next (u8s (uninit J 1 8 200))).set bs (u64s S') bk = u64s KeccakF_RoundConstants := fun S' => by
      rw [set_ne _ _ nk, set_ne _ _ (by omega), hT]
    have hI' : ∀ S', (m.set next (u8s (uninit J 1 8 200))).set bs (u64s S') bi = u8s I := fun S' => by
      rw [set_ne _ _ ne, set_ne _ _ (by omega), hI]
    refine (xor_loop hX hr (by simp [Mem.set]) (.inl ⟨rfl, rfl, rfl⟩) (hI' _) hk' ne).bind ?_
    rintro s1 _ ⟨rfl, hs1⟩
    csim
    refine (hX.perm (hT' _) (by simp [Mem.set]) (by omega)).bind ?_
    rintro s2 _ ⟨rfl, hs2⟩
    csim
    refine Refines.ptrStep (by rw [hI']; simp [length_ofU8]; omega) fun h8 => ?_
    rw [List.length_drop] at h8
    csim
    refine .pure ⟨?_, hs2, show l - r ≤ mlen by omega, ?_⟩
    · rw [show I.length - ((I.drop kk).drop r).length = kk + r by rw [List.length_drop, List.length_drop]; omega,
        decide_eq_false (show ¬ l - r = mlen by omega)]
      simp only [later, Bool.false_eq_true, if_false]
      rw [show ((l - r : Nat) : Int) = (l : Int) - r by omega]
    · rw [show I.length - ((I.drop kk).drop r).length = kk + r by rw [List.length_drop, List.length_drop]; omega, List.drop_drop]
  · rintro ⟨s, m', l⟩ ⟨h1, h2, h3⟩ hc
    simp only [ge_iff_le, decide_eq_false_iff_not] at hc h1 h2 h3
    csim
    refine ⟨Refines.branchF (by simp; omega), h1, by omega, h3⟩
  · rintro ⟨s, m', l⟩ _ ⟨rfl, h1, h2, h3⟩
    simp only [] at h1 h2 h3
    csim [loopF_eq]
    obtain ⟨kk, hkk⟩ : ∃ kk, kk = I.length - m'.length := ⟨_, rfl⟩
    rw [← hkk] at h3 ⊢
    have hk' : kk ≤ I.length := by omega
    clear hkk
    subst h3
    refine (Refines.forC (fun i (T : List U8) => (⟨[("t", .ptr next 0 false 1), ("i", .int false 8 i),
      ("s", .ptr bs 0 false 8), ("r", .int false 4 r), ("m", .ptr bi kk false 1), ("mlen", .int false 8 l), ("p", .int false 1 31)],
      (m.set bs (u64s s)).set next (u8s T), next + 1⟩ : St)) (fun _ _ => True) (Nat.zero_le _) ?_ trivial ?_ ?_).bind ?_
    · rw [swap_set (by omega)]; rfl
    · intro i T hi _
      csim [List.take_zero, List.nil_append]
      cstep
      refine Refines.tail (Refines.wr8 rfl fun T' _ _ => ?_)
      exact .pure ⟨rfl, trivial⟩
    · intro T _
      csim
      exact Refines.branchF (by simp)
    · rintro T _ ⟨rfl, -⟩
      csim [loopF_eq]
      refine (Refines.forC (fun i (T : List U8) => (⟨[("t", .ptr next 0 false 1), ("i", .int false 8 i),
        ("s", .ptr bs 0 false 8), ("r", .int false 4 r), ("m", .ptr bi kk false 1), ("mlen", .int false 8 l), ("p", .int false 1 31)],
        (m.set bs (u64s s)).set next (u8s T), next + 1⟩ : St)) (fun _ _ => True) (Nat.zero_le _) rfl trivial ?_ ?_).bind ?_
      · intro i T hi _
        csim [List.take_zero, List.nil_append, hI, ← ofU8_drop]
        cgo
        refine Refines.tail (Refines.wr8 rfl fun T' _ _ => ?_)
        exact .pure ⟨rfl, trivial⟩
      · intro T _
        csim
        exact Refines.branchF (by simp)
      · rintro T _ ⟨rfl, -⟩
        csim [List.take_zero, List.nil_append]
        refine Refines.wr8 rfl fun T' _ _ => ?_
        rw [show ((r : Int) - 1) = ((r - 1 : Nat) : Int) by omega]
        csim [List.take_zero, List.nil_append]
        refine Refines.rd8 fun y _ => ?_
        csim [List.take_zero, List.nil_append]
        refine Refines.wr8 or_128 fun T'' _ _ => ?_
        refine Refines.tail ((xor_loop hX (kx := 0) hr (by rw [set_ne _ _ (by omega)]; simp [Mem.set]) (.inr ⟨rfl, rfl, rfl⟩) (set_same ..)
          (Nat.zero_le _) (by omega)).bind ?_)
        rintro s1 _ ⟨rfl, hs1⟩
        csim
        refine .pure ⟨u8s T'', ?_, by omega⟩
        rw [swap_set (b := next) (by omega), set_set, swap_set (b := bs) (by omega)]

/-! ## `keccak_squeezeblocks` -/

theorem text_squeeze (hX : Leaves X bk) (m : Mem) (next bs bo ko r nb : Nat) (s : Bool) (n : Nat) {v : View} {L : List U8} {S : List U64}
    (hr : r = 168 ∨ r = 136) (hs : m bs = u64s S) (hl : S.length = 25) (hL : m bo = v.blk L) (he : L.length % 2 = 0 ∨ v = .u8)
    (hk : ko ≤ L.length) (hn : nb * r < 2 ^ 31) (ne : bo ≠ bs) (nk : bk ≠ bs) (nk' : bk ≠ bo)
    (hT : m bk = u64s KeccakF_RoundConstants) :
    Refines False (keccak_squeezeblocks (L.drop ko) nb S r)
      (fipsFile.run X "keccak_squeezeblocks" [.ptr bo ko false 1, .int s n nb, .ptr bs 0 false 8, .int true 4 r] m next)
      fun q x => x = (.undef .void, (m.set bs (u64s q.2)).set bo (v.blk (L.take ko ++ q.1)), next) ∧ q.2.length = 25 ∧
        q.1.length = (L.drop ko).length ∧ nb * r ≤ q.1.length := by
  have hnb : nb < 2 ^ 31 := by rcases hr with rfl | rfl <;> omega
  have s8 : shrOp false 4 (r : Int) 3 = pure ((r >>> 3 : Nat) : Int) := by rcases hr with rfl | rfl <;> rfl
  have r8 : r >>> 3 = r / 8 := by rcases hr with rfl | rfl <;> rfl
  rw [run_eq fips_squeeze, squeezeFun, keccak_squeezeblocks]
  csim [loopW_eq]
  refine (Refines.whileC (fun st : SqueezeSt => (⟨[("i", later false 4 (decide (st.nblocks = nb) = true) (r / 8 : Nat)),
    ("h", .ptr bo (ko + st.off) false 1), ("nblocks", .int false 8 st.nblocks), ("s", .ptr bs 0 false 8), ("r", .int false 4 r)],
    (m.set bs (u64s st.s)).set bo (v.blk (L.take ko ++ st.h)), next⟩ : St))
    (fun _ => false) (fun st => st.s.length = 25 ∧ st.nblocks ≤ nb ∧ st.h.length = (L.drop ko).length ∧ st.off + st.nblocks * r = nb * r ∧ st.off ≤ st.h.length)
    (fun st => st.s.length = 25 ∧ st.h.length = (L.drop ko).length ∧ nb * r ≤ st.h.length) ?_ ?_ ?_ ?_).bind ?_
  · rw [List.take_append_drop, set_self _ hs, set_self _ hL]
    simp only [decide_true, later, if_true]
    rfl
  · exact ⟨hl, Nat.le_refl _, rfl, by simp, Nat.zero_le _⟩
  · rintro ⟨h, off, n, s⟩ ⟨h1, h2, h3, h4, h5⟩ hc
    simp only [gt_iff_lt, decide_eq_true_eq] at hc h1 h2 h3 h4 h5
    csim
    refine Refines.branchT (by simp; omega) ?_
    refine (hX.perm (by rw [set_ne _ _ nk', set_ne _ _ nk, hT]) (by rw [set_ne _ _ (Ne.symm ne), set_same]) h1).bind ?_
    rintro s2 _ ⟨rfl, hs2⟩
    rw [swap_set ne, set_set]
    csim [loopF_eq]
    refine (Refines.forC (fun i (h : List U8) => (⟨[("i", .int false 4 i),
      ("h", .ptr bo (ko + off) false 1), ("nblocks", .int false 8 n), ("s", .ptr bs 0 false 8), ("r", .int false 4 r)],
      (m.set bs (u64s s2)).set bo (v.blk (L.take ko ++ h)), next⟩ : St))
      (fun i h => h.length = (L.drop ko).length ∧ off + 8 * i ≤ h.length) (Nat.zero_le _) rfl ⟨h3, h5⟩ ?_ ?_).bind ?_
    · rintro i h hi ⟨hh, ho⟩
      rw [List.length_drop] at hh
      have hlen : (L.take ko ++ h).length = L.length := by rw [List.length_append, List.length_take]; omega
      have hsz : ∀ mm : Mem, ((mm.set bo (v.blk (L.take ko ++ h))) bo).data.length *
          ((mm.set bo (v.blk (L.take ko ++ h))) bo).n = L.length := fun mm => by
        rw [set_same, View.size (by rw [hlen]; exact he), hlen]
      csim [s8]
      cstep
      refine Refines.leftOk fun x tx ex => ?_
      refine Refines.right (movePtr_ok (hsz _) (by omega)) ?_
      refine Refines.right (b := (x.toNat : Int)) ?_ ?_
      · obtain ⟨y, t', e, h, -⟩ := Refines.rd (tr := False) (f := fun x : U64 => (x.toNat : Int)) x tx ex
        exact ⟨y, t', e, h.1⟩
      rw [atPtr, if_pos (by omega)]
      refine Refines.leftOk fun _ _ _ => ?_
      have key := hX.store (m := (m.set bs (u64s s2)).set bo (v.blk (L.take ko ++ h))) (next := next) (b := bo) (k := ko + (off + 8 * i))
        (L := L.take ko ++ h) (u := x) (set_same ..) (by rw [hlen]; exact he) (by omega)
      rw [List.drop_append, List.drop_of_length_le (l := L.take ko) (by rw [List.length_take]; omega), List.nil_append,
        show ko + (off + 8 * i) - (L.take ko).length = off + 8 * i by rw [List.length_take]; omega] at key
      rw [Nat.add_assoc]
      refine key.bind ?_
      rintro q _ ⟨rfl, hq, h8⟩
      rw [List.length_drop] at hq
      csim
      refine .pure ⟨?_, ?_, ?_⟩
      · rw [List.take_append, List.take_of_length_le (l := L.take ko) (by rw [List.length_take]; omega), 
          show ko + (off + 8 * i) - (L.take ko).length = off + 8 * i by rw [List.length_take]; omega, List.append_assoc]
      · rw [List.length_append, List.length_take, List.length_drop]; omega
      · rw [List.length_append, List.length_take]; omega
    · intro h hh
      csim [s8]
      exact Refines.branchF (by simp)
    · rintro h' _ ⟨rfl, hh, ho⟩
      have hr8 : 8 * (r >>> 3) = r := by rcases hr with rfl | rfl <;> rfl
      rw [hr8] at ho
      have hh' := hh
      rw [List.length_drop] at hh
      have hlen : (L.take ko ++ h').length = L.length := by rw [List.length_append, List.length_take]; omega
      csim
      refine Refines.right (movePtr_ok (by rw [set_same, View.size (by rw [hlen]; exact he), hlen]) (by omega)) ?_
      csim
      refine .pure ⟨?_, hs2, show n - 1 ≤ nb by omega, hh', ?_, ho⟩
      · rw [decide_eq_false (show ¬ n - 1 = nb by omega)]
        simp only [later, Bool.false_eq_true, if_false]
        rw [show ((n - 1 : Nat) : Int) = (n : Int) - 1 by omega, ← r8, Nat.add_assoc]
      · show off + r + (n - 1) * r = nb * r
        rw [← h4, Nat.sub_mul, Nat.one_mul]
        have : 1 * r ≤ n * r := Nat.mul_le_mul_right _ hc
        omega
  · rintro ⟨h, off, n, s⟩ ⟨h1, h2, h3, h4, h5⟩ hc
    simp only [gt_iff_lt, decide_eq_false_iff_not] at hc h1 h2 h3 h4 h5
    csim
    have hn0 : n = 0 := by omega
    subst hn0
    refine ⟨Refines.branchF (by simp), h1, h3, show nb * r ≤ h.length by omega⟩
  · rintro ⟨h, off, n, s⟩ _ ⟨rfl, h1, h3, h4⟩
    csim
    exact .pure ⟨rfl, h1, h3, h4⟩

/-! ## `shake128` and `shake256` -/

/-- What the calls of `keccak_absorb` and of `keccak_squeezeblocks` do. -/
structure Blocks (X : Ctx) (bk : Nat) (J : Junk) : Prop where
  arch : X.arch = .le
  junk : SpongeJunk X J
  absorb : ∀ {m next bs bi ki r mlen} {I : List U8} {S : List U64}, r = 168 ∨ r = 136 → m bs = u64s S → S.length = 25 → m bi = u8s I →
    ki ≤ I.length → mlen < 2 ^ 31 → bi ≠ bs → bk ≠ bs → bs < next → bi < next → bk < next → m bk = u64s KeccakF_RoundConstants →
    Refines False (keccak_absorb J S r (I.drop ki) mlen 0x1F)
      (X.call "keccak_absorb" [.ptr bs 0 false 8, .int true 4 r, .ptr bi ki false 1, .int false 8 mlen, .int true 4 31] m next)
      fun S' x => ∃ T, x = (.undef .void, (m.set next T).set bs (u64s S'), next + 1) ∧ S'.length = 25
  squeeze : ∀ {m next bs bo ko r nb s n} {v : View} {L : List U8} {S : List U64}, r = 168 ∨ r = 136 → m bs = u64s S → S.length = 25 →
    m bo = v.blk L → L.length % 2 = 0 ∨ v = .u8 → ko ≤ L.length → nb * r < 2 ^ 31 → bo ≠ bs → bk ≠ bs → bk ≠ bo →
    m bk = u64s KeccakF_RoundConstants →
    Refines False (keccak_squeezeblocks (L.drop ko) nb S r)
      (X.call "keccak_squeezeblocks" [.ptr bo ko false 1, .int s n nb, .ptr bs 0 false 8, .int true 4 r] m next)
      fun q x => x = (.undef .void, (m.set bs (u64s q.2)).set bo (v.blk (L.take ko ++ q.1)), next) ∧ q.2.length = 25 ∧
        q.1.length = (L.drop ko).length ∧ nb * r ≤ q.1.length

theorem wr_shift {v : View} {A o : List U8} {off i k : Nat} {x : U8} (hA : A.length = k) :
    Refines False (Frodo.wr o (off + i) x)
      (Frodo.wr ((A ++ o).drop (k + off)) i x >>= fun r => pure (v.blk ((A ++ o).take (k + off) ++ r)))
      fun o' b => b = v.blk (A ++ o') ∧ o'.length = o.length := by
  subst hA
  intro o' t h
  unfold Frodo.wr at h
  split at h
  · rename_i hi
    cases h
    rw [List.drop_append, List.drop_of_length_le (by omega), List.nil_append, Nat.add_sub_cancel_left, List.take_append,
      List.take_of_length_le (by omega), Nat.add_sub_cancel_left]
    refine ⟨_, [.write i], ?_, ⟨rfl, by simp⟩, fun h => h.elim⟩
    unfold Frodo.wr
    rw [if_pos (by rw [List.length_drop]; omega)]
    have e : o.take off ++ (o.drop off).set i x = o.set (off + i) x := by
      conv_rhs => rw [← List.take_append_drop off o]
      rw [List.set_append_right _ _ (by rw [List.length_take]; omega), List.length_take, Nat.min_eq_left (by omega), Nat.add_sub_cancel_left]
    rw [← e, ← List.append_assoc]
    rfl
  · cases h

theorem text_shake128 {J : Junk} (hX : Blocks X bk J) (m : Mem) (next bo ko bi ki outlen inlen : Nat) (s n s' n' : _) {v : View}
    {L I : List U8} (hL : m bo = v.blk L) (he : L.length % 2 = 0 ∨ v = .u8) (hI : m bi = u8s I) (lo : bo < next) (li : bi < next)
    (lk : bk < next) (nk : bk ≠ bo) (hko : ko ≤ L.length) (hki : ki ≤ I.length) (ho : outlen < 2 ^ 31)
    (hi : inlen < 2 ^ 31) (hT : m bk = u64s KeccakF_RoundConstants) :
    Refines False (shake128 J (L.drop ko) outlen (I.drop ki) inlen)
      (fipsFile.run X "shake128" [.ptr bo ko false 1, .int s n outlen, .ptr bi ki false 1, .int s' n' inlen] m next)
      fun r x => x.1 = .undef .void ∧ next ≤ x.2.2 ∧ MAgree next x.2.1 (m.set bo (v.blk (L.take ko ++ r))) := by
  have hJ := hX.junk
  have d8 : numOp .div false 8 (outlen : Int) 168 = pure (.int false 8 (outlen / 168 : Nat)) := div_size (by omega) 168 (by omega)
  have hnb : outlen / 168 * 168 ≤ outlen := Nat.div_mul_le_self _ _
  obtain ⟨nb, enb⟩ : ∃ nb, nb = outlen / 168 := ⟨_, rfl⟩
  rw [run_eq fips_shake128, shake128Fun, shake128, show SHAKE128_RATE = 168 from rfl]
  rw [← enb] at d8 hnb ⊢
  csim [d8]
  rw [show (⟨false, 8, newArr X "s" false 8 (Int.toNat 25) (some [Expr.num true 4 0])⟩ : Blk) = u64s (List.replicate 25 0) from rfl,
    show Int.toNat 168 = 168 from rfl, hJ.t168]
  refine (hX.absorb (r := 168) (I := I) (S := List.replicate 25 0) (.inl rfl) (by rw [set_ne _ _ (by omega), set_same]) rfl
    (by rw [set_ne _ _ (by omega), set_ne _ _ (by omega), hI]) hki hi (by omega) (by omega) (by omega) (by omega) (by omega)
    (by rw [set_ne _ _ (by omega), set_ne _ _ (by omega), hT])).bind ?_
  rintro S1 _ ⟨T, rfl, hS1⟩
  csim
  refine (hX.squeeze (r := 168) (v := v) (L := L) (S := S1) (.inl rfl) (set_same ..) hS1
    (by rw [set_ne _ _ (by omega), set_ne _ _ (by omega), set_ne _ _ (by omega), set_ne _ _ (by omega), hL]) he hko (by omega)
    (by omega) (by omega) nk
    (by rw [set_ne _ _ (by omega), set_ne _ _ (by omega), set_ne _ _ (by omega), set_ne _ _ (by omega), hT])).bind ?_
  rintro ⟨o, S2⟩ _ ⟨rfl, hS2, hlo, hob⟩
  simp only [] at hS2 hlo hob
  rw [List.length_drop] at hlo
  have hlen : (L.take ko ++ o).length = L.length := by rw [List.length_append, List.length_take]; omega
  csim
  refine Refines.right (movePtr_ok (by rw [set_same, View.size (by rw [hlen]; exact he), hlen]) (by omega)) ?_
  csim
  obtain ⟨rem, hrem⟩ : ∃ rem, rem = outlen - nb * 168 := ⟨_, rfl⟩
  rw [← hrem, show (outlen : Int) - (nb * 168 : Nat) = (rem : Int) by omega]
  obtain ⟨m0, hm0⟩ : ∃ m0, m0 = ((m.set next (u64s (List.replicate 25 0))).set (next + 1) (u8s (uninit J 2 8 168))).set (next + 1 + 1) T :=
    ⟨_, rfl⟩
  have hA : MAgree next m0 m := fun b hb => by
    rw [hm0, set_ne _ _ (by omega), set_ne _ _ (by omega), set_ne _ _ (by omega)]
  have ht : m0 (next + 1) = u8s (uninit J 2 8 168) := by rw [hm0, set_ne _ _ (by omega), set_same]
  rw [← hm0]
  clear hm0
  refine Refines.tail ((Refines.ifK (S := fun r (x : St × Flow) => x.2 = .next ∧ next ≤ x.1.next ∧
    MAgree next x.1.mem (m.set bo (v.blk (L.take ko ++ r)))) ?_ ?_ ?_).bind ?_)
  · simp [bne, decide_not]
    rfl
  · intro h0
    refine (hX.squeeze (r := 168) (v := .u8) (L := uninit J 2 8 168) (ko := 0) (nb := 1) (S := S2) (.inl rfl)
      (by rw [set_ne _ _ (by omega), set_same]) hS2 (by rw [set_ne _ _ (by omega), set_ne _ _ (by omega), ht]; rfl) (.inr rfl)
      (Nat.zero_le _) (by omega) (by omega) (by omega) (by omega)
      (by rw [set_ne _ _ (by omega), set_ne _ _ (by omega), hA _ lk, hT])).bind ?_
    rintro ⟨T2, S3⟩ _ ⟨rfl, hS3, hT2, -⟩
    simp only [] at hS3 hT2
    rw [swap_set (b := bo) (c := next) (by omega), set_set, swap_set (b := bo) (c := next + 1) (by omega)]
    csim [loopF_eq]
    refine Refines.tail ((Refines.forC (fun i (o : List U8) => (⟨[("i", .int false 8 i), ("nblocks", .int false 8 nb),
      ("t", .ptr (next + 1) 0 false 1), ("s", .ptr next 0 false 8), ("output", .ptr bo (ko + nb * 168) false 1),
      ("outlen", .int false 8 rem), ("input", .ptr bi ki false 1), ("inlen", .int false 8 inlen)],
      ((m0.set next (u64s S3)).set (next + 1) (u8s T2)).set bo (v.blk (L.take ko ++ o)), next + 1 + 1 + 1⟩ : St))
      (fun _ o => o.length = L.length - ko) (Nat.zero_le _) rfl hlo ?_ ?_).bind ?_)
    · intro i o hi ho
      csim
      cstep
      refine Refines.rd8 fun x _ => ?_
      have hl' : (L.take ko ++ o).length = L.length := by rw [List.length_append, List.length_take]; omega
      rw [show u8 ((x.toNat : Nat) : Int) = x by apply BitVec.eq_of_toNat_eq; simp [u8], hX.arch,
        View.storeB (by rw [hl']; exact he) (by omega)]
      refine Refines.tail ((wr_shift (by rw [List.length_take]; omega)).bind ?_)
      rintro o' _ ⟨rfl, ho'⟩
      exact .pure ⟨rfl, by omega⟩
    · intro o _
      csim
      exact Refines.branchF (by simp)
    · rintro o' _ ⟨rfl, ho'⟩
      csim
      refine .pure ⟨rfl, by show next ≤ next + 1 + 1 + 1; omega, ?_⟩
      refine MAgree.set (fun b hb => ?_) _ _
      rw [set_ne _ _ (by omega), set_ne _ _ (by omega), hA b hb]
  · intro h0
    refine .pure ⟨rfl, by show next ≤ next + 1 + 1 + 1; omega, ?_⟩
    refine MAgree.set (fun b hb => ?_) _ _
    rw [set_ne _ _ (by omega), hA b hb]
  · rintro r ⟨st, _⟩ ⟨rfl, h1, h2⟩
    csim
    exact .pure ⟨rfl, h1, h2⟩

theorem text_shake256 {J : Junk} (hX : Blocks X bk J) (m : Mem) (next bo ko bi ki outlen inlen : Nat) (s n s' n' : _) {v : View}
    {L I : List U8} (hL : m bo = v.blk L) (he : L.length % 2 = 0 ∨ v = .u8) (hI : m bi = u8s I) (lo : bo < next) (li : bi < next)
    (lk : bk < next) (nk : bk ≠ bo) (hko : ko ≤ L.length) (hki : ki ≤ I.length) (ho : outlen < 2 ^ 31)
    (hi : inlen < 2 ^ 31) (hT : m bk = u64s KeccakF_RoundConstants) :
    Refines False (shake256 J (L.drop ko) outlen (I.drop ki) inlen)
      (fipsFile.run X "shake256" [.ptr bo ko false 1, .int s n outlen, .ptr bi ki false 1, .int s' n' inlen] m next)
      fun r x => x.1 = .undef .void ∧ next ≤ x.2.2 ∧ MAgree next x.2.1 (m.set bo (v.blk (L.take ko ++ r))) := by
  have hJ := hX.junk
  have d8 : numOp .div false 8 (outlen : Int) 136 = pure (.int false 8 (outlen / 136 : Nat)) := div_size (by omega) 136 (by omega)
  have hnb : outlen / 136 * 136 ≤ outlen := Nat.div_mul_le_self _ _
  obtain ⟨nb, enb⟩ : ∃ nb, nb = outlen / 136 := ⟨_, rfl⟩
  rw [run_eq fips_shake256, shake256Fun, shake256, show SHAKE256_RATE = 136 from rfl]
  rw [← enb] at d8 hnb ⊢
  csim [d8, loopF_eq]
  rw [show Int.toNat 25 = 25 from rfl, hJ.s25, show Int.toNat 136 = 136 from rfl, hJ.t136]
  refine (Refines.forC (fun i (z : List U64) => (⟨[("i", .int false 8 i), ("nblocks", .int false 8 nb), ("t", .ptr (next + 1) 0 false 1),
    ("s", .ptr next 0 false 8), ("output", .ptr bo ko false 1), ("outlen", .int false 8 outlen), ("input", .ptr bi ki false 1),
    ("inlen", .int false 8 inlen)], (m.set next (u64s z)).set (next + 1) (u8s (uninit J 2 8 136)), next + 1 + 1⟩ : St))
    (fun _ z => z.length = 25) (Nat.zero_le _) rfl (by simp [uninit]) ?_ ?_).bind ?_
  · intro i z hi hz
    csim
    cstep
    refine Refines.tail (Refines.wr64 rfl fun z' _ hz' => ?_)
    rw [swap_set (b := next + 1) (by omega), set_set]
    exact .pure ⟨rfl, by omega⟩
  · intro z _
    csim
    exact Refines.branchF (by simp)
  rintro z _ ⟨rfl, hz⟩
  csim
  refine (hX.absorb (r := 136) (I := I) (S := z) (.inr rfl) (by rw [set_ne _ _ (by omega), set_same]) hz
    (by rw [set_ne _ _ (by omega), set_ne _ _ (by omega), hI]) hki hi (by omega) (by omega) (by omega) (by omega) (by omega)
    (by rw [set_ne _ _ (by omega), set_ne _ _ (by omega), hT])).bind ?_
  rintro S1 _ ⟨T, rfl, hS1⟩
  csim
  refine (hX.squeeze (r := 136) (v := v) (L := L) (S := S1) (.inr rfl) (set_same ..) hS1
    (by rw [set_ne _ _ (by omega), set_ne _ _ (by omega), set_ne _ _ (by omega), set_ne _ _ (by omega), hL]) he hko (by omega)
    (by omega) (by omega) nk
    (by rw [set_ne _ _ (by omega), set_ne _ _ (by omega), set_ne _ _ (by omega), set_ne _ _ (by omega), hT])).bind ?_
  rintro ⟨o, S2⟩ _ ⟨rfl, hS2, hlo, hob⟩
  simp only [] at hS2 hlo hob
  rw [List.length_drop] at hlo
  have hlen : (L.take ko ++ o).length = L.length := by rw [List.length_append, List.length_take]; omega
  csim
  refine Refines.right (movePtr_ok (by rw [set_same, View.size (by rw [hlen]; exact he), hlen]) (by omega)) ?_
  csim
  obtain ⟨rem, hrem⟩ : ∃ rem, rem = outlen - nb * 136 := ⟨_, rfl⟩
  rw [← hrem, show (outlen : Int) - (nb * 136 : Nat) = (rem : Int) by omega]
  obtain ⟨m0, hm0⟩ : ∃ m0, m0 = ((m.set next (u64s (z))).set (next + 1) (u8s (uninit J 2 8 136))).set (next + 1 + 1) T :=
    ⟨_, rfl⟩
  have hA : MAgree next m0 m := fun b hb => by
    rw [hm0, set_ne _ _ (by omega), set_ne _ _ (by omega), set_ne _ _ (by omega)]
  have ht : m0 (next + 1) = u8s (uninit J 2 8 136) := by rw [hm0, set_ne _ _ (by omega), set_same]
  rw [← hm0]
  clear hm0
  refine Refines.tail ((Refines.ifK (S := fun r (x : St × Flow) => x.2 = .next ∧ next ≤ x.1.next ∧
    MAgree next x.1.mem (m.set bo (v.blk (L.take ko ++ r)))) ?_ ?_ ?_).bind ?_)
  · simp [bne, decide_not]
    rfl
  · intro h0
    refine (hX.squeeze (r := 136) (v := .u8) (L := uninit J 2 8 136) (ko := 0) (nb := 1) (S := S2) (.inr rfl)
      (by rw [set_ne _ _ (by omega), set_same]) hS2 (by rw [set_ne _ _ (by omega), set_ne _ _ (by omega), ht]; rfl) (.inr rfl)
      (Nat.zero_le _) (by omega) (by omega) (by omega) (by omega)
      (by rw [set_ne _ _ (by omega), set_ne _ _ (by omega), hA _ lk, hT])).bind ?_
    rintro ⟨T2, S3⟩ _ ⟨rfl, hS3, hT2, -⟩
    simp only [] at hS3 hT2
    rw [swap_set (b := bo) (c := next) (by omega), set_set, swap_set (b := bo) (c := next + 1) (by omega)]
    csim [loopF_eq]
    refine Refines.tail ((Refines.forC (fun i (o : List U8) => (⟨[("i", .int false 8 i), ("nblocks", .int false 8 nb),
      ("t", .ptr (next + 1) 0 false 1), ("s", .ptr next 0 false 8), ("output", .ptr bo (ko + nb * 136) false 1),
      ("outlen", .int false 8 rem), ("input", .ptr bi ki false 1), ("inlen", .int false 8 inlen)],
      ((m0.set next (u64s S3)).set (next + 1) (u8s T2)).set bo (v.blk (L.take ko ++ o)), next + 1 + 1 + 1⟩ : St))
      (fun _ o => o.length = L.length - ko) (Nat.zero_le _) rfl hlo ?_ ?_).bind ?_)
    · intro i o hi ho
      csim
      cstep
      refine Refines.rd8 fun x _ => ?_
      have hl' : (L.take ko ++ o).length = L.length := by rw [List.length_append, List.length_take]; omega
      rw [show u8 ((x.toNat : Nat) : Int) = x by apply BitVec.eq_of_toNat_eq; simp [u8], hX.arch,
        View.storeB (by rw [hl']; exact he) (by omega)]
      refine Refines.tail ((wr_shift (by rw [List.length_take]; omega)).bind ?_)
      rintro o' _ ⟨rfl, ho'⟩
      exact .pure ⟨rfl, by omega⟩
    · intro o _
      csim
      exact Refines.branchF (by simp)
    · rintro o' _ ⟨rfl, ho'⟩
      csim
      refine .pure ⟨rfl, by show next ≤ next + 1 + 1 + 1; omega, ?_⟩
      refine MAgree.set (fun b hb => ?_) _ _
      rw [set_ne _ _ (by omega), set_ne _ _ (by omega), hA b hb]
  · intro h0
    refine .pure ⟨rfl, by show next ≤ next + 1 + 1 + 1; omega, ?_⟩
    refine MAgree.set (fun b hb => ?_) _ _
    rw [set_ne _ _ (by omega), hA b hb]
  · rintro r ⟨st, _⟩ ⟨rfl, h1, h2⟩
    csim
    exact .pure ⟨rfl, h1, h2⟩

end Frodo
