import Verif.Proof.Ossl
import Verif.Model.Drbg
import Verif.Spec.Drbg
import Verif.Proof.AesNi

/-! # The generator of the known answer tests -/

namespace Frodo
open Spec

/-! ## Big-endian numbers -/

theorem beNat_foldl (l : List U8) (a : Nat) :
    l.foldl (fun a b => 256 * a + b.toNat) a = a * 256 ^ l.length + beNat l := by
  induction l generalizing a with
  | nil => simp [beNat]
  | cons b l ih =>
    unfold beNat
    simp only [List.foldl_cons, List.length_cons]
    rw [ih, ih (256 * 0 + b.toNat), Nat.pow_succ]
    ring

theorem beNat_cons (b : U8) (l : List U8) :
    beNat (b :: l) = b.toNat * 256 ^ l.length + beNat l := by
  conv_lhs => unfold beNat
  rw [List.foldl_cons, beNat_foldl]
  ring

theorem beNat_lt (l : List U8) : beNat l < 256 ^ l.length := by
  induction l with
  | nil => decide
  | cons b l ih =>
    rw [beNat_cons, List.length_cons, Nat.pow_succ]
    have : b.toNat * 256 ^ l.length ≤ 255 * 256 ^ l.length :=
      Nat.mul_le_mul_right _ (by have := b.isLt; omega)
    omega

theorem beNat_set (l : List U8) (j : Nat) (x : U8) (h : j < l.length) :
    beNat (l.set j x) + (nth l j).toNat * 256 ^ (l.length - 1 - j) =
      beNat l + x.toNat * 256 ^ (l.length - 1 - j) := by
  induction l generalizing j with
  | nil => simp at h
  | cons b l ih =>
    cases j with
    | zero =>
      rw [List.set_cons_zero, beNat_cons, beNat_cons, nth_cons_zero, List.length_cons,
        Nat.add_sub_cancel, Nat.sub_zero]
      omega
    | succ j =>
      rw [List.set_cons_succ, beNat_cons, beNat_cons, nth_cons_succ, List.length_set,
        List.length_cons, show l.length + 1 - 1 - (j + 1) = l.length - 1 - j by omega]
      have := ih j (by simpa using h)
      omega

theorem beBytes_succ (n N : Nat) :
    beBytes (n + 1) N = BitVec.ofNat 8 (N / 256 ^ n) :: beBytes n N := by
  unfold beBytes
  rw [List.range_succ_eq_map, List.map_cons, List.map_map]
  congr 1
  refine List.map_congr_left fun i _ => ?_
  simp only [Function.comp]
  congr 3
  omega

theorem beBytes_add (n a r : Nat) : beBytes n (a * 256 ^ n + r) = beBytes n r := by
  unfold beBytes
  refine List.map_congr_left fun i hi => ?_
  have hi : i < n := by simpa using hi
  have e : a * 256 ^ n = 256 ^ (n - 1 - i) * (a * 256 ^ i * 256) := by
    rw [show n = (n - 1 - i) + i + 1 by omega]
    simp only [Nat.pow_succ, Nat.pow_add]
    rw [show n - 1 - i + i + 1 - 1 - i = n - 1 - i by omega]
    ring
  rw [e, Nat.mul_add_div (by positivity)]
  apply BitVec.eq_of_toNat_eq
  rw [BitVec.toNat_ofNat, BitVec.toNat_ofNat]
  omega

theorem beBytes_beNat (l : List U8) : beBytes l.length (beNat l) = l := by
  induction l with
  | nil => rfl
  | cons b l ih =>
    rw [List.length_cons, beBytes_succ, beNat_cons, beBytes_add, ih]
    congr 1
    rw [Nat.mul_comm, Nat.mul_add_div (by positivity), Nat.div_eq_of_lt (beNat_lt l), Nat.add_zero]
    simp

theorem length_beBytes (n N : Nat) : (beBytes n N).length = n := by simp [beBytes]

theorem beNat_beBytes (n N : Nat) : beNat (beBytes n N) = N % 256 ^ n := by
  induction n with
  | zero => simp [beBytes, beNat, Nat.mod_one]
  | succ n ih =>
    rw [beBytes_succ, beNat_cons, ih, length_beBytes, Nat.pow_succ, Nat.mod_mul, BitVec.toNat_ofNat]
    ring

theorem length_addV (V : List U8) (c : Nat) : (addV V c).length = 16 := length_beBytes _ _

theorem addV_zero {V : List U8} (h : V.length = 16) : addV V 0 = V := by
  have h1 := beNat_lt V
  have h2 := beBytes_beNat V
  rw [h] at h1 h2
  unfold addV
  rw [Nat.add_zero, Nat.mod_eq_of_lt (by norm_num at h1 ⊢; exact h1), h2]

theorem addV_addV (V : List U8) (a b : Nat) : addV (addV V a) b = addV V (a + b) := by
  unfold addV
  rw [beNat_beBytes, show (256 : Nat) ^ 16 = 2 ^ 128 by norm_num, Nat.mod_mod, Nat.mod_add_mod,
    Nat.add_assoc]

/-! ## Increment -/

theorem incV_ret {V : List U8} (h : V.length = 16) : Ret (incV V) (· = addV V 1) := by
  unfold incV
  refine Ret.bind (Q := fun s => s.V = addV V 1) (Ret.while (fun s : IncSt => s.V.length = 16 ∧
      (s.brk = true → beNat s.V % 2 ^ 128 = (beNat V + 1) % 2 ^ 128) ∧
      (s.brk = false → -1 ≤ s.j ∧ s.j ≤ 15 ∧
        (beNat s.V + 256 ^ (15 - s.j).toNat) % 2 ^ 128 = (beNat V + 1) % 2 ^ 128))
    (fun s => (if s.brk then 0 else 1) + (s.j + 1).toNat) ?_ ?_ _ ?_) fun s hs => ⟨_, [], rfl, hs⟩
  · rintro ⟨U, j, brk⟩ ⟨hl, -, h2⟩ hc
    simp only [Bool.and_eq_true, Bool.not_eq_true', decide_eq_true_eq, ge_iff_le] at hc hl h2
    obtain ⟨rfl, hj⟩ := hc
    obtain ⟨-, hj', h2⟩ := h2 rfl
    obtain ⟨k, rfl⟩ := Int.eq_ofNat_of_zero_le hj
    have hk : k < 16 := by omega
    have e : (15 - (k : Int)).toNat = 16 - 1 - k := by omega
    rw [e] at h2
    unfold incStep
    simp only [Int.toNat_natCast]
    rw [Ret_rd_bind]
    refine ⟨by omega, ?_⟩
    rw [Ret_ifC]
    split
    · rename_i hv
      have hv : nth U k = 0xff := by simpa using hv
      rw [Ret_wr_bind]
      refine ⟨by omega, _, [], rfl, ⟨by simpa using hl, fun h => (nomatch h), fun _ => ⟨by
        simp only; omega, by simp only; omega, ?_⟩⟩, by simp only; omega⟩
      have hs := beNat_set U k 0x00 (by omega)
      simp only
      rw [hv, hl] at hs
      rw [show (15 - ((k : Int) - 1)).toNat = (16 - 1 - k) + 1 by omega, Nat.pow_succ]
      rw [← h2]
      have h255 : (0xff : U8).toNat = 255 := rfl
      have h00 : (0x00 : U8).toNat = 0 := rfl
      rw [h255, h00] at hs
      congr 1
      omega
    · rename_i hv
      have hv : nth U k ≠ 0xff := by simpa using hv
      rw [Ret_rd_bind]
      refine ⟨by omega, ?_⟩
      rw [Ret_wr_bind]
      refine ⟨by omega, _, [], rfl, ⟨by simpa using hl, fun _ => ?_, fun h => (nomatch h)⟩, by
        simp only [if_true, Bool.false_eq_true, if_false, Nat.zero_add]; omega⟩
      have hs := beNat_set U k (nth U k + 1) (by omega)
      show beNat (U.set k (nth U k + 1)) % _ = _
      have hv' : (nth U k + 1).toNat = (nth U k).toNat + 1 := by
        have h1 := (nth U k).isLt
        have h2 : (nth U k).toNat ≠ 255 := fun h => hv (BitVec.eq_of_toNat_eq h)
        rw [BitVec.toNat_add, show (1 : U8).toNat = 1 from rfl]
        omega
      rw [hv', hl, Nat.add_mul] at hs
      rw [← h2]
      congr 1
      omega
  · rintro ⟨U, j, brk⟩ ⟨hl, h1, h2⟩ hc
    simp only at hl h1 h2 hc ⊢
    have key : beNat U % 2 ^ 128 = (beNat V + 1) % 2 ^ 128 := by
      cases brk with
      | true => exact h1 rfl
      | false =>
        obtain ⟨h3, h4, h5⟩ := h2 rfl
        have : j = -1 := by
          have : ¬ (j ≥ 0) := by simpa using hc
          omega
        subst this
        rw [show (15 - (-1 : Int)).toNat = 16 by rfl,
          show (256 : Nat) ^ 16 = 2 ^ 128 by norm_num, Nat.add_mod_right] at h5
        exact h5
    have h3 := beNat_lt U
    have h4 := beBytes_beNat U
    rw [hl] at h3 h4
    rw [Nat.mod_eq_of_lt (by norm_num at h3 ⊢; exact h3)] at key
    unfold addV
    rw [← key, h4]
  · refine ⟨h, fun h => (nomatch h), fun _ => ⟨by simp only; omega, by simp only; omega, ?_⟩⟩
    rfl

/-! ## The cipher -/

theorem ecb_AES256_one (key ctr : List U8) : ecb (AES256 key) 1 ctr = AES256 key ctr := by
  rw [ecb, List.range_one, List.flatMap_cons, List.flatMap_nil, List.append_nil,
    Nat.mul_zero, List.drop_zero, AES256_take]

theorem AES256_ECB_fn_ret {A : AesBackend} {E : Env} {a : Nat} {key ctr buffer : List U8}
    (ha : A.ready E.ossl a) (hk : 32 ≤ key.length) (hc : 16 ≤ ctr.length) (hb : 16 ≤ buffer.length) :
    Ret (AES256_ECB A E a key ctr buffer)
      (· = (AES256 key ctr ++ buffer.drop 16, A.freed 240)) := by
  cases A with
  | standalone I =>
    unfold AES256_ECB
    refine (AES256_load_schedule_ret ha hk (by simp)).bind_eq ?_
    have h := AES256_ECB_ret (I := I) (a := a) (n := 1) (pt := ctr) (ct := buffer) (key := key)
      (l := (uninit E.junk 50 8 (16 * 15)).drop 240) ha (by omega) (by omega)
    refine h.bind_eq ?_
    generalize hu : List.drop 240 (uninit E.junk 50 8 (16 * 15)) = l
    have hl : l = [] := by rw [← hu]; exact List.drop_eq_nil_of_le (by simp)
    subst hl
    rw [List.append_nil]
    unfold AES256_free_schedule
    rw [Ret_memset_bind]
    refine ⟨?_, ?_⟩
    · rw [length_schedBytes]
    · have e1 : (schedBytes 8 60 key).drop (16 * 15) = [] :=
        List.drop_eq_nil_of_le (by rw [length_schedBytes])
      simp only [e1, ecb_AES256_one, List.append_nil, Ret_pure, Nat.mul_one, wp]
      rfl
  | openssl L =>
    unfold AES256_ECB
    refine (evpSetup_ret (c := .aes_256_ecb) ha hk).bind_eq ?_
    refine (evpUpdate_ret (c := .aes_256_ecb) (n := 1) ha (by decide) (by omega) (by omega)).bind_eq ?_
    simp only [wp, EvpCipher.block, ecb_AES256_one]
    rfl

theorem ctrBlocks_succ (key V : List U8) (m : Nat) :
    ctrBlocks key V (m + 1) = ctrBlocks key V m ++ AES256 key (addV V (m + 1)) := by
  unfold ctrBlocks
  rw [List.range_succ, List.flatMap_append]
  simp

theorem length_ctrBlocks (key V : List U8) (m : Nat) : (ctrBlocks key V m).length = 16 * m := by
  induction m with
  | zero => rfl
  | succ m ih => rw [ctrBlocks_succ, List.length_append, ih, length_AES256]; omega

/-! ## Update -/

theorem xor48_ret {t data : List U8} (ht : t.length = 48) (hd : 48 ≤ data.length)
    {p : Option (List U8)} (hp : p = some data ∨ p = none ∧ data = List.replicate 48 0) :
    Ret (xor48 t p) (· = List.zipWith (· ^^^ ·) t data) := by
  unfold xor48
  rw [Ret_ifC]
  rcases hp with rfl | ⟨rfl, rfl⟩
  swap
  · refine ⟨_, [], rfl, ?_⟩
    refine ext_nth (by rw [List.length_zipWith, List.length_replicate]; omega) fun k hk => ?_
    rw [nth_zipWith _ _ _ _ hk (by simp; omega), nth_replicate, if_pos (by omega)]
    simp
  rw [Option.isSome_some, if_pos rfl, Option.getD_some]
  refine Ret.for1 (fun i (l : List U8) => l.length = 48 ∧
    ∀ k, nth l k = if k < i then nth t k ^^^ nth data k else nth t k) ⟨ht, fun k => by simp⟩ ?_ ?_
  · rintro i l hi ⟨hl, h⟩
    rw [Ret_rd_bind]
    refine ⟨by omega, ?_⟩
    rw [Ret_rd_bind]
    refine ⟨by omega, ?_⟩
    rw [Ret_wr]
    refine ⟨by omega, by simpa using hl, fun k => ?_⟩
    rw [nth_set, h, h]
    by_cases hk : i = k
    · subst hk
      simp only [hl, hi, Nat.lt_irrefl, Nat.lt_succ_self, and_true, if_true, if_false]
    · rw [if_neg (by tauto)]
      by_cases hk' : k < i
      · rw [if_pos hk', if_pos (by omega)]
      · rw [if_neg hk', if_neg (by omega)]
  · rintro l ⟨hl, h⟩
    refine ext_nth (by rw [hl, List.length_zipWith]; omega) fun k hk => ?_
    rw [h, if_pos (by omega), nth_zipWith _ _ _ _ (by omega) (by omega)]

theorem update_ret {A : AesBackend} {E : Env} {a : Nat} {data key V : List U8}
    (ha : A.ready E.ossl a) (hk : key.length = 32) (hV : V.length = 16) (hd : 48 ≤ data.length)
    {provided : Option (List U8)}
    (hp : provided = some data ∨ provided = none ∧ data = List.replicate 48 0) :
    Ret (AES256_CTR_DRBG_Update A E a provided key V) (· = drbgUpdate data key V) := by
  unfold AES256_CTR_DRBG_Update
  simp only
  refine Ret.bind (Q := fun r : List U8 × List U8 => r.1 = addV V 3 ∧ r.2 = ctrBlocks key V 3)
    (Ret.for1 (fun i (r : List U8 × List U8) => r.1 = addV V i ∧
      r.2 = ctrBlocks key V i ++ (uninit E.junk 51 8 48).drop (16 * i)) ⟨(addV_zero hV).symm, rfl⟩ ?_ ?_) ?_
  · rintro i ⟨U, t⟩ hi ⟨rfl, rfl⟩
    refine (incV_ret (length_addV _ _)).bind_eq ?_
    rw [addV_addV, Ret_atPtr_bind, Ret_assoc]
    have hl := length_ctrBlocks key V i
    refine ⟨by rw [List.length_append]; omega, ?_⟩
    rw [List.drop_left' hl, List.take_left' hl]
    refine (AES256_ECB_fn_ret ha (by omega) (by rw [length_addV]) (by simp; omega)).bind_eq ?_
    rw [Ret_pure_bind, Ret_pure]
    refine ⟨rfl, ?_⟩
    simp only
    rw [ctrBlocks_succ, List.append_assoc, List.drop_drop]
    congr 3
  · rintro ⟨U, t⟩ ⟨h1, h2⟩
    refine ⟨h1, ?_⟩
    rw [h2]
    simp
  · rintro ⟨U, t⟩ ⟨h1, h2⟩
    simp only at h1 h2
    subst h1 h2
    have hl := length_ctrBlocks key V 3
    simp only
    refine (xor48_ret (by rw [hl]) hd hp).bind_eq ?_
    · have hz : (List.zipWith (· ^^^ ·) (ctrBlocks key V 3) data).length = 48 := by
        rw [List.length_zipWith, hl]; omega
      rw [Ret_memcpy_bind]
      refine ⟨by omega, by omega, ?_⟩
      rw [Ret_memcpy_bind]
      refine ⟨by omega, by rw [length_addV], _, [], rfl, ?_⟩
      unfold drbgUpdate
      simp only [List.take_zero, List.nil_append, List.drop_zero, Nat.zero_add]
      rw [List.drop_eq_nil_of_le (by omega : key.length ≤ 32),
        List.drop_eq_nil_of_le (by rw [length_addV] : (addV V 3).length ≤ 16), List.append_nil,
        List.append_nil, List.take_of_length_le (l := List.drop 32 _) (by rw [List.length_drop]; omega)]

theorem length_drbgUpdate (data key V : List U8) (hd : data.length = 48) :
    (drbgUpdate data key V).1.length = 32 ∧ (drbgUpdate data key V).2.length = 16 := by
  unfold drbgUpdate
  simp only [List.length_take, List.length_drop, List.length_zipWith, length_ctrBlocks]
  omega

theorem randombytes_init_ret {A : AesBackend} {E : Env} {a : Nat} {ctx : Drbg}
    {entropy pers : List U8} (ha : A.ready E.ossl a) (hk : ctx.key.length = 32) (hV : ctx.V.length = 16)
    (he : entropy.length = 48) (hp : pers.length = 48) {p : Option (List U8)}
    (hpp : p = some pers ∨ p = none ∧ pers = List.replicate 48 0) :
    Ret (randombytes_init A E a ctx entropy p) (fun c =>
      (c.key, c.V) = drbgInit entropy pers ∧ c.reseed = 1) := by
  unfold randombytes_init
  rw [Ret_memcpy_bind]
  refine ⟨by omega, by simp, ?_⟩
  simp only [List.take_zero, List.nil_append, List.drop_zero, Nat.zero_add]
  rw [List.take_of_length_le (by omega), List.drop_eq_nil_of_le (by simp), List.append_nil]
  refine (xor48_ret he (by omega) hpp).bind_eq ?_
  · rw [Ret_memset_bind]
    refine ⟨by omega, ?_⟩
    rw [Ret_memset_bind]
    refine ⟨by omega, ?_⟩
    rw [List.drop_eq_nil_of_le (by omega : ctx.key.length ≤ 32),
      List.drop_eq_nil_of_le (by omega : ctx.V.length ≤ 16), List.append_nil, List.append_nil]
    refine (update_ret ha (by simp) (by simp) (by rw [List.length_zipWith]; omega)
      (Or.inl rfl)).bind_eq ?_
    exact ⟨_, [], rfl, rfl, rfl⟩

/-! ## Generate -/

/-- State of the loop after `m` full blocks. -/
structure GenInv (key V x : List U8) (N m : Nat) (s : GenSt) : Prop where
  hV : s.V = addV V m
  block : s.block.length = 16
  le : 16 * m ≤ N
  xlen : s.xlen = N - 16 * m
  i : s.i = 16 * (m : Int)
  x : s.x = ctrBlocks key V m ++ x.drop (16 * m)

theorem genStep_full {A : AesBackend} {E : Env} {a : Nat} {key V x : List U8} {N m : Nat} {s : GenSt}
    (ha : A.ready E.ossl a) (hk : key.length = 32) (hx : N ≤ x.length) (h : GenInv key V x N m s)
    (hm : 16 * (m + 1) ≤ N) (hi : 16 * (m + 1) < 2 ^ 31) :
    Ret (genStep A E a key s) (GenInv key V x N (m + 1)) := by
  unfold genStep
  rw [h.hV]
  refine (incV_ret (length_addV _ _)).bind_eq ?_
  rw [addV_addV]
  refine (AES256_ECB_fn_ret ha (by omega) (by rw [length_addV]) (by rw [h.block])).bind_eq ?_
  have hl := length_ctrBlocks key V m
  have hla := length_AES256 key (addV V (m + 1))
  rw [List.drop_eq_nil_of_le (by rw [h.block]), List.append_nil]
  simp only
  rw [h.xlen, h.i, h.x, Ret_ifC, if_pos (by simp; omega), Ret_memcpy_bind]
  have e : (16 * (m : Int)).toNat = 16 * m := by omega
  rw [e]
  refine ⟨by omega, by rw [List.length_append, List.length_drop]; omega, ?_⟩
  rw [Ret_int_bind]
  refine ⟨by unfold inInt; omega, _, [], rfl, rfl, hla, by omega, by simp only; omega,
    by simp only; omega, ?_⟩
  simp only
  rw [List.take_left' hl, List.drop_zero, List.take_of_length_le (by omega), List.drop_append, hl,
    List.drop_eq_nil_of_le (by omega : (ctrBlocks key V m).length ≤ 16 * m + 16), List.nil_append,
    List.drop_drop, ctrBlocks_succ]
  congr 2
  omega

theorem genStep_last {A : AesBackend} {E : Env} {a : Nat} {key V x : List U8} {N m : Nat} {s : GenSt}
    (ha : A.ready E.ossl a) (hk : key.length = 32) (hx : N ≤ x.length) (h : GenInv key V x N m s)
    (hm : N < 16 * (m + 1)) (hN : 16 * m < N) :
    Ret (genStep A E a key s) (fun s => s.V = addV V (m + 1) ∧ s.xlen = 0 ∧
      s.x = (ctrBlocks key V (m + 1)).take N ++ x.drop N) := by
  unfold genStep
  rw [h.hV]
  refine (incV_ret (length_addV _ _)).bind_eq ?_
  rw [addV_addV]
  refine (AES256_ECB_fn_ret ha (by omega) (by rw [length_addV]) (by rw [h.block])).bind_eq ?_
  have hl := length_ctrBlocks key V m
  have hla := length_AES256 key (addV V (m + 1))
  rw [List.drop_eq_nil_of_le (by rw [h.block]), List.append_nil]
  simp only
  rw [h.xlen, h.i, h.x, Ret_ifC, if_neg (by simp; omega), Ret_memcpy_bind]
  have e : (16 * (m : Int)).toNat = 16 * m := by omega
  rw [e]
  refine ⟨by omega, by rw [List.length_append, List.length_drop]; omega, _, [], rfl, rfl, rfl, ?_⟩
  simp only
  rw [List.take_left' hl, List.drop_zero, List.drop_append, hl,
    List.drop_eq_nil_of_le (by omega : (ctrBlocks key V m).length ≤ 16 * m + (N - 16 * m)),
    List.nil_append, List.drop_drop, ctrBlocks_succ, List.take_append, hl,
    List.take_of_length_le (by omega : (ctrBlocks key V m).length ≤ N)]
  congr 2
  omega

theorem randombytes_drbg_ret {A : AesBackend} {E : Env} {a : Nat} {ctx : Drbg} {x : List U8} {N : Nat}
    (ha : A.ready E.ossl a) (hk : ctx.key.length = 32) (hV : ctx.V.length = 16) (hx : N ≤ x.length)
    (hN : N < 2 ^ 31) (h0 : 0 ≤ ctx.reseed) (hr : ctx.reseed + 1 < 2 ^ 31) :
    Ret (randombytes_drbg A E a ctx x N) (fun r =>
      r.2.1 = (drbgGenerate ctx.key ctx.V N).1 ++ x.drop N ∧ r.2.2 = 0 ∧
      (r.1.key, r.1.V) = (drbgGenerate ctx.key ctx.V N).2 ∧ r.1.reseed = ctx.reseed + 1) := by
  unfold randombytes_drbg
  refine Ret.bind (Q := fun s => s.V = addV ctx.V ((N + 15) / 16) ∧
      s.x = (ctrBlocks ctx.key ctx.V ((N + 15) / 16)).take N ++ x.drop N)
    (Ret.while (fun s => (∃ m, GenInv ctx.key ctx.V x N m s) ∨
        s.xlen = 0 ∧ s.V = addV ctx.V ((N + 15) / 16) ∧
        s.x = (ctrBlocks ctx.key ctx.V ((N + 15) / 16)).take N ++ x.drop N)
      (fun s => s.xlen) ?_ ?_ _ ?_) ?_
  · rintro s hI hc
    have hc : 0 < s.xlen := by simpa using hc
    rcases hI with ⟨m, h⟩ | h
    · have := h.xlen
      by_cases hm : 16 * (m + 1) ≤ N
      · refine (genStep_full ha hk hx h hm (by omega)).mono fun s' h' => ⟨Or.inl ⟨_, h'⟩, ?_⟩
        have := h'.xlen
        omega
      · refine (genStep_last ha hk hx h (by omega) (by omega)).mono fun s' h' => ⟨Or.inr ?_, ?_⟩
        · rw [show (N + 15) / 16 = m + 1 by omega]
          exact ⟨h'.2.1, h'.1, h'.2.2⟩
        · rw [h'.2.1]; exact hc
    · omega
  · rintro s hI hc
    have hc : s.xlen = 0 := by simpa using hc
    rcases hI with ⟨m, h⟩ | h
    · have h1 := h.xlen
      have h2 := h.le
      have : N = 16 * m := by omega
      rw [show (N + 15) / 16 = m by omega]
      refine ⟨h.hV, ?_⟩
      rw [h.x, List.take_of_length_le (by rw [length_ctrBlocks]; omega), this]
    · exact h.2
  · exact Or.inl ⟨0, (addV_zero hV).symm, by simp, by omega, by simp, by simp, by simp [ctrBlocks]⟩
  · rintro s ⟨h1, h2⟩
    rw [h1]
    refine (update_ret (data := List.replicate 48 0) ha hk (length_addV _ _) (by simp)
      (Or.inr ⟨rfl, rfl⟩)).bind_eq ?_
    rw [Ret_int_bind]
    exact ⟨by unfold inInt; omega, _, [], rfl, h2, rfl, rfl, rfl⟩

/-! ## Overflow of the index -/

/-- A loop that runs into undefined behaviour. -/
theorem while_ub {σ : Type} {cond : σ → Bool} {body : σ → C σ} {u : UB} (Inv : σ → Prop) (μ : σ → Nat)
    (hstep : ∀ s, Inv s → cond s = true ∧
      (body s = .ub u ∨ Ret (body s) (fun s' => Inv s' ∧ μ s' < μ s))) :
    ∀ s, Inv s → whileC cond body s = .ub u := by
  have key : ∀ n s, μ s < n → Inv s → whileC cond body s = .ub u := by
    intro n
    induction n with
    | zero => intro s h; omega
    | succ n ih =>
      intro s hμ hI
      obtain ⟨hc, hb⟩ := hstep s hI
      rw [whileC]
      rcases hb with hb | ⟨s', t, e, hI', hlt⟩
      · rw [hc, if_pos rfl, hb]; rfl
      · rw [hc, if_pos rfl, e]
        have := ih s' (by omega) hI'
        show C.bind' (C.emit _) _ = _
        simp only [C.bind', C.emit, C.bind_def, this]
  exact fun s => key _ s (Nat.lt_succ_self _)

theorem bind_ub {α β : Type} {m : C α} {f : α → C β} {u : UB} {v : α} (h : Ret m (· = v))
    (h' : f v = .ub u) : (m >>= f) = .ub u := by
  obtain ⟨_, t, e, rfl⟩ := h
  rw [e, C.bind_def]
  simp only [C.bind', h']

theorem genStep_ub {A : AesBackend} {E : Env} {a : Nat} {key V x : List U8} {N m : Nat} {s : GenSt}
    (ha : A.ready E.ossl a) (hk : key.length = 32) (hx : N ≤ x.length) (h : GenInv key V x N m s)
    (hm : 16 * (m + 1) ≤ N) (hi : 2 ^ 31 ≤ 16 * (m + 1)) :
    genStep A E a key s = .ub .overflow := by
  unfold genStep
  rw [h.hV]
  refine bind_ub (incV_ret (length_addV _ _)) ?_
  rw [addV_addV]
  refine bind_ub (AES256_ECB_fn_ret ha (by omega) (by rw [length_addV]) (by rw [h.block])) ?_
  have hl := length_ctrBlocks key V m
  have hla := length_AES256 key (addV V (m + 1))
  rw [List.drop_eq_nil_of_le (by rw [h.block]), List.append_nil]
  simp only
  rw [h.xlen, h.i, h.x]
  have e : (16 * (m : Int)).toNat = 16 * m := by omega
  rw [e]
  unfold ifC
  refine bind_ub (v := ()) ⟨(), _, rfl, rfl⟩ ?_
  rw [if_pos (by simp; omega)]
  refine bind_ub (Ret_memcpy.2 ⟨by omega, by rw [List.length_append, List.length_drop]; omega, rfl⟩) ?_
  have : int (16 * (m : Int) + 16) = .ub .overflow := by
    unfold int
    rw [if_neg (by unfold inInt; omega)]
  rw [this]
  rfl

theorem randombytes_drbg_ub {A : AesBackend} {E : Env} {a : Nat} {ctx : Drbg} {x : List U8} {N : Nat}
    (ha : A.ready E.ossl a) (hk : ctx.key.length = 32) (hV : ctx.V.length = 16) (hx : N ≤ x.length)
    (hN : 2 ^ 31 ≤ N) : randombytes_drbg A E a ctx x N = .ub .overflow := by
  unfold randombytes_drbg
  rw [while_ub (u := .overflow)
    (fun s => ∃ m, GenInv ctx.key ctx.V x N m s ∧ 16 * m < 2 ^ 31) (fun s => s.xlen)]
  · rfl
  · rintro s ⟨m, h, hm⟩
    have := h.xlen
    refine ⟨by simp; omega, ?_⟩
    by_cases hm' : 16 * (m + 1) < 2 ^ 31
    · right
      refine (genStep_full ha hk hx h (by omega) hm').mono fun s' h' => ⟨⟨m + 1, h', hm'⟩, ?_⟩
      have := h'.xlen
      omega
    · left
      exact genStep_ub ha hk hx h (by omega) (by omega)
  · exact ⟨0, ⟨(addV_zero hV).symm, by simp, by omega, by simp, by simp, by simp [ctrBlocks]⟩,
      by decide⟩

end Frodo
