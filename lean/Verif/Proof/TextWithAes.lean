import Verif.Proof.TextOptAesSa
import Verif.Proof.TextEcb
import Verif.Proof.SelfTest

/-! # The products with A from AES128, linked with the text of /repo/src/aes/aes.c and /repo/src/aes/aes_c.c -/

namespace Frodo

open Src

theorem AesAt.link {X : Ctx} {Fs : List File} {d : Nat} {J : Junk} (h : AesAt X J) (h1 : Fs.findSome? (·.fn "AES128_load_schedule") = none)
    (h2 : Fs.findSome? (·.fn "AES128_ECB_enc_sch") = none) (h3 : Fs.findSome? (·.fn "AES128_free_schedule") = none) :
    AesAt (link Fs X d) J := by
  have e1 := link_extern (X := X) (d := d) h1 (by decide) (by decide)
  have e2 := link_extern (X := X) (d := d) h2 (by decide) (by decide)
  have e3 := link_extern (X := X) (d := d) h3 (by decide) (by decide)
  constructor
  · intro N F bk ki br a K R a1 a2 a3 a4 a5 a6
    have := h.load (a := a) a1 a2 a3 a4 a5 a6
    unfold Does at this ⊢
    rwa [e1]
  · intro N F bi br bo a v I R O len a1 a2 a3 a4 a5 a6 a7 a8 a9 a10 a11 a12
    have := h.enc (a := a) a1 a2 a3 a4 a5 a6 a7 a8 a9 a10 a11 a12
    unfold Does at this ⊢
    rwa [e2]
  · intro N F br R a1 a2
    have := h.free a1 a2
    unfold Does at this ⊢
    rwa [e3]

theorem utilFile_noAes : utilFile.NoAes := ⟨by kernel_rfl, by kernel_rfl, by kernel_rfl⟩

/-- What kem.c calls outside of util.c and noise.c, for the optimised implementation without intrinsics and with A from AES128. -/
theorem othersAes {X : Ctx} {d : Nat} {G : File} {P : Params} {B : Build} {E : Env} {rb : RandomBytes} {bk : Nat} {xk : Blk} (hG : G.IsOptAes P)
    (hx : G.Leaves) (hN : G.NoAes) (hP : P.Small) (hst : P.stripe = 8)
    (hB : B.arch = .le) (hi : B.impl = .generic) (hg : B.gen = .aes) (hc : B.aes = .standalone .c) (ha : X.arch = .le)
    (j1 : JunkAt E X 30 8 "aes_key_schedule") (j2 : JunkAt E X 36 16 "sp")
    (hS : SpongeAt X E.junk bk xk) (hA : AesAt X E.junk) (hR : Rand X rb) : Others (link [utilFile, G] X (d + 1)) B E P rb bk xk := by
  obtain ⟨-, -, -, -, -, -, -, z8, z9, z10, z11, z12⟩ := utilFile_none
  obtain ⟨u1, u2, u3⟩ := utilFile_noAes
  have f1 : [utilFile, G].findSome? (·.fn "shake128") = none := by simp only [List.findSome?, z10, hx.s128]
  have f2 : [utilFile, G].findSome? (·.fn "shake256") = none := by simp only [List.findSome?, z11, hx.s256]
  have f3 : [utilFile, G].findSome? (·.fn "randombytes") = none := by simp only [List.findSome?, z12, hx.random]
  have f4 : [utilFile, G].findSome? (·.fn "AES128_load_schedule") = none := by simp only [List.findSome?, u1, hN.load]
  have f5 : [utilFile, G].findSome? (·.fn "AES128_ECB_enc_sch") = none := by simp only [List.findSome?, u2, hN.enc]
  have f6 : [utilFile, G].findSome? (·.fn "AES128_free_schedule") = none := by simp only [List.findSome?, u3, hN.free]
  have hS1 := hS.link (d := d + 1) f1 f2
  have hA0 := hA.link (d := d) f4 f5 f6
  constructor
  case shake =>
    intro N F bo ko bi ki s n s' n' L I outlen inlen h1 h2 h3 h4 h5 k1 k2 k3 h6 h7 h8 h9
    exact hS1.shake (v := .u8) h1 (.inr rfl) h2 h3 h4 h5 k1 k2 k3 h6 h7 h8 h9
  case shakeWords =>
    intro N F bo bi s n s' n' L I outlen inlen h1 h2 h3 h4 h5 k1 k2 k3 h6 h7
    have := hS1.shake (P := P) (F := F) (N := N) (v := .u16) (L := toBytes .le L) (I := I) (ko := 0) (ki := 0) (bo := bo) (bi := bi)
      (s := s) (n := n) (s' := s') (n' := n') (by simp only [View.blk, ofBytes_toBytes, h1]) (.inl (by rw [length_toBytes]; omega)) h2 h3 h4 h5 k1 k2 k3
      (Nat.zero_le _) (Nat.zero_le _) h6 h7
    simpa only [View.blk, List.take_zero, List.nil_append, List.drop_zero] using this
  case random =>
    intro N F bo ko s n L len h1 h2 h3 h4
    have := hR (s := s) (n := n) h1 h2 h3 h4
    unfold Does at this ⊢
    rwa [link_extern f3 (by decide) (by decide)]
  case mulAs =>
    intro N F bo bs be bi ks ke ki a1 a2 O S Z I h1 h2 h3 h4 h5 h6 h7 h8 h9 h10 h10' k1 k2 k3 h11 h12 h13 h14
    unfold Does
    intro M nx hn hA
    rw [link_fn (fn_second z8 hG.mulAs) (by decide) (by decide)]
    simp only [frodo_mul_add_as_plus_e, hi]
    intro a t e
    obtain ⟨x, t', e1, ⟨e2, e3, e4⟩, -⟩ := text_mul_as_aes (a1 := a1) (a2 := a2) (m := M) (next := nx) hP hst hB hg hc ha hA0 j1 (by rw [hA _ h5, h1])
      (by rw [hA _ h6, h2]) (by rw [hA _ h7, h3])
      (by rw [hA _ h8, h4]) (by omega) (by omega) (by omega) (by omega) h9 h10 h10' h11 h12 h13 h14 a t e
    refine ⟨x, t', e1, ⟨e2, by omega, fun b hb => ?_⟩, fun h => h.elim⟩
    rw [e4 b (by omega)]
    exact (hA.set bo _) b hb
  case mulSa =>
    intro N F bo bs bi k ki a2 O S I h1 h2 h3 h4 h5 h6 h7 k1 k2 k3 h8 h9
    unfold Does
    intro M nx hn hA
    rw [link_fn (fn_second z9 hG.mulSa) (by decide) (by decide)]
    simp only [frodo_mul_add_sa_plus_e, hi]
    intro a t e
    obtain ⟨x, t', e1, ⟨e2, e3, e4⟩, -⟩ := text_mul_sa_aes (a2 := a2) (m := M) (next := nx) hP hB hi hg hc ha hA0 j1 j2 (by rw [hA _ h4, h1])
      (by rw [hA _ h5, h2]) (by rw [hA _ h6, h3]) (by omega) (by omega) (by omega) h7 h8 h9 a t e
    refine ⟨x, t', e1, ⟨e2, by omega, fun b hb => ?_⟩, fun h => h.elim⟩
    rw [e4 b (by omega)]
    exact ((hA.set bo _).set bs _) b hb

/-! ## The text of AES behind the calls -/

/-- The bytes of a block (C11 6.2.6.1p4), for blocks with elements of 16 bits on a little-endian machine. -/
def blkBytes (x : Blk) : Blk := if x.n = 2 then u8s (toBytes .le (x.data.map fun v => BitVec.ofInt 16 v)) else x

/-- The block with elements of the type of `x` and the bytes of `y`. -/
def blkLike (x y : Blk) : Blk :=
  if x.n = 2 then
    if x.s then s16s (ofBytes .le (y.data.map fun v => BitVec.ofInt 8 v)) else u16s (ofBytes .le (y.data.map fun v => BitVec.ofInt 8 v))
  else y

theorem blkBytes_blk (v : View) (L : List U8) (h : L.length % 2 = 0 ∨ v = .u8) : blkBytes (v.blk L) = u8s L := by
  cases v with
  | u8 => rfl
  | u16 =>
    have := h.resolve_right nofun
    simp only [blkBytes, View.blk, u16s, ofU16, ↓reduceIte, List.map_map, Function.comp_def, BitVec.ofInt_natCast,
      BitVec.ofNat_toNat, BitVec.setWidth_eq, List.map_id']
    rw [toBytes_ofBytes .le (L.length / 2) L (by omega)]
  | s16 =>
    have := h.resolve_right nofun
    have e : ∀ x : U16, BitVec.ofInt 16 (i16 (x.toNat : Int)) = x := fun x => by
      rw [i16, BitVec.ofInt_toInt, BitVec.ofInt_natCast, BitVec.ofNat_toNat, BitVec.setWidth_eq]
    simp only [blkBytes, View.blk, s16s, ofS16, ↓reduceIte, List.map_map, Function.comp_def, e, List.map_id']
    rw [toBytes_ofBytes .le (L.length / 2) L (by omega)]

theorem blkLike_blk (v : View) (L l : List U8) : blkLike (v.blk L) (u8s l) = v.blk l := by
  cases v
  · rfl
  all_goals simp [blkLike, View.blk, u16s, s16s, ofU8, Function.comp_def]

/-- The blocks that arguments point to. -/
def ptrBlocks : List Val → List Nat
  | [] => []
  | .ptr b _ _ _ :: vs => b :: ptrBlocks vs
  | _ :: vs => ptrBlocks vs

/-- Memory as a function sees it that gets pointers to bytes of the blocks `l`. -/
def memBytes (m : Mem) (l : List Nat) : Mem := fun b => if b ∈ l then blkBytes (m b) else m b

/-- Memory `m'` after that function, with the types that the blocks `l` have in `m`. -/
def memRetype (m m' : Mem) (l : List Nat) : Mem := fun b => if b ∈ l then blkLike (m b) (m' b) else m' b

/-- The two tables and the static pointer of aes_c.c in three blocks from `k` on (/repo/src/aes/aes_c.c:22-48); `assert` stops the
program unless its argument is nonzero (C11 7.2.1.1). -/
def aesCtx (X : Ctx) (k : Nat) : Ctx where
  arch := X.arch
  glob x := if x = "sbox" then some (.ptr k 0 false 1) else if x = "Rcon" then some (.ptr (k + 1) 0 false 1) else
    if x = "&state" then some (.ptr (k + 2) 0 false 1) else none
  junk := X.junk
  call f args m next := if f = "assert" then
      match args with
      | [.int _ _ v] => if v = 0 then .ub .assertFailed else pure (.undef .void, m, next)
      | _ => .ub .assertFailed
    else X.call f args m next

/-- Memory with the two tables, and the pointer without a value. -/
def aesTables (m : Mem) (k : Nat) : Mem := ((m.set k (u8s sbox)).set (k + 1) (u8s rcon)).set (k + 2) ⟨false, 1, []⟩

/-- Calls of the functions for AES128 run the text of /repo/src/aes/aes.c and /repo/src/aes/aes_c.c, all other calls go to `X`.  The
static objects of aes_c.c are in the next three blocks, which nothing else uses (C11 6.2.2p3: no other file can name them). -/
def withAes (X : Ctx) : Ctx :=
  { X with call := fun f args m nx =>
      if f = "AES128_load_schedule" ∨ f = "AES128_ECB_enc_sch" ∨ f = "AES128_free_schedule" then do
        let r ← aesFile.run (link aesFiles (aesCtx X nx) 5) f args (aesTables (memBytes m (ptrBlocks args)) nx) (nx + 3)
        pure (r.1, memRetype m r.2.1 (ptrBlocks args), r.2.2)
      else X.call f args m nx }

theorem aesCtx_vars {X : Ctx} {k : Nat} : AesVars (aesCtx X k) k (k + 1) (k + 2) := ⟨rfl, rfl, rfl, rfl⟩

theorem aesCtx_assert {X : Ctx} {k : Nat} : Asserts (aesCtx X k) := fun s n v m next h => by
  simp only [aesCtx, if_true, if_neg h]
  exact ⟨_, _, rfl, rfl⟩

theorem load_schedule_junk {J J' : Junk} (h : J 0 = J' 0) : aes128_load_schedule_c J = aes128_load_schedule_c J' := by
  funext a b
  unfold aes128_load_schedule_c load_schedule_c uninit
  rw [h]

theorem aesTables_low {m : Mem} {k b : Nat} (h : b < k) : aesTables m k b = m b := by
  simp only [aesTables, Mem.set, if_neg (show b ≠ k by omega), if_neg (show b ≠ k + 1 by omega), if_neg (show b ≠ k + 2 by omega)]

theorem aesTables_sbox {m : Mem} {k : Nat} : aesTables m k k = u8s sbox := by simp [aesTables, Mem.set]

theorem aesTables_rcon {m : Mem} {k : Nat} : aesTables m k (k + 1) = u8s rcon := by simp [aesTables, Mem.set]

theorem aesTables_state {m : Mem} {k : Nat} : aesTables m k (k + 2) = ⟨false, 1, []⟩ := by simp [aesTables, Mem.set]

/-- The text of AES behind the calls does what the model says. -/
theorem withAes_aes {X : Ctx} {J : Junk} (hJ : J 0 = aesJunk X 0) : AesAt (withAes X) J := by
  constructor
  · intro N F bk ki br a K R a1 a2 a3 a4 a5 a6 M nx hN hM
    have hK : aesTables (memBytes M [bk, br]) nx bk = u8s K := by
      rw [aesTables_low (by omega), memBytes, if_pos (by simp), hM bk a3, a1]
      exact blkBytes_blk .u8 K (.inr rfl)
    have hR : aesTables (memBytes M [bk, br]) nx br = u8s R := by
      rw [aesTables_low (by omega), memBytes, if_pos (by simp), hM br a4, a2]
      exact blkBytes_blk .u8 R (.inr rfl)
    have key := text_load_schedule128 (d := 3) (aesCtx_vars (X := X) (k := nx)) aesTables_sbox aesTables_rcon bk br (ofU8 (K.take ki)) []
      (K.drop ki) R (hK.trans (u8s_split ki)) hR (nx + 3) a5 (by omega) (by omega) (by omega) (by omega) (by omega) (by omega)
    rw [length_ofU8, List.length_take, Nat.min_eq_left a6, load_schedule_junk (J' := J) (by rw [hJ]; rfl)] at key
    simp only [withAes, true_or, if_true]
    refine Refines.tail (key.bind ?_)
    rintro r _ ⟨t, rfl⟩
    refine .pure ⟨rfl, by dsimp only; omega, fun b hb => ?_⟩
    change memRetype M _ [bk, br] b = _
    unfold memRetype
    dsimp only
    rw [set_ne _ _ (show b ≠ nx + 3 by omega)]
    by_cases e1 : b = br
    · subst e1
      rw [if_pos (by simp), set_same, set_same, hM b hb, a2]
      exact blkLike_blk .u8 R r
    · rw [set_ne _ _ e1, set_ne _ _ e1]
      by_cases e2 : b = bk
      · subst e2
        rw [if_pos (by simp), hK, hM b hb, a1]
        exact blkLike_blk .u8 K K
      · have e3 : b ∉ [bk, br] := by simp [e1, e2]
        rw [if_neg e3, aesTables_low (by omega), memBytes, if_neg e3, hM b hb]
  · intro N F bi br bo a v I R O len a1 a2 a3 a4 a5 a6 a7 a8 a9 a10 a11 a12 M nx hN hM
    have hI : aesTables (memBytes M [bi, br, bo]) nx bi = u8s I := by
      rw [aesTables_low (by omega), memBytes, if_pos (by simp), hM bi a6, a1]
      exact blkBytes_blk v I (.inl a4)
    have hR : aesTables (memBytes M [bi, br, bo]) nx br = u8s R := by
      rw [aesTables_low (by omega), memBytes, if_pos (by simp), hM br a7, a2]
      exact blkBytes_blk .u8 R (.inr rfl)
    have hO : aesTables (memBytes M [bi, br, bo]) nx bo = u8s O := by
      rw [aesTables_low (by omega), memBytes, if_pos (by simp), hM bo a8, a3]
      exact blkBytes_blk v O (.inl a5)
    have key := text_ecb128 (d := 0) (aesCtx_vars (X := X) (k := nx)) aesCtx_assert aesTables_sbox aesTables_rcon
      (by rw [aesTables_state]; decide) bi br bo [] [] [] I R O len (by omega) hI hR hO a9 a10 (by omega) (by omega) (by omega) (by omega)
      (by omega) (by omega) (by omega) (nx + 3)
    rw [show AES128_ECB_enc_sch .c 0 I len R O = AES128_ECB_enc_sch .c a I len R O from rfl] at key
    simp only [withAes, true_or, or_true, if_true]
    refine Refines.tail (key.bind ?_)
    rintro r _ ⟨z, -, rfl⟩
    refine .pure ⟨rfl, by dsimp only; omega, fun b hb => ?_⟩
    change memRetype M _ [bi, br, bo] b = _
    unfold memRetype
    dsimp only
    rw [set_ne _ _ (show b ≠ nx + 2 by omega)]
    by_cases e1 : b = bo
    · subst e1
      rw [if_pos (by simp), set_same, set_same, hM b hb, a3]
      exact blkLike_blk v O r
    · rw [set_ne _ _ e1, set_ne _ _ e1]
      by_cases e2 : b = bi
      · subst e2
        rw [if_pos (by simp), hI, hM b hb, a1]
        exact blkLike_blk v I I
      · by_cases e4 : b = br
        · subst e4
          rw [if_pos (by simp), hR, hM b hb, a2]
          exact blkLike_blk .u8 R R
        · have e3 : b ∉ [bi, br, bo] := by simp [e1, e2, e4]
          rw [if_neg e3, aesTables_low (by omega), memBytes, if_neg e3, hM b hb]
  · intro N F br R a1 a2 M nx hN hM
    have hR : aesTables (memBytes M [br]) nx br = u8s R := by
      rw [aesTables_low (by omega), memBytes, if_pos (by simp), hM br a2, a1]
      exact blkBytes_blk .u8 R (.inr rfl)
    have key := text_free128 (d := 5) (X := aesCtx X nx) br [] R hR (nx + 3)
    simp only [withAes, or_true, if_true]
    refine Refines.tail (key.bind ?_)
    rintro r _ rfl
    refine .pure ⟨rfl, by dsimp only; omega, fun b hb => ?_⟩
    change memRetype M _ [br] b = _
    unfold memRetype
    dsimp only
    by_cases e1 : b = br
    · subst e1
      rw [if_pos (by simp), set_same, set_same, hM b hb, a1]
      exact blkLike_blk .u8 R r
    · have e3 : b ∉ [br] := by simp [e1]
      rw [if_neg e3, set_ne _ _ e1, set_ne _ _ e1, aesTables_low (by omega), memBytes, if_neg e3, hM b hb]

end Frodo
