import Verif.Proof.TextKem

/-! # `crypto_kem_keypair`: text and model (/repo/src/kem.c:15-75) -/

namespace Frodo

open Src

attribute [local irreducible] Ev EvL Run DRun Does

theorem text_keypair {G : File} {P : Params} {X : Ctx} {B : Build} {E : Env} {rb : RandomBytes} {bc bq : Nat} {xk : Blk} {nm : String} (hG : G.IsKem P nm)
    (hC : Calls X B E P rb bc bq xk) (hP : P.Small) (hB : B.arch = .le)
    (j1 : JunkAt E X 41 8 "randomness") (j2 : JunkAt E X 40 8 "shake_input_seedSE")
    {m : Mem} {next bp bs : Nat} {pk sk : List U8} (hm1 : m bp = u8s pk) (hm2 : m bs = u8s sk) (hmc : m bc = u16s P.cdf) (hmq : m bq = xk)
    (hb1 : bp < next) (hb2 : bs < next) (hbc : bc < next) (hbq : bq < next) (hne : bp ≠ bs) (hc1 : bc ≠ bp) (hc2 : bc ≠ bs) (hq1 : bq ≠ bp)
    (hq2 : bq ≠ bs)
    (hlp : pk.length = P.pkBytes) (hls : sk.length = P.bytes + P.pkBytes + 2 * P.n * P.nbar + P.bytes) :
    Refines False (crypto_kem_keypair B E P rb pk sk)
      (G.run X ("crypto_kem_keypair_" ++ nm) [.ptr bp 0 false 1, .ptr bs 0 false 1] m next)
      fun o x => x.1 = .int true 4 0 ∧ next + 4 ≤ x.2.2 ∧ MAgree (next + 4) x.2.1
        (fr (out2 m bp (u8s o.pk) bs (u8s o.sk)) next [u16s o.B, u16s o.S, u8s o.randomness, u8s o.shake_input_seedSE]) := by
  obtain ⟨n1, n2, n3, n4, n5, n6, n7, n8, n9, n10, n11, n12⟩ := hP.nums
  obtain ⟨q1, q2, q3, q4, q5, q6, q7, q8, q9, q10, q11, q12, q13, q14, q15⟩ := hP
  have q16 : P.n * P.nbar % 2 = 0 := by rw [Nat.mul_mod, show P.n % 2 = 0 by omega, Nat.zero_mul]
  have hl1 : (ofU8 pk).length = P.pkBytes := by rw [length_ofU8, hlp]
  have hl2 : (ofU8 sk).length = P.bytes + P.pkBytes + 2 * P.n * P.nbar + P.bytes := by rw [length_ofU8, hls]
  refine run_zero (ps := [("pk", .ptr bp 0 false 1), ("sk", .ptr bs 0 false 1)]) hG.keypair rfl (by rfl) ?_
  unfold keypairFun
  cat
  refine DRun.mem_eq (F' := fr (out2 m bp (u8s pk) bs (u8s sk)) next []) (by rw [out2_self hm1 hm2]) ?_
  iterate 6 dptr
  refine DRun.arr 0 (by ev) rfl (newArr_zero (by omega)) ?_
  refine DRun.arr 1 (by ev) rfl (newArr_zero (by omega)) ?_
  dptr
  refine DRun.arr 2 (by ev) rfl (newArr_junk8 j1 _) ?_
  iterate 3 dptr
  refine DRun.arr 3 (by ev) rfl (newArr_junk8 j2 _) ?_
  refine Run.start ?_
  lists
  simp only [crypto_kem_keypair, expandNoise, clearWords, bind_assoc, pure_bind, hB]
  call hC.random
  rintro ⟨rnd, v⟩
  upd
  lists
  apply Run.ptr; intro c1
  call hC.shake
  intro pk1
  upd
  lists
  apply Run.ptr; intro c2
  refine Run.setFirst (by lookv) (by omega) (by look) (by rfl) ?_
  intro inp1 e1
  rw [length_uninit] at e1
  upd
  lists
  call hC.copyDrop
  intro inp2
  upd
  lists
  apply Run.asBytes; intro c3
  lists
  call hC.shakeWords
  intro S1
  upd
  lists
  swaps Run.leLoop (x := "S")
  intro S2
  upd
  lists
  call hC.sample
  intro S3
  upd
  lists
  apply Run.atPtr; intro c4
  call hC.sample
  intro S4
  upd
  lists
  apply Run.ptr; intro c5
  call hC.mulAs (a1 := E.addr .B) (a2 := E.addr .S + 2 * (P.n * P.nbar))
  intro Bm
  upd
  lists
  apply Run.atPtr; intro c6
  call hC.pack
  intro pk2
  upd
  call hC.copy
  intro sk1
  upd
  call hC.copy
  intro sk2
  upd
  swaps Run.toLeLoop (x := "S")
  intro S5
  upd
  lists
  call hC.copyWords
  intro sk3
  upd
  apply Run.atPtr; intro c7
  call hC.shake
  intro sk4
  upd
  apply Run.asBytes; intro c8
  call hC.clearWords
  intro S6
  upd
  lists
  apply Run.asBytes; intro c9
  call hC.clearWords
  intro S7
  upd
  lists
  call hC.clear
  intro rnd1
  upd
  lists
  call hC.clear
  intro inp3
  upd
  lists
  exact Run.ret fun st h1 h2 => ⟨rfl, h1, h2⟩

end Frodo
