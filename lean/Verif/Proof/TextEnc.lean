import Verif.Proof.TextKem

/-! # `crypto_kem_enc`: text and model (/repo/src/kem.c:78-150) -/

namespace Frodo

open Src

attribute [local irreducible] Ev EvL Run DRun Does

theorem text_enc {G : File} {P : Params} {X : Ctx} {B : Build} {E : Env} {rb : RandomBytes} {bc bq : Nat} {xk : Blk} {nm : String} (hG : G.IsKem P nm)
    (hC : Calls X B E P rb bc bq xk) (hP : P.Small) (hB : B.arch = .le)
    (j1 : JunkAt E X 42 8 "G2in") (j2 : JunkAt E X 43 8 "G2out") (j3 : JunkAt E X 44 8 "Fin")
    (j4 : JunkAt E X 40 8 "shake_input_seedSE")
    {m : Mem} {next bt bs bp : Nat} {ct ss pk : List U8} (hm1 : m bt = u8s ct) (hm2 : m bs = u8s ss) (hm3 : m bp = u8s pk)
    (hmc : m bc = u16s P.cdf) (hmq : m bq = xk) (hb1 : bt < next) (hb2 : bs < next) (hb3 : bp < next) (hbc : bc < next) (hbq : bq < next) (hne : bt ≠ bs)
    (hp1 : bp ≠ bt) (hp2 : bp ≠ bs) (hc1 : bc ≠ bt) (hc2 : bc ≠ bs) (hq1 : bq ≠ bt)
    (hq2 : bq ≠ bs)
    (hlt : ct.length = P.ctBytes) (hlp : pk.length = P.pkBytes) :
    Refines False (crypto_kem_enc B E P rb ct ss pk)
      (G.run X ("crypto_kem_enc_" ++ nm) [.ptr bt 0 false 1, .ptr bs 0 false 1, .ptr bp 0 false 1] m next)
      fun o x => x.1 = .int true 4 0 ∧ next + 9 ≤ x.2.2 ∧ MAgree (next + 9) x.2.1
        (fr (out2 m bt (u8s o.ct) bs (u8s o.ss)) next [u16s o.B, u16s o.V, u16s o.C, u16s o.Bp, u16s o.Sp, u8s o.G2in, u8s o.G2out,
          u8s o.Fin, u8s o.shake_input_seedSE]) := by
  obtain ⟨n1, n2, n3, n4, n5, n6, n7, n8, n9, n10, n11, n12⟩ := hP.nums
  obtain ⟨q1, q2, q3, q4, q5, q6, q7, q8, q9, q10, q11, q12, q13, q14, -⟩ := hP
  have hl1 : (ofU8 ct).length = P.ctBytes := by rw [length_ofU8, hlt]
  have hl2 : (ofU8 pk).length = P.pkBytes := by rw [length_ofU8, hlp]
  refine run_zero (ps := [("ct", .ptr bt 0 false 1), ("ss", .ptr bs 0 false 1), ("pk", .ptr bp 0 false 1)]) hG.enc rfl (by rfl) ?_
  unfold encFun
  cat
  refine DRun.mem_eq (F' := fr (out2 m bt (u8s ct) bs (u8s ss)) next []) (by rw [out2_self hm1 hm2]) ?_
  iterate 4 dptr
  refine DRun.arr 0 (by ev) rfl (newArr_zero (by omega)) ?_
  refine DRun.arr 1 (by ev) rfl (newArr_zero (by omega)) ?_
  refine DRun.arr 2 (by ev) rfl (newArr_zero (by omega)) ?_
  refine DRun.arr 3 (by ev) rfl (newArr_zero (by omega)) ?_
  refine DRun.arr 4 (by ev) rfl (newArr_zero (by omega)) ?_
  iterate 2 dptr
  refine DRun.arr 5 (by ev) rfl (newArr_junk8 j1 _) ?_
  iterate 2 dptr
  refine DRun.arr 6 (by ev) rfl (newArr_junk8 j2 _) ?_
  iterate 2 dptr
  refine DRun.arr 7 (by ev) rfl (newArr_junk8 j3 _) ?_
  iterate 2 dptr
  refine DRun.arr 8 (by ev) rfl (newArr_junk8 j4 _) ?_
  refine Run.start ?_
  lists
  simp only [crypto_kem_enc, expandNoise, mulSA, encryptMu, clearWords, Params.bytesMu, bind_assoc, pure_bind, hB]
  call hC.shake
  intro g1
  upd
  lists
  apply Run.ptr; intro c1
  call hC.random
  rintro ⟨mu, v⟩
  upd
  lists
  call hC.shake
  intro g2
  upd
  lists
  refine Run.setFirst (by lookv) (by omega) (by look) (by rfl) ?_
  intro inp1 e1
  rw [length_uninit] at e1
  upd
  lists
  call hC.copy
  intro inp2
  upd
  lists
  apply Run.asBytes; intro c3
  lists
  call hC.shakeWords
  intro S1
  upd
  lists
  swaps Run.leLoop (x := "Sp")
  intro S2
  upd
  lists
  call hC.sample
  intro S3
  upd
  lists
  apply Run.atPtr; intro c4
  call hC.sample
  intro S4
  upd
  lists
  apply Run.ptr; intro c5
  call hC.mulSa (a2 := E.addr .Sp + 2 * (P.n * P.nbar))
  rintro ⟨Bp, Ep⟩
  upd
  lists
  call hC.pack
  intro ct1
  upd
  lists
  apply Run.ptr; intro c6
  apply Run.ptr; intro c7
  apply Run.atPtr; intro c8
  call hC.sample
  intro S5
  upd
  lists
  call hC.unpack
  intro B1
  upd
  lists
  apply Run.ptr; intro c9
  call hC.mulAddSb
  intro V1
  upd
  lists
  apply Run.require; intro _
  call hC.encode
  intro C1
  upd
  lists
  call hC.add
  intro C2
  upd
  lists
  apply Run.atPtr; intro c10
  call hC.pack
  intro ct2
  upd
  call hC.copy
  intro F1
  upd
  lists
  call hC.copy
  intro F2
  upd
  lists
  call hC.shake
  intro ss1
  upd
  lists
  apply Run.asBytes; intro c11
  lists
  call hC.clearWords
  intro V2
  upd
  lists
  apply Run.asBytes; intro c12
  lists
  call hC.clearWords
  intro S6
  upd
  lists
  apply Run.asBytes; intro c13
  call hC.clearWords
  intro S7
  upd
  lists
  apply Run.asBytes; intro c14
  call hC.clearWords
  intro S8
  upd
  lists
  apply Run.atPtr; intro c15
  call hC.clear
  intro g3
  upd
  lists
  call hC.clear
  intro g4
  upd
  lists
  apply Run.atPtr; intro c16
  call hC.clear
  intro F3
  upd
  lists
  call hC.clear
  intro inp3
  upd
  lists
  exact Run.ret fun st h1 h2 => ⟨rfl, h1, h2⟩

end Frodo
