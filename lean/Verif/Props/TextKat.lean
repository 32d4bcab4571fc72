import Verif.Props.TextDrbg
import Verif.Props.TextOptAes

/-! # C89 for the builds with A from AES128 -/

namespace Frodo.Props

open Frodo.Src Frodo.Spec

section

variable {P : Params} {K : KemParams} {nm : String}

/-- C89 with A from AES128: the text of the KEM with frodo_macrify.c, of SHAKE, of AES, and of the generator of the known answer tests,
which uses AES too.  Key generation and encapsulation compute the known answer of the seed. -/
theorem C89_kat_aes {G : File} (hT : KemTextAes G P K nm) {X X' : Ctx} {Y Y' : Nat → Ctx} (hY : RngMachine Y) (hY' : RngMachine Y') {seed : List U8}
    (hs : seed.length = 48) {m : Mem} {next bp bk : Nat} (h : Placed G X m next [bp, bk]) {pk sk : List U8} (hp : m bp = u8s pk)
    (hk : m bk = u8s sk) (hlp : pk.length = P.pkBytes) (hlk : sk.length = P.skBytes) :
    let i := drbgInit seed (List.replicate 48 0)
    let g := (drbgGenerate i.1 i.2 (2 * K.len + K.lenA)).2
    Ret (callKemAes G (withDrbg X Y i.1 i.2 1) ("crypto_kem_keypair_" ++ nm) [bp, bk] m next) fun x => x.1 = .int true 4 0 ∧
      x.2.1 bp = u8s (katSpec K seed).1 ∧ x.2.1 bk = u8s (katSpec K seed).2.1 ∧
      ∀ (m' : Mem) (next' bt' bs' bp' : Nat) (ct ss : List U8), Placed G X' m' next' [bt', bs', bp'] → m' bt' = u8s ct →
        m' bs' = u8s ss → ct.length = P.ctBytes → ss.length = P.bytes → m' bp' = x.2.1 bp →
      Ret (callKemAes G (withDrbg X' Y' g.1 g.2 2) ("crypto_kem_enc_" ++ nm) [bt', bs', bp'] m' next') fun y => y.1 = .int true 4 0 ∧
        y.2.1 bt' = u8s (katSpec K seed).2.2.1 ∧ y.2.1 bs' = u8s (katSpec K seed).2.2.2 := by
  intro i g
  obtain ⟨hl, hlA, hsm⟩ := aes_sizes hT.standard
  have l := length_drbgUpdate (List.zipWith (· ^^^ ·) seed (List.replicate 48 0)) (List.replicate 32 0) (List.replicate 16 0)
    (by rw [List.length_zipWith]; simp; omega)
  change i.1.length = 32 ∧ i.2.length = 16 at l
  obtain ⟨g0, g1, g2⟩ := length_drbgGenerate i.1 i.2 (2 * K.len + K.lenA)
  have hf := fills_gen i.1 i.2 (2 * K.len + K.lenA)
  generalize hB : (drbgGenerate i.1 i.2 (2 * K.len + K.lenA)).1 = B at hf g0
  have hsp : B = B.take K.len ++ (B.drop K.len).take K.len ++ B.drop (2 * K.len) := by
    rw [Nat.two_mul K.len, ← List.drop_drop, List.append_assoc, List.take_append_drop, List.take_append_drop]
  rw [hsp] at hf
  refine ((h.drbg hY l.1 l.2 (by omega) (by norm_num)).aes_keypair hT (by rw [List.length_take]; omega)
    (by rw [List.length_take, List.length_drop]; omega) (by rw [List.length_drop]; omega) hf hp hk hlp hlk).mono ?_
  rintro x ⟨x1, x2, x3⟩
  have e : katSpec K seed = ((keygen K (B.take K.len) ((B.drop K.len).take K.len) (B.drop (2 * K.len))).1,
      (keygen K (B.take K.len) ((B.drop K.len).take K.len) (B.drop (2 * K.len))).2,
      encaps K (keygen K (B.take K.len) ((B.drop K.len).take K.len) (B.drop (2 * K.len))).1 (drbgGenerate g.1 g.2 K.len).1) := by
    rw [← hB]
    rfl
  refine ⟨x1, by rw [x2, e], by rw [x3, e], fun m' next' bt' bs' bp' ct ss h' a1 a2 a3 a4 a5 => ?_⟩
  refine ((h'.drbg hY' g1 g2 (by omega) (by norm_num)).aes_enc hT (length_drbgGenerate _ _ _).1 (fills_gen g.1 g.2 K.len) a1 a2
    (by rw [a5, x2]) a3 a4 ?_).mono ?_
  · rw [hT.standard.pkLen]
    exact length_keygen_pk hT.standard.kwf _ _ _
  · rintro y ⟨y1, y2, y3⟩
    exact ⟨y1, by rw [y2, e], by rw [y3, e]⟩

end

/-! ## A concrete case -/

/-- C89_kat_aes: FrodoKEM-640-AES with the seed `00 01 … 2f`. -/
example : Ret (callKemAes unitOpt640 (withDrbg (demoFips frodo640 (rbConst [])) demoRng nistKey nistV 1)
    "crypto_kem_keypair_Frodo640" [1, 2] demoKat 10) fun x => x.1 = .int true 4 0 ∧
      x.2.1 1 = u8s (katSpec (Frodo640 .aes) ((List.range 48).map (BitVec.ofNat 8))).1 := by
  have := C89_kat_aes (X := demoFips frodo640 (rbConst [])) (X' := demoFips frodo640 (rbConst [])) .frodo640
    (seed := (List.range 48).map (BitVec.ofNat 8)) (m := demoKat) (bp := 1)
    (bk := 2) (pk := List.replicate 9616 0) (sk := List.replicate 19888 4) demoRng_machine demoRng_machine (by simp)
    (demo_placed _ _ _ (demoOpt_loaded _ _ rfl) rfl (by decide) (by decide)) rfl rfl List.length_replicate List.length_replicate
  rw [nist_init] at this
  exact this.mono fun _ h => ⟨h.1, h.2.1⟩

end Frodo.Props
