import Verif.Props.MatrixA
import Verif.Props.TextFips

/-! # Properties of the source text of the products with the public matrix A

The text of `frodo_mul_add_as_plus_e` and `frodo_mul_add_sa_plus_e`, in /repo/src/frodo_macrify_reference.c and in
/repo/src/frodo_macrify.c without intrinsics, with rows from the text of `shake128`. -/

namespace Frodo.Props

open Spec Src

/-- C78.  The files of the parameter sets parse with the options for the optimised implementation and SHAKE128. -/
theorem C78_parse : parseText optShake sources frodo640Text = some unitFast640 ∧
    parseText optShake sources frodo976Text = some unitFast976 ∧ parseText optShake sources frodo1344Text = some unitFast1344 :=
  ⟨unitFast640_parse, unitFast976_parse, unitFast1344_parse⟩

theorem sponge_files {G : File} {X : Ctx} {J : Junk} {d bk : Nat} {xk : Blk} (hx : G.Leaves) (hS : SpongeAt X J bk xk) :
    SpongeAt (link [utilFile, G] X d) J bk xk := by
  obtain ⟨-, -, -, -, -, -, -, -, -, z10, z11, -⟩ := utilFile_none
  exact hS.link (by simp only [List.findSome?, z10, hx.s128]) (by simp only [List.findSome?, z11, hx.s256])

section

variable {G : File} {P : Params} {K : KemParams} {nm : String} (hT : KemText G P K nm) (X : Ctx) (d f : Nat) (ha : X.arch = .le)
include hT ha

/-- C78, `frodo_mul_add_as_plus_e`: the text returns 1, with `A*s + e` modulo `2^16` in the buffer for it, where A is Frodo.Gen of the
seed, and nothing else in memory changed.  The arrays may be anywhere in their blocks; `e` at a multiple of four bytes, since the
optimised text reads it in pieces of 32 bits. -/
theorem C78_as (m : Mem) (next bo bs be bi ks ke ki : Nat) (O S Z : List U16) (I : List U8) (hL : fipsFile.Loaded X m)
    (ho : m bo = u16s O) (hs : m bs = u16s S) (he : m be = u16s Z) (hi : m bi = u8s I) (b1 : bo < next) (b2 : bs < next)
    (b3 : be < next) (b4 : bi < next) (n1 : bs ≠ bo) (n2 : be ≠ bo) (n3 : bi ≠ bo) (lo : P.n * P.nbar ≤ O.length)
    (ls : ks + P.nbar * P.n ≤ S.length) (le : ke + P.n * P.nbar ≤ Z.length) (li : ki + 16 ≤ I.length) (hke : ke % 2 = 0)
    (hg : ∀ b, X.glob "KeccakF_RoundConstants" = some (.ptr b 0 false 8) → b < next ∧ b ≠ bo) :
    Ret (G.run (link [utilFile, G] (link [fipsFile] X (f + 3)) d) "frodo_mul_add_as_plus_e"
        [.ptr bo 0 false 2, .ptr bs ks false 2, .ptr be ke false 2, .ptr bi ki false 1] m next)
      fun x => x.1 = .int true 4 1 ∧
        x.2.1 bo = u16s (ofMat (genA .shake 16 P.n ((I.drop ki).take 16) * (toMat 16 P.nbar P.n (S.drop ks)).transpose +
          toMat 16 P.n P.nbar (Z.drop ke)) ++ O.drop (P.n * P.nbar)) ∧
        ∀ b, b < next → b ≠ bo → x.2.1 b = m b := by
  obtain ⟨bk, k1, k2⟩ := loaded_table hL
  obtain ⟨g1, g2⟩ := hg _ k1
  obtain ⟨i, hv⟩ := hT.impl
  have hv' : i ≠ .avx2 := by rcases hv with ⟨rfl, -⟩ | ⟨rfl, -⟩ <;> decide
  let X' := link [fipsFile] X (f + 3)
  have ha' : X'.arch = .le := by rw [link_arch, ha]
  have hS : SpongeAt X' (textEnv X' (fipsJunk X) "").junk bk _ := SpongeAt.junk (fips_sponge (d := f) ha k1) rfl rfl rfl
  have hS' := sponge_files (d := d) hT.leaves hS
  have j1 : JunkAt (textEnv X' (fipsJunk X) "") X' 31 8 "seed_A_separated" := fun i => BitVec.ofNat_toNat ..
  have hC := C28_as_plus_e (textBuild i) (textEnv X' (fipsJunk X) "") P 0 0 O (S.drop ks) (Z.drop ke) (I.drop ki) hT.standard.wf
    ⟨text_aligned (fun _ => rfl) hv', fun _ => ⟨rfl, rfl⟩⟩ (by rw [List.length_drop]; omega) lo (by rw [List.length_drop]; omega)
    (by rw [List.length_drop]; omega)
  have hR : Refines False (frodo_mul_add_as_plus_e (textBuild i) (textEnv X' (fipsJunk X) "") P 0 0 O (S.drop ks) (Z.drop ke) (I.drop ki))
      (G.run (link [utilFile, G] X' d) "frodo_mul_add_as_plus_e"
        [.ptr bo 0 false 2, .ptr bs ks false 2, .ptr be ke false 2, .ptr bi ki false 1] m next)
      fun r x => x.1 = .int true 4 1 ∧ next ≤ x.2.2 ∧ MAgree next x.2.1 (m.set bo (u16s r)) := by
    rcases hv with ⟨rfl, hv⟩ | ⟨rfl, hv⟩
    · rw [run_eq hv.mulAs]
      exact text_mul_as hT.small rfl rfl ha' hS' j1 ho hs he hi g1 k2 b1 b2 b3 b4 n1 n2 (by omega) (by omega) (by omega)
    · rw [run_eq hv.mulAs]
      exact text_mul_as_opt hT.small rfl rfl rfl ha' hS' j1 ho hs he hi g1 k2 g2 b1 b2 b3 b4 n1 n2 n3 (by omega) (by omega) (by omega) hke
  refine ret_refines hR hC ?_
  rintro r x rfl ⟨e1, -, e3⟩
  exact ⟨e1, by rw [e3 bo b1, set_same]; rfl, fun b l1 l2 => by rw [e3 b l1, set_ne _ _ l2]⟩

/-- C78, `frodo_mul_add_sa_plus_e`: the text returns 1, with `s*A + e` modulo `2^16` in the buffer for it.  `s` and `e` are in one
block, as in /repo/src/kem.c; `e` is as before (reference implementation) or holds the result too (optimised), and nothing else in
memory is changed. -/
theorem C78_sa (m : Mem) (next bo bs bi k ki : Nat) (O S : List U16) (I : List U8) (hL : fipsFile.Loaded X m)
    (ho : m bo = u16s O) (hs : m bs = u16s S) (hi : m bi = u8s I) (b1 : bo < next) (b2 : bs < next) (b4 : bi < next) (n1 : bs ≠ bo)
    (lo : P.nbar * P.n ≤ O.length) (lk : P.nbar * P.n ≤ k) (ls : k + P.nbar * P.n ≤ S.length) (li : ki + 16 ≤ I.length)
    (hg : ∀ b, X.glob "KeccakF_RoundConstants" = some (.ptr b 0 false 8) → b < next ∧ b ≠ bo ∧ b ≠ bs) :
    Ret (G.run (link [utilFile, G] (link [fipsFile] X (f + 3)) d) "frodo_mul_add_sa_plus_e"
        [.ptr bo 0 false 2, .ptr bs 0 false 2, .ptr bs k false 2, .ptr bi ki false 1] m next)
      fun x => x.1 = .int true 4 1 ∧ ∃ R : List U16,
        R = ofMat (toMat 16 P.nbar P.n (S.take k) * genA .shake 16 P.n ((I.drop ki).take 16) + toMat 16 P.nbar P.n (S.drop k)) ∧
        x.2.1 bo = u16s (R ++ O.drop (P.nbar * P.n)) ∧
        (x.2.1 bs = u16s S ∨ x.2.1 bs = u16s (S.take k ++ (R ++ S.drop (k + P.nbar * P.n)))) ∧
        ∀ b, b < next → b ≠ bo → b ≠ bs → x.2.1 b = m b := by
  obtain ⟨bk, k1, k2⟩ := loaded_table hL
  obtain ⟨g1, g2, g3⟩ := hg _ k1
  obtain ⟨i, hv⟩ := hT.impl
  have hv' : i ≠ .avx2 := by rcases hv with ⟨rfl, -⟩ | ⟨rfl, -⟩ <;> decide
  let X' := link [fipsFile] X (f + 3)
  have ha' : X'.arch = .le := by rw [link_arch, ha]
  have hS : SpongeAt X' (textEnv X' (fipsJunk X) "").junk bk _ := SpongeAt.junk (fips_sponge (d := f) ha k1) rfl rfl rfl
  have hS' := sponge_files (d := d) hT.leaves hS
  have j1 : JunkAt (textEnv X' (fipsJunk X) "") X' 31 8 "seed_A_separated" := fun i => BitVec.ofNat_toNat ..
  have j2 : JunkAt (textEnv X' (fipsJunk X) "") X' 36 16 "sp" := fun i => BitVec.ofNat_toNat ..
  have hC := C29_sa_plus_e (textBuild i) (textEnv X' (fipsJunk X) "") P 0 O (S.take k) (S.drop k) (I.drop ki) hT.standard.wf (.inr rfl)
    ⟨text_aligned (fun _ => rfl) hv', fun h => absurd h hv'⟩ (by rw [List.length_drop]; omega) lo (by rw [List.length_take]; omega)
    (by rw [List.length_drop]; omega)
  have hR : Refines False (frodo_mul_add_sa_plus_e (textBuild i) (textEnv X' (fipsJunk X) "") P 0 O (S.take k) (S.drop k) (I.drop ki))
      (G.run (link [utilFile, G] X' d) "frodo_mul_add_sa_plus_e"
        [.ptr bo 0 false 2, .ptr bs 0 false 2, .ptr bs k false 2, .ptr bi ki false 1] m next)
      fun r x => x.1 = .int true 4 1 ∧ MAgree next x.2.1 ((m.set bo (u16s r.1)).set bs (u16s (S.take k ++ r.2))) := by
    rcases hv with ⟨rfl, hv⟩ | ⟨rfl, hv⟩
    · rw [run_eq hv.mulSa]
      intro a t e
      obtain ⟨r, t1, t2, e1, e2, -⟩ := Frodo.bind_ok e
      cases e2
      obtain ⟨x, t', f1, ⟨f2, -, f3⟩, -⟩ := text_mul_sa (P := P) (B := textBuild .reference) hT.small rfl rfl ha' hS' j1 ho hs hi g1 k2 b1 b2 b4 n1
        (by omega) (by omega) r t1 e1
      refine ⟨x, t', f1, ⟨f2, fun b hb => ?_⟩, nofun⟩
      have h5 : (m.set bo (u16s r)) bs = u16s S := by rw [set_ne _ _ n1, hs]
      rw [f3 b hb, List.take_append_drop, set_self _ h5]
    · rw [run_eq hv.mulSa]
      exact (text_mul_sa_opt hT.small rfl rfl rfl ha' hS' j1 j2 ho hs hi g1 k2 g3 b1 b2 b4 n1 (by omega) (by omega)).mono
        fun _ _ h => ⟨h.1, h.2.2⟩
  refine ret_refines hR hC ?_
  rintro ⟨r, z⟩ x ⟨h1, h2⟩ ⟨e1, e3⟩
  dsimp only at h1 h2
  refine ⟨e1, _, rfl, ?_, ?_, fun b l1 l2 l3 => ?_⟩
  · rw [e3 bo b1, set_ne _ _ (Ne.symm n1), set_same, h1]; rfl
  · rw [e3 bs b2, set_same, h2]
    split
    · exact .inl (by rw [List.take_append_drop])
    · exact .inr (by rw [List.drop_drop]; rfl)
  · rw [e3 b l1, set_ne _ _ l3, set_ne _ _ l2]

end

/-! ## Concrete cases -/

theorem demoFast_loaded (rb : RandomBytes) (m : Mem) (h : m 0 = u16s frodo640.cdf) :
    unitFast640.Loaded (demoFips frodo640 rb) m := by
  have h0 : unitFast640.globals.map (·.name) = ["CDF_TABLE", "CDF_TABLE_LEN"] := by kernel_rfl
  intro x g hg
  have hx : x = "CDF_TABLE" ∨ x = "CDF_TABLE_LEN" := by
    have h1 := List.find?_some hg
    have h2 : g.name ∈ unitFast640.globals.map (·.name) := List.mem_map_of_mem (List.mem_of_find?_eq_some hg)
    rw [h0] at h2
    have h3 : g.name = x := by simpa using h1
    rw [← h3]
    simpa using h2
  rcases hx with rfl | rfl
  · rw [unitFast640_isUnit.cdf] at hg
    cases hg
    exact ⟨0, rfl, by rw [h, List.map_map]; rfl⟩
  · rw [unitFast640_isUnit.cdfLen] at hg
    cases hg
    exact ⟨_, rfl, rfl⟩

/-- The keys of FrodoKEM-640 for given random bytes, from the text of the optimised implementation. -/
example : ∃ m : Mem, Ret (unitFast640.run (link [utilFile, unitFast640] (link [fipsFile]
      (demoFips frodo640 (rbConst ((List.range 48).map (BitVec.ofNat 8)))) 3) 1)
      "crypto_kem_keypair_Frodo640" [.ptr 1 0 false 1, .ptr 2 0 false 1] m 10)
    fun x => x.1 = .int true 4 0 ∧ x.2.1 1 = u8s (keygen (Frodo640 .shake) ((List.range 16).map (BitVec.ofNat 8))
      ((List.range' 16 16).map (BitVec.ofNat 8)) ((List.range' 32 16).map (BitVec.ofNat 8))).1 :=
  ⟨fun b => if b = 0 then u16s frodo640.cdf else if b = 1 then u8s (List.replicate 9616 0) else if b = 9 then
      u64s KeccakF_RoundConstants else u8s (List.replicate 19888 0),
  (C77_keypair .fast640 _ _ 0 0 rfl (demoFips_rand _ _) ((List.range 16).map (BitVec.ofNat 8))
    ((List.range' 16 16).map (BitVec.ofNat 8)) ((List.range' 32 16).map (BitVec.ofNat 8)) rfl rfl rfl (fills_const _)
    _ 10 1 2 (List.replicate 9616 0) (List.replicate 19888 0) (demoFast_loaded _ _ rfl) (demoFips_table _ _ _ rfl) rfl rfl
    List.length_replicate List.length_replicate (by decide) (by decide) (by decide) (fun b h => by cases h; decide)
    (fun b h => by cases h; decide)).mono fun _ h => ⟨h.1, h.2.1⟩⟩

/-- `A*s + e` with the optimised implementation: `s` from the first, `e` from the third of the elements of one array, and the seed
from byte 48 of another. -/
example (rb : RandomBytes) (S : List U16) (hS : S.length = 10242) (I : List U8) (hI : I.length = 64) (m : Mem) (h1 : m 1 = u16s
    (List.replicate 5120 0)) (h2 : m 2 = u16s S) (h3 : m 3 = u8s I) (h9 : m 9 = u64s KeccakF_RoundConstants) :
    Ret (unitFast640.run (link [utilFile, unitFast640] (link [fipsFile] (demoFips frodo640 rb) 3) 1) "frodo_mul_add_as_plus_e"
        [.ptr 1 0 false 2, .ptr 2 0 false 2, .ptr 2 2 false 2, .ptr 3 48 false 1] m 10)
      fun x => x.2.1 1 = u16s (ofMat (genA .shake 16 640 ((I.drop 48).take 16) * (toMat 16 8 640 S).transpose +
        toMat 16 640 8 (S.drop 2))) :=
  (C78_as .fast640 _ _ 0 rfl m 10 1 2 2 3 0 2 48 (List.replicate 5120 0) S S I (demoFips_table _ _ _ h9) h1 h2 h2 h3 (by decide)
    (by decide) (by decide) (by decide) (by decide) (by decide) (by decide) (by rw [List.length_replicate]; decide) (by rw [hS]; decide)
    (by rw [hS]; decide) (by rw [hI]) (by decide) (fun b h => by cases h; decide)).mono fun _ h =>
      h.2.1.trans (congrArg u16s (by rw [List.drop_replicate, show 5120 - frodo640.n * frodo640.nbar = 0 from rfl, List.replicate_zero, List.append_nil]; rfl))

/-- `s*A + e` with the reference implementation of FrodoKEM-1344. -/
example (rb : RandomBytes) (S : List U16) (hS : S.length = 21504) (I : List U8) (hI : I.length = 16) (m : Mem) (h1 : m 1 = u16s
    (List.replicate 10752 0)) (h2 : m 2 = u16s S) (h3 : m 3 = u8s I) (h9 : m 9 = u64s KeccakF_RoundConstants) :
    Ret (unit1344.run (link [utilFile, unit1344] (link [fipsFile] (demoFips frodo1344 rb) 3) 1) "frodo_mul_add_sa_plus_e"
        [.ptr 1 0 false 2, .ptr 2 0 false 2, .ptr 2 10752 false 2, .ptr 3 0 false 1] m 10)
      fun x => ∃ R, x.2.1 1 = u16s (ofMat R) ∧
        R = toMat 16 8 1344 (S.take 10752) * genA .shake 16 1344 (I.take 16) + toMat 16 8 1344 (S.drop 10752) :=
  (C78_sa .frodo1344 _ _ 0 rfl m 10 1 2 3 10752 0 (List.replicate 10752 0) S I (demoFips_table _ _ _ h9) h1 h2 h3 (by decide)
    (by decide) (by decide) (by decide) (Nat.le_of_eq List.length_replicate.symm) (Nat.le_refl _) (Nat.le_of_eq hS.symm) (by rw [hI])
    (fun b h => by cases h; decide)).mono fun _ h => by
      obtain ⟨-, R, e, h, -⟩ := h
      refine ⟨_, h.trans (congrArg u16s ?_), rfl⟩
      rw [List.drop_replicate, show 10752 - frodo1344.nbar * frodo1344.n = 0 from rfl, List.replicate_zero, List.append_nil, e]
      rfl

end Frodo.Props
