import Verif.Proof.TextSponge
import Verif.Proof.TextLink
import Verif.Text.Generic

/-! # `shake128` and `shake256` from the text of /repo/src/sha3/fips202.c -/

namespace Frodo

open Src

/-- The uninitialised arrays of the model, from those of the text: `t` and `s`. -/
def fipsJunk (X : Ctx) : Junk := fun tag i =>
  if tag = 3 then (BitVec.ofInt 64 (X.junk "s" i)).toNat else (BitVec.ofInt 8 (X.junk "t" i)).toNat

theorem fips_globals : (fipsFile.global "KeccakF_RoundConstants").map (fun g => (g.s, g.n, g.array, g.init.map Expr.const)) =
    some (false, 8, true, KeccakF_RoundConstants.map fun c => (c.toNat : Int)) := by kernel_rfl

theorem loaded_table {X : Ctx} {m : Mem} (h : fipsFile.Loaded X m) :
    ∃ bk, X.glob "KeccakF_RoundConstants" = some (.ptr bk 0 false 8) ∧ m bk = u64s KeccakF_RoundConstants := by
  have hg := fips_globals
  cases e : fipsFile.global "KeccakF_RoundConstants" with
  | none => rw [e] at hg; cases hg
  | some g =>
    rw [e] at hg
    simp only [Option.map_some, Option.some.injEq, Prod.mk.injEq] at hg
    obtain ⟨h1, h2, h3, h4⟩ := hg
    have := h _ _ e
    rw [if_pos h3, h1, h2, h4] at this
    exact this

variable {X : Ctx} {d bk : Nat}

theorem spongeJunk : SpongeJunk (link [fipsFile] X d) (fipsJunk X) := by
  have key : ∀ (tag len : Nat), tag ≠ 3 →
      (⟨false, 1, newArr (link [fipsFile] X d) "t" false 1 len none⟩ : Blk) = u8s (uninit (fipsJunk X) tag 8 len) := by
    intro tag len ht
    simp only [newArr, ofU8, uninit, List.map_map, link_junk, u8s, fipsJunk, if_neg ht]
    congr 1
    apply List.map_congr_left
    intro i _
    simp only [Function.comp, BitVec.ofNat_toNat, BitVec.setWidth_eq]
    rw [BitVec.toNat_ofInt, wrap]
    simp
    omega
  refine ⟨key 1 200 (by decide), key 2 168 (by decide), key 2 136 (by decide), ?_⟩
  simp only [newArr, uninit, List.map_map, link_junk, u64s, fipsJunk, if_true]
  congr 1
  apply List.map_congr_left
  intro i _
  simp only [Function.comp, BitVec.ofNat_toNat, BitVec.setWidth_eq]
  rw [BitVec.toNat_ofInt, wrap]
  simp
  omega

theorem fips_fn {f : String} {g : Fun} (h : fipsFile.fn f = some g) : [fipsFile].findSome? (·.fn f) = some g := by
  simp only [List.findSome?, h]

theorem fips_call {f : String} {g : Fun} (h : fipsFile.fn f = some g) (h1 : f ≠ "memset") (h2 : f ≠ "memcpy") (args : List Val) (m : Mem)
    (next : Nat) : (link [fipsFile] X (d + 1)).call f args m next = fipsFile.run (link [fipsFile] X d) f args m next := by
  rw [link_fn (fips_fn h) h1 h2, run_eq h]

theorem fips_leaves (ha : X.arch = .le) (hg : X.glob "KeccakF_RoundConstants" = some (.ptr bk 0 false 8)) :
    Leaves (link [fipsFile] X (d + 1)) bk := by
  refine ⟨by rw [link_arch, ha], ?_, ?_, ?_⟩
  · intro m next b k I h
    rw [fips_call fips_load64 (by decide) (by decide)]
    exact text_load64 _ m next b k I h
  · intro m next b k v L u h1 h2 h3
    rw [fips_call fips_store64 (by decide) (by decide)]
    exact text_store64 _ (by rw [link_arch, ha]) m next b k v L u h1 h2 h3
  · intro m next b S h1 h2 h3
    rw [fips_call fips_permute (by decide) (by decide)]
    obtain ⟨r, t, t', e1, e2, e3⟩ := text_permute (X := link [fipsFile] X d) (M := m) (nx := next) (b := b) (L := S)
      ⟨⟨bk, by rw [link_glob, hg], h1⟩, h2, h3⟩
    intro a t1 e
    rw [e1] at e
    cases e
    exact ⟨_, t', e3, ⟨rfl, e2⟩, fun h => h.elim⟩

theorem fips_blocks (ha : X.arch = .le) (hg : X.glob "KeccakF_RoundConstants" = some (.ptr bk 0 false 8)) :
    Blocks (link [fipsFile] X (d + 2)) bk (fipsJunk X) := by
  refine ⟨by rw [link_arch, ha], spongeJunk, ?_, ?_⟩
  · intro m next bs bi ki r mlen I S h1 h2 h3 h4 h5 h6 h7 h8 h9 h10 h11 h12
    rw [fips_call fips_absorb (by decide) (by decide)]
    exact text_absorb (fips_leaves ha hg) spongeJunk m next bs bi ki r mlen h1 h2 h3 h4 h5 h6 h7 h8 h9 h10 h11 h12
  · intro m next bs bo ko r nb s n v L S h1 h2 h3 h4 h5 h6 h7 h8 h9 h10 h11
    rw [fips_call fips_squeeze (by decide) (by decide)]
    exact text_squeeze (fips_leaves ha hg) m next bs bo ko r nb s n h1 h2 h3 h4 h5 h6 h7 h8 h9 h10 h11

/-- The text of /repo/src/sha3/fips202.c does what the model of `shake128` and `shake256` says, when the table of the round constants is
in memory. -/
theorem fips_sponge (ha : X.arch = .le) (hg : X.glob "KeccakF_RoundConstants" = some (.ptr bk 0 false 8)) :
    SpongeAt (link [fipsFile] X (d + 3)) (fipsJunk X) bk (u64s KeccakF_RoundConstants) := by
  have hB := fips_blocks (d := d) ha hg
  constructor
  · intro N F bo ko bi ki s n s' n' v L I outlen inlen h1 h2 h3 h4 h5 h6 h7 h8 h9 h10 h11 h12 h13 M nx hn hA
    rw [fips_call fips_shake128 (by decide) (by decide)]
    refine (text_shake128 hB M nx bo ko bi ki outlen inlen s n s' n' (by rw [hA _ h4, h1]) h2 (by rw [hA _ h5, h3]) (by omega) (by omega)
      (by omega) h8 h10 h11 h12 h13 (by rw [hA _ h7, h9])).mono ?_
    rintro r x ⟨e1, e2, e3⟩
    exact ⟨e1, by omega, fun b hb => by rw [e3 b (by omega)]; exact (hA.set bo _) b hb⟩
  · intro N F bo ko bi ki s n s' n' v L I outlen inlen h1 h2 h3 h4 h5 h6 h7 h8 h9 h10 h11 h12 h13 M nx hn hA
    rw [fips_call fips_shake256 (by decide) (by decide)]
    refine (text_shake256 hB M nx bo ko bi ki outlen inlen s n s' n' (by rw [hA _ h4, h1]) h2 (by rw [hA _ h5, h3]) (by omega) (by omega)
      (by omega) h8 h10 h11 h12 h13 (by rw [hA _ h7, h9])).mono ?_
    rintro r x ⟨e1, e2, e3⟩
    exact ⟨e1, by omega, fun b hb => by rw [e3 b (by omega)]; exact (hA.set bo _) b hb⟩

end Frodo
