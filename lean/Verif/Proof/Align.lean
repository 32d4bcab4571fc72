import Verif.Proof.OsslFail
import Verif.Proof.MatrixA2

/-! # Conditions that hold whenever a computation returns (proof device for C55) -/

namespace Frodo

variable {α β σ : Type}

/-- If `m` returns, then `Q` (proof device). -/
def Needs (m : C α) (Q : Prop) : Prop := ∀ a t, m = .ok a t → Q

theorem Needs.bind {m : C α} {f : α → C β} {Q : Prop} (h : Needs m Q) : Needs (m >>= f) Q := by
  intro b t hb
  obtain ⟨a, u, v, h1, -⟩ := of_bind_ok hb
  exact h a u h1

theorem Needs.after {m : C α} {f : α → C β} {Q : Prop} (h : ∀ a, Needs (f a) Q) :
    Needs (m >>= f) Q := by
  intro b t hb
  obtain ⟨a, u, v, -, h2⟩ := of_bind_ok hb
  exact h a b v h2

theorem Needs.mono {m : C α} {Q Q' : Prop} (h : Needs m Q) (hq : Q → Q') : Needs m Q' :=
  fun a t ht => hq (h a t ht)

theorem Needs.and {m : C α} {Q Q' : Prop} (h : Needs m Q) (h' : Needs m Q') : Needs m (Q ∧ Q') :=
  fun a t ht => ⟨h a t ht, h' a t ht⟩

theorem Needs.imp {m : C α} {H Q : Prop} (h : H → Needs m Q) : Needs m (H → Q) :=
  fun a t ht hh => h hh a t ht

theorem Needs.require {Q : Prop} [Decidable Q] {u : UB} : Needs (C.require Q u) Q := by
  intro a t h
  unfold C.require at h
  split at h
  · assumption
  · cases h

theorem Needs.forC {hi step : Nat} {s : σ} {f : Nat → σ → C σ} {Q : Prop} (hs : 0 < step) (hh : 0 < hi)
    (h : ∀ s, Needs (f 0 s) Q) : Needs (Frodo.forC 0 hi step s f) Q := by
  unfold Frodo.forC
  obtain ⟨k, hk⟩ : ∃ k, (hi - 0 + (step - 1)) / step = k + 1 :=
    Nat.exists_eq_succ_of_ne_zero (Nat.pos_iff_ne_zero.mp (Nat.div_pos (by omega) hs))
  rw [hk]
  exact Needs.after fun _ => (h _).bind

theorem Needs.while {c : σ → Bool} {f : σ → C σ} {s : σ} {Q : Prop} (hc : c s = true) (h : Needs (f s) Q) :
    Needs (whileC c f s) Q := by
  rw [whileC, if_pos hc]
  exact Needs.after fun _ => h.bind

theorem Needs.of_ub {m : C α} {Q : Prop} {u : UB} (h : m = .ub u) : Needs m Q := by
  intro a t ht
  rw [h] at ht
  cases ht

variable {B : Build} {E : Env} {P : Params}

theorem Needs.setup128 {I : AesImpl} {seed : List U8} :
    Needs (Frodo.setup128 (.standalone I) E seed) (I.aligned (E.addr .aesSched)) := by
  cases I with
  | c => exact fun _ _ _ h => (nomatch h)
  | ni =>
    refine Needs.bind (Needs.after fun _ => Needs.bind (Needs.bind ?_))
    exact Needs.require.mono fun h _ => h

theorem Needs.squeeze4x {h : Four (List U8)} {n r : Nat} {ss : List U64} (hn : 0 < n) :
    Needs (keccak_squeezeblocks4x E h n ss r) E.rhoAligned := by
  refine Needs.bind (Needs.while (decide_eq_true hn) (Needs.bind (Needs.bind ?_)))
  exact Needs.require

theorem Needs.shakeRows4 {i r : Nat} {st : List U16 × Four (List U8)} (hn : 168 ≤ 2 * P.n) :
    Needs (Frodo.shakeRows4 B E P i r st) E.rhoAligned := by
  unfold Frodo.shakeRows4
  iterate 5 refine Needs.after fun _ => ?_
  refine Needs.bind (Needs.after fun _ => Needs.bind (Needs.squeeze4x ?_))
  exact Nat.div_pos hn (by decide)

theorem Needs.seeds4 {seed : List U8} : Needs (Frodo.seeds4 E P seed) (∀ k, E.addr (.sep k) % 2 = 0) :=
  Needs.require.bind

/-- The AES of the library itself, or no AES (proof device). -/
def Build.own (B : Build) : Prop := B.gen = .aes → ∃ I, B.aes = .standalone I

theorem Needs.genA_memory (hB : B.own) {seed : List U8} (hi : B.impl = .reference) :
    Needs (Frodo.genA_memory B E P seed) (B.alignedGen E) := by
  unfold Frodo.genA_memory
  cases hg : B.gen
  · obtain ⟨I, hI⟩ := hB hg
    simp only [hI]
    refine Needs.after fun _ => Needs.bind (Needs.setup128.mono fun h => ?_)
    refine ⟨fun _ => ?_, fun h => ?_, fun h => ?_⟩
    · rw [hI]; exact h
    · rw [hi] at h; cases h
    · rw [hg] at h; cases h
  · refine Needs.bind (Needs.require.mono fun h => ?_)
    refine ⟨fun h => ?_, fun h => ?_, fun _ k hk => ?_⟩
    · rw [hg] at h; cases h
    · rw [hi] at h; cases h
    · rcases hk with rfl | hk
      · exact h
      · rw [hi] at hk; cases hk

theorem Needs.genA_reference (hB : B.own) {seed : List U8} (hi : B.impl = .reference) :
    Needs (Frodo.genA_reference B E P seed) (B.alignedGen E) :=
  (Needs.genA_memory hB hi).bind

theorem Needs.as_plus_e (hP : 168 ≤ 2 * P.n) (hb : 0 < P.nbar) (hB : B.own) {outAddr eAddr : Nat}
    {out s e : List U16} {seed : List U8} :
    Needs (frodo_mul_add_as_plus_e B E P outAddr eAddr out s e seed) (B.alignedAs E outAddr eAddr) := by
  have opt : B.impl ≠ .reference →
      Needs (as_plus_e_optimized B E P outAddr eAddr out s e seed) (B.alignedAs E outAddr eAddr) := by
    intro hi
    unfold as_plus_e_optimized as_plus_e_optimized_full
    refine Needs.bind (Needs.and ?_ (Needs.imp fun _ => Needs.bind
      (Needs.forC (by decide) (Nat.mul_pos (by omega) hb) fun _ => Needs.bind
        (Needs.require.mono fun h => ⟨by omega, by omega⟩))))
    refine Needs.after fun _ => ?_
    cases hg : B.gen
    · obtain ⟨I, hI⟩ := hB hg
      simp only [hI]
      refine Needs.bind (Needs.setup128.mono fun h => ⟨fun _ => ?_, fun _ h => ?_, fun h => ?_⟩)
      · rw [hI]; exact h
      · rw [hg] at h; cases h
      · rw [hg] at h; cases h
    · have hg' : ¬ B.gen = .aes := fun h => by rw [hg] at h; cases h
      cases hm : B.impl
      · exact absurd hm hi
      · refine Needs.bind (Needs.require.mono fun h =>
          ⟨fun h' => absurd h' hg', fun h => ?_, fun _ k hk => ?_⟩)
        · rw [hm] at h; cases h
        · rcases hk with rfl | hk
          · exact h
          · rw [hm] at hk; cases hk
      · refine Needs.mono (Needs.and Needs.seeds4.bind (Needs.after fun _ => Needs.bind (Needs.bind ?_)))
          fun h => ⟨fun h' => absurd h' hg', fun _ _ => h.2, fun _ k _ => h.1 k⟩
        exact Needs.forC (by decide) (by omega) fun _ => (Needs.shakeRows4 hP).bind
  unfold frodo_mul_add_as_plus_e
  cases hi : B.impl
  · exact ((Needs.genA_reference hB hi).bind.bind).mono fun h => ⟨h, fun h => absurd hi h⟩
  · exact opt (fun h => by rw [hi] at h; cases h)
  · exact opt (fun h => by rw [hi] at h; cases h)

theorem Needs.mm256_load {addr off : Nat} {l : List U16} :
    Needs (Frodo.mm256_load addr l off) ((addr + 2 * off) % 32 = 0) :=
  Needs.after fun _ => Needs.require.bind

theorem Needs.sa_accumulate (hn : 0 < P.n) (hb : 0 < P.nbar) (hi : B.impl = .avx2) {eAddr i : Nat}
    {s A e : List U16} :
    Needs (Frodo.sa_accumulate B E P eAddr s i A e) (E.addr .A % 32 = 0 ∧ eAddr % 32 = 0) := by
  unfold Frodo.sa_accumulate
  rw [hi]
  refine Needs.forC (by decide) hb fun _ => Needs.after fun _ => Needs.forC (by decide) hn fun _ => ?_
  refine Needs.and (Needs.after fun _ => Needs.bind (Needs.forC (by decide) (by decide) fun _ =>
    (Needs.mm256_load.mono fun h => ?_).bind)) (Needs.mm256_load.mono fun h => ?_).bind
  · simpa using h
  · simpa using h

theorem Needs.sa_loop {γ : Type} (hn : 0 < P.n) {eAddr : Nat} {s : List U16}
    {gen : Nat → List U16 × γ → C (List U16 × γ)} {A : List U16} {g : γ} {e : List U16} {Q : Prop}
    (h : ∀ i st, Needs (gen i st) Q) (hb : 0 < P.nbar) :
    Needs (Frodo.sa_loop B E P eAddr s gen A g e)
      (Q ∧ (B.impl = .avx2 → E.addr .A % 32 = 0 ∧ eAddr % 32 = 0)) := by
  refine Needs.bind (Needs.forC (by decide) hn fun _ => Needs.and (h _ _).bind
    (Needs.imp fun hi => Needs.after fun _ => (Needs.sa_accumulate hn hb hi).bind))

theorem Needs.trivial {m : C α} : Needs m True := fun _ _ _ => True.intro

theorem Needs.sa_plus_e (hP : 168 ≤ 2 * P.n) (hb : 0 < P.nbar) (hB : B.own) {eAddr : Nat}
    {out s e : List U16} {seed : List U8} :
    Needs (frodo_mul_add_sa_plus_e B E P eAddr out s e seed) (B.alignedSa E eAddr) := by
  have hn : 0 < P.n := by omega
  have opt : B.impl ≠ .reference →
      Needs (sa_plus_e_optimized B E P eAddr out s e seed) (B.alignedSa E eAddr) := by
    intro hi
    unfold sa_plus_e_optimized sa_plus_e_optimized_full sa_plus_e_core
    refine Needs.bind (Needs.bind ?_)
    cases hg : B.gen
    · obtain ⟨I, hI⟩ := hB hg
      simp only [hI]
      refine Needs.and (Needs.bind (Needs.setup128.mono fun h => ⟨fun _ => ?_, fun _ h => ?_, fun h => ?_⟩))
        (Needs.after fun _ => Needs.after fun _ => Needs.bind
          ((Needs.sa_loop hn (fun _ _ => Needs.trivial) hb).mono fun h => h.2))
      · rw [hI]; exact h
      · rw [hg] at h; cases h
      · rw [hg] at h; cases h
    · have hg' : ¬ B.gen = .aes := fun h => by rw [hg] at h; cases h
      cases hm : B.impl
      · exact absurd hm hi
      · refine Needs.bind (Needs.require.mono fun h =>
          ⟨⟨fun h' => absurd h' hg', fun h => ?_, fun _ k hk => ?_⟩, fun h => ?_⟩)
        · rw [hm] at h; cases h
        · rcases hk with rfl | hk
          · exact h
          · rw [hm] at hk; cases hk
        · rw [hm] at h; cases h
      · refine Needs.mono (Needs.and Needs.seeds4.bind (Needs.after fun _ => Needs.bind
            (Needs.sa_loop hn (fun _ _ => (Needs.shakeRows4 hP).bind) hb)))
          fun h => ⟨⟨fun h' => absurd h' hg', fun _ _ => h.2.1, fun _ k _ => h.1 k⟩, h.2.2⟩
  unfold frodo_mul_add_sa_plus_e
  cases hi : B.impl
  · exact ((Needs.genA_reference hB hi).bind.bind.bind).mono
      fun h => ⟨h, fun h => by rw [hi] at h; cases h⟩
  · exact opt (fun h => by rw [hi] at h; cases h)
  · exact opt (fun h => by rw [hi] at h; cases h)

theorem Needs.keypair (hP : 168 ≤ 2 * P.n) (hb : 0 < P.nbar) (hB : B.own) {rb : RandomBytes}
    {pk sk : List U8} : Needs (crypto_kem_keypair B E P rb pk sk)
      (B.alignedAs E (E.addr .B) (E.addr .S + 2 * (P.n * P.nbar))) := by
  unfold crypto_kem_keypair
  iterate 6 refine Needs.after fun _ => ?_
  exact (Needs.as_plus_e hP hb hB).bind

theorem Needs.mulSA (hP : 168 ≤ 2 * P.n) (hb : 0 < P.nbar) (hB : B.own) {Bp Sp : List U16}
    {seedA : List U8} : Needs (Frodo.mulSA B E P Bp Sp seedA)
      (B.alignedSa E (E.addr .Sp + 2 * (P.n * P.nbar))) :=
  Needs.after fun _ => (Needs.sa_plus_e hP hb hB).bind

theorem Needs.encryptMu {a : Nat} {Sp Bm V Cm : List U16} {pkb mu : List U8} :
    Needs (Frodo.encryptMu P a Sp Bm V Cm pkb mu) (a % 2 = 0) := by
  unfold Frodo.encryptMu
  iterate 4 refine Needs.after fun _ => ?_
  exact Needs.require.bind

theorem Needs.enc (hP : 168 ≤ 2 * P.n) (hb : 0 < P.nbar) (hB : B.own) {rb : RandomBytes}
    {ct ss pk : List U8} : Needs (crypto_kem_enc B E P rb ct ss pk)
      (B.alignedSa E (E.addr .Sp + 2 * (P.n * P.nbar)) ∧ (E.addr .G2in + P.bytes) % 2 = 0) := by
  unfold crypto_kem_enc
  iterate 5 refine Needs.after fun _ => ?_
  refine Needs.and (Needs.mulSA hP hb hB).bind ?_
  iterate 4 refine Needs.after fun _ => ?_
  exact Needs.encryptMu.bind

theorem Needs.dec (hP : 168 ≤ 2 * P.n) (hb : 0 < P.nbar) (hB : B.own) {skAddr : Nat}
    {ss ct sk : List U8} : Needs (crypto_kem_dec B E P skAddr ss ct sk)
      ((B.alignedSa E (E.addr .Sp + 2 * (P.n * P.nbar)) ∧ (E.addr .G2in + P.bytes) % 2 = 0) ∧
        (skAddr + (P.bytes + P.pkBytes)) % 2 = 0) := by
  unfold crypto_kem_dec
  refine Needs.and ?_ Needs.require.bind.bind
  iterate 6 refine Needs.after fun _ => ?_
  refine Needs.and (Needs.mulSA hP hb hB).bind ?_
  iterate 3 refine Needs.after fun _ => ?_
  exact Needs.encryptMu.bind

end Frodo
