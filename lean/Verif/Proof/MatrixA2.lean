import Verif.Proof.MatrixA

/-! # Multiplication by A, optimised code -/

namespace Frodo

open Spec

theorem as_accumulate_ret {B : Build} {P : Params} {seed : List U8} {s a_row out : List U16}
    {i : Nat} (hl : a_row.length = 4 * P.n) (h : RowsAre B.arch B.gen P.n seed a_row i 4)
    (hi : i + 4 ≤ P.n) (hsl : P.nbar * P.n ≤ s.length) (hout : P.n * P.nbar ≤ out.length) :
    Ret (as_accumulate B P s i a_row out) (fun x => x.1.length = 4 * P.n ∧
      x.2.length = out.length ∧ (∀ r c, r < P.n → c < P.nbar → zq 16 (nth x.2 (r * P.nbar + c)) =
        (if i ≤ r ∧ r < i + 4 then prodAS B.gen P.n seed s r c else 0)
          + zq 16 (nth out (r * P.nbar + c))) ∧
      ∀ t, P.n * P.nbar ≤ t → nth x.2 t = nth out t) := by
  unfold as_accumulate
  refine (le_loop_ret hl).bind_eq ?_
  rw [rows_map hl h]
  have hlA := length_rowsA B.gen P.n seed i 4
  refine Ret.bind (Q := fun o => o.length = out.length ∧
    (∀ r c, r < P.n → c < P.nbar → zq 16 (nth o (r * P.nbar + c)) =
        (if i ≤ r ∧ r < i + 4 then prodAS B.gen P.n seed s r c else 0)
          + zq 16 (nth out (r * P.nbar + c))) ∧
      ∀ t, P.n * P.nbar ≤ t → nth o t = nth out t) ?_ ?_
  · refine Ret.for1 (fun k o => o.length = out.length ∧
      (∀ r c, r < P.n → c < P.nbar → zq 16 (nth o (r * P.nbar + c)) =
        (if i ≤ r ∧ r < i + 4 ∧ c < k then prodAS B.gen P.n seed s r c else 0)
          + zq 16 (nth out (r * P.nbar + c))) ∧
      ∀ t, P.n * P.nbar ≤ t → nth o t = nth out t)
      ⟨rfl, fun r c _ _ => by rw [if_neg (by omega), zero_add], fun _ _ => rfl⟩ ?_ ?_
    · rintro k o hk ⟨hol, hov, hot⟩
      refine Ret.bind (Q := fun sum => sum.length = 4 ∧ ∀ r, r < 4 →
        zq 16 (nth sum r) = prodAS B.gen P.n seed s (i + r) k) ?_ ?_
      · refine Ret.for1 (fun K sum => sum.length = 4 ∧ ∀ r, r < 4 → zq 16 (nth sum r) =
          ∑ j ∈ Finset.range K, (genWord B.gen P.n seed (i + r) j : ZMod (2 ^ 16)) *
            zq 16 (nth s (k * P.n + j))) ⟨by simp, ?_⟩ ?_ (fun _ h => h)
        · intro r hr
          rw [nth_replicate, if_pos hr]; simp [zq]
        · rintro j sum hj ⟨hsuml, hsum⟩
          have h2 := idx_lt hk hj
          have hr := fun r (hr : r < 4) => idx_lt hr hj
          have acc := fun r (hr : r < 4) => acc_step
            (x := BitVec.ofNat 16 (genWord B.gen P.n seed (i + r) j))
            (y := nth s (k * P.n + j)) (hsum r hr)
          obtain ⟨a1, a2, a3⟩ := acc 0 (by omega)
          obtain ⟨b1, b2, b3⟩ := acc 1 (by omega)
          obtain ⟨c1, c2, c3⟩ := acc 2 (by omega)
          obtain ⟨d1, d2, d3⟩ := acc 3 (by omega)
          have r0 := hr 0 (by omega)
          have r1 := hr 1 (by omega)
          have r2 := hr 2 (by omega)
          have r3 := hr 3 (by omega)
          have n0 := nth_rowsA (g := B.gen) (seed := seed) (base := i) (show 0 < 4 by omega) hj
          have n1 := nth_rowsA (g := B.gen) (seed := seed) (base := i) (show 1 < 4 by omega) hj
          have n2 := nth_rowsA (g := B.gen) (seed := seed) (base := i) (show 2 < 4 by omega) hj
          have n3 := nth_rowsA (g := B.gen) (seed := seed) (base := i) (show 3 < 4 by omega) hj
          simp only [wp, List.length_set]
          simp (discharger := (first | omega | (simp only [List.length_set]; omega))) only
            [nth_set_ne, n0, n1, n2, n3]
          refine ⟨by omega, by omega, by omega, a1, a2, by omega, by omega, by omega, b1, b2,
            by omega, by omega, by omega, c1, c2, by omega, by omega, by omega, d1, d2,
            by omega, hsuml, ?_⟩
          intro r hr4
          rw [Finset.sum_range_succ]
          match r, hr4 with
          | 0, _ =>
            simp (discharger := (first | omega | (simp only [List.length_set]; omega))) only
              [nth_set_ne, nth_set_eq]
            rw [a3, zq_ofNat (by omega)]
          | 1, _ =>
            simp (discharger := (first | omega | (simp only [List.length_set]; omega))) only
              [nth_set_ne, nth_set_eq]
            rw [b3, zq_ofNat (by omega)]
          | 2, _ =>
            simp (discharger := (first | omega | (simp only [List.length_set]; omega))) only
              [nth_set_ne, nth_set_eq]
            rw [c3, zq_ofNat (by omega)]
          | 3, _ =>
            simp (discharger := (first | omega | (simp only [List.length_set]; omega))) only
              [nth_set_ne, nth_set_eq]
            rw [d3, zq_ofNat (by omega)]
      · rintro sum ⟨hsuml, hsum⟩
        have hrow := fun r (hr : r < 4) => idx_lt (show i + r < P.n by omega) hk
        have add := fun r (hr : r < 4) => add_step
          (hov (i + r) k (by omega) hk) (hsum r hr)
        obtain ⟨a1, a2⟩ := add 0 (by omega)
        obtain ⟨b1, b2⟩ := add 1 (by omega)
        obtain ⟨c1, c2⟩ := add 2 (by omega)
        obtain ⟨d1, d2⟩ := add 3 (by omega)
        have r0 := hrow 0 (by omega)
        have r1 := hrow 1 (by omega)
        have r2 := hrow 2 (by omega)
        have r3 := hrow 3 (by omega)
        have m1 : (i + 1) * P.nbar = (i + 0) * P.nbar + P.nbar := by
          rw [Nat.add_mul i 1, Nat.one_mul, Nat.add_zero]
        have m2 : (i + 2) * P.nbar = (i + 0) * P.nbar + 2 * P.nbar := by
          rw [Nat.add_mul i 2, Nat.add_zero]
        have m3 : (i + 3) * P.nbar = (i + 0) * P.nbar + 3 * P.nbar := by
          rw [Nat.add_mul i 3, Nat.add_zero]
        simp only [wp, List.length_set]
        simp (discharger := omega) only [nth_set_ne]
        refine ⟨by omega, by omega, a1, by omega, by omega, by omega, c1, by omega, by omega,
          by omega, b1, by omega, by omega, by omega, d1, by omega, hol, ?_, ?_⟩
        · intro r c hr hc
          rw [nth_set_idx (R := P.n) (by simp only [List.length_set]; omega) hr hc hk,
            nth_set_idx (R := P.n) (by simp only [List.length_set]; omega) hr hc hk,
            nth_set_idx (R := P.n) (by simp only [List.length_set]; omega) hr hc hk,
            nth_set_idx (R := P.n) (by omega) hr hc hk]
          by_cases ec : c = k
          · subst ec
            by_cases er : i ≤ r ∧ r < i + 4
            · obtain ⟨d, hd, rfl⟩ : ∃ d, d < 4 ∧ r = i + d := ⟨r - i, by omega, by omega⟩
              rw [if_pos (show i ≤ i + d ∧ i + d < i + 4 ∧ c < c + 1 by omega)]
              match d, hd with
              | 0, _ =>
                rw [if_neg (by omega), if_neg (by omega), if_neg (by omega), if_pos ⟨rfl, rfl⟩, a2,
                  if_neg (by omega), zero_add, add_comm]
              | 1, _ =>
                rw [if_neg (by omega), if_pos ⟨rfl, rfl⟩, b2, if_neg (by omega), zero_add, add_comm]
              | 2, _ =>
                rw [if_neg (by omega), if_neg (by omega), if_pos ⟨rfl, rfl⟩, c2, if_neg (by omega),
                  zero_add, add_comm]
              | 3, _ =>
                rw [if_pos ⟨rfl, rfl⟩, d2, if_neg (by omega), zero_add, add_comm]
            · rw [if_neg (by omega), if_neg (by omega), if_neg (by omega), if_neg (by omega),
                hov r c hr hc, if_neg (by omega), if_neg (by omega)]
          · rw [if_neg (by omega), if_neg (by omega), if_neg (by omega), if_neg (by omega),
              hov r c hr hc]
            by_cases e2 : i ≤ r ∧ r < i + 4 ∧ c < k
            · rw [if_pos e2, if_pos (by omega)]
            · rw [if_neg e2, if_neg (by omega)]
        · intro t ht
          rw [nth_set_ne (by omega), nth_set_ne (by omega), nth_set_ne (by omega),
            nth_set_ne (by omega)]
          exact hot t ht
    · rintro o ⟨hol, hov, hot⟩
      refine ⟨hol, fun r c hr hc => ?_, hot⟩
      rw [hov r c hr hc]
      by_cases e2 : i ≤ r ∧ r < i + 4
      · rw [if_pos (by omega), if_pos e2]
      · rw [if_neg (by omega), if_neg e2]
  · rintro o ⟨hol, hov, hot⟩
    simp only [wp]
    exact ⟨hlA, hol, hov, hot⟩

theorem as_loop_ret {γ : Type} {B : Build} {P : Params} {seed : List U8} {s a_row out e : List U16}
    {gen : Nat → List U16 × γ → C (List U16 × γ)} {g : γ} (I : γ → Prop) (h4 : 4 ∣ P.n)
    (hgen : ∀ i A g, I g → A.length = 4 * P.n → Ret (gen i (A, g)) (fun x => I x.2 ∧
      x.1.length = 4 * P.n ∧ RowsAre B.arch B.gen P.n (seed.take 16) x.1 i 4))
    (hl : a_row.length = 4 * P.n) (hg : I g) (hsl : P.nbar * P.n ≤ s.length)
    (hout : P.n * P.nbar ≤ out.length) (he : ∀ t, t < P.n * P.nbar → nth out t = nth e t) :
    Ret (as_loop B P s gen a_row g out) (· = asResult B.gen P seed s e out) := by
  obtain ⟨m, hm⟩ := h4
  unfold as_loop
  refine Ret.bind (Q := fun x : List U16 × γ × List U16 => x.2.2 = asResult B.gen P seed s e out)
    ?_ ?_
  · refine Ret.forStep (fun k x => x.1.length = 4 * P.n ∧ I x.2.1 ∧ x.2.2.length = out.length ∧
      (∀ r c, r < P.n → c < P.nbar → zq 16 (nth x.2.2 (r * P.nbar + c)) =
        (if r < 4 * k then prodAS B.gen P.n (seed.take 16) s r c else 0)
          + zq 16 (nth e (r * P.nbar + c))) ∧
      ∀ t, P.n * P.nbar ≤ t → nth x.2.2 t = nth out t) (by omega) hm
      ⟨hl, hg, rfl, fun r c hr hc => ?_, fun _ _ => rfl⟩ ?_ ?_
    · rw [he _ (idx_lt hr hc), if_neg (by omega), zero_add]
    · rintro k ⟨A, g, o⟩ hk ⟨hAl, hI, hol, hov, hot⟩
      simp only at hAl hI hol hov hot ⊢
      refine (hgen _ A g hI hAl).bind ?_
      rintro ⟨A', g'⟩ ⟨hI', hAl', hrows⟩
      simp only at hI' hAl' hrows ⊢
      refine (as_accumulate_ret hAl' hrows (by omega) hsl (by omega)).bind ?_
      rintro ⟨A'', o'⟩ ⟨hA'', ho1, ho2, ho3⟩
      simp only [wp] at hA'' ho1 ho2 ho3 ⊢
      refine ⟨hA'', hI', ho1.trans hol, fun r c hr hc => ?_, fun t ht => (ho3 t ht).trans (hot t ht)⟩
      rw [ho2 r c hr hc, hov r c hr hc]
      by_cases e1 : r < 4 * k
      · rw [if_neg (by omega), if_pos e1, if_pos (by omega), zero_add]
      · rw [if_neg e1, zero_add]
        by_cases e2 : r < 4 * (k + 1)
        · rw [if_pos (by omega), if_pos e2]
        · rw [if_neg (by omega), if_neg e2]
    · rintro ⟨A, g, o⟩ ⟨_, _, hol, hov, hot⟩
      refine eq_ofMat hol hout (fun r c => ?_) hot
      rw [hov r c r.isLt c.isLt, if_pos (by have := r.isLt; omega), Matrix.add_apply, prodAS_eq]
      rfl
  · rintro ⟨A, g, o⟩ h
    simpa only [wp] using h

theorem copy_pairs_ret {out e : List U16} {m outAddr eAddr : Nat} (h2 : 2 ∣ m)
    (ha : outAddr % 4 = 0 ∧ eAddr % 4 = 0) (ho : m ≤ out.length)
    (he : m ≤ e.length) :
    Ret (forC 0 m 2 out fun i out => do
      C.require ((outAddr + 2 * i) % 4 = 0 ∧ (eAddr + 2 * i) % 4 = 0) .misaligned
      let x ← rd e i
      let y ← rd e (i + 1)
      let out ← wr out i x
      wr out (i + 1) y) (· = e.take m ++ out.drop m) := by
  obtain ⟨h, hm⟩ := h2
  refine Ret.forStep (fun k o => o.length = out.length ∧ ∀ t, nth o t =
    if t < 2 * k then nth e t else nth out t) (by omega) hm ⟨rfl, fun t => by simp⟩ ?_ ?_
  · rintro k o hk ⟨hl, ho'⟩
    simp only [wp, List.length_set]
    refine ⟨by omega, by omega, by omega, by omega, by omega, hl, fun t => ?_⟩
    rw [nth_set, nth_set, List.length_set]
    by_cases e1 : 2 * k + 1 = t
    · rw [if_pos ⟨e1, by omega⟩, if_pos (by omega), e1]
    · rw [if_neg (by tauto)]
      by_cases e2 : 2 * k = t
      · rw [if_pos ⟨e2, by omega⟩, if_pos (by omega), e2]
      · rw [if_neg (by tauto), ho' t]
        by_cases e3 : t < 2 * k
        · rw [if_pos e3, if_pos (by omega)]
        · rw [if_neg e3, if_neg (by omega)]
  · rintro o ⟨hl, ho'⟩
    apply ext_nth
    · simp; omega
    · intro t _
      rw [ho' t, nth_append, List.length_take, nth_take, nth_drop]
      by_cases e3 : t < m
      · rw [if_pos (by omega), if_pos (by omega), if_pos e3]
      · rw [if_neg (by omega), if_neg (by omega)]; congr 1; omega

/-- What `frodo_mul_add_as_plus_e` requires of the environment: the requirements of `alignedGen`, and
4-byte alignment of `out` and `e` in the optimised code. -/
def Build.alignedAs (B : Build) (E : Env) (outAddr eAddr : Nat) : Prop :=
  B.alignedGen E ∧ (B.impl ≠ .reference → outAddr % 4 = 0 ∧ eAddr % 4 = 0)

theorem as_plus_e_optimized_full_ret {B : Build} {E : Env} {P : Params} {outAddr eAddr : Nat} (hP : P.WF)
    {out s e : List U16} {seed : List U8} (hs : 16 ≤ seed.length) (ha : B.alignedGen E)
    (h32 : outAddr % 4 = 0 ∧ eAddr % 4 = 0)
    (hout : P.n * P.nbar ≤ out.length) (hsl : P.nbar * P.n ≤ s.length)
    (hel : P.n * P.nbar ≤ e.length) :
    Ret (as_plus_e_optimized_full B E P outAddr eAddr out s e seed) (fun x =>
      x.1 = asResult B.gen P seed s e out ∧ Erased B x.2) := by
  have h8 : 8 ∣ P.n := Dvd.dvd.trans (by decide) hP.n16
  have h4 : 4 ∣ P.n := Dvd.dvd.trans (by decide) hP.n16
  unfold as_plus_e_optimized_full
  simp only
  refine (copy_pairs_ret (Dvd.dvd.mul_right (Dvd.dvd.trans (by decide) hP.n16) _) h32 hout hel).bind_eq ?_
  have hl0 : P.n * P.nbar ≤ (e.take (P.n * P.nbar) ++ out.drop (P.n * P.nbar)).length := by
    simp; omega
  have hn0 : ∀ t, t < P.n * P.nbar →
      nth (e.take (P.n * P.nbar) ++ out.drop (P.n * P.nbar)) t = nth e t := fun t ht => by
    rw [nth_append, if_pos (by simp; omega), nth_take, if_pos ht]
  have hd0 : (e.take (P.n * P.nbar) ++ out.drop (P.n * P.nbar)).drop (P.n * P.nbar) =
      out.drop (P.n * P.nbar) := List.drop_left' (by simp; omega)
  have hres : asResult B.gen P seed s e out =
      asResult B.gen P seed s e (e.take (P.n * P.nbar) ++ out.drop (P.n * P.nbar)) := by
    unfold asResult; rw [hd0]
  rw [hres]
  generalize e.take (P.n * P.nbar) ++ out.drop (P.n * P.nbar) = o0 at hl0 hn0 ⊢
  have hrep : (List.replicate (4 * P.n) (0 : U16)).length = 4 * P.n := List.length_replicate
  cases hg : B.gen
  · simp only
    refine (setup128_ret (ha.1 hg) hs).bind_eq ?_
    refine (as_init_ret h8 hP.stripe).bind fun X hX => ?_
    rw [← hg]
    refine (as_loop_ret (seed := seed) (AesInit B.arch P.n 4) h4 ?_ hrep hX hsl hl0 hn0).bind_eq ?_
    · intro i A X hX hAl
      rw [hg]
      exact as_gen_aes_ret h8 hP.n_lt hP.stripe (ha.1 hg) hAl hX
    · refine free128_ret.bind_eq ?_
      simp only [wp]
      exact ⟨trivial, fun _ => rfl⟩
  · simp only
    have her : Erased B .gone := fun h => by rw [hg] at h; cases h
    have hgeneric : Ret (do
        C.require (E.addr (.sep 0) % 2 = 0) .misaligned
        let sep ← memcpy (uninit E.junk 31 8 (2 + P.seedA)) 2 seed 0 P.seedA
        let out ← as_loop B P s (as_gen_shake B E P) (List.replicate (4 * P.n) 0) sep o0
        pure (out, Sched.gone))
        (fun x => x.1 = asResult .shake P seed s e o0 ∧ Erased B x.2) := by
      rw [Ret_require_bind]
      refine ⟨ha.2.2 hg 0 (.inl rfl), ?_⟩
      refine (seedsep_ret hP.seedA hs).bind fun sep hsep => ?_
      rw [← hg]
      refine (as_loop_ret (SepInv seed) h4 ?_ hrep hsep hsl hl0 hn0).bind_eq
        ⟨_, [], rfl, rfl, her⟩
      intro i A sep hsep hAl
      rw [hg]
      exact as_gen_shake_ret hP.seedA hsep hAl
    cases hi : B.impl
    · exact hgeneric
    · exact hgeneric
    · simp only
      refine (seeds4_ret hP.seedA hs fun k => ha.2.2 hg k (.inr hi)).bind fun sep hsep => ?_
      rw [← hg]
      refine (as_loop_ret (SepInv4 seed) h4 ?_ hrep hsep hsl hl0 hn0).bind_eq
        ⟨_, [], rfl, rfl, her⟩
      intro i A sep hsep hAl
      rw [hg]
      exact shakeRows4_ret (ha.2.1 hi hg) hP.seedA hsep hAl (r := 0) (by omega) (by intro r hr; omega)

theorem as_plus_e_optimized_ret {B : Build} {E : Env} {P : Params} {outAddr eAddr : Nat} (hP : P.WF)
    {out s e : List U16} {seed : List U8} (hs : 16 ≤ seed.length) (ha : B.alignedGen E)
    (h32 : outAddr % 4 = 0 ∧ eAddr % 4 = 0)
    (hout : P.n * P.nbar ≤ out.length) (hsl : P.nbar * P.n ≤ s.length)
    (hel : P.n * P.nbar ≤ e.length) :
    Ret (as_plus_e_optimized B E P outAddr eAddr out s e seed) (· = asResult B.gen P seed s e out) := by
  unfold as_plus_e_optimized
  refine (as_plus_e_optimized_full_ret hP hs ha h32 hout hsl hel).bind fun x hx => ?_
  simp only [wp]
  exact hx.1

theorem frodo_mul_add_as_plus_e_ret {B : Build} {E : Env} {P : Params} {outAddr eAddr : Nat} (hP : P.WF)
    {out s e : List U16} {seed : List U8} (hs : 16 ≤ seed.length) (ha : B.alignedAs E outAddr eAddr)
    (hout : P.n * P.nbar ≤ out.length) (hsl : P.nbar * P.n ≤ s.length)
    (hel : P.n * P.nbar ≤ e.length) :
    Ret (frodo_mul_add_as_plus_e B E P outAddr eAddr out s e seed)
      (· = asResult B.gen P seed s e out) := by
  unfold frodo_mul_add_as_plus_e
  cases hi : B.impl
  · exact as_plus_e_reference_ret hP hs ha.1 hout hsl hel
  · exact as_plus_e_optimized_ret hP hs ha.1 (ha.2 (by simp [hi])) hout hsl hel
  · exact as_plus_e_optimized_ret hP hs ha.1 (ha.2 (by simp [hi])) hout hsl hel

/-! ## `s*A + e` -/

theorem prodSA_add (w : Nat → Nat → ZMod (2 ^ 16)) (n : Nat) (s : List U16) (R k i m : Nat) :
    prodSA w n s (R + m) k i = prodSA w n s R k i +
      ∑ p ∈ Finset.range m, zq 16 (nth s (k * n + R + p)) * w (R + p) i := by
  unfold prodSA
  rw [Finset.sum_range_add]
  simp only [Nat.add_assoc]

/-- The entries of `A` as the optimised `s*A + e` uses them, without conversion of the byte order
(proof device). -/
def wordM (B : Build) (n : Nat) (seed : List U8) (j i : Nat) : ZMod (2 ^ 16) :=
  zq 16 (LE_TO_UINT16 B.arch (BitVec.ofNat 16 (genWord B.gen n seed j i)))

theorem RowsAre.zq {B : Build} {n : Nat} {seed : List U8} {A : List U16} {i p q : Nat}
    (h : RowsAre B.arch B.gen n seed A i 8) (hp : p < 8) (hq : q < n) :
    Frodo.zq 16 (nth A (p * n + q)) = wordM B n seed (i + p) q := by
  unfold wordM
  rw [← h p hp q hq, le_le]

/-- What one round of eight rows adds (proof device). -/
def SaStep (B : Build) (P : Params) (seed : List U8) (s : List U16) (i : Nat) (e o : List U16) :
    Prop := o.length = e.length ∧
  (∀ r c, r < P.nbar → c < P.n → zq 16 (nth o (r * P.n + c)) =
    zq 16 (nth e (r * P.n + c)) + ∑ p ∈ Finset.range 8, zq 16 (nth s (r * P.n + i + p)) *
      wordM B P.n seed (i + p) c) ∧
  ∀ t, P.nbar * P.n ≤ t → nth o t = nth e t

theorem sa_accumulate_generic_ret {B : Build} {E : Env} {P : Params} {seed : List U8}
    {s A e : List U16} {i : Nat} (hl : A.length = 8 * P.n) (hA : RowsAre B.arch B.gen P.n seed A i 8)
    (hi : i + 8 ≤ P.n) (hsl : P.nbar * P.n ≤ s.length) (hel : P.nbar * P.n ≤ e.length) :
    Ret (sa_accumulate_generic E P s i A e) (SaStep B P seed s i e) := by
  unfold sa_accumulate_generic
  refine Ret.for1 (fun j o => o.length = e.length ∧
    (∀ r c, r < P.nbar → c < P.n → zq 16 (nth o (r * P.n + c)) =
      zq 16 (nth e (r * P.n + c)) + (if r < j then ∑ p ∈ Finset.range 8,
        zq 16 (nth s (r * P.n + i + p)) * wordM B P.n seed (i + p) c else 0)) ∧
    ∀ t, P.nbar * P.n ≤ t → nth o t = nth e t)
    ⟨rfl, fun r c _ _ => by rw [if_neg (by omega), add_zero], fun _ _ => rfl⟩ ?_ ?_
  · rintro j o hj ⟨hol, hov, hot⟩
    simp only
    refine Ret.bind (Q := fun sp => sp.length = 8 ∧ ∀ p, p < 8 → nth sp p = nth s (j * P.n + i + p))
      ?_ ?_
    · refine Ret.for1 (fun p sp => sp.length = 8 ∧ ∀ p', p' < p →
        nth sp p' = nth s (j * P.n + i + p')) ⟨by simp, by intro p' h; omega⟩ ?_ (fun _ h => h)
      rintro p sp hp ⟨hspl, hsp⟩
      have h1 := idx_lt hj (show i + p < P.n by omega)
      simp only [wp]
      refine ⟨by omega, by omega, by simpa using hspl, fun p' hp' => ?_⟩
      by_cases ep : p' = p
      · subst ep; rw [nth_set_eq (by omega)]
      · rw [nth_set_ne (Ne.symm ep)]; exact hsp p' (by omega)
    · rintro sp ⟨hspl, hsp⟩
      refine Ret.for1 (fun q o => o.length = e.length ∧
        (∀ r c, r < P.nbar → c < P.n → zq 16 (nth o (r * P.n + c)) =
          zq 16 (nth e (r * P.n + c)) + (if r < j ∨ (r = j ∧ c < q) then ∑ p ∈ Finset.range 8,
            zq 16 (nth s (r * P.n + i + p)) *
              wordM B P.n seed (i + p) c else 0)) ∧
        ∀ t, P.nbar * P.n ≤ t → nth o t = nth e t) ⟨hol, fun r c hr hc => ?_, hot⟩ ?_ ?_
      · rw [hov r c hr hc]
        by_cases h : r < j
        · rw [if_pos h, if_pos (Or.inl h)]
        · rw [if_neg h, if_neg (by omega)]
      · rintro q o hq ⟨hol, hov, hot⟩
        have hlt := idx_lt hj hq
        rw [Ret_rd_bind]
        refine ⟨by omega, ?_⟩
        refine Ret.bind (Q := fun v => zq 16 v = zq 16 (nth e (j * P.n + q)) +
          ∑ p ∈ Finset.range 8, zq 16 (nth s (j * P.n + i + p)) *
              wordM B P.n seed (i + p) q) ?_ ?_
        · refine Ret.for1 (fun K v => zq 16 v = zq 16 (nth e (j * P.n + q)) +
            ∑ p ∈ Finset.range K, zq 16 (nth s (j * P.n + i + p)) *
              wordM B P.n seed (i + p) q) ?_ ?_ (fun _ h => h)
          · rw [hov j q hj hq, if_neg (by omega)]; simp
          · intro p v hp hv
            have h1 := idx_lt hp hq
            simp only [wp]
            rw [hsp p hp]
            obtain ⟨a1, a2, a3⟩ := acc_step (x := nth s (j * P.n + i + p))
              (y := nth A (p * P.n + q)) hv
            refine ⟨by omega, by omega, a1, a2, ?_⟩
            rw [a3, Finset.sum_range_succ, hA.zq hp hq, add_assoc]
        · intro v hv
          simp only [wp]
          refine ⟨by omega, by simpa using hol, fun r c hr hc => ?_, fun t ht => ?_⟩
          · rw [nth_set_idx (R := P.nbar) (by omega) hr hc hq]
            by_cases e1 : r = j ∧ c = q
            · obtain ⟨rfl, rfl⟩ := e1
              rw [if_pos ⟨rfl, rfl⟩, hv, if_pos (by omega)]
            · rw [if_neg e1, hov r c hr hc]
              by_cases e2 : r < j ∨ (r = j ∧ c < q)
              · rw [if_pos e2, if_pos (by omega)]
              · rw [if_neg e2, if_neg (by omega)]
          · rw [nth_set_ne (by omega)]; exact hot t ht
      · rintro o ⟨hol, hov, hot⟩
        refine ⟨hol, fun r c hr hc => ?_, hot⟩
        rw [hov r c hr hc]
        by_cases e2 : r < j + 1
        · rw [if_pos (by omega), if_pos e2]
        · rw [if_neg (by omega), if_neg e2]
  · rintro o ⟨hol, hov, hot⟩
    refine ⟨hol, fun r c hr hc => ?_, hot⟩
    rw [hov r c hr hc, if_pos hr]

@[wp] theorem Ret_mm256_load_bind {β : Type} {addr : Nat} {l : List U16} {off : Nat} {f : V16 → C β}
    {Q : β → Prop} : Ret (mm256_load addr l off >>= f) Q ↔ off + 16 ≤ l.length ∧
      (addr + 2 * off) % 32 = 0 ∧ Ret (f fun t => nth l (off + t)) Q := by
  unfold mm256_load
  simp only [wp]

@[wp] theorem Ret_mm256_store {addr : Nat} {l : List U16} {off : Nat} {v : V16}
    {Q : List U16 → Prop} : Ret (mm256_store addr l off v) Q ↔ off + 16 ≤ l.length ∧
      (addr + 2 * off) % 32 = 0 ∧ Q (l.take off ++ (List.finRange 16).map v ++ l.drop (off + 16)) := by
  unfold mm256_store
  simp only [wp]

theorem nth_store16 {l : List U16} {off t : Nat} {v : V16} (h : off + 16 ≤ l.length) :
    nth (l.take off ++ (List.finRange 16).map v ++ l.drop (off + 16)) t =
      if h : off ≤ t ∧ t < off + 16 then v ⟨t - off, by omega⟩ else nth l t := by
  rw [nth_append, nth_append]
  simp only [List.length_append, List.length_take, List.length_map, List.length_finRange]
  by_cases h1 : t < off
  · rw [if_pos (by omega), if_pos (by omega), dif_neg (by omega), nth_take, if_pos h1]
  · by_cases h2 : t < off + 16
    · rw [if_pos (by omega), if_neg (by omega), dif_pos ⟨by omega, h2⟩,
        nth_finRange_map _ (by omega)]
      congr 2; omega
    · rw [if_neg (by omega), dif_neg (by omega), nth_drop]
      congr 1; omega

theorem zq_mul (x y : U16) : zq 16 (x * y) = zq 16 x * zq 16 y := by
  unfold zq
  rw [BitVec.toNat_mul, ZMod.natCast_mod, Nat.cast_mul]

theorem zq_add (x y : U16) : zq 16 (x + y) = zq 16 x + zq 16 y := by
  unfold zq
  rw [BitVec.toNat_add, ZMod.natCast_mod, Nat.cast_add]

theorem sa_accumulate_avx2_ret {B : Build} {E : Env} {P : Params} {seed : List U8}
    {s A e : List U16} {i eAddr : Nat} (h16 : 16 ∣ P.n) (hAa : E.addr .A % 32 = 0)
    (hea : eAddr % 32 = 0) (hl : A.length = 8 * P.n) (hA : RowsAre B.arch B.gen P.n seed A i 8)
    (hi : i + 8 ≤ P.n) (hsl : P.nbar * P.n ≤ s.length) (hel : P.nbar * P.n ≤ e.length) :
    Ret (sa_accumulate_avx2 E P eAddr s i A e) (SaStep B P seed s i e) := by
  obtain ⟨m, hm⟩ := h16
  have hal : ∀ r q, q % 16 = 0 → 2 * (r * P.n + q) % 32 = 0 := fun r q hq => by
    rw [hm, Nat.mul_left_comm]; omega
  unfold sa_accumulate_avx2
  refine Ret.for1 (fun j o => o.length = e.length ∧
    (∀ r c, r < P.nbar → c < P.n → zq 16 (nth o (r * P.n + c)) =
      zq 16 (nth e (r * P.n + c)) + (if r < j then ∑ p ∈ Finset.range 8,
        zq 16 (nth s (r * P.n + i + p)) * wordM B P.n seed (i + p) c else 0)) ∧
    ∀ t, P.nbar * P.n ≤ t → nth o t = nth e t)
    ⟨rfl, fun r c _ _ => by rw [if_neg (by omega), add_zero], fun _ _ => rfl⟩ ?_ ?_
  · rintro j o hj ⟨hol, hov, hot⟩
    simp only
    refine Ret.bind (Q := fun sp : List V16 => sp.length = 8 ∧ ∀ p, p < 8 → ∀ t,
      nth sp p t = nth s (j * P.n + i + p)) ?_ ?_
    · refine Ret.for1 (fun p (sp : List V16) => sp.length = 8 ∧ ∀ p', p' < p → ∀ t,
        nth sp p' t = nth s (j * P.n + i + p')) ⟨by simp, by intro p' h; omega⟩ ?_ (fun _ h => h)
      rintro p sp hp ⟨hspl, hsp⟩
      have h1 := idx_lt hj (show i + p < P.n by omega)
      simp only [wp]
      refine ⟨by omega, by omega, by simpa using hspl, fun p' hp' t => ?_⟩
      by_cases ep : p' = p
      · subst ep; rw [nth_set_eq (by omega)]
      · rw [nth_set_ne (Ne.symm ep)]; exact hsp p' (by omega) t
    · rintro sp ⟨hspl, hsp⟩
      refine Ret.forStep (fun k o => o.length = e.length ∧
        (∀ r c, r < P.nbar → c < P.n → zq 16 (nth o (r * P.n + c)) =
          zq 16 (nth e (r * P.n + c)) + (if r < j ∨ (r = j ∧ c < 16 * k) then ∑ p ∈ Finset.range 8,
            zq 16 (nth s (r * P.n + i + p)) * wordM B P.n seed (i + p) c else 0)) ∧
        ∀ t, P.nbar * P.n ≤ t → nth o t = nth e t) (by omega) hm ⟨hol, fun r c hr hc => ?_, hot⟩ ?_ ?_
      · rw [hov r c hr hc]
        by_cases h : r < j
        · rw [if_pos h, if_pos (Or.inl h)]
        · rw [if_neg h, if_neg (by omega)]
      · rintro k o hk ⟨hol, hov, hot⟩
        have hlt := idx_lt hj (show 16 * k + 15 < P.n by omega)
        have ha := hal j (16 * k) (by omega)
        rw [Ret_mm256_load_bind]
        refine ⟨by omega, by omega, ?_⟩
        refine Ret.bind (Q := fun v : V16 => ∀ t : Fin 16, zq 16 (v t) =
          zq 16 (nth e (j * P.n + (16 * k + t))) +
          ∑ p ∈ Finset.range 8, zq 16 (nth s (j * P.n + i + p)) *
              wordM B P.n seed (i + p) (16 * k + t)) ?_ ?_
        · refine Ret.for1 (fun K (v : V16) => ∀ t : Fin 16, zq 16 (v t) =
            zq 16 (nth e (j * P.n + (16 * k + t))) +
            ∑ p ∈ Finset.range K, zq 16 (nth s (j * P.n + i + p)) *
              wordM B P.n seed (i + p) (16 * k + t)) ?_ ?_ (fun _ h => h)
          · intro t
            rw [Nat.add_assoc, hov j _ hj (by omega), if_neg (by omega)]; simp
          · intro p v hp hv
            have h1 := idx_lt hp (show 16 * k + 15 < P.n by omega)
            have ha := hal p (16 * k) (by omega)
            simp only [wp]
            refine ⟨by omega, by omega, by omega, fun t => ?_⟩
            simp only [mm256_add, mm256_mullo]
            rw [zq_add, zq_mul, hv t, Nat.add_assoc (p * P.n), hA.zq hp (by omega), hsp p hp,
              Finset.sum_range_succ, mul_comm (wordM _ _ _ _ _)]
            exact (add_comm _ _).trans (add_assoc _ _ _)
        · intro v hv
          rw [Ret_mm256_store]
          have hlo : j * P.n + 16 * k + 16 ≤ o.length := by omega
          refine ⟨by omega, by omega, by simp; omega, fun r c hr hc => ?_, fun t ht => ?_⟩
          · rw [nth_store16 hlo]
            by_cases e1 : j * P.n + 16 * k ≤ r * P.n + c ∧ r * P.n + c < j * P.n + 16 * k + 16
            · rw [dif_pos e1, hv]
              simp only
              have e2 : r = j ∧ c = 16 * k + (r * P.n + c - (j * P.n + 16 * k)) :=
                idx_inj hc (by omega) (by omega)
              obtain ⟨rfl, e3⟩ := e2
              rw [← e3, if_pos (by omega)]
            · rw [dif_neg e1, hov r c hr hc]
              by_cases e2 : r < j ∨ (r = j ∧ c < 16 * k)
              · rw [if_pos e2, if_pos (by omega)]
              · have e3 : ¬ (r = j ∧ c < 16 * (k + 1)) := by
                  rintro ⟨rfl, h⟩
                  exact e1 ⟨by omega, by omega⟩
                rw [if_neg e2, if_neg (by omega)]
          · rw [nth_store16 hlo, dif_neg (by omega)]; exact hot t ht
      · rintro o ⟨hol, hov, hot⟩
        refine ⟨hol, fun r c hr hc => ?_, hot⟩
        rw [hov r c hr hc]
        by_cases e2 : r < j + 1
        · rw [if_pos (by omega), if_pos e2]
        · rw [if_neg (by omega), if_neg e2]
  · rintro o ⟨hol, hov, hot⟩
    refine ⟨hol, fun r c hr hc => ?_, hot⟩
    rw [hov r c hr hc, if_pos hr]

/-- What the code path requires of the environment: the requirements of `alignedGen`, and
32-byte alignment of `A` and `e` with AVX2. -/
def Build.alignedSa (B : Build) (E : Env) (eAddr : Nat) : Prop :=
  B.alignedGen E ∧ (B.impl = .avx2 → E.addr .A % 32 = 0 ∧ eAddr % 32 = 0)

theorem sa_loop_ret {γ : Type} {B : Build} {E : Env} {P : Params} {eAddr : Nat} {seed : List U8}
    {s A e : List U16} {gen : Nat → List U16 × γ → C (List U16 × γ)} {g : γ} (I : γ → Prop)
    (h16 : 16 ∣ P.n) (ha : B.alignedSa E eAddr)
    (hgen : ∀ i A g, I g → A.length = 8 * P.n → Ret (gen i (A, g)) (fun x => I x.2 ∧
      x.1.length = 8 * P.n ∧ RowsAre B.arch B.gen P.n (seed.take 16) x.1 i 8))
    (hl : A.length = 8 * P.n) (hg : I g) (hsl : P.nbar * P.n ≤ s.length)
    (hel : P.nbar * P.n ≤ e.length) :
    Ret (sa_loop B E P eAddr s gen A g e) (· = ofMat (toMat 16 P.nbar P.n s *
      (Matrix.of fun a b : Fin P.n => wordM B P.n (seed.take 16) a b) + toMat 16 P.nbar P.n e) ++
        e.drop (P.nbar * P.n)) := by
  obtain ⟨m, hm⟩ : 8 ∣ P.n := Dvd.dvd.trans (by decide) h16
  unfold sa_loop
  refine Ret.bind (Q := fun x : List U16 × γ × List U16 => x.2.2 =
      ofMat (toMat 16 P.nbar P.n s * (Matrix.of fun a b : Fin P.n => wordM B P.n (seed.take 16) a b) +
        toMat 16 P.nbar P.n e) ++ e.drop (P.nbar * P.n)) ?_ ?_
  · refine Ret.forStep (fun k x => x.1.length = 8 * P.n ∧ I x.2.1 ∧ x.2.2.length = e.length ∧
      (∀ r c, r < P.nbar → c < P.n → zq 16 (nth x.2.2 (r * P.n + c)) =
        prodSA (wordM B P.n (seed.take 16)) P.n s (8 * k) r c + zq 16 (nth e (r * P.n + c))) ∧
      ∀ t, P.nbar * P.n ≤ t → nth x.2.2 t = nth e t) (by omega) hm
      ⟨hl, hg, rfl, fun r c hr hc => ?_, fun _ _ => rfl⟩ ?_ ?_
    · simp [prodSA]
    · rintro k ⟨A, g, o⟩ hk ⟨hAl, hI, hol, hov, hot⟩
      simp only at hAl hI hol hov hot ⊢
      refine (hgen _ A g hI hAl).bind ?_
      rintro ⟨A', g'⟩ ⟨hI', hAl', hrows⟩
      simp only at hI' hAl' hrows ⊢
      have hacc : Ret (sa_accumulate B E P eAddr s (8 * k) A' o)
          (SaStep B P (seed.take 16) s (8 * k) o) := by
        unfold sa_accumulate
        cases hi : B.impl
        · exact sa_accumulate_generic_ret hAl' hrows (by omega) hsl (by omega)
        · exact sa_accumulate_generic_ret hAl' hrows (by omega) hsl (by omega)
        · exact sa_accumulate_avx2_ret h16 (ha.2 hi).1 (ha.2 hi).2 hAl' hrows (by omega) hsl (by omega)
      refine hacc.bind ?_
      rintro o' ⟨ho1, ho2, ho3⟩
      simp only [wp]
      refine ⟨hAl', hI', ho1.trans hol, fun r c hr hc => ?_, fun t ht => (ho3 t ht).trans (hot t ht)⟩
      rw [ho2 r c hr hc, hov r c hr hc, Nat.mul_succ, prodSA_add, add_right_comm]
    · rintro ⟨A, g, o⟩ ⟨_, _, hol, hov, hot⟩
      refine eq_ofMat hol hel (fun r c => ?_) hot
      rw [hov r c r.isLt c.isLt, Matrix.add_apply, prodSA_eq, ← hm]
      rfl
  · rintro ⟨A, g, o⟩ h
    simpa only [wp] using h

/-- The result of the optimised code in any byte order (proof device). -/
def saMem (B : Build) (P : Params) (seed : List U8) (s e : List U16) : List U16 :=
  ofMat (toMat 16 P.nbar P.n s *
    (Matrix.of fun a b : Fin P.n => wordM B P.n (seed.take 16) a b) + toMat 16 P.nbar P.n e)

theorem sa_plus_e_core_ret {B : Build} {E : Env} {P : Params} (hP : P.WF) {eAddr : Nat}
    {s e : List U16} {seed : List U8} (hs : 16 ≤ seed.length) (ha : B.alignedSa E eAddr)
    (hsl : P.nbar * P.n ≤ s.length) (hel : P.nbar * P.n ≤ e.length) :
    Ret (sa_plus_e_core B E P eAddr s e seed) (fun x =>
      x.1 = saMem B P seed s e ++ e.drop (P.nbar * P.n) ∧ (B.gen = .aes → x.2 = B.aes.sched128 seed)) := by
  have h8 : 8 ∣ P.n := Dvd.dvd.trans (by decide) hP.n16
  unfold sa_plus_e_core
  simp only
  have hrep : (List.replicate (P.n * 8) (0 : U16)).length = 8 * P.n := by
    rw [List.length_replicate, Nat.mul_comm]
  cases hg : B.gen
  · simp only
    refine (setup128_ret (ha.1.1 hg) hs).bind_eq ?_
    refine (sa_init_ret h8).bind fun X hX => ?_
    refine (sa_loop_ret (seed := seed) (AesInit B.arch P.n 8) hP.n16 ha ?_ hrep hX hsl hel).bind_eq ?_
    · intro i A X hX hAl
      rw [hg]
      exact sa_gen_aes_ret h8 hP.n_lt (ha.1.1 hg) hAl hX
    · simp only [wp]
      exact ⟨rfl, fun _ => trivial⟩
  · simp only
    have hgeneric : Ret (do
        C.require (E.addr (.sep 0) % 2 = 0) .misaligned
        let sep ← memcpy (uninit E.junk 31 8 (2 + P.seedA)) 2 seed 0 P.seedA
        let e ← sa_loop B E P eAddr s (sa_gen_shake B E P) (List.replicate (P.n * 8) 0) sep e
        pure (e, Sched.gone))
        (fun x => x.1 = saMem B P seed s e ++ e.drop (P.nbar * P.n) ∧
          (MatGen.shake = .aes → x.2 = B.aes.sched128 seed)) := by
      rw [Ret_require_bind]
      refine ⟨ha.1.2.2 hg 0 (.inl rfl), ?_⟩
      refine (seedsep_ret hP.seedA hs).bind fun sep hsep => ?_
      refine (sa_loop_ret (seed := seed) (SepInv seed) hP.n16 ha ?_ hrep hsep hsl hel).bind_eq ?_
      · intro i A sep hsep hAl
        rw [hg]
        exact sa_gen_shake_ret hP.seedA hsep hAl
      · simp only [wp]
        exact ⟨rfl, by simp⟩
    cases hi : B.impl
    · exact hgeneric
    · exact hgeneric
    · simp only
      refine (seeds4_ret hP.seedA hs fun k => ha.1.2.2 hg k (.inr hi)).bind fun sep hsep => ?_
      refine (sa_loop_ret (seed := seed) (SepInv4 seed) hP.n16 ha ?_ hrep hsep hsl hel).bind_eq ?_
      · intro i A sep hsep hAl
        rw [hg]
        exact sa_gen_shake4_ret (ha.1.2.1 hi hg) hP.seedA hsep hAl
      · simp only [wp]
        exact ⟨rfl, by simp⟩

theorem sa_plus_e_optimized_full_ret {B : Build} {E : Env} {P : Params} (hP : P.WF) {eAddr : Nat}
    {out s e : List U16} {seed : List U8} (hs : 16 ≤ seed.length) (ha : B.alignedSa E eAddr)
    (hout : P.nbar * P.n ≤ out.length) (hsl : P.nbar * P.n ≤ s.length)
    (hel : P.nbar * P.n ≤ e.length) :
    Ret (sa_plus_e_optimized_full B E P eAddr out s e seed) (fun x =>
      (x.1.1 = saMem B P seed s e ++ out.drop (P.nbar * P.n) ∧
      x.1.2 = saMem B P seed s e ++ e.drop (P.nbar * P.n)) ∧ Erased B x.2) := by
  have hlen : (saMem B P seed s e).length = P.nbar * P.n := length_ofMat _
  unfold sa_plus_e_optimized_full
  refine (sa_plus_e_core_ret hP hs ha hsl hel).bind ?_
  rintro ⟨e', sched⟩ ⟨he', hsch⟩
  simp only at he' hsch ⊢
  subst he'
  rw [Ret_memcpy_bind, Nat.mul_comm P.n P.nbar]
  refine ⟨by simp [hlen], by omega, ?_⟩
  refine (freeSched_ret hsch).bind fun k hk => ?_
  simp only [wp]
  refine ⟨⟨?_, trivial⟩, hk⟩
  rw [List.take_zero, List.nil_append, List.drop_zero, Nat.zero_add, List.take_left' hlen]

theorem sa_plus_e_optimized_ret {B : Build} {E : Env} {P : Params} (hP : P.WF) {eAddr : Nat}
    {out s e : List U16} {seed : List U8} (hs : 16 ≤ seed.length) (ha : B.alignedSa E eAddr)
    (hout : P.nbar * P.n ≤ out.length) (hsl : P.nbar * P.n ≤ s.length)
    (hel : P.nbar * P.n ≤ e.length) :
    Ret (sa_plus_e_optimized B E P eAddr out s e seed) (fun x =>
      x.1 = saMem B P seed s e ++ out.drop (P.nbar * P.n) ∧
      x.2 = saMem B P seed s e ++ e.drop (P.nbar * P.n)) := by
  unfold sa_plus_e_optimized
  refine (sa_plus_e_optimized_full_ret hP hs ha hout hsl hel).bind fun x hx => ?_
  simp only [wp]
  exact hx.1

theorem wordM_le {B : Build} (hB : B.arch = .le) (n : Nat) (seed : List U8) :
    wordM B n seed = wordA B.gen n seed := by
  funext j i
  unfold wordM wordA
  rw [hB]
  exact zq_ofNat (by omega) _

theorem saMem_le {B : Build} (hB : B.arch = .le) (P : Params) (seed : List U8)
    (s e out : List U16) :
    saMem B P seed s e ++ out.drop (P.nbar * P.n) = saResult B.gen P seed s e out := by
  unfold saMem saResult
  rw [wordM_le hB, genA_wordA]

theorem frodo_mul_add_sa_plus_e_ret {B : Build} {E : Env} {P : Params} (hP : P.WF) {eAddr : Nat}
    {out s e : List U16} {seed : List U8} (hB : B.impl = .reference ∨ B.arch = .le)
    (hs : 16 ≤ seed.length) (ha : B.alignedSa E eAddr)
    (hout : P.nbar * P.n ≤ out.length) (hsl : P.nbar * P.n ≤ s.length)
    (hel : P.nbar * P.n ≤ e.length) :
    Ret (frodo_mul_add_sa_plus_e B E P eAddr out s e seed) (fun x =>
      x.1 = saResult B.gen P seed s e out ∧
      x.2 = if B.impl = .reference then e else saResult B.gen P seed s e e) := by
  unfold frodo_mul_add_sa_plus_e
  have hopt : B.impl ≠ .reference → Ret (sa_plus_e_optimized B E P eAddr out s e seed) (fun x =>
      x.1 = saResult B.gen P seed s e out ∧
      x.2 = if B.impl = .reference then e else saResult B.gen P seed s e e) := by
    intro hne
    have hle := hB.resolve_left hne
    refine (sa_plus_e_optimized_ret hP hs ha hout hsl hel).mono ?_
    rintro x ⟨h1, h2⟩
    rw [if_neg hne, h1, h2, saMem_le hle, saMem_le hle]
    exact ⟨rfl, rfl⟩
  cases hi : B.impl
  · refine (sa_plus_e_reference_ret hP hs ha.1 hout hsl hel).bind_eq ?_
    simp only [wp]
    exact ⟨trivial, by rw [if_pos trivial]⟩
  · rw [hi] at hopt; exact hopt (by simp)
  · rw [hi] at hopt; exact hopt (by simp)

end Frodo
