import Verif.Spec.Security
import Verif.Proof.Prob

/-! # The Fujisaki-Okamoto transform in the random oracle model -/

namespace Frodo

open Spec Function

set_option linter.unusedSectionVars false

noncomputable section

variable {M R V X C : Type} [DecidableEq M] [DecidableEq V] [DecidableEq C]
variable [Finite M] [Finite R] [Finite V] [Finite X] [Finite C]
variable [Nonempty M] [Nonempty R] [Nonempty V] [Nonempty X]

section Ever
variable (g : M → R × V) (f : List M → C → V → X) (d : C → Option X)

theorem ever_mono {bG bG' : List M → M → Prop} {bF bF' : List M → C → V → Prop} (hG : ∀ L m, bG L m → bG' L m)
    (hF : ∀ L c v, bF L c v → bF' L c v) (t : Attack M R V X C) : ∀ L, t.ever g f d bG bF L → t.ever g f d bG' bF' L := by
  induction t with
  | answer b => exact fun _ h => h
  | askG m k ih => exact fun L h => h.imp (hG _ _) (ih _ _)
  | askF c v k ih => exact fun L h => h.imp (hF _ _ _) (ih _ _)
  | askD c k ih => exact fun L h => ih _ _ h

theorem ever_or {bG bG' : List M → M → Prop} {bF bF' : List M → C → V → Prop} (t : Attack M R V X C) :
    ∀ L, t.ever g f d (fun L m => bG L m ∨ bG' L m) (fun L c v => bF L c v ∨ bF' L c v) L →
      t.ever g f d bG bF L ∨ t.ever g f d bG' bF' L := by
  induction t with
  | answer b => exact fun _ h => h.elim
  | askG m k ih =>
    rintro L ((h | h) | h)
    · exact .inl (.inl h)
    · exact .inr (.inl h)
    · exact (ih _ _ h).imp .inr .inr
  | askF c v k ih =>
    rintro L ((h | h) | h)
    · exact .inl (.inl h)
    · exact .inr (.inl h)
    · exact (ih _ _ h).imp .inr .inr
  | askD c k ih => exact fun L h => ih _ _ h

/-- A value `s` that the attacker does not know. -/
theorem ever_value (t : Attack M R V X C) : ∀ (L : List M) (a b : Nat), t.Asks a b →
    ex (fun s : V => ind (t.ever g f d (fun _ _ => False) (fun _ _ v => v = s) L)) ≤ b * (1 / Nat.card V : ℚ) := by
  have h0 : (0 : ℚ) ≤ 1 / Nat.card V := by positivity
  induction t with
  | answer b =>
    intro L a b _
    refine (ex_le_const (c := 0) fun s => ?_).trans (by positivity)
    rw [ind_false (by simp [Attack.ever])]
  | askG m k ih =>
    intro L a b h
    refine (ex_mono fun s => ind_mono ?_).trans (ih (g m) (m :: L) _ b (h.2 _))
    exact fun h => h.resolve_left id
  | askF c v k ih =>
    intro L a b h
    refine (ex_mono fun s => ind_or _ _).trans ?_
    rw [ex_add]
    have h1 := ih (f L c v) L a (b - 1) (h.2 _)
    have h2 : ex (fun s : V => ind (v = s)) = 1 / Nat.card V := by
      rw [← ex_eq_value v]
      exact ex_congr fun s => ind_congr eq_comm
    have h3 : ((b - 1 : Nat) : ℚ) = b - 1 := by rw [Nat.cast_sub h.1]; simp
    rw [h3] at h1
    rw [h2]
    linarith
  | askD c k ih => exact fun L a b h => ih _ _ _ _ (h _)

/-- A message that the attacker does not know. -/
theorem ever_message (t : Attack M R V X C) : ∀ (L : List M) (a b : Nat), t.Asks a b →
    ex (fun s : M => ind (t.ever g f d (fun _ m => m = s) (fun _ _ _ => False) L)) ≤ a * (1 / Nat.card M : ℚ) := by
  have h0 : (0 : ℚ) ≤ 1 / Nat.card M := by positivity
  induction t with
  | answer b =>
    intro L a b _
    refine (ex_le_const (c := 0) fun s => ?_).trans (by positivity)
    rw [ind_false (by simp [Attack.ever])]
  | askG m k ih =>
    intro L a b h
    refine (ex_mono fun s => ind_or _ _).trans ?_
    rw [ex_add]
    have h1 := ih (g m) (m :: L) (a - 1) b (h.2 _)
    have h2 : ex (fun s : M => ind (m = s)) = 1 / Nat.card M := by
      rw [← ex_eq_value m]
      exact ex_congr fun s => ind_congr eq_comm
    have h3 : ((a - 1 : Nat) : ℚ) = a - 1 := by rw [Nat.cast_sub h.1]; simp
    rw [h3] at h1
    rw [h2]
    linarith
  | askF c v k ih =>
    intro L a b h
    refine (ex_mono fun s => ind_mono ?_).trans (ih (f L c v) L a _ (h.2 _))
    exact fun h => h.resolve_left id
  | askD c k ih => exact fun L a b h => ih _ _ _ _ (h _)

end Ever

/-! ## A random function of which only some values are known -/

/-- `G1` on `L` and `G` elsewhere. -/
def ov {α : Type} (L : List M) (G1 G : M → α) : M → α := fun m => if m ∈ L then G1 m else G m

theorem ov_mem {α : Type} {L : List M} {G1 G : M → α} {m : M} (h : m ∈ L) : ov L G1 G m = G1 m := if_pos h
theorem ov_not {α : Type} {L : List M} {G1 G : M → α} {m : M} (h : m ∉ L) : ov L G1 G m = G m := if_neg h

theorem ov_update {α : Type} {L : List M} {G1 G : M → α} {m : M} (h : m ∉ L) (v : α) :
    ov L G1 (update G m v) = ov (m :: L) (update G1 m v) G := by
  funext x
  by_cases hx : x = m
  · subst hx
    rw [ov_not h, ov_mem (by simp), update_self, update_self]
  · by_cases hL : x ∈ L
    · rw [ov_mem hL, ov_mem (by simp [hL]), update_of_ne hx]
    · rw [ov_not hL, ov_not (by simp [hx, hL]), update_of_ne hx]

theorem ov_cons {α : Type} {L : List M} {G1 G : M → α} {m : M} (h : m ∈ L) : ov L G1 G = ov (m :: L) G1 G := by
  funext x
  by_cases hL : x ∈ L
  · rw [ov_mem hL, ov_mem (by simp [hL])]
  · have : x ≠ m := fun e => hL (e ▸ h)
    rw [ov_not hL, ov_not (by simp [this, hL])]

/-- The answers for `F` depend only on the known values. -/
def Local (f : (M → R × V) → List M → C → V → X) : Prop :=
  ∀ (L : List M) (G G' : M → R × V), (∀ m ∈ L, G m = G' m) → f G L = f G' L

theorem local_simF (enc : M → R → C) (F : C → V → X) (P : C → X) (cs : C) :
    Local fun G => simF enc G F P cs := by
  intro L G G' h
  funext c v
  unfold simF
  refine if_congr ?_ rfl rfl
  constructor
  · rintro ⟨h0, m, hm, h1⟩
    exact ⟨h0, m, hm, by rwa [← h m hm]⟩
  · rintro ⟨h0, m, hm, h1⟩
    exact ⟨h0, m, hm, by rwa [h m hm]⟩

/-- A new value of `G` is bad, or a value not asked for is guessed. -/
def Fresh (f : (M → R × V) → List M → C → V → X) (d : C → Option X) (dec : C → M) (Bad : R → Prop)
    (t : Attack M R V X C) (L : List M) (g : M → R × V) : Prop :=
  t.ever g (f g) d (fun L m => m ∉ L ∧ Bad (g m).1) (fun L c v => dec c ∉ L ∧ v = (g (dec c)).2) L

theorem ever_fresh (f : (M → R × V) → List M → C → V → X) (hf : Local f) (d : C → Option X) (dec : C → M)
    (Bad : R → Prop) (t : Attack M R V X C) : ∀ (L : List M) (G1 : M → R × V) (a b : Nat), t.Asks a b →
    ex (fun G : M → R × V => ind (Fresh f d dec Bad t L (ov L G1 G))) ≤
      a * ex (fun r => ind (Bad r)) + b * (1 / Nat.card V : ℚ) := by
  have hδ : 0 ≤ ex (fun r => ind (Bad r)) := ex_nonneg fun r => ind_nonneg _
  have hV : (0 : ℚ) ≤ 1 / Nat.card V := by positivity
  induction t with
  | answer b =>
    intro L G1 a b _
    refine (ex_le_const (c := 0) fun s => ?_).trans (by positivity)
    rw [ind_false (by simp [Fresh, Attack.ever])]
  | askG m k ih =>
    intro L G1 a b h
    have ha : ((a - 1 : Nat) : ℚ) = a - 1 := by rw [Nat.cast_sub h.1]; simp
    by_cases hm : m ∈ L
    · have h1 := ih (G1 m) (m :: L) G1 (a - 1) b (h.2 _)
      rw [ha] at h1
      have h2 : ex (fun G : M → R × V => ind (Fresh f d dec Bad (.askG m k) L (ov L G1 G))) ≤
          ex (fun G : M → R × V => ind (Fresh f d dec Bad (k (G1 m)) (m :: L) (ov (m :: L) G1 G))) := by
        refine ex_mono fun G => ind_mono ?_
        rintro (h | h)
        · exact absurd hm h.1
        · rw [← ov_cons hm]
          rw [ov_mem hm] at h
          exact h
      linarith
    · rw [ex_update m]
      have h2 : ∀ v : R × V, ex (fun G : M → R × V =>
          ind (Fresh f d dec Bad (.askG m k) L (ov L G1 (update G m v)))) ≤
          ind (Bad v.1) + ((a - 1) * ex (fun r => ind (Bad r)) + b * (1 / Nat.card V : ℚ)) := by
        intro v
        have h1 := ih v (m :: L) (update G1 m v) (a - 1) b (h.2 _)
        rw [ha] at h1
        have h3 : ∀ G : M → R × V, ind (Fresh f d dec Bad (.askG m k) L (ov L G1 (update G m v))) ≤
            ind (Bad v.1) + ind (Fresh f d dec Bad (k v) (m :: L) (ov (m :: L) (update G1 m v) G)) := by
          intro G
          refine (ind_mono ?_).trans (ind_or _ _)
          rw [ov_update hm]
          have e : ov (m :: L) (update G1 m v) G m = v := by rw [ov_mem (by simp), update_self]
          rintro (h | h)
          · rw [e] at h; exact .inl h.2
          · rw [e] at h; exact .inr h
        refine (ex_mono h3).trans ?_
        rw [ex_add, ex_const]
        linarith
      refine (ex_mono h2).trans ?_
      rw [ex_add, ex_const, ex_prod]
      have h4 : (ex fun r : R => ex fun _ : V => ind (Bad r)) = ex fun r => ind (Bad r) :=
        ex_congr fun r => ex_const _
      simp only
      rw [h4]
      linarith
  | askF c v k ih =>
    intro L G1 a b h
    have hb : ((b - 1 : Nat) : ℚ) = b - 1 := by rw [Nat.cast_sub h.1]; simp
    have h1 := ih (f G1 L c v) L G1 a (b - 1) (h.2 _)
    rw [hb] at h1
    have h2 : ∀ G : M → R × V, ind (Fresh f d dec Bad (.askF c v k) L (ov L G1 G)) ≤
        ind (dec c ∉ L ∧ v = (G (dec c)).2) + ind (Fresh f d dec Bad (k (f G1 L c v)) L (ov L G1 G)) := by
      intro G
      refine (ind_mono ?_).trans (ind_or _ _)
      have e : f (ov L G1 G) L = f G1 L := hf _ _ _ fun m hm => ov_mem hm
      rintro (h | h)
      · refine .inl ⟨h.1, ?_⟩
        rw [ov_not h.1] at h; exact h.2
      · rw [e] at h; exact .inr h
    refine (ex_mono h2).trans ?_
    rw [ex_add]
    have h3 : ex (fun G : M → R × V => ind (dec c ∉ L ∧ v = (G (dec c)).2)) ≤ 1 / Nat.card V := by
      refine (ex_mono fun G => ind_mono (q := v = (G (dec c)).2) fun h => h.2).trans ?_
      rw [ex_update (dec c)]
      have h5 : ∀ w : R × V, ex (fun G : M → R × V => ind (v = (update G (dec c) w (dec c)).2)) = ind (v = w.2) := by
        intro w
        simp only [update_self]
        exact ex_const _
      rw [ex_congr h5, ex_prod]
      refine ex_le_const fun r => ?_
      rw [← ex_eq_value v]
      exact ex_mono fun s => ind_mono Eq.symm
    linarith
  | askD c k ih => exact fun L G1 a b h => ih _ _ _ _ _ (h _)

/-! ## The games -/

variable (enc : M → R → C) (dec : C → M)

/-- The key that decapsulation uses. -/
def kc (G : M → R × V) (s : V) (c : C) : V := if enc (dec c) (G (dec c)).1 = c then (G (dec c)).2 else s

/-- `P` where decapsulation looks and `F` elsewhere. -/
def swapF (κ : C → V) (F : C → V → X) (P : C → X) (c : C) (v : V) : X := if v = κ c then P c else F c v

/-- The values of `F` where decapsulation looks can be chosen separately. -/
theorem ex_swap (κ : C → V) (φ : (C → V → X) → (C → X) → ℚ) :
    ex (fun F : C → V → X => φ F fun c => F c (κ c)) =
      ex fun F : C → V → X => ex fun P : C → X => φ (swapF κ F P) P := by
  let e : (C → V → X) × (C → X) ≃ (C → V → X) × (C → X) :=
    { toFun := fun p => (swapF κ p.1 p.2, fun c => p.1 c (κ c))
      invFun := fun p => (swapF κ p.1 p.2, fun c => p.1 c (κ c))
      left_inv := fun p => by
        ext c v
        · by_cases h : v = κ c
          · simp [swapF, h]
          · simp [swapF, h]
        · simp [swapF]
      right_inv := fun p => by
        ext c v
        · by_cases h : v = κ c
          · simp [swapF, h]
          · simp [swapF, h]
        · simp [swapF] }
  have h1 := ex_prod fun p : (C → V → X) × (C → X) => φ (swapF κ p.1 p.2) p.2
  have h2 := ex_equiv e fun q => φ q.1 fun c => q.1 c (κ c)
  have h3 := ex_prod fun q : (C → V → X) × (C → X) => φ q.1 fun c => q.1 c (κ c)
  have h4 : (ex fun F : C → V → X => ex fun _ : C → X => φ F fun c => F c (κ c)) =
      ex fun F : C → V → X => φ F fun c => F c (κ c) := ex_congr fun F => ex_const _
  have h5 : ∀ p : (C → V → X) × (C → X), (e p).1 = swapF κ p.1 p.2 ∧ (fun c => (e p).1 c (κ c)) = p.2 := by
    intro p
    refine ⟨rfl, ?_⟩
    funext c
    simp [e, swapF]
  have h6 : ex (fun p => φ (e p).1 fun c => (e p).1 c (κ c)) =
      ex fun p : (C → V → X) × (C → X) => φ (swapF κ p.1 p.2) p.2 :=
    ex_congr fun p => by rw [(h5 p).2, (h5 p).1]
  rw [← h4, ← h3, ← h2, h6, h1]

theorem foDecaps_eq (G : M → R × V) (F : C → V → X) (s : V) (c : C) :
    foDecaps enc dec G F s c = F c (kc enc dec G s c) := by
  unfold foDecaps kc
  split <;> rfl

/-- The answer of the attacker if `F` is answered depending on the questions to `G` so far. -/
def runL (g : M → R × V) (f : List M → C → V → X) (d : C → Option X) : Attack M R V X C → List M → Bool
  | .answer b, _ => b
  | .askG m k, L => runL g f d (k (g m)) (m :: L)
  | .askF c v k, L => runL g f d (k (f L c v)) L
  | .askD c k, L => runL g f d (k (d c)) L

/-- The questions for which the answers without the secret key can differ from the right ones. -/
def badG (Bad : R → Prop) (G : M → R × V) (ms : M) (L : List M) (m : M) : Prop := m = ms ∨ (m ∉ L ∧ Bad (G m).1)
def badF (G : M → R × V) (s ks : V) (L : List M) (c : C) (v : V) : Prop :=
  (v = s ∨ v = ks) ∨ (dec c ∉ L ∧ v = (G (dec c)).2)

theorem until_bad (Bad : R → Prop) (hdec : ∀ m r, ¬ Bad r → dec (enc m r) = m) (G : M → R × V) (ms : M) (rs : R)
    (ks s : V) (F : C → V → X) (P : C → X) (hr : ¬ Bad rs) (t : Attack M R V X C) : ∀ L : List M,
    (∀ m ∈ L, m ≠ ms ∧ ¬ Bad (G m).1) →
    ¬ t.ever G (simF enc G F P (enc ms rs)) (simD P (enc ms rs)) (badG Bad G ms) (badF dec G s ks) L →
    t.run (update G ms (rs, ks)) (swapF (kc enc dec (update G ms (rs, ks)) s) F P) (simD P (enc ms rs)) =
      runL G (simF enc G F P (enc ms rs)) (simD P (enc ms rs)) t L := by
  induction t with
  | answer b => exact fun _ _ _ => rfl
  | askG m k ih =>
    intro L hL hb
    have h1 : ¬ badG Bad G ms L m := fun h => hb (.inl h)
    have h2 := fun h => hb (.inr h)
    have h3 : m ≠ ms := fun e => h1 (.inl e)
    rw [Attack.run, runL, update_of_ne h3]
    refine ih _ _ ?_ h2
    intro x hx
    rcases List.mem_cons.1 hx with e | hx
    · subst e
      refine ⟨h3, ?_⟩
      by_cases hm : x ∈ L
      · exact (hL x hm).2
      · exact fun hbad => h1 (.inr ⟨hm, hbad⟩)
    · exact hL x hx
  | askF c v k ih =>
    intro L hL hb
    have h1 : ¬ badF dec G s ks L c v := fun h => hb (.inl h)
    have h2 := fun h => hb (.inr h)
    have hs : v ≠ s := fun e => h1 (.inl (.inl e))
    have hk : v ≠ ks := fun e => h1 (.inl (.inr e))
    have hg : dec c ∉ L → v ≠ (G (dec c)).2 := fun h e => h1 (.inr ⟨h, e⟩)
    have e : swapF (kc enc dec (update G ms (rs, ks)) s) F P c v = simF enc G F P (enc ms rs) L c v := by
      unfold swapF simF
      refine if_congr ?_ rfl rfl
      unfold kc
      by_cases hv : enc (dec c) ((update G ms (rs, ks)) (dec c)).1 = c
      · rw [if_pos hv]
        by_cases hm : dec c = ms
        · rw [hm, update_self] at hv ⊢
          refine ⟨fun h => absurd h hk, ?_⟩
          rintro ⟨h0, -⟩
          exact absurd hv.symm h0
        · rw [update_of_ne hm] at hv ⊢
          constructor
          · intro hvv
            have hmL : dec c ∈ L := by
              by_contra h; exact hg h hvv
            refine ⟨?_, dec c, hmL, hvv.symm, hv⟩
            rintro rfl
            exact hm (hdec _ _ hr)
          · rintro ⟨-, m, hmL, h3, h4⟩
            have h5 : dec c = m := by rw [← h4, hdec _ _ (hL m hmL).2]
            rw [h5, h3]
      · rw [if_neg hv]
        refine ⟨fun h => absurd h hs, ?_⟩
        rintro ⟨-, m, hmL, h3, h4⟩
        have h5 : dec c = m := by rw [← h4, hdec _ _ (hL m hmL).2]
        rw [h5, update_of_ne (hL m hmL).1] at hv
        exact absurd h4 hv
    rw [Attack.run, runL, e]
    exact ih _ _ hL h2
  | askD c k ih => exact fun L hL hb => ih _ _ hL hb

/-- Something happens for which the answers without the secret key can differ from the right ones. -/
def Trouble (Bad : R → Prop) (A : C → X → Attack M R V X C) (ms : M) (s : V) (rk : R × V) (G : M → R × V)
    (F : C → V → X) (P : C → X) (x : X) : Prop :=
  Bad rk.1 ∨ (A (enc ms rk.1) x).ever G (simF enc G F P (enc ms rk.1)) (simD P (enc ms rk.1)) (badG Bad G ms)
    (badF dec G s rk.2) []

/-- The answer of the attacker in the game without the secret key. -/
def simGame (A : C → X → Attack M R V X C) (ms : M) (r : R) (G : M → R × V) (F : C → V → X) (P : C → X) (x : X) :
    Bool :=
  runL G (simF enc G F P (enc ms r)) (simD P (enc ms r)) (A (enc ms r) x) []

theorem simF_update (G : M → R × V) (F : C → V → X) (P : C → X) (cs : C) (y : X) :
    simF enc G F (update P cs y) cs = simF enc G F P cs := by
  funext L c v
  unfold simF
  by_cases h : c = cs
  · simp [h]
  · rw [update_of_ne h]

theorem simD_update (P : C → X) (cs : C) (y : X) : simD (update P cs y) cs = simD P cs := by
  funext c
  unfold simD
  by_cases h : c = cs
  · simp [h]
  · rw [update_of_ne h]

/-- The value of `P` at the ciphertext of the challenge is a random string. -/
theorem ex_challenge (cs : C) (φ : (C → X) → X → ℚ) (h : ∀ P y x, φ (update P cs y) x = φ P x) :
    ex (fun P : C → X => φ P (P cs)) = ex fun P : C → X => ex fun x => φ P x := by
  rw [ex_update cs, ex_comm]
  refine ex_congr fun P => ex_congr fun x => ?_
  rw [h, update_self]

/-- The game with the shared secret. -/
def realGame (A : C → X → Attack M R V X C) : ℚ :=
  ex fun G : M → R × V => ex fun F : C → V → X => ex fun s => ex fun m =>
    ind (foGame enc dec A G F s m (foSecret enc G F m) = true)

/-- The game with a random string. -/
def randGame (A : C → X → Attack M R V X C) : ℚ :=
  ex fun G : M → R × V => ex fun F : C → V → X => ex fun s => ex fun m => ex fun x =>
    ind (foGame enc dec A G F s m x = true)

/-- The average over everything in the game without the secret key. -/
def all (φ : M → V → R × V → (M → R × V) → (C → V → X) → (C → X) → X → ℚ) : ℚ :=
  ex fun m => ex fun s => ex fun rk => ex fun G => ex fun F => ex fun P => ex fun x => φ m s rk G F P x

theorem all_mono {φ ψ : M → V → R × V → (M → R × V) → (C → V → X) → (C → X) → X → ℚ}
    (h : ∀ m s rk G F P x, φ m s rk G F P x ≤ ψ m s rk G F P x) : all φ ≤ all ψ :=
  ex_mono fun m => ex_mono fun s => ex_mono fun rk => ex_mono fun G => ex_mono fun F => ex_mono fun P =>
    ex_mono fun x => h m s rk G F P x

theorem all_add (φ ψ : M → V → R × V → (M → R × V) → (C → V → X) → (C → X) → X → ℚ) :
    all (fun m s rk G F P x => φ m s rk G F P x + ψ m s rk G F P x) = all φ + all ψ := by
  simp only [all, ex_add]

theorem all_sub (φ ψ : M → V → R × V → (M → R × V) → (C → V → X) → (C → X) → X → ℚ) :
    all (fun m s rk G F P x => φ m s rk G F P x - ψ m s rk G F P x) = all φ - all ψ := by
  simp only [all, ex_sub]

theorem abs_all (φ : M → V → R × V → (M → R × V) → (C → V → X) → (C → X) → X → ℚ) :
    |all φ| ≤ all fun m s rk G F P x => |φ m s rk G F P x| := by
  refine (abs_ex_le _).trans (ex_mono fun m => (abs_ex_le _).trans (ex_mono fun s => (abs_ex_le _).trans
    (ex_mono fun rk => (abs_ex_le _).trans (ex_mono fun G => (abs_ex_le _).trans (ex_mono fun F =>
      (abs_ex_le _).trans (ex_mono fun P => abs_ex_le _))))))

/-- A game in the form in which `F`, decapsulation and the values of `G` for the challenge are chosen separately. -/
theorem game_split (φ : M → V → (M → R × V) → (C → V → X) → (C → X) → ℚ) :
    (ex fun G : M → R × V => ex fun F : C → V → X => ex fun s => ex fun m =>
      φ m s G F fun c => F c (kc enc dec G s c)) =
    ex fun m => ex fun s => ex fun rk : R × V => ex fun G : M → R × V => ex fun F => ex fun P =>
      φ m s (update G m rk) (swapF (kc enc dec (update G m rk) s) F P) P := by
  have h1 : (ex fun G : M → R × V => ex fun F : C → V → X => ex fun s => ex fun m =>
      φ m s G F fun c => F c (kc enc dec G s c)) =
      ex fun m => ex fun s => ex fun G : M → R × V => ex fun F : C → V → X =>
        φ m s G F fun c => F c (kc enc dec G s c) := by
    have e1 : ∀ G : M → R × V, (ex fun F : C → V → X => ex fun s => ex fun m =>
        φ m s G F fun c => F c (kc enc dec G s c)) = ex fun m => ex fun s => ex fun F : C → V → X =>
        φ m s G F fun c => F c (kc enc dec G s c) := by
      intro G
      have : ∀ F : C → V → X, (ex fun s => ex fun m => φ m s G F fun c => F c (kc enc dec G s c)) =
          ex fun m => ex fun s => φ m s G F fun c => F c (kc enc dec G s c) := fun F => ex_comm _
      rw [ex_congr this, ex_comm]
      exact ex_congr fun m => ex_comm _
    rw [ex_congr e1, ex_comm]
    exact ex_congr fun m => ex_comm _
  rw [h1]
  refine ex_congr fun m => ex_congr fun s => ?_
  rw [ex_update m]
  refine ex_congr fun rk => ex_congr fun G => ?_
  rw [← ex_swap]

theorem randGame_near (Bad : R → Prop) (hdec : ∀ m r, ¬ Bad r → dec (enc m r) = m) (A : C → X → Attack M R V X C) :
    |randGame enc dec A - all fun m _ rk G F P x => ind (simGame enc A m rk.1 G F P x = true)| ≤
      all fun m s rk G F P x => ind (Trouble enc dec Bad A m s rk G F P x) := by
  have h1 : randGame enc dec A = all fun m s rk G F P x => ind ((A (enc m rk.1) x).run (update G m rk)
      (swapF (kc enc dec (update G m rk) s) F P) (simD P (enc m rk.1)) = true) := by
    have := game_split enc dec (fun m s G F P => ex fun x : X =>
      ind ((A (enc m (G m).1) x).run G F (simD P (enc m (G m).1)) = true))
    simp only [update_self] at this
    unfold all
    rw [← this]
    unfold randGame foGame
    simp only [foDecaps_eq]
    rfl
  rw [h1, ← all_sub]
  refine (abs_all _).trans (all_mono fun m s rk G F P x => ind_sub_le fun hb => ?_)
  have h2 := until_bad enc dec Bad hdec G m rk.1 rk.2 s F P (fun h => hb (.inl h)) (A (enc m rk.1) x) [] (by simp)
    fun h => hb (.inr h)
  rw [show rk = (rk.1, rk.2) from rfl, h2]
  rfl

theorem realGame_near (Bad : R → Prop) (hdec : ∀ m r, ¬ Bad r → dec (enc m r) = m) (A : C → X → Attack M R V X C) :
    |realGame enc dec A - all fun m _ rk G F P x => ind (simGame enc A m rk.1 G F P x = true)| ≤
      all fun m s rk G F P x => ind (Trouble enc dec Bad A m s rk G F P x) := by
  have h1 : realGame enc dec A = ex fun m => ex fun s => ex fun rk : R × V => ex fun G : M → R × V => ex fun F =>
      ex fun P : C → X => ind ((A (enc m rk.1) (swapF (kc enc dec (update G m rk) s) F P (enc m rk.1) rk.2)).run
        (update G m rk) (swapF (kc enc dec (update G m rk) s) F P) (simD P (enc m rk.1)) = true) := by
    have := game_split enc dec (fun m s G F P =>
      ind ((A (enc m (G m).1) (F (enc m (G m).1) (G m).2)).run G F (simD P (enc m (G m).1)) = true))
    simp only [update_self] at this
    rw [← this]
    unfold realGame foGame foSecret
    simp only [foDecaps_eq]
    rfl
  have h2 : (all fun m (_ : V) (rk : R × V) G F P x => ind (simGame enc A m rk.1 G F P x = true)) =
      ex fun m => ex fun _ : V => ex fun rk : R × V => ex fun G : M → R × V => ex fun F =>
        ex fun P : C → X => ind (simGame enc A m rk.1 G F P (P (enc m rk.1)) = true) := by
    refine ex_congr fun m => ex_congr fun _ => ex_congr fun rk => ex_congr fun G => ex_congr fun F => ?_
    refine (ex_challenge (enc m rk.1) (fun P x => ind (simGame enc A m rk.1 G F P x = true)) ?_).symm
    intro P y x
    unfold simGame
    rw [simF_update, simD_update]
  have h3 : (all fun m s rk G F P x => ind (Trouble enc dec Bad A m s rk G F P x)) =
      ex fun m => ex fun s : V => ex fun rk : R × V => ex fun G : M → R × V => ex fun F =>
        ex fun P : C → X => ind (Trouble enc dec Bad A m s rk G F P (P (enc m rk.1))) := by
    refine ex_congr fun m => ex_congr fun s => ex_congr fun rk => ex_congr fun G => ex_congr fun F => ?_
    refine (ex_challenge (enc m rk.1) (fun P x => ind (Trouble enc dec Bad A m s rk G F P x)) ?_).symm
    intro P y x
    unfold Trouble
    rw [simF_update, simD_update]
  rw [h1, h2, h3]
  simp only [← ex_sub]
  refine (abs_ex_le _).trans (ex_mono fun m => (abs_ex_le _).trans (ex_mono fun s => (abs_ex_le _).trans
    (ex_mono fun rk => (abs_ex_le _).trans (ex_mono fun G => (abs_ex_le _).trans (ex_mono fun F =>
      (abs_ex_le _).trans (ex_mono fun P => ind_sub_le fun hb => ?_))))))
  have hr : ¬ Bad rk.1 := fun h => hb (.inl h)
  have h4 : swapF (kc enc dec (update G m rk) s) F P (enc m rk.1) rk.2 = P (enc m rk.1) := by
    unfold swapF kc
    rw [hdec _ _ hr, update_self, if_pos rfl, if_pos rfl]
  have h5 := until_bad enc dec Bad hdec G m rk.1 rk.2 s F P hr (A (enc m rk.1) (P (enc m rk.1))) [] (by simp)
    fun h => hb (.inr h)
  rw [h4, show rk = (rk.1, rk.2) from rfl, h5]
  rfl

/-- How often the attacker finds the message. -/
def findGame (A : C → X → Attack M R V X C) : ℚ :=
  ex fun m => ex fun r => ex fun G => ex fun F => ex fun P => ex fun x =>
    ind (foFinds enc (A (enc m r) x) G F P (enc m r) m)

theorem trouble_le (Bad : R → Prop) (A : C → X → Attack M R V X C) {a b : Nat} (hA : ∀ c x, (A c x).Asks a b) :
    (all fun m s rk G F P x => ind (Trouble enc dec Bad A m s rk G F P x)) ≤
      findGame enc A + (a + 1) * ex (fun r => ind (Bad r)) + 3 * (b * (1 / Nat.card V : ℚ)) := by
  have h1 : ∀ m s (rk : R × V) G (F : C → V → X) (P : C → X) x, ind (Trouble enc dec Bad A m s rk G F P x) ≤
      ind (Bad rk.1) + (ind (foFinds enc (A (enc m rk.1) x) G F P (enc m rk.1) m) +
        (ind (Fresh (fun G => simF enc G F P (enc m rk.1)) (simD P (enc m rk.1)) dec Bad (A (enc m rk.1) x) [] G) +
        (ind ((A (enc m rk.1) x).ever G (simF enc G F P (enc m rk.1)) (simD P (enc m rk.1)) (fun _ _ => False)
          (fun _ _ v => v = s) []) +
         ind ((A (enc m rk.1) x).ever G (simF enc G F P (enc m rk.1)) (simD P (enc m rk.1)) (fun _ _ => False)
          (fun _ _ v => v = rk.2) [])))) := by
    intro m s rk G F P x
    refine (ind_or _ _).trans (add_le_add le_rfl ?_)
    refine (ind_mono ?_).trans ((ind_or _ _).trans (add_le_add le_rfl ((ind_or _ _).trans (add_le_add le_rfl
      (ind_or _ _)))))
    intro h
    have h := ever_mono G (simF enc G F P (enc m rk.1)) (simD P (enc m rk.1))
      (bG' := fun L m' => m' = m ∨ ((m' ∉ L ∧ Bad (G m').1) ∨ (False ∨ False)))
      (bF' := fun L c v => False ∨ ((dec c ∉ L ∧ v = (G (dec c)).2) ∨ (v = s ∨ v = rk.2)))
      (by rintro L m' (h | h); exact .inl h; exact .inr (.inl h))
      (by rintro L c v (h | h); exact .inr (.inr h); exact .inr (.inl h)) _ _ h
    refine (ever_or _ _ _ _ _ h).imp id fun h => ?_
    refine (ever_or _ _ _ _ _ h).imp id fun h => ?_
    exact ever_or _ _ _ _ _ h
  refine (all_mono h1).trans ?_
  simp only [all_add]
  have e1 : (all fun (_ : M) (_ : V) (rk : R × V) (_ : M → R × V) (_ : C → V → X) (_ : C → X) (_ : X) =>
      ind (Bad rk.1)) = ex fun r => ind (Bad r) := by
    simp only [all, ex_prod, ex_const]
  have e2 : (all fun m (_ : V) (rk : R × V) G F P x => ind (foFinds enc (A (enc m rk.1) x) G F P (enc m rk.1) m)) =
      findGame enc A := by
    simp only [all, ex_prod, ex_const]
    rfl
  have e3 : (all fun m (_ : V) (rk : R × V) G F P x => ind (Fresh (fun G => simF enc G F P (enc m rk.1))
      (simD P (enc m rk.1)) dec Bad (A (enc m rk.1) x) [] G)) ≤
      a * ex (fun r => ind (Bad r)) + b * (1 / Nat.card V : ℚ) := by
    refine ex_le_const fun m => ex_le_const fun s => ex_le_const fun rk => ?_
    rw [ex_comm]
    refine ex_le_const fun F => ?_
    rw [ex_comm]
    refine ex_le_const fun P => ?_
    rw [ex_comm]
    refine ex_le_const fun x => ?_
    have := ever_fresh (fun G => simF enc G F P (enc m rk.1)) (local_simF enc F P _) (simD P (enc m rk.1)) dec Bad
      (A (enc m rk.1) x) [] (Classical.arbitrary _) a b (hA _ _)
    have e : ∀ G : M → R × V, ov [] (Classical.arbitrary _) G = G := fun G => by funext y; simp [ov]
    simp only [e] at this
    exact this
  have e4 : (all fun m s (rk : R × V) G F P x => ind ((A (enc m rk.1) x).ever G (simF enc G F P (enc m rk.1))
      (simD P (enc m rk.1)) (fun _ _ => False) (fun _ _ v => v = s) [])) ≤ b * (1 / Nat.card V : ℚ) := by
    refine ex_le_const fun m => ?_
    rw [ex_comm]
    refine ex_le_const fun rk => ?_
    rw [ex_comm]
    refine ex_le_const fun G => ?_
    rw [ex_comm]
    refine ex_le_const fun F => ?_
    rw [ex_comm]
    refine ex_le_const fun P => ?_
    rw [ex_comm]
    exact ex_le_const fun x => ever_value _ _ _ _ _ a b (hA _ _)
  have e5 : (all fun m (_ : V) (rk : R × V) G F P x => ind ((A (enc m rk.1) x).ever G (simF enc G F P (enc m rk.1))
      (simD P (enc m rk.1)) (fun _ _ => False) (fun _ _ v => v = rk.2) [])) ≤ b * (1 / Nat.card V : ℚ) := by
    refine ex_le_const fun m => ex_le_const fun _ => ?_
    rw [ex_prod]
    refine ex_le_const fun r => ?_
    simp only
    rw [ex_comm]
    refine ex_le_const fun G => ?_
    rw [ex_comm]
    refine ex_le_const fun F => ?_
    rw [ex_comm]
    refine ex_le_const fun P => ?_
    rw [ex_comm]
    exact ex_le_const fun x => ever_value _ _ _ _ _ a b (hA _ _)
  rw [e1, e2]
  linarith

/-- The transform, for one key. -/
theorem fo_le (Bad : R → Prop) (hdec : ∀ m r, ¬ Bad r → dec (enc m r) = m) (A : C → X → Attack M R V X C) {a b : Nat}
    (hA : ∀ c x, (A c x).Asks a b) :
    |realGame enc dec A - randGame enc dec A| ≤
      2 * (findGame enc A + (a + 1) * ex (fun r => ind (Bad r)) + 3 * (b * (1 / Nat.card V : ℚ))) := by
  have h1 := realGame_near enc dec Bad hdec A
  have h2 := randGame_near enc dec Bad hdec A
  have h3 := trouble_le enc dec Bad A hA
  rw [abs_le] at h1 h2 ⊢
  constructor <;> linarith [h1.1, h1.2, h2.1, h2.2]

/-- A message that has nothing to do with the ciphertext is found with small probability. -/
theorem find_other (A : C → X → Attack M R V X C) {a b : Nat} (hA : ∀ c x, (A c x).Asks a b) (m0 : M) (r : R)
    (G : M → R × V) (F : C → V → X) (P : C → X) (x : X) :
    ex (fun m => ind (foFinds enc (A (enc m0 r) x) G F P (enc m0 r) m)) ≤ a * (1 / Nat.card M : ℚ) :=
  ever_message _ _ _ _ _ a b (hA _ _)

end

end Frodo
