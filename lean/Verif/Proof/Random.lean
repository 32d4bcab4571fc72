import Verif.Spec.Random
import Verif.Proof.KemBase

/-! # Correctness of `randombytes` -/

namespace Frodo

variable {σ : Type}

/-- Total correctness of a loop with a well-founded measure. -/
theorem Ret.whileWF {cond : σ → Bool} {body : σ → C σ} (I : σ → Prop) {γ : Type}
    {r : γ → γ → Prop} (wf : WellFounded r) (μ : σ → γ) {P : σ → Prop}
    (hstep : ∀ s, I s → cond s = true → Ret (body s) (fun s' => I s' ∧ r (μ s') (μ s)))
    (hpost : ∀ s, I s → cond s = false → P s) :
    ∀ s, I s → Ret (whileC cond body s) P := by
  have key : ∀ g s, μ s = g → I s → Ret (whileC cond body s) P := by
    intro g
    induction g using wf.induction with
    | _ g ih =>
      intro s hg hI
      rw [Ret_while_unfold]
      by_cases hc : cond s = true
      · rw [if_pos hc]
        exact (hstep s hI hc).bind fun s' h => ih _ (hg ▸ h.2) s' rfl h.1
      · rw [if_neg hc]
        exact ⟨s, [], rfl, hpost s hI (by simpa using hc)⟩
  intro s hI
  exact key _ s rfl hI

/-- Partial correctness of a loop: no termination is claimed. -/
theorem while_partial {cond : σ → Bool} {body : σ → C σ} (I : σ → Prop) {P : σ → Prop}
    (hstep : ∀ s, I s → cond s = true → ∀ s' t, body s = .ok s' t → I s')
    (hpost : ∀ s, I s → cond s = false → P s) :
    ∀ s, I s → ∀ a t, whileC cond body s = .ok a t → P a := by
  refine whileC.fixpoint_induct cond body
    (motive := fun f => ∀ s, I s → ∀ a t, f s = .ok a t → P a) ?_ ?_
  · refine Lean.Order.admissible_pi_apply (fun s (x : C σ) => I s → ∀ a t, x = .ok a t → P a) ?_
    intro s
    exact Lean.Order.admissible_flatOrder (b := C.div) _ (fun _ a t h => nomatch h)
  · intro f ih s hI a t h
    obtain ⟨_, t1, t2, _, h2, _⟩ := bind_ok h
    by_cases hc : cond s = true
    · rw [if_pos hc] at h2
      obtain ⟨s', _, _, hb, hf, _⟩ := bind_ok h2
      exact ih s' (hstep s hI hc s' _ hb) a _ hf
    · rw [if_neg hc] at h2
      rw [C.pure_def] at h2
      injection h2 with h3
      exact h3 ▸ hpost s hI (by simpa using hc)

open Spec

theorem delay_ret {c : Nat} : Ret (delay c) (fun _ => True) := by
  unfold delay
  refine (Ret.while (fun _ => True) id (P := fun _ => True) ?_ (fun _ _ _ => trivial) c
    trivial).bind fun _ _ => ⟨(), [], rfl, trivial⟩
  intro n _ hn
  refine ⟨n - 1, [], rfl, trivial, ?_⟩
  have : n ≠ 0 := by simpa using hn
  simp only [id]
  omega

/-! ## Opening the device -/

theorem openStep_ret {W : OS} {st : OSState} :
    Ret (openStep W st) (· = { st with lock := W.openRes st.opens, opens := st.opens + 1 }) := by
  unfold openStep
  simp only [Ret_ifC]
  split
  · exact delay_ret.bind fun _ _ => ⟨_, [], rfl, rfl⟩
  · exact ⟨_, [], rfl, rfl⟩

/-- The loop from its first round on. -/
theorem openLoop_ret {W : OS} : ∀ (d : Nat) (st : OSState),
    (∀ i < d, W.openRes (st.opens + i) = -1) → W.openRes (st.opens + d) ≠ -1 →
    Ret (openStep W st >>= fun st => whileC (fun st => st.lock == -1) (openStep W) st)
      (· = { st with lock := W.openRes (st.opens + d), opens := st.opens + d + 1 }) := by
  intro d
  induction d with
  | zero =>
    intro st _ h
    refine openStep_ret.bind ?_
    rintro _ rfl
    rw [Ret_while_unfold, if_neg (by simpa using h)]
    exact ⟨_, [], rfl, rfl⟩
  | succ d ih =>
    intro st h h'
    refine openStep_ret.bind ?_
    rintro _ rfl
    have h0 := h 0 (by omega)
    rw [Nat.add_zero] at h0
    rw [Ret_while_unfold, if_pos (by simp [h0])]
    refine (ih _ (fun i hi => ?_) ?_).mono ?_
    · have := h (i + 1) (by omega)
      rwa [show st.opens + (i + 1) = st.opens + 1 + i by omega] at this
    · rwa [show st.opens + (d + 1) = st.opens + 1 + d by omega] at h'
    · rintro _ rfl
      simp only [OSState.mk.injEq, and_true]
      constructor
      · congr 1; omega
      · omega

theorem openLoop_div {W : OS} {st : OSState} (h : ∀ i, W.openRes (st.opens + i) = -1) :
    (openStep W st >>= fun st => whileC (fun st => st.lock == -1) (openStep W) st) = .div := by
  obtain ⟨_, t, e, rfl⟩ := openStep_ret (W := W) (st := st)
  rw [e]
  have := while_div (cond := fun st : OSState => st.lock == -1) (body := openStep W)
    (fun s => s.lock = -1 ∧ ∀ i, W.openRes (s.opens + i) = -1) (fun s ⟨h1, h2⟩ => by
      obtain ⟨_, t', e', rfl⟩ := openStep_ret (W := W) (st := s)
      refine ⟨by simp [h1], by rw [e']; exact fun _ h => (nomatch h), ?_⟩
      rw [e']
      intro s' t h
      injection h with h
      subst h
      refine ⟨h2 0, fun i => ?_⟩
      have := h2 (i + 1)
      rwa [show s.opens + (i + 1) = s.opens + 1 + i by omega] at this)
    { st with lock := W.openRes st.opens, opens := st.opens + 1 }
    ⟨h 0, fun i => by
      have := h (i + 1)
      rwa [show st.opens + (i + 1) = st.opens + 1 + i by omega] at this⟩
  rw [C.bind_def]
  simp only [C.bind', this]

theorem openDevice_ret {W : OS} {st : OSState} (h : Opens W st) :
    Ret (openDevice W st) (fun st' => st'.lock ≠ -1 ∧ st'.reads = st.reads ∧ st'.pos = st.pos ∧
      (st.lock ≠ -1 → st' = st)) := by
  unfold openDevice
  rw [Ret_ifC]
  by_cases hl : st.lock = -1
  · rw [if_pos (by simp [hl])]
    classical
    have hex : ∃ d, W.openRes (st.opens + d) ≠ -1 := h.resolve_left (by simp [hl])
    refine (openLoop_ret (Nat.find hex) st (fun i hi => ?_) (Nat.find_spec hex)).mono ?_
    · simpa using Nat.find_min hex hi
    · rintro _ rfl
      exact ⟨Nat.find_spec hex, rfl, rfl, fun h => absurd hl h⟩
  · rw [if_neg (by simpa using hl)]
    exact ⟨st, [], rfl, hl, rfl, rfl, fun _ => rfl⟩

theorem ifC_div {α : Type} {b : Bool} {x y : C α} (h : (if b then x else y) = .div) :
    ifC b x y = .div := by
  unfold ifC
  rw [C.bind_def]
  simp only [C.bind', C.emit, h]

theorem openDevice_div {W : OS} {st : OSState} (h : ¬ Opens W st) : openDevice W st = .div := by
  unfold Opens at h
  push Not at h
  refine ifC_div ?_
  rw [if_pos (by simp [h.1])]
  exact openLoop_div h.2

/-! ## Reading -/

/-- The state after a call of `read` that delivers. -/
def ReadSt.got (W : OS) (s : ReadSt) (d m : Nat) : ReadSt :=
  { s with
    os := { s.os with reads := s.os.reads + d + 1, pos := s.os.pos + min m s.n.toNat }
    buf := s.buf.take s.count.toNat ++ osBytes W s.os.pos (min m s.n.toNat) ++
      s.buf.drop (s.count.toNat + min m s.n.toNat)
    r := (min m s.n.toNat : Nat) }

/-- The state after a call of `read` that is interrupted. -/
def ReadSt.again (s : ReadSt) : ReadSt :=
  { s with os := { s.os with reads := s.os.reads + 1 }, r := -1 }

theorem length_osBytes (W : OS) (p k : Nat) : (osBytes W p k).length = k := by simp [osBytes]

theorem readStep_got {W : OS} {s : ReadSt} {m : Nat} (hr : W.readRes s.os.reads = some m)
    (hf : s.count.toNat + s.n.toNat ≤ s.buf.length) :
    Ret (readStep W s) (· = s.got W 0 m) := by
  unfold readStep readCall
  rw [hr]
  simp only [bind_assoc]
  rw [Ret_memcpy_bind]
  refine ⟨by simp, by omega, ?_⟩
  rw [pure_bind, Ret_ifC, if_neg (by simp; omega)]
  refine ⟨_, [], rfl, ?_⟩
  unfold ReadSt.got osBytes
  simp

theorem readStep_again {W : OS} {s : ReadSt} (hr : W.readRes s.os.reads = none) :
    Ret (readStep W s) (· = s.again) := by
  unfold readStep readCall
  rw [hr, pure_bind, Ret_ifC, if_pos (by simp)]
  exact delay_ret.bind fun _ _ => ⟨_, [], rfl, rfl⟩

theorem readLoop_ret {W : OS} {m : Nat} : ∀ (d : Nat) (s : ReadSt),
    (∀ i < d, W.readRes (s.os.reads + i) = none) → W.readRes (s.os.reads + d) = some m →
    s.count.toNat + s.n.toNat ≤ s.buf.length →
    Ret (readStep W s >>= fun s => whileC (fun s : ReadSt => s.r == -1) (readStep W) s)
      (· = s.got W d m) := by
  intro d
  induction d with
  | zero =>
    intro s _ h hf
    refine (readStep_got h hf).bind ?_
    rintro _ rfl
    rw [Ret_while_unfold, if_neg (by simp [ReadSt.got]; omega)]
    exact ⟨_, [], rfl, rfl⟩
  | succ d ih =>
    intro s h h' hf
    refine (readStep_again (h 0 (by omega))).bind ?_
    rintro _ rfl
    rw [Ret_while_unfold, if_pos (by simp [ReadSt.again])]
    refine (ih s.again (fun i hi => ?_) ?_ hf).mono ?_
    · have := h (i + 1) (by omega)
      rwa [show s.os.reads + (i + 1) = s.os.reads + 1 + i by omega] at this
    · rwa [show s.os.reads + (d + 1) = s.os.reads + 1 + d by omega] at h'
    · rintro _ rfl
      unfold ReadSt.got ReadSt.again
      simp only [ReadSt.mk.injEq, OSState.mk.injEq, and_true, true_and]
      omega

theorem readLoop_div {W : OS} {s : ReadSt} (h : ∀ i, W.readRes (s.os.reads + i) = none) :
    (readStep W s >>= fun s => whileC (fun s : ReadSt => s.r == -1) (readStep W) s) = .div := by
  obtain ⟨_, t, e, rfl⟩ := readStep_again (s := s) (h 0)
  rw [e]
  have := while_div (cond := fun s : ReadSt => s.r == -1) (body := readStep W)
    (fun s => s.r = -1 ∧ ∀ i, W.readRes (s.os.reads + i) = none) (fun s ⟨h1, h2⟩ => by
      obtain ⟨_, t', e', rfl⟩ := readStep_again (s := s) (h2 0)
      refine ⟨by simp [h1], by rw [e']; exact fun _ h => (nomatch h), ?_⟩
      rw [e']
      intro s' t h
      injection h with h
      subst h
      refine ⟨rfl, fun i => ?_⟩
      have := h2 (i + 1)
      rwa [show s.os.reads + (i + 1) = s.os.reads + 1 + i by omega] at this)
    s.again
    ⟨rfl, fun i => by
      have := h (i + 1)
      rwa [show s.os.reads + (i + 1) = s.os.reads + 1 + i by omega] at this⟩
  rw [C.bind_def]
  simp only [C.bind', this]

/-- Invariant of the outer loop: `N` bytes are wanted, reading started at byte `p`. -/
structure FillInv (W : OS) (p N : Nat) (buf : List U8) (s : ReadSt) : Prop where
  N_le : N ≤ buf.length
  N_lt : N < 2 ^ 31
  n0 : 0 ≤ s.n
  c0 : 0 ≤ s.count
  sum : s.count.toNat + s.n.toNat = N
  pos : s.os.pos = p + s.count.toNat
  buf : s.buf = osBytes W p s.count.toNat ++ buf.drop s.count.toNat

theorem osBytes_append (W : OS) (p a b : Nat) :
    osBytes W p a ++ osBytes W (p + a) b = osBytes W p (a + b) := by
  unfold osBytes
  rw [List.range_add, List.map_append, List.map_map]
  congr 1
  refine List.map_congr_left fun i _ => ?_
  simp [Nat.add_assoc]

theorem fillStep_ret {W : OS} {p N : Nat} {buf : List U8} {s : ReadSt} {d m : Nat}
    (hI : FillInv W p N buf s) (h : ∀ i < d, W.readRes (s.os.reads + i) = none)
    (h' : W.readRes (s.os.reads + d) = some m) :
    Ret (fillStep W s) (fun s' => FillInv W p N buf s' ∧ s'.os.reads = s.os.reads + d + 1 ∧
      s'.n.toNat = s.n.toNat - m ∧ s'.os.lock = s.os.lock) := by
  have hlen : s.buf.length = buf.length := by
    have := hI.N_le; have := hI.sum
    rw [hI.buf, List.length_append, length_osBytes, List.length_drop]; omega
  have := hI.N_le; have := hI.sum; have := hI.N_lt; have := hI.n0; have := hI.c0
  unfold fillStep
  rw [← bind_assoc]
  refine (readLoop_ret d s h h' (by omega)).bind ?_
  rintro _ rfl
  simp only [ReadSt.got]
  rw [Ret_int_bind]
  refine ⟨by unfold inInt; omega, ?_⟩
  rw [Ret_int_bind]
  refine ⟨by unfold inInt; omega, ?_⟩
  have hk : min m s.n.toNat ≤ s.n.toNat := Nat.min_le_right _ _
  refine ⟨_, [], rfl, ⟨hI.N_le, hI.N_lt, by simp only; omega, by simp only; omega,
    by simp only; omega, ?_, ?_⟩, rfl, by simp only; omega, rfl⟩
  · simp only [hI.pos]; omega
  · simp only
    have hc : (s.count + (min m s.n.toNat : Nat)).toNat = s.count.toNat + min m s.n.toNat := by omega
    rw [hc, ← osBytes_append, hI.buf, hI.pos, List.take_left' (length_osBytes _ _ _),
      List.drop_append, List.drop_eq_nil_of_le (by rw [length_osBytes]; omega), length_osBytes,
      List.drop_drop, List.nil_append]
    congr 2
    omega

theorem fillStep_div {W : OS} {s : ReadSt} (h : ∀ i, W.readRes (s.os.reads + i) = none) :
    fillStep W s = .div := by
  unfold fillStep
  rw [← bind_assoc, readLoop_div h]
  rfl

theorem osAvail_skip {W : OS} : ∀ (d start K : Nat), (∀ i < d, W.readRes (start + i) = none) →
    osAvail W start (d + K) = osAvail W (start + d) K := by
  intro d
  induction d with
  | zero => intro start K _; simp
  | succ d ih =>
    intro start K h
    rw [show d + 1 + K = (d + K) + 1 by omega, osAvail]
    have h0 := h 0 (by omega)
    rw [Nat.add_zero] at h0
    rw [h0, ih (start + 1) K fun i hi => by
      have := h (i + 1) (by omega)
      rwa [show start + (i + 1) = start + 1 + i by omega] at this]
    simp only [Option.getD_none, Nat.zero_add]
    congr 1; omega

theorem osAvail_none {W : OS} : ∀ (K start : Nat), (∀ i < K, W.readRes (start + i) = none) →
    osAvail W start K = 0 := by
  intro K start h
  have := osAvail_skip K start 0 h
  simpa [osAvail] using this

theorem fillLoop_ret {W : OS} {p N : Nat} {buf : List U8} {s : ReadSt} (hI : FillInv W p N buf s)
    {K : Nat} (hK : s.n.toNat ≤ osAvail W s.os.reads K) :
    Ret (whileC (fun s : ReadSt => decide (s.n > 0)) (fillStep W) s)
      (fun s' => FillInv W p N buf s' ∧ s'.n = 0 ∧ s'.os.lock = s.os.lock) := by
  refine Ret.while (fun s' => FillInv W p N buf s' ∧ s'.os.lock = s.os.lock ∧ ∃ K', s'.os.reads + K' = s.os.reads + K ∧
      s'.n.toNat ≤ osAvail W s'.os.reads K')
    (fun s' => s.os.reads + K - s'.os.reads) ?_ ?_ s ⟨hI, rfl, K, rfl, hK⟩
  · rintro s' ⟨hI', hlk, K', e, hK'⟩ hc
    have hn : s'.n > 0 := by simpa using hc
    classical
    have hex : ∃ i, i < K' ∧ W.readRes (s'.os.reads + i) ≠ none := by
      by_contra hcon
      push Not at hcon
      rw [osAvail_none K' _ hcon] at hK'
      omega
    obtain ⟨hlt, hne⟩ := Nat.find_spec hex
    have hmin := fun i (hi : i < Nat.find hex) => Nat.find_min hex hi
    generalize Nat.find hex = d at hlt hne hmin
    have hnone : ∀ i < d, W.readRes (s'.os.reads + i) = none := by
      intro i hi
      by_contra hcon
      exact hmin i hi ⟨by omega, hcon⟩
    obtain ⟨m, hm⟩ := Option.ne_none_iff_exists'.mp hne
    refine (fillStep_ret hI' hnone hm).mono ?_
    rintro s'' ⟨hI'', hr, hn'', hlk'⟩
    refine ⟨⟨hI'', by rw [hlk', hlk], K' - d - 1, by omega, ?_⟩, by omega⟩
    have := osAvail_skip d s'.os.reads (K' - d) hnone
    rw [show d + (K' - d) = K' by omega] at this
    rw [this, show K' - d = (K' - d - 1) + 1 by omega, osAvail, hm] at hK'
    rw [hr, hn'']
    simp only [Option.getD_some] at hK'
    omega
  · rintro s' ⟨hI', hlk, _⟩ hc
    have hn : ¬ s'.n > 0 := by simpa using hc
    exact ⟨hI', by have := hI'.n0; omega, hlk⟩

theorem fillLoop_div {W : OS} {p N : Nat} {buf : List U8} {s : ReadSt} (hI : FillInv W p N buf s)
    (hK : ∀ K, osAvail W s.os.reads K < s.n.toNat) :
    whileC (fun s : ReadSt => decide (s.n > 0)) (fillStep W) s = .div := by
  refine while_div (fun s' => FillInv W p N buf s' ∧ ∀ K, osAvail W s'.os.reads K < s'.n.toNat) ?_ s
    ⟨hI, hK⟩
  rintro s' ⟨hI', hK'⟩
  have h0 := hK' 0
  refine ⟨by simp only [decide_eq_true_eq]; omega, ?_⟩
  by_cases hex : ∃ i, W.readRes (s'.os.reads + i) ≠ none
  · classical
    have hne := Nat.find_spec hex
    have hnone : ∀ i < Nat.find hex, W.readRes (s'.os.reads + i) = none := fun i hi => by
      simpa using Nat.find_min hex hi
    generalize Nat.find hex = d at hne hnone
    obtain ⟨m, hm⟩ := Option.ne_none_iff_exists'.mp hne
    obtain ⟨s'', t, e, hI'', hr, hn'', _⟩ := fillStep_ret hI' hnone hm
    rw [e]
    refine ⟨fun _ h => (nomatch h), ?_⟩
    intro s₁ t₁ h
    injection h with h
    subst h
    refine ⟨hI'', fun K => ?_⟩
    have h1 := hK' (d + (K + 1))
    rw [osAvail_skip d _ _ hnone, osAvail, hm] at h1
    simp only [Option.getD_some] at h1
    rw [hr, hn'']
    omega
  · push Not at hex
    rw [fillStep_div hex]
    exact ⟨fun _ h => (nomatch h), fun _ _ h => (nomatch h)⟩

theorem i32_nonneg_lt (n : Nat) : (i32 n).toNat < 2 ^ 31 := by
  unfold i32
  have := (BitVec.ofNat 32 n).toInt_lt (w := 32)
  omega

/-- Total correctness: enough bytes will be available. -/
theorem randombytes_nix_ret {W : OS} {st : OSState} {buf : List U8} {nbytes : Nat}
    (ho : Opens W st) (hb : (i32 nbytes).toNat ≤ buf.length) {K : Nat}
    (hK : (i32 nbytes).toNat ≤ osAvail W st.reads K) :
    Ret (randombytes_nix W st buf nbytes) (fun r =>
      r.2.1 = osBytes W st.pos (i32 nbytes).toNat ++ buf.drop (i32 nbytes).toNat ∧ r.2.2 = 0 ∧
      r.1.pos = st.pos + (i32 nbytes).toNat ∧ r.1.lock ≠ -1) := by
  unfold randombytes_nix
  refine (openDevice_ret ho).bind ?_
  rintro st' ⟨h1, h2, h3, _⟩
  by_cases hn : 0 ≤ i32 nbytes
  · have hI : FillInv W st.pos (i32 nbytes).toNat buf ⟨st', buf, 0, i32 nbytes, 0⟩ :=
      ⟨hb, i32_nonneg_lt _, hn, le_refl _, by simp, by simp [h3], by simp [osBytes]⟩
    refine (fillLoop_ret hI (K := K) (by simpa only [h2] using hK)).bind ?_
    rintro s ⟨hI', hn', hlk⟩
    have hc : s.count.toNat = (i32 nbytes).toNat := by
      have := hI'.sum; rw [hn'] at this; simpa using this
    refine ⟨_, [], rfl, ?_, rfl, ?_, ?_⟩
    · simp only; rw [hI'.buf, hc]
    · simp only; rw [hI'.pos, hc]
    · simp only; rw [hlk]; exact h1
  · have hz : (i32 nbytes).toNat = 0 := by omega
    refine Ret.bind_eq (v := ⟨st', buf, 0, i32 nbytes, 0⟩) ?_ ?_
    · rw [Ret_while_unfold, if_neg (by simp; omega)]
      exact ⟨_, [], rfl, rfl⟩
    · refine ⟨_, [], rfl, ?_, rfl, ?_, h1⟩
      · simp [hz, osBytes]
      · simp [hz, h3]

/-- It does not return if the device never opens or too few bytes will be available. -/
theorem randombytes_nix_div {W : OS} {st : OSState} {buf : List U8} {nbytes : Nat}
    (hb : (i32 nbytes).toNat ≤ buf.length)
    (h : ¬ Opens W st ∨ ∀ K, osAvail W st.reads K < (i32 nbytes).toNat) :
    randombytes_nix W st buf nbytes = .div := by
  unfold randombytes_nix
  by_cases ho : Opens W st
  · have h := h.resolve_left (fun h => h ho)
    obtain ⟨st', t, e, h1, h2, h3, _⟩ := openDevice_ret ho
    have hI : FillInv W st.pos (i32 nbytes).toNat buf ⟨st', buf, 0, i32 nbytes, 0⟩ :=
      ⟨hb, i32_nonneg_lt _, by have := h 0; show 0 ≤ i32 nbytes; omega, le_refl _, by simp, by simp [h3],
        by simp [osBytes]⟩
    have := fillLoop_div hI (by simpa only [h2] using h)
    rw [e, C.bind_def]
    simp only [C.bind', this]
    rfl
  · simp only [openDevice_div ho]
    rfl

end Frodo
