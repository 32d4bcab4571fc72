import Verif.Model.ConcRandom
import Verif.C.Logic
import Mathlib.Data.Finset.Card
import Mathlib.Data.Finset.Insert

/-! # Invariants of concurrent calls of `randombytes` -/

namespace Frodo.Rnd

/-- Descriptors are not negative and differ from each other (POSIX). -/
structure Sys.WF (W : Sys) : Prop where
  nonneg : ∀ k, 0 ≤ W.fd k
  inj : ∀ j k, W.fd j = W.fd k → j = k

theorem isOpen_neg {W : Sys} (hW : W.WF) (o : Nat) : W.isOpen o (-1) = false := by
  unfold Sys.isOpen
  rw [List.any_eq_false]
  intro k _
  have := hW.nonneg k
  simp
  omega

theorem isOpen_iff {W : Sys} {o : Nat} {v : Int} : W.isOpen o v = true ↔ ∃ k, k < o ∧ W.fd k = v := by
  unfold Sys.isOpen
  simp [List.any_eq_true]

@[simp] theorem set_lock (c : Conf) (t : Nat) (x : Call) : (c.set t x).lock = c.lock := rfl

@[simp] theorem set_opened (c : Conf) (t : Nat) (x : Call) : (c.set t x).opened = c.opened := rfl

@[simp] theorem set_pos (c : Conf) (t : Nat) (x : Call) : (c.set t x).pos = c.pos := rfl

theorem set_thr_self (c : Conf) (t : Nat) (x : Call) : (c.set t x).thr t = x := Function.update_self ..

theorem set_thr_ne (c : Conf) {t u : Nat} (x : Call) (h : u ≠ t) : (c.set t x).thr u = c.thr u :=
  Function.update_of_ne h ..

/-! ## What the threads have got -/

/-- `got t` are the positions in the stream of the bytes that thread `t` has got. -/
structure Inv (W : Sys) (buf : Nat → List U8) (N : Nat → Nat) (got : Nat → List Nat) (c : Conf) : Prop where
  count : ∀ t, (c.thr t).count = (got t).length
  n : ∀ t, (c.thr t).n + (got t).length = N t
  le : ∀ t, (got t).length ≤ N t
  buf : ∀ t, (c.thr t).buf = (got t).map W.stream ++ (buf t).drop (got t).length
  sorted : ∀ t, (got t).Pairwise (· < ·)
  lt : ∀ t, ∀ p ∈ got t, p < c.pos
  disj : ∀ t u, t ≠ u → ∀ p ∈ got t, p ∉ got u
  all : ∀ p, p < c.pos → ∃ t, p ∈ got t
  done : ∀ t, (c.thr t).pc = .done → (c.thr t).n = 0

theorem inv_start {W : Sys} {buf : Nat → List U8} {N : Nat → Nat} (l : Int) (o : Nat)
    (hN : ∀ t, N t < 2 ^ 31) : Inv W buf N (fun _ => []) (start l o buf N) := by
  have hi : ∀ t, i32 (N t) = N t := by
    intro t
    have := hN t
    unfold i32
    rw [BitVec.toInt_eq_toNat_cond, BitVec.toNat_ofNat]
    have : N t % 2 ^ 32 = N t := by omega
    rw [this, if_pos (by omega)]
  refine ⟨fun _ => rfl, fun t => ?_, fun _ => Nat.zero_le _, fun t => rfl, fun _ => List.Pairwise.nil,
    by simp, by simp, ?_, ?_⟩
  · show i32 (N t) + ((0 : Nat) : Int) = N t
    rw [hi]; simp
  · intro p hp; exact absurd hp (Nat.not_lt_zero _)
  · intro t h; cases h

/-- Moving a thread to another place. -/
theorem Inv.move {W : Sys} {buf : Nat → List U8} {N : Nat → Nat} {got : Nat → List Nat} {c d : Conf} {t : Nat}
    {p : Pc} (h : Inv W buf N got c) (hp : d.pos = c.pos) (ht : d.thr = c.thr)
    (hd : p = .done → (c.thr t).n = 0) :
    Inv W buf N got (d.set t { c.thr t with pc := p }) := by
  have key : ∀ u, ((d.set t { c.thr t with pc := p }).thr u).count = (c.thr u).count ∧
      ((d.set t { c.thr t with pc := p }).thr u).n = (c.thr u).n ∧
      ((d.set t { c.thr t with pc := p }).thr u).buf = (c.thr u).buf ∧
      (((d.set t { c.thr t with pc := p }).thr u).pc = .done → (c.thr u).n = 0) := by
    intro u
    by_cases hu : u = t
    · subst hu
      rw [set_thr_self]
      exact ⟨rfl, rfl, rfl, hd⟩
    · rw [set_thr_ne _ _ hu, ht]
      exact ⟨rfl, rfl, rfl, h.done u⟩
  refine ⟨fun u => ?_, fun u => ?_, h.le, fun u => ?_, h.sorted, ?_, h.disj, ?_, fun u => ?_⟩
  · rw [(key u).1]; exact h.count u
  · rw [(key u).2.1]; exact h.n u
  · rw [(key u).2.2.1]; exact h.buf u
  · intro u p hp'
    rw [set_pos, hp]
    exact h.lt u p hp'
  · intro p hp'
    rw [set_pos, hp] at hp'
    exact h.all p hp'
  · rw [(key u).2.1]; exact (key u).2.2.2

theorem deliver_ret {W : Sys} {B : List U8} {N : Nat} {g : List Nat} {pos m : Nat} {x : Call}
    (hN : N < 2 ^ 31) (hB : N ≤ B.length) (hc : x.count = g.length) (hn : x.n + g.length = N)
    (hle : g.length ≤ N) (hb : x.buf = g.map W.stream ++ B.drop g.length) :
    Ret (deliver W pos m x) (fun y => y = ⟨.loop,
      (g ++ List.range' pos (min m x.n.toNat)).map W.stream ++
        B.drop (g ++ List.range' pos (min m x.n.toNat)).length,
      x.n - (min m x.n.toNat : Nat), x.count + (min m x.n.toNat : Nat)⟩) := by
  have hr : ((List.range (min m x.n.toNat)).map fun i => W.stream (pos + i)) =
      (List.range' pos (min m x.n.toNat)).map W.stream := by
    rw [List.range'_eq_map_range, List.map_map]
    rfl
  have hk : min m x.n.toNat ≤ x.n.toNat := Nat.min_le_right _ _
  unfold deliver
  simp only
  rw [hr]
  generalize min m x.n.toNat = k at hk ⊢
  have e1 : x.count.toNat = g.length := by omega
  have hbl : x.buf.length = B.length := by
    rw [hb]; simp; omega
  rw [Ret_memcpy_bind]
  refine ⟨by simp, by rw [e1, hbl]; omega, ?_⟩
  rw [show int (x.count + k) = pure (x.count + k) from if_pos (by unfold inInt; omega), pure_bind,
    show int (x.n - k) = pure (x.n - k) from if_pos (by unfold inInt; omega), pure_bind, Ret_pure]
  congr 1
  rw [e1, hb]
  rw [List.drop_zero, List.take_left' (by simp), List.take_of_length_le (by simp), List.map_append,
    List.drop_append, List.drop_eq_nil_of_le (by simp), List.nil_append, List.drop_drop]
  congr 2
  simp

theorem Inv.deliver {W : Sys} {buf : Nat → List U8} {N : Nat → Nat} {got : Nat → List Nat} {c : Conf} {t : Nat}
    {k : Nat} (h : Inv W buf N got c) (hk : (k : Int) ≤ (c.thr t).n) :
    Inv W buf N (Function.update got t (got t ++ List.range' c.pos k))
      ({ c with pos := c.pos + k }.set t ⟨.loop, (got t ++ List.range' c.pos k).map W.stream ++
        (buf t).drop (got t ++ List.range' c.pos k).length, (c.thr t).n - k, (c.thr t).count + k⟩) := by
  have hgt : ∀ u, u ≠ t → Function.update got t (got t ++ List.range' c.pos k) u = got u :=
    fun u hu => Function.update_of_ne hu ..
  have hgs : Function.update got t (got t ++ List.range' c.pos k) t = got t ++ List.range' c.pos k :=
    Function.update_self ..
  have hlen : (got t ++ List.range' c.pos k).length = (got t).length + k := by simp
  have hn := h.n t
  have hc := h.count t
  refine ⟨fun u => ?_, fun u => ?_, fun u => ?_, fun u => ?_, fun u => ?_, fun u => ?_, fun u v => ?_, ?_,
    fun u => ?_⟩
  · by_cases hu : u = t
    · subst hu; rw [hgs, set_thr_self, hlen]; push_cast; omega
    · rw [hgt u hu, set_thr_ne _ _ hu]; exact h.count u
  · by_cases hu : u = t
    · subst hu; rw [hgs, set_thr_self, hlen]; push_cast; omega
    · rw [hgt u hu, set_thr_ne _ _ hu]; exact h.n u
  · by_cases hu : u = t
    · subst hu; rw [hgs, hlen]; omega
    · rw [hgt u hu]; exact h.le u
  · by_cases hu : u = t
    · subst hu; rw [hgs, set_thr_self]
    · rw [hgt u hu, set_thr_ne _ _ hu]; exact h.buf u
  · by_cases hu : u = t
    · subst hu
      rw [hgs, List.pairwise_append]
      refine ⟨h.sorted u, List.pairwise_lt_range', ?_⟩
      intro a ha b hb
      have := h.lt u a ha
      rw [List.mem_range'_1] at hb
      omega
    · rw [hgt u hu]; exact h.sorted u
  · intro p hp
    show p < c.pos + k
    by_cases hu : u = t
    · subst hu
      rw [hgs, List.mem_append, List.mem_range'_1] at hp
      rcases hp with hp | hp
      · have := h.lt u p hp; omega
      · omega
    · rw [hgt u hu] at hp
      have := h.lt u p hp; omega
  · intro huv p hp hq
    by_cases hu : u = t
    · subst hu
      rw [hgs, List.mem_append, List.mem_range'_1] at hp
      rw [hgt v (Ne.symm huv)] at hq
      rcases hp with hp | hp
      · exact h.disj u v huv p hp hq
      · have := h.lt v p hq; omega
    · rw [hgt u hu] at hp
      by_cases hv : v = t
      · subst hv
        rw [hgs, List.mem_append, List.mem_range'_1] at hq
        rcases hq with hq | hq
        · exact h.disj u v huv p hp hq
        · have := h.lt u p hp; omega
      · rw [hgt v hv] at hq
        exact h.disj u v huv p hp hq
  · intro p hp
    change p < c.pos + k at hp
    by_cases hp' : p < c.pos
    · obtain ⟨u, hu⟩ := h.all p hp'
      refine ⟨u, ?_⟩
      by_cases hut : u = t
      · subst hut; rw [hgs]; exact List.mem_append_left _ hu
      · rw [hgt u hut]; exact hu
    · refine ⟨t, ?_⟩
      rw [hgs]
      exact List.mem_append_right _ (List.mem_range'_1.2 (by omega))
  · by_cases hu : u = t
    · subst hu; rw [set_thr_self]; intro h; cases h
    · rw [set_thr_ne _ _ hu]; exact h.done u

theorem step_inv {W : Sys} {buf : Nat → List U8} {N : Nat → Nat} {got : Nat → List Nat} {c : Conf}
    (hN : ∀ t, N t < 2 ^ 31) (hB : ∀ t, N t ≤ (buf t).length) (h : Inv W buf N got c) (t : Nat) (a : Answer) :
    ∃ c' got', step W t a c = some c' ∧ Inv W buf N got' c' := by
  unfold step
  simp only
  cases hpc : (c.thr t).pc with
  | test => exact ⟨_, got, rfl, h.move rfl rfl (by split <;> (intro h; cases h))⟩
  | opening =>
    simp only
    split
    · exact ⟨_, got, rfl, h.move rfl rfl (by intro h; cases h)⟩
    · exact ⟨_, got, rfl, h.move rfl rfl (by intro h; cases h)⟩
  | store v => exact ⟨_, got, rfl, h.move rfl rfl (by intro h; cases h)⟩
  | check => exact ⟨_, got, rfl, h.move rfl rfl (by intro h; cases h)⟩
  | again => exact ⟨_, got, rfl, h.move rfl rfl (by split <;> (intro h; cases h))⟩
  | loop =>
    refine ⟨_, got, rfl, h.move rfl rfl ?_⟩
    have := h.n t
    have := h.le t
    split
    · intro h; cases h
    · intro _; omega
  | load => exact ⟨_, got, rfl, h.move rfl rfl (by intro h; cases h)⟩
  | reading fd =>
    simp only
    split
    · exact ⟨_, got, rfl, h.move rfl rfl (by intro h; cases h)⟩
    · rename_i m _
      obtain ⟨y, tr, e, hy⟩ := deliver_ret (W := W) (pos := c.pos) (m := m) (hN t) (hB t) (h.count t) (h.n t)
        (h.le t) (h.buf t)
      rw [e]
      subst hy
      have := h.n t
      have := h.le t
      exact ⟨_, _, rfl, h.deliver (by omega)⟩
  | done => exact ⟨_, got, rfl, h⟩

theorem run_inv {W : Sys} {buf : Nat → List U8} {N : Nat → Nat} (hN : ∀ t, N t < 2 ^ 31)
    (hB : ∀ t, N t ≤ (buf t).length) (sched : List (Nat × Answer)) :
    ∀ (got : Nat → List Nat) (c : Conf), Inv W buf N got c →
      ∃ c' got', run W sched c = some c' ∧ Inv W buf N got' c' := by
  induction sched with
  | nil => intro got c h; exact ⟨c, got, rfl, h⟩
  | cons s l ih =>
    intro got c h
    obtain ⟨c', got', e, h'⟩ := step_inv hN hB h s.1 s.2
    obtain ⟨c'', got'', e', h''⟩ := ih got' c' h'
    refine ⟨c'', got'', ?_, h''⟩
    show (step W s.1 s.2 c).bind (run W l) = _
    rw [e]
    exact e'

theorem run_append (W : Sys) (l m : List (Nat × Answer)) (c : Conf) :
    run W (l ++ m) c = (run W l c).bind (run W m) := by
  induction l generalizing c with
  | nil => rfl
  | cons s l ih =>
    show (step W s.1 s.2 c).bind (run W (l ++ m)) = ((step W s.1 s.2 c).bind (run W l)).bind (run W m)
    cases step W s.1 s.2 c with
    | none => rfl
    | some d => exact ih d

/-- An invariant of the steps is one of the schedules. -/
theorem run_of_step {W : Sys} {sched : List (Nat × Answer)} (J : Conf → Prop)
    (hs : ∀ s ∈ sched, ∀ c c', J c → step W s.1 s.2 c = some c' → J c') :
    ∀ c c', J c → run W sched c = some c' → J c' := by
  induction sched with
  | nil => intro c c' h e; cases e; exact h
  | cons s l ih =>
    intro c c' h e
    change (step W s.1 s.2 c).bind (run W l) = some c' at e
    cases hd : step W s.1 s.2 c with
    | none => rw [hd] at e; cases e
    | some d =>
      rw [hd] at e
      exact ih (fun s hs' => hs s (List.mem_cons_of_mem _ hs')) d c'
        (hs s (List.mem_cons_self ..) c d h hd) e

theorem deliver_pc {W : Sys} {pos m : Nat} {x y : Call} {tr : List Event}
    (h : Rnd.deliver W pos m x = .ok y tr) : y.pc = .loop := by
  unfold Rnd.deliver at h
  simp only at h
  revert h
  generalize memcpy _ _ _ _ _ = m1
  generalize int (x.count + _) = m2
  generalize int (x.n - _) = m3
  cases m1 <;> cases m2 <;> cases m3 <;> intro h <;> cases h
  rfl

/-- A step changes only the thread that takes it. -/
theorem step_other {W : Sys} {t u : Nat} {a : Answer} {c c' : Conf} (h : step W t a c = some c') (hu : u ≠ t) :
    c'.thr u = c.thr u := by
  unfold step at h
  simp only at h
  cases hpc : (c.thr t).pc with
  | test => rw [hpc] at h; injection h with h; rw [← h, set_thr_ne _ _ hu]
  | opening =>
    rw [hpc] at h
    simp only at h
    split at h <;> (injection h with h; rw [← h, set_thr_ne _ _ hu])
  | store v => rw [hpc] at h; injection h with h; rw [← h, set_thr_ne _ _ hu]
  | check => rw [hpc] at h; injection h with h; rw [← h, set_thr_ne _ _ hu]
  | again => rw [hpc] at h; injection h with h; rw [← h, set_thr_ne _ _ hu]
  | loop => rw [hpc] at h; injection h with h; rw [← h, set_thr_ne _ _ hu]
  | load => rw [hpc] at h; injection h with h; rw [← h, set_thr_ne _ _ hu]
  | reading fd =>
    rw [hpc] at h
    simp only at h
    split at h
    · injection h with h; rw [← h, set_thr_ne _ _ hu]
    · split at h
      · injection h with h; rw [← h, set_thr_ne _ _ hu]
      · cases h
  | done => rw [hpc] at h; injection h with h; rw [← h]

end Frodo.Rnd
