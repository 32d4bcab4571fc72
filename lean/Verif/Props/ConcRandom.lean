import Verif.Proof.ConcRandom
import Verif.Props.Random
import Mathlib.Tactic.NormNum

/-! # C59: concurrent calls of `randombytes` -/

namespace Frodo.Props

open Rnd

/-! ## What the callers get -/

/-- C59.  However concurrent calls of `randombytes` are interleaved, and whatever the operating system
answers, nothing undefined happens, and every call that has ended has filled its buffer with bytes of
/dev/urandom, `nbytes` of them in the order of delivery and nothing else; each byte that the device delivered went to
exactly one thread (`got t` are the positions of the bytes of thread `t`). -/
theorem C59_filled (W : Sys) (lock : Int) (opened : Nat) (buf : Nat → List U8) (N : Nat → Nat)
    (sched : List (Nat × Answer)) (hN : ∀ t, N t < 2 ^ 31) (hB : ∀ t, N t ≤ (buf t).length) :
    ∃ (c : Conf) (got : Nat → List Nat), run W sched (start lock opened buf N) = some c ∧
      (∀ t, (c.thr t).pc = .done → (got t).length = N t ∧
        (c.thr t).buf = (got t).map W.stream ++ (buf t).drop (N t)) ∧
      (∀ t, (got t).Pairwise (· < ·)) ∧ (∀ t u, t ≠ u → ∀ p ∈ got t, p ∉ got u) ∧
      (∀ p, p < c.pos ↔ ∃ t, p ∈ got t) := by
  obtain ⟨c, got, e, h⟩ := run_inv (W := W) hN hB sched _ _ (inv_start lock opened hN)
  refine ⟨c, got, e, ?_, h.sorted, h.disj, ?_⟩
  · intro t ht
    have h1 := h.done t ht
    have h2 := h.n t
    have hl : (got t).length = N t := by omega
    refine ⟨hl, ?_⟩
    rw [← hl]
    exact h.buf t
  · intro p
    exact ⟨h.all p, fun ⟨t, ht⟩ => h.lt t p ht⟩

/-! ## Data races on `lock` -/

/-- The next step of the call writes to `lock`. -/
def Writes (x : Call) : Prop := ∃ v, x.pc = .store v

/-- The next step of the call reads `lock`. -/
def Reads (x : Call) : Prop := x.pc = .test ∨ x.pc = .check ∨ x.pc = .again ∨ x.pc = .load

/-- Two threads are about to access `lock`, and one of them writes: a data race (C11 5.1.2.4p25). -/
def Race (c : Conf) : Prop := ∃ t u, t ≠ u ∧ Writes (c.thr t) ∧ (Writes (c.thr u) ∨ Reads (c.thr u))

/-- C59: once a call of `randombytes` has opened the device (and left its descriptor in `lock`), later calls
can run concurrently without a data race; they do not open the device again and do not change `lock`, and
none of them ever reads from another descriptor. -/
theorem C59_no_race {W : Sys} {lock : Int} {opened : Nat} {buf : Nat → List U8} {N : Nat → Nat}
    {sched : List (Nat × Answer)} {c : Conf} (hl : lock ≠ -1)
    (hr : run W sched (start lock opened buf N) = some c) :
    ¬ Race c ∧ c.lock = lock ∧ c.opened = opened ∧ ∀ t fd, (c.thr t).pc = .reading fd → fd = lock := by
  have key := run_of_step (W := W) (sched := sched) (fun c => c.lock = lock ∧ c.opened = opened ∧
    ∀ t, (c.thr t).pc = .test ∨ (c.thr t).pc = .loop ∨ (c.thr t).pc = .load ∨
      (c.thr t).pc = .reading lock ∨ (c.thr t).pc = .done) ?_ _ _ ⟨rfl, rfl, fun t => Or.inl rfl⟩ hr
  · obtain ⟨h1, h2, h3⟩ := key
    refine ⟨?_, h1, h2, ?_⟩
    · rintro ⟨t, u, -, ⟨v, hv⟩, -⟩
      rcases h3 t with h | h | h | h | h <;> rw [h] at hv <;> cases hv
    · intro t fd h
      rcases h3 t with h' | h' | h' | h' | h' <;> rw [h'] at h <;> cases h
      rfl
  · rintro ⟨t, a⟩ - c c' ⟨h1, h2, h3⟩ hs
    have ho : ∀ u, u ≠ t → c'.thr u = c.thr u := fun u hu => step_other hs hu
    suffices h : c'.lock = lock ∧ c'.opened = opened ∧ ((c'.thr t).pc = .test ∨ (c'.thr t).pc = .loop ∨
        (c'.thr t).pc = .load ∨ (c'.thr t).pc = .reading lock ∨ (c'.thr t).pc = .done) by
      refine ⟨h.1, h.2.1, fun u => ?_⟩
      by_cases hu : u = t
      · subst hu; exact h.2.2
      · rw [ho u hu]; exact h3 u
    simp only [step] at hs
    rcases h3 t with h | h | h | h | h <;> rw [h] at hs <;> simp only at hs
    · injection hs with hs
      subst hs
      refine ⟨h1, h2, ?_⟩
      rw [set_thr_self, h1, if_neg hl]
      exact Or.inr (Or.inl rfl)
    · injection hs with hs
      subst hs
      refine ⟨h1, h2, ?_⟩
      rw [set_thr_self]
      by_cases hn : 0 < (c.thr t).n
      · simp [hn]
      · simp [hn]
    · injection hs with hs
      subst hs
      refine ⟨h1, h2, ?_⟩
      rw [set_thr_self, h1]
      simp
    · split at hs
      · injection hs with hs
        subst hs
        refine ⟨h1, h2, ?_⟩
        rw [set_thr_self]
        simp
      · split at hs
        · rename_i y tr hy
          injection hs with hs
          subst hs
          refine ⟨h1, h2, ?_⟩
          rw [set_thr_self]
          have : y.pc = .loop := deliver_pc hy
          simp [this]
        · cases hs
    · injection hs with hs
      subst hs
      exact ⟨h1, h2, by rw [h]; simp⟩

/-- C59 (a way to violate C): two first calls of `randombytes` in different threads can race on `lock`,
whatever they ask for. -/
theorem C59_race (W : Sys) (opened : Nat) (buf : Nat → List U8) (N : Nat → Nat) (t u : Nat) (htu : t ≠ u)
    (a : Answer) :
    ∃ c, run W [(t, a), (t, a)] (start (-1) opened buf N) = some c ∧ Race c := by
  have e1 : step W t a (start (-1) opened buf N) = some ((start (-1) opened buf N).set t
    { (start (-1) opened buf N).thr t with pc := .opening }) := rfl
  show ∃ c, (step W t a (start (-1) opened buf N)).bind _ = some c ∧ _
  rw [e1]
  generalize hd : (start (-1) opened buf N).set t { (start (-1) opened buf N).thr t with pc := .opening } = d
  have hdt : (d.thr t).pc = .opening := by rw [← hd, set_thr_self]
  have hdu : (d.thr u).pc = .test := by rw [← hd, set_thr_ne _ _ (Ne.symm htu)]; rfl
  show ∃ c, (step W t a d).bind (fun c => some c) = some c ∧ _
  have e2 : ∃ c, step W t a d = some c ∧ (∃ v, (c.thr t).pc = .store v) ∧ c.thr u = d.thr u := by
    unfold step
    simp only [hdt]
    split
    · exact ⟨_, rfl, ⟨_, by rw [set_thr_self]⟩, set_thr_ne _ _ (Ne.symm htu)⟩
    · exact ⟨_, rfl, ⟨_, by rw [set_thr_self]⟩, set_thr_ne _ _ (Ne.symm htu)⟩
  obtain ⟨c, ec, hv, hu⟩ := e2
  rw [ec]
  exact ⟨c, rfl, t, u, htu, hv, Or.inr (Or.inl (by rw [hu, hdu]))⟩

/-! ## Descriptors -/

/-- C59: if `open` never fails, there are never more descriptors than threads that made a step (and the
variable `lock` can hold only one of them). -/
theorem C59_descriptors {W : Sys} (hW : W.WF) {buf : Nat → List U8} {N : Nat → Nat}
    {sched : List (Nat × Answer)} {c : Conf} (ha : ∀ s ∈ sched, s.2.openOk = true)
    (hr : run W sched (start (-1) 0 buf N) = some c) :
    ∃ D : Finset Nat, c.opened = D.card ∧ ∀ t ∈ D, ∃ a, (t, a) ∈ sched := by
  have key := run_of_step (W := W) (sched := sched) (fun c => ∃ D : Finset Nat, c.opened = D.card ∧
    (∀ t ∈ D, ∃ a, (t, a) ∈ sched) ∧ (∀ t ∈ D, (c.thr t).pc ≠ .test ∧ (c.thr t).pc ≠ .opening) ∧
    (∀ t v, (c.thr t).pc = .store v → v ≠ -1) ∧
    (c.lock = -1 → ∀ t, (c.thr t).pc = .test ∨ (c.thr t).pc = .opening ∨ ∃ v, (c.thr t).pc = .store v))
    ?_ _ _ ⟨∅, rfl, by simp, by simp, fun t v h => (by cases h), fun _ t => Or.inl rfl⟩ hr
  · obtain ⟨D, h1, h2, -⟩ := key
    exact ⟨D, h1, h2⟩
  · rintro ⟨t, a⟩ hmem c c' ⟨D, h1, h2, h3, h4, h5⟩ hs
    have hok : a.openOk = true := ha _ hmem
    have ho : ∀ u, u ≠ t → c'.thr u = c.thr u := fun u hu => step_other hs hu
    -- the parts about the other threads
    have g4 : (∀ v, (c'.thr t).pc = .store v → v ≠ -1) →
        ∀ u v, (c'.thr u).pc = .store v → v ≠ -1 := by
      intro h u v hu
      by_cases hut : u = t
      · subst hut; exact h v hu
      · rw [ho u hut] at hu; exact h4 u v hu
    have g3 : (t ∈ D → (c'.thr t).pc ≠ .test ∧ (c'.thr t).pc ≠ .opening) →
        ∀ u ∈ D, (c'.thr u).pc ≠ .test ∧ (c'.thr u).pc ≠ .opening := by
      intro h u hu
      by_cases hut : u = t
      · subst hut; exact h hu
      · rw [ho u hut]; exact h3 u hu
    have g5 : c'.lock = c.lock → (c.lock = -1 → (c'.thr t).pc = .test ∨ (c'.thr t).pc = .opening ∨
        ∃ v, (c'.thr t).pc = .store v) → c'.lock = -1 → ∀ u, (c'.thr u).pc = .test ∨
        (c'.thr u).pc = .opening ∨ ∃ v, (c'.thr u).pc = .store v := by
      intro hl h hl' u
      by_cases hut : u = t
      · subst hut; exact h (by rw [← hl]; exact hl')
      · rw [ho u hut]; exact h5 (by rw [← hl]; exact hl') u
    simp only [step] at hs
    cases hpc : (c.thr t).pc with
    | test =>
      rw [hpc] at hs
      injection hs with hs
      subst hs
      have hnD : t ∉ D := fun h => (h3 t h).1 hpc
      refine ⟨D, h1, h2, g3 fun h => absurd h hnD, g4 ?_, g5 rfl ?_⟩
      · rw [set_thr_self]; intro v h; simp only at h; split at h <;> cases h
      · rw [set_thr_self]; intro hl; right; left; simp [hl]
    | opening =>
      rw [hpc] at hs
      simp only [hok, if_true] at hs
      injection hs with hs
      subst hs
      have hnD : t ∉ D := fun h => (h3 t h).2 hpc
      refine ⟨insert t D, ?_, ?_, ?_, g4 ?_, g5 rfl ?_⟩
      · rw [Finset.card_insert_of_notMem hnD]
        show c.opened + 1 = _
        rw [h1]
      · intro u hu
        rcases Finset.mem_insert.1 hu with rfl | hu
        · exact ⟨a, hmem⟩
        · exact h2 u hu
      · intro u hu
        by_cases hut : u = t
        · subst hut; rw [set_thr_self]; simp
        · rw [ho u hut]
          exact h3 u ((Finset.mem_insert.1 hu).resolve_left hut)
      · rw [set_thr_self]
        intro v h
        injection h with h
        have := hW.nonneg c.opened
        omega
      · rw [set_thr_self]; intro _; exact Or.inr (Or.inr ⟨_, rfl⟩)
    | store v =>
      rw [hpc] at hs
      injection hs with hs
      subst hs
      refine ⟨D, h1, h2, g3 fun _ => ?_, g4 ?_, ?_⟩
      · rw [set_thr_self]; simp
      · rw [set_thr_self]; intro v h; cases h
      · intro h
        exact absurd h (h4 t v hpc)
    | check =>
      rw [hpc] at hs
      injection hs with hs
      subst hs
      refine ⟨D, h1, h2, g3 fun _ => ?_, g4 ?_, g5 rfl ?_⟩
      · rw [set_thr_self]; simp
      · rw [set_thr_self]; intro v h; cases h
      · intro hl
        rcases h5 hl t with h | h | ⟨v, h⟩ <;> rw [hpc] at h <;> cases h
    | again =>
      rw [hpc] at hs
      injection hs with hs
      subst hs
      have hl : c.lock ≠ -1 := by
        intro hl
        rcases h5 hl t with h | h | ⟨v, h⟩ <;> rw [hpc] at h <;> cases h
      refine ⟨D, h1, h2, g3 fun _ => ?_, g4 ?_, g5 rfl ?_⟩
      · rw [set_thr_self]; simp [hl]
      · rw [set_thr_self]; intro v h; simp [hl] at h
      · intro h; exact absurd h hl
    | loop =>
      rw [hpc] at hs
      injection hs with hs
      subst hs
      refine ⟨D, h1, h2, g3 fun _ => ?_, g4 ?_, g5 rfl ?_⟩
      · rw [set_thr_self]
        by_cases hn : 0 < (c.thr t).n <;> simp [hn]
      · rw [set_thr_self]
        intro v h
        simp only at h
        split at h <;> cases h
      · intro hl
        rcases h5 hl t with h | h | ⟨v, h⟩ <;> rw [hpc] at h <;> cases h
    | load =>
      rw [hpc] at hs
      injection hs with hs
      subst hs
      refine ⟨D, h1, h2, g3 fun _ => ?_, g4 ?_, g5 rfl ?_⟩
      · rw [set_thr_self]; simp
      · rw [set_thr_self]; intro v h; cases h
      · intro hl
        rcases h5 hl t with h | h | ⟨v, h⟩ <;> rw [hpc] at h <;> cases h
    | reading fd =>
      have hl : c.lock ≠ -1 := by
        intro hl
        rcases h5 hl t with h | h | ⟨v, h⟩ <;> rw [hpc] at h <;> cases h
      rw [hpc] at hs
      simp only at hs
      split at hs
      · injection hs with hs
        subst hs
        refine ⟨D, h1, h2, g3 fun _ => ?_, g4 ?_, g5 rfl fun h => absurd h hl⟩
        · rw [set_thr_self]; simp
        · rw [set_thr_self]; intro v h; cases h
      · split at hs
        · rename_i y tr hy
          injection hs with hs
          subst hs
          have hy' := deliver_pc hy
          refine ⟨D, h1, h2, g3 fun _ => ?_, g4 ?_, g5 rfl fun h => absurd h hl⟩
          · rw [set_thr_self, hy']; simp
          · rw [set_thr_self, hy']; intro v h; cases h
        · cases hs
    | done =>
      rw [hpc] at hs
      injection hs with hs
      subst hs
      exact ⟨D, h1, h2, h3, h4, h5⟩

/-- C59 (a leak): any number of first calls can each open the device, although only one descriptor is ever
used. -/
theorem C59_leak (W : Sys) (buf : Nat → List U8) (N : Nat → Nat) (m : Nat) :
    ∃ sched c, (∀ s ∈ sched, s.1 < m ∧ s.2.openOk = true) ∧
      run W sched (start (-1) 0 buf N) = some c ∧ c.opened = m := by
  -- all of them find `lock` to be -1
  have h1 : ∀ j, ∃ c, run W ((List.range j).map fun t => (t, ⟨true, none⟩)) (start (-1) 0 buf N) = some c ∧
      c.opened = 0 ∧ c.lock = -1 ∧ (∀ t, t < j → (c.thr t).pc = .opening) ∧
      ∀ t, j ≤ t → (c.thr t).pc = .test := by
    intro j
    induction j with
    | zero => exact ⟨_, rfl, rfl, rfl, by omega, fun _ _ => rfl⟩
    | succ j ih =>
      obtain ⟨c, e, a1, a2, a3, a4⟩ := ih
      rw [List.range_succ, List.map_append, run_append, e]
      have hj := a4 j (Nat.le_refl j)
      refine ⟨c.set j { c.thr j with pc := .opening }, ?_, a1, a2, ?_, ?_⟩
      · show (step W j _ c).bind (fun c => some c) = _
        simp only [step, hj, a2, if_true]
        rfl
      · intro t ht
        by_cases htj : t = j
        · subst htj; rw [set_thr_self]
        · rw [set_thr_ne _ _ htj]; exact a3 t (by omega)
      · intro t ht
        rw [set_thr_ne _ _ (by omega)]
        exact a4 t (by omega)
  have h2 : ∀ j, j ≤ m → ∃ c, run W (((List.range m).map fun t => (t, ⟨true, none⟩)) ++
      ((List.range j).map fun t => (t, ⟨true, none⟩))) (start (-1) 0 buf N) = some c ∧
      c.opened = j ∧ ∀ t, j ≤ t → t < m → (c.thr t).pc = .opening := by
    intro j
    induction j with
    | zero =>
      intro _
      obtain ⟨c, e, a1, -, a3, -⟩ := h1 m
      exact ⟨c, by simpa using e, a1, fun t _ ht => a3 t ht⟩
    | succ j ih =>
      intro hj
      obtain ⟨c, e, a1, a3⟩ := ih (by omega)
      rw [List.range_succ (n := j), List.map_append, ← List.append_assoc, run_append, e]
      have hpc := a3 j (Nat.le_refl j) (by omega)
      refine ⟨{ c with opened := c.opened + 1 }.set j { c.thr j with pc := .store (W.fd c.opened) }, ?_, ?_,
        ?_⟩
      · show (step W j _ c).bind (fun c => some c) = _
        simp only [step, hpc, if_true]
        rfl
      · show c.opened + 1 = j + 1
        rw [a1]
      · intro t h1 h2
        rw [set_thr_ne _ _ (by omega)]
        exact a3 t (by omega) h2
  obtain ⟨c, e, a1, -⟩ := h2 m (Nat.le_refl m)
  refine ⟨_, c, ?_, e, a1⟩
  intro s hs
  simp only [List.mem_append, List.mem_map, List.mem_range, or_self] at hs
  obtain ⟨t, ht, rfl⟩ := hs
  exact ⟨ht, rfl⟩

/-- C59 (a leak without bound): where `open` may fail, already two first calls can open any number of
descriptors: a call whose `open` succeeded opens the device again if the other one, whose `open` failed,
has overwritten `lock`. -/
theorem C59_leak_unbounded (W : Sys) (buf : Nat → List U8) (N : Nat → Nat) (t u : Nat) (htu : t ≠ u) (m : Nat) :
    ∃ sched c, (∀ s ∈ sched, s.1 = t ∨ s.1 = u) ∧ run W sched (start (-1) 0 buf N) = some c ∧
      c.opened = m := by
  have hut : u ≠ t := Ne.symm htu
  have key : ∃ sched c, (∀ s ∈ sched, s.1 = t ∨ s.1 = u) ∧ run W sched (start (-1) 0 buf N) = some c ∧
      c.opened = m ∧ c.lock = -1 ∧ (c.thr t).pc = .opening ∧ (c.thr u).pc = .opening := by
    induction m with
    | zero =>
      let c0 := start (-1) 0 buf N
      let c1 := c0.set t { c0.thr t with pc := .opening }
      have e1 : step W t ⟨true, none⟩ c0 = some c1 := rfl
      let c2 := c1.set u { c1.thr u with pc := .opening }
      have e2 : step W u ⟨true, none⟩ c1 = some c2 := by
        have : (c1.thr u).pc = .test := by rw [set_thr_ne _ _ hut]; rfl
        simp only [step, this]; rfl
      refine ⟨[(t, ⟨true, none⟩), (u, ⟨true, none⟩)], c2, by simp, ?_, rfl, rfl, ?_, ?_⟩
      · show run W _ c0 = _
        simp only [run, e1, e2, Option.bind_some]
      · rw [set_thr_ne _ _ htu, set_thr_self]
      · rw [set_thr_self]
    | succ m ih =>
      obtain ⟨sched, c, hs, e, a1, a2, a3, a4⟩ := ih
      let T : Answer := ⟨true, none⟩
      let F : Answer := ⟨false, none⟩
      let c1 := { c with opened := c.opened + 1 }.set t { c.thr t with pc := .store (W.fd c.opened) }
      have e1 : step W t T c = some c1 := by simp only [step, a3]; rfl
      have p1 : (c1.thr t).pc = .store (W.fd c.opened) := by rw [set_thr_self]
      have q1 : (c1.thr u).pc = .opening := by rw [set_thr_ne _ _ hut]; exact a4
      let c2 := { c1 with lock := W.fd c.opened }.set t { c1.thr t with pc := .check }
      have e2 : step W t T c1 = some c2 := by simp only [step, p1]; rfl
      have p2 : (c2.thr t).pc = .check := by rw [set_thr_self]
      have q2 : (c2.thr u).pc = .opening := by rw [set_thr_ne _ _ hut]; exact q1
      let c3 := c2.set t { c2.thr t with pc := .again }
      have e3 : step W t T c2 = some c3 := by simp only [step, p2]; rfl
      have p3 : (c3.thr t).pc = .again := by rw [set_thr_self]
      have q3 : (c3.thr u).pc = .opening := by rw [set_thr_ne _ _ hut]; exact q2
      let c4 := c3.set u { c3.thr u with pc := .store (-1) }
      have e4 : step W u F c3 = some c4 := by simp only [step, q3]; rfl
      have p4 : (c4.thr t).pc = .again := by rw [set_thr_ne _ _ htu]; exact p3
      have q4 : (c4.thr u).pc = .store (-1) := by rw [set_thr_self]
      let c5 := { c4 with lock := -1 }.set u { c4.thr u with pc := .check }
      have e5 : step W u F c4 = some c5 := by simp only [step, q4]; rfl
      have p5 : (c5.thr t).pc = .again := by rw [set_thr_ne _ _ htu]; exact p4
      have q5 : (c5.thr u).pc = .check := by rw [set_thr_self]
      let c6 := c5.set u { c5.thr u with pc := .again }
      have e6 : step W u F c5 = some c6 := by simp only [step, q5]; rfl
      have p6 : (c6.thr t).pc = .again := by rw [set_thr_ne _ _ htu]; exact p5
      have q6 : (c6.thr u).pc = .again := by rw [set_thr_self]
      have l6 : c6.lock = -1 := rfl
      let c7 := c6.set u { c6.thr u with pc := .opening }
      have e7 : step W u F c6 = some c7 := by simp only [step, q6, l6, if_true]; rfl
      have p7 : (c7.thr t).pc = .again := by rw [set_thr_ne _ _ htu]; exact p6
      have q7 : (c7.thr u).pc = .opening := by rw [set_thr_self]
      have l7 : c7.lock = -1 := rfl
      let c8 := c7.set t { c7.thr t with pc := .opening }
      have e8 : step W t T c7 = some c8 := by simp only [step, p7, l7, if_true]; rfl
      have p8 : (c8.thr t).pc = .opening := by rw [set_thr_self]
      have q8 : (c8.thr u).pc = .opening := by rw [set_thr_ne _ _ hut]; exact q7
      refine ⟨sched ++ [(t, T), (t, T), (t, T), (u, F), (u, F), (u, F), (u, F), (t, T)], c8, ?_, ?_, ?_, rfl,
        p8, q8⟩
      · intro s hs'
        rcases List.mem_append.1 hs' with h | h
        · exact hs s h
        · simp only [List.mem_cons, List.not_mem_nil, or_false] at h
          rcases h with rfl | rfl | rfl | rfl | rfl | rfl | rfl | rfl <;> simp
      · rw [run_append, e]
        simp only [Option.bind_some, run, e1, e2, e3, e4, e5, e6, e7, e8]
      · show c.opened + 1 = m + 1
        rw [a1]
  obtain ⟨sched, c, hs, e, h, -⟩ := key
  exact ⟨sched, c, hs, e, h⟩

/-! ## Whether a call ends -/

/-- C59 (a way not to end): a call that has found the device open can be blocked by another first call
whose `open` fails: the failure overwrites `lock`, and as long as `open` fails the blocked call cannot end,
even if `read` would deliver. -/
theorem C59_blocked {W : Sys} (hW : W.WF) (buf : Nat → List U8) (N : Nat → Nat) (t u : Nat) (htu : t ≠ u)
    (hN : 0 < N t) (hN' : N t < 2 ^ 31) :
    ∃ sched c, run W sched (start (-1) 0 buf N) = some c ∧ c.opened = 1 ∧ (c.thr t).pc = .load ∧
      ∀ sched' c', (∀ s ∈ sched', s.2.openOk = false) → run W sched' c = some c' →
        (c'.thr t).pc ≠ .done := by
  have hut : u ≠ t := Ne.symm htu
  let T : Answer := ⟨true, none⟩
  let F : Answer := ⟨false, none⟩
  let c0 := start (-1) 0 buf N
  let c1 := c0.set t { c0.thr t with pc := .opening }
  have e1 : step W t T c0 = some c1 := rfl
  let c2 := c1.set u { c1.thr u with pc := .opening }
  have e2 : step W u T c1 = some c2 := by
    have : (c1.thr u).pc = .test := by rw [set_thr_ne _ _ hut]; rfl
    simp only [step, this]; rfl
  have p2 : (c2.thr t).pc = .opening := by rw [set_thr_ne _ _ htu, set_thr_self]
  have q2 : (c2.thr u).pc = .opening := by rw [set_thr_self]
  let c3 := { c2 with opened := 1 }.set t { c2.thr t with pc := .store (W.fd 0) }
  have e3 : step W t T c2 = some c3 := by simp only [step, p2]; rfl
  have p3 : (c3.thr t).pc = .store (W.fd 0) := by rw [set_thr_self]
  have q3 : (c3.thr u).pc = .opening := by rw [set_thr_ne _ _ hut]; exact q2
  let c4 := { c3 with lock := W.fd 0 }.set t { c3.thr t with pc := .check }
  have e4 : step W t T c3 = some c4 := by simp only [step, p3]; rfl
  have p4 : (c4.thr t).pc = .check := by rw [set_thr_self]
  have q4 : (c4.thr u).pc = .opening := by rw [set_thr_ne _ _ hut]; exact q3
  let c5 := c4.set t { c4.thr t with pc := .again }
  have e5 : step W t T c4 = some c5 := by simp only [step, p4]; rfl
  have p5 : (c5.thr t).pc = .again := by rw [set_thr_self]
  have q5 : (c5.thr u).pc = .opening := by rw [set_thr_ne _ _ hut]; exact q4
  have l5 : c5.lock ≠ -1 := by
    show W.fd 0 ≠ -1
    have := hW.nonneg 0
    omega
  let c6 := c5.set t { c5.thr t with pc := .loop }
  have e6 : step W t T c5 = some c6 := by simp only [step, p5, if_neg l5]; rfl
  have p6 : (c6.thr t).pc = .loop := by rw [set_thr_self]
  have q6 : (c6.thr u).pc = .opening := by rw [set_thr_ne _ _ hut]; exact q5
  have n6 : 0 < (c6.thr t).n := by
    have h0 : (c0.thr t).n = i32 (N t) := rfl
    have : (c6.thr t).n = i32 (N t) := by
      simp only [c6, c5, c4, c3, c2, c1, set_thr_self, set_thr_ne _ _ htu]
      exact h0
    rw [this]
    unfold i32
    rw [BitVec.toInt_eq_toNat_cond, BitVec.toNat_ofNat]
    have : N t % 2 ^ 32 = N t := by omega
    rw [this, if_pos (by omega)]
    omega
  let c7 := c6.set t { c6.thr t with pc := .load }
  have e7 : step W t T c6 = some c7 := by simp only [step, p6, if_pos n6]; rfl
  have p7 : (c7.thr t).pc = .load := by rw [set_thr_self]
  have q7 : (c7.thr u).pc = .opening := by rw [set_thr_ne _ _ hut]; exact q6
  let c8 := c7.set u { c7.thr u with pc := .store (-1) }
  have e8 : step W u F c7 = some c8 := by simp only [step, q7]; rfl
  have p8 : (c8.thr t).pc = .load := by rw [set_thr_ne _ _ htu]; exact p7
  have q8 : (c8.thr u).pc = .store (-1) := by rw [set_thr_self]
  let c9 := { c8 with lock := -1 }.set u { c8.thr u with pc := .check }
  have e9 : step W u F c8 = some c9 := by simp only [step, q8]; rfl
  have l9 : c9.lock = -1 := rfl
  have p9 : (c9.thr t).pc = .load := by rw [set_thr_ne _ _ htu]; exact p8
  have o9 : ∀ w v, (c9.thr w).pc = .store v → v = -1 := by
    intro w v hv
    by_cases hw : w = t
    · subst hw; rw [p9] at hv; cases hv
    · by_cases hw' : w = u
      · subst hw'; rw [set_thr_self] at hv; cases hv
      · simp only [c9, c8, c7, c6, c5, c4, c3, c2, c1, set_thr_ne _ _ hw, set_thr_ne _ _ hw'] at hv
        cases hv
  refine ⟨[(t, T), (u, T), (t, T), (t, T), (t, T), (t, T), (t, T), (u, F), (u, F)], c9, ?_, rfl, p9, ?_⟩
  · show run W _ c0 = _
    simp only [run, e1, e2, e3, e4, e5, e6, e7, e8, e9, Option.bind_some]
  · intro sched' c' hf hr
    have key := run_of_step (W := W) (sched := sched') (fun c => c.lock = -1 ∧
      (∀ w v, (c.thr w).pc = .store v → v = -1) ∧ ((c.thr t).pc = .load ∨ (c.thr t).pc = .reading (-1)))
      ?_ _ _ ⟨l9, o9, Or.inl p9⟩ hr
    · rcases key.2.2 with h | h <;> rw [h] <;> simp
    · rintro ⟨w, a⟩ hmem c c' ⟨h1, h2, h3⟩ hs
      have ha : a.openOk = false := hf _ hmem
      have ho : ∀ v, v ≠ w → c'.thr v = c.thr v := fun v hv => step_other hs hv
      suffices h : c'.lock = -1 ∧ (∀ v, (c'.thr w).pc = .store v → v = -1) ∧
          (w = t → (c'.thr t).pc = .load ∨ (c'.thr t).pc = .reading (-1)) by
        refine ⟨h.1, fun x v hx => ?_, ?_⟩
        · by_cases hxw : x = w
          · subst hxw; exact h.2.1 v hx
          · rw [ho x hxw] at hx; exact h2 x v hx
        · by_cases htw : t = w
          · exact h.2.2 htw.symm
          · rw [ho t htw]; exact h3
      simp only [step] at hs
      cases hpc : (c.thr w).pc with
      | test =>
        rw [hpc] at hs
        injection hs with hs
        subst hs
        refine ⟨h1, ?_, ?_⟩
        · rw [set_thr_self]; intro v h; simp only at h; split at h <;> cases h
        · rintro rfl; rcases h3 with h | h <;> rw [hpc] at h <;> cases h
      | opening =>
        rw [hpc] at hs
        simp only [ha] at hs
        injection hs with hs
        subst hs
        refine ⟨h1, ?_, ?_⟩
        · intro v h
          rw [show (c.set w { c.thr w with pc := .store (-1) }).thr w = _ from set_thr_self ..] at h
          injection h with h
          exact h.symm
        · rintro rfl; rcases h3 with h | h <;> rw [hpc] at h <;> cases h
      | store v =>
        rw [hpc] at hs
        injection hs with hs
        subst hs
        refine ⟨h2 w v hpc, ?_, ?_⟩
        · rw [set_thr_self]; intro v h; cases h
        · rintro rfl; rcases h3 with h | h <;> rw [hpc] at h <;> cases h
      | check =>
        rw [hpc] at hs
        injection hs with hs
        subst hs
        refine ⟨h1, ?_, ?_⟩
        · rw [set_thr_self]; intro v h; cases h
        · rintro rfl; rcases h3 with h | h <;> rw [hpc] at h <;> cases h
      | again =>
        rw [hpc] at hs
        injection hs with hs
        subst hs
        refine ⟨h1, ?_, ?_⟩
        · rw [set_thr_self]; intro v h; simp only at h; split at h <;> cases h
        · rintro rfl; rcases h3 with h | h <;> rw [hpc] at h <;> cases h
      | loop =>
        rw [hpc] at hs
        injection hs with hs
        subst hs
        refine ⟨h1, ?_, ?_⟩
        · rw [set_thr_self]; intro v h; simp only at h; split at h <;> cases h
        · rintro rfl; rcases h3 with h | h <;> rw [hpc] at h <;> cases h
      | load =>
        rw [hpc] at hs
        injection hs with hs
        subst hs
        refine ⟨h1, ?_, ?_⟩
        · rw [set_thr_self]; intro v h; cases h
        · rintro rfl
          right
          rw [set_thr_self, h1]
      | reading fd =>
        rw [hpc] at hs
        simp only at hs
        split at hs
        · injection hs with hs
          subst hs
          refine ⟨h1, ?_, ?_⟩
          · rw [set_thr_self]; intro v h; cases h
          · rintro rfl
            left
            rw [set_thr_self]
        · rename_i m hm
          split at hs
          · rename_i y tr hy
            injection hs with hs
            subst hs
            refine ⟨h1, ?_, ?_⟩
            · rw [set_thr_self, deliver_pc hy]; intro v h; cases h
            · rintro rfl
              exfalso
              rcases h3 with h | h <;> rw [hpc] at h <;> cases h
              rw [isOpen_neg hW] at hm
              cases hm
          · cases hs
      | done =>
        rw [hpc] at hs
        injection hs with hs
        subst hs
        refine ⟨h1, ?_, ?_⟩
        · rw [hpc]; intro v h; cases h
        · rintro rfl; exact h3

/-! ## Progress, and the sequential model -/

/-- How many steps a call needs at most until it ends. -/
def stepsLeft (x : Call) : Nat :=
  match x.pc with
  | .done => 0
  | .loop => 3 * x.n.toNat + 1
  | .load => 3 * x.n.toNat
  | .reading _ => 3 * x.n.toNat - 1
  | _ => 3 * x.n.toNat + 2

/-- A thread that is past the opening of the device or finds it open. -/
def Late (lock : Int) (x : Call) : Prop :=
  x.pc = .test ∨ x.pc = .loop ∨ (x.pc = .load ∧ 0 < x.n) ∨ (x.pc = .reading lock ∧ 0 < x.n) ∨ x.pc = .done

theorem late_step {W : Sys} {lock : Int} {opened : Nat} {buf : Nat → List U8} {N : Nat → Nat}
    (hN : ∀ t, N t < 2 ^ 31) (hB : ∀ t, N t ≤ (buf t).length) {got : Nat → List Nat} {c c' : Conf} {t : Nat}
    {a : Answer} {m : Nat} (hl : lock ≠ -1) (ho : W.isOpen opened lock = true) (hm : a.readRes = some m) (h0 : 0 < m)
    (hi : Inv W buf N got c) (h1 : c.lock = lock) (h2 : c.opened = opened) (h3 : Late lock (c.thr t))
    (e : step W t a c = some c') :
    c'.lock = lock ∧ c'.opened = opened ∧ Late lock (c'.thr t) ∧
      stepsLeft (c'.thr t) ≤ stepsLeft (c.thr t) - 1 := by
  simp only [step] at e
  rcases h3 with h | h | ⟨h, hn⟩ | ⟨h, hn⟩ | h <;> rw [h] at e <;> simp only at e
  · injection e with e
    subst e
    refine ⟨h1, h2, ?_⟩
    rw [set_thr_self, h1, if_neg hl]
    refine ⟨Or.inr (Or.inl rfl), ?_⟩
    simp [stepsLeft, h]
  · injection e with e
    subst e
    refine ⟨h1, h2, ?_⟩
    rw [set_thr_self]
    by_cases hn : 0 < (c.thr t).n
    · simp [hn, Late, stepsLeft, h]
    · simp [hn, Late, stepsLeft]
  · injection e with e
    subst e
    refine ⟨h1, h2, ?_⟩
    rw [set_thr_self, h1]
    refine ⟨Or.inr (Or.inr (Or.inr (Or.inl ⟨rfl, hn⟩))), ?_⟩
    simp [stepsLeft, h]
  · rw [h2, ho, if_pos rfl, hm] at e
    simp only at e
    obtain ⟨y, tr, ed, hy⟩ := deliver_ret (W := W) (pos := c.pos) (m := m) (hN t) (hB t) (hi.count t) (hi.n t)
      (hi.le t) (hi.buf t)
    rw [ed] at e
    injection e with e
    subst e
    refine ⟨h1, rfl, ?_⟩
    rw [set_thr_self, hy]
    refine ⟨Or.inr (Or.inl rfl), ?_⟩
    simp only [stepsLeft, h]
    have hk : 1 ≤ min m (c.thr t).n.toNat := by omega
    generalize min m (c.thr t).n.toNat = k at hk
    omega
  · injection e with e
    subst e
    exact ⟨h1, h2, by rw [Late, h]; simp, by simp [stepsLeft, h]⟩

/-- C59 (later calls are wait-free): once the device is open, a call for `N` bytes ends within `3 * N + 2` of
its own steps, whatever other threads do in between, if every `read` delivers at least one byte. -/
theorem C59_wait_free {W : Sys} {lock : Int} {opened : Nat} {buf : Nat → List U8} {N : Nat → Nat}
    {sched : List (Nat × Answer)} {c : Conf} (hN : ∀ t, N t < 2 ^ 31) (hB : ∀ t, N t ≤ (buf t).length)
    (hl : lock ≠ -1) (ho : W.isOpen opened lock = true)
    (ha : ∀ s ∈ sched, ∃ m, s.2.readRes = some m ∧ 0 < m)
    (hr : run W sched (start lock opened buf N) = some c) (t : Nat)
    (ht : 3 * N t + 2 ≤ sched.countP fun s => s.1 = t) : (c.thr t).pc = .done := by
  suffices key : ∀ (sched : List (Nat × Answer)) (got : Nat → List Nat) (d : Conf), Inv W buf N got d →
      d.lock = lock → d.opened = opened → (∀ u, Late lock (d.thr u)) →
      (∀ s ∈ sched, ∃ m, s.2.readRes = some m ∧ 0 < m) → run W sched d = some c →
      stepsLeft (d.thr t) ≤ (sched.countP fun s => s.1 = t) → (c.thr t).pc = .done by
    refine key sched _ _ (inv_start lock opened hN) rfl rfl (fun u => Or.inl rfl) ha hr ?_
    have := (inv_start (W := W) (buf := buf) lock opened hN).n t
    simp only [List.length_nil, Nat.cast_zero, add_zero] at this
    show 3 * ((start lock opened buf N).thr t).n.toNat + 2 ≤ _
    omega
  intro sched
  induction sched with
  | nil =>
    intro got d hi h1 h2 h3 _ e hs
    injection e with e
    subst e
    rw [List.countP_nil] at hs
    rcases h3 t with h | h | ⟨h, hn⟩ | ⟨h, hn⟩ | h
    · rw [stepsLeft, h] at hs; simp only at hs; omega
    · rw [stepsLeft, h] at hs; simp only at hs; omega
    · rw [stepsLeft, h] at hs; simp only at hs; omega
    · rw [stepsLeft, h] at hs; simp only at hs; omega
    · exact h
  | cons s l ih =>
    intro got d hi h1 h2 h3 ha e hs
    obtain ⟨d', got', e', hi'⟩ := step_inv hN hB hi s.1 s.2
    change (step W s.1 s.2 d).bind (run W l) = some c at e
    rw [e'] at e
    obtain ⟨m, hm, h0⟩ := ha s (List.mem_cons_self ..)
    obtain ⟨k1, k2, k3, k4⟩ := late_step hN hB hl ho hm h0 hi h1 h2 (h3 s.1) e'
    refine ih got' d' hi' k1 k2 (fun u => ?_) (fun s hs => ha s (List.mem_cons_of_mem _ hs)) e ?_
    · by_cases hu : u = s.1
      · subst hu; exact k3
      · rw [step_other e' hu]; exact h3 u
    · rw [List.countP_cons] at hs
      by_cases hu : s.1 = t
      · subst hu
        simp only [decide_true, if_true] at hs
        omega
      · rw [step_other e' (Ne.symm hu)]
        simpa [hu] using hs

/-- C59 (this machine and the sequential model agree): if only thread `t` runs, and its call ends, its buffer is
the one that `randombytes` of the sequential model leaves when the device delivers the same bytes. -/
theorem C59_alone {W : Sys} {lock : Int} {opened : Nat} {buf : Nat → List U8} {N : Nat → Nat}
    {sched : List (Nat × Answer)} {c : Conf} (hN : ∀ t, N t < 2 ^ 31) (hB : ∀ t, N t ≤ (buf t).length) {t : Nat}
    (hs : ∀ s ∈ sched, s.1 = t) (hr : run W sched (start lock opened buf N) = some c)
    (hd : (c.thr t).pc = .done) {V : OS} {st : OSState} (hV : ∀ i, V.stream (st.pos + i) = W.stream i)
    {r : OSState × List U8 × Int} {tr : List Event} (h : randombytes_nix V st (buf t) (N t) = .ok r tr) :
    (c.thr t).buf = r.2.1 ∧ st.pos + c.pos = r.1.pos := by
  obtain ⟨c', got, e, h0⟩ := run_inv (W := W) hN hB sched _ _ (inv_start lock opened hN)
  rw [hr] at e
  injection e with e
  subst e
  have hu : ∀ u, u ≠ t → got u = [] := by
    intro u hu
    have key := run_of_step (W := W) (sched := sched) (fun c => (c.thr u).count = 0) ?_ _ _ rfl hr
    · have := h0.count u
      rw [key] at this
      exact List.length_eq_zero_iff.1 (by omega)
    · intro s hs' d d' hd' e'
      rw [step_other e' (by rw [hs s hs']; exact hu)]
      exact hd'
  have hg : got t = List.range c.pos := by
    refine List.Perm.eq_of_pairwise (le := (· < ·)) ?_ (h0.sorted t) List.pairwise_lt_range ?_
    · intro a b _ _ h1 h2; omega
    · rw [List.perm_ext_iff_of_nodup ((h0.sorted t).imp (fun h => Nat.ne_of_lt h)) List.nodup_range]
      intro p
      rw [List.mem_range]
      refine ⟨h0.lt t p, fun hp => ?_⟩
      obtain ⟨u, hu'⟩ := h0.all p hp
      by_cases h : u = t
      · rwa [h] at hu'
      · rw [hu u h] at hu'; cases hu'
  have hl : c.pos = N t := by
    have h1 := h0.n t
    rw [h0.done t hd, hg, List.length_range] at h1
    omega
  obtain ⟨h1, -, h3, -⟩ := C41_fills V st (buf t) (N t) (hN t) (hB t) r tr h
  refine ⟨?_, by omega⟩
  rw [h1, h0.buf t, hg, List.length_range, hl]
  congr 1
  unfold Spec.osBytes
  exact List.map_congr_left fun i _ => (hV i).symm

/-! ## Concrete cases -/

/-- Descriptors from 3 on; the device delivers 0, 1, 2, ... -/
def sys0 : Sys := ⟨fun k => 3 + k, fun i => BitVec.ofNat 8 i⟩

theorem sys0_wf : sys0.WF := ⟨fun k => by show (0 : Int) ≤ 3 + k; omega, fun j k h => by
  have : (3 : Int) + j = 3 + k := h
  omega⟩

/-- Threads 0 and 1 ask for three bytes; both open the device; their reads of one or two bytes alternate. -/
def sched0 : List (Nat × Answer) :=
  let a : Nat × Answer := (0, ⟨true, some 2⟩)
  let b : Nat × Answer := (1, ⟨true, some 1⟩)
  [a, b, a, b, a, b, a, b, a, b, a, b, a, b, a, b, a, b, a, b, a, b, a, b, a, b, a, b, b, b]

/-- Both calls end; thread 0 got the bytes 0, 1, 3 and thread 1 the bytes 2, 4, 5. -/
example : (run sys0 sched0 (start (-1) 0 (fun _ => [9, 9, 9, 9]) (fun _ => 3))).map
    (fun c => ((c.lock, c.opened, c.pos), ((c.thr 0).pc, (c.thr 0).buf), ((c.thr 1).pc, (c.thr 1).buf))) =
    some ((4, 2, 6), (.done, [0, 1, 3, 9]), (.done, [2, 4, 5, 9])) := by
  rfl

example := C59_filled sys0 (-1) 0 (fun _ => [9, 9, 9, 9]) (fun _ => 3) sched0 (fun _ => by norm_num)
  (fun _ => by decide)

/-- Later calls. -/
example : ∃ c, run sys0 sched0 (start 3 1 (fun _ => [9, 9, 9, 9]) (fun _ => 3)) = some c ∧ ¬ Race c ∧
    c.opened = 1 := by
  obtain ⟨c, -, e, -⟩ := C59_filled sys0 3 1 (fun _ => [9, 9, 9, 9]) (fun _ => 3) sched0
    (fun _ => by norm_num) (fun _ => by decide)
  have h := C59_no_race (by decide) e
  exact ⟨c, e, h.1, h.2.2.1⟩

example := C59_race sys0 0 (fun _ => [9, 9, 9, 9]) (fun _ => 3) 0 1 (by decide) ⟨true, none⟩

example : ∃ c D, run sys0 sched0 (start (-1) 0 (fun _ => [9, 9, 9, 9]) (fun _ => 3)) = some c ∧
    c.opened = Finset.card D ∧ ∀ t ∈ D, ∃ a, (t, a) ∈ sched0 := by
  obtain ⟨c, -, e, -⟩ := C59_filled sys0 (-1) 0 (fun _ => [9, 9, 9, 9]) (fun _ => 3) sched0
    (fun _ => by norm_num) (fun _ => by decide)
  obtain ⟨D, h1, h2⟩ := C59_descriptors sys0_wf (by decide) e
  exact ⟨c, D, e, h1, h2⟩

/-- Three bytes need at most eleven steps. -/
example (c : Conf) (h : run sys0 sched0 (start 3 1 (fun _ => [9, 9, 9, 9]) (fun _ => 3)) = some c) :
    (c.thr 1).pc = .done :=
  C59_wait_free (fun _ => by norm_num) (fun _ => by decide) (by decide) (by decide) (by decide) h 1 (by decide)

/-- Thread 0 alone, and the sequential model for a system that delivers two bytes at a time. -/
example (c : Conf) (h : run sys0 (sched0.filter (·.1 = 0)) (start (-1) 0 (fun _ => [9, 9, 9, 9]) (fun _ => 3)) =
    some c) (hd : (c.thr 0).pc = .done) (r tr)
    (hr : randombytes_nix ⟨fun _ => 3, fun _ => some 2, sys0.stream⟩ .init [9, 9, 9, 9] 3 = .ok r tr) :
    (c.thr 0).buf = r.2.1 :=
  (C59_alone (fun _ => by norm_num) (fun _ => by decide) (t := 0) (by decide) h hd
    (fun i => by show sys0.stream (0 + i) = _; rw [Nat.zero_add]) hr).1

example : ((run sys0 (sched0.filter (·.1 = 0)) (start (-1) 0 (fun _ => [9, 9, 9, 9]) (fun _ => 3))).map
    fun c => (c.thr 0).pc) = some .done := by
  rfl

example := C59_blocked sys0_wf (fun _ => [9, 9, 9, 9]) (fun _ => 3) 0 1 (by decide) (by decide) (by norm_num)

end Frodo.Props
