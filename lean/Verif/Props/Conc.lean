import Verif.Proof.ConcRun
import Verif.Props.Aes
import Verif.Proof.Vectors

/-! # Threads -/

namespace Frodo.Props

open C Conc

theorem enc_schedule {w : Which} {key rk inp out : List U8} (hs : IsSchedule w key rk)
    (hi : 16 ≤ inp.length) (ho : 16 ≤ out.length) :
    Ret (w.enc inp rk out) (· = w.AES key (inp.take 16) ++ out.drop 16) := by
  obtain ⟨hk, J, rk', hl, h⟩ := hs
  cases w with
  | aes128 =>
    obtain ⟨r, tr, h1, rfl⟩ := h
    obtain ⟨o, tr', h2, h3⟩ := C37_aes128 J key rk' inp out hk hl hi ho
    obtain ⟨r', _, _, h4, h5⟩ := bind_ok h2
    rw [h1] at h4
    cases h4
    exact ⟨o, _, h5.1, h3⟩
  | aes256 =>
    obtain ⟨r, tr, h1, rfl⟩ := h
    obtain ⟨o, tr', h2, h3⟩ := C37_aes256 J key rk' inp out hk hl hi ho
    obtain ⟨r', _, _, h4, h5⟩ := bind_ok h2
    rw [h1] at h4
    cases h4
    exact ⟨o, _, h5.1, h3⟩

theorem cipher_schedule {w : Which} {key rk b : List U8} (hs : IsSchedule w key rk)
    (hb : 16 ≤ b.length) : ∃ tr, (cipher_s rk w.rounds).runC b =
      .ok ((), w.AES key (b.take 16) ++ b.drop 16) tr := by
  obtain ⟨o, tr, h, rfl⟩ := enc_schedule (out := b) hs hb hb
  obtain ⟨_, _, tr', h'⟩ := enc_ok h
  rw [List.take_append_drop] at h'
  exact ⟨tr', h'⟩

/-- C40, what is true.  Any number of threads, each with calls of `aes128_enc_c` and `aes256_enc_c` and
private computations; any schedule in which no thread assigns to `state` while another is between its
assignment and its return.  No access is undefined, and every thread that has ended has the result that
it has alone in the sequential model. -/
theorem C40_serial (T : Nat → Thread β) (mem : Nat → List U8) (b : Nat → β)
    (h : ∀ t, Ret ((T t).alone (mem t)) (· = b t)) (l : List Nat) (hl : Serial (init T mem) l) :
    ∃ c, run l (init T mem) = some c ∧ ∀ t x, c.thr t = .ret x → x = b t := by
  obtain ⟨c, h1, h2⟩ := (inv_init (b := b) (fun t => by
    obtain ⟨x, tr, h1, rfl⟩ := h t; exact ⟨tr, h1⟩)).run hl
  refine ⟨c, h1, fun t x hx => ?_⟩
  have h3 := h2.own t
  rw [hx] at h3
  cases hi : c.inside t with
  | none => rw [hi, Conc.own] at h3; exact Option.some.inj h3
  | some a => rw [hi, Conc.own] at h3; cases h3

/-- The program of a thread after its assignment to `state` (proof device). -/
def rest (t : Nat) (w : Which) (rk : List U8) (off : Nat) (k : List U8 → Thread β) : Prog β :=
  (cipher_s rk w.rounds).toProg fun _ => .leave <| loads ⟨t, off⟩ 16 fun out => (k out).prog t

theorem reach_enter {t : Nat} {w : Which} {inp rk : List U8} {off : Nat} {k : List U8 → Thread β}
    {c : Conf β} (ht : c.thr t = (Thread.call w inp rk off k).prog t) (hi : 16 ≤ inp.length)
    (hm : off + 16 ≤ (c.mem t).length) :
    Reach t c (c.put t ((c.mem t).take off ++ inp.take 16 ++ (c.mem t).drop (off + 16)) t
      (.setPtr ⟨t, off⟩ (rest t w rk off k))) := by
  have hl : (inp.take 16).length = 16 := by rw [List.length_take]; omega
  have hr : require (16 ≤ inp.length) .oobRead = (.ok () [] : C Unit) := by
    unfold require; rw [if_pos hi]; rfl
  rw [Thread.prog, hr] at ht
  refine Reach.head (step_loc t ht) ?_
  have := reach_stores (c := c.put t (c.mem t) t (stores ⟨t, off⟩ (inp.take 16)
    (.setPtr ⟨t, off⟩ (rest t w rk off k)))) (put_thr _ _ _ _ _) (by rw [put_mem, hl]; exact hm)
  rwa [put_put, put_mem, hl] at this

theorem reach_enter' {t : Nat} {w : Which} {inp rk : List U8} {off : Nat} {k : List U8 → Thread β}
    {c : Conf β} (ht : c.thr t = (Thread.call w inp rk off k).prog t) (hi : 16 ≤ inp.length)
    (hm : off + 16 ≤ (c.mem t).length) :
    ∃ c', Reach t c c' ∧ c'.thr t = .setPtr ⟨t, off⟩ (rest t w rk off k) ∧
      c'.mem t = (c.mem t).take off ++ inp.take 16 ++ (c.mem t).drop (off + 16) ∧
      ∀ u, u ≠ t → c'.thr u = c.thr u ∧ c'.mem u = c.mem u :=
  ⟨_, reach_enter ht hi hm, put_thr _ _ _ _ _, put_mem _ _ _ _ _, fun u hu =>
    ⟨Function.update_of_ne hu _ _, Function.update_of_ne hu _ _⟩⟩

theorem reach_set {t : Nat} {w : Which} {inp rk : List U8} {off : Nat} {k : List U8 → Thread β}
    {c : Conf β} (ht : c.thr t = (Thread.call w inp rk off k).prog t) (hi : 16 ≤ inp.length)
    (hm : off + 16 ≤ (c.mem t).length) :
    ∃ c', Reach t c c' ∧ c'.thr t = rest t w rk off k ∧ c'.ptr = some ⟨t, off⟩ ∧
      c'.mem t = (c.mem t).take off ++ inp.take 16 ++ (c.mem t).drop (off + 16) ∧
      ∀ u, u ≠ t → c'.thr u = c.thr u ∧ c'.mem u = c.mem u := by
  obtain ⟨c', h1, h2, h3, h4⟩ := reach_enter' ht hi hm
  refine ⟨_, h1.trans (Reach.head (c' := ⟨some ⟨t, off⟩, c'.mem,
    Function.update c'.inside t (some off), Function.update c'.thr t (rest t w rk off k)⟩)
    (by unfold step; rw [h2]) (Reach.refl _ _)), Function.update_self _ _ _, rfl, h3, fun u hu => ?_⟩
  exact ⟨(Function.update_of_ne hu _ _).trans (h4 u hu).1, (h4 u hu).2⟩

theorem AES_length {w : Which} {key rk b : List U8} (hs : IsSchedule w key rk) (hb : b.length = 16) :
    (w.AES key b).length = 16 := by
  obtain ⟨tr, h⟩ := cipher_schedule hs (Nat.le_of_eq hb.symm)
  have := runC_length h
  rw [List.take_of_length_le (by omega), List.length_append, List.length_drop] at this
  omega

/-- The block at `a`. -/
def blk (m : List U8) (a : Nat) : List U8 := (m.drop a).take 16

theorem blk_mid (m b : List U8) (a n : Nat) (hb : b.length = 16) (ha : a ≤ m.length) :
    blk (m.take a ++ b ++ m.drop n) a = b := by
  unfold blk
  rw [List.append_assoc, List.drop_append_of_le_length (by rw [List.length_take]; omega),
    List.drop_eq_nil_of_le (by rw [List.length_take]; omega), List.nil_append,
    List.take_append_of_le_length (by omega), List.take_of_length_le (by omega)]

theorem reach_finish {t u a : Nat} {w : Which} {key rk : List U8} {off : Nat} {k : List U8 → Thread β}
    {c : Conf β} (hs : IsSchedule w key rk) (ht : c.thr t = rest t w rk off k)
    (hp : c.ptr = some ⟨u, a⟩) (ha : a + 16 ≤ (c.mem u).length)
    (hm : off + 16 ≤ (c.mem t).length) :
    ∃ c', Reach t c c' ∧ c'.thr t = (k (blk (c'.mem t) off)).prog t ∧ c'.ptr = some ⟨u, a⟩ ∧
      c'.mem u = (c.mem u).take a ++ w.AES key (blk (c.mem u) a) ++ (c.mem u).drop (a + 16) ∧
      (∀ v, v ≠ u → c'.mem v = c.mem v) ∧ ∀ v, v ≠ t → c'.thr v = c.thr v := by
  have hb : (blk (c.mem u) a).length = 16 := by
    unfold blk; rw [List.length_take, List.length_drop]; omega
  have hl := AES_length hs hb
  obtain ⟨tr, h⟩ := cipher_schedule (b := (c.mem u).drop a) hs (by rw [List.length_drop]; omega)
  have h1 := reach_toProg ht hp (by omega) h
  rw [List.drop_drop] at h1
  change Reach t c (c.put u ((c.mem u).take a ++ (w.AES key (blk (c.mem u) a) ++
    (c.mem u).drop (a + 16))) t (.leave (loads ⟨t, off⟩ 16 fun out => (k out).prog t))) at h1
  rw [← List.append_assoc] at h1
  generalize hM : (c.mem u).take a ++ w.AES key (blk (c.mem u) a) ++ (c.mem u).drop (a + 16) = M at h1
  have hML : M.length = (c.mem u).length := by
    rw [← hM, List.length_append, List.length_append, List.length_take, List.length_drop, hl]; omega
  have h2 := h1.trans (Reach.head (c' := ⟨c.ptr, Function.update c.mem u M,
    Function.update c.inside t none,
    Function.update c.thr t (loads ⟨t, off⟩ 16 fun out => (k out).prog t)⟩)
    (by unfold step; rw [put_thr]; simp only [Conf.put, Function.update_idem]) (Reach.refl _ _))
  have h3 := h2.trans (reach_loads (u := t) (off := off) (n := 16)
    (κ := fun out => (k out).prog t) (Function.update_self _ _ _) (by
      show _ ≤ (Function.update c.mem u M t).length
      by_cases e : t = u
      · subst e; rw [Function.update_self, hML]; exact hm
      · rw [Function.update_of_ne e]; exact hm))
  refine ⟨_, h3, ?_, hp, ?_, fun v hv => ?_, fun v hv => ?_⟩
  · rw [put_thr, put_mem]; rfl
  · show Function.update _ _ _ _ = _
    rw [Function.update_eq_self]
    exact Function.update_self _ _ _
  · show Function.update _ _ _ _ = _
    rw [Function.update_eq_self]
    exact Function.update_of_ne hv _ _
  · show Function.update _ _ _ _ = _
    rw [Function.update_of_ne hv]
    exact Function.update_of_ne hv _ _

/-- C40, the race.  Whenever two threads are about to call the portable AES, there is a schedule after
which the next access of both is the assignment to `state`: two conflicting accesses, neither of which
happens before the other (C11 5.1.2.4p25: the behaviour is undefined). -/
theorem C40_race (T : Nat → Thread β) (mem : Nat → List U8) (w₀ w₁ : Which)
    (in₀ in₁ rk₀ rk₁ : List U8) (off₀ off₁ : Nat) (k₀ k₁ : List U8 → Thread β)
    (h₀ : T 0 = .call w₀ in₀ rk₀ off₀ k₀) (h₁ : T 1 = .call w₁ in₁ rk₁ off₁ k₁)
    (hi₀ : 16 ≤ in₀.length) (hi₁ : 16 ≤ in₁.length)
    (hm₀ : off₀ + 16 ≤ (mem 0).length) (hm₁ : off₁ + 16 ≤ (mem 1).length) :
    ∃ l c, run l (init T mem) = some c ∧ Enters c 0 ∧ Enters c 1 := by
  obtain ⟨c₁, ⟨n, hn⟩, a1, a2, a3⟩ := reach_enter' (c := init T mem) (t := 0) (w := w₀) (rk := rk₀)
    (off := off₀) (k := k₀) (by show (T 0).prog 0 = _; rw [h₀]) hi₀ hm₀
  have a4 := a3 1 (by omega)
  obtain ⟨c₂, ⟨n', hn'⟩, b1, b2, b3⟩ := reach_enter' (c := c₁) (t := 1) (w := w₁) (rk := rk₁)
    (off := off₁) (k := k₁) (by rw [a4.1]; show (T 1).prog 1 = _; rw [h₁]) hi₁
    (by rw [a4.2]; exact hm₁)
  exact ⟨List.replicate n 0 ++ List.replicate n' 1, c₂, by rw [run_append, hn]; exact hn',
    ⟨_, _, (b3 0 (by omega)).1.trans a1⟩, ⟨_, _, b1⟩⟩

/-- C40 is false of the portable AES.  Whenever two threads are about to call it, with any keys and any
blocks, there is an interleaving of their accesses, every one of them defined, after which the first
thread has as its ciphertext its own plaintext, and the second one the encryption under its key of the
encryption under the key of the other thread. -/
theorem C40_interference (T : Nat → Thread β) (mem : Nat → List U8) (w₀ w₁ : Which)
    (key₀ key₁ in₀ in₁ rk₀ rk₁ : List U8) (off₀ off₁ : Nat) (k₀ k₁ : List U8 → Thread β)
    (h₀ : T 0 = .call w₀ in₀ rk₀ off₀ k₀) (h₁ : T 1 = .call w₁ in₁ rk₁ off₁ k₁)
    (hs₀ : IsSchedule w₀ key₀ rk₀) (hs₁ : IsSchedule w₁ key₁ rk₁)
    (hi₀ : 16 ≤ in₀.length) (hi₁ : 16 ≤ in₁.length)
    (hm₀ : off₀ + 16 ≤ (mem 0).length) (hm₁ : off₁ + 16 ≤ (mem 1).length) :
    ∃ l c, run l (init T mem) = some c ∧
      c.thr 0 = (k₀ (in₀.take 16)).prog 0 ∧
      c.thr 1 = (k₁ (w₁.AES key₁ (w₀.AES key₀ (in₁.take 16)))).prog 1 := by
  have l0 : (in₀.take 16).length = 16 := by rw [List.length_take]; omega
  have l1 : (in₁.take 16).length = 16 := by rw [List.length_take]; omega
  have l2 := AES_length hs₀ l1
  have l3 := AES_length hs₁ l2
  obtain ⟨c₁, ⟨n₁, r₁⟩, a1, a2, a3, a4⟩ := reach_set (c := init T mem) (t := 0) (w := w₀) (rk := rk₀)
    (off := off₀) (k := k₀) (by show (T 0).prog 0 = _; rw [h₀]) hi₀ hm₀
  have a5 := a4 1 (by omega)
  obtain ⟨c₂, ⟨n₂, r₂⟩, b1, b2, b3, b4⟩ := reach_set (c := c₁) (t := 1) (w := w₁) (rk := rk₁)
    (off := off₁) (k := k₁) (by rw [a5.1]; show (T 1).prog 1 = _; rw [h₁]) hi₁
    (by rw [a5.2]; exact hm₁)
  have b5 := b4 0 (by omega)
  change c₁.mem 0 = (mem 0).take off₀ ++ in₀.take 16 ++ (mem 0).drop (off₀ + 16) at a3
  have a6 : c₁.mem 1 = mem 1 := a5.2
  rw [a6] at b3
  have m0 : off₀ + 16 ≤ (c₂.mem 0).length := by
    rw [b5.2, a3, List.length_append, List.length_append, List.length_take, List.length_drop, l0]; omega
  have m1 : (c₂.mem 1).length = (mem 1).length := by
    rw [b3, List.length_append, List.length_append, List.length_take, List.length_drop, l1]; omega
  obtain ⟨c₃, ⟨n₃, r₃⟩, d1, d2, d3, d4, d5⟩ := reach_finish (c := c₂) (t := 0) hs₀ (b5.1.trans a1) b2
    (by rw [m1]; exact hm₁) m0
  rw [d4 0 (by omega), b5.2, a3, blk_mid _ _ _ _ l0 (by omega)] at d1
  have e1 : blk (c₂.mem 1) off₁ = in₁.take 16 := by rw [b3]; exact blk_mid _ _ _ _ l1 (by omega)
  rw [e1] at d3
  have m2 : off₁ + 16 ≤ (c₃.mem 1).length := by
    rw [d3, List.length_append, List.length_append, List.length_take, List.length_drop, l2, m1]; omega
  obtain ⟨c₄, ⟨n₄, r₄⟩, f1, f2, f3, f4, f5⟩ := reach_finish (c := c₃) (t := 1) hs₁
    ((d5 1 (by omega)).trans b1) d2 m2 m2
  have e2 : blk (c₃.mem 1) off₁ = w₀.AES key₀ (in₁.take 16) := by
    rw [d3]; exact blk_mid _ _ _ _ l2 (by omega)
  rw [f3, e2, blk_mid _ _ _ _ l3 (by omega)] at f1
  refine ⟨List.replicate n₁ 0 ++ (List.replicate n₂ 1 ++ (List.replicate n₃ 0 ++
    List.replicate n₄ 1)), c₄, ?_, (f5 0 (by omega)).trans d1, f1⟩
  rw [run_append, r₁, Option.bind_some, run_append, r₂, Option.bind_some, run_append, r₃,
    Option.bind_some, r₄]

/-! ## Serial schedules exist -/

theorem Serial.append {l l' : List Nat} {c c' : Conf β} (h : Serial c l) (hr : run l c = some c')
    (h' : Serial c' l') : Serial c (l ++ l') := by
  induction l generalizing c with
  | nil => cases hr; exact h'
  | cons t l ih =>
    refine ⟨h.1, fun c'' hc => ?_⟩
    rw [run, hc] at hr
    exact ih (h.2 c'' hc) hr

theorem progress {b : Nat → β} (t : Nat) (p : Prog β) : ∀ c : Conf β, c.thr t = p → Inv b c →
    (∀ u, u ≠ t → c.inside u = none) →
    ∃ n c', Serial c (List.replicate n t) ∧ run (List.replicate n t) c = some c' ∧ Inv b c' ∧
      c'.thr t = .ret (b t) ∧ (∀ u, c'.inside u = none) ∧ ∀ u, u ≠ t → c'.thr u = c.thr u := by
  have key : ∀ (c : Conf β) (q : Prog β), Inv b c → (∀ u, u ≠ t → c.inside u = none) →
      (∀ c', step t c = some c' → c'.thr t = q ∧ (∀ u, u ≠ t → c'.inside u = c.inside u) ∧
        ∀ u, u ≠ t → c'.thr u = c.thr u) →
      (∀ c : Conf β, c.thr t = q → Inv b c → (∀ u, u ≠ t → c.inside u = none) →
        ∃ n c', Serial c (List.replicate n t) ∧ run (List.replicate n t) c = some c' ∧ Inv b c' ∧
          c'.thr t = .ret (b t) ∧ (∀ u, c'.inside u = none) ∧ ∀ u, u ≠ t → c'.thr u = c.thr u) →
      ∃ n c', Serial c (List.replicate n t) ∧ run (List.replicate n t) c = some c' ∧ Inv b c' ∧
        c'.thr t = .ret (b t) ∧ (∀ u, c'.inside u = none) ∧ ∀ u, u ≠ t → c'.thr u = c.thr u := by
    intro c q hI hn hs ih
    obtain ⟨c₁, h1, h2⟩ := hI.step (t := t) fun _ => hn
    obtain ⟨h3, h4, h5⟩ := hs c₁ h1
    obtain ⟨n, c', i1, i2, i3, i4, i5, i6⟩ := ih c₁ h3 h2 fun u hu => (h4 u hu).trans (hn u hu)
    refine ⟨n + 1, c', ?_, ?_, i3, i4, i5, fun u hu => (i6 u hu).trans (h5 u hu)⟩
    · refine ⟨fun _ => hn, fun c'' hc => ?_⟩
      rw [h1] at hc
      cases hc
      exact i1
    · rw [List.replicate_succ, run, h1]; exact i2
  induction p with
  | ret x =>
    intro c hp hI hn
    have h1 := hI.own t
    rw [hp] at h1
    cases hi : c.inside t with
    | some a => rw [hi, Conc.own] at h1; cases h1
    | none =>
      rw [hi, Conc.own] at h1
      cases h1
      refine ⟨0, c, trivial, rfl, hI, hp, fun u => ?_, fun _ _ => rfl⟩
      by_cases hu : u = t
      · rw [hu, hi]
      · exact hn u hu
  | loc m k ih =>
    intro c hp hI hn
    cases m with
    | div => obtain ⟨c', h, _⟩ := hI.step (t := t) fun _ => hn; unfold step at h; rw [hp] at h; cases h
    | ub u => obtain ⟨c', h, _⟩ := hI.step (t := t) fun _ => hn; unfold step at h; rw [hp] at h; cases h
    | ok x tr =>
      refine key c _ hI hn (fun c' hc => ?_) (ih x)
      unfold step at hc
      rw [hp] at hc
      cases hc
      exact ⟨Function.update_self _ _ _, fun _ _ => rfl, fun u hu => Function.update_of_ne hu _ _⟩
  | getPtr k ih =>
    intro c hp hI hn
    cases hq : c.ptr with
    | none =>
      obtain ⟨c', h, _⟩ := hI.step (t := t) fun _ => hn
      unfold step at h; rw [hp] at h; simp only [hq] at h; cases h
    | some q =>
      refine key c _ hI hn (fun c' hc => ?_) (ih q)
      unfold step at hc
      rw [hp] at hc
      simp only [hq] at hc
      cases hc
      exact ⟨Function.update_self _ _ _, fun _ _ => rfl, fun u hu => Function.update_of_ne hu _ _⟩
  | setPtr q k ih =>
    intro c hp hI hn
    refine key c _ hI hn (fun c' hc => ?_) ih
    unfold step at hc
    rw [hp] at hc
    cases hc
    exact ⟨Function.update_self _ _ _, fun u hu => Function.update_of_ne hu _ _,
      fun u hu => Function.update_of_ne hu _ _⟩
  | load q k ih =>
    intro c hp hI hn
    cases hq : (c.mem q.obj)[q.off]? with
    | none =>
      obtain ⟨c', h, _⟩ := hI.step (t := t) fun _ => hn
      unfold step at h; rw [hp] at h; simp only [hq] at h; cases h
    | some v =>
      refine key c _ hI hn (fun c' hc => ?_) (ih v)
      unfold step at hc
      rw [hp] at hc
      simp only [hq] at hc
      cases hc
      exact ⟨Function.update_self _ _ _, fun _ _ => rfl, fun u hu => Function.update_of_ne hu _ _⟩
  | store q v k ih =>
    intro c hp hI hn
    refine key c _ hI hn (fun c' hc => ?_) ih
    unfold step at hc
    rw [hp] at hc
    simp only at hc
    by_cases hl : q.off < (c.mem q.obj).length
    · rw [if_pos hl] at hc
      cases hc
      exact ⟨Function.update_self _ _ _, fun _ _ => rfl, fun u hu => Function.update_of_ne hu _ _⟩
    · rw [if_neg hl] at hc; cases hc
  | leave k ih =>
    intro c hp hI hn
    refine key c _ hI hn (fun c' hc => ?_) ih
    unfold step at hc
    rw [hp] at hc
    cases hc
    exact ⟨Function.update_self _ _ _, fun u hu => Function.update_of_ne hu _ _,
      fun u hu => Function.update_of_ne hu _ _⟩

/-- C40, what is true, is not void: the threads one after the other is such a schedule, and all of them
end. -/
theorem C40_sequential (T : Nat → Thread β) (mem : Nat → List U8) (b : Nat → β)
    (h : ∀ t, Ret ((T t).alone (mem t)) (· = b t)) (N : Nat) :
    ∃ l c, Serial (init T mem) l ∧ run l (init T mem) = some c ∧ ∀ t, t < N → c.thr t = .ret (b t) := by
  have : ∃ l c, Serial (init T mem) l ∧ run l (init T mem) = some c ∧ Inv b c ∧
      (∀ u, c.inside u = none) ∧ ∀ t, t < N → c.thr t = .ret (b t) := by
    induction N with
    | zero =>
      exact ⟨[], _, trivial, rfl, inv_init (fun t => by
        obtain ⟨x, tr, h1, rfl⟩ := h t; exact ⟨tr, h1⟩), fun _ => rfl, fun t ht => by omega⟩
    | succ N ih =>
      obtain ⟨l, c, h1, h2, h3, h4, h5⟩ := ih
      obtain ⟨n, c', i1, i2, i3, i4, i5, i6⟩ := progress N _ c rfl h3 fun u _ => h4 u
      refine ⟨l ++ List.replicate n N, c', Serial.append h1 h2 i1, ?_, i3, i5, fun t ht => ?_⟩
      · rw [run_append, h2]; exact i2
      · by_cases e : t = N
        · rw [e, i4]
        · rw [i6 t e, h5 t (by omega)]
  obtain ⟨l, c, h1, h2, _, _, h5⟩ := this
  exact ⟨l, c, h1, h2, h5⟩

/-! ## Builds without the portable AES -/

theorem private_serial {c : Conf β} (h : ∀ t, ∃ T : Thread β, T.Private ∧ c.thr t = T.prog t)
    (l : List Nat) : Serial c l := by
  induction l generalizing c with
  | nil => trivial
  | cons t l ih =>
    obtain ⟨T, hT, ht⟩ := h t
    cases T with
    | call => exact hT.elim
    | done x =>
      refine ⟨fun ⟨_, _, e⟩ => (by rw [ht] at e; cases e), fun c' hc => ?_⟩
      unfold step at hc
      rw [ht] at hc
      cases hc
      exact ih h
    | priv m k =>
      refine ⟨fun ⟨_, _, e⟩ => (by rw [ht] at e; cases e), fun c' hc => ?_⟩
      unfold step at hc
      rw [ht] at hc
      cases m with
      | div => cases hc
      | ub => cases hc
      | ok x tr =>
        cases hc
        refine ih fun u => ?_
        by_cases hu : u = t
        · subst hu; exact ⟨k x, hT x, Function.update_self _ _ _⟩
        · obtain ⟨T', h1, h2⟩ := h u
          exact ⟨T', h1, (Function.update_of_ne hu _ _).trans h2⟩

/-- C40 is true of the builds that do not use the portable AES: every schedule. -/
theorem C40_private (T : Nat → Thread β) (mem : Nat → List U8) (b : Nat → β)
    (hT : ∀ t, (T t).Private) (h : ∀ t, Ret ((T t).alone (mem t)) (· = b t)) (l : List Nat) :
    ∃ c, run l (init T mem) = some c ∧ ∀ t x, c.thr t = .ret x → x = b t :=
  C40_serial T mem b h l (private_serial (fun t => ⟨T t, hT t, rfl⟩) l)

/-! ## ECB -/

theorem ecb_succ_front (E : List U8 → List U8) (n : Nat) (pt : List U8) :
    Spec.ecb E (n + 1) pt = E (pt.take 16) ++ Spec.ecb E n (pt.drop 16) := by
  unfold Spec.ecb
  rw [List.range_succ_eq_map, List.flatMap_cons, List.flatMap_map]
  congr 1
  refine List.flatMap_congr fun b _ => ?_
  rw [List.drop_drop, show 16 * Nat.succ b = 16 + 16 * b by omega]

theorem ecb_alone {w : Which} {key rk pt : List U8} (hs : IsSchedule w key rk)
    (k : List U8 → Thread β) (P : β → Prop) : ∀ (n i : Nat) (acc mem : List U8),
    16 * (i + n) ≤ pt.length → 16 * (i + n) ≤ mem.length →
    (∀ mem', mem'.length = mem.length →
      Ret ((k (acc ++ Spec.ecb (w.AES key) n (pt.drop (16 * i)))).alone mem') P) →
    Ret ((Thread.ecb w pt rk k n i acc).alone mem) P := by
  intro n
  induction n with
  | zero =>
    intro i acc mem _ _ h
    have := h mem rfl
    rw [show Spec.ecb (w.AES key) 0 (pt.drop (16 * i)) = [] from rfl, List.append_nil] at this
    exact this
  | succ n ih =>
    intro i acc mem hp hm h
    have hb : ((pt.drop (16 * i)).take 16).length = 16 := by
      rw [List.length_take, List.length_drop]; omega
    have hl := AES_length hs hb
    rw [Thread.ecb, Thread.alone]
    simp only [wp]
    refine ⟨by omega, ?_⟩
    rw [Thread.alone]
    simp only [wp]
    refine ⟨by omega, ?_⟩
    refine (enc_schedule hs (by rw [List.length_drop]; omega)
      (by rw [List.length_drop]; omega)).bind_eq ?_
    simp only [wp]
    refine ⟨by rw [List.length_append, List.length_take]; omega, ?_⟩
    rw [List.drop_left' (by rw [List.length_take]; omega), List.take_left' hl]
    have hL : (mem.take (16 * i) ++ (w.AES key ((pt.drop (16 * i)).take 16) ++
        (mem.drop (16 * i)).drop 16)).length = mem.length := by
      rw [List.length_append, List.length_append, List.length_take, hl, List.length_drop,
        List.length_drop]
      omega
    refine ih _ _ _ (by omega) (by rw [hL]; omega) fun mem' hm' => ?_
    have := h mem' (hm'.trans hL)
    rwa [ecb_succ_front, List.drop_drop, show 16 * i + 16 = 16 * (i + 1) by omega,
      ← List.append_assoc] at this

/-- C40 for whole messages: threads that each encrypt `n t` blocks in ECB mode with their own key get
the ECB ciphertext under every schedule that does not interleave inside a block. -/
theorem C40_ecb (w : Nat → Which) (key rk pt mem : Nat → List U8) (n : Nat → Nat)
    (hs : ∀ t, IsSchedule (w t) (key t) (rk t)) (hp : ∀ t, 16 * n t ≤ (pt t).length)
    (hm : ∀ t, 16 * n t ≤ (mem t).length) (l : List Nat)
    (hl : Serial (init (fun t => Thread.ecb (w t) (pt t) (rk t) .done (n t) 0 []) mem) l) :
    ∃ c, run l (init (fun t => Thread.ecb (w t) (pt t) (rk t) .done (n t) 0 []) mem) = some c ∧
      ∀ t x, c.thr t = .ret x → x = Spec.ecb ((w t).AES (key t)) (n t) (pt t) := by
  refine C40_serial _ _ _ (fun t => ?_) l hl
  refine ecb_alone (hs t) _ _ _ _ _ _ (by have := hp t; omega) (by have := hm t; omega) fun _ _ => ?_
  rw [Thread.alone, Ret_pure]
  rfl

/-! ## A concrete program -/

/-- A schedule of `key`, as computed from an output buffer of zeros. -/
theorem isSchedule (w : Which) (key : List U8) (hk : key.length = w.keyLen) :
    ∃ rk, IsSchedule w key rk := by
  cases w with
  | aes128 =>
    have hl : (List.replicate 176 (0 : U8)).length = 176 := List.length_replicate
    have := AES128_load_schedule_ret (I := .c) (J := fun _ _ => 0) (a := 0) (key := key)
      (rk := List.replicate 176 0) (fun h => nomatch h) (Nat.le_of_eq hk.symm) (Nat.le_of_eq hl.symm)
    exact ⟨_, hk, fun _ _ => 0, _, hl, this⟩
  | aes256 =>
    have hl : (List.replicate 240 (0 : U8)).length = 240 := List.length_replicate
    have := AES256_load_schedule_ret (I := .c) (J := fun _ _ => 0) (a := 0) (key := key)
      (rk := List.replicate 240 0) (fun h => nomatch h) (Nat.le_of_eq hk.symm) (Nat.le_of_eq hl.symm)
    exact ⟨_, hk, fun _ _ => 0, _, hl, this⟩

/-- The key of FIPS 197, appendix C.1. -/
def fipsKey : List U8 := [0x00, 0x01, 0x02, 0x03, 0x04, 0x05, 0x06, 0x07, 0x08, 0x09, 0x0a, 0x0b,
  0x0c, 0x0d, 0x0e, 0x0f]

/-- The plaintext of FIPS 197, appendix C.1. -/
def fipsIn : List U8 := [0x00, 0x11, 0x22, 0x33, 0x44, 0x55, 0x66, 0x77, 0x88, 0x99, 0xaa, 0xbb, 0xcc,
  0xdd, 0xee, 0xff]

theorem fips_ne : Spec.AES128 fipsKey fipsIn ≠ fipsIn := by
  unfold fipsKey fipsIn
  rw [AES128_fips]
  decide

/-- Every thread encrypts the block of FIPS 197, C.1. -/
theorem fips_alone {rk : List U8} (hs : IsSchedule .aes128 fipsKey rk) :
    Ret ((Thread.call .aes128 fipsIn rk 0 .done).alone (List.replicate 16 0))
      (· = Spec.AES128 fipsKey fipsIn) := by
  have := ecb_alone (pt := fipsIn) hs Thread.done (· = Spec.AES128 fipsKey fipsIn) 1 0 []
    (List.replicate 16 0) (by decide) (by decide) fun _ _ => by
      rw [Thread.alone, Ret_pure, ecb_succ_front]
      rfl
  rw [Thread.ecb, Thread.alone] at this
  simp only [wp] at this
  exact this.2

/-- C40 as stated is false: two threads that do nothing but encrypt one block each, and a schedule under
which one of them ends with something else than it computes alone. -/
theorem C40_false : ¬ ∀ (T : Nat → Thread (List U8)) (mem : Nat → List U8) (b : Nat → List U8),
    (∀ t, Ret ((T t).alone (mem t)) (· = b t)) →
    ∀ l c, run l (init T mem) = some c → ∀ t x, c.thr t = .ret x → x = b t := by
  intro h
  obtain ⟨rk, hs⟩ := isSchedule .aes128 fipsKey rfl
  obtain ⟨l, c, h1, h2, _⟩ := C40_interference (fun _ => .call .aes128 fipsIn rk 0 .done)
    (fun _ => List.replicate 16 0) .aes128 .aes128 fipsKey fipsKey fipsIn fipsIn rk rk 0 0 .done .done
    rfl rfl hs hs (by decide) (by decide) (by decide) (by decide)
  have := h _ _ (fun _ => Spec.AES128 fipsKey fipsIn) (fun _ => fips_alone hs) l c h1 0 _ h2
  exact fips_ne this.symm

/-- The instance of `C40_race` with two encryptions of one block. -/
example (rk : List U8) : ∃ l c, run l (init (fun _ => .call .aes128 fipsIn rk 0 .done)
    (fun _ => List.replicate 16 0)) = some c ∧ Enters c 0 ∧ Enters c 1 :=
  C40_race _ _ .aes128 .aes128 fipsIn fipsIn rk rk 0 0 .done .done rfl rfl (by decide) (by decide)
    (by decide) (by decide)

/-- A schedule as in `C40_serial` and `C40_ecb`, under which three threads end. -/
example (rk : List U8) (hs : IsSchedule .aes128 fipsKey rk) :
    ∃ l c, Serial (init (fun _ => .call .aes128 fipsIn rk 0 .done)
        (fun _ => List.replicate 16 0)) l ∧
      run l (init (fun _ => .call .aes128 fipsIn rk 0 .done) (fun _ => List.replicate 16 0)) = some c ∧
      ∀ t, t < 3 → c.thr t = .ret (Spec.AES128 fipsKey fipsIn) :=
  C40_sequential _ _ (fun _ => Spec.AES128 fipsKey fipsIn) (fun _ => fips_alone hs) 3

/-- The instance of `C40_private` with threads that evaluate the S-box. -/
example (l : List Nat) := C40_private (fun t => .priv (getSBoxValue (BitVec.ofNat 8 t)) .done)
  (fun _ => []) (fun t => Spec.SBox (BitVec.ofNat 8 t)) (fun _ _ => trivial) (fun t => by
    rw [Thread.alone]
    simp only [wp, Thread.alone]) l

end Frodo.Props
