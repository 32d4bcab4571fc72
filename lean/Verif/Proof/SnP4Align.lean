import Verif.Proof.Align
import Verif.Proof.SnP4Fast

/-! # What the functions on four states need -/

namespace Frodo

open Spec

/-! ## Partial correctness -/

/-- If `m` ends without undefined behaviour, its result satisfies `P` (proof device). -/
def Post (m : C α) (P : α → Prop) : Prop := ∀ a t, m = .ok a t → P a

theorem Post.bind {m : C α} {f : α → C β} {P : α → Prop} {R : β → Prop} (h : Post m P)
    (hf : ∀ a, P a → Post (f a) R) : Post (m >>= f) R := by
  intro b t hb
  obtain ⟨a, u, v, h1, h2⟩ := of_bind_ok hb
  exact hf a (h a u h1) b v h2

theorem Post.after {m : C α} {f : α → C β} {R : β → Prop} (hf : ∀ a, Post (f a) R) :
    Post (m >>= f) R := by
  intro b t hb
  obtain ⟨a, u, v, -, h2⟩ := of_bind_ok hb
  exact hf a b v h2

theorem Post.pure {a : α} {P : α → Prop} (h : P a) : Post (Pure.pure a) P := by
  intro b t hb
  rw [C.pure_def] at hb
  injection hb with h1 h2
  subst h1
  exact h

theorem Post.mono {m : C α} {P R : α → Prop} (h : Post m P) (hR : ∀ a, P a → R a) : Post m R :=
  fun a t ht => hR a (h a t ht)

theorem Post.require {Q : Prop} [Decidable Q] {u : UB} : Post (C.require Q u) (fun _ => Q) :=
  Needs.require

theorem Post.ifC {b : Bool} {m k : C α} {P : α → Prop} (h1 : b = true → Post m P)
    (h2 : b = false → Post k P) : Post (ifC b m k) P := by
  unfold Frodo.ifC
  refine Post.after fun _ => ?_
  cases b
  · exact h2 rfl
  · exact h1 rfl

theorem Post.while {cond : σ → Bool} {body : σ → C σ} (I : σ → Prop)
    (hstep : ∀ s, I s → cond s = true → Post (body s) I) :
    ∀ s, I s → Post (whileC cond body s) (fun s' => I s' ∧ cond s' = false) := by
  have key : ∀ s a t, whileC cond body s = .ok a t → I s → I a ∧ cond a = false := by
    refine whileC.fixpoint_induct cond body
      (fun w => ∀ s a t, w s = .ok a t → I s → I a ∧ cond a = false) ?_ ?_
    · refine Lean.Order.admissible_pi_apply (fun s (x : C σ) => ∀ a t, x = .ok a t →
        I s → I a ∧ cond a = false) ?_
      intro s
      apply Lean.Order.admissible_flatOrder
      intro a t h
      cases h
    · intro w ih s a t hw hI
      obtain ⟨_, u1, u2, -, hu2⟩ := of_bind_ok hw
      by_cases hd : cond s = true
      · rw [if_pos hd] at hu2
        obtain ⟨s', u3, u4, hu3, hu4⟩ := of_bind_ok hu2
        exact ih _ _ _ hu4 (hstep s hI hd _ _ hu3)
      · rw [if_neg hd] at hu2
        exact Post.pure (P := fun a => I a ∧ cond a = false) ⟨hI, by simpa using hd⟩ _ _ hu2
  exact fun s hI a t h => key s a t h hI

theorem Needs.bindPost {m : C α} {f : α → C β} {P : α → Prop} {Q : Prop} (h : Post m P)
    (hf : ∀ a, P a → Needs (f a) Q) : Needs (m >>= f) Q :=
  Post.bind h hf

/-! ## Bytes of one state -/

theorem bytesInLane_post {offset length : Nat} (h : offset % 8 ≠ 0) :
    Post (bytesInLane (offset % 8) length) (· = headLen offset length) := by
  unfold bytesInLane headLen
  refine Post.ifC (fun c => Post.pure ?_) (fun c => Post.pure ?_)
  · have : 8 - offset % 8 > length := by simpa using c
    rw [if_neg h]; omega
  · have : 8 - offset % 8 ≤ length := by simpa using c
    rw [if_neg h]; omega

theorem Needs.ldU64 {addr p : Nat} {l : List U8} : Needs (Frodo.ldU64 addr l p) ((addr + p) % 8 = 0) :=
  Needs.bind Needs.require

theorem Needs.stU64 {addr p : Nat} {l : List U8} {v : U64} :
    Needs (Frodo.stU64 addr l p v) ((addr + p) % 8 = 0) :=
  Needs.bind Needs.require

theorem whole_cond {offset length a : Nat} (hW : Whole offset length) :
    8 ≤ length - headLen offset length ∧
      ((a + headLen offset length) % 8 = 0 → a % 8 = offset % 8) := by
  unfold Whole at hW
  unfold headLen
  split <;> omega

theorem no_head {offset length : Nat} (h : ¬ (length > 0 ∧ offset % 8 ≠ 0)) :
    headLen offset length = 0 := by
  unfold headLen
  split <;> omega

theorem Needs.AddBytes {sAddr : Nat} {ss : List U64} {k dAddr : Nat} {data : List U8}
    {offset length : Nat} :
    Needs (KeccakP1600times4_AddBytes sAddr ss k dAddr data offset length)
      (sAddr % 8 = 0 ∧ (Whole offset length → dAddr % 8 = offset % 8)) := by
  refine Needs.and Needs.require.bind (Needs.imp fun hW => Needs.after fun _ => ?_)
  refine Needs.bindPost (P := fun st : ByteSt => st.sizeLeft = length - headLen offset length ∧
    st.cur = headLen offset length) ?_ ?_
  · refine Post.ifC (fun c => ?_) (fun c => Post.pure ?_)
    · have c : length > 0 ∧ offset % 8 ≠ 0 := by simpa using c
      refine (bytesInLane_post c.2).bind fun n hn => ?_
      subst hn
      iterate 3 refine Post.after fun _ => ?_
      exact Post.pure ⟨rfl, Nat.zero_add _⟩
    · have c := no_head (of_decide_eq_false c)
      rw [c]
      exact ⟨rfl, rfl⟩
  · rintro st ⟨h1, h2⟩
    obtain ⟨w1, w2⟩ := whole_cond (a := dAddr) hW
    refine Needs.bind (Needs.while (decide_eq_true (by omega)) (Needs.bind (Needs.ldU64.mono fun h => ?_)))
    rw [h2] at h
    exact w2 h

theorem Needs.OverwriteBytes {sAddr : Nat} {ss : List U64} {k dAddr : Nat} {data : List U8}
    {offset length : Nat} :
    Needs (KeccakP1600times4_OverwriteBytes sAddr ss k dAddr data offset length)
      (sAddr % 8 = 0 ∧ (Whole offset length → dAddr % 8 = offset % 8)) := by
  refine Needs.and Needs.require.bind (Needs.imp fun hW => Needs.after fun _ => ?_)
  refine Needs.bindPost (P := fun st : ByteSt => st.sizeLeft = length - headLen offset length ∧
    st.cur = headLen offset length) ?_ ?_
  · refine Post.ifC (fun c => ?_) (fun c => Post.pure ?_)
    · have c : length > 0 ∧ offset % 8 ≠ 0 := by simpa using c
      refine (bytesInLane_post c.2).bind fun n hn => ?_
      subst hn
      iterate 3 refine Post.after fun _ => ?_
      exact Post.pure ⟨rfl, Nat.zero_add _⟩
    · have c := no_head (of_decide_eq_false c)
      rw [c]
      exact ⟨rfl, rfl⟩
  · rintro st ⟨h1, h2⟩
    obtain ⟨w1, w2⟩ := whole_cond (a := dAddr) hW
    refine Needs.bind (Needs.while (decide_eq_true (by omega)) (Needs.bind (Needs.ldU64.mono fun h => ?_)))
    rw [h2] at h
    exact w2 h

theorem Needs.ExtractBytes {sAddr : Nat} {ss : List U64} {k dAddr : Nat} {data : List U8}
    {offset length : Nat} :
    Needs (KeccakP1600times4_ExtractBytes sAddr ss k dAddr data offset length)
      (sAddr % 8 = 0 ∧ (Whole offset length → dAddr % 8 = offset % 8)) := by
  refine Needs.and Needs.require.bind (Needs.imp fun hW => Needs.after fun _ => ?_)
  refine Needs.bindPost (P := fun st : ExtrSt => st.sizeLeft = length - headLen offset length ∧
    st.cur = headLen offset length) ?_ ?_
  · refine Post.ifC (fun c => ?_) (fun c => Post.pure ?_)
    · have c : length > 0 ∧ offset % 8 ≠ 0 := by simpa using c
      refine (bytesInLane_post c.2).bind fun n hn => ?_
      subst hn
      iterate 2 refine Post.after fun _ => ?_
      exact Post.pure ⟨rfl, Nat.zero_add _⟩
    · have c := no_head (of_decide_eq_false c)
      rw [c]
      exact ⟨rfl, rfl⟩
  · rintro st ⟨h1, h2⟩
    obtain ⟨w1, w2⟩ := whole_cond (a := dAddr) hW
    refine Needs.bind (Needs.while (decide_eq_true (by omega)) (Needs.after fun _ =>
      Needs.bind (Needs.stU64.mono fun h => ?_)))
    rw [h2] at h
    exact w2 h

theorem Needs.ExtractAndAddBytes {sAddr : Nat} {ss : List U64} {k iAddr : Nat} {input : List U8}
    {oAddr : Nat} {output : List U8} {offset length : Nat} :
    Needs (KeccakP1600times4_ExtractAndAddBytes sAddr ss k iAddr input oAddr output offset length)
      (sAddr % 8 = 0 ∧ (Whole offset length → iAddr % 8 = offset % 8 ∧ oAddr % 8 = offset % 8)) := by
  refine Needs.and Needs.require.bind (Needs.imp fun hW => Needs.after fun _ => ?_)
  refine Needs.bindPost (P := fun st : ExtrSt => st.sizeLeft = length - headLen offset length ∧
    st.cur = headLen offset length) ?_ ?_
  · refine Post.ifC (fun c => ?_) (fun c => Post.pure ?_)
    · have c : length > 0 ∧ offset % 8 ≠ 0 := by simpa using c
      refine Post.after fun _ => (bytesInLane_post c.2).bind fun n hn => ?_
      subst hn
      refine Post.after fun _ => ?_
      exact Post.pure ⟨rfl, Nat.zero_add _⟩
    · have c := no_head (of_decide_eq_false c)
      rw [c]
      exact ⟨rfl, rfl⟩
  · rintro st ⟨h1, h2⟩
    obtain ⟨w1, w2⟩ := whole_cond (a := iAddr) hW
    obtain ⟨-, w3⟩ := whole_cond (a := oAddr) hW
    refine Needs.bind (Needs.while (decide_eq_true (by omega)) (Needs.and
      (Needs.bind (Needs.ldU64.mono fun h => ?_))
      (Needs.after fun _ => Needs.after fun _ => Needs.bind (Needs.stU64.mono fun h => ?_))))
    · rw [h2] at h
      exact w2 h
    · rw [h2] at h
      exact w3 h

/-! ## Lanes of all states -/

theorem lanePtrs_post {dAddr : Nat} {data : List U8} {L : Nat} :
    Post (lanePtrs dAddr data L) (fun o => dAddr % 8 = 0 ∧ o.x0 = 0 ∧ o.x3 = u32 (u32 (L * 3) * 8) ∧
      o.x3 ≤ data.length) := by
  unfold lanePtrs
  refine Post.require.bind fun _ h1 => Post.require.bind fun _ h2 => Post.pure ?_
  exact ⟨h2.1, rfl, rfl, h1.2.2⟩

theorem Needs.lanePtrs {dAddr : Nat} {data : List U8} {L : Nat} :
    Needs (Frodo.lanePtrs dAddr data L) (dAddr % 8 = 0) :=
  lanePtrs_post.mono fun _ h => h.1

theorem Needs.AddLanesAll {sAddr : Nat} {ss : List U64} {dAddr : Nat} {data : List U8} {n L : Nat} :
    Needs (KeccakP1600times4_AddLanesAll sAddr ss dAddr data n L) (sAddr % 32 = 0 ∧ dAddr % 8 = 0) :=
  Needs.and Needs.require.bind (Needs.after fun _ => Needs.lanePtrs.bind)

theorem Needs.OverwriteLanesAll {sAddr : Nat} {ss : List U64} {dAddr : Nat} {data : List U8} {n L : Nat} :
    Needs (KeccakP1600times4_OverwriteLanesAll sAddr ss dAddr data n L)
      (sAddr % 32 = 0 ∧ dAddr % 8 = 0) :=
  Needs.and Needs.require.bind (Needs.after fun _ => Needs.lanePtrs.bind)

theorem Needs.ExtractLanesAll {sAddr : Nat} {ss : List U64} {dAddr : Nat} {data : List U8} {n L : Nat} :
    Needs (KeccakP1600times4_ExtractLanesAll sAddr ss dAddr data n L)
      (sAddr % 32 = 0 ∧ dAddr % 8 = 0) :=
  Needs.and (Needs.after fun _ => Needs.require.bind) Needs.lanePtrs.bind

theorem Needs.ExtractAndAddLanesAll {sAddr : Nat} {ss : List U64} {iAddr : Nat} {input : List U8}
    {oAddr : Nat} {output : List U8} {n L : Nat} :
    Needs (KeccakP1600times4_ExtractAndAddLanesAll sAddr ss iAddr input oAddr output n L)
      (sAddr % 32 = 0 ∧ iAddr % 8 = 0 ∧ oAddr % 8 = 0) :=
  Needs.and (Needs.after fun _ => Needs.after fun _ => Needs.require.bind)
    (Needs.and Needs.lanePtrs.bind (Needs.after fun _ => Needs.lanePtrs.bind))

/-! ## The fast loops -/

theorem advance_post {data : List U8} {p los : Nat} :
    Post (advance data p los) (fun p' => p' = p + 8 * los ∧ p' ≤ data.length) := by
  unfold advance
  exact Post.require.bind fun _ h => Post.pure ⟨rfl, h⟩

theorem Needs.fastLoop {rounds : VLanes → C VLanes} {permute : List U64 → C (List U64)} {E : Env}
    {sAddr : Nat} {ss : List U64} {n L los dAddr : Nat} {data : List U8}
    (hw : 8 * (3 * L + n) < 2 ^ 32) (hlos : 8 * los < 2 ^ 32) (h0 : 0 < los)
    (h64 : data.length < 2 ^ 64) :
    Needs (fastLoopAbsorb rounds permute E sAddr ss n L los dAddr data data.length)
      (fastBlocks (8 * (3 * L + n)) (8 * los) data.length * (8 * los) ≤ data.length ∧
        (n = 21 → 8 * (3 * L + fastBlocks (8 * (3 * L + n)) (8 * los) data.length * los) ≤
          data.length)) := by
  have hfb : fastBound L n = 8 * (3 * L + n) := by
    unfold fastBound u32; omega
  have hu : u32 (los * 8) = 8 * los := by unfold u32; omega
  have hu3 : u32 (u32 (L * 3) * 8) = 24 * L := by unfold u32; omega
  generalize hlen : data.length = len at *
  have hstep : ∀ j, j * (8 * los) ≤ len → ∀ c, c = decide (len - j * (8 * los) ≥ 8 * (3 * L + n)) →
      (c = true ↔ j < fastBlocks (8 * (3 * L + n)) (8 * los) len) := by
    rintro j hj c rfl
    rw [decide_eq_true_iff]
    unfold fastBlocks
    by_cases c : len < 8 * (3 * L + n)
    · rw [if_pos c]; omega
    · rw [if_neg c, show (len - j * (8 * los) ≥ 8 * (3 * L + n) ↔
        j * (8 * los) ≤ len - 8 * (3 * L + n)) by omega, ← Nat.le_div_iff_mul_le (by omega)]
      omega
  generalize fastBlocks (8 * (3 * L + n)) (8 * los) len = N at *
  have hsucc : ∀ j, (j + 1) * (8 * los) = j * (8 * los) + 8 * los := fun j => by
    rw [Nat.add_mul, Nat.one_mul]
  unfold fastLoopAbsorb
  rw [hfb, hu]
  refine Post.ifC (fun c => ?_) (fun c => ?_)
  · have c : n = 21 := of_decide_eq_true c
    refine lanePtrs_post.bind fun o ho => Post.after fun _ => Post.after fun v => ?_
    refine Needs.bindPost (Post.while (fun st : Fast21St => ∃ j, j ≤ N ∧ j * (8 * los) ≤ len ∧
      st.o.x0 = j * (8 * los) ∧ st.o.x3 = 24 * L + j * (8 * los) ∧ st.o.x3 ≤ len ∧
      st.dataByteLen = len - j * (8 * los)) ?_ _ ?_) ?_
    · rintro st ⟨j, h1, h2, h3, h4, h5, h6⟩ hc
      have hj := (hstep j h2 _ (by rw [h6])).1 hc
      iterate 3 refine Post.after fun _ => ?_
      refine advance_post.bind fun p0 q0 => Post.after fun p1 => Post.after fun p2 =>
        advance_post.bind fun p3 q3 => Post.pure ?_
      rw [hlen] at q0 q3
      have e := hsucc j
      refine ⟨j + 1, hj, by omega, by simp only; omega, by simp only; omega, by simp only; omega, ?_⟩
      simp only
      rw [sz64_sub (by omega) (by omega)]
      omega
    · rw [hu3, hlen] at ho
      exact ⟨0, by omega, by omega, by simp only; omega, by simp only; omega, by simp only; omega, by simp⟩
    · rintro st ⟨⟨j, h1, h2, h3, h4, h5, h6⟩, hc⟩
      have hj : ¬ j < N := by
        rw [← hstep j h2 _ rfl, ← h6, hc]
        simp
      have hj : j = N := by omega
      subst hj
      refine fun _ _ _ => ⟨h2, fun _ => ?_⟩
      have : j * (8 * los) = 8 * (j * los) := by rw [Nat.mul_left_comm]
      omega
  · have c : n ≠ 21 := of_decide_eq_false c
    refine Needs.bindPost (Post.while (fun st : FastSt => ∃ j, j ≤ N ∧ j * (8 * los) ≤ len ∧
      st.pos = j * (8 * los) ∧ st.dataByteLen = len - j * (8 * los)) ?_ _ ?_) ?_
    · rintro st ⟨j, h1, h2, h3, h4⟩ hc
      have hj := (hstep j h2 _ (by rw [h4])).1 hc
      iterate 2 refine Post.after fun _ => ?_
      refine Post.require.bind fun _ h => Post.pure ?_
      have e := hsucc j
      rw [hlen] at h
      refine ⟨j + 1, hj, by omega, by simp only; omega, ?_⟩
      simp only
      rw [sz64_sub (by omega) (by omega)]
      omega
    · exact ⟨0, by omega, by omega, by simp, by simp⟩
    · rintro st ⟨⟨j, h1, h2, h3, h4⟩, hc⟩
      have hj : ¬ j < N := by
        rw [← hstep j h2 _ rfl, ← h4, hc]
        simp
      have hj : j = N := by omega
      subst hj
      exact fun _ _ _ => ⟨h2, fun h => absurd h c⟩

theorem Ret.bind_div {m : C α} {f : α → C β} {P : α → Prop} (h : Ret m P) (hf : ∀ a, P a → f a = .div) :
    (m >>= f) = .div := by
  obtain ⟨a, t, h1, h2⟩ := h
  rw [h1, C.bind_def]
  simp only [C.bind', hf a h2]

theorem div_bind {m : C α} {f : α → C β} (h : m = .div) : (m >>= f) = .div := by
  rw [h, C.bind_def]
  rfl

theorem div_ifC {b : Bool} {m k : C α} (h1 : b = true → m = .div) (h2 : b = false → k = .div) :
    ifC b m k = .div := by
  unfold ifC
  cases b
  · simp only [Bool.false_eq_true, if_false, h2 rfl]; rfl
  · simp only [if_true, h1 rfl]; rfl

theorem of_ret {m : C α} {P : α → Prop} (h : Ret m P) :
    (∀ u, m ≠ .ub u) ∧ ∀ a t, m = .ok a t → P a := by
  obtain ⟨a, t, h1, h2⟩ := h
  rw [h1]
  refine ⟨fun u h => (nomatch h), fun b v hb => ?_⟩
  injection hb with h3 h4
  subst h3
  exact h2

/-- A step of 0 lanes: the loop does not end. -/
theorem fastLoop_div {rounds : VLanes → C VLanes} {permute : List U64 → C (List U64)} {nr : Nat}
    {E : Env} {sAddr : Nat} {ss : List U64} {n L dAddr : Nat} {data : List U8} {len : Nat}
    (hr : ∀ v, Ret (rounds v) (fun v' => ∀ t,
      (v'.lane t).get.bits = keccakPn nr (v.lane t).get.bits))
    (hp : ∀ s, s.length = 100 → Ret (permute s) (fun s' => s'.length = 100 ∧
      ∀ t, sbits (inst t s') = keccakPbits nr (sbits (inst t s))))
    (hE : E.rhoAligned) (hsA : sAddr % 32 = 0) (h : ss.length = 100) (hA : dAddr % 8 = 0) (hn : n ≤ 25)
    (hw : 8 * (3 * L + n) < 2 ^ 32) (hlen : len ≤ data.length) (h64 : len < 2 ^ 64)
    (hT : 8 * (3 * L + n) ≤ len) :
    fastLoopAbsorb rounds permute E sAddr ss n L 0 dAddr data len = .div := by
  have hfb : fastBound L n = 8 * (3 * L + n) := by
    unfold fastBound u32; omega
  have hu : u32 (0 * 8) = 0 := rfl
  have hsz : sz64 ((len : Int) - ((0 : Nat) : Int)) = len := by rw [sz64_sub (by omega) h64]; rfl
  have hL3 : ∀ t : Fin 4, L * t ≤ L * 3 := fun t =>
    Nat.mul_le_mul_left _ (by have := t.isLt; omega)
  unfold fastLoopAbsorb
  rw [hfb, hu]
  refine div_ifC (fun c => ?_) (fun c => ?_)
  · have c : n = 21 := of_decide_eq_true c
    refine (lanePtrs_ret hA (by omega) (by omega)).bind_div fun o ho => ?_
    subst ho
    have hq : Ret (C.require (sAddr % 32 = 0) .misaligned) (fun _ => True) := by
      unfold C.require; rw [if_pos hsA]; exact ⟨_, _, rfl, trivial⟩
    refine hq.bind_div fun _ _ => ?_
    refine (copyFromState4x_ret h).bind_div fun v _ => ?_
    refine div_bind (while_div (fun st : Fast21St => st.o = offs L ∧ st.dataByteLen = len) ?_ _ ⟨rfl, rfl⟩)
    rintro ⟨v, o, d⟩ ⟨h1, h2⟩
    simp only at h1 h2
    subst h1 h2
    refine ⟨decide_eq_true hT, of_ret ?_⟩
    refine (xorIn21_ret (fun t => ?_) (fun t => ?_)).bind fun w _ => ?_
    · rw [offs_get]; omega
    · rw [offs_get]; have := hL3 t; omega
    rw [Ret_require_bind]
    refine ⟨hE, (hr w).bind fun z _ => ?_⟩
    unfold advance
    simp only [wp]
    have b0 := offs_get L 0
    have b1 := offs_get L 1
    have b2 := offs_get L 2
    have b3 := offs_get L 3
    simp only [Four.get] at b0 b1 b2 b3
    refine ⟨?_, ?_, ?_, ?_, Four.ext' ?_, hsz⟩
    · rw [b0]; simp
    · rw [b1]; simp; omega
    · rw [b2]; simp; omega
    · rw [b3]; simp; omega
    · exact four_forall rfl rfl rfl rfl
  · refine div_bind (while_div (fun st : FastSt => st.ss.length = 100 ∧ st.pos = 0 ∧
      st.dataByteLen = len) ?_ _ ⟨h, rfl, rfl⟩)
    rintro ⟨s, p, d⟩ ⟨h1, h2, h3⟩
    simp only at h1 h2 h3
    subst h2 h3
    refine ⟨decide_eq_true hT, of_ret ?_⟩
    refine (AddLanesAll_ret hsA h1 (by omega) hn (by omega) (by simp; omega)).bind fun w hw' => ?_
    refine (hp w hw'.1).bind fun z hz => ?_
    simp only [wp]
    exact ⟨by omega, hz.1, trivial, hsz⟩

end Frodo
