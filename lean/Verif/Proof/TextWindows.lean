import Verif.Proof.TextRandom
import Verif.Text.Windows

/-! # `randombytes` on Windows: text and model (/repo/src/random/random.c:31-34) -/

namespace Frodo

open Src

/-- `BCryptGenRandom` with the flag 2 (called in /repo/src/random/random.c:32): it puts `k` bytes into the buffer and returns a status, which
is negative if it failed.  `gen k old` says whether it succeeds and what is in the buffer afterwards, given what was in it.  Nothing is said
of buffers that are too small. -/
structure CNG (X : Ctx) (bN : Nat) (gen : Nat → List U8 → Bool × List U8) : Prop where
  null : X.glob "NULL" = some (.ptr bN 0 false 1)
  length : ∀ k l, l.length = k → (gen k l).2.length = k
  call : ∀ {bo off k : Nat} {L : List U8} {m : Mem} {nx : Nat}, m bo = u8s L → off + k ≤ L.length → k < 2 ^ 32 →
    Ret (X.call "BCryptGenRandom" [.ptr bN 0 false 1, .ptr bo off false 1, .int false 4 k, .int true 4 2] m nx) fun x =>
      ∃ status : Int, x = (.int true 4 status, m.set bo (u8s (L.take off ++ (gen k ((L.drop off).take k)).2 ++ L.drop (off + k))), nx) ∧
        -2147483648 ≤ status ∧ status ≤ 2147483647 ∧ (0 ≤ status ↔ (gen k ((L.drop off).take k)).1 = true)

section

variable {X : Ctx} {bN : Nat} {gen : Nat → List U8 → Bool × List U8} {d : Nat}

theorem text_windows (hX : CNG X bN gen) {bo off n k : Nat} {L : List U8} {m : Mem} {nx : Nat} (hm : m bo = u8s L)
    (hn : n % 2 ^ 32 = k) (hl : off + k ≤ L.length) :
    Ret (callFun (link [windowsFile] X d) windowsFun [.ptr bo off false 1, .int false 8 n] m nx) fun x =>
      x = (.int true 4 (if (gen k ((L.drop off).take k)).1 then 0 else 1),
        m.set bo (u8s (L.take off ++ (gen k ((L.drop off).take k)).2 ++ L.drop (off + k))), nx) := by
  have gn : (link [windowsFile] X d).glob "NULL" = some (.ptr bN 0 false 1) := by rw [link_glob, hX.null]
  have gc : (link [windowsFile] X d).call "BCryptGenRandom" = X.call "BCryptGenRandom" :=
    link_extern (by kernel_rfl) (by decide) (by decide)
  unfold windowsFun
  csim [gn, gc]
  have hk : wrap false 4 (wrap false 8 (n : Int)) = (k : Int) := by
    simp only [wrap, Bool.false_eq_true, if_false]
    omega
  have hk' : k < 2 ^ 32 := hn ▸ Nat.mod_lt _ (by norm_num)
  rw [hk]
  refine (hX.call (m := m) (nx := nx) hm hl hk').bind ?_
  rintro _ ⟨st, rfl, h1, h2, h3⟩
  cases hg : (gen k ((L.drop off).take k)).1 with
  | true =>
    have h0 := h3.2 hg
    csim
    rw [show decide (0 ≤ st) = true by simpa using h0, show decide (truth true = 0) = false from rfl, branchK_false, bind_assoc, Ret_emit_bind]
    csim
    exact Ret_pure.2 rfl
  | false =>
    have h0 : ¬ 0 ≤ st := fun h => by rw [h3.1 h] at hg; cases hg
    csim
    rw [show decide (0 ≤ st) = false by simpa using h0, show decide (truth false = 0) = true from rfl, branchK_true, bind_assoc, Ret_emit_bind]
    csim
    exact Ret_pure.2 rfl

/-- What the text of `randombytes` computes on Windows, for requests below 2^32 bytes (/repo/src/random/random.c:31-34). -/
def rbWindows (gen : Nat → List U8 → Bool × List U8) : RandomBytes := fun buf n =>
  if n ≤ buf.length then pure ((gen n (buf.take n)).2 ++ buf.drop n, if (gen n (buf.take n)).1 then 0 else 1) else .ub .oobWrite

/-- Calls of `randombytes` run the text of /repo/src/random/random.c on Windows, all other calls go to `X`. -/
def withWindows (X Y : Ctx) : Ctx :=
  { X with call := fun f args m nx =>
      if f = "randombytes" then windowsFile.run (link [windowsFile] Y 1) f args m nx else X.call f args m nx }

theorem withWindows_rand {Y : Ctx} (hY : CNG Y bN gen) : Rand (withWindows X Y) (rbWindows gen) := by
  intro N F bo ko s n L len e1 e2 e3 e4 M nx hN hM a t ha
  unfold rbWindows at ha
  by_cases hl : len ≤ (L.drop ko).length
  · rw [if_pos hl] at ha
    cases ha
    rw [List.length_drop] at hl
    obtain ⟨x, t', h, hx⟩ := text_windows (d := 1) hY (bo := bo) (off := ko) (n := len) (k := len) (L := L) (m := M) (nx := nx)
      (by rw [hM _ e2, e1]) (Nat.mod_eq_of_lt (by omega)) (by omega)
    refine ⟨x, t', ?_, ⟨by rw [hx], by rw [hx]; exact hN, fun b hb => ?_⟩, nofun⟩
    · simp only [withWindows, if_true]
      rw [← h, run_eq windows_randombytes, callFun_conv (g := windowsFun) (args := [.ptr bo ko false 1, .int s n len])
        (args' := [.ptr bo ko false 1, .int false 8 len]) rfl]
    · rw [hx]
      dsimp only
      by_cases e : b = bo
      · rw [e, set_same, set_same, List.append_assoc, List.drop_drop]
      · rw [set_ne _ _ e, set_ne _ _ e, hM b hb]
  · rw [if_neg hl] at ha
    exact nomatch ha

end

end Frodo
