import Verif.Props.MultilinearExact
import Verif.Lemmas.Accuracy

/-! C51: monotone data give a monotone interpolant. C52: first-order accuracy. Multilinear
interpolation in exact arithmetic, both grid kinds (`Axes`) and both implementations
(`Evaluator`). -/

set_option autoImplicit false
set_option linter.unusedSectionVars false

namespace Interpn

section
variable {K : Type} [Field K] [LinearOrder K] [IsStrictOrderedRing K] [FloorRing K] {N : Nat}

/-! ### Monotonicity -/

theorem axisByAxis_mono_axis : ∀ {N : Nat} (n : Fin N → Nat) (j : Fin N)
    (op op' : Fin N → (Nat → K) → K) (g : (Fin N → Nat) → K)
    (_ : ∀ k, k ≠ j → ∀ f f', (∀ i < n k, f i ≤ f' i) → op k f ≤ op' k f')
    (_ : ∀ k, k ≠ j → ∀ f f', (∀ i < n k, f i ≤ f' i) → op k f ≤ op k f')
    (_ : ∀ f, (∀ i, i + 1 < n j → f i ≤ f (i + 1)) → op j f ≤ op' j f)
    (_ : ∀ f f', (∀ i < n j, f i = f' i) → op' j f = op' j f')
    (_ : ∀ k, k ≠ j → op k = op' k)
    (_ : ∀ loc : Fin N → Nat, (∀ k, loc k < n k) → loc j + 1 < n j →
      g loc ≤ g (Function.update loc j (loc j + 1))),
    axisByAxis op g ≤ axisByAxis op' g
  | N + 1, n, j, op, op', g, h1, h2, h3, h4, h5, hg => by
    rw [axisByAxis, axisByAxis]
    by_cases hj : j = Fin.last N
    · subst hj
      have hne : ∀ k : Fin N, k.castSucc ≠ Fin.last N := fun k => (Fin.castSucc_lt_last k).ne
      have e : (fun k : Fin N => op k.castSucc) = fun k => op' k.castSucc :=
        funext fun k => h5 _ (hne k)
      rw [← e]
      apply h3
      intro i hi
      refine axisByAxis_rel (fun a b => a ≤ b) (fun k i => i < n k.castSucc) _ _ _ _
        (fun k f f' hf => h2 _ (hne k) f f' hf) fun loc hl => ?_
      have := hg (Fin.snoc (α := fun _ => Nat) loc i) (fun k => ?_) (by simpa using hi)
      · simpa only [Fin.snoc_last, Fin.update_snoc_last] using this
      · refine Fin.lastCases ?_ (fun k => ?_) k
        · simp only [Fin.snoc_last]; omega
        · simpa only [Fin.snoc_castSucc] using hl k
    · obtain ⟨j', rfl⟩ := Fin.exists_castSucc_eq.2 hj
      apply h1 _ (Ne.symm hj)
      intro i hi
      refine axisByAxis_mono_axis (fun k => n k.castSucc) j' _ _ _
        (fun k hk => h1 _ (by simpa using hk)) (fun k hk => h2 _ (by simpa using hk)) h3 h4
        (fun k hk => h5 _ (by simpa using hk)) fun loc hl hlj => ?_
      have := hg (Fin.snoc (α := fun _ => Nat) loc i) (fun k => ?_) (by simpa using hlj)
      · rw [Fin.snoc_castSucc (α := fun _ => Nat)] at this
        rwa [Fin.snoc_update (α := fun _ => Nat)]
      · refine Fin.lastCases ?_ (fun k => ?_) k
        · simp only [Fin.snoc_last]; omega
        · simpa only [Fin.snoc_castSucc] using hl k

theorem linPiece_axes_mono {n : Fin N → Nat} {p : Fin N → Nat → K} (hi : ∀ k, Incr (n k) (p k))
    (j : Fin N) (g : (Fin N → Nat) → K)
    (hmono : ∀ loc : Fin N → Nat, (∀ k, loc k < n k) → loc j + 1 < n j →
      g loc ≤ g (Function.update loc j (loc j + 1)))
    {x : Fin N → K} {z : K} (hin : ∀ k, k ≠ j → InRange (n k) (p k) (x k)) (hxz : x j ≤ z)
    {c : Fin N → Nat} {d : Nat} (hc : ∀ k, InCell (n k) (p k) (x k) (c k))
    (hd : InCell (n j) (p j) z d) :
    axisByAxis (fun k f => linPiece (p k) f (c k) (x k)) g ≤
      axisByAxis (fun k f => linPiece (p k) f (Function.update c j d k)
        (Function.update x j z k)) g := by
  have hle : ∀ k, k ≠ j → ∀ f f' : Nat → K, (∀ i < n k, f i ≤ f' i) →
      linPiece (p k) f (c k) (x k) ≤ linPiece (p k) f' (c k) (x k) := by
    intro k hk f f' hf
    obtain ⟨ht0, ht1⟩ := weight_mem (hi k) (hc k) (hin k hk)
    have h1 := hf (c k) (by have := (hc k).1; omega)
    have h2 := hf (c k + 1) (hc k).1
    rw [linPiece_weights, linPiece_weights]
    have := mul_le_mul_of_nonneg_left h1 (sub_nonneg.2 ht1)
    have := mul_le_mul_of_nonneg_left h2 ht0
    linarith
  refine axisByAxis_mono_axis n j _ _ g ?_ hle ?_ ?_ ?_ hmono
  · intro k hk f f' hf
    simpa [hk] using hle k hk f f' hf
  · intro f hf
    simpa using linPiece_mono (hi j) hf hxz (hc j) hd
  · intro f f' hf
    simpa using (linPiece_linear hd.1).congr f f' hf
  · intro k hk
    simp [hk]

/-- C51: if the values do not decrease along axis `j`, the interpolant does not decrease in
coordinate `j`, at all points whose other coordinates are inside the grid. -/
theorem C51_monotone (e : Evaluator) (he : e.Fits N) (fma : Bool) (G : Axes K N)
    (vals : List K) (hG : G.Valid 2 vals) (g : (Fin N → Nat) → K) (hg : Samples G.size vals g)
    (j : Fin N)
    (hmono : ∀ loc : Fin N → Nat, (∀ k, loc k < G.size k) → loc j + 1 < G.size j →
      g loc ≤ g (Function.update loc j (loc j + 1)))
    (x : Fin N → K) (z : K) (hxz : x j ≤ z)
    (hin : ∀ k, k ≠ j → InRange (G.size k) (G.node k) (x k))
    (hx : G.Representable x) (hz : G.Representable (Function.update x j z)) :
    ∃ y y', multilinearAt e fma G vals x = .ok y ∧
      multilinearAt e fma G vals (Function.update x j z) = .ok y' ∧ y ≤ y' := by
  obtain ⟨c, hc⟩ := hG.cells le_rfl x
  obtain ⟨d, hd⟩ := exists_inCell (p := G.node j) (hG.big j) z
  have hc' : ∀ k, InCell (G.size k) (G.node k) (Function.update x j z k)
      (Function.update c j d k) := by
    intro k
    by_cases hk : k = j
    · subst hk; simpa using hd
    · simpa [hk] using hc k
  exact ⟨_, _, multilinearAt_eq e he fma G vals hG g hg x hx c hc,
    multilinearAt_eq e he fma G vals hG g hg _ hz _ hc', linPiece_axes_mono hG.incr j g hmono hin
      hxz hc hd⟩

/-! ### Accuracy -/

theorem lipschitz_sum (L : Fin N → K) (F : (Fin N → K) → K)
    (hF : ∀ y k z, |F (Function.update y k z) - F y| ≤ L k * |z - y k|) (a b : Fin N → K) :
    |F a - F b| ≤ ∑ k, L k * |a k - b k| := by
  have key : ∀ s : Finset (Fin N), |F (s.piecewise a b) - F b| ≤ ∑ k ∈ s, L k * |a k - b k| := by
    intro s
    induction s using Finset.induction_on with
    | empty => simp
    | insert k s hk ih =>
      rw [Finset.piecewise_insert, Finset.sum_insert hk]
      have h1 := hF (s.piecewise a b) k (a k)
      rw [Finset.piecewise_eq_of_notMem _ _ _ hk] at h1
      have h2 := abs_add_le (F (Function.update (s.piecewise a b) k (a k)) - F (s.piecewise a b))
        (F (s.piecewise a b) - F b)
      rw [sub_add_sub_cancel] at h2
      linarith
  have := key Finset.univ
  rwa [Finset.piecewise_univ] at this

/-- C52: if the values sample a function with Lipschitz constant `L k` in coordinate `k`, then
inside the grid the error is at most the sum over the axes of `L k` times the cell width. -/
theorem C52_accuracy (e : Evaluator) (he : e.Fits N) (fma : Bool) (G : Axes K N)
    (vals : List K) (hG : G.Valid 2 vals) (L : Fin N → K) (F : (Fin N → K) → K)
    (hF : ∀ y k z, |F (Function.update y k z) - F y| ≤ L k * |z - y k|)
    (hg : Samples G.size vals fun loc => F fun k => G.node k (loc k))
    (x : Fin N → K) (hx : G.Representable x)
    (hin : ∀ k, InRange (G.size k) (G.node k) (x k)) (c : Fin N → Nat)
    (hc : ∀ k, InCell (G.size k) (G.node k) (x k) (c k)) :
    ∃ y, multilinearAt e fma G vals x = .ok y ∧
      |y - F x| ≤ ∑ k, L k * (G.node k (c k + 1) - G.node k (c k)) := by
  have hL : ∀ k, 0 ≤ L k := fun k => by
    have h := (abs_nonneg _).trans (hF x k (x k + 1))
    rw [add_sub_cancel_left, abs_one, mul_one] at h
    exact h
  obtain ⟨y, hy, h1, h2⟩ := C22_range e he fma G vals hG _ hg x hx hin c hc
    (F x - ∑ k, L k * (G.node k (c k + 1) - G.node k (c k)))
    (F x + ∑ k, L k * (G.node k (c k + 1) - G.node k (c k))) (by
      intro loc hl
      have h1 := lipschitz_sum L F hF (fun k => G.node k (loc k)) x
      have h2 : ∑ k, L k * |G.node k (loc k) - x k| ≤
          ∑ k, L k * (G.node k (c k + 1) - G.node k (c k)) := by
        refine Finset.sum_le_sum fun k _ => mul_le_mul_of_nonneg_left ?_ (hL k)
        obtain ⟨ha, hb⟩ := inRange_of_inCell (hc k) (hin k)
        rw [abs_le]
        rcases hl k with h | h <;> rw [h] <;> constructor <;> linarith
      have h3 := abs_le.1 (h1.trans h2)
      constructor <;> linarith [h3.1, h3.2])
  exact ⟨y, hy, abs_le.2 ⟨by linarith, by linarith⟩⟩

end

section Examples

/-- C51 on data that increase along the first axis only; the second point is extrapolated. -/
example :
    let vals : List ℚ := [2, 1, 6, 1, 10, 3]
    exRegular.Valid 2 vals ∧
      (∀ loc : (k : Fin 2) → Fin (exRegular.size k), (loc 0).val + 1 < exRegular.size 0 →
        vals.getD (cIndex exRegular.size fun k => (loc k).val) 0 ≤
          vals.getD (cIndex exRegular.size
            (Function.update (fun k => (loc k).val) 0 ((loc 0).val + 1))) 0) ∧
      InRange (exRegular.size 1) (exRegular.node 1) 2 ∧
      exRegular.Representable ![1/2, 2] ∧ exRegular.Representable ![5, 2] ∧
      multilinearAt .flat false exRegular vals ![1/2, 2] = .ok (5/2) ∧
      multilinearAt .flat false exRegular vals ![5, 2] = .ok (31/2) := by
  refine ⟨valid_of_check ?_, ?_⟩ <;> decide +kernel

/-- C52 on samples of `|x - 1| + 2 |y - 2|`. -/
example :
    let F : (Fin 2 → ℚ) → ℚ := fun x => |x 0 - 1| + 2 * |x 1 - 2|
    let vals := exSample exRectilinear F
    exRectilinear.Valid 2 vals ∧
      (∀ y k z, |F (Function.update y k z) - F y| ≤ ![1, 2] k * |z - y k|) ∧
      Samples exRectilinear.size vals (fun loc => F fun k => exRectilinear.node k (loc k)) ∧
      (∀ k, InRange (exRectilinear.size k) (exRectilinear.node k) (![2, 2] k)) ∧
      (∀ k, InCell (exRectilinear.size k) (exRectilinear.node k) (![2, 2] k) (![1, 0] k)) ∧
      multilinearAt .flat false exRectilinear vals ![2, 2] = .ok 3 ∧ F ![2, 2] = 1 := by
  intro F vals
  refine ⟨valid_of_check ?_, ?_, samples_of_check ?_, ?_⟩
  · decide +kernel
  · intro y k z
    have key : ∀ a b u : ℚ, |(|a - u| - |b - u|)| ≤ |a - b| := fun a b u => by
      have := abs_abs_sub_abs_le_abs_sub (a - u) (b - u)
      rwa [sub_sub_sub_cancel_right] at this
    fin_cases k
    · simpa [F, Function.update] using key z (y 0) 1
    · have := key z (y 1) 2
      have h2 : F (Function.update y 1 z) - F y = 2 * (|z - 2| - |y 1 - 2|) := by
        simp [F, Function.update]; ring
      show |F (Function.update y 1 z) - F y| ≤ 2 * |z - y 1|
      rw [h2, abs_mul]
      simpa using this
  · decide +kernel
  · decide +kernel

end Examples

end Interpn
