import Verif.Lemmas.CubicLip
import Verif.Props.Lipschitz
import Verif.Props.Accuracy

/-! C96: multicubic interpolation depends on the observation in a Lipschitz way, inside the grid and
a given number of cells outside. -/

set_option autoImplicit false
set_option linter.unusedSectionVars false

namespace Interpn

section
variable {K : Type} [Field K] [LinearOrder K] [IsStrictOrderedRing K] [FloorRing K] {N : Nat}

/-- Amplification of differences by axis rules that amplify by at most `Λ` each. -/
theorem axisByAxis_amplify {Λ : K} (hΛ : 0 ≤ Λ) :
    ∀ {N : Nat} (P : Fin N → Nat → Prop) (op : Fin N → (Nat → K) → K) (g g' : (Fin N → Nat) → K) (ε : K)
    (_ : ∀ k f f' ε, (∀ i, P k i → |f i - f' i| ≤ ε) → |op k f - op k f'| ≤ Λ * ε)
    (_ : ∀ loc : Fin N → Nat, (∀ k, P k (loc k)) → |g loc - g' loc| ≤ ε),
    |axisByAxis op g - axisByAxis op g'| ≤ Λ ^ N * ε
  | 0, _, _, g, g', ε, _, hg => by
    rw [axisByAxis, axisByAxis, pow_zero, one_mul]
    exact hg _ fun k => k.elim0
  | N + 1, P, op, g, g', ε, h1, hg => by
    rw [axisByAxis, axisByAxis, pow_succ', mul_assoc]
    refine h1 (Fin.last N) _ _ _ fun i hi => ?_
    refine axisByAxis_amplify hΛ (fun k : Fin N => P k.castSucc) (fun k => op k.castSucc) _ _ ε
      (fun k => h1 k.castSucc) fun loc hl => hg _ fun k => ?_
    refine Fin.lastCases ?_ (fun k => ?_) k
    · rw [Fin.snoc_last]; exact hi
    · rw [Fin.snoc_castSucc]; exact hl k

/-- Replacing the rule of one axis `j`, where the two rules differ by at most `C` times the slopes of
the data. -/
theorem axisByAxis_vary {Λ C : K} (hΛ : 0 ≤ Λ) (hC : 0 ≤ C) :
    ∀ {N : Nat} (n : Fin N → Nat) (op op' : Fin N → (Nat → K) → K) (j : Fin N) (w : Nat → K)
    (g : (Fin N → Nat) → K) (B : K)
    (_ : ∀ k f f' ε, (∀ i, i < n k → |f i - f' i| ≤ ε) → |op k f - op k f'| ≤ Λ * ε)
    (_ : ∀ k, k ≠ j → op' k = op k)
    (_ : ∀ f B, (∀ i, i + 1 < n j → |f (i + 1) - f i| ≤ B * w i) → |op' j f - op j f| ≤ C * B)
    (_ : ∀ loc : Fin N → Nat, (∀ k, loc k < n k) → loc j + 1 < n j →
      |g (Function.update loc j (loc j + 1)) - g loc| ≤ B * w (loc j)),
    |axisByAxis op' g - axisByAxis op g| ≤ C * (Λ ^ (N - 1) * B)
  | 0, _, _, _, j, _, _, _, _, _, _, _ => j.elim0
  | N + 1, n, op, op', j, w, g, B, h1, hsame, hj, hg => by
    rw [axisByAxis, axisByAxis, Nat.add_sub_cancel]
    refine Fin.lastCases (motive := fun j => (∀ k, k ≠ j → op' k = op k) →
      (∀ f B, (∀ i, i + 1 < n j → |f (i + 1) - f i| ≤ B * w i) → |op' j f - op j f| ≤ C * B) →
      (∀ loc : Fin (N + 1) → Nat, (∀ k, loc k < n k) → loc j + 1 < n j →
        |g (Function.update loc j (loc j + 1)) - g loc| ≤ B * w (loc j)) → _)
      (fun hsame hj hg => ?_) (fun j hsame hj hg => ?_) j hsame hj hg
    · have e : (fun k : Fin N => op' k.castSucc) = fun k => op k.castSucc :=
        funext fun k => hsame _ (Fin.castSucc_lt_last k).ne
      rw [e]
      refine hj _ _ fun i hi => ?_
      have := axisByAxis_amplify hΛ (fun (k : Fin N) i => i < n k.castSucc) (fun k => op k.castSucc)
        (fun loc => g (Fin.snoc (α := fun _ => Nat) loc (i + 1)))
        (fun loc => g (Fin.snoc (α := fun _ => Nat) loc i)) (B * w i) (fun k => h1 k.castSucc)
        (fun loc hl => by
          have := hg (Fin.snoc (α := fun _ => Nat) loc i) (fun k => by
            refine Fin.lastCases ?_ (fun k => ?_) k
            · rw [Fin.snoc_last]; omega
            · rw [Fin.snoc_castSucc]; exact hl k) (by rw [Fin.snoc_last]; exact hi)
          rwa [Fin.snoc_last, Fin.update_snoc_last] at this)
      rwa [mul_assoc]
    · rw [hsame (Fin.last N) (Fin.castSucc_lt_last j).ne']
      obtain ⟨M, rfl⟩ : ∃ M, N = M + 1 := ⟨N - 1, by have := j.isLt; omega⟩
      refine (h1 (Fin.last (M + 1)) _ _ (C * (Λ ^ M * B)) fun i hi => ?_).trans (le_of_eq (by ring))
      have := axisByAxis_vary hΛ hC (fun k : Fin (M + 1) => n k.castSucc) (fun k => op k.castSucc)
        (fun k => op' k.castSucc) j w (fun loc => g (Fin.snoc (α := fun _ => Nat) loc i)) B
        (fun k => h1 k.castSucc) (fun k hk => hsame _ fun h => hk (Fin.castSucc_injective _ h)) hj
        (fun loc hl hlj => by
          have := hg (Fin.snoc (α := fun _ => Nat) loc i) (fun k => by
            refine Fin.lastCases ?_ (fun k => ?_) k
            · rw [Fin.snoc_last]; exact hi
            · rw [Fin.snoc_castSucc]; exact hl k) (by rw [Fin.snoc_castSucc]; exact hlj)
          rwa [Fin.snoc_castSucc, ← Fin.snoc_update] at this)
      rwa [Nat.add_sub_cancel] at this

/-- C96: moving the observation along axis `j`, with all coordinates within `lam` cells of the grid.
`S` bounds the slopes of the data along the axis and `ρ` the ratio of adjacent cells; inside the grid
`lam` is 0 and the factor is `3 (1 + ρ²/(2 (1 + ρ)))^(N-1)`. -/
theorem C96_axis (e : Evaluator) (he : e.Fits N) (fma : Bool) (G : Axes K N)
    (vals : List K) (lin : Bool) (hG : G.Valid 4 vals) (g : (Fin N → Nat) → K)
    (hg : Samples G.size vals g) (j : Fin N) (S : K) (hS : SlopesBounded G g j S)
    (ρ : K) (hρ1 : 1 ≤ ρ) (hρ : ∀ k, MeshRatio (G.size k) (G.node k) ρ) (lam : K) (hlam : 0 ≤ lam)
    (x : Fin N → K) (z : K) (hin : ∀ k, NearRange (G.size k) (G.node k) lam (x k))
    (hz : NearRange (G.size j) (G.node j) lam z)
    (hx : G.RepresentableCubic x) (hxz : G.RepresentableCubic (Function.update x j z)) :
    ∃ y y', multicubicAt e fma G vals lin x = .ok y ∧
      multicubicAt e fma G vals lin (Function.update x j z) = .ok y' ∧
      |y' - y| ≤ (3 + 4 * lam) *
        (1 + ρ ^ 2 / (2 * (1 + ρ)) + 8 * ρ * (lam * (1 + lam))) ^ (N - 1) * S * |z - x j| := by
  obtain ⟨c, hc⟩ := hG.cells (by omega) x
  obtain ⟨d, hd⟩ := exists_inCell (p := G.node j) (le_trans (by omega) (hG.big j)) z
  refine ⟨_, _, multicubicAt_eq e he fma G vals lin hG g hg x hx c hc,
    multicubicAt_eq e he fma G vals lin hG g hg _ hxz _ (update_cells hc hd), ?_⟩
  have hn := hG.big j
  have := axisByAxis_vary (Λ := 1 + ρ ^ 2 / (2 * (1 + ρ)) + 8 * ρ * (lam * (1 + lam)))
    (C := (3 + 4 * lam) * |z - x j|) (by positivity) (by positivity) G.size
    (fun k f => cubicPiece (G.size k) (G.node k) f lin (c k) (x k))
    (fun k f => cubicPiece (G.size k) (G.node k) f lin (Function.update c j d k)
      (Function.update x j z k)) j (fun i => G.node j (i + 1) - G.node j i) g S
    (fun k f f' ε hf => cubicPiece_lip_near (hG.incr k) (hG.big k) lin (hc k) hlam (hin k) hρ1 (hρ k)
      fun i hi => hf i hi.1)
    (fun k hk => by simp [hk])
    (fun f B hB => by
      simp only [Function.update_self]
      refine (cubicPiece_lip_x (hG.incr j) (hG.big j) lin hlam hB (hc j) hd (hin j) hz).trans
        (le_of_eq (by ring)))
    hS
  refine this.trans (le_of_eq (by ring))

/-- C96: all coordinates may move. -/
theorem C96_all_axes (e : Evaluator) (he : e.Fits N) (fma : Bool) (G : Axes K N)
    (vals : List K) (lin : Bool) (hG : G.Valid 4 vals) (g : (Fin N → Nat) → K)
    (hg : Samples G.size vals g) (S : Fin N → K) (hS : ∀ j, SlopesBounded G g j (S j))
    (ρ : K) (hρ1 : 1 ≤ ρ) (hρ : ∀ k, MeshRatio (G.size k) (G.node k) ρ) (lam : K) (hlam : 0 ≤ lam)
    (x x' : Fin N → K) (hin : ∀ k, NearRange (G.size k) (G.node k) lam (x k))
    (hin' : ∀ k, NearRange (G.size k) (G.node k) lam (x' k))
    (hx : G.RepresentableCubic x) (hx' : G.RepresentableCubic x') :
    ∃ y y', multicubicAt e fma G vals lin x = .ok y ∧ multicubicAt e fma G vals lin x' = .ok y' ∧
      |y' - y| ≤ (3 + 4 * lam) *
        (1 + ρ ^ 2 / (2 * (1 + ρ)) + 8 * ρ * (lam * (1 + lam))) ^ (N - 1) *
          ∑ k, S k * |x' k - x k| := by
  set P : Fin N → K → Prop := fun k v => NearRange (G.size k) (G.node k) lam v ∧
    ∃ y, G.RepresentableCubic y ∧ y k = v with hP
  have hfit : ∀ y : Fin N → K, (∀ k, P k (y k)) → G.RepresentableCubic y := by
    intro y hy
    cases G with
    | rectilinear grids => trivial
    | regular dims starts steps =>
      intro k
      obtain ⟨-, y', h1, h2⟩ := hy k
      have := h1 k
      rwa [h2] at this
  have hval : ∀ x : Fin N → K, ∃ y, (∀ k, P k (x k)) → multicubicAt e fma G vals lin x = .ok y := by
    intro x
    by_cases h : ∀ k, P k (x k)
    · obtain ⟨c, hc⟩ := hG.cells (by omega) x
      exact ⟨_, fun _ => multicubicAt_eq e he fma G vals lin hG g hg x (hfit x h) c hc⟩
    · exact ⟨0, fun h' => absurd h' h⟩
  choose F hF using hval
  have hPx : ∀ k, P k (x k) := fun k => ⟨hin k, x, hx, rfl⟩
  have hPx' : ∀ k, P k (x' k) := fun k => ⟨hin' k, x', hx', rfl⟩
  refine ⟨F x, F x', hF x hPx, hF x' hPx', ?_⟩
  set Q := (3 + 4 * lam) * (1 + ρ ^ 2 / (2 * (1 + ρ)) + 8 * ρ * (lam * (1 + lam))) ^ (N - 1) with hQ
  refine (lipschitz_sum_on P (fun k => Q * S k) F ?_ x' x hPx' hPx).trans (le_of_eq ?_)
  · intro y k z hy hz
    have hyz : ∀ k', P k' (Function.update y k z k') := by
      intro k'
      by_cases h : k' = k
      · subst h; simpa using hz
      · simpa [h] using hy k'
    obtain ⟨u, v, hu, hv, huv⟩ := C96_axis e he fma G vals lin hG g hg k (S k) (hS k) ρ hρ1 hρ lam
      hlam y z (fun k => (hy k).1) hz.1 (hfit y hy) (hfit _ hyz)
    rw [hF y hy] at hu
    rw [hF _ hyz] at hv
    cases hu
    cases hv
    exact huv
  · rw [Finset.mul_sum]
    exact Finset.sum_congr rfl fun k _ => by ring

end

section Examples

/-- C96 on a table with slopes at most 20 along axis 0 and at most 19 along axis 1, mesh ratio 4; the
second observation is a quarter of a cell outside the grid on axis 0. -/
example :
    let vals := exSample exRectilinear4 fun v => v 0 * v 0 + v 0 * v 1 + v 1 * v 1
    exRectilinear4.Valid 4 vals ∧
      Samples exRectilinear4.size vals (valAt 0 exRectilinear4.size vals) ∧
      (∀ k, MeshRatio (exRectilinear4.size k) (exRectilinear4.node k) 4) ∧
      (∀ loc : (k : Fin 2) → Fin (exRectilinear4.size k), ∀ j : Fin 2,
        (loc j).val + 1 < exRectilinear4.size j →
        |valAt 0 exRectilinear4.size vals (Function.update (fun k => (loc k).val) j ((loc j).val + 1)) -
          valAt 0 exRectilinear4.size vals (fun k => (loc k).val)| ≤
          ![20, 19] j * (exRectilinear4.node j ((loc j).val + 1) - exRectilinear4.node j (loc j).val)) ∧
      (∀ k, NearRange (exRectilinear4.size k) (exRectilinear4.node k) (1/4) (![5/2, 2] k)) ∧
      (∀ k, NearRange (exRectilinear4.size k) (exRectilinear4.node k) (1/4) (![-1/4, 5] k)) ∧
      exRectilinear4.RepresentableCubic ![5/2, 2] ∧ exRectilinear4.RepresentableCubic ![-1/4, 5] := by
  refine ⟨valid_of_check ?_, samples_of_check ?_, fun k => meshRatio_of_check ?_, ?_, ?_, ?_, trivial,
    trivial⟩
  · decide +kernel
  · decide +kernel
  · revert k; decide +kernel
  · decide +kernel
  · unfold NearRange; decide +kernel
  · unfold NearRange; decide +kernel

end Examples

end Interpn
