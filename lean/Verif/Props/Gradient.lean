import Verif.Lemmas.Gradient
import Verif.Props.Lipschitz
import Verif.Props.Smooth
import Mathlib.Analysis.Calculus.Deriv.Slope
import Mathlib.Analysis.Calculus.Deriv.Pi

/-! C111: differences and derivatives of the interpolant approximate those of the sampled function.
Exact arithmetic over the reals, both grid kinds (`Axes`) and both implementations (`Evaluator`). -/

set_option autoImplicit false
set_option linter.unusedSectionVars false

namespace Interpn
open Set

section
variable {N : Nat}

theorem mem_update {R : Fin N → ℝ → Prop} {y : Fin N → ℝ} (hy : ∀ i, R i (y i)) {j : Fin N} {b : ℝ}
    (hb : R j b) (i : Fin N) : R i (Function.update y j b i) := by
  by_cases h : i = j
  · subst h; simpa using hb
  · simpa [h] using hy i

theorem SecondDerivLipschitz.diff {F : (Fin N → ℝ) → ℝ} {lo hi : Fin N → ℝ} {k j : Fin N} {L : ℝ}
    (h : SecondDerivLipschitz F lo hi k j L) (hk : k ≠ j) {y : Fin N → ℝ}
    (hy : ∀ i, y i ∈ Icc (lo i) (hi i)) {a b : ℝ} (ha : a ∈ Icc (lo j) (hi j))
    (hb : b ∈ Icc (lo j) (hi j)) :
    SecondDerivBounded (fun z => F (Function.update (Function.update y j b) k z) -
      F (Function.update (Function.update y j a) k z)) (lo k) (hi k) (L * |b - a|) := by
  obtain ⟨d1, d2, h⟩ := h
  refine ⟨fun z => d1 (Function.update (Function.update y j b) k z) -
      d1 (Function.update (Function.update y j a) k z),
    fun z => d2 (Function.update (Function.update y j b) k z) -
      d2 (Function.update (Function.update y j a) k z), fun z hz => ?_⟩
  have hmem : ∀ {b}, b ∈ Icc (lo j) (hi j) → ∀ i,
      Function.update (Function.update y j b) k z i ∈ Icc (lo i) (hi i) := fun hb =>
    mem_update (R := fun i v => v ∈ Icc (lo i) (hi i)) (mem_update (R := fun i v =>
      v ∈ Icc (lo i) (hi i)) hy hb) hz
  have h1 := h _ (hmem hb)
  have h2 := h _ (hmem ha)
  simp only [Function.update_idem, Function.update_self] at h1 h2
  refine ⟨h1.1.sub h2.1, h1.2.1.sub h2.2.1, ?_⟩
  have h3 := h2.2.2 b hb
  have e1 : Function.update (Function.update (Function.update y j a) k z) j b =
      Function.update (Function.update y j b) k z := by
    rw [Function.update_comm hk, Function.update_idem]
  rwa [e1, Function.update_of_ne hk.symm, Function.update_self] at h3

theorem ThirdDerivLipschitz.diff {F : (Fin N → ℝ) → ℝ} {lo hi : Fin N → ℝ} {k j : Fin N} {L : ℝ}
    (h : ThirdDerivLipschitz F lo hi k j L) (hk : k ≠ j) {y : Fin N → ℝ}
    (hy : ∀ i, y i ∈ Icc (lo i) (hi i)) {a b : ℝ} (ha : a ∈ Icc (lo j) (hi j))
    (hb : b ∈ Icc (lo j) (hi j)) :
    ThirdDerivBounded (fun z => F (Function.update (Function.update y j b) k z) -
      F (Function.update (Function.update y j a) k z)) (lo k) (hi k) (L * |b - a|) := by
  obtain ⟨d1, d2, d3, h⟩ := h
  refine ⟨fun z => d1 (Function.update (Function.update y j b) k z) -
      d1 (Function.update (Function.update y j a) k z),
    fun z => d2 (Function.update (Function.update y j b) k z) -
      d2 (Function.update (Function.update y j a) k z),
    fun z => d3 (Function.update (Function.update y j b) k z) -
      d3 (Function.update (Function.update y j a) k z), fun z hz => ?_⟩
  have hmem : ∀ {b}, b ∈ Icc (lo j) (hi j) → ∀ i,
      Function.update (Function.update y j b) k z i ∈ Icc (lo i) (hi i) := fun hb =>
    mem_update (R := fun i v => v ∈ Icc (lo i) (hi i)) (mem_update (R := fun i v =>
      v ∈ Icc (lo i) (hi i)) hy hb) hz
  have h1 := h _ (hmem hb)
  have h2 := h _ (hmem ha)
  simp only [Function.update_idem, Function.update_self] at h1 h2
  refine ⟨h1.1.sub h2.1, h1.2.1.sub h2.2.1, h1.2.2.1.sub h2.2.2.1, ?_⟩
  have h3 := h2.2.2.2 b hb
  have e1 : Function.update (Function.update (Function.update y j a) k z) j b =
      Function.update (Function.update y j b) k z := by
    rw [Function.update_comm hk, Function.update_idem]
  rwa [e1, Function.update_of_ne hk.symm, Function.update_self] at h3

/-- C111, multilinear: `M` bounds the second derivative of the sampled function in coordinate `j` and
`L k` the change of its second derivative in another coordinate `k` when coordinate `j` moves; cells on
axis `k` are at most `h k` wide. Then, inside the grid, the change of the result caused by moving
coordinate `j` differs from the change of the function by at most a first-order multiple of the
distance. -/
theorem C111_linear (e : Evaluator) (he : e.Fits N) (fma : Bool) (G : Axes ℝ N) (vals : List ℝ)
    (hG : G.Valid 2 vals) (F : (Fin N → ℝ) → ℝ) (j : Fin N) (M : ℝ) (L h : Fin N → ℝ)
    (hF : ∀ y, (∀ i, InRange (G.size i) (G.node i) (y i)) →
      SecondDerivBounded (fun z => F (Function.update y j z)) (G.node j 0)
        (G.node j (G.size j - 1)) M)
    (hL : ∀ k, k ≠ j → SecondDerivLipschitz F (fun i => G.node i 0)
      (fun i => G.node i (G.size i - 1)) k j (L k))
    (hg : Samples G.size vals fun loc => F fun k => G.node k (loc k))
    (hh : ∀ k i, i + 1 < G.size k → G.node k (i + 1) - G.node k i ≤ h k)
    (x : Fin N → ℝ) (hin : ∀ k, InRange (G.size k) (G.node k) (x k)) (z : ℝ)
    (hz : InRange (G.size j) (G.node j) z) :
    ∃ y y', multilinearAt e fma G vals x = .ok y ∧
      multilinearAt e fma G vals (Function.update x j z) = .ok y' ∧
      |y' - y - (F (Function.update x j z) - F x)| ≤
        (∑ k, if k = j then M / 2 * h j else L k / 8 * h k ^ 2) * |z - x j| := by
  have hin' : ∀ k, InRange (G.size k) (G.node k) (Function.update x j z k) :=
    mem_update (R := fun k v => InRange (G.size k) (G.node k) v) hin hz
  obtain ⟨c, hc⟩ := hG.cells le_rfl x
  obtain ⟨d, hd⟩ := exists_inCell (p := G.node j) (hG.big j) z
  refine ⟨_, _, multilinearAt_eq e he fma G vals hG _ hg x (hG.inRange_fits le_rfl hin _ (by decide))
      c hc,
    multilinearAt_eq e he fma G vals hG _ hg _ (hG.inRange_fits le_rfl hin' _ (by decide)) _
      (update_cells hc hd), ?_⟩
  have hnode : ∀ k i, i < G.size k → InRange (G.size k) (G.node k) (G.node k i) := fun k i h =>
    ⟨(hG.incr k).le (by omega) h, (hG.incr k).le (by omega) (by omega)⟩
  have hh0 : ∀ k, 0 ≤ h k := fun k =>
    (sub_pos.2 (hG.incr k _ (hc k).1)).le.trans (hh k _ (hc k).1)
  have hM : 0 ≤ M := by
    obtain ⟨_, _, h⟩ := hF x hin
    exact (abs_nonneg _).trans (h _ (hin j)).2.2
  have hL0 : ∀ k, k ≠ j → 0 ≤ L k := fun k hk => by
    have hw := sub_pos.2 (hG.incr j _ (hc j).1)
    obtain ⟨_, _, h⟩ := (hL k hk).diff hk hin (hnode j (c j) (by have := (hc j).1; omega))
      (hnode j (c j + 1) (hc j).1)
    have := (abs_nonneg _).trans (h _ (hin k)).2.2
    rw [abs_of_pos hw] at this
    exact nonneg_of_mul_nonneg_left this hw
  have key := axisByAxis_error_vary (Λ := (1 : ℝ)) (C := 1) le_rfl le_rfl G.size
    (fun k => InRange (G.size k) (G.node k))
    (fun k f => linPiece (G.node k) f (c k) (x k))
    (fun k f => linPiece (G.node k) f (Function.update c j d k) (Function.update x j z k))
    G.node x z F (fun k => if k = j then M / 2 * h j else L k / 8 * h k ^ 2) j
    (fun k => by
      have := hh0 k
      have := hh0 j
      split_ifs with hk
      · positivity
      · have := hL0 k hk
        positivity)
    (fun k => linPiece_linear (hc k).1)
    (fun k f f' ε hf => by
      rw [one_mul, ← linPiece_sub, abs_le]
      exact linPiece_between (hG.incr k) (hc k) (hin k)
        (abs_le.1 (hf _ (by have := (hc k).1; omega))) (abs_le.1 (hf _ (hc k).1)))
    (fun k hk => by simp [hk]) hnode hin hz
    (fun f f' B hB => by
      simp only [Function.update_self]
      rw [sub_sub_sub_comm, ← linPiece_sub, ← linPiece_sub, one_mul]
      have hS : ∀ i, i + 1 < G.size j → |(f (i + 1) - f' (i + 1)) - (f i - f' i)| ≤
          B * (G.node j (i + 1) - G.node j i) := fun i hi => by
        have := hB i hi
        rwa [abs_of_pos (sub_pos.2 (hG.incr j i hi))] at this
      rcases le_total (x j) z with hxz | hxz
      · rw [abs_of_nonneg (sub_nonneg.2 hxz)]
        exact linPiece_lipschitz (f := fun i => f i - f' i) (hG.incr j) hS (hc j) hd hxz
      · rw [abs_sub_comm, abs_sub_comm z, abs_of_nonneg (sub_nonneg.2 hxz)]
        exact linPiece_lipschitz (f := fun i => f i - f' i) (hG.incr j) hS hd (hc j) hxz)
    (fun y hy => by
      simp only [Function.update_self, if_true]
      exact linPiece_error_diff (hG.incr j) (hh j) (hF y hy) (hc j) hd (hin j) hz)
    (fun k hk y hy a b ha hb => by
      simp only [hk, if_false]
      have := linPiece_error (hG.incr k) (hc k) (hin k) ((hL k hk).diff hk hy ha hb)
      refine this.trans ?_
      have hw := sub_pos.2 (hG.incr k _ (hc k).1)
      have hsq := pow_le_pow_left₀ hw.le (hh k _ (hc k).1) 2
      have := mul_le_mul_of_nonneg_left hsq (show 0 ≤ L k * |b - a| / 8 by
        have := hL0 k hk
        positivity)
      linarith)
  simpa only [one_pow, one_mul, ite_self] using key

/-- C111, multicubic: with bounds on third derivatives the change of the result differs from the
change of the function by at most a second-order multiple of the distance. -/
theorem C111_cubic (e : Evaluator) (he : e.Fits N) (fma : Bool) (G : Axes ℝ N) (vals : List ℝ)
    (lin : Bool) (hG : G.Valid 4 vals) (F : (Fin N → ℝ) → ℝ) (j : Fin N) (M : ℝ) (L h : Fin N → ℝ)
    (hF : ∀ y, (∀ i, InRange (G.size i) (G.node i) (y i)) →
      ThirdDerivBounded (fun z => F (Function.update y j z)) (G.node j 0)
        (G.node j (G.size j - 1)) M)
    (hL : ∀ k, k ≠ j → ThirdDerivLipschitz F (fun i => G.node i 0)
      (fun i => G.node i (G.size i - 1)) k j (L k))
    (hg : Samples G.size vals fun loc => F fun k => G.node k (loc k))
    (hh : ∀ k i, i + 1 < G.size k → G.node k (i + 1) - G.node k i ≤ h k)
    (ρ : ℝ) (hρ : ∀ k, MeshRatio (G.size k) (G.node k) ρ)
    (x : Fin N → ℝ) (hin : ∀ k, InRange (G.size k) (G.node k) (x k)) (z : ℝ)
    (hz : InRange (G.size j) (G.node j) z) :
    ∃ y y', multicubicAt e fma G vals lin x = .ok y ∧
      multicubicAt e fma G vals lin (Function.update x j z) = .ok y' ∧
      |y' - y - (F (Function.update x j z) - F x)| ≤
        (1 + ρ ^ 2 / (2 * (1 + ρ))) ^ (N - 1) *
          (∑ k, if k = j then 37 / 6 * M * h j ^ 2 else
            3 * ((1 + 9 * (ρ ^ 2 / (4 * (1 + ρ)))) / 6 * (L k * h k ^ 3))) * |z - x j| := by
  have hin' : ∀ k, InRange (G.size k) (G.node k) (Function.update x j z k) :=
    mem_update (R := fun k v => InRange (G.size k) (G.node k) v) hin hz
  obtain ⟨c, hc⟩ := hG.cells (by omega) x
  have hρ0 : 0 < ρ := (hρ ⟨0, he.pos⟩).pos (hG.incr _) (hG.big _)
  obtain ⟨d, hd⟩ := exists_inCell (p := G.node j) (le_trans (by omega) (hG.big j)) z
  refine ⟨_, _, multicubicAt_eq e he fma G vals lin hG _ hg x
      (hG.inRange_fits (by omega) hin _ (by decide)) c hc,
    multicubicAt_eq e he fma G vals lin hG _ hg _ (hG.inRange_fits (by omega) hin' _ (by decide)) _
      (update_cells hc hd), ?_⟩
  have hnode : ∀ k i, i < G.size k → InRange (G.size k) (G.node k) (G.node k i) := fun k i h =>
    ⟨(hG.incr k).le (by omega) h, (hG.incr k).le (by omega) (by omega)⟩
  have near : ∀ {k y}, InRange (G.size k) (G.node k) y → NearRange (G.size k) (G.node k) 0 y :=
    fun hy => by unfold NearRange; simpa [InRange] using hy
  have hh0 : ∀ k, 0 ≤ h k := fun k =>
    (sub_pos.2 (hG.incr k _ (hc k).1)).le.trans (hh k _ (hc k).1)
  have hM : 0 ≤ M := by
    obtain ⟨_, _, _, h⟩ := hF x hin
    exact (abs_nonneg _).trans (h _ (hin j)).2.2.2
  have hL0 : ∀ k, k ≠ j → 0 ≤ L k := fun k hk => by
    have hw := sub_pos.2 (hG.incr j _ (hc j).1)
    obtain ⟨_, _, _, h⟩ := (hL k hk).diff hk hin (hnode j (c j) (by have := (hc j).1; omega))
      (hnode j (c j + 1) (hc j).1)
    have := (abs_nonneg _).trans (h _ (hin k)).2.2.2
    rw [abs_of_pos hw] at this
    exact nonneg_of_mul_nonneg_left this hw
  have key := axisByAxis_error_vary (Λ := 1 + ρ ^ 2 / (2 * (1 + ρ))) (C := 3) (by
      have : 0 ≤ ρ ^ 2 / (2 * (1 + ρ)) := by positivity
      linarith) (by norm_num) G.size
    (fun k => InRange (G.size k) (G.node k))
    (fun k f => cubicPiece (G.size k) (G.node k) f lin (c k) (x k))
    (fun k f => cubicPiece (G.size k) (G.node k) f lin (Function.update c j d k)
      (Function.update x j z k))
    G.node x z F (fun k => if k = j then 37 / 6 * M * h j ^ 2 else
      (1 + 9 * (ρ ^ 2 / (4 * (1 + ρ)))) / 6 * (L k * h k ^ 3)) j
    (fun k => by
      have := hh0 k
      have := hh0 j
      split_ifs with hk
      · positivity
      · have := hL0 k hk
        positivity)
    (fun k => cubicPiece_linear (hG.big k) lin (hc k).1)
    (fun k f f' ε hf => cubicPiece_lip (hG.incr k) (hG.big k) lin (hc k) (hin k) (hρ k)
      fun j hj => hf j hj.1)
    (fun k hk => by simp [hk]) hnode hin hz
    (fun f f' B hB => by
      simp only [Function.update_self]
      rw [sub_sub_sub_comm, ← cubicPiece_sub (hG.big j) lin hd.1,
        ← cubicPiece_sub (hG.big j) lin (hc j).1]
      have hS : ∀ i, i + 1 < G.size j → |(f (i + 1) - f' (i + 1)) - (f i - f' i)| ≤
          B * (G.node j (i + 1) - G.node j i) := fun i hi => by
        have := hB i hi
        rwa [abs_of_pos (sub_pos.2 (hG.incr j i hi))] at this
      have := cubicPiece_lip_x (f := fun i => f i - f' i) (hG.incr j) (hG.big j) lin le_rfl hS (hc j)
        hd (near (hin j)) (near hz)
      rwa [mul_zero, add_zero] at this)
    (fun y hy => by
      simp only [Function.update_self, if_true]
      exact cubicPiece_error_diff (hG.incr j) (hG.big j) lin (hρ j) (hh j) (hF y hy) (hc j) hd
        (hin j) hz)
    (fun k hk y hy a b ha hb => by
      simp only [hk, if_false]
      have := cubicPiece_error (hG.incr k) (hG.big k) lin (hc k) (hin k) (hρ k) (hh k)
        ((hL k hk).diff hk hy ha hb)
      exact this.trans (le_of_eq (by ring)))
  refine key.trans (le_of_eq ?_)
  congr 2
  refine Finset.sum_congr rfl fun k _ => ?_
  split_ifs <;> rfl

/-- A function that moves by at most `L` times the distance has a derivative of at most `L`. -/
theorem deriv_le_of_diff {f : ℝ → ℝ} {f' L x : ℝ} {s : Set ℝ} (hx : AccPt x (Filter.principal s))
    (hf : HasDerivWithinAt f f' s x) (h : ∀ z ∈ s, |f z - f x| ≤ L * |z - x|) : |f'| ≤ L := by
  have ht := (hasDerivWithinAt_iff_tendsto_slope.1 hf).abs
  have : (nhdsWithin x (s \ {x})).NeBot := by
    rw [accPt_principal_iff_nhdsWithin] at hx
    exact hx
  refine le_of_tendsto ht ?_
  filter_upwards [self_mem_nhdsWithin] with z hz
  have hzx : 0 < |z - x| := abs_pos.2 (sub_ne_zero.2 hz.2)
  rw [slope_def_field, abs_div, div_le_iff₀ hzx]
  exact h z hz.1

/-- C111, derivatives of the multilinear interpolant. `I` is the interpolant on the grid and `s` a set
of positions of coordinate `j` in the grid on which both functions have a derivative at `x j`, for
instance the points to the right of `x j`. -/
theorem C111_linear_deriv (e : Evaluator) (he : e.Fits N) (fma : Bool) (G : Axes ℝ N) (vals : List ℝ)
    (hG : G.Valid 2 vals) (F : (Fin N → ℝ) → ℝ) (j : Fin N) (M : ℝ) (L h : Fin N → ℝ)
    (hF : ∀ y, (∀ i, InRange (G.size i) (G.node i) (y i)) →
      SecondDerivBounded (fun z => F (Function.update y j z)) (G.node j 0)
        (G.node j (G.size j - 1)) M)
    (hL : ∀ k, k ≠ j → SecondDerivLipschitz F (fun i => G.node i 0)
      (fun i => G.node i (G.size i - 1)) k j (L k))
    (hg : Samples G.size vals fun loc => F fun k => G.node k (loc k))
    (hh : ∀ k i, i + 1 < G.size k → G.node k (i + 1) - G.node k i ≤ h k)
    (I : (Fin N → ℝ) → ℝ) (hI : ∀ x, (∀ k, InRange (G.size k) (G.node k) (x k)) →
      multilinearAt e fma G vals x = .ok (I x))
    (x : Fin N → ℝ) (hin : ∀ k, InRange (G.size k) (G.node k) (x k)) (s : Set ℝ)
    (hs : ∀ z ∈ s, InRange (G.size j) (G.node j) z) (hacc : AccPt (x j) (Filter.principal s))
    (dI dF : ℝ) (hdI : HasDerivWithinAt (fun z => I (Function.update x j z)) dI s (x j))
    (hdF : HasDerivWithinAt (fun z => F (Function.update x j z)) dF s (x j)) :
    |dI - dF| ≤ ∑ k, if k = j then M / 2 * h j else L k / 8 * h k ^ 2 := by
  refine deriv_le_of_diff hacc (hdI.sub hdF) fun z hz => ?_
  obtain ⟨y, y', h1, h2, h3⟩ := C111_linear e he fma G vals hG F j M L h hF hL hg hh x hin z (hs z hz)
  rw [hI x hin] at h1
  rw [hI _ (mem_update (R := fun k v => InRange (G.size k) (G.node k) v) hin (hs z hz))] at h2
  cases h1
  cases h2
  simp only [Pi.sub_apply, Function.update_eq_self]
  rwa [sub_sub_sub_comm]

/-- C111: the gradient of the multicubic interpolant. It is the restriction of one continuously
differentiable function, whose partial derivative in coordinate `j` differs from that of the sampled
function (one-sided at the ends of the axis) by at most a second-order term. -/
theorem C111_cubic_gradient (G : Axes ℝ N) (vals : List ℝ)
    (lin : Bool) (hG : G.Valid 4 vals) (F : (Fin N → ℝ) → ℝ) (j : Fin N) (M : ℝ) (L h : Fin N → ℝ)
    (hF : ∀ y, (∀ i, InRange (G.size i) (G.node i) (y i)) →
      ThirdDerivBounded (fun z => F (Function.update y j z)) (G.node j 0)
        (G.node j (G.size j - 1)) M)
    (hL : ∀ k, k ≠ j → ThirdDerivLipschitz F (fun i => G.node i 0)
      (fun i => G.node i (G.size i - 1)) k j (L k))
    (hg : Samples G.size vals fun loc => F fun k => G.node k (loc k))
    (hh : ∀ k i, i + 1 < G.size k → G.node k (i + 1) - G.node k i ≤ h k)
    (ρ : ℝ) (hρ : ∀ k, MeshRatio (G.size k) (G.node k) ρ) :
    ∃ I : (Fin N → ℝ) → ℝ, ContDiff ℝ 1 I ∧
      (∀ (e : Evaluator) (fma : Bool) (x : Fin N → ℝ), e.Fits N → G.RepresentableCubic x →
        multicubicAt e fma G vals lin x = .ok (I x)) ∧
      ∀ (e : Evaluator) (x : Fin N → ℝ) (dF : ℝ), e.Fits N →
        (∀ k, InRange (G.size k) (G.node k) (x k)) →
        HasDerivWithinAt (fun z => F (Function.update x j z)) dF
          (Icc (G.node j 0) (G.node j (G.size j - 1))) (x j) →
        |fderiv ℝ I x (Pi.single j 1) - dF| ≤
          (1 + ρ ^ 2 / (2 * (1 + ρ))) ^ (N - 1) *
            ∑ k, if k = j then 37 / 6 * M * h j ^ 2 else
              3 * ((1 + 9 * (ρ ^ 2 / (4 * (1 + ρ)))) / 6 * (L k * h k ^ 3)) := by
  obtain ⟨I, hI, hIe⟩ := C33_contDiff G vals lin hG
  refine ⟨I, hI, hIe, fun e x dF he hin hdF => ?_⟩
  have hlt : G.node j 0 < G.node j (G.size j - 1) := by
    have hb := hG.big j
    exact (hG.incr j 0 (by omega)).trans_le ((hG.incr j).le (by omega) (by omega))
  have hacc : AccPt (x j) (Filter.principal (Icc (G.node j 0) (G.node j (G.size j - 1)))) :=
    uniqueDiffWithinAt_iff_accPt.1 (uniqueDiffOn_Icc hlt _ (hin j))
  have hdI : HasDerivAt (fun z => I (Function.update x j z)) (fderiv ℝ I x (Pi.single j 1)) (x j) := by
    have h1 : HasFDerivAt I (fderiv ℝ I x) (Function.update x j (x j)) := by
      rw [Function.update_eq_self]
      exact (hI.differentiable one_ne_zero x).hasFDerivAt
    exact h1.comp_hasDerivAt (x j) (hasDerivAt_update x j (x j))
  refine deriv_le_of_diff hacc (hdI.hasDerivWithinAt.sub hdF) fun z hz => ?_
  obtain ⟨y, y', h1, h2, h3⟩ := C111_cubic e he false G vals lin hG F j M L h hF hL hg hh ρ hρ x hin z hz
  have hin' := mem_update (R := fun k v => InRange (G.size k) (G.node k) v) hin hz
  rw [hIe e false x he (hG.inRange_fits (by omega) hin _ (by decide))] at h1
  rw [hIe e false _ he (hG.inRange_fits (by omega) hin' _ (by decide))] at h2
  cases h1
  cases h2
  simp only [Pi.sub_apply, Function.update_eq_self]
  rwa [sub_sub_sub_comm]

end

section Examples

/-- C111 for `x² y` on a 3×2 grid, moving `y`: the second derivative in `y` is 0, and the one in `x`,
`2 y`, changes by twice the distance. -/
example :
    let G : Axes ℝ 2 := .rectilinear ![[0, 1, 4], [1, 3]]
    let F : (Fin 2 → ℝ) → ℝ := fun x => x 0 ^ 2 * x 1
    let vals : List ℝ := [0, 0, 1, 3, 16, 48]
    G.Valid 2 vals ∧ Samples G.size vals (fun loc => F fun k => G.node k (loc k)) ∧
      (∀ y, (∀ i, InRange (G.size i) (G.node i) (y i)) →
        SecondDerivBounded (fun z => F (Function.update y 1 z)) (G.node 1 0)
          (G.node 1 (G.size 1 - 1)) 0) ∧
      (∀ k, k ≠ 1 → SecondDerivLipschitz F (fun i => G.node i 0)
        (fun i => G.node i (G.size i - 1)) k 1 (![2, 0] k)) ∧
      (∀ k i, i + 1 < G.size k → G.node k (i + 1) - G.node k i ≤ ![3, 2] k) ∧
      (∀ k, InRange (G.size k) (G.node k) (![2, 2] k)) ∧ InRange (G.size 1) (G.node 1) 3 := by
  intro G F vals
  refine ⟨⟨by unfold IsSlice; simp [vals], by simp [G, Axes.size, vals], ?_, ?_⟩,
    ?_, ?_, ?_, ?_, ?_, ?_⟩
  · intro k; fin_cases k <;> simp [G, Axes.size]
  · intro k i hi
    fin_cases k <;> simp [G, Axes.size, Axes.node] at hi ⊢
    · have : i < 2 := by omega
      interval_cases i <;> norm_num
    · subst hi; norm_num
  · intro loc hl
    have h0 := hl 0
    have h1 := hl 1
    simp [G, Axes.size] at h0 h1
    obtain ⟨a, ha⟩ : ∃ a, loc 0 = a := ⟨_, rfl⟩
    obtain ⟨b, hb⟩ : ∃ b, loc 1 = b := ⟨_, rfl⟩
    have e1 : cIndex G.size loc = a * 2 + b := by
      simp [cIndex, G, Axes.size, ha, hb, Fin.last]
    simp only [e1, F, G, Axes.node, ha, hb]
    rw [ha] at h0
    rw [hb] at h1
    interval_cases a <;> interval_cases b <;> norm_num [vals]
  · intro y hy
    refine ⟨fun z => y 0 ^ 2, fun _ => 0, fun z _ => ⟨?_, ?_, ?_⟩⟩
    · have := ((hasDerivAt_id z).const_mul (y 0 ^ 2)).hasDerivWithinAt (s := Set.Icc (1 : ℝ) 3)
      refine (this.congr_deriv (by norm_num)).congr_of_eventuallyEq ?_ ?_ <;>
        simp [F, Function.update, Filter.EventuallyEq.refl]
    · exact hasDerivWithinAt_const _ _ _
    · simp
  · intro k hk
    obtain rfl : k = 0 := by omega
    refine ⟨fun y => 2 * y 0 * y 1, fun y => 2 * y 1, fun y _ => ⟨?_, ?_, ?_⟩⟩
    · have := ((hasDerivAt_pow 2 (y 0)).mul_const (y 1)).hasDerivWithinAt (s := Set.Icc (0 : ℝ) 4)
      refine (this.congr_deriv (by norm_num)).congr_of_eventuallyEq ?_ ?_ <;>
        simp [F, Function.update, Filter.EventuallyEq.refl]
    · have := (((hasDerivAt_id (y 0)).const_mul 2).mul_const (y 1)).hasDerivWithinAt
        (s := Set.Icc (0 : ℝ) 4)
      refine (this.congr_deriv (by norm_num)).congr_of_eventuallyEq ?_ ?_ <;>
        simp [Function.update, Filter.EventuallyEq.refl]
    · intro b _
      simp only [Function.update_self]
      rw [← mul_sub, abs_mul]
      norm_num
  · intro k i hi
    fin_cases k <;> simp [G, Axes.size, Axes.node] at hi ⊢
    · have : i < 2 := by omega
      interval_cases i <;> norm_num
    · subst hi; norm_num
  · intro k
    fin_cases k <;> norm_num [G, InRange, Axes.node, Axes.size]
  · norm_num [G, InRange, Axes.node, Axes.size]

/-- C111 for `x³ y` on a regular 4×4 grid, moving `y`: the third derivative in `y` is 0, and the one in
`x`, `6 y`, changes by six times the distance. -/
example :
    let G : Axes ℝ 2 := .regular ![4, 4] ![0, 1] ![1/2, 1]
    let F : (Fin 2 → ℝ) → ℝ := fun x => x 0 ^ 3 * x 1
    let vals : List ℝ := [0, 0, 0, 0, 1/8, 1/4, 3/8, 1/2, 1, 2, 3, 4, 27/8, 27/4, 81/8, 27/2]
    G.Valid 4 vals ∧ Samples G.size vals (fun loc => F fun k => G.node k (loc k)) ∧
      (∀ y, (∀ i, InRange (G.size i) (G.node i) (y i)) →
        ThirdDerivBounded (fun z => F (Function.update y 1 z)) (G.node 1 0)
          (G.node 1 (G.size 1 - 1)) 0) ∧
      (∀ k, k ≠ 1 → ThirdDerivLipschitz F (fun i => G.node i 0)
        (fun i => G.node i (G.size i - 1)) k 1 (![6, 0] k)) ∧
      (∀ k i, i + 1 < G.size k → G.node k (i + 1) - G.node k i ≤ ![1/2, 1] k) ∧
      (∀ k, MeshRatio (G.size k) (G.node k) 1) ∧
      (∀ k, InRange (G.size k) (G.node k) (![1/3, 2] k)) ∧ InRange (G.size 1) (G.node 1) 3 := by
  intro G F vals
  refine ⟨⟨by unfold IsSlice; simp [vals], by simp [G, Axes.size, vals], ?_, ?_⟩,
    ?_, ?_, ?_, ?_, meshRatio_regular _ _ _, ?_, ?_⟩
  · intro k; fin_cases k <;> simp [G, Axes.size]
  · intro k i hi
    fin_cases k <;> simp [G, Axes.node]
  · intro loc hl
    have h0 := hl 0
    have h1 := hl 1
    simp [G, Axes.size] at h0 h1
    obtain ⟨a, ha⟩ : ∃ a, loc 0 = a := ⟨_, rfl⟩
    obtain ⟨b, hb⟩ : ∃ b, loc 1 = b := ⟨_, rfl⟩
    have e1 : cIndex G.size loc = a * 4 + b := by
      simp [cIndex, G, Axes.size, ha, hb, Fin.last]
    simp only [e1, F, G, Axes.node, ha, hb]
    rw [ha] at h0
    rw [hb] at h1
    interval_cases a <;> interval_cases b <;> norm_num [vals]
  · intro y hy
    refine ⟨fun z => y 0 ^ 3, fun _ => 0, fun _ => 0, fun z _ => ⟨?_, ?_, ?_, ?_⟩⟩
    · have := ((hasDerivAt_id z).const_mul (y 0 ^ 3)).hasDerivWithinAt
        (s := Set.Icc (G.node 1 0) (G.node 1 (G.size 1 - 1)))
      refine (this.congr_deriv (by norm_num)).congr_of_eventuallyEq ?_ ?_ <;>
        simp [F, Function.update, Filter.EventuallyEq.refl]
    · exact hasDerivWithinAt_const _ _ _
    · exact hasDerivWithinAt_const _ _ _
    · simp
  · intro k hk
    obtain rfl : k = 0 := by omega
    refine ⟨fun y => 3 * y 0 ^ 2 * y 1, fun y => 6 * y 0 * y 1, fun y => 6 * y 1,
      fun y _ => ⟨?_, ?_, ?_, ?_⟩⟩
    · have := ((hasDerivAt_pow 3 (y 0)).mul_const (y 1)).hasDerivWithinAt
        (s := Set.Icc (G.node 0 0) (G.node 0 (G.size 0 - 1)))
      refine (this.congr_deriv (by norm_num)).congr_of_eventuallyEq ?_ ?_ <;>
        simp [F, Function.update, Filter.EventuallyEq.refl]
    · have := (((hasDerivAt_pow 2 (y 0)).const_mul 3).mul_const (y 1)).hasDerivWithinAt
        (s := Set.Icc (G.node 0 0) (G.node 0 (G.size 0 - 1)))
      refine (this.congr_deriv (by push_cast; ring)).congr_of_eventuallyEq ?_ ?_ <;>
        simp [Function.update, Filter.EventuallyEq.refl]
    · have := (((hasDerivAt_id (y 0)).const_mul 6).mul_const (y 1)).hasDerivWithinAt
        (s := Set.Icc (G.node 0 0) (G.node 0 (G.size 0 - 1)))
      refine (this.congr_deriv (by norm_num)).congr_of_eventuallyEq ?_ ?_ <;>
        simp [Function.update, Filter.EventuallyEq.refl]
    · intro b _
      simp only [Function.update_self]
      rw [← mul_sub, abs_mul]
      norm_num
  · intro k i hi
    fin_cases k <;> simp [G, Axes.node]
    linarith
  · intro k
    fin_cases k <;> norm_num [G, InRange, Axes.node, Axes.size]
  · norm_num [G, InRange, Axes.node, Axes.size]

end Examples

end Interpn
