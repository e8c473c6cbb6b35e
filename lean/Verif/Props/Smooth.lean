import Verif.Lemmas.Smooth
import Verif.Lemmas.ExampleGrids
import Verif.Props.OneDimExact

/-! C23, C33: continuity and differentiability of the interpolants over the reals.
C34, C35: shape of the 1-D cubic interpolant. -/

set_option autoImplicit false
set_option linter.unusedSectionVars false

namespace Interpn

section
variable {N : Nat}

/-- C23: over the reals the multilinear interpolant is (the restriction to the observations that
can be evaluated of) one continuous function, the same for both evaluators and fma settings. -/
theorem C23_continuous (G : Axes ℝ N) (vals : List ℝ) (hG : G.Valid 2 vals) :
    ∃ F : (Fin N → ℝ) → ℝ, Continuous F ∧
      ∀ (e : Evaluator) (fma : Bool) (x : Fin N → ℝ), e.Fits N → G.Representable x →
        multilinearAt e fma G vals x = .ok (F x) := by
  have hg := samples_valAt (0 : ℝ) _ _ hG.len
  refine ⟨fun x => ∑ loc ∈ Fintype.piFinset fun k => Finset.range (G.size k),
    (∏ k, linFn (G.size k) (G.node k) (fun j => if j = loc k then 1 else 0) (x k)) *
      valAt (0 : ℝ) G.size vals loc, ?_, ?_⟩
  · refine continuous_finsetSum _ fun loc _ => Continuous.mul ?_ continuous_const
    exact continuous_finsetProd _ fun k _ =>
      (continuous_linFn (hG.big k) (hG.incr k)).comp (continuous_apply k)
  · intro e fma x he hx
    obtain ⟨c, hc⟩ := hG.cells le_rfl x
    rw [multilinearAt_eq e he fma G vals hG _ hg x hx c hc,
      axisByAxis_linear (n := G.size) _ fun k => linPiece_linear (hc k).1]
    simp only [linFn_eq (hG.incr _) (hc _)]

/-- C33: over the reals the multicubic interpolant is (the restriction of) one continuously
differentiable function on the whole space, the same for both evaluators and fma settings. -/
theorem C33_contDiff (G : Axes ℝ N) (vals : List ℝ) (lin : Bool) (hG : G.Valid 4 vals) :
    ∃ F : (Fin N → ℝ) → ℝ, ContDiff ℝ 1 F ∧
      ∀ (e : Evaluator) (fma : Bool) (x : Fin N → ℝ), e.Fits N → G.RepresentableCubic x →
        multicubicAt e fma G vals lin x = .ok (F x) := by
  have hg := samples_valAt (0 : ℝ) _ _ hG.len
  refine ⟨fun x => ∑ loc ∈ Fintype.piFinset fun k => Finset.range (G.size k),
    (∏ k, cubicFn (G.size k) (G.node k) (fun j => if j = loc k then 1 else 0) lin (x k)) *
      valAt (0 : ℝ) G.size vals loc, ?_, ?_⟩
  · refine ContDiff.sum fun loc _ => ContDiff.mul ?_ contDiff_const
    exact contDiff_prod fun k _ =>
      (contDiff_cubicFn (by have := hG.big k; omega) (hG.incr k) lin).comp (contDiff_apply ℝ ℝ k)
  · intro e fma x he hx
    obtain ⟨c, hc⟩ := hG.cells (by omega) x
    rw [multicubicAt_eq e he fma G vals lin hG _ hg x hx c hc,
      axisByAxis_linear (n := G.size) _ fun k => cubicPiece_linear (hG.big k) lin (hc k).1]
    simp only [cubicFn_eq (hG.incr _) lin (hc _)]

end

section
variable {K : Type} [Field K] [LinearOrder K] [IsStrictOrderedRing K] [FloorRing K]

theorem Axes.Valid.mono {N : Nat} {G : Axes K N} {vals : List K} {m m' : Nat} (h : G.Valid m vals)
    (hm : m' ≤ m) : G.Valid m' vals := ⟨h.slice, h.len, fun k => hm.trans (h.big k), h.increasing⟩

theorem multicubicAt_one (e : Evaluator) (he : e.Fits 1) (fma : Bool) {G : Axes K 1}
    {vals : List K} (lin : Bool) (hG : G.Valid 4 vals) (x : K)
    (hx : G.RepresentableCubic fun _ => x) {c : Nat} (hc : InCell (G.size 0) (G.node 0) x c) :
    multicubicAt e fma G vals lin (fun _ => x) =
      .ok (cubicPiece (G.size 0) (G.node 0) (fun i => vals.getD i 0) lin c x) := by
  rw [multicubicAt_eq e he fma _ _ lin hG _ (getD_samples (hG.mono (by omega))) _ hx (fun _ => c)
    (fun j => by rw [Fin.fin_one_eq_zero j]; exact hc),
    axisByAxis_one _ fun i => vals.getD i 0]

/-- Weighted mean of the slopes on both sides of interior node `i`, each weighted with the width of
the opposite interval: the second-order centered difference for unevenly spaced nodes `p` with
values `v`. -/
def centeredSlope (p v : Nat → K) (i : Nat) : K :=
  ((p i - p (i - 1)) * ((v (i + 1) - v i) / (p (i + 1) - p i)) +
    (p (i + 1) - p i) * ((v i - v (i - 1)) / (p i - p (i - 1)))) / (p (i + 1) - p (i - 1))

theorem nodeSlope_centered {n : Nat} {p v : Nat → K} {i : Nat} (h0 : 1 ≤ i) (h1 : i + 1 < n) :
    nodeSlope n p v i = centeredSlope p v i := by
  obtain ⟨j, rfl⟩ : ∃ j, i = j + 1 := ⟨i - 1, by omega⟩
  rw [nodeSlope_inner (by omega)]
  rfl

/-- On evenly spaced nodes `centeredSlope` is the usual `(v (i + 1) - v (i - 1)) / (2 h)`. -/
theorem C35_uniform (start step : K) (hs : 0 < step) (v : Nat → K) (i : Nat) (h0 : 1 ≤ i) :
    centeredSlope (fun i => start + step * i) v i = (v (i + 1) - v (i - 1)) / (2 * step) := by
  obtain ⟨j, rfl⟩ : ∃ j, i = j + 1 := ⟨i - 1, by omega⟩
  unfold centeredSlope
  simp only [Nat.add_sub_cancel]
  have h1 : start + step * ((j + 1 + 1 : Nat) : K) - (start + step * ((j + 1 : Nat) : K)) = step := by
    push_cast; ring
  have h2 : start + step * ((j + 1 : Nat) : K) - (start + step * (j : K)) = step := by
    push_cast; ring
  have h3 : start + step * ((j + 1 + 1 : Nat) : K) - (start + step * (j : K)) = 2 * step := by
    push_cast; ring
  rw [h1, h2, h3]
  field_simp
  ring

theorem hermiteCubic_cubic {a b : K} (h : a < b) {c0 c1 c2 c3 y0 y1 m0 m1 : K}
    (h0 : c0 + c1 * a + c2 * a ^ 2 + c3 * a ^ 3 = y0) (h1 : c0 + c1 * b + c2 * b ^ 2 + c3 * b ^ 3 = y1)
    (h2 : c1 + 2 * c2 * a + 3 * c3 * a ^ 2 = m0) (h3 : c1 + 2 * c2 * b + 3 * c3 * b ^ 2 = m1) (x : K) :
    hermiteCubic a b y0 y1 m0 m1 x = c0 + c1 * x + c2 * x ^ 2 + c3 * x ^ 3 := by
  have hd : b - a ≠ 0 := (sub_pos.2 h).ne'
  subst h0 h1 h2 h3
  simp only [hermiteCubic]
  field_simp
  ring

/-- C35: on every interior cell the interpolant is the cubic that matches the end values and has
the centered differences as slopes at both ends: it equals every such cubic, and there is one. -/
theorem C35_cell (G : Axes K 1) (vals : List K) (hG : G.Valid 4 vals) (i : Nat) (h0 : 1 ≤ i)
    (h1 : i + 2 < G.size 0) :
    let p := G.node 0
    let v := fun i => vals.getD i 0
    let Matches := fun c0 c1 c2 c3 : K =>
      (∀ j, j = i ∨ j = i + 1 → c0 + c1 * p j + c2 * p j ^ 2 + c3 * p j ^ 3 = v j) ∧
      (∀ j, j = i ∨ j = i + 1 → c1 + 2 * c2 * p j + 3 * c3 * p j ^ 2 = centeredSlope p v j)
    (∃ c0 c1 c2 c3, Matches c0 c1 c2 c3) ∧
    ∀ c0 c1 c2 c3, Matches c0 c1 c2 c3 →
      ∀ (e : Evaluator) (fma lin : Bool) (x : K), e.Fits 1 → (G.RepresentableCubic fun _ => x) →
        p i ≤ x → x ≤ p (i + 1) →
        multicubicAt e fma G vals lin (fun _ => x) =
          .ok (c0 + c1 * x + c2 * x ^ 2 + c3 * x ^ 3) := by
  intro p v Matches
  have hi := hG.incr 0
  have hlt : p i < p (i + 1) := hi i (by omega)
  have hd : p (i + 1) - p i ≠ 0 := (sub_pos.2 hlt).ne'
  constructor
  · -- explicit coefficients, in powers of `z - p i` and then expanded
    let h := p (i + 1) - p i
    let s := (v (i + 1) - v i) / h
    let m0 := centeredSlope p v i
    let m1 := centeredSlope p v (i + 1)
    let q2 := (3 * s - 2 * m0 - m1) / h
    let q3 := (m0 + m1 - 2 * s) / h ^ 2
    have e0 : ∀ z, (v i - m0 * p i + q2 * p i ^ 2 - q3 * p i ^ 3) +
        (m0 - 2 * q2 * p i + 3 * q3 * p i ^ 2) * z + (q2 - 3 * q3 * p i) * z ^ 2 + q3 * z ^ 3 =
        v i + m0 * (z - p i) + q2 * (z - p i) ^ 2 + q3 * (z - p i) ^ 3 := fun z => by ring
    have e1 : ∀ z, (m0 - 2 * q2 * p i + 3 * q3 * p i ^ 2) + 2 * (q2 - 3 * q3 * p i) * z +
        3 * q3 * z ^ 2 = m0 + 2 * q2 * (z - p i) + 3 * q3 * (z - p i) ^ 2 := fun z => by ring
    refine ⟨_, _, _, _, fun j hj => (e0 (p j)).trans ?_, fun j hj => (e1 (p j)).trans ?_⟩
    · rcases hj with rfl | rfl
      · ring
      · simp only [q2, q3, s, h]; field_simp; ring
    · rcases hj with rfl | rfl
      · ring
      · show _ = m1
        simp only [q2, q3, s, h]; field_simp; ring
  · intro c0 c1 c2 c3 ⟨hv, hm⟩ e fma lin x he hx hx0 hx1
    have hc : InCell (G.size 0) (G.node 0) x i := ⟨by omega, Or.inr hx0, Or.inr hx1⟩
    rw [multicubicAt_one e he fma lin hG x hx hc]
    have h00 : ¬ x < p 0 := not_lt.2 ((hi.le (by omega) (by omega)).trans hx0)
    have h11 : ¬ p (G.size 0 - 1) < x := not_lt.2 (hx1.trans (hi.le (by omega) (by omega)))
    unfold cubicPiece
    rw [if_neg (fun h => h00 h.2), if_neg (fun h => h11 h.2), nodeSlope_centered h0 (by omega),
      nodeSlope_centered (by omega) (by omega)]
    congr 1
    exact hermiteCubic_cubic hlt (hv i (Or.inl rfl)) (hv _ (Or.inr rfl)) (hm i (Or.inl rfl))
      (hm _ (Or.inr rfl)) x

/-- C34: in the first cell the interpolant is a quadratic: the one through the two end values whose
slope at the inner node is the centered difference. Without linearised extrapolation it continues
below the grid; with it this holds from the first node on. -/
theorem C34_first_cell (G : Axes K 1) (vals : List K) (hG : G.Valid 4 vals) :
    let p := G.node 0
    let v := fun i => vals.getD i 0
    ∃ c0 c1 c2 : K, c0 + c1 * p 0 + c2 * p 0 ^ 2 = v 0 ∧ c0 + c1 * p 1 + c2 * p 1 ^ 2 = v 1 ∧
      c1 + 2 * c2 * p 1 = centeredSlope p v 1 ∧
      ∀ (e : Evaluator) (fma lin : Bool) (x : K), e.Fits 1 → (G.RepresentableCubic fun _ => x) →
        x ≤ p 1 → (lin = true → p 0 ≤ x) →
        multicubicAt e fma G vals lin (fun _ => x) = .ok (c0 + c1 * x + c2 * x ^ 2) := by
  intro p v
  have hn := hG.big 0
  have hi := hG.incr 0
  have hlt : p 0 < p 1 := hi 0 (by omega)
  have hd : p 1 - p 0 ≠ 0 := (sub_pos.2 hlt).ne'
  let s := (v 1 - v 0) / (p 1 - p 0)
  let m := centeredSlope p v 1
  let q2 := (m - s) / (p 1 - p 0)
  have hs : s * (p 1 - p 0) = v 1 - v 0 := div_mul_cancel₀ _ hd
  have hq : q2 * (p 1 - p 0) = m - s := div_mul_cancel₀ _ hd
  have e0 : ∀ z, (v 1 - m * p 1 + q2 * p 1 ^ 2) + (m - 2 * q2 * p 1) * z + q2 * z ^ 2 =
      v 1 + m * (z - p 1) + q2 * (z - p 1) ^ 2 := fun z => by ring
  have h0 : v 1 + m * (p 0 - p 1) + q2 * (p 0 - p 1) ^ 2 = v 0 := by
    linear_combination (p 1 - p 0) * hq - hs
  refine ⟨_, _, q2, (e0 (p 0)).trans h0, (e0 (p 1)).trans (by ring), by ring, ?_⟩
  intro e fma lin x he hx hx1 hlin
  have hc : InCell (G.size 0) (G.node 0) x 0 := ⟨by omega, Or.inl rfl, Or.inr hx1⟩
  rw [multicubicAt_one e he fma lin hG x hx hc]
  have h11 : ¬ p (G.size 0 - 1) < x := not_lt.2 (hx1.trans (hi.le (by omega) (by omega)))
  unfold cubicPiece
  rw [if_neg (fun h => absurd h.2 (not_lt.2 (hlin h.1))), if_neg (fun h => h11 h.2),
    nodeSlope_first (by omega), nodeSlope_centered (i := 0 + 1) (by omega) (by omega)]
  congr 1
  have := hermiteCubic_cubic (a := p 0) (b := p (0 + 1)) hlt (c0 := v 1 - m * p 1 + q2 * p 1 ^ 2)
    (c1 := m - 2 * q2 * p 1) (c2 := q2) (c3 := 0) (y0 := v 0) (y1 := v (0 + 1))
    (m0 := 2 * s - m) (m1 := m) (by rw [zero_mul, add_zero]; exact (e0 (p 0)).trans h0)
    (by rw [zero_mul, add_zero]; exact (e0 (p 1)).trans (by ring))
    (by linear_combination (-2 : K) * hq) (by rw [zero_add]; ring) x
  rw [zero_mul, add_zero] at this
  exact this

/-- C34: likewise in the last cell. -/
theorem C34_last_cell (G : Axes K 1) (vals : List K) (hG : G.Valid 4 vals) :
    let p := G.node 0
    let v := fun i => vals.getD i 0
    let n := G.size 0
    ∃ c0 c1 c2 : K, c0 + c1 * p (n - 1) + c2 * p (n - 1) ^ 2 = v (n - 1) ∧
      c0 + c1 * p (n - 2) + c2 * p (n - 2) ^ 2 = v (n - 2) ∧
      c1 + 2 * c2 * p (n - 2) = centeredSlope p v (n - 2) ∧
      ∀ (e : Evaluator) (fma lin : Bool) (x : K), e.Fits 1 → (G.RepresentableCubic fun _ => x) →
        p (n - 2) ≤ x → (lin = true → x ≤ p (n - 1)) →
        multicubicAt e fma G vals lin (fun _ => x) = .ok (c0 + c1 * x + c2 * x ^ 2) := by
  intro p v n
  have hn : 4 ≤ n := hG.big 0
  have hi : Incr n p := hG.incr 0
  obtain ⟨l, hl⟩ : ∃ l, n = l + 2 := ⟨n - 2, by omega⟩
  have e2 : n - 2 = l := by omega
  have e1 : n - 1 = l + 1 := by omega
  rw [e1, e2]
  have hlt : p l < p (l + 1) := hi l (by omega)
  have hd : p (l + 1) - p l ≠ 0 := (sub_pos.2 hlt).ne'
  let s := (v (l + 1) - v l) / (p (l + 1) - p l)
  let m := centeredSlope p v l
  let q2 := (s - m) / (p (l + 1) - p l)
  have hs : s * (p (l + 1) - p l) = v (l + 1) - v l := div_mul_cancel₀ _ hd
  have hq : q2 * (p (l + 1) - p l) = s - m := div_mul_cancel₀ _ hd
  have e0 : ∀ z, (v l - m * p l + q2 * p l ^ 2) + (m - 2 * q2 * p l) * z + q2 * z ^ 2 =
      v l + m * (z - p l) + q2 * (z - p l) ^ 2 := fun z => by ring
  have h0 : v l + m * (p (l + 1) - p l) + q2 * (p (l + 1) - p l) ^ 2 = v (l + 1) := by
    linear_combination (p (l + 1) - p l) * hq + hs
  refine ⟨_, _, q2, (e0 (p (l + 1))).trans h0, (e0 (p l)).trans (by ring), by ring, ?_⟩
  intro e fma lin x he hx hx1 hlin
  have hc : InCell (G.size 0) (G.node 0) x l := ⟨by omega, Or.inr hx1, Or.inl hl.symm⟩
  rw [multicubicAt_one e he fma lin hG x hx hc]
  have h00 : ¬ x < p 0 := not_lt.2 ((hi.le (by omega) (by omega)).trans hx1)
  unfold cubicPiece
  rw [if_neg (fun h => h00 h.2), if_neg (fun h => absurd h.2 (not_lt.2 (by
      show x ≤ p (n - 1); rw [e1]; exact hlin h.1))),
    nodeSlope_last (by omega) hl.symm, nodeSlope_centered (i := l) (by omega) (by omega)]
  congr 1
  have := hermiteCubic_cubic (a := p l) (b := p (l + 1)) hlt (c0 := v l - m * p l + q2 * p l ^ 2)
    (c1 := m - 2 * q2 * p l) (c2 := q2) (c3 := 0) (y0 := v l) (y1 := v (l + 1))
    (m0 := m) (m1 := 2 * s - m) (by rw [zero_mul, add_zero]; exact (e0 (p l)).trans (by ring))
    (by rw [zero_mul, add_zero]; exact (e0 (p (l + 1))).trans h0)
    (by ring) (by linear_combination (2 : K) * hq) x
  rw [zero_mul, add_zero] at this
  exact this

/-- The result of an axis-by-axis evaluation is affine in a parameter on which one of the rules
depends affinely. -/
theorem axisByAxis_affine {N : Nat} {n : Fin N → Nat} (k : Fin N) (op : Fin N → (Nat → K) → K)
    (h : ∀ j, LinearOn (n j) (op j)) (A B : (Nat → K) → K) (hA : LinearOn (n k) A)
    (hB : LinearOn (n k) B) (g : (Fin N → Nat) → K) :
    ∃ a b : K, ∀ (y : K) (op' : Fin N → (Nat → K) → K), (∀ j, j ≠ k → op' j = op j) →
      (∀ f, op' k f = A f + B f * y) → axisByAxis op' g = a + b * y := by
  classical
  let δ : Nat → Nat → K := fun i j => if j = i then 1 else 0
  let W : (Fin N → Nat) → K := fun loc => (∏ j ∈ Finset.univ.erase k, op j (δ (loc j))) * g loc
  refine ⟨∑ loc ∈ Fintype.piFinset fun k => Finset.range (n k), A (δ (loc k)) * W loc,
    ∑ loc ∈ Fintype.piFinset fun k => Finset.range (n k), B (δ (loc k)) * W loc, ?_⟩
  intro y op' hne hk
  have hl : ∀ j, LinearOn (n j) (op' j) := by
    intro j
    by_cases hj : j = k
    · subst hj
      have : op' j = fun f => A f + B f * y := funext hk
      rw [this]
      exact ⟨fun f f' hf => by rw [hA.congr f f' hf, hB.congr f f' hf],
        fun f f' => by rw [hA.add, hB.add]; ring, fun a f => by rw [hA.smul, hB.smul]; ring⟩
    · rw [hne j hj]; exact h j
  rw [axisByAxis_linear op' hl, Finset.sum_mul, ← Finset.sum_add_distrib]
  refine Finset.sum_congr rfl fun loc _ => ?_
  have : ∏ j, op' j (δ (loc j)) =
      (A (δ (loc k)) + B (δ (loc k)) * y) * ∏ j ∈ Finset.univ.erase k, op j (δ (loc j)) := by
    rw [← Finset.mul_prod_erase _ _ (Finset.mem_univ k), hk]
    congr 1
    refine Finset.prod_congr rfl fun j hj => ?_
    rw [hne j (Finset.ne_of_mem_erase hj)]
  show (∏ j, op' j (δ (loc j))) * g loc = _
  rw [this]
  simp only [W]
  ring

/-- C34 in N dimensions: with linearised extrapolation the interpolant is, beyond either end of
axis `k` and with the other coordinates fixed, an affine function of coordinate `k`. -/
theorem C34_affine_outside {N : Nat} (G : Axes K N) (vals : List K) (hG : G.Valid 4 vals)
    (k : Fin N) (x : Fin N → K) (below : Bool) :
    ∃ a b : K, ∀ (e : Evaluator) (fma : Bool) (y : K), e.Fits N →
      G.RepresentableCubic (Function.update x k y) →
      (if below then y < G.node k 0 else G.node k (G.size k - 1) < y) →
      multicubicAt e fma G vals true (Function.update x k y) = .ok (a + b * y) := by
  have hg := samples_valAt (0 : K) _ _ hG.len
  obtain ⟨c, hc⟩ := hG.cells (by omega) x
  have hn := hG.big k
  have hi := hG.incr k
  let i₀ := if below then 0 else G.size k - 1
  have hi₀ : i₀ < G.size k := by simp only [i₀]; split <;> omega
  have hslope : LinearOn (G.size k) fun f => nodeSlope (G.size k) (G.node k) f i₀ :=
    ⟨fun f f' hf => nodeSlope_congr hf hn hi₀, fun f f' => nodeSlope_add f f' _,
      fun a f => nodeSlope_smul a f _⟩
  have hconst : LinearOn (G.size k) fun f =>
      f i₀ - nodeSlope (G.size k) (G.node k) f i₀ * G.node k i₀ :=
    ⟨fun f f' hf => by rw [hf _ hi₀, nodeSlope_congr hf hn hi₀],
      fun f f' => by rw [nodeSlope_add]; ring, fun a f => by rw [nodeSlope_smul]; ring⟩
  obtain ⟨a, b, h⟩ := axisByAxis_affine k
    (fun j f => cubicPiece (G.size j) (G.node j) f true (c j) (x j))
    (fun j => cubicPiece_linear (hG.big j) true (hc j).1) _ _ hconst hslope
    (valAt (0 : K) G.size vals)
  refine ⟨a, b, fun e fma y he hx hy => ?_⟩
  let c' := Function.update c k (if below then 0 else G.size k - 2)
  have hout : G.node k 0 < G.node k (G.size k - 1) := hi.lt (by omega) (by omega)
  have hc' : ∀ j, InCell (G.size j) (G.node j) (Function.update x k y j) (c' j) := by
    intro j
    by_cases hj : j = k
    · subst hj
      simp only [c', Function.update_self]
      cases below with
      | true =>
        simp only [if_true] at hy ⊢
        exact ⟨by omega, Or.inl rfl, Or.inr (hy.le.trans (hi.le (by omega) (by omega)))⟩
      | false =>
        simp only [Bool.false_eq_true, if_false] at hy ⊢
        exact ⟨by omega, Or.inr ((hi.le (by omega) (by omega)).trans hy.le), Or.inl (by omega)⟩
    · simp only [c', Function.update_of_ne hj]; exact hc j
  rw [multicubicAt_eq e he fma G vals true hG _ hg _ hx c' hc']
  congr 1
  refine h y _ (fun j hj => ?_) (fun f => ?_)
  · simp only [c', Function.update_of_ne hj]
  · simp only [c', Function.update_self, i₀]
    cases below with
    | true =>
      simp only [if_true] at hy ⊢
      unfold cubicPiece
      rw [if_pos ⟨rfl, hy⟩]; ring
    | false =>
      simp only [Bool.false_eq_true, if_false] at hy ⊢
      unfold cubicPiece
      rw [if_neg (fun h' => absurd h'.2 (not_lt.2 (hout.trans hy).le)), if_pos ⟨rfl, hy⟩]; ring

end

/-- C34, C35: over the reals the 1-D cubic interpolant is a continuously differentiable function
whose derivative at every interior node is the centered difference; with linearised extrapolation
it is, beyond each end of the grid, the tangent at the end node. -/
theorem C34_C35_derivative (G : Axes ℝ 1) (vals : List ℝ) (lin : Bool) (hG : G.Valid 4 vals) :
    let p := G.node 0
    let v := fun i => vals.getD i 0
    let n := G.size 0
    ∃ F : ℝ → ℝ, ContDiff ℝ 1 F ∧
      (∀ (e : Evaluator) (fma : Bool) (x : ℝ), e.Fits 1 → (G.RepresentableCubic fun _ => x) →
        multicubicAt e fma G vals lin (fun _ => x) = .ok (F x)) ∧
      (∀ i, 1 ≤ i → i + 1 < n → deriv F (p i) = centeredSlope p v i) ∧
      (lin = true → ∀ x, x ≤ p 0 → F x = F (p 0) + deriv F (p 0) * (x - p 0)) ∧
      (lin = true → ∀ x, p (n - 1) ≤ x →
        F x = F (p (n - 1)) + deriv F (p (n - 1)) * (x - p (n - 1))) := by
  intro p v n
  have hn : 4 ≤ n := hG.big 0
  have hi : Incr n p := hG.incr 0
  have hder : ∀ i, i < n → deriv (cubicFn n p v lin) (p i) = nodeSlope n p v i := by
    intro i hlt
    rw [(hasDerivAt_cubicFn (by omega) hi lin (p i)).deriv,
      cubicFn'_eq hi lin (node_inCell hi (by omega) hlt),
      cubicSlope_node hi lin hlt (node_inCell hi (by omega) hlt)]
  have hval : ∀ i, i < n → cubicFn n p v lin (p i) = v i := by
    intro i hlt
    rw [cubicFn_eq hi lin (node_inCell hi (by omega) hlt),
      cubicPiece_node hi v lin hlt (node_inCell hi (by omega) hlt)]
  refine ⟨cubicFn n p v lin, contDiff_cubicFn (by omega) hi lin, ?_, ?_, ?_, ?_⟩
  · intro e fma x he hx
    have hc := someCell_inCell (n := n) (p := p) (by omega) x
    rw [multicubicAt_one e he fma lin hG x hx hc]
    rfl
  · intro i h0 h1
    rw [hder i (by omega), nodeSlope_centered h0 h1]
  · intro hlin x hx
    subst hlin
    have hc : InCell n p x 0 :=
      ⟨by omega, Or.inl rfl, Or.inr (hx.trans (hi.le (by omega) (by omega)))⟩
    rw [hder 0 (by omega), hval 0 (by omega)]
    rcases hx.lt_or_eq with h | h
    · rw [cubicFn_eq hi true hc]; unfold cubicPiece; rw [if_pos ⟨rfl, h⟩]
    · rw [h, hval 0 (by omega)]; ring
  · intro hlin x hx
    subst hlin
    have hc : InCell n p x (n - 2) :=
      ⟨by omega, Or.inr ((hi.le (by omega) (by omega)).trans hx), Or.inl (by omega)⟩
    rw [hder _ (by omega), hval _ (by omega)]
    rcases hx.lt_or_eq with h | h
    · rw [cubicFn_eq hi true hc]; unfold cubicPiece
      rw [if_neg (fun h' => absurd h'.2 (not_lt.2 ((hi.le (by omega) (by omega)).trans hx))),
        if_pos ⟨rfl, h⟩]
    · rw [← h, hval _ (by omega)]; ring

section Examples

/-- A real 5×4 regular grid, as in the hypotheses of C23 and C33. -/
example : ∃ vals : List ℝ, (Axes.regular ![5, 4] ![0, 1] ![1, 2] : Axes ℝ 2).Valid 4 vals := by
  refine ⟨List.replicate 20 1, ⟨by unfold IsSlice; simp, by simp [Axes.size], ?_, ?_⟩⟩
  · intro k; fin_cases k <;> simp [Axes.size]
  · intro k i _; fin_cases k <;> simp [Axes.node]

attribute [local instance] ratOps

/-- Slope of the cubic interpolant of squares on an uneven axis: exact at an interior node. -/
example : centeredSlope (fun i => [0, 1, 3, 4, 6].getD i 0) (fun i => [0, 1, 9, 16, 36].getD i 0) 2 =
    (6 : ℚ) := by decide +kernel

/-- The hypotheses of C34 and C35 on an uneven axis with non-polynomial data; the first cell's
quadratic `11/6 z - 5/6 z²` continues to -1 without linearisation, the tangent with it. -/
example :
    let G : Axes ℚ 1 := .rectilinear fun _ => [0, 1, 3, 4, 6]
    let vals : List ℚ := [0, 1, -2, 5, 3]
    G.Valid 4 vals ∧ (1 + 2 < G.size 0) ∧ (G.RepresentableCubic fun _ => -1) ∧
      centeredSlope (G.node 0) (fun i => vals.getD i 0) 1 = 1/6 ∧
      multicubicAt .flat false G vals true (fun _ => 1/2) =
        .ok (11/6 * (1/2) - 5/6 * (1/2) ^ 2) ∧
      multicubicAt .flat false G vals false (fun _ => -1) = .ok (11/6 * (-1) - 5/6 * (-1) ^ 2) ∧
      multicubicAt .flat false G vals true (fun _ => -1) = .ok (11/6 * (-1)) := by
  intro G vals
  refine ⟨valid_of_check ?_, ?_⟩ <;> decide +kernel

end Examples

end Interpn
